import Verif.Lemmas.StitchHistory
import Mathlib.Tactic.IntervalCases
import Mathlib.Data.Rat.Defs

/-! C39: `Stitch` over all histories of `push_back`. -/

namespace GF
open Finset
variable {α : Type}
namespace Stitch

/-- **C39.** A history of `push_back` terminates normally if and only if no pushed node is close to two nodes of the
mesh combined so far (the code assumes this without checking it). -/
theorem C39_ok_iff (close : α → α → Bool) {nd nne : Nat} {m : Nat → MeshData α} {co : Nat → Ten α} {cn : Nat → Ten Nat}
    (K : Nat) (h : ∀ i, i < K → (m i).Held nd nne (co i) (cn i)) :
    (∃ S, history close co cn K = .ok S) ↔
      ∀ j, 0 < j → j < K → ∀ S N X, history close co cn j = .ok S → Is2 S.coor N nd X →
        Unambiguous close nd N X (m j).nn (m j).x := by
  constructor
  · rintro ⟨S, hS⟩
    exact history_of_ok close K h hS
  · intro hU
    rcases Nat.eq_zero_or_pos K with rfl | hK
    · exact ⟨_, rfl⟩
    · obtain ⟨S, _, _, _, _, e, -⟩ := history_ok close K hK h hU
      exact ⟨S, e⟩

/-- **C39.** After any history of `push_back` that terminates normally the object holds a combined mesh: valid node and
element maps, unchanged positions (up to the tolerance for merged nodes), unchanged connectivity up to renumbering. -/
theorem C39_combined (close : α → α → Bool) {nd nne : Nat} {m : Nat → MeshData α} {co : Nat → Ten α}
    {cn : Nat → Ten Nat} (K : Nat) (hK : 0 < K) (h : ∀ i, i < K → (m i).Held nd nne (co i) (cn i)) {S : Stitch α}
    (hS : history close co cn K = .ok S) :
    S.nmesh = K ∧ ∃ N X CC P, Is2 S.coor N nd X ∧ Is2 S.conn (elemOffset m K) nne CC ∧
      (∀ i, i < K → IsOk (S.nodemap i) fun t => Is1 t (m i).nn (P i)) ∧
      (∀ i, i < K → IsOk (S.elemmap i) fun t => Is1 t (m i).ne fun e => elemOffset m i + e) ∧
      Combined close nd nne K m N X CC P := by
  obtain ⟨S', N, X, CC, P, e, hR, hC⟩ := history_ok close K hK h (history_of_ok close K h hS)
  rw [hS] at e
  obtain rfl : S = S' := Res.ok.inj e
  refine ⟨hR.len, N, X, CC, P, hR.coor, hR.conn, fun i hi => ?_, fun i hi => ?_, hC⟩
  · obtain ⟨t, t1, t2⟩ := hR.map i hi
    exact ⟨t, by rw [nodemap, lget, t1], t2⟩
  · refine ⟨ManualStitch.arangeFrom (m i).ne (elemOffset m i), ?_, rfl, fun e he => ?_⟩
    · rw [elemmap, hR.nel, hR.off, lget_ok (by simpa using hi), Res.ok_bind, lget_ok (by simpa using hi)]
      simp
    · simp [ManualStitch.arangeFrom, Ten.of, Nat.add_comm]

/-- **C39.** The element numbers of the sub-meshes partition the elements of the combined mesh. -/
theorem C39_elements_partition (m : Nat → MeshData α) (K r : Nat) (hr : r < elemOffset m K) :
    ∃ i e, i < K ∧ e < (m i).ne ∧ elemOffset m i + e = r ∧
      ∀ i' e', i' < K → e' < (m i').ne → elemOffset m i' + e' = r → i' = i ∧ e' = e := by
  have hex : ∃ i e, i < K ∧ e < (m i).ne ∧ elemOffset m i + e = r := by
    induction K with
    | zero => simp [elemOffset] at hr
    | succ K ih =>
      by_cases h : r < elemOffset m K
      · obtain ⟨i, e, a, b⟩ := ih h
        exact ⟨i, e, by omega, b⟩
      · rw [elemOffset_succ] at hr
        exact ⟨K, r - elemOffset m K, by omega, by omega, by omega⟩
  obtain ⟨i, e, h1, h2, h3⟩ := hex
  refine ⟨i, e, h1, h2, h3, fun i' e' h1' h2' h3' => ?_⟩
  rcases Nat.lt_trichotomy i' i with h | h | h
  · have := elemOffset_lt m h h2'
    omega
  · subst h
    exact ⟨rfl, by omega⟩
  · have := elemOffset_lt m h h2
    omega

/-- **C39.** `nodeset` gives the image of a set (of any rank) of nodes of one sub-mesh under its node map. -/
theorem C39_nodeset {S : Stitch α} {i nn : Nat} {t : Ten Nat} {P : Nat → Nat} (ht : S.nodemap i = .ok t) (hP : Is1 t nn P)
    {set : Ten Nat} {f : List Nat → Nat} (hf : Full set f) (hlt : ∀ ix, inb set.shape ix = true → f ix < nn) :
    IsOk (S.nodeset set i) fun r => r.shape = set.shape ∧ Full r fun ix => P (f ix) := by
  rw [nodemap] at ht
  obtain ⟨r, r1, r2, r3⟩ := renum_spec (arg := set) (mapping := t) hf (g := P) fun ix hix => hP.get (hlt ix hix)
  refine ⟨r, by rw [nodeset, ht]; exact r1, r2, fun ix hix => r3 ix (by rw [← r2]; exact hix)⟩

theorem shift_ok {set : Ten Nat} {f : List Nat → Nat} (hf : Full set f) (o : Nat) :
    ∃ r, ManualStitch.shift set o = .ok r ∧ r.shape = set.shape ∧ Full r fun ix => o + f ix := by
  obtain ⟨r, h1, h2, h3, -⟩ := forEach_set (indices set.shape) (fun (r : Ten Nat) ix => do
    let a ← set.get ix
    r.set ix (a + o)) (fun ix => ix) (fun ix => f ix + o) (Ten.empty set.shape)
    (fun ix hix => mem_indices.1 hix) (by
      intro ix hix s _
      rw [get_of_v (mem_indices.1 hix) (hf ix (mem_indices.1 hix))]; rfl)
  refine ⟨r, h1, h2, fun ix hix => ?_⟩
  have hix' : inb set.shape ix = true := by rw [h2] at hix; exact hix
  obtain ⟨jx, a, b, c⟩ := h3 ix ⟨ix, mem_indices.2 hix', rfl⟩
  rw [c, b, Nat.add_comm]

/-- **C39.** `elemset` shifts a set of elements of a sub-mesh by the number of elements of the preceding sub-meshes. -/
theorem C39_elemset (close : α → α → Bool) {nd nne : Nat} {m : Nat → MeshData α} {co : Nat → Ten α}
    {cn : Nat → Ten Nat} (K : Nat) (hK : 0 < K) (h : ∀ i, i < K → (m i).Held nd nne (co i) (cn i)) {S : Stitch α}
    (hS : history close co cn K = .ok S) {i : Nat} (hi : i < K) {set : Ten Nat} {f : List Nat → Nat}
    (hf : Full set f) :
    IsOk (S.elemset set i) fun r => r.shape = set.shape ∧ Full r fun ix => elemOffset m i + f ix := by
  obtain ⟨S', N, X, CC, P, e, hR, -⟩ := history_ok close K hK h (history_of_ok close K h hS)
  rw [hS] at e
  obtain rfl : S = S' := Res.ok.inj e
  obtain ⟨r, r1, r2⟩ := shift_ok hf (elemOffset m i)
  refine ⟨r, ?_, r2⟩
  rw [elemset, hR.off, lget_ok (by simpa using hi), Res.ok_bind]
  simpa using r1

/-- **C39.** `nodeset` of one set per sub-mesh: the ascending list, without repetition, of exactly the images. -/
theorem C39_nodesets {S : Stitch α} {nn : Nat → Nat} {t : Nat → Ten Nat} {P : Nat → Nat → Nat} (sets : List (Ten Nat))
    (ht : ∀ i, i < sets.length → S.nodemap i = .ok (t i)) (hP : ∀ i, i < sets.length → Is1 (t i) (nn i) (P i))
    {f : Nat → List Nat → Nat} (hf : ∀ i s, sets[i]? = some s → Full s (f i) ∧
      ∀ ix, inb s.shape ix = true → f i ix < nn i) :
    IsOk (S.nodesets sets) fun l => l.Pairwise (· < ·) ∧
      ∀ r, r ∈ l ↔ ∃ i s ix, sets[i]? = some s ∧ inb s.shape ix = true ∧ r = P i (f i ix) := by
  have hlen : ∀ i s, sets[i]? = some s → i < sets.length := fun i s h => (List.getElem?_eq_some_iff.1 h).1
  have hg := gatherSets_ok S.nodeset sets (fun i ix => P i (f i ix)) (by
    intro i s hs
    obtain ⟨r, a, b, c⟩ := C39_nodeset (ht i (hlen i s hs)) (hP i (hlen i s hs)) (hf i s hs).1 (hf i s hs).2
    exact ⟨r, a, b, c⟩)
  refine ⟨_, by rw [nodesets, hg, Res.ok_bind], unique_sorted _, fun r => ?_⟩
  rw [mem_unique, List.mem_flatMap]
  constructor
  · rintro ⟨i, hi, hr⟩
    rw [List.mem_range] at hi
    rw [List.mem_map] at hr
    obtain ⟨ix, h1, h2⟩ := hr
    rw [getD_lt hi, mem_indices] at h1
    exact ⟨i, sets[i], ix, List.getElem?_eq_getElem hi, h1, h2.symm⟩
  · rintro ⟨i, s, ix, h1, h2, rfl⟩
    have hi := hlen i s h1
    refine ⟨i, List.mem_range.2 hi, List.mem_map.2 ⟨ix, ?_, rfl⟩⟩
    have : sets[i] = s := (List.getElem?_eq_some_iff.1 h1).2
    rw [getD_lt hi, mem_indices, this]; exact h2

/-- **C39.** `elemset` of one set per sub-mesh: the concatenation of the shifted sets. -/
theorem C39_elemsets (close : α → α → Bool) {nd nne : Nat} {m : Nat → MeshData α} {co : Nat → Ten α}
    {cn : Nat → Ten Nat} (K : Nat) (hK : 0 < K) (h : ∀ i, i < K → (m i).Held nd nne (co i) (cn i)) {S : Stitch α}
    (hS : history close co cn K = .ok S) (sets : List (Ten Nat)) (hl : sets.length ≤ K)
    {f : Nat → List Nat → Nat} (hf : ∀ i s, sets[i]? = some s → Full s (f i)) :
    S.elemsets sets = .ok ((List.range sets.length).flatMap fun i =>
      (indices ((sets.getD i (Ten.empty [])).shape)).map fun ix => elemOffset m i + f i ix) := by
  refine gatherSets_ok S.elemset sets (fun i ix => elemOffset m i + f i ix) ?_
  intro i s hs
  have hi : i < sets.length := (List.getElem?_eq_some_iff.1 hs).1
  obtain ⟨r, a, b, c⟩ := C39_elemset close K hK h hS (i := i) (by omega) (hf i s hs)
  exact ⟨r, a, b, c⟩

/-- two nodes of a combined mesh at exactly the same position are the same node, if this holds for the sub-meshes -/
theorem distinct {close : α → α → Bool} (hrefl : ∀ a, close a a = true) {nd nne K : Nat} {m : Nat → MeshData α}
    {N X CC P} (hC : Combined close nd nne K m N X CC P)
    (hd : ∀ i, i < K → ∀ n n', n < (m i).nn → n' < (m i).nn → PtEq nd ((m i).x n) ((m i).x n') → n = n')
    {r r' : Nat} (hr : r < N) (hr' : r' < N) (h : PtEq nd (X r) (X r')) : r = r' := by
  obtain ⟨i, n, a1, a2, rfl, a4⟩ := hC.surj r hr
  obtain ⟨j, p, b1, b2, rfl, b4⟩ := hC.surj r' hr'
  rcases Nat.lt_trichotomy i j with hij | hij | hij
  · refine ((hC.merged i j n p hij b1 a2 b2).1 fun k hk => ?_).symm
    rw [← b4 k hk, h k hk]; exact hrefl _
  · subst hij
    rw [hd i a1 n p a2 b2 fun k hk => by rw [← a4 k hk, ← b4 k hk]; exact h k hk]
  · refine (hC.merged j i p n hij a1 b2 a2).1 fun k hk => ?_
    rw [← a4 k hk, h k hk]; exact hrefl _

/-- **C39.** A sufficient condition in terms of the input only: if the nodes of each mesh are distinct, and a node is
never close to two different positions of nodes of earlier meshes, then every history terminates normally. -/
theorem C39_separated (close : α → α → Bool) (hrefl : ∀ a, close a a = true) {nd nne : Nat} {m : Nat → MeshData α}
    {co : Nat → Ten α} {cn : Nat → Ten Nat} (K : Nat) (h : ∀ i, i < K → (m i).Held nd nne (co i) (cn i))
    (hd : ∀ i, i < K → ∀ n n', n < (m i).nn → n' < (m i).nn → PtEq nd ((m i).x n) ((m i).x n') → n = n')
    (hsep : ∀ i i' j n n' p, i < j → i' < j → j < K → n < (m i).nn → n' < (m i').nn → p < (m j).nn →
      PtClose close nd ((m j).x p) ((m i).x n) → PtClose close nd ((m j).x p) ((m i').x n') →
      PtEq nd ((m i).x n) ((m i').x n')) :
    ∃ S, history close co cn K = .ok S := by
  rw [C39_ok_iff close K h]
  intro j h0 hj
  induction j using Nat.strong_induction_on with
  | _ j ih =>
    intro S N X e hX p hp r r' hr hr' c1 c2
    have hU : ∃ S, history close co cn j = .ok S :=
      ⟨S, e⟩
    obtain ⟨-, N', X', CC, P, g1, -, -, -, hC⟩ := C39_combined close j h0 (fun i hi => h i (by omega)) e
    have hN : N = N' := by simpa using hX.1.symm.trans g1.1
    subst hN
    have hx : ∀ r, r < N → ∀ k, k < nd → X r k = X' r k := fun r hr k hk =>
      Option.some.inj ((hX.2 r k hr hk).symm.trans (g1.2 r k hr hk))
    obtain ⟨i, n, a1, a2, rfl, a4⟩ := hC.surj r hr
    obtain ⟨i', n', b1, b2, rfl, b4⟩ := hC.surj r' hr'
    refine distinct hrefl hC (fun i hi => hd i (by omega)) hr hr' fun k hk => ?_
    rw [a4 k hk, b4 k hk]
    refine hsep i i' j n n' p a1 b1 hj a2 b2 hp (fun k hk => ?_) (fun k hk => ?_) k hk
    · rw [← a4 k hk, ← hx _ hr k hk]; exact c1 k hk
    · rw [← b4 k hk, ← hx _ hr' k hk]; exact c2 k hk

/-- **C39.** With zero tolerance (nodes overlap exactly) and distinct nodes in each mesh, every history terminates
normally, no node moves, and two nodes are merged if and only if they are at the same position. -/
theorem C39_exact [DecidableEq α] {nd nne : Nat} {m : Nat → MeshData α} {co : Nat → Ten α} {cn : Nat → Ten Nat} (K : Nat)
    (hK : 0 < K) (h : ∀ i, i < K → (m i).Held nd nne (co i) (cn i))
    (hd : ∀ i, i < K → ∀ n n', n < (m i).nn → n' < (m i).nn → PtEq nd ((m i).x n) ((m i).x n') → n = n') :
    IsOk (history (fun a b => decide (a = b)) co cn K) fun S => ∃ (N : Nat) (X : Nat → Nat → α)
      (CC : Nat → Nat → Nat) (P : Nat → Nat → Nat), Is2 S.coor N nd X ∧ Is2 S.conn (elemOffset m K) nne CC ∧ (∀ i, i < K → IsOk (S.nodemap i) fun t => Is1 t (m i).nn (P i)) ∧
      (∀ i n, i < K → n < (m i).nn → P i n < N ∧ PtEq nd (X (P i n)) ((m i).x n)) ∧
      (∀ r, r < N → ∃ i n, i < K ∧ n < (m i).nn ∧ P i n = r) ∧
      (∀ i j n p, i < K → j < K → n < (m i).nn → p < (m j).nn →
        (P i n = P j p ↔ PtEq nd ((m i).x n) ((m j).x p))) ∧
      (∀ i e k, i < K → e < (m i).ne → k < nne → CC (elemOffset m i + e) k = P i ((m i).C e k)) := by
  obtain ⟨S, hS⟩ := C39_separated (fun a b => decide (a = b)) (by simp) K h hd (by
    intro i i' j n n' p _ _ _ _ _ _ c1 c2 k hk
    exact (of_decide_eq_true (c1 k hk)).symm.trans (of_decide_eq_true (c2 k hk)))
  obtain ⟨-, N, X, CC, P, g1, g2, g3, -, hC⟩ := C39_combined _ K hK h hS
  have hpos : ∀ i n, i < K → n < (m i).nn → PtEq nd (X (P i n)) ((m i).x n) := by
    intro i n hi hn
    rcases hC.pos i n hi hn with a | a
    · exact a
    · exact fun k hk => (of_decide_eq_true (a k hk)).symm
  refine ⟨S, hS, N, X, CC, P, g1, g2, g3, fun i n hi hn => ⟨hC.node_lt i n hi hn, hpos i n hi hn⟩, ?_, ?_, hC.conn⟩
  · intro r hr
    obtain ⟨i, n, a, b, c, -⟩ := hC.surj r hr
    exact ⟨i, n, a, b, c⟩
  · intro i j n p hi hj hn hp
    constructor
    · intro e k hk
      rw [← hpos i n hi hn k hk, e, hpos j p hj hp k hk]
    · intro e
      refine distinct (by simp) hC hd (hC.node_lt i n hi hn) (hC.node_lt j p hj hp) fun k hk => ?_
      rw [hpos i n hi hn k hk, hpos j p hj hp k hk]; exact e k hk

/-! ### concrete instances -/

/-- unit square at `(o, 0)`, one quadrilateral, nodes row by row -/
def exMesh (i : Nat) : MeshData Int :=
  ⟨4, 1, fun n k => if k = 0 then (i : Int) + (n % 2 : Nat) else ((n / 2 : Nat) : Int), fun _ k => [0, 1, 3, 2].getD k 0⟩

def exCo (i : Nat) : Ten Int := Ten.of [4, 2] fun ix => (exMesh i).x (ix.getD 0 0) (ix.getD 1 0)
def exCn (_ : Nat) : Ten Nat := Ten.of [1, 4] fun ix => (exMesh 0).C (ix.getD 0 0) (ix.getD 1 0)

/-- a row of unit squares meets the hypotheses of `C39_exact` (and thereby those of the other statements) -/
theorem exHeld (i : Nat) : (exMesh i).Held 2 4 (exCo i) (exCn i) :=
  ⟨is2_of 4 2 _, is2_of 1 4 _, fun e k he hk => by
    have he' : e = 0 := Nat.lt_one_iff.1 he
    subst he'
    show [0, 1, 3, 2].getD k 0 < 4
    have hk' : k < 4 := hk
    interval_cases k <;> decide⟩

example (K : Nat) (hK : 0 < K) : ∃ S, history (fun a b => decide (a = b)) exCo exCn K = .ok S := by
  obtain ⟨S, h, -⟩ := C39_exact K hK (fun i _ => exHeld i) (by
    intro i _ n n' hn hn' h
    have h0 := h 0 (by omega)
    have h1 := h 1 (by omega)
    simp only [exMesh] at hn hn' h0 h1
    simp at h0 h1
    omega)
  exact ⟨S, h⟩

/-- three squares in a row: 8 nodes remain, and the last element is `4 6 7 5` -/
example : (match history (fun a b : Int => decide (a = b)) exCo exCn 3 with
    | .ok S => (S.coor.shape, (List.range 4).map fun k => S.conn.v [2, k])
    | _ => ([], [])) = ([8, 2], [some 4, some 6, some 7, some 5]) := by decide +kernel

/-- with a tolerance as large as the mesh the second push is ambiguous: no normal termination -/
example : (match history (fun a b : Int => decide (|a - b| ≤ 1)) exCo exCn 2 with
    | .ub => true
    | _ => false) = true := by decide +kernel

end Stitch
end GF
