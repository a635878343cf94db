import Verif.Props.Stitch

/-! C57: `overlapping` and `ManualStitch`. -/

namespace GF
open Finset
variable {α : Type}

theorem it2_sorted (n m : Nat) : (it2 n m).Pairwise fun p q => p.1 < q.1 ∨ p.1 = q.1 ∧ p.2 < q.2 := by
  rw [it2, List.pairwise_flatMap]
  refine ⟨fun i _ => ?_, ?_⟩
  · rw [List.pairwise_map]
    exact (range_pairwise m).imp fun h => Or.inr ⟨rfl, h⟩
  · refine (range_pairwise n).imp fun {i j} h p hp q hq => ?_
    rw [List.mem_map] at hp hq
    obtain ⟨a, -, rfl⟩ := hp
    obtain ⟨b, -, rfl⟩ := hq
    exact Or.inl h

theorem zip_map_fst_snd {β γ : Type} (L : List (β × γ)) : (L.map Prod.fst).zip (L.map Prod.snd) = L := by
  induction L with
  | nil => rfl
  | cons a L ih => simp [ih]

/-- **C57.** `overlapping` lists exactly the pairs of close nodes, each once, ordered by the first node, then the second. -/
theorem C57_overlapping (close : α → α → Bool) {x y : Ten α} {na nb nd : Nat} {xa xb} (hx : Is2 x na nd xa)
    (hy : Is2 y nb nd xb) :
    IsOk (overlapping close x y) fun r => r.1.length = r.2.length ∧
      (r.1.zip r.2).Pairwise (fun p q => p.1 < q.1 ∨ p.1 = q.1 ∧ p.2 < q.2) ∧
      ∀ i j, (i, j) ∈ r.1.zip r.2 ↔ i < na ∧ j < nb ∧ PtClose close nd (xb j) (xa i) := by
  obtain ⟨la, lb, L, o1, rfl, rfl, o4, o5⟩ := overlapping_ok close hx hy
  refine ⟨_, o1, by simp, ?_, ?_⟩
  · dsimp only
    rw [zip_map_fst_snd]
    exact (it2_sorted na nb).sublist o4
  · dsimp only
    rw [zip_map_fst_snd]
    exact o5

namespace ManualStitch

/-- What the result of stitching `a` and `b` along the pairs `ov` (node of `a`, node of `b`) has to satisfy. -/
structure Joined (nd nne : Nat) (a b : MeshData α) (ov : List (Nat × Nat)) (S : ManualStitch α) (N : Nat)
    (X : Nat → Nat → α) (CC : Nat → Nat → Nat) (P : Nat → Nat) : Prop where
  coor : Is2 S.coor N nd X
  conn : Is2 S.conn (a.ne + b.ne) nne CC
  nodemap0 : Is1 (S.nodemap 0) a.nn fun n => n
  nodemap1 : Is1 (S.nodemap 1) b.nn P
  elemmap0 : Is1 (S.elemmap 0) a.ne fun e => e
  elemmap1 : Is1 (S.elemmap 1) b.ne fun e => a.ne + e
  /-- number of nodes -/
  count : N + ov.length = a.nn + b.nn
  /-- nodes of `a` do not move -/
  pos_a : ∀ n, n < a.nn → X n = a.x n
  /-- nodes of `b` that are not in the list do not move, are new, and stay in the same order -/
  pos_b : ∀ p, p < b.nn → (∀ n, (n, p) ∉ ov) → a.nn ≤ P p ∧ P p < N ∧ X (P p) = b.x p
  order : ∀ p p', p < p' → p' < b.nn → (∀ n, (n, p) ∉ ov) → (∀ n, (n, p') ∉ ov) → P p < P p'
  /-- listed nodes of `b` become the listed node of `a` -/
  glued : ∀ n p, (n, p) ∈ ov → P p = n
  /-- elements -/
  conn_a : ∀ e k, e < a.ne → k < nne → CC e k = a.C e k
  conn_b : ∀ e k, e < b.ne → k < nne → CC (a.ne + e) k = P (b.C e k)
  /-- no superfluous nodes -/
  surj : ∀ r, a.nn ≤ r → r < N → ∃ p, p < b.nn ∧ (∀ n, (n, p) ∉ ov) ∧ P p = r

theorem zip_fst {β γ : Type} {l : List β} {l' : List γ} (h : l.length = l'.length) : (l.zip l').map Prod.fst = l :=
  List.map_fst_zip (by omega)
theorem zip_snd {β γ : Type} {l : List β} {l' : List γ} (h : l.length = l'.length) : (l.zip l').map Prod.snd = l' :=
  List.map_snd_zip (by omega)

theorem joined_ok (close : α → α → Bool) {ca cb : Ten α} {na nb : Ten Nat} {a b : MeshData α} {nd nne : Nat}
    (ha : a.Held nd nne ca na) (hb : b.Held nd nne cb nb) {ov_a ov_b : List Nat} (hlen : ov_a.length = ov_b.length)
    (hn : ov_b.Nodup) (hlt : ∀ p ∈ ov_b, p < b.nn) {chk : Bool}
    (hc : chk = true → check close ca cb nd ov_a ov_b = .ok ()) :
    IsOk (new close ca na ov_a cb nb ov_b chk) fun S => ∃ N X CC P, Joined nd nne a b (ov_a.zip ov_b) S N X CC P := by
  obtain ⟨hR, -⟩ := Stitch.first_ok close (m := fun i => if i = 0 then a else b) (nd := nd) (nne := nne) (co := ca) (cn := na) ha
  have h1 : elemOffset (fun i => if i = 0 then a else b) 1 = a.ne := by simp [elemOffset]
  obtain ⟨st, S', N', X', CC', Q, s1, s2, s3, s4, s5, s6, s7, s8, s9, s10, s11⟩ := Stitch.glue_ok close Nat.one_pos hR
    (co := cb) (cn := nb) hb (by rw [h1]; exact ha.2.2) (L := ov_a.zip ov_b) (by rw [zip_snd hlen]; exact hn)
    (fun p hp => hlt _ (List.of_mem_zip hp).2) (chk := chk) (by rw [zip_fst hlen, zip_snd hlen]; exact hc)
  rw [zip_fst hlen, zip_snd hlen] at s1
  simp only [Nat.one_ne_zero, if_false, if_true] at s2 s5 s6 s7 s8 s9 s10 s11
  rw [h1] at s7
  have hst : st.coor = S'.coor ∧ st.conn = S'.conn := by
    simp only [Stitch.append, Stitch.first, List.length_singleton, Nat.sub_self, lget] at s3
    simp only [List.getElem?_cons_zero, Res.ok_bind, Res.ok.injEq] at s3
    rw [← s3]
    exact ⟨rfl, rfl⟩
  obtain ⟨S2, t1, t2, t3, t4, -⟩ := new_ok close ha hb hlen hn hlt hc
  change new close ca na ov_a cb nb ov_b chk = .ok st at s1
  rw [s1] at t1
  obtain rfl : st = S2 := Res.ok.inj t1
  refine ⟨st, s1, N', X', CC', Q, ⟨by rw [hst.1]; exact s4.coor, ?_, ?_, s2, ?_, ?_, s11, s6, ?_, s9, ?_, ?_, ?_, ?_⟩⟩
  · have := s4.conn
    rw [elemOffset_succ, h1] at this
    rw [hst.2]; exact this
  · refine ⟨by simp [nodemap, arangeFrom, Ten.of, t2], fun n _ => by simp [nodemap, arangeFrom, Ten.of]⟩
  · refine ⟨by simp [elemmap, arangeFrom, Ten.of, t3], fun n _ => by simp [elemmap, arangeFrom, Ten.of]⟩
  · refine ⟨by simp [elemmap, arangeFrom, Ten.of, t4], fun n _ => by simp [elemmap, arangeFrom, Ten.of, t3, Nat.add_comm]⟩
  · intro p hp hno
    rcases s8 p hp with ⟨n, hn, -⟩ | ⟨-, h⟩
    · exact absurd hn (hno n)
    · exact h
  · intro n p hnp
    have hp := hlt p (List.of_mem_zip hnp).2
    rcases s8 p hp with ⟨n', hn', h⟩ | ⟨h, -⟩
    · have := List.inj_on_of_nodup_map (f := Prod.snd) (by rw [zip_snd hlen]; exact hn) hnp hn' rfl
      rw [h]; exact (congrArg Prod.fst this).symm
    · exact absurd hnp (h n)
  · intro e k he _
    rw [s7, if_pos he]
  · intro e k he _
    rw [s7, if_neg (by omega), Nat.add_sub_cancel_left]
  · intro r hr hr'
    obtain ⟨p, h1, h2, h3, -⟩ := s10 r hr hr'
    exact ⟨p, h1, h2, h3⟩

/-- **C57.** Without position check, stitching along any two equally long lists, the second without repetitions. -/
theorem C57_stitch (close : α → α → Bool) {ca cb : Ten α} {na nb : Ten Nat} {a b : MeshData α} {nd nne : Nat}
    (ha : a.Held nd nne ca na) (hb : b.Held nd nne cb nb) {ov_a ov_b : List Nat} (hlen : ov_a.length = ov_b.length)
    (hn : ov_b.Nodup) (hlt : ∀ p ∈ ov_b, p < b.nn) :
    IsOk (new close ca na ov_a cb nb ov_b false) fun S => ∃ N X CC P, Joined nd nne a b (ov_a.zip ov_b) S N X CC P :=
  joined_ok close ha hb hlen hn hlt (by simp)

/-- **C57.** With position check: the same mesh if all listed pairs are close, and an exception otherwise. -/
theorem C57_checked (close : α → α → Bool) {ca cb : Ten α} {na nb : Ten Nat} {a b : MeshData α} {nd nne : Nat}
    (ha : a.Held nd nne ca na) (hb : b.Held nd nne cb nb) {ov_a ov_b : List Nat} (hlen : ov_a.length = ov_b.length)
    (hn : ov_b.Nodup) (hla : ∀ p ∈ ov_a, p < a.nn) (hlt : ∀ p ∈ ov_b, p < b.nn) :
    ((∀ p ∈ ov_a.zip ov_b, PtClose close nd (a.x p.1) (b.x p.2)) →
      IsOk (new close ca na ov_a cb nb ov_b true) fun S => ∃ N X CC P, Joined nd nne a b (ov_a.zip ov_b) S N X CC P ∧
        ∀ p, p < b.nn → PtEq nd (X (P p)) (b.x p) ∨ PtClose close nd (X (P p)) (b.x p)) ∧
    ((∃ p ∈ ov_a.zip ov_b, ¬ PtClose close nd (a.x p.1) (b.x p.2)) →
      new close ca na ov_a cb nb ov_b true = .throws) := by
  obtain ⟨c, c1, c2⟩ := check_ok close ha.1 hb.1 hla hlt
  constructor
  · intro hc
    rw [if_pos (c2.2 hc)] at c1
    obtain ⟨S, e, N, X, CC, P, hJ⟩ := joined_ok close ha hb hlen hn hlt (chk := true) fun _ => c1
    refine ⟨S, e, N, X, CC, P, hJ, fun p hp => ?_⟩
    by_cases hin : ∃ n, (n, p) ∈ ov_a.zip ov_b
    · obtain ⟨n, hnp⟩ := hin
      right
      rw [hJ.glued n p hnp, hJ.pos_a n (hla n (List.of_mem_zip hnp).1)]
      exact hc _ hnp
    · push Not at hin
      left
      rw [(hJ.pos_b p hp hin).2.2]
      exact fun _ _ => rfl
  · rintro ⟨p, hp, hnc⟩
    have hcf : ¬ c = true := fun h => hnc (c2.1 h p hp)
    rw [if_neg hcf] at c1
    simp only [new, ha.1.1, ha.2.1.1, hb.1.1, hb.2.1.1]
    rw [if_pos ⟨hlen, trivial, trivial⟩, positions, if_pos rfl, c1, Res.throws_bind]

/-- **C57.** A repeated node in the second list is not detected: the constructor has no normal outcome (the number of
nodes it allocates is wrong). -/
theorem C57_repeated (close : α → α → Bool) {ca cb : Ten α} {na nb : Ten Nat} {a b : MeshData α} {nd nne : Nat}
    (ha : a.Held nd nne ca na) (hb : b.Held nd nne cb nb) {ov_a ov_b : List Nat} (hn : ¬ ov_b.Nodup)
    (hlt : ∀ p ∈ ov_b, p < b.nn) (chk : Bool) (S : ManualStitch α) : new close ca na ov_a cb nb ov_b chk ≠ .ok S := by
  intro hS
  have hk := keep_length_dup hn hlt
  simp only [new, ha.1.1, ha.2.1.1, hb.1.1, hb.2.1.1] at hS
  by_cases hlen : ov_a.length = ov_b.length
  · rw [if_pos ⟨hlen, trivial, trivial⟩, mkCoor, hlen, if_neg hk] at hS
    revert hS
    cases positions close ca cb nd ov_a ov_b chk with
    | ok u =>
      cases mapB a.nn b.nn ov_a ov_b (setdiff1d (List.range b.nn) ov_b) with
      | ok mp => cases hc : mkConn na nb mp a.ne b.ne nne <;> simp [hc]
      | throws => simp
      | ub => simp
    | throws => simp
    | ub => simp
  · rw [if_neg (by simp [hlen])] at hS
    cases hS

/-- **C57.** `nodeset` and `elemset` give the image of a set (of any rank) of the nodes or elements of one of the meshes. -/
theorem C57_sets {a b : MeshData α} {nd nne : Nat} {ov : List (Nat × Nat)} {S : ManualStitch α} {N X CC P}
    (hJ : Joined nd nne a b ov S N X CC P) {set : Ten Nat} {f : List Nat → Nat} (hf : Full set f) :
    (S.nodeset set 0 = .ok set ∧ S.elemset set 0 = .ok set) ∧
    ((∀ ix, inb set.shape ix = true → f ix < b.nn) →
      IsOk (S.nodeset set 1) fun r => r.shape = set.shape ∧ Full r fun ix => P (f ix)) ∧
    (IsOk (S.elemset set 1) fun r => r.shape = set.shape ∧ Full r fun ix => a.ne + f ix) := by
  refine ⟨⟨rfl, rfl⟩, fun hlt => ?_, ?_⟩
  · obtain ⟨r, r1, r2, r3⟩ := renum_spec (arg := set) (mapping := S.map_b) hf (g := P) fun ix hix =>
      hJ.nodemap1.get (hlt ix hix)
    exact ⟨r, r1, r2, fun ix hix => r3 ix (by rw [← r2]; exact hix)⟩
  · obtain ⟨r, r1, r2⟩ := Stitch.shift_ok hf a.ne
    refine ⟨r, ?_, r2⟩
    have h0 : S.nel_a = a.ne := by simpa [elemmap, arangeFrom, Ten.of] using hJ.elemmap0.1
    rw [elemset, if_neg (by omega), h0]; exact r1

/-- two unit squares glued along one side, with position check -/
example : ∃ S, new (fun a b : Int => decide (a = b)) (Stitch.exCo 0) (Stitch.exCn 0) [1, 3] (Stitch.exCo 1)
    (Stitch.exCn 1) [0, 2] true = .ok S := by
  obtain ⟨S, e, -⟩ := (C57_checked (fun a b : Int => decide (a = b)) (Stitch.exHeld 0) (Stitch.exHeld 1)
    (ov_a := [1, 3]) (ov_b := [0, 2]) rfl (by decide) (by decide) (by decide)).1 (by
      intro p hp k hk
      have : p = (1, 0) ∨ p = (3, 2) := by simpa using hp
      rcases this with rfl | rfl <;> interval_cases k <;> decide)
  exact ⟨S, e⟩

/-- and along nodes at different positions -/
example : new (fun a b : Int => decide (a = b)) (Stitch.exCo 0) (Stitch.exCn 0) [1, 3] (Stitch.exCo 1)
    (Stitch.exCn 1) [0, 3] true = .throws :=
  (C57_checked (fun a b : Int => decide (a = b)) (Stitch.exHeld 0) (Stitch.exHeld 1)
    (ov_a := [1, 3]) (ov_b := [0, 3]) rfl (by decide) (by decide) (by decide)).2
    ⟨(3, 3), by decide, fun h => by have := h 0 (by omega); revert this; decide⟩

/-- a repeated node -/
example (S : ManualStitch Int) : new (fun a b : Int => decide (a = b)) (Stitch.exCo 0) (Stitch.exCn 0) [1, 1] (Stitch.exCo 1)
    (Stitch.exCn 1) [0, 0] false ≠ .ok S :=
  C57_repeated _ (Stitch.exHeld 0) (Stitch.exHeld 1) (by decide) (by decide) false S

end ManualStitch
end GF
