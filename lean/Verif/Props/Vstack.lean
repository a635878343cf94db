import Verif.Props.StitchManual
import Mathlib.Algebra.Order.BigOperators.Group.Finset

/-! C58: `Vstack`. -/

namespace GF
open Finset
variable {α : Type}
namespace Vstack

/-- the mesh `m` moved over `s` in vertical direction -/
def raised [Add α] (m : MeshData α) (s : α) : MeshData α :=
  { m with x := fun n k => if k = 1 then m.x n k + s else m.x n k }

theorem amaxY_ok [LinearOrder α] {coor : Ten α} {N nd : Nat} {X} (h : Is2 coor N nd X) (hN : 0 < N) (hd : 1 < nd) :
    ∃ s, amaxY coor = .ok s ∧ (∃ r, r < N ∧ X r 1 = s) ∧ ∀ r, r < N → X r 1 ≤ s := by
  have H : ∀ k, k ≤ N → ∃ s, forEach (it1 k) (fun s n => do
      let y ← coor.get [n, 1]
      (.ok (max s y) : Res α)) (X 0 1) = .ok s ∧ (∃ r, r < N ∧ X r 1 = s) ∧ ∀ r, r < k → X r 1 ≤ s := by
    intro k
    induction k with
    | zero => intro _; exact ⟨_, rfl, ⟨0, hN, rfl⟩, by intro r hr; omega⟩
    | succ k ih =>
      intro hk
      obtain ⟨s, h1, ⟨r, hr, h2⟩, h3⟩ := ih (by omega)
      refine ⟨max s (X k 1), ?_, ?_, ?_⟩
      · rw [forEach_it1_succ, h1, Res.ok_bind', h.get (by omega) hd]; rfl
      · rcases le_total s (X k 1) with h' | h'
        · exact ⟨k, by omega, by rw [max_eq_right h']⟩
        · exact ⟨r, hr, by rw [max_eq_left h']; exact h2⟩
      · intro r hr
        rcases Nat.lt_succ_iff_lt_or_eq.1 hr with h' | rfl
        · exact (h3 r h').trans (le_max_left _ _)
        · exact le_max_right _ _
  obtain ⟨s, h1, h2, h3⟩ := H N le_rfl
  refine ⟨s, ?_, h2, h3⟩
  rw [amaxY, h.get hN hd, Res.ok_bind, h.1]
  exact h1

theorem shiftY_ok [Add α] {x : Ten α} {N nd : Nat} {X} (h : Is2 x N nd X) (hd : 1 < nd) (s : α) :
    ∃ y, shiftY x s = .ok y ∧ Is2 y N nd fun n k => if k = 1 then X n k + s else X n k := by
  obtain ⟨y, h1, h2, h3, h4⟩ := cellLoop (it1 N) (List.nodup_range) (fun n => [n, 1])
    (by rintro a _ b _ h; simpa using h) (fun x n => x.addAt [n, 1] s) (fun _ a => a + s) x (fun n => X n 1)
    (by
      intro n hn
      have hn' := mem_it1.1 hn
      exact ⟨by simp [h.1, hn', hd], h.2 n 1 hn' hd⟩)
    (by
      intro n hn t ht hv
      have hn' := mem_it1.1 hn
      rw [addAt_of_v (by simp [ht, h.1, hn', hd]) hv])
  refine ⟨y, ?_, by rw [h2, h.1], fun n k hn hk => ?_⟩
  · rw [shiftY, h.1]; exact h1
  · beta_reduce
    by_cases hk1 : k = 1
    · subst hk1
      rw [if_pos rfl]
      exact h3 n (mem_it1.2 hn)
    · rw [if_neg hk1, ← h.2 n k hn hk]
      exact h4 _ (by intro a _ h; simp at h; omega)

/-- vertical position of the bottom of layer `i` when layer `j` has height `H j` -/
def height [AddCommMonoid α] (H : Nat → α) (i : Nat) : α := ∑ j ∈ range i, H j

theorem height_succ [AddCommMonoid α] (H : Nat → α) (i : Nat) : height H (i + 1) = height H i + H i := by
  rw [height, Finset.sum_range_succ]; rfl

theorem elemOffset_raised [Add α] (m : Nat → MeshData α) (s : Nat → α) (i : Nat) :
    elemOffset (fun i => raised (m i) (s i)) i = elemOffset m i := rfl

/-- Layers that fit on top of each other: layer `i` has its lowest nodes `bot i` at height zero and its highest nodes
`top i` at height `H i`; the nodes `top i` and `bot (i + 1)` have pairwise the same horizontal coordinates. -/
structure Fit [Zero α] [LE α] (nd K : Nat) (m : Nat → MeshData α) (bot top : Nat → List Nat) (H : Nat → α) : Prop where
  pos : ∀ i, i < K → 0 ≤ H i
  le : ∀ i n, i < K → n < (m i).nn → (m i).x n 1 ≤ H i
  att : ∀ i, i < K → ∃ n, n < (m i).nn ∧ (m i).x n 1 = H i
  bot_ok : ∀ i, i < K → (bot i).Nodup ∧ ∀ p ∈ bot i, p < (m i).nn ∧ (m i).x p 1 = 0
  top_ok : ∀ i, i < K → ∀ p ∈ top i, p < (m i).nn ∧ (m i).x p 1 = H i
  len : ∀ i, i + 1 < K → (top i).length = (bot (i + 1)).length
  fit : ∀ i a b, i + 1 < K → (a, b) ∈ (top i).zip (bot (i + 1)) → ∀ k, k < nd → k ≠ 1 →
    (m i).x a k = (m (i + 1)).x b k

/-- What the stack of layers has to satisfy. -/
structure Stacked [AddCommMonoid α] (nd nne K : Nat) (m : Nat → MeshData α) (bot top : Nat → List Nat) (H : Nat → α)
    (N : Nat) (X : Nat → Nat → α) (CC : Nat → Nat → Nat) (P : Nat → Nat → Nat) : Prop where
  node_lt : ∀ i n, i < K → n < (m i).nn → P i n < N
  conn_lt : ∀ e k, e < elemOffset m K → k < nne → CC e k < N
  conn : ∀ i e k, i < K → e < (m i).ne → k < nne → CC (elemOffset m i + e) k = P i ((m i).C e k)
  /-- layer `i` is moved to the top of the layers below it -/
  at_height : ∀ i n, i < K → n < (m i).nn → PtEq nd (X (P i n)) ((raised (m i) (height H i)).x n)
  /-- consecutive layers share their interface nodes -/
  glued : ∀ i a b, i + 1 < K → (a, b) ∈ (top i).zip (bot (i + 1)) → P (i + 1) b = P i a
  surj : ∀ r, r < N → ∃ i n, i < K ∧ n < (m i).nn ∧ P i n = r
  /-- nothing else is merged -/
  count : N + ∑ i ∈ range (K - 1), (bot (i + 1)).length = ∑ i ∈ range K, (m i).nn
  /-- the nodes are numbered in the order in which they first appear -/
  order : Numbered K (fun i => (m i).nn) P

variable [AddCommGroup α] [LinearOrder α] [IsOrderedAddMonoid α]

/-- invariant of the object -/
structure Inv (nd nne K : Nat) (m : Nat → MeshData α) (bot top : Nat → List Nat) (H : Nat → α) (V : Vstack α)
    (N : Nat) (X : Nat → Nat → α) (CC : Nat → Nat → Nat) (P : Nat → Nat → Nat) : Prop where
  rep : Stitch.Rep nd nne K (fun i => raised (m i) (height H i)) V.base N X CC P
  stacked : Stacked nd nne K m bot top H N X CC P
  tops : V.nodes_top = (List.range K).map fun i => (top i).map (P i)
  bots : V.nodes_bot = (List.range K).map fun i => (bot i).map (P i)
  max_le : ∀ r, r < N → X r 1 ≤ height H K
  max_att : ∃ r, r < N ∧ X r 1 = height H K

theorem raised_zero (m : MeshData α) : raised m 0 = m := by
  cases m
  simp only [raised, add_zero, ite_self]

theorem first_inv (close : α → α → Bool) {nd nne K : Nat} (hd : 1 < nd) {m : Nat → MeshData α} {bot top : Nat → List Nat} {H : Nat → α}
    {co : Ten α} {cn : Ten Nat} (h : (m 0).Held nd nne co cn) (hF : Fit nd K m bot top H) (hK : 0 < K) (chk : Bool) :
    Inv nd nne 1 m bot top H ⟨Stitch.first co cn, [bot 0], [top 0], chk⟩ (m 0).nn (m 0).x (m 0).C (fun _ n => n) := by
  have hz : height H 0 = 0 := by simp [height]
  have hr : raised (m 0) (height H 0) = m 0 := by rw [hz, raised_zero]
  obtain ⟨h1, h2⟩ := Stitch.first_ok close (m := fun i => raised (m i) (height H i)) (nd := nd) (nne := nne) (co := co)
    (cn := cn) (by simp only [hr]; exact h)
  simp only [hr] at h1 h2
  have hH : height H 1 = H 0 := by rw [height_succ, hz, zero_add]
  refine ⟨h1, ⟨?_, h2.conn_lt, ?_, ?_, ?_, ?_, ?_, Stitch.numbered_one _⟩, by simp, by simp, ?_, ?_⟩
  · exact h2.node_lt
  · exact h2.conn
  · intro i n hi hn
    obtain rfl : i = 0 := by omega
    rw [hr]; exact fun _ _ => rfl
  · intro i a b hi; omega
  · intro r hr
    exact ⟨0, r, by omega, hr, rfl⟩
  · simp
  · intro r hr
    rw [hH]; exact hF.le 0 r hK hr
  · rw [hH]; exact hF.att 0 hK

theorem push_inv (close : α → α → Bool) (hrefl : ∀ a, close a a = true) {nd nne K : Nat} (hd : 1 < nd) (hK : 0 < K) {m : Nat → MeshData α}
    {bot top : Nat → List Nat} {H : Nat → α} {V : Vstack α} {N X CC P} (hV : Inv nd nne K m bot top H V N X CC P)
    {co : Ten α} {cn : Ten Nat} (h : (m K).Held nd nne co cn) {M : Nat} (hF : Fit nd M m bot top H) (hM : K < M) :
    ∃ V' N' X' CC' P', V.push_back close co cn (bot K) (top K) = .ok V' ∧
      Inv nd nne (K + 1) m bot top H V' N' X' CC' P' ∧ V'.check = V.check := by
  have hN : 0 < N := by obtain ⟨r, hr, -⟩ := hV.max_att; omega
  -- the shift
  obtain ⟨s, a1, ⟨r0, a2, a3⟩, a4⟩ := amaxY_ok hV.rep.coor hN hd
  have hs : s = height H K := by
    obtain ⟨r1, b1, b2⟩ := hV.max_att
    refine le_antisymm ?_ ?_
    · rw [← a3]; exact hV.max_le r0 a2
    · rw [← b2]; exact a4 r1 b1
  subst hs
  obtain ⟨x, x1, x2⟩ := shiftY_ok h.1 hd (height H K)
  have hx : (raised (m K) (height H K)).Held nd nne x cn := ⟨x2, h.2.1, h.2.2⟩
  -- the pairs of glued nodes
  obtain ⟨J, rfl⟩ : ∃ J, K = J + 1 := ⟨K - 1, by omega⟩
  have hlen : ((top J).map (P J)).length = (bot (J + 1)).length := by
    rw [List.length_map]; exact hF.len J (by omega)
  have ht : lget V.nodes_top (V.nodes_top.length - 1) = .ok ((top J).map (P J)) := by
    rw [hV.tops, lget_ok (by simp)]
    simp
  have hpair : ∀ a b, (a, b) ∈ ((top J).map (P J)).zip (bot (J + 1)) → ∃ a', (a', b) ∈ (top J).zip (bot (J + 1)) ∧ a = P J a' := by
    intro a b hab
    rw [List.zip_map_left, List.mem_map] at hab
    obtain ⟨⟨a', b'⟩, h1, h2⟩ := hab
    simp only [Prod.map, id, Prod.mk.injEq] at h2
    exact ⟨a', by rw [← h2.2]; exact h1, h2.1.symm⟩
  have hpair' : ∀ a b, (a, b) ∈ (top J).zip (bot (J + 1)) → (P J a, b) ∈ ((top J).map (P J)).zip (bot (J + 1)) := by
    intro a b hab
    rw [List.zip_map_left, List.mem_map]
    exact ⟨(a, b), hab, rfl⟩
  -- glued nodes are at the same position
  have hsame : ∀ a b, (a, b) ∈ (top J).zip (bot (J + 1)) →
      PtEq nd (X (P J a)) ((raised (m (J + 1)) (height H (J + 1))).x b) := by
    intro a b hab k hk
    obtain ⟨ha1, ha2⟩ := hF.top_ok J (by omega) a (List.of_mem_zip hab).1
    obtain ⟨hb1, hb2⟩ := (hF.bot_ok (J + 1) hM).2 b (List.of_mem_zip hab).2
    rw [hV.stacked.at_height J a (by omega) ha1 k hk]
    by_cases hk1 : k = 1
    · subst hk1
      simp only [raised, if_true]
      rw [ha2, hb2, height_succ, zero_add, add_comm]
    · simp only [raised, if_neg hk1]
      exact hF.fit J a b (by omega) hab k hk hk1
  have hcheck : ManualStitch.check close V.base.coor x nd ((top J).map (P J)) (bot (J + 1)) = .ok () := by
    obtain ⟨c, c1, c2⟩ := ManualStitch.check_ok close hV.rep.coor x2 (ov_a := (top J).map (P J)) (ov_b := bot (J + 1)) (by
      intro p hp
      rw [List.mem_map] at hp
      obtain ⟨a, ha, rfl⟩ := hp
      exact hV.stacked.node_lt J a (by omega) (hF.top_ok J (by omega) a ha).1)
      (fun p hp => ((hF.bot_ok (J + 1) hM).2 p hp).1)
    rw [c1, if_pos (c2.2 ?_)]
    rintro ⟨a, b⟩ hab k hk
    obtain ⟨a', h1, rfl⟩ := hpair a b hab
    dsimp only
    have := hsame a' b h1 k hk
    rw [this]
    exact hrefl _
  obtain ⟨st, S', N', X', CC', Q, s1, s2, s3, s4, s5, s6, s7, s8, s9, s10, s11⟩ := Stitch.glue_ok close hK hV.rep hx
    hV.stacked.conn_lt (L := ((top J).map (P J)).zip (bot (J + 1)))
    (by rw [ManualStitch.zip_snd hlen]; exact (hF.bot_ok (J + 1) hM).1)
    (fun p hp => ((hF.bot_ok (J + 1) hM).2 p.2 (List.of_mem_zip hp).2).1) (chk := V.check)
    (by rw [ManualStitch.zip_fst hlen, ManualStitch.zip_snd hlen]; exact fun _ => hcheck)
  rw [ManualStitch.zip_fst hlen, ManualStitch.zip_snd hlen] at s1
  have hQlt : ∀ p, p < (m (J + 1)).nn → Q p < N' := by
    intro p hp
    rcases s8 p hp with ⟨a, ha, rfl⟩ | ⟨-, -, h3, -⟩
    · obtain ⟨a', h1, h2⟩ := hpair _ _ ha
      have := hV.stacked.node_lt J a' (by omega) (hF.top_ok J (by omega) a' (List.of_mem_zip h1).1).1
      omega
    · exact h3
  have hat : ∀ p, p < (m (J + 1)).nn → PtEq nd (X' (Q p)) ((raised (m (J + 1)) (height H (J + 1))).x p) := by
    intro p hp
    rcases s8 p hp with ⟨a, ha, rfl⟩ | ⟨-, -, -, h4⟩
    · obtain ⟨a', h1, h2⟩ := hpair _ _ ha
      have hlt := hV.stacked.node_lt J a' (by omega) (hF.top_ok J (by omega) a' (List.of_mem_zip h1).1).1
      rw [s6 _ (by rw [h2]; exact hlt), h2]
      exact hsame a' p h1
    · rw [h4]; exact fun _ _ => rfl
  have hmap : ∀ l : List Nat, (∀ p ∈ l, p < (m (J + 1)).nn) → mapRes (fun n => st.map_b.get [n]) l = .ok (l.map Q) :=
    fun l hl => mapRes_ok _ _ _ fun p hp => s2.get (hl p hp)
  have hb := hmap (bot (J + 1)) fun p hp => ((hF.bot_ok (J + 1) hM).2 p hp).1
  have htp := hmap (top (J + 1)) fun p hp => (hF.top_ok (J + 1) hM p hp).1
  refine ⟨⟨S', V.nodes_bot ++ [(bot (J + 1)).map Q], V.nodes_top ++ [(top (J + 1)).map Q], V.check⟩, N', X', CC', _, ?_,
    ⟨s4, ⟨?_, ?_, ?_, ?_, ?_, ?_, ?_, ?_⟩, ?_, ?_, ?_, ?_⟩, rfl⟩
  · rw [push_back, if_neg (by rw [hV.rep.len]; omega), a1, Res.ok_bind, x1, Res.ok_bind, ht, Res.ok_bind, s1,
      Res.ok_bind, hb, Res.ok_bind, htp, Res.ok_bind, s3, Res.ok_bind]
  · intro i n hi hn
    beta_reduce
    by_cases hiK : i < J + 1
    · rw [if_pos hiK]; have := hV.stacked.node_lt i n hiK hn; omega
    · obtain rfl : i = J + 1 := by omega
      rw [if_neg hiK]; exact hQlt n hn
  · intro e k he hk
    rw [s7, elemOffset_raised]
    by_cases heK : e < elemOffset m (J + 1)
    · rw [if_pos heK]; have := hV.stacked.conn_lt e k heK hk; omega
    · rw [if_neg heK]
      rw [elemOffset_succ] at he
      exact hQlt _ (h.2.2 _ _ (by omega) hk)
  · intro i e k hi he hk
    rw [s7, elemOffset_raised]
    by_cases hiK : i < J + 1
    · rw [if_pos (elemOffset_lt m hiK he), if_pos hiK]; exact hV.stacked.conn i e k hiK he hk
    · obtain rfl : i = J + 1 := by omega
      rw [if_neg hiK, if_neg (by omega), Nat.add_sub_cancel_left]
      rfl
  · intro i n hi hn
    beta_reduce
    by_cases hiK : i < J + 1
    · rw [if_pos hiK, s6 _ (hV.stacked.node_lt i n hiK hn)]; exact hV.stacked.at_height i n hiK hn
    · obtain rfl : i = J + 1 := by omega
      rw [if_neg hiK]; exact hat n hn
  · intro i a b hi hab
    beta_reduce
    by_cases hiK : i + 1 < J + 1
    · rw [if_pos hiK, if_pos (show i < J + 1 by omega)]; exact hV.stacked.glued i a b hiK hab
    · obtain rfl : i = J := by omega
      rw [if_neg hiK, if_pos (by omega)]
      have hb1 := ((hF.bot_ok (i + 1) hM).2 b (List.of_mem_zip hab).2).1
      rcases s8 b hb1 with ⟨a', ha', h2⟩ | ⟨h2, -⟩
      · have := List.inj_on_of_nodup_map (f := Prod.snd) (by rw [ManualStitch.zip_snd hlen]; exact (hF.bot_ok (i + 1) hM).1)
          (hpair' a b hab) ha' rfl
        rw [h2]; exact (congrArg Prod.fst this).symm
      · exact absurd (hpair' a b hab) (h2 _)
  · intro r hr
    by_cases hrN : r < N
    · obtain ⟨i, n, g1, g2, g3⟩ := hV.stacked.surj r hrN
      exact ⟨i, n, by omega, g2, by rw [if_pos g1]; exact g3⟩
    · obtain ⟨p, h1, -, h3, -⟩ := s10 r (by omega) hr
      exact ⟨J + 1, p, by omega, h1, by rw [if_neg (by omega)]; exact h3⟩
  · have hc := hV.stacked.count
    have hl : (((top J).map (P J)).zip (bot (J + 1))).length = (bot (J + 1)).length := by
      rw [List.length_zip, hlen]; omega
    rw [hl] at s11
    simp only [Nat.add_sub_cancel] at hc ⊢
    rw [Finset.sum_range_succ, Finset.sum_range_succ (f := fun i => (m i).nn) (n := J + 1)]
    have : (raised (m (J + 1)) (height H (J + 1))).nn = (m (J + 1)).nn := rfl
    omega
  · refine Stitch.numbered_succ (N := N) hV.stacked.order hV.stacked.node_lt hV.stacked.surj fun p p' hpp hp' h1 h2 => ?_
    have hno : ∀ q, q < (m (J + 1)).nn → N ≤ Q q → ∀ a, (a, q) ∉ ((top J).map (P J)).zip (bot (J + 1)) := by
      intro q hq hqN
      rcases s8 q hq with ⟨a, ha, ha'⟩ | ⟨hb, -⟩
      · obtain ⟨a', k1, k2⟩ := hpair _ _ ha
        have := hV.stacked.node_lt J a' (by omega) (hF.top_ok J (by omega) a' (List.of_mem_zip k1).1).1
        omega
      · exact hb
    exact s9 p p' hpp hp' (hno p (by omega) h1) (hno p' hp' h2)
  · dsimp only
    rw [hV.tops, List.range_succ (n := J + 1), List.map_append, List.map_singleton, if_neg (by omega)]
    congr 1
    refine List.map_congr_left fun i hi => ?_
    rw [if_pos (List.mem_range.1 hi)]
  · dsimp only
    rw [hV.bots, List.range_succ (n := J + 1), List.map_append, List.map_singleton, if_neg (by omega)]
    congr 1
    refine List.map_congr_left fun i hi => ?_
    rw [if_pos (List.mem_range.1 hi)]
  · intro r hr
    rw [height_succ]
    by_cases hrN : r < N
    · rw [s6 r hrN]
      exact (hV.max_le r hrN).trans (le_add_of_nonneg_right (hF.pos (J + 1) hM))
    · obtain ⟨p, h1, -, h3, h4⟩ := s10 r (by omega) hr
      rw [h4]
      simp only [raised, if_true]
      rw [add_comm]
      exact add_le_add_right (hF.le (J + 1) p hM h1) _
  · obtain ⟨n, hn, hy⟩ := hF.att (J + 1) hM
    refine ⟨Q n, hQlt n hn, ?_⟩
    rw [hat n hn 1 hd]
    simp only [raised, if_true]
    rw [hy, height_succ H (J + 1), add_comm]

theorem history_inv (close : α → α → Bool) (hrefl : ∀ a, close a a = true) {nd nne : Nat} (hd : 1 < nd)
    {m : Nat → MeshData α} {bot top : Nat → List Nat} {H : Nat → α} {co : Nat → Ten α} {cn : Nat → Ten Nat} {M : Nat}
    (h : ∀ i, i < M → (m i).Held nd nne (co i) (cn i)) (hF : Fit nd M m bot top H) (chk : Bool) (K : Nat) (hK : 0 < K)
    (hM : K ≤ M) :
    ∃ V N X CC P, history close chk co cn bot top K = .ok V ∧ Inv nd nne K m bot top H V N X CC P := by
  induction K with
  | zero => omega
  | succ K ih =>
    rcases Nat.eq_zero_or_pos K with rfl | hK'
    · exact ⟨_, _, _, _, _, rfl, first_inv close hd (h 0 (by omega)) hF (by omega) chk⟩
    · obtain ⟨V, N, X, CC, P, e, hV⟩ := ih hK' (by omega)
      obtain ⟨V', N', X', CC', P', p1, p2, -⟩ := push_inv close hrefl hd hK' hV (h K (by omega)) hF (by omega)
      refine ⟨V', N', X', CC', P', ?_, p2⟩
      rw [history, forEach_it1_succ]
      rw [history] at e
      rw [e]
      exact p1

/-- **C58.** Any number of fitting layers is stacked, whether or not the positions are checked: each layer is moved to the
sum of the heights of the layers below it, interface nodes are shared, nothing else changes. -/
theorem C58_stack (close : α → α → Bool) (hrefl : ∀ a, close a a = true) {nd nne : Nat} (hd : 1 < nd)
    {m : Nat → MeshData α} {bot top : Nat → List Nat} {H : Nat → α} {co : Nat → Ten α} {cn : Nat → Ten Nat} (K : Nat)
    (hK : 0 < K) (h : ∀ i, i < K → (m i).Held nd nne (co i) (cn i)) (hF : Fit nd K m bot top H) (chk : Bool) :
    IsOk (history close chk co cn bot top K) fun V => V.base.nmesh = K ∧ ∃ N X CC P, Is2 V.base.coor N nd X ∧
      Is2 V.base.conn (elemOffset m K) nne CC ∧
      (∀ i, i < K → IsOk (V.base.nodemap i) fun t => Is1 t (m i).nn (P i)) ∧
      (∀ i, i < K → IsOk (V.base.elemmap i) fun t => Is1 t (m i).ne fun e => elemOffset m i + e) ∧
      Stacked nd nne K m bot top H N X CC P := by
  obtain ⟨V, N, X, CC, P, e, hV⟩ := history_inv close hrefl hd h hF chk K hK le_rfl
  have hR := hV.rep
  refine ⟨V, e, hR.len, N, X, CC, P, hR.coor, hR.conn, fun i hi => ?_, fun i hi => ?_, hV.stacked⟩
  · obtain ⟨t, t1, t2⟩ := hR.map i hi
    exact ⟨t, by rw [Stitch.nodemap, lget, t1], t2⟩
  · refine ⟨ManualStitch.arangeFrom (m i).ne (elemOffset m i), ?_, rfl, fun e he => ?_⟩
    · rw [Stitch.elemmap, hR.nel, hR.off, lget_ok (by simpa using hi), Res.ok_bind, lget_ok (by simpa using hi)]
      simp only [List.getElem_map, List.getElem_range]
      rfl
    · simp [ManualStitch.arangeFrom, Ten.of, Nat.add_comm]

/-- **C58.** With check, a layer whose bottom nodes do not all match the top nodes of the stack is rejected. -/
theorem C58_mismatch (close : α → α → Bool) (hrefl : ∀ a, close a a = true) {nd nne : Nat} (hd : 1 < nd)
    {m : Nat → MeshData α} {bot top : Nat → List Nat} {H : Nat → α} {co : Nat → Ten α} {cn : Nat → Ten Nat} (K : Nat)
    (h : ∀ i, i < K + 2 → (m i).Held nd nne (co i) (cn i)) (hF : Fit nd (K + 1) m bot top H)
    (hlen : (top K).length = (bot (K + 1)).length) (hb : ∀ p ∈ bot (K + 1), p < (m (K + 1)).nn)
    (hbad : ∃ a b, (a, b) ∈ (top K).zip (bot (K + 1)) ∧ ¬ PtClose close nd ((raised (m K) (height H K)).x a)
      ((raised (m (K + 1)) (height H (K + 1))).x b)) :
    history close true co cn bot top (K + 2) = .throws := by
  obtain ⟨V, N, X, CC, P, e, hV⟩ := history_inv close hrefl hd (fun i hi => h i (by omega)) hF true (K + 1) (by omega)
    le_rfl
  have hchk : V.check = true := by
    clear hbad hlen hb hF hV h
    have : ∀ k (V : Vstack α), history close true co cn bot top k = .ok V → V.check = true := by
      intro k
      induction k with
      | zero => rintro V hV; cases hV; rfl
      | succ k ih =>
        intro V hV
        rw [history, forEach_it1_succ] at hV
        cases h0 : forEach (it1 k) (fun (V : Vstack α) i => V.push_back close (co i) (cn i) (bot i) (top i)) (new true) with
        | throws => rw [h0] at hV; cases hV
        | ub => rw [h0] at hV; cases hV
        | ok V0 =>
          have hc := ih V0 h0
          rw [h0, Res.ok_bind', push_back] at hV
          split at hV
          · cases hV; exact hc
          · revert hV
            cases amaxY V0.base.coor <;> simp
            cases shiftY (co k) _ <;> simp
            cases lget V0.nodes_top (V0.nodes_top.length - 1) <;> simp
            cases ManualStitch.new close V0.base.coor V0.base.conn _ _ (cn k) (bot k) V0.check <;> simp
            cases mapRes _ (bot k) <;> simp
            cases mapRes _ (top k) <;> simp
            cases V0.base.append _ (cn k) <;> simp
            rintro rfl
            exact hc
    exact this _ V e
  have hN : 0 < N := by obtain ⟨r, hr, -⟩ := hV.max_att; omega
  obtain ⟨s, a1, ⟨r0, a2, a3⟩, a4⟩ := amaxY_ok hV.rep.coor hN hd
  have hs : s = height H (K + 1) := by
    obtain ⟨r1, b1, b2⟩ := hV.max_att
    refine le_antisymm ?_ ?_
    · rw [← a3]; exact hV.max_le r0 a2
    · rw [← b2]; exact a4 r1 b1
  subst hs
  have hx0 := h (K + 1) (by omega)
  obtain ⟨x, x1, x2⟩ := shiftY_ok hx0.1 hd (height H (K + 1))
  have ht : lget V.nodes_top (V.nodes_top.length - 1) = .ok ((top K).map (P K)) := by
    rw [hV.tops, lget_ok (by simp)]
    simp
  obtain ⟨c, c1, c2⟩ := ManualStitch.check_ok close hV.rep.coor x2 (ov_a := (top K).map (P K)) (ov_b := bot (K + 1)) (by
      intro p hp
      rw [List.mem_map] at hp
      obtain ⟨a, ha, rfl⟩ := hp
      exact hV.stacked.node_lt K a (by omega) (hF.top_ok K (by omega) a ha).1) hb
  have hcf : ¬ c = true := by
    intro hc
    obtain ⟨a, b, hab, hno⟩ := hbad
    refine hno fun k hk => ?_
    have := c2.1 hc (P K a, b) (by rw [List.zip_map_left, List.mem_map]; exact ⟨(a, b), hab, rfl⟩) k hk
    dsimp only at this
    rw [hV.stacked.at_height K a (by omega) (hF.top_ok K (by omega) a (List.of_mem_zip hab).1).1 k hk] at this
    exact this
  rw [if_neg hcf] at c1
  rw [history, forEach_it1_succ]
  rw [history] at e
  rw [e, Res.ok_bind', push_back, if_neg (by rw [hV.rep.len]; omega), a1, Res.ok_bind, x1, Res.ok_bind, ht, Res.ok_bind]
  have hnew : ManualStitch.new close V.base.coor V.base.conn ((top K).map (P K)) x (cn (K + 1)) (bot (K + 1)) V.check =
      .throws := by
    simp only [ManualStitch.new, hV.rep.coor.1, hV.rep.conn.1, x2.1, hx0.2.1.1]
    rw [if_pos ⟨by simpa using hlen, trivial, trivial⟩, ManualStitch.positions, hchk, if_pos rfl, c1, Res.throws_bind]
  rw [hnew, Res.throws_bind]

/-- a stack of unit squares meets the hypotheses -/
theorem exFit (K : Nat) : Fit 2 K (fun _ => Stitch.exMesh 0) (fun _ => [0, 1]) (fun _ => [2, 3]) fun _ => 1 := by
  refine ⟨fun _ _ => by decide, ?_, fun i _ => ⟨2, by decide, by decide⟩, fun i _ => ⟨by decide, by decide⟩,
    fun i _ => by decide, fun _ _ => rfl, ?_⟩
  · intro i n _ hn
    have : n < 4 := hn
    interval_cases n <;> decide
  · intro i a b _ hab k hk hk1
    have : (a, b) = (2, 0) ∨ (a, b) = (3, 1) := by simpa using hab
    obtain rfl : k = 0 := by omega
    rcases this with h | h <;> cases h <;> decide

example (K : Nat) (hK : 0 < K) : ∃ V, history (fun a b : Int => decide (a = b)) true (fun _ => Stitch.exCo 0)
    (fun _ => Stitch.exCn 0) (fun _ => [0, 1]) (fun _ => [2, 3]) K = .ok V := by
  obtain ⟨V, e, -⟩ := C58_stack (fun a b : Int => decide (a = b)) (by simp) (by omega) K hK (fun i _ => Stitch.exHeld 0)
    (exFit K) true
  exact ⟨V, e⟩

/-- the third of three squares has its upper right corner at `(1, 3)` -/
example : (match history (fun a b : Int => decide (a = b)) true (fun _ => Stitch.exCo 0)
    (fun _ => Stitch.exCn 0) (fun _ => [0, 1]) (fun _ => [2, 3]) 3 with
    | .ok V => (V.base.coor.shape, V.base.coor.v [7, 0], V.base.coor.v [7, 1])
    | _ => ([], none, none)) = ([8, 2], some 1, some 3) := by decide +kernel

end Vstack
end GF
