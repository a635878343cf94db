import Verif.Lemmas.FineLayer3Periodic
import Verif.Lemmas.Periodic3d
import Verif.Props.FineLayer3

/-! Node sets of `Mesh::Hex8::FineLayer` in terms of the positions of the nodes. -/

namespace GF.FineLayer3
open FineLayerSpec Finset FineLayer
variable {α : Type} {nelx nelz n : Nat} {WX WZ G : Nat → Nat} {R : Nat → Int}

/-- nodes strictly inside the outermost layers -/
theorem outer_cases (hL : Layers3 nelx nelz n WX WZ G R) (hR : R 0 = R (2 * n - 2)) {m a b c : Nat}
    (hs : Site nelx nelz n WX WZ G R m a b c) (ho : OuterN n G b) :
    (R 0 = 0 ∧ 0 < a ∧ a < nelx) ∨ (R 0 = 2 ∧ 0 < c ∧ c < nelz) := by
  have hn := hL.npos
  cases hs with
  | main p kx kz h1 h2 h3 =>
    exfalso
    have e0 : height G 0 = 0 := rfl
    rcases ho with ⟨o1, o2⟩ | ⟨o1, o2⟩
    · rcases Nat.eq_zero_or_pos p with rfl | hp
      · omega
      · have : height G 1 ≤ height G p := height_mono hp
        omega
    · rcases Nat.lt_or_ge p (2 * n - 1) with hp | hp
      · have : height G p ≤ height G (2 * n - 2) := height_mono (by omega)
        omega
      · have : height G (2 * n - 1) ≤ height G p := height_mono hp
        omega
  | mid i kx kz i1 i2 i3 i4 =>
    have hg := hL.halfG i1 i2
    have e := height_succ G i
    have hi : i = 0 ∨ i = 2 * n - 2 := by
      rcases ho with ⟨o1, o2⟩ | ⟨o1, o2⟩
      · left
        by_contra hc
        have : height G 1 ≤ height G i := height_mono (by omega)
        omega
      · right
        by_contra hc
        have : height G (i + 1) ≤ height G (2 * n - 2) := height_mono (by omega)
        omega
    have hRi : R i = R 0 := by rcases hi with rfl | rfl <;> simp [hR]
    obtain ⟨w1, w2⟩ := hL.wpos i i1
    obtain ⟨d1, d2⟩ := hL.fits i i1
    obtain ⟨t1, t2⟩ := hL.three i1
    have hk : (R 0 = 0 ∧ (kindR3 n R i).mx ≠ .same) ∨ (R 0 = 2 ∧ (kindR3 n R i).mz ≠ .same) := by
      rw [← hRi]
      unfold kindR3 at i2 ⊢
      by_cases c0 : R i = 0
      · left
        refine ⟨c0, ?_⟩
        rw [if_pos c0]
        split <;> simp [Kind3.mx]
      · rw [if_neg c0] at i2 ⊢
        by_cases c2 : R i = 2
        · right
          refine ⟨c2, ?_⟩
          rw [if_pos c2]
          split <;> simp [Kind3.mz]
        · rw [if_neg c2] at i2
          exact absurd rfl i2
    rcases hk with ⟨h1, h2⟩ | ⟨h1, h2⟩
    · exact .inl ⟨h1, axMid_inner w1 d1 h2 (t1 h2) i3⟩
    · exact .inr ⟨h1, axMid_inner w2 d2 h2 (t2 h2) i4⟩

section
variable [Field α] [LinearOrder α] [IsStrictOrderedRing α]

theorem outer_iff (hL : Layers3 nelx nelz n WX WZ G R) (hG : G 0 = G (2 * n - 2)) {h : α} (hh : 0 < h) {b : Nat} :
    OuterLayer (h * (height G (2 * n - 1) : α)) (h * (G 0 : α)) (h * (b : α)) ↔ OuterN n G b := by
  have hn := hL.npos
  have e1 : height G 1 = G 0 := by rw [height_succ]; simp [height]
  have e2 : height G (2 * n - 1) = height G (2 * n - 2) + G 0 := by
    rw [hG, ← height_succ]; congr 1; omega
  have l1 : (0 : α) < h * (b : α) ↔ 0 < b := by
    have := hmul_lt hh (a := 0) (b := b); rw [← this]; simp
  have l3 : h * (height G (2 * n - 1) : α) - h * (G 0 : α) = h * (height G (2 * n - 2) : α) := by
    rw [e2]; push_cast; ring
  rw [OuterLayer, OuterN, l1, l3, hmul_lt hh, hmul_lt hh, hmul_lt hh, e1]

theorem setL_nodeSet (hL : Layers3 nelx nelz n WX WZ G R) (hG : G 0 = G (2 * n - 2)) {h : α} (hh : 0 < h)
    {x : Nat → Nat → α} (hx : Placed3 h nelx nelz n WX WZ G R x) {nnode : Nat}
    (hnn : nnode = height (blkC nelx nelz n WX WZ R) (2 * n)) {lx ly lz : Loc} {r : Res (Ten Nat)}
    (hr : ∃ t, r = .ok t ∧ IsL t (setL nelx nelz n WX WZ R lx ly lz)) :
    NodeSet r (fun k => At3 nnode (h * (nelx : α)) (h * (height G (2 * n - 1) : α)) (h * (nelz : α)) x lx ly lz k ∧
      (ly = .mid → ¬ OuterLayer (h * (height G (2 * n - 1) : α)) (h * (G 0 : α)) (x k 1))) (BeforeYXZ x) := by
  obtain ⟨t, ht, hi⟩ := hr
  have hmem : ∀ i, i < (setL nelx nelz n WX WZ R lx ly lz).length →
      (setL nelx nelz n WX WZ R lx ly lz).getD i 0 ∈ setL nelx nelz n WX WZ R lx ly lz := by
    intro i hi
    rw [List.getD_eq_getElem?_getD, List.getElem?_eq_getElem hi]
    exact List.getElem_mem _
  refine ⟨t, _, _, ht, hi, fun i j hij hj => ?_, fun k => ?_⟩
  · have hs := List.pairwise_iff_getElem.1 (setL_sorted hL lx ly lz) i j (hij.trans hj) hj hij
    obtain ⟨a, b, c, s⟩ := setL_site hL (List.getElem_mem (hij.trans hj))
    obtain ⟨a', b', c', s'⟩ := setL_site hL (List.getElem_mem hj)
    have h1 := hs _ _ _ _ _ _ s s'
    rw [List.getD_eq_getElem?_getD, List.getD_eq_getElem?_getD, List.getElem?_eq_getElem hj,
      List.getElem?_eq_getElem (hij.trans hj)]
    obtain ⟨p0, p1, p2⟩ := s.x hx
    obtain ⟨q0, q1, q2⟩ := s'.x hx
    simp only [Option.getD_some, BeforeYXZ]
    rw [p0, p1, p2, q0, q1, q2, hmul_lt hh, hmul_lt hh, hmul_lt hh, hmul_eq hh, hmul_eq hh]
    exact h1
  · have e : (∃ i, i < (setL nelx nelz n WX WZ R lx ly lz).length ∧ (setL nelx nelz n WX WZ R lx ly lz).getD i 0 = k) ↔
        k ∈ setL nelx nelz n WX WZ R lx ly lz := by
      constructor
      · rintro ⟨i, hi, rfl⟩; exact hmem i hi
      · intro hk
        obtain ⟨i, hi, rfl⟩ := List.getElem_of_mem hk
        exact ⟨i, hi, by rw [List.getD_eq_getElem?_getD, List.getElem?_eq_getElem hi]; rfl⟩
    rw [e]
    have key : ∀ a b c, Site nelx nelz n WX WZ G R k a b c → (k ∈ setL nelx nelz n WX WZ R lx ly lz ↔
        At3 nnode (h * (nelx : α)) (h * (height G (2 * n - 1) : α)) (h * (nelz : α)) x lx ly lz k ∧
        (ly = .mid → ¬ OuterLayer (h * (height G (2 * n - 1) : α)) (h * (G 0 : α)) (x k 1))) := by
      intro a b c s
      obtain ⟨p0, p1, p2⟩ := s.x hx
      obtain ⟨b0, b1, b2⟩ := s.bound hL
      rw [mem_setL hL s, At3, p0, p1, p2, Loc.on_holds hh lx b0, Loc.on_holds hh ly b1, Loc.on_holds hh lz b2,
        outer_iff hL hG hh]
      have hlt : k < nnode := by rw [hnn]; exact s.lt
      by_cases hly : ly = .all
      · subst hly
        simp only [band, Loc.on]
        simp [hlt, b1]
      · rw [band_iff hL hly]
        have : ly ≠ .mid → ly.on b (height G (2 * n - 1)) → ¬ OuterN n G b := by
          have h3 : height G 1 ≤ height G (2 * n - 1) := height_mono (by have := hL.npos; omega)
          intro h1 h2
          cases ly <;> simp only [Loc.on, OuterN, ne_eq, not_true_eq_false] at * <;> omega
        constructor
        · rintro ⟨h1, ⟨h2, h3⟩, h4⟩
          exact ⟨⟨hlt, h1, h2, h4⟩, fun _ => h3⟩
        · rintro ⟨⟨-, h1, h2, h4⟩, h3⟩
          refine ⟨h1, ⟨h2, ?_⟩, h4⟩
          by_cases hm : ly = .mid
          · exact h3 hm
          · exact this hm h2
    constructor
    · intro hk
      obtain ⟨a, b, c, s⟩ := setL_site hL hk
      exact (key a b c s).1 hk
    · intro hk
      obtain ⟨a, b, c, s⟩ := hL.site (show k < _ by rw [← hnn]; exact hk.1.1)
      exact (key a b c s).2 hk

theorem NodeSet.congr {r : Res (Ten Nat)} {P Q : Nat → Prop} {S : Nat → Nat → Prop} (h : NodeSet r P S)
    (hPQ : ∀ k, P k ↔ Q k) : NodeSet r Q S := by
  obtain ⟨t, m, f, h1, h2, h3, h4⟩ := h
  exact ⟨t, m, f, h1, h2, h3, fun k => (h4 k).trans (hPQ k)⟩

/-- the same without the outermost layers, if they hold no such nodes -/
theorem setL_nodeSet' (hL : Layers3 nelx nelz n WX WZ G R) (hG : G 0 = G (2 * n - 2)) (hR : R 0 = R (2 * n - 2)) {h : α}
    (hh : 0 < h) {x : Nat → Nat → α} (hx : Placed3 h nelx nelz n WX WZ G R x) {nnode : Nat}
    (hnn : nnode = height (blkC nelx nelz n WX WZ R) (2 * n)) {lx ly lz : Loc}
    (hmid : ly = .mid → (R 0 = 0 → lx = .lo ∨ lx = .hi) ∧ (R 0 = 2 → lz = .lo ∨ lz = .hi)) {r : Res (Ten Nat)}
    (hr : ∃ t, r = .ok t ∧ IsL t (setL nelx nelz n WX WZ R lx ly lz)) :
    NodeSet r (At3 nnode (h * (nelx : α)) (h * (height G (2 * n - 1) : α)) (h * (nelz : α)) x lx ly lz) (BeforeYXZ x) := by
  refine NodeSet.congr (setL_nodeSet hL hG hh hx hnn hr) fun k => ⟨fun h => h.1, fun hk => ⟨hk, fun hly ho => ?_⟩⟩
  obtain ⟨m1, m2⟩ := hmid hly
  obtain ⟨a, b, c, s⟩ := hL.site (show k < _ by rw [← hnn]; exact hk.1)
  obtain ⟨p0, p1, p2⟩ := s.x hx
  obtain ⟨b0, b1, b2⟩ := s.bound hL
  obtain ⟨-, k1, -, k3⟩ := hk
  rw [p0, Loc.on_holds hh lx b0] at k1
  rw [p2, Loc.on_holds hh lz b2] at k3
  rw [p1, outer_iff hL hG hh] at ho
  rcases outer_cases hL hR s ho with ⟨r0, o1, o2⟩ | ⟨r0, o1, o2⟩
  · rcases m1 r0 with rfl | rfl <;> simp only [Loc.on] at k1 <;> omega
  · rcases m2 r0 with rfl | rfl <;> simp only [Loc.on] at k3 <;> omega

theorem setL_corner (hL : Layers3 nelx nelz n WX WZ G R) {h : α} (hh : 0 < h)
    {x : Nat → Nat → α} (hx : Placed3 h nelx nelz n WX WZ G R x) {nnode : Nat}
    (hnn : nnode = height (blkC nelx nelz n WX WZ R) (2 * n)) {lx ly lz : Loc} (hly : ly = .lo ∨ ly = .hi)
    {r : Res Nat} (hr : ∃ c, r = .ok c ∧ setL nelx nelz n WX WZ R lx ly lz = [c]) :
    ∃ c, r = .ok c ∧ ∀ k, At3 nnode (h * (nelx : α)) (h * (height G (2 * n - 1) : α)) (h * (nelz : α)) x lx ly lz k ↔
      k = c := by
  obtain ⟨c, h1, h2⟩ := hr
  refine ⟨c, h1, fun k => ?_⟩
  have key : ∀ a b c', Site nelx nelz n WX WZ G R k a b c' → (At3 nnode (h * (nelx : α))
      (h * (height G (2 * n - 1) : α)) (h * (nelz : α)) x lx ly lz k ↔ k = c) := by
    intro a b c' s
    have hlt : k < nnode := by rw [hnn]; exact s.lt
    obtain ⟨p0, p1, p2⟩ := s.x hx
    obtain ⟨b0, b1, b2⟩ := s.bound hL
    have hm := mem_setL hL (lx := lx) (ly := ly) (lz := lz) s
    rw [h2, List.mem_singleton] at hm
    rw [hm, At3, p0, p1, p2, Loc.on_holds hh lx b0, Loc.on_holds hh ly b1, Loc.on_holds hh lz b2]
    rcases hly with rfl | rfl
    · simp [band, Loc.on, hlt]
    · simp [band, Loc.on, hlt]
  constructor
  · intro hk
    obtain ⟨a, b, c', s⟩ := hL.site (show k < _ by rw [← hnn]; exact hk.1)
    exact (key a b c' s).1 hk
  · rintro rfl
    obtain ⟨a, b, c', s⟩ := setL_site hL (show k ∈ setL nelx nelz n WX WZ R lx ly lz by rw [h2]; simp)
    exact (key a b c' s).2 rfl

theorem inBox (hL : Layers3 nelx nelz n WX WZ G R) {h : α} (hh : 0 < h)
    {x : Nat → Nat → α} (hx : Placed3 h nelx nelz n WX WZ G R x) {nnode : Nat}
    (hnn : nnode = height (blkC nelx nelz n WX WZ R) (2 * n)) :
    InBox3 nnode (h * (nelx : α)) (h * (height G (2 * n - 1) : α)) (h * (nelz : α)) x := by
  have mono : ∀ {a b : Nat}, a ≤ b → 0 ≤ h * (a : α) ∧ h * (a : α) ≤ h * (b : α) := fun hab =>
    ⟨mul_nonneg hh.le (Nat.cast_nonneg _), mul_le_mul_of_nonneg_left (by exact_mod_cast hab) hh.le⟩
  constructor
  · intro m hm
    obtain ⟨a, b, c, s⟩ := hL.site (show m < _ by rw [← hnn]; exact hm)
    obtain ⟨p0, p1, p2⟩ := s.x hx
    obtain ⟨b0, b1, b2⟩ := s.bound hL
    rw [p0, p1, p2]
    exact ⟨mono b0, mono b1, mono b2⟩
  · intro m m' hm hm' e0 e1 e2
    rw [hnn] at hm hm'
    refine node_inj hL hh.ne' hx hm hm' fun j hj => ?_
    obtain rfl | rfl | rfl : j = 0 ∨ j = 1 ∨ j = 2 := by omega
    · exact e0
    · exact e1
    · exact e2

theorem table_pairs (hL : Layers3 nelx nelz n WX WZ G R) (hG : G 0 = G (2 * n - 2)) {h : α} (hh : 0 < h)
    {x : Nat → Nat → α} (hx : Placed3 h nelx nelz n WX WZ G R x) {nnode : Nat}
    (hnn : nnode = height (blkC nelx nelz n WX WZ R) (2 * n)) {k : Nat} {P : Nat → Nat → Nat}
    (hT : Table3 nelx nelz n WX WZ G R k P) :
    PeriodicPairs3Except (fun m => OuterLayer (h * (height G (2 * n - 1) : α)) (h * (G 0 : α)) (x m 1)) nnode
      (h * (nelx : α)) (h * (height G (2 * n - 1) : α)) (h * (nelz : α)) x k P := by
  refine ⟨fun i j hi hj => ?_, fun i hi => ?_, hT.distinct, fun i j hi hj e => ?_, fun i hi => ?_, fun m hm => ?_⟩
  · obtain ⟨lx, ly, lz, -, a, b, c, s1, -, -, -, -, s2⟩ := hT.rows i hi
    rw [hnn]
    obtain rfl | rfl : j = 0 ∨ j = 1 := by omega
    · exact s1.lt
    · exact s2.lt
  · obtain ⟨lx, ly, lz, -, a, b, c, s1, -, -, -, -, s2⟩ := hT.rows i hi
    obtain ⟨p0, p1, p2⟩ := s1.x hx
    obtain ⟨q0, q1, q2⟩ := s2.x hx
    rw [p0, p1, p2, q0, q1, q2]
    have key : ∀ (l : Loc) (a L : Nat), h * ((a + Loc.off l L : Nat) : α) = h * (a : α) ∨
        h * ((a + Loc.off l L : Nat) : α) = h * (a : α) + h * (L : α) := by
      intro l a L
      rw [Loc.off]
      split
      · right; push_cast; ring
      · left; rw [Nat.add_zero]
    exact ⟨key lx a nelx, key ly b _, key lz c nelz⟩
  · obtain ⟨lx, ly, lz, -, a, b, c, s1, a1, b1, c1, o, -⟩ := hT.rows i hi
    rw [e] at s1
    have := (hT.dep _ _ _ _ s1).1 ⟨j, hj, rfl⟩
    omega
  · obtain ⟨lx, ly, lz, -, a, b, c, s1, a1, b1, c1, o, -⟩ := hT.rows i hi
    rw [(s1.x hx).2.1, outer_iff hL hG hh]
    exact o
  · obtain ⟨a, b, c, s⟩ := hL.site (show m < _ by rw [← hnn]; exact hm)
    obtain ⟨p0, p1, p2⟩ := s.x hx
    rw [hT.dep m a b c s]
    rw [p0, p1, p2, outer_iff hL hG hh, hmul_eq hh, hmul_eq hh, hmul_eq hh]

/-- without transition layers at the bottom and the top no node is strictly inside the outermost layers -/
theorem no_outer (hL : Layers3 nelx nelz n WX WZ G R) (hG : G 0 = G (2 * n - 2)) (hR : R 0 = R (2 * n - 2)) (h1 : R 0 = -1)
    {h : α} (hh : 0 < h) {x : Nat → Nat → α} (hx : Placed3 h nelx nelz n WX WZ G R x) {m : Nat}
    (hm : m < height (blkC nelx nelz n WX WZ R) (2 * n)) :
    ¬ OuterLayer (h * (height G (2 * n - 1) : α)) (h * (G 0 : α)) (x m 1) := by
  obtain ⟨a, b, c, s⟩ := hL.site hm
  rw [(s.x hx).2.1, outer_iff hL hG hh]
  intro ho
  rcases outer_cases hL hR s ho with ⟨r0, -⟩ | ⟨r0, -⟩ <;> rw [h1] at r0 <;> omega

end
end GF.FineLayer3
