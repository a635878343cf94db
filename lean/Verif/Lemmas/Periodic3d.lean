import Verif.Lemmas.MeshBase
import Verif.Lemmas.Periodic2d
import Verif.Spec.Mesh3d

/-! Periodic DOFs of a three-dimensional mesh. -/

namespace GF
variable {α : Type} [Field α] [LinearOrder α] [IsStrictOrderedRing α]

/-- the nodes are distinct points of a box -/
structure InBox3 (nnode : Nat) (Lx Ly Lz : α) (x : Nat → Nat → α) : Prop where
  bnd : ∀ m, m < nnode → (0 ≤ x m 0 ∧ x m 0 ≤ Lx) ∧ (0 ≤ x m 1 ∧ x m 1 ≤ Ly) ∧ (0 ≤ x m 2 ∧ x m 2 ≤ Lz)
  inj : ∀ m m', m < nnode → m' < nnode → x m 0 = x m' 0 → x m 1 = x m' 1 → x m 2 = x m' 2 → m = m'

theorem periodic_dofs3 {skip : Nat → Prop} {nnode : Nat} {Lx Ly Lz : α} {x : Nat → Nat → α} {n : Nat} {P : Nat → Nat → Nat}
    {nodePer : Ten Nat} (h : Is2 nodePer n 2 P) (hR : InBox3 nnode Lx Ly Lz x)
    (hP : PeriodicPairs3Except skip nnode Lx Ly Lz x n P) :
    ∃ y d, dofsPeriodic nnode 3 nodePer = .ok y ∧ Is2 y nnode 3 d ∧
      (∀ m i m' i', m < nnode → i < 3 → m' < nnode → i' < 3 →
        (d m i = d m' i' ↔ (m = m' ∨ (¬ skip m ∧ ¬ skip m' ∧ LatticeEq3 Lx Ly Lz (x m) (x m'))) ∧ i = i')) ∧
      (∀ v, (∃ m i, m < nnode ∧ i < 3 ∧ d m i = v) ↔ v < (nnode - n) * 3) := by
  classical
  let rep : Nat → Nat := fun m => if hm : ∃ k, k < n ∧ P k 1 = m then P hm.choose 0 else m
  have r1 : ∀ k, k < n → rep (P k 1) = P k 0 := by
    intro k hk
    have hm : ∃ k', k' < n ∧ P k' 1 = P k 1 := ⟨k, hk, rfl⟩
    simp only [rep]
    rw [dif_pos hm]
    have := hm.choose_spec
    rw [hP.distinct _ _ this.1 hk this.2]
  have r2 : ∀ m, (∀ k, k < n → P k 1 ≠ m) → rep m = m := by
    intro m hm
    simp only [rep]
    rw [dif_neg]
    rintro ⟨k, hk, e⟩
    exact hm k hk e
  obtain ⟨y, d, y1, y2, y3, y4⟩ := dofsPeriodic_spec (ndim := 3) h hP.valid rep r1 r2 hP.independent
  have cls : ∀ m, (∃ k, k < n ∧ m = P k 1 ∧ rep m = P k 0) ∨ ((∀ k, k < n → P k 1 ≠ m) ∧ rep m = m) := by
    intro m
    by_cases hc : ∃ k, k < n ∧ P k 1 = m
    · obtain ⟨k, hk, rfl⟩ := hc
      exact Or.inl ⟨k, hk, rfl, r1 k hk⟩
    · have hc' : ∀ k, k < n → P k 1 ≠ m := fun k hk e => hc ⟨k, hk, e⟩
      exact Or.inr ⟨hc', r2 m hc'⟩
  have sk : ∀ m, m < nnode → skip m → rep m = m ∧ ∀ m', rep m' = m → m' = m := by
    intro m hm hs
    constructor
    · rcases cls m with ⟨k, hk, rfl, -⟩ | ⟨-, e⟩
      · exact absurd hs ((hP.dependent _ hm).1 ⟨k, hk, rfl⟩).2
      · exact e
    · intro m' he
      rcases cls m' with ⟨k, hk, rfl, e⟩ | ⟨-, e⟩
      · rw [e] at he
        subst he
        exact absurd hs (hP.kept k hk)
      · rw [← e, he]
  have rl : ∀ m, ∃ a b c : ℤ, x m 0 = x (rep m) 0 + a * Lx ∧ x m 1 = x (rep m) 1 + b * Ly ∧
      x m 2 = x (rep m) 2 + c * Lz := by
    intro m
    rcases cls m with ⟨k, hk, rfl, e⟩ | ⟨-, e⟩
    · rw [e]
      obtain ⟨h0, h1, h2⟩ := hP.shift k hk
      have key : ∀ {u v L : α}, u = v ∨ u = v + L → ∃ a : ℤ, u = v + a * L := by
        intro u v L h
        rcases h with h | h
        · exact ⟨0, by rw [h]; simp⟩
        · exact ⟨1, by rw [h]; simp⟩
      obtain ⟨a, ha⟩ := key h0
      obtain ⟨b, hb⟩ := key h1
      obtain ⟨c, hc⟩ := key h2
      exact ⟨a, b, c, ha, hb, hc⟩
    · rw [e]; exact ⟨0, 0, 0, by simp, by simp, by simp⟩
  have rlt : ∀ m, m < nnode → ¬ skip m → rep m < nnode ∧ x (rep m) 0 < Lx ∧ x (rep m) 1 < Ly ∧ x (rep m) 2 < Lz := by
    intro m hm hs
    have nd : ∀ q, q < nnode → ¬ skip q → (∀ k, k < n → P k 1 ≠ q) → x q 0 < Lx ∧ x q 1 < Ly ∧ x q 2 < Lz := by
      intro q hq hsq hnd
      have h1 : ¬ (x q 0 = Lx ∨ x q 1 = Ly ∨ x q 2 = Lz) := by
        intro hc
        obtain ⟨k, hk, e⟩ := (hP.dependent q hq).2 ⟨hc, hsq⟩
        exact hnd k hk e
      rw [not_or, not_or] at h1
      obtain ⟨⟨-, b1⟩, ⟨-, b2⟩, ⟨-, b3⟩⟩ := hR.bnd q hq
      exact ⟨lt_of_le_of_ne b1 h1.1, lt_of_le_of_ne b2 h1.2.1, lt_of_le_of_ne b3 h1.2.2⟩
    rcases cls m with ⟨k, hk, rfl, e⟩ | ⟨hn, e⟩
    · rw [e]
      have hv := hP.valid k 0 hk (by omega)
      exact ⟨hv, nd _ hv (hP.kept k hk) fun k' hk' => (hP.independent k k' hk hk').symm⟩
    · rw [e]; exact ⟨hm, nd m hm hs hn⟩
  refine ⟨y, d, y1, y2, fun m i m' i' hm hi hm' hi' => ?_, fun v => ?_⟩
  · rw [y3 m i m' i' hm hi hm' hi']
    refine and_congr_left fun _ => ?_
    by_cases hs : skip m
    · obtain ⟨s1, s2⟩ := sk m hm hs
      constructor
      · intro e
        rw [s1] at e
        exact .inl (s2 m' e.symm).symm
      · rintro (rfl | ⟨hc, -⟩)
        · rfl
        · exact absurd hs hc
    by_cases hs' : skip m'
    · obtain ⟨s1, s2⟩ := sk m' hm' hs'
      constructor
      · intro e
        rw [s1] at e
        exact .inl (s2 m e)
      · rintro (rfl | ⟨-, hc, -⟩)
        · rfl
        · exact absurd hs' hc
    obtain ⟨a, b, c, ha, hb, hc⟩ := rl m
    obtain ⟨a', b', c', ha', hb', hc'⟩ := rl m'
    obtain ⟨l1, l2, l3, l4⟩ := rlt m hm hs
    obtain ⟨l1', l2', l3', l4'⟩ := rlt m' hm' hs'
    constructor
    · intro e
      refine .inr ⟨hs, hs', a' - a, b' - b, c' - c, ?_, ?_, ?_⟩
      · rw [ha, ha', e]; push_cast; ring
      · rw [hb, hb', e]; push_cast; ring
      · rw [hc, hc', e]; push_cast; ring
    · rintro (rfl | ⟨-, -, p, q, r, hp, hq, hr⟩)
      · rfl
      obtain ⟨⟨c1, -⟩, ⟨c2, -⟩, ⟨c3, -⟩⟩ := hR.bnd _ l1
      obtain ⟨⟨c1', -⟩, ⟨c2', -⟩, ⟨c3', -⟩⟩ := hR.bnd _ l1'
      refine hR.inj _ _ l1 l1' ?_ ?_ ?_
      · refine lattice_small c1 l2 c1' l2' (a := p + a - a') ?_
        rw [ha, ha'] at hp
        push_cast
        linear_combination hp
      · refine lattice_small c2 l3 c2' l3' (a := q + b - b') ?_
        rw [hb, hb'] at hq
        push_cast
        linear_combination hq
      · refine lattice_small c3 l4 c3' l4' (a := r + c - c') ?_
        rw [hc, hc'] at hr
        push_cast
        linear_combination hr
  · rw [y4]
    have : ((Finset.range nnode).filter fun m => rep m = m).card = nnode - n := by
      have hd : ((Finset.range nnode).filter fun m => ¬ rep m = m) = (Finset.range n).image (fun k => P k 1) := by
        ext m
        simp only [Finset.mem_filter, Finset.mem_range, Finset.mem_image]
        constructor
        · rintro ⟨hm, hne⟩
          rcases cls m with ⟨k, hk, rfl, -⟩ | ⟨-, e⟩
          · exact ⟨k, hk, rfl⟩
          · exact absurd e hne
        · rintro ⟨k, hk, rfl⟩
          refine ⟨hP.valid k 1 hk (by omega), ?_⟩
          rw [r1 k hk]
          exact hP.independent k k hk hk
      have hc : ((Finset.range n).image (fun k => P k 1)).card = n := by
        rw [Finset.card_image_of_injOn, Finset.card_range]
        intro k hk k' hk' e
        simp only [Finset.coe_range, Set.mem_Iio] at hk hk'
        exact hP.distinct k k' hk hk' e
      have := Finset.card_filter_add_card_filter_not (s := Finset.range nnode) (fun m => rep m = m)
      rw [hd, hc, Finset.card_range] at this
      omega
    rw [this]

end GF
