import Verif.Props.Static
import Verif.Lemmas.StaticBc

/-! **C93** The static example programs on rectangular meshes. -/

namespace GF
open Finset ElemSpec Element Element.Quad4

variable {α : Type} [Field α] [LinearOrder α] [IsStrictOrderedRing α]
variable {nn ne : Nat} {c d : Nat → Nat → Nat} {x : Nat → Nat → α} {Lx Ly : α} {O : Outline}

theorem full_zero {nn m : Nat} : Is2 (Ten.full [nn, m] (0 : α)) nn m fun _ _ => 0 := ⟨rfl, fun _ _ _ _ => rfl⟩

theorem plain_numDofs (h : 0 < nn) : NumDofs nn (fun m i => m * 2 + i) (2 * nn) :=
  ⟨fun m i hm hi => by beta_reduce; omega, nn - 1, 1, by omega, by omega, by beta_reduce; omega⟩

theorem plain_gap (k : Nat) (hk : k < 2 * nn) : ∃ m i, m < nn ∧ i < 2 ∧ m * 2 + i = k := ⟨k / 2, k % 2, by omega, by omega, by omega⟩

/-- the normal displacement of the sides -/
def sideDofs (O : Outline) : List Nat :=
  (List.range O.nr).map (fun k => O.right k * 2 + 0) ++ (List.range O.nt).map (fun k => O.top k * 2 + 1) ++
    (List.range O.nl).map (fun k => O.left k * 2 + 0) ++ (List.range O.nb).map (fun k => O.bottom k * 2 + 1)

theorem mem_sideDofs {m i : Nat} (hi : i < 2) : m * 2 + i ∈ sideDofs O ↔
    (i = 0 ∧ ∃ k, k < O.nr ∧ O.right k = m) ∨ (i = 1 ∧ ∃ k, k < O.nt ∧ O.top k = m) ∨
    (i = 0 ∧ ∃ k, k < O.nl ∧ O.left k = m) ∨ (i = 1 ∧ ∃ k, k < O.nb ∧ O.bottom k = m) := by
  simp only [sideDofs, List.mem_append, List.mem_map, List.mem_range]
  constructor
  · rintro (((⟨k, h, e⟩ | ⟨k, h, e⟩) | ⟨k, h, e⟩) | ⟨k, h, e⟩)
    · exact Or.inl ⟨by omega, k, h, by omega⟩
    · exact Or.inr (Or.inl ⟨by omega, k, h, by omega⟩)
    · exact Or.inr (Or.inr (Or.inl ⟨by omega, k, h, by omega⟩))
    · exact Or.inr (Or.inr (Or.inr ⟨by omega, k, h, by omega⟩))
  · rintro (⟨rfl, k, h, rfl⟩ | ⟨rfl, k, h, rfl⟩ | ⟨rfl, k, h, rfl⟩ | ⟨rfl, k, h, rfl⟩)
    · exact Or.inl (Or.inl (Or.inl ⟨k, h, rfl⟩))
    · exact Or.inl (Or.inl (Or.inr ⟨k, h, rfl⟩))
    · exact Or.inl (Or.inr ⟨k, h, rfl⟩)
    · exact Or.inr ⟨k, h, rfl⟩

theorem sideDofs_lt (hM : RectMesh nn ne c x Lx Ly O) : ∀ k ∈ sideDofs O, k < 2 * nn := by
  intro k hk
  have e : k = k / 2 * 2 + k % 2 := by omega
  rw [e, mem_sideDofs (by omega)] at hk
  have : k / 2 < nn := by
    rcases hk with ⟨-, j, hj, h⟩ | ⟨-, j, hj, h⟩ | ⟨-, j, hj, h⟩ | ⟨-, j, hj, h⟩ <;> rw [← h]
    exacts [(hM.right j hj).1, (hM.top j hj).1, (hM.left j hj).1, (hM.bottom j hj).1]
  omega

omit [IsStrictOrderedRing α] in
theorem sideDofs_nodup (hM : RectMesh nn ne c x Lx Ly O) (lx : 0 < Lx) (ly : 0 < Ly) : (sideDofs O).Nodup := by
  obtain ⟨i1, i2, i3, i4⟩ := hM.sides_inj
  have n1 := nodup_map_range (l := O.nr) (f := fun k => O.right k * 2 + 0) fun i j hi hj e => i4 i j hi hj (by omega)
  have n2 := nodup_map_range (l := O.nt) (f := fun k => O.top k * 2 + 1) fun i j hi hj e => i2 i j hi hj (by omega)
  have n3 := nodup_map_range (l := O.nl) (f := fun k => O.left k * 2 + 0) fun i j hi hj e => i3 i j hi hj (by omega)
  have n4 := nodup_map_range (l := O.nb) (f := fun k => O.bottom k * 2 + 1) fun i j hi hj e => i1 i j hi hj (by omega)
  rw [sideDofs]
  refine List.Nodup.append (List.Nodup.append (List.Nodup.append n1 n2 ?_) n3 ?_) n4 ?_ <;> intro k h1 h2 <;>
    simp only [List.mem_append, List.mem_map, List.mem_range] at h1 h2
  · obtain ⟨i, hi, rfl⟩ := h1
    obtain ⟨j, hj, e⟩ := h2
    omega
  · obtain ⟨j, hj, rfl⟩ := h2
    rcases h1 with ⟨i, hi, e⟩ | ⟨i, hi, e⟩
    · have : O.right i = O.left j := by omega
      have h := (hM.right i hi).2.1
      rw [this, (hM.left j hj).2] at h
      exact lx.ne h
    · omega
  · obtain ⟨j, hj, rfl⟩ := h2
    rcases h1 with (⟨i, hi, e⟩ | ⟨i, hi, e⟩) | ⟨i, hi, e⟩
    · omega
    · have : O.top i = O.bottom j := by omega
      have h := (hM.top i hi).2.1
      rw [this, (hM.bottom j hj).2] at h
      exact ly.ne h
    · omega

theorem sideDofs_supported (hM : RectMesh nn ne c x Lx Ly O) (lx : 0 < Lx) : Supported nn (fun m i => m * 2 + i) x (sideDofs O) := by
  intro f θ b₀ b₁ hf h0
  obtain ⟨s1, s2, s3, s4⟩ := hM.sizes
  obtain ⟨k1, k2, k3, k4⟩ := hM.corners
  have a := hf _ (hM.bottom 0 s1).1
  have b := hf _ (hM.bottom (O.nb - 1) (by omega)).1
  have z0 : f (O.bottom 0 * 2 + 0) = 0 := h0 _ ((mem_sideDofs (by omega)).2 (Or.inr (Or.inr (Or.inl ⟨rfl, 0, s3, hM.perimeter.bl.symm⟩))))
  have z1 : f (O.bottom 0 * 2 + 1) = 0 := h0 _ ((mem_sideDofs (by omega)).2 (Or.inr (Or.inr (Or.inr ⟨rfl, 0, s1, rfl⟩))))
  have z2 : f (O.bottom (O.nb - 1) * 2 + 1) = 0 := h0 _ ((mem_sideDofs (by omega)).2 (Or.inr (Or.inr (Or.inr ⟨rfl, O.nb - 1, by omega, rfl⟩))))
  beta_reduce at a b
  rw [z0, z1, k1, (hM.bottom 0 s1).2] at a
  rw [z2, k2] at b
  have h1 : b₁ = 0 := by linear_combination - a.2
  have h2 : θ * Lx = 0 := by linear_combination - b.2 + a.2
  exact ⟨(mul_eq_zero.1 h2).resolve_right lx.ne', by linear_combination - a.1, h1⟩

/-- the boundary conditions of the first program -/
theorem fixed_bc (hM : RectMesh nn ne c x Lx Ly O) (lx : 0 < Lx) (ly : 0 < Ly) (s thick : α) (S : LinSolver α) (σ : Nat → Nat → Sched)
    {conn bt rt tt lt : Ten Nat} {coor : Ten α} (hx : Is2 coor nn 2 x) (hB : Is1 bt O.nb O.bottom) (hR : Is1 rt O.nr O.right)
    (hT : Is1 tt O.nt O.top) (hL : Is1 lt O.nl O.left) (material : Ten α → Res (Ten α × Ten α)) (a b : α) :
    ∃ (disp1 : Ten α) (g1 : Nat → Nat → α), fixedDisplacement s thick S σ conn (meshDofs nn 2) coor bt rt tt lt material a b =
        staticProgram s thick S σ conn (meshDofs nn 2) (sideDofs O) coor material (Ten.full [nn, 2] 0) (Ten.full [nn, 2] 0) disp1 ∧
      Is2 disp1 nn 2 g1 ∧ ∀ m i, m < nn → i < 2 → m * 2 + i ∈ sideDofs O → g1 m i = if i = 0 then a * x m 0 / Lx else b * x m 1 / Ly := by
  have hd := meshDofs_ok nn
  obtain ⟨t1, a1, b1⟩ := npSetColumn_ok hR (fun k hk => (hM.right k hk).1) (show 0 < 2 by omega) a (full_zero (α := α) (nn := nn) (m := 2))
  obtain ⟨t2, a2, b2⟩ := npSetColumn_ok hT (fun k hk => (hM.top k hk).1) (show 1 < 2 by omega) b b1
  obtain ⟨t3, a3, b3⟩ := npSetColumn_ok hL (fun k hk => (hM.left k hk).1) (show 0 < 2 by omega) 0 b2
  obtain ⟨t4, a4, b4⟩ := npSetColumn_ok hB (fun k hk => (hM.bottom k hk).1) (show 1 < 2 by omega) 0 b3
  refine ⟨t4, _, ?_, b4, fun m i hm hi hk => ?_⟩
  · simp only [fixedDisplacement, npColumn_ok hd hR (fun k hk => (hM.right k hk).1) (show 0 < 2 by omega),
      npColumn_ok hd hT (fun k hk => (hM.top k hk).1) (show 1 < 2 by omega), npColumn_ok hd hL (fun k hk => (hM.left k hk).1) (show 0 < 2 by omega),
      npColumn_ok hd hB (fun k hk => (hM.bottom k hk).1) (show 1 < 2 by omega), Res.ok_bind, hx.1, a1, a2, a3, a4]
    rfl
  · rw [mem_sideDofs hi] at hk
    have xl : (∃ k, k < O.nl ∧ O.left k = m) → x m 0 = 0 := by rintro ⟨k, hj, rfl⟩; exact (hM.left k hj).2
    have xr : (∃ k, k < O.nr ∧ O.right k = m) → x m 0 = Lx := by rintro ⟨k, hj, rfl⟩; exact (hM.right k hj).2.1
    have xb : (∃ k, k < O.nb ∧ O.bottom k = m) → x m 1 = 0 := by rintro ⟨k, hj, rfl⟩; exact (hM.bottom k hj).2
    have xt : (∃ k, k < O.nt ∧ O.top k = m) → x m 1 = Ly := by rintro ⟨k, hj, rfl⟩; exact (hM.top k hj).2.1
    rcases (show i = 0 ∨ i = 1 by omega) with rfl | rfl
    · simp only [true_and, zero_ne_one, false_and, false_or, or_false, if_true, if_false] at hk ⊢
      by_cases hl : ∃ k, k < O.nl ∧ O.left k = m
      · rw [if_pos hl, xl hl]; ring
      · have hr := hk.resolve_right hl
        rw [if_neg hl, if_pos hr, xr hr, mul_div_assoc, div_self lx.ne', mul_one]
    · simp only [true_and, one_ne_zero, false_and, false_or, or_false, if_false] at hk ⊢
      by_cases hb : ∃ k, k < O.nb ∧ O.bottom k = m
      · rw [if_pos hb, xb hb]; ring
      · have ht := hk.resolve_right hb
        rw [if_neg hb, if_pos ht, xt ht, mul_div_assoc, div_self ly.ne', mul_one]

/-- **C93** (fixed displacement) For every elastic material the program succeeds; the prescribed displacements are those that
were set, no external force acts elsewhere, and the residual is exactly zero. -/
theorem C93_fixed_displacement (hM : RectMesh nn ne c x Lx Ly O) (lx : 0 < Lx) (ly : 0 < Ly) {s : α} (s0 : s ≠ 0) (s1 : -1 ≤ s) (s2 : s ≤ 1) {thick : α}
    (t0 : 0 < thick) (σ : Nat → Nat → Sched) {conn bt rt tt lt : Ten Nat} {coor : Ten α} (hc : Is2 conn ne 4 c) (hx : Is2 coor nn 2 x)
    (hB : Is1 bt O.nb O.bottom) (hR : Is1 rt O.nr O.right) (hT : Is1 tt O.nt O.top) (hL : Is1 lt O.nl O.left)
    {material : Ten α → Res (Ten α × Ten α)} {C} (hm : LinearMaterial ne C material) (hE : ∀ e q, e < ne → q < 4 → Elastic (C e q))
    (a b : α) {S : LinSolver α} (hSol : S.Suits (∀ e q, e < ne → q < 4 → Major 2 (C e q))) :
    IsOk (fixedDisplacement s thick S σ conn (meshDofs nn 2) coor bt rt tt lt material a b) fun r => ∃ u F : Nat → Nat → α,
      Is2 r.disp nn 2 u ∧ Is2 r.fint nn 2 F ∧ Is2 r.fext nn 2 F ∧ Is2 r.fres nn 2 (fun _ _ => 0) ∧
      (∀ k, k < O.nr → u (O.right k) 0 = a) ∧ (∀ k, k < O.nt → u (O.top k) 1 = b) ∧
      (∀ k, k < O.nl → u (O.left k) 0 = 0) ∧ (∀ k, k < O.nb → u (O.bottom k) 1 = 0) ∧
      (∀ m, m < nn → (x m 0 ≠ 0 → x m 0 ≠ Lx → F m 0 = 0) ∧ (x m 1 ≠ 0 → x m 1 ≠ Ly → F m 1 = 0)) := by
  obtain ⟨disp1, g1, e1, e2, e3⟩ := fixed_bc hM lx ly s thick S σ (conn := conn) hx hB hR hT hL material a b
  obtain ⟨r, r1, f', F, r2, r3, r4, r5, r6, r7⟩ := C93_residual hM lx ly s0 s1 s2 t0 σ hc hx (meshDofs_ok nn) (plain_numDofs hM.nodes) plain_gap hm hE
    (sideDofs_nodup hM lx ly) (sideDofs_lt hM) (sideDofs_supported hM lx) (w := fun _ => 0) (f := fun k => g1 (k / 2) (k % 2))
    full_zero full_zero e2 (fun m i hm hi _ => by rw [show (m * 2 + i) / 2 = m by omega, show (m * 2 + i) % 2 = i by omega]) hSol
  have val : ∀ m i, m < nn → i < 2 → m * 2 + i ∈ sideDofs O → f' (m * 2 + i) = if i = 0 then a * x m 0 / Lx else b * x m 1 / Ly :=
    fun m i hm hi hk => (r3 m i hm hi hk).trans (e3 m i hm hi hk)
  refine ⟨r, by rw [e1]; exact r1, _, _, r2, r4, r5, r7, fun k hk => ?_, fun k hk => ?_, fun k hk => ?_, fun k hk => ?_, fun m hm => ⟨fun h1 h2 => ?_, fun h1 h2 => ?_⟩⟩
  · have := hM.right k hk
    rw [val _ 0 this.1 (by omega) ((mem_sideDofs (by omega)).2 (Or.inl ⟨rfl, k, hk, rfl⟩)), if_pos rfl, this.2.1, mul_div_assoc, div_self lx.ne', mul_one]
  · have := hM.top k hk
    rw [val _ 1 this.1 (by omega) ((mem_sideDofs (by omega)).2 (Or.inr (Or.inl ⟨rfl, k, hk, rfl⟩))), if_neg one_ne_zero, this.2.1, mul_div_assoc, div_self ly.ne',
      mul_one]
  · have := hM.left k hk
    rw [val _ 0 this.1 (by omega) ((mem_sideDofs (by omega)).2 (Or.inr (Or.inr (Or.inl ⟨rfl, k, hk, rfl⟩)))), if_pos rfl, this.2]; ring
  · have := hM.bottom k hk
    rw [val _ 1 this.1 (by omega) ((mem_sideDofs (by omega)).2 (Or.inr (Or.inr (Or.inr ⟨rfl, k, hk, rfl⟩)))), if_neg one_ne_zero, this.2]; ring
  · refine r6 m 0 hm (by omega) fun hk => ?_
    rw [mem_sideDofs (by omega)] at hk
    rcases hk with ⟨-, k, hk, rfl⟩ | ⟨h, -⟩ | ⟨-, k, hk, rfl⟩ | ⟨h, -⟩
    · exact h2 (hM.right k hk).2.1
    · omega
    · exact h1 (hM.left k hk).2
    · omega
  · refine r6 m 1 hm (by omega) fun hk => ?_
    rw [mem_sideDofs (by omega)] at hk
    rcases hk with ⟨h, -⟩ | ⟨-, k, hk, rfl⟩ | ⟨h, -⟩ | ⟨-, k, hk, rfl⟩
    · omega
    · exact h2 (hM.top k hk).2.1
    · omega
    · exact h1 (hM.bottom k hk).2

/-- **C93** (fixed displacement, uniform isotropic material) The program returns exactly the homogeneous deformation. -/
theorem C93_fixed_displacement_uniform (hM : RectMesh nn ne c x Lx Ly O) (lx : 0 < Lx) (ly : 0 < Ly) {s : α} (s0 : s ≠ 0) (s1 : -1 ≤ s) (s2 : s ≤ 1)
    {thick : α} (t0 : 0 < thick) (σ : Nat → Nat → Sched) {conn bt rt tt lt : Ten Nat} {coor : Ten α} (hc : Is2 conn ne 4 c) (hx : Is2 coor nn 2 x)
    (hB : Is1 bt O.nb O.bottom) (hR : Is1 rt O.nr O.right) (hT : Is1 tt O.nt O.top) (hL : Is1 lt O.nl O.left)
    {material : Ten α → Res (Ten α × Ten α)} {l μ : α} (hμ : 0 < μ) (hl : 0 < l + μ) (hm : LinearMaterial ne (fun _ _ => isotropic l μ) material)
    (a b : α) {S : LinSolver α} (hSol : S.Ldlt) :
    IsOk (fixedDisplacement s thick S σ conn (meshDofs nn 2) coor bt rt tt lt material a b) fun r =>
      Is2 r.disp nn 2 (fun m i => if i = 0 then a * x m 0 / Lx else b * x m 1 / Ly) ∧ Is2 r.fres nn 2 (fun _ _ => 0) := by
  obtain ⟨disp1, g1, e1, e2, e3⟩ := fixed_bc hM lx ly s thick S σ (conn := conn) hx hB hR hT hL material a b
  obtain ⟨z1, z2, z3, z4⟩ := hM.sizes
  have aff : ∀ m i, i < 2 → (0 : α) + ∑ j ∈ range 2, (if i = j then (if i = 0 then a / Lx else b / Ly) else 0) * x m j =
      if i = 0 then a * x m 0 / Lx else b * x m 1 / Ly := fun m i hi => by
    rw [sum_range_succ, sum_range_succ, sum_range_zero]
    rcases (show i = 0 ∨ i = 1 by omega) with rfl | rfl
    · simp; ring
    · simp; ring
  have hz : ∀ (T : Nat → Nat → α) k, (∀ i j, i < 2 → j < 2 → T i j = thick * ddot 2 (isotropic l μ)
      (fun i j => if j = i then (if j = 0 then a / Lx else b / Ly) else 0) i j) → k < 2 * nn → k ∉ sideDofs O →
      O.sum (tractionForce (fun m i => m * 2 + i) x T k) = 0 := by
    intro T k hT hk hki
    have h01 : T 0 1 = 0 := by rw [hT 0 1 (by omega) (by omega)]; simp [ddot, sum_range_succ, isotropic]
    have h10 : T 1 0 = 0 := by rw [hT 1 0 (by omega) (by omega)]; simp [ddot, sum_range_succ, isotropic]
    have nin : ∀ m i, i < 2 → m * 2 + i = k → ¬ ((i = 0 ∧ ∃ k, k < O.nr ∧ O.right k = m) ∨ (i = 1 ∧ ∃ k, k < O.nt ∧ O.top k = m) ∨
        (i = 0 ∧ ∃ k, k < O.nl ∧ O.left k = m) ∨ (i = 1 ∧ ∃ k, k < O.nb ∧ O.bottom k = m)) := fun m i hi e h => hki (by
      rw [← e, mem_sideDofs hi]; exact h)
    rw [Outline.sum, pathSum_zero, pathSum_zero, pathSum_zero, pathSum_zero]
    · ring
    · intro i hi
      refine traction_diag h01 h10 fun j hj => ?_
      rcases (show j = 0 ∨ j = 1 by omega) with rfl | rfl
      · exact Or.inr ⟨fun e => nin _ _ hj e (Or.inr (Or.inr (Or.inl ⟨rfl, i, by omega, rfl⟩))),
          fun e => nin _ _ hj e (Or.inr (Or.inr (Or.inl ⟨rfl, i + 1, by omega, rfl⟩)))⟩
      · left; rw [edgeNormal, if_neg (by omega), (hM.left i (by omega)).2, (hM.left (i + 1) (by omega)).2, sub_self]
    · intro i hi
      refine traction_diag h01 h10 fun j hj => ?_
      rcases (show j = 0 ∨ j = 1 by omega) with rfl | rfl
      · left; rw [edgeNormal, if_pos rfl, (hM.top i (by omega)).2.1, (hM.top (i + 1) (by omega)).2.1, sub_self]
      · exact Or.inr ⟨fun e => nin _ _ hj e (Or.inr (Or.inl ⟨rfl, i, by omega, rfl⟩)),
          fun e => nin _ _ hj e (Or.inr (Or.inl ⟨rfl, i + 1, by omega, rfl⟩))⟩
    · intro i hi
      refine traction_diag h01 h10 fun j hj => ?_
      rcases (show j = 0 ∨ j = 1 by omega) with rfl | rfl
      · exact Or.inr ⟨fun e => nin _ _ hj e (Or.inl ⟨rfl, i, by omega, rfl⟩),
          fun e => nin _ _ hj e (Or.inl ⟨rfl, i + 1, by omega, rfl⟩)⟩
      · left; rw [edgeNormal, if_neg (by omega), (hM.right i (by omega)).2.1, (hM.right (i + 1) (by omega)).2.1, sub_self]
    · intro i hi
      refine traction_diag h01 h10 fun j hj => ?_
      rcases (show j = 0 ∨ j = 1 by omega) with rfl | rfl
      · left; rw [edgeNormal, if_pos rfl, (hM.bottom i (by omega)).2, (hM.bottom (i + 1) (by omega)).2, sub_self]
      · exact Or.inr ⟨fun e => nin _ _ hj e (Or.inr (Or.inr (Or.inr ⟨rfl, i, by omega, rfl⟩))),
          fun e => nin _ _ hj e (Or.inr (Or.inr (Or.inr ⟨rfl, i + 1, by omega, rfl⟩)))⟩
  obtain ⟨r, r1, r2, r3⟩ := static_affine hM lx ly s0 s1 s2 t0 σ hc hx (meshDofs_ok nn) (plain_numDofs hM.nodes) plain_gap hm (isotropic_elastic hμ hl)
    (sideDofs_nodup hM lx ly) (sideDofs_lt hM) (sideDofs_supported hM lx) full_zero full_zero e2
    (A := fun i j => if i = j then (if i = 0 then a / Lx else b / Ly) else 0) (a := fun _ => 0)
    (fA := fun k => if k % 2 = 0 then a * x (k / 2) 0 / Lx else b * x (k / 2) 1 / Ly)
    (fun m i hm hi => by rw [aff m i hi, show (m * 2 + i) / 2 = m by omega, show (m * 2 + i) % 2 = i by omega])
    (fun m i hm hi hk => by rw [aff m i hi]; exact e3 m i hm hi hk) hz (hSol.suits (isotropic_major 2 l μ))
  exact ⟨r, by rw [e1]; exact r1, r2.congr fun m i hm hi => aff m i hi, r3⟩

end GF
