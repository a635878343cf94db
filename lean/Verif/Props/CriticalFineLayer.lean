import Verif.Props.CriticalAxi
import Verif.Props.FineLayerEnergy

/-! **C122** on Quad4 `FineLayer` meshes of any size. -/

namespace GF
open Finset ElemSpec Element Element.Quad4

variable {α : Type} [Field α] [LinearOrder α] [IsStrictOrderedRing α]

/-- **C122** every Quad4 `FineLayer` mesh has a critical time step for heterogeneous isotropic materials, for all numberings of the degrees of
freedom, initial conditions, numbers of increments and orders of the loops -/
theorem C122_finelayer {nelx nely : Nat} (px : 0 < nelx) (py : 0 < nely) {h : α} (hh : 0 < h) (nfine : Nat) {s : α} (s1 : -1 ≤ s) (s2 : s ≤ 1)
    {κ θ ρ₀ : α} (hκ : 0 ≤ κ) (hθ : 0 < θ) (hρ : 0 < ρ₀) :
    ∃ M, FineLayer.new nelx nely h nfine = .ok M ∧ ∃ dt₀ : α, 0 < dt₀ ∧ ∀ dt : α, 0 ≤ dt → dt ≤ dt₀ → ∀ {d : Nat → Nat → Nat} (σ : Nat → Sched)
    (υ : Nat → Nat → Sched) {dofs : Ten Nat} {rho : Ten α} (_ : Is2 dofs M.nnode 2 d) (_ : Is2 rho M.nelem 4 fun _ _ => ρ₀)
    {material : List (Ten α) → Res (Ten α)} {l μ : Nat → Nat → α} (_ : ∀ e q, 0 ≤ l e q) (_ : ∀ e q, 0 < μ e q) (_ : ∀ e q, 2 * (l e q + μ e q) ≤ κ)
    (_ : HistoryFree M.nelem material fun E e q => ddot 2 (isotropic (l e q) (μ e q)) (E e q))
    {u v a fext : Ten α} {U : Nat → Nat → α} {V A : Nat → α} (_ : Is2 u M.nnode 2 U) (_ : Is2 v M.nnode 2 fun m i => V (d m i))
    (_ : Is2 a M.nnode 2 fun m i => A (d m i)) (_ : Is2 fext M.nnode 2 fun _ _ => 0) (n : Nat) (ρ τ : Sched),
    IsOk (do
      let conn ← M.conn
      let coor ← M.coor
      let (D, m) ← Dynamics.new s σ conn dofs coor rho
      let S ← D.run dt material fext υ 1 ⟨u, v, a, m, []⟩
      let E ← D.strain ρ τ S.u
      let S' ← D.run dt material fext υ (n + 1) ⟨u, v, a, m, []⟩
      let E' ← D.strain ρ τ S'.u
      return (D, m, S, E, S', E')) fun (D, m, S, E, S', E') => ∃ (N : Nat) (mass : Nat → α) (vol : Nat → Nat → α), NumDofs M.nnode d N ∧ Is1 m.A N mass ∧
        Is2 D.quad.vol M.nelem 4 vol ∧
        ∃ (V₁ : Nat → α) (E₁ : Nat → Nat → Nat → Nat → α) (V₂ : Nat → α) (E₂ : Nat → Nat → Nat → Nat → α), Is2 S.v M.nnode 2 (fun m i => V₁ (d m i)) ∧ Is4 E M.nelem 4 2 2 E₁ ∧
          Is2 S'.v M.nnode 2 (fun m i => V₂ (d m i)) ∧ Is4 E' M.nelem 4 2 2 E₂ ∧
          1 / 2 * ∑ k ∈ range N, mass k * V₂ k ^ 2 + (1 - θ) * (1 / 2 * elasticWork M.nelem vol (fun e q => isotropic (l e q) (μ e q)) E₂) ≤
          1 / 2 * ∑ k ∈ range N, mass k * V₁ k ^ 2 + 1 / 2 * elasticWork M.nelem vol (fun e q => isotropic (l e q) (μ e q)) E₁ := by
  obtain ⟨M, Ny, c, x, O, cn, xt, pt, np, P, bl, h1, h2, hNy, hM, a1, a2, b1, b2, -⟩ := FineLayer.cell_hyps px py hh nfine
  have lx : 0 < h * (nelx : α) := mul_pos hh (by exact_mod_cast px)
  have ly : 0 < h * (Ny : α) := mul_pos hh (by exact_mod_cast hNy)
  obtain ⟨δ, d0, d1⟩ := C122_quad4_exists hM lx ly s1 s2 (R := fun _ _ => ρ₀) (fun _ _ _ _ => hρ) hκ hθ
  refine ⟨M, h1, δ, d0, fun dt t0 t1 => ?_⟩
  intro d σ υ dofs rho hd hr material l μ hl hμ hk hm u v a fext U V A hu hv ha hf n ρ τ
  have hE : ∀ e q, Elastic (isotropic (l e q) (μ e q)) := fun e q => isotropic_elastic (hμ e q) (add_pos_of_nonneg_of_pos (hl e q) (hμ e q))
  obtain ⟨t, g1, g2⟩ := d1 dt t0 t1 (d := d) σ υ a2 b2 hd hr (C := fun e q => isotropic (l e q) (μ e q)) hm
    (fun _ _ i j k m _ _ hi hj hk hm => isotropic_major 2 _ _ i j k m hi hj hk hm)
    (fun e q i j k m _ _ hi hj hk hm => by
      have := (hE e q).minor k m i j hk hm hi hj
      rw [isotropic_major 2 _ _ i j k m hi hj hk hm, this, isotropic_major 2 _ _ k m j i hk hm hj hi])
    (fun e q g _ _ => (hE e q).nonneg g)
    (fun e q g _ _ => (isotropic_stiff (hl e q) (hμ e q).le g).trans (mul_le_mul_of_nonneg_right (hk e q)
      (by rw [power]; exact sum_nonneg fun _ _ => sum_nonneg fun _ _ => mul_self_nonneg _)))
    hu hv ha hf n ρ τ
  refine ⟨t, ?_, g2⟩
  rw [a1, Res.ok_bind, b1, Res.ok_bind]
  exact g1

/-! Non-vacuity: the `FineLayer` mesh of 9 by 21 elements, integration point coordinate 1/2: there is a material, there are initial conditions
and there is a time step for which the theorem applies. -/
example : ∃ (M : FineLayer ℚ) (dt : ℚ) (material : List (Ten ℚ) → Res (Ten ℚ)) (u v rho : Ten ℚ), FineLayer.new 9 21 1 5 = .ok M ∧ 0 < dt ∧
    HistoryFree M.nelem material (fun E e q => ddot 2 (isotropic 1 (1 + (e % 2 : Nat))) (E e q)) ∧ IsOk (do
      let conn ← M.conn
      let coor ← M.coor
      let (D, m) ← Dynamics.new (1 / 2) (fun _ => Sched.seq) conn (meshDofs M.nnode 2) coor rho
      let S ← D.run dt material v (fun _ _ => Sched.seq) 1 ⟨u, v, v, m, []⟩
      let E ← D.strain Sched.seq Sched.rev S.u
      let S' ← D.run dt material v (fun _ _ => Sched.seq) 1001 ⟨u, v, v, m, []⟩
      let E' ← D.strain Sched.seq Sched.rev S'.u
      return (D, m, S, E, S', E')) fun _ => True := by
  obtain ⟨M, h1, δ, d0, d1⟩ := C122_finelayer (nelx := 9) (nely := 21) (by omega) (by omega) (h := (1 : ℚ)) one_pos 5 (s := 1 / 2) (by norm_num) (by norm_num)
    (κ := 6) (θ := 1 / 2) (ρ₀ := 1) (by norm_num) (by norm_num) one_pos
  obtain ⟨mat, hm⟩ := linear_material M.nelem fun e _ => isotropic (1 : ℚ) (1 + (e % 2 : Nat))
  have hu : Is2 (Ten.of [M.nnode, 2] fun i => match i with | [m, i] => ((m * m + i : Nat) : ℚ) | _ => 0) M.nnode 2 fun m i => ((m * m + i : Nat) : ℚ) := ⟨rfl, fun _ _ _ _ => rfl⟩
  have hv : Is2 (Ten.of [M.nnode, 2] fun _ => (0 : ℚ)) M.nnode 2 fun m i => (fun _ : Nat => (0 : ℚ)) (m * 2 + i) := ⟨rfl, fun _ _ _ _ => rfl⟩
  have hr : Is2 (Ten.of [M.nelem, 4] fun _ => (1 : ℚ)) M.nelem 4 fun _ _ => 1 := ⟨rfl, fun _ _ _ _ => rfl⟩
  obtain ⟨t, t1, -⟩ := d1 δ d0.le le_rfl (d := fun m i => m * 2 + i) (fun _ => Sched.seq) (fun _ _ => Sched.seq) (meshDofs_ok M.nnode) hr
    (l := fun _ _ => 1) (μ := fun e _ => 1 + ((e % 2 : Nat) : ℚ)) (fun _ _ => by norm_num) (fun e _ => by positivity)
    (fun e _ => by
      have : ((e % 2 : Nat) : ℚ) ≤ 1 := by exact_mod_cast (by omega : e % 2 ≤ 1)
      linarith) hm hu (V := fun _ => 0) (A := fun _ => 0) hv hv hv 1000 Sched.seq Sched.rev
  exact ⟨M, δ, mat, _, _, _, h1, d0, hm, t, t1, trivial⟩

/-- **C122** as `C122_finelayer`, for the hollow cylinder with inner radius `r₀` whose section is the `FineLayer` mesh -/
theorem C122_finelayer_axi {nelx nely : Nat} (px : 0 < nelx) (py : 0 < nely) {h : α} (hh : 0 < h) (nfine : Nat) {s : α} (s1 : -1 ≤ s) (s2 : s ≤ 1)
    {pi : α} (hpi : 0 < pi) {r₀ : α} (hr0 : 0 < r₀) {κ θ ρ₀ : α} (hκ : 0 ≤ κ) (hθ : 0 < θ) (hρ : 0 < ρ₀) :
    ∃ M, FineLayer.new nelx nely h nfine = .ok M ∧ ∃ dt₀ : α, 0 < dt₀ ∧ ∀ dt : α, 0 ≤ dt → dt ≤ dt₀ → ∀ {d : Nat → Nat → Nat} (σ : Nat → Sched)
    (υ : Nat → Nat → Sched) {dofs : Ten Nat} {rho : Ten α} (_ : Is2 dofs M.nnode 2 d) (_ : Is2 rho M.nelem 4 fun _ _ => ρ₀)
    {material : List (Ten α) → Res (Ten α)} {l μ : Nat → Nat → α} (_ : ∀ e q, 0 ≤ l e q) (_ : ∀ e q, 0 < μ e q) (_ : ∀ e q, 3 * l e q + 2 * μ e q ≤ κ)
    (_ : HistoryFreeAxi M.nelem material fun E e q => ddot 3 (isotropic (l e q) (μ e q)) (E e q))
    {u v a fext : Ten α} {U : Nat → Nat → α} {V A : Nat → α} (_ : Is2 u M.nnode 2 U) (_ : Is2 v M.nnode 2 fun m i => V (d m i))
    (_ : Is2 a M.nnode 2 fun m i => A (d m i)) (_ : Is2 fext M.nnode 2 fun _ _ => 0) (n : Nat) (ρ τ : Sched),
    IsOk (do
      let conn ← M.conn
      let coor ← M.coor
      let (D, m) ← DynamicsAxi.new s pi σ conn dofs (addRadius r₀ coor) rho
      let S ← D.run dt material fext υ 1 ⟨u, v, a, m, []⟩
      let E ← D.strain ρ τ S.u
      let S' ← D.run dt material fext υ (n + 1) ⟨u, v, a, m, []⟩
      let E' ← D.strain ρ τ S'.u
      return (D, m, S, E, S', E')) fun (D, m, S, E, S', E') => ∃ (N : Nat) (mass : Nat → α) (vol : Nat → Nat → α), NumDofs M.nnode d N ∧ Is1 m.A N mass ∧
        Is2 D.quad.vol M.nelem 4 vol ∧
        ∃ (V₁ : Nat → α) (E₁ : Nat → Nat → Nat → Nat → α) (V₂ : Nat → α) (E₂ : Nat → Nat → Nat → Nat → α), Is2 S.v M.nnode 2 (fun m i => V₁ (d m i)) ∧ Is4 E M.nelem 4 3 3 E₁ ∧
          Is2 S'.v M.nnode 2 (fun m i => V₂ (d m i)) ∧ Is4 E' M.nelem 4 3 3 E₂ ∧
          1 / 2 * ∑ k ∈ range N, mass k * V₂ k ^ 2 + (1 - θ) * (1 / 2 * elasticWorkAxi M.nelem vol (fun e q => isotropic (l e q) (μ e q)) E₂) ≤
          1 / 2 * ∑ k ∈ range N, mass k * V₁ k ^ 2 + 1 / 2 * elasticWorkAxi M.nelem vol (fun e q => isotropic (l e q) (μ e q)) E₁ := by
  obtain ⟨M, Ny, c, x, O, cn, xt, pt, np, P, bl, h1, h2, hNy, hM, a1, a2, b1, b2, -⟩ := FineLayer.cell_hyps px py hh nfine
  have lx : 0 < h * (nelx : α) := mul_pos hh (by exact_mod_cast px)
  have ly : 0 < h * (Ny : α) := mul_pos hh (by exact_mod_cast hNy)
  obtain ⟨δ, d0, d1⟩ := C122_axi_exists (hM.ringMesh lx ly hr0.le) s1 s2 hpi (fun m hm => by
      rw [ringPos_one]
      have := (hM.inside m hm).2.2.1
      linarith) (R := fun _ _ => ρ₀) (fun _ _ _ _ => hρ) hκ hθ
  refine ⟨M, h1, δ, d0, fun dt t0 t1 => ?_⟩
  intro d σ υ dofs rho hd hr material l μ hl hμ hk hm u v a fext U V A hu hv ha hf n ρ τ
  have hE : ∀ e q, Elastic3 (isotropic (l e q) (μ e q)) := fun e q => isotropic_elastic3 (hμ e q) (by have := hl e q; have := hμ e q; linarith)
  obtain ⟨t, g1, g2⟩ := d1 dt t0 t1 (d := d) σ υ a2 (addRadius_ok (R := r₀) b2) hd hr (C := fun e q => isotropic (l e q) (μ e q)) hm
    (fun _ _ i j k m _ _ hi hj hk hm => isotropic_major 3 _ _ i j k m hi hj hk hm)
    (fun e q i j k m _ _ hi hj hk hm => by
      have := (hE e q).minor k m i j hk hm hi hj
      rw [isotropic_major 3 _ _ i j k m hi hj hk hm, this, isotropic_major 3 _ _ k m j i hk hm hj hi])
    (fun e q g _ _ => (hE e q).nonneg g)
    (fun e q g _ _ => (isotropic_stiff3 (hl e q) (hμ e q).le g).trans (mul_le_mul_of_nonneg_right (hk e q)
      (by rw [power]; exact sum_nonneg fun _ _ => sum_nonneg fun _ _ => mul_self_nonneg _)))
    hu hv ha hf n ρ τ
  refine ⟨t, ?_, g2⟩
  rw [a1, Res.ok_bind, b1, Res.ok_bind]
  exact g1

end GF
