import Verif.Props.EnergyAxi
import Verif.Props.EnergyMeshes
import Verif.Props.AxiMeshes

/-! **C115** on the meshes of the library: the hypotheses of `Props/EnergyAxi` are met by every cylinder (hollow or not) that is
meshed with a Quad4 `Regular` mesh and held in axial direction at one node. -/

namespace GF
open Finset ElemSpec Element Element.Quad4

variable {α : Type} [Field α] [LinearOrder α] [IsStrictOrderedRing α]

/-- **C115** (Quad4 `Regular`) the result of `Solve` has the smallest potential energy -/
theorem C115_quad4_regular {nelx nely : Nat} (hx : 0 < nelx) (hy : 0 < nely) {h : α} (hh : 0 < h) {R : α} (hR : 0 ≤ R) {s pi : α} (s0 : s ≠ 0)
    (s1 : -1 < s) (s2 : s < 1) (hpi : 0 < pi)
    (σ τ ρ : Sched) (υ : Nat → Sched) {Ct b u : Ten α} {C g f} (hC : Is6 Ct (nelx * nely) 4 3 3 3 3 C)
    (hE : ∀ e q, e < nelx * nely → q < 4 → Elastic3 (C e q)) (hmaj : ∀ e q, e < nelx * nely → q < 4 → Major 3 (C e q))
    (hb : Is1 b (2 * ((nelx + 1) * (nely + 1))) g) (hu : Is1 u (2 * ((nelx + 1) * (nely + 1))) f) {iip : List Nat} (hi : iip.Nodup)
    (hin : ∀ k ∈ iip, k < 2 * ((nelx + 1) * (nely + 1))) (hS : ∃ m, m < (nelx + 1) * (nely + 1) ∧ m * 2 ∈ iip)
    {S : LinSolver α} (hSol : S.Suits True) :
    let M := Quad4.Regular.new nelx nely h
    IsOk (do
      let conn ← Quad4.Regular.conn M
      let coor ← M.coor
      let dofs := meshDofs M.nnode M.ndim
      let (V, Q) ← setupAxi s pi σ τ conn dofs (addRadius R coor)
      let y ← solveLinearAxi S ρ υ conn dofs iip Q Ct b u
      return (V, Q, y)) fun r => ∃ f' γ' vol, Is1 r.2.2 (2 * M.nnode) f' ∧ DofGradientAxi r.1 r.2.1 (2 * M.nnode) M.nelem f' γ' ∧
        Is2 r.2.1.vol M.nelem 4 vol ∧ (∀ k ∈ iip, f' k = f k) ∧ (∀ w, ∃ γ, DofGradientAxi r.1 r.2.1 (2 * M.nnode) M.nelem w γ) ∧
        ∀ w γ, (∀ k ∈ iip, w k = f k) → DofGradientAxi r.1 r.2.1 (2 * M.nnode) M.nelem w γ →
          potentialAxi (2 * M.nnode) M.nelem vol C g f' γ' ≤ potentialAxi (2 * M.nnode) M.nelem vol C g w γ ∧
          (potentialAxi (2 * M.nnode) M.nelem vol C g w γ = potentialAxi (2 * M.nnode) M.nelem vol C g f' γ' →
            ∀ k, k < 2 * M.nnode → w k = f' k) := by
  intro M
  obtain ⟨c, x, O, ct, xt, hM, a1, a2, b1, b2, hn, hlt, -⟩ := Quad4.Regular.energy_hyps nelx nely hx hy hh
  have lx : 0 < h * (nelx : α) := mul_pos hh (by exact_mod_cast hx)
  have ly : 0 < h * (nely : α) := mul_pos hh (by exact_mod_cast hy)
  have := C115_minimum hM lx ly hR s0 s1 s2 hpi σ τ ρ υ a2 (addRadius_ok b2) (meshDofs_ok _) hn plain_gap hC hE hmaj hb hu (iip := iip) hi hin hS hSol
  have e : (do
      let conn ← Quad4.Regular.conn M
      let coor ← M.coor
      let dofs := meshDofs M.nnode M.ndim
      let (V, Q) ← setupAxi s pi σ τ conn dofs (addRadius R coor)
      let y ← solveLinearAxi S ρ υ conn dofs iip Q Ct b u
      return (V, Q, y)) = (do
      let (V, Q) ← setupAxi s pi σ τ ct (meshDofs M.nnode 2) (addRadius R xt)
      let y ← solveLinearAxi S ρ υ ct (meshDofs M.nnode 2) iip Q Ct b u
      return (V, Q, y)) := by
    simp only [M, a1, b1, Res.ok_bind]
    rfl
  rw [e]
  exact this

/-- all hypotheses can be met: a solid cylinder of an isotropic material, the default solver, any load and prescribed displacement -/
example (g f : Nat → ℚ) : IsOk (do
      let conn ← Quad4.Regular.conn (Quad4.Regular.new 3 2 (1 : ℚ))
      let coor ← (Quad4.Regular.new 3 2 (1 : ℚ)).coor
      let dofs := meshDofs 12 2
      let (V, Q) ← setupAxi (1 / 2) 3 Sched.seq Sched.seq conn dofs (addRadius 0 coor)
      let y ← solveLinearAxi ldlt Sched.seq (fun _ => Sched.seq) conn dofs [0] Q
        (Ten.of [6, 4, 3, 3, 3, 3] fun ix => isotropic 1 1 (ix.getD 2 0) (ix.getD 3 0) (ix.getD 4 0) (ix.getD 5 0))
        (Ten.of [24] fun ix => g (ix.getD 0 0)) (Ten.of [24] fun ix => f (ix.getD 0 0))
      return (V, Q, y)) fun r => ∃ f', Is1 r.2.2 24 f' ∧ ∀ k ∈ [0], f' k = f k :=
  (C115_quad4_regular (nelx := 3) (nely := 2) (h := (1 : ℚ)) (s := 1 / 2) (pi := 3) (by norm_num) (by norm_num) (by norm_num) (le_refl 0)
    (by norm_num) (by norm_num) (by norm_num) (by norm_num) Sched.seq Sched.seq Sched.seq (fun _ => Sched.seq) (C := fun _ _ => isotropic 1 1)
    (g := g) (f := f) (iip := [0])
    (S := ldlt) ⟨rfl, fun e q i j k l _ _ _ _ _ _ => by simp [Ten.of]⟩ (fun _ _ _ _ => isotropic_elastic3 (by norm_num) (by norm_num))
    (fun _ _ _ _ => isotropic_major 3 _ _) (is1_of _ _) (is1_of _ _) (by decide) (by decide) ⟨0, by decide, by decide⟩ (Or.inr ⟨C98_ldlt, trivial⟩)).imp
    fun r ⟨h0, f', γ', vol, h1, h2, h3, h4, h5, h6⟩ => ⟨h0, f', h1, h4⟩

end GF
