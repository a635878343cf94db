import Verif.Props.Energy
import Verif.Props.Spd

/-! **C109** on the meshes of the library: the hypotheses of `Props/Energy` are met by every Quad4 `Regular` mesh. -/

namespace GF
open Finset ElemSpec Element Element.Quad4

variable {α : Type} [Field α] [LinearOrder α] [IsStrictOrderedRing α]

/-- the hypotheses of the theorems of C109: a regular mesh of any size, held at the lower left corner and vertically at the lower
right corner -/
theorem Quad4.Regular.energy_hyps (nelx nely : Nat) (hx : 0 < nelx) (hy : 0 < nely) {h : α} (hh : 0 < h) :
    let M := Quad4.Regular.new nelx nely h
    ∃ c x O ct xt, RectMesh M.nnode M.nelem c x (h * (nelx : α)) (h * (nely : α)) O ∧
      Quad4.Regular.conn M = .ok ct ∧ Is2 ct M.nelem 4 c ∧ M.coor = .ok xt ∧ Is2 xt M.nnode 2 x ∧
      NumDofs M.nnode (fun m i => m * 2 + i) (2 * M.nnode) ∧ 2 * nelx + 1 < 2 * M.nnode ∧
      Supported M.nnode (fun m i => m * 2 + i) x [0, 1, 2 * nelx + 1] := by
  intro M
  obtain ⟨c, x, O, ct, xt, bt, rt, tt, lt, lo, ro, hM, a1, a2, b1, b2, -, -, -, -, -, -, -, -, -, -, -, -, pos, -⟩ :=
    Quad4.Regular.static nelx nely hh
  have lx : 0 < h * (nelx : α) := mul_pos hh (by exact_mod_cast hx)
  have p0 := pos 0 0 (by omega) (by omega)
  have p1 := pos 0 nelx (by omega) (by omega)
  simp only [Nat.zero_mul, Nat.zero_add, Nat.cast_zero, mul_zero] at p0 p1
  refine ⟨c, x, O, ct, xt, hM, a1, a2, b1, b2, plain_numDofs hM.nodes, by have : nelx < M.nnode := p1.1; omega, ?_⟩
  intro f θ b₀ b₁ hf h0
  obtain ⟨u0, u1⟩ := hf 0 p0.1
  obtain ⟨v0, v1⟩ := hf nelx p1.1
  dsimp only at u0 u1 v1
  rw [Nat.zero_mul, Nat.zero_add, h0 0 (by simp), p0.2.2] at u0
  rw [Nat.zero_mul, Nat.zero_add, h0 1 (by simp), p0.2.1] at u1
  rw [h0 (nelx * 2 + 1) (by simp; omega), p1.2.1] at v1
  have hb : b₁ = 0 := by linarith
  rw [hb, zero_add] at v1
  exact ⟨(mul_eq_zero.1 v1.symm).resolve_right lx.ne', by linarith, hb⟩

/-- **C109** (Quad4 `Regular`) the result of `Solve` has the smallest potential energy -/
theorem C109_quad4_regular {nelx nely : Nat} (hx : 0 < nelx) (hy : 0 < nely) {h : α} (hh : 0 < h) {s : α} (s0 : s ≠ 0) (s1 : -1 ≤ s) (s2 : s ≤ 1)
    (σ τ ρ : Sched) (υ : Nat → Sched) {Ct b u : Ten α} {C g f} (hC : Is6 Ct (nelx * nely) 4 2 2 2 2 C)
    (hE : ∀ e q, e < nelx * nely → q < 4 → Elastic (C e q)) (hmaj : ∀ e q, e < nelx * nely → q < 4 → Major 2 (C e q))
    (hb : Is1 b (2 * ((nelx + 1) * (nely + 1))) g) (hu : Is1 u (2 * ((nelx + 1) * (nely + 1))) f) {S : LinSolver α} (hSol : S.Suits True) :
    let M := Quad4.Regular.new nelx nely h
    let iip := [0, 1, 2 * nelx + 1]
    IsOk (do
      let conn ← Quad4.Regular.conn M
      let coor ← M.coor
      let dofs := meshDofs M.nnode M.ndim
      let (V, Q) ← setup s σ τ conn dofs coor
      let y ← solveLinear S ρ υ conn dofs iip Q Ct b u
      return (V, Q, y)) fun r => ∃ f' γ' vol, Is1 r.2.2 (2 * M.nnode) f' ∧ DofGradient r.1 r.2.1 (2 * M.nnode) M.nelem f' γ' ∧
        Is2 r.2.1.vol M.nelem 4 vol ∧ (∀ k ∈ iip, f' k = f k) ∧ (∀ w, ∃ γ, DofGradient r.1 r.2.1 (2 * M.nnode) M.nelem w γ) ∧
        ∀ w γ, (∀ k ∈ iip, w k = f k) → DofGradient r.1 r.2.1 (2 * M.nnode) M.nelem w γ →
          potential (2 * M.nnode) M.nelem vol C g f' γ' ≤ potential (2 * M.nnode) M.nelem vol C g w γ ∧
          (potential (2 * M.nnode) M.nelem vol C g w γ = potential (2 * M.nnode) M.nelem vol C g f' γ' →
            ∀ k, k < 2 * M.nnode → w k = f' k) := by
  intro M iip
  obtain ⟨c, x, O, ct, xt, hM, a1, a2, b1, b2, hn, hlt, hS⟩ := Quad4.Regular.energy_hyps nelx nely hx hy hh
  have lx : 0 < h * (nelx : α) := mul_pos hh (by exact_mod_cast hx)
  have ly : 0 < h * (nely : α) := mul_pos hh (by exact_mod_cast hy)
  have := C109_minimum hM lx ly s0 s1 s2 σ τ ρ υ a2 b2 (meshDofs_ok _) hn plain_gap hC hE hmaj hb hu (iip := iip) (by simp [iip]; omega)
    (fun k hk => by
      simp only [iip, List.mem_cons, List.not_mem_nil, or_false] at hk
      omega) hS hSol
  have e : (do
      let conn ← Quad4.Regular.conn M
      let coor ← M.coor
      let dofs := meshDofs M.nnode M.ndim
      let (V, Q) ← setup s σ τ conn dofs coor
      let y ← solveLinear S ρ υ conn dofs iip Q Ct b u
      return (V, Q, y)) = (do
      let (V, Q) ← setup s σ τ ct (meshDofs M.nnode 2) xt
      let y ← solveLinear S ρ υ ct (meshDofs M.nnode 2) iip Q Ct b u
      return (V, Q, y)) := by
    simp only [M, a1, b1, Res.ok_bind]
    rfl
  rw [e]
  exact this

/-- all hypotheses can be met: isotropic elasticity, the default solver, any load and prescribed displacement -/
example (g f : Nat → ℚ) : IsOk (do
      let conn ← Quad4.Regular.conn (Quad4.Regular.new 3 2 (1 : ℚ))
      let coor ← (Quad4.Regular.new 3 2 (1 : ℚ)).coor
      let dofs := meshDofs 12 2
      let (V, Q) ← setup (1 / 2) Sched.seq Sched.seq conn dofs coor
      let y ← solveLinear ldlt Sched.seq (fun _ => Sched.seq) conn dofs [0, 1, 7] Q
        (Ten.of [6, 4, 2, 2, 2, 2] fun ix => isotropic 1 1 (ix.getD 2 0) (ix.getD 3 0) (ix.getD 4 0) (ix.getD 5 0))
        (Ten.of [24] fun ix => g (ix.getD 0 0)) (Ten.of [24] fun ix => f (ix.getD 0 0))
      return (V, Q, y)) fun r => ∃ f', Is1 r.2.2 24 f' ∧ ∀ k ∈ [0, 1, 7], f' k = f k :=
  (C109_quad4_regular (nelx := 3) (nely := 2) (h := (1 : ℚ)) (s := 1 / 2) (by norm_num) (by norm_num) (by norm_num) (by norm_num) (by norm_num)
    (by norm_num) Sched.seq Sched.seq Sched.seq (fun _ => Sched.seq) (C := fun _ _ => isotropic 1 1) (g := g) (f := f)
    (S := ldlt) ⟨rfl, fun e q i j k l _ _ _ _ _ _ => by simp [Ten.of]⟩ (fun _ _ _ _ => isotropic_elastic (by norm_num) (by norm_num))
    (fun _ _ _ _ => isotropic_major 2 _ _) (is1_of _ _) (is1_of _ _) (Or.inr ⟨C98_ldlt, trivial⟩)).imp
    fun r ⟨h0, f', γ', vol, h1, h2, h3, h4, h5, h6⟩ => ⟨h0, f', h1, h4⟩

/-- beside `C109_material`: the isotropic material with moduli 1, 1 is nowhere stiffer than that with moduli 2, 3 -/
example (γ : Nat → Nat → ℚ) : power 2 (ddot 2 (isotropic 1 1) γ) γ ≤ power 2 (ddot 2 (isotropic 2 3) γ) γ := by
  have key : ∀ l μ : ℚ, power 2 (ddot 2 (isotropic l μ) γ) γ =
      (l + μ) * (γ 0 0 + γ 1 1) ^ 2 + μ * (γ 0 0 - γ 1 1) ^ 2 + μ * (γ 0 1 + γ 1 0) ^ 2 := by
    intro l μ
    simp only [power, ddot, isotropic, sum_range_succ, sum_range_zero]
    norm_num
    ring
  rw [key, key]
  nlinarith [sq_nonneg (γ 0 0 + γ 1 1), sq_nonneg (γ 0 0 - γ 1 1), sq_nonneg (γ 0 1 + γ 1 0)]

end GF
