import Verif.Props.Energy3
import Verif.Props.Homogenised3

/-! **C113** on the meshes of the library: the hypotheses of `Props/Energy3` are met by every Hex8 `Regular` mesh. -/

namespace GF
open Finset ElemSpec Element Element.Hex8
open Element.Quad4 (ddot power grad)

variable {α : Type} [Field α] [LinearOrder α] [IsStrictOrderedRing α]

/-- the hypotheses of the theorems of C113: a regular mesh of any size, held at three corners of the bottom (in all three directions, in
two, and in one) -/
theorem Hex8.Regular.energy_hyps {nelx nely nelz : Nat} (hx : 0 < nelx) (hy : 0 < nely) (hz : 0 < nelz) {h : α} (hh : 0 < h) :
    let M := Hex8.Regular.new nelx nely nelz h
    ∃ c x g p ct xt, BoxMesh M.nnode M.nelem c x g p ∧
      Hex8.Regular.conn M = .ok ct ∧ Is2 ct M.nelem 8 c ∧ Hex8.Regular.coor M = .ok xt ∧ Is2 xt M.nnode 3 x ∧
      NumDofs3 M.nnode (fun m i => m * 3 + i) (3 * M.nnode) ∧ 3 * (nelx + 1) * nely + 2 < 3 * M.nnode ∧ 3 * nelx + 2 < 3 * M.nnode ∧
      Supported3 M.nnode (fun m i => m * 3 + i) x [0, 1, 2, 3 * nelx + 1, 3 * nelx + 2, 3 * (nelx + 1) * nely + 2] := by
  intro M
  obtain ⟨c, x, g, ⟨ct, a1, a2⟩, ⟨xt, b1, b2⟩, g1, g2, g3, hM⟩ := C89_hex8_regular hx hy hz hh
  obtain ⟨xt', q1, q2⟩ := Hex8.Regular.coor_spec nelx nely nelz h
  obtain rfl : xt = xt' := by rw [b1] at q1; injection q1
  have lx : 0 < h * (nelx : α) := mul_pos hh (by exact_mod_cast hx)
  have ly : 0 < h * (nely : α) := mul_pos hh (by exact_mod_cast hy)
  have hN : M.nnode = (nelx + 1) * (nely + 1) * (nelz + 1) := rfl
  have lt : ∀ iy ix, iy ≤ nely → ix ≤ nelx → enc (nelx + 1) (nely + 1) ix iy 0 < M.nnode := fun iy ix h2 h3 =>
    enc_lt (show ix < nelx + 1 by omega) (show iy < nely + 1 by omega) (show 0 < nelz + 1 by omega)
  have pos : ∀ iy ix, iy ≤ nely → ix ≤ nelx → x (enc (nelx + 1) (nely + 1) ix iy 0) 0 = h * (ix : α) ∧
      x (enc (nelx + 1) (nely + 1) ix iy 0) 1 = h * (iy : α) ∧ x (enc (nelx + 1) (nely + 1) ix iy 0) 2 = 0 := by
    intro iy ix h2 h3
    obtain ⟨p0, p1, p2⟩ := gridCoor3_enc h (nelx := nelx) (nely := nely) (x := ix) (y := iy) (z := 0) (by omega) (by omega)
    have hm := lt iy ix h2 h3
    exact ⟨(b2.unique q2 hm (by omega)).trans p0, (b2.unique q2 hm (by omega)).trans p1,
      ((b2.unique q2 hm (by omega)).trans p2).trans (by rw [Nat.cast_zero, mul_zero])⟩
  have e0 : enc (nelx + 1) (nely + 1) 0 0 0 = 0 := by simp [enc]
  have e1 : enc (nelx + 1) (nely + 1) nelx 0 0 = nelx := by simp [enc]
  have e2 : enc (nelx + 1) (nely + 1) 0 nely 0 = (nelx + 1) * nely := by simp [enc, Nat.mul_comm]
  have l0 := lt 0 0 (by omega) (by omega)
  have l1 := lt 0 nelx (by omega) (by omega)
  have l2 := lt nely 0 (by omega) (by omega)
  have p0 := pos 0 0 (by omega) (by omega)
  have p1 := pos 0 nelx (by omega) (by omega)
  have p2 := pos nely 0 (by omega) (by omega)
  rw [e0] at l0 p0
  rw [e1] at l1 p1
  rw [e2] at l2 p2
  rw [Nat.cast_zero, mul_zero] at p0 p1 p2
  have e3 : 3 * (nelx + 1) * nely = 3 * ((nelx + 1) * nely) := Nat.mul_assoc _ _ _
  refine ⟨c, x, g, fun _ i => h * (i : α), ct, xt, hM, a1, a2, b1, b2,
    ⟨fun m i hm hi => by beta_reduce; omega, M.nnode - 1, 2, by omega, by omega, by beta_reduce; omega⟩, by rw [e3]; omega, by omega, ?_⟩
  intro f θ b hR h0
  obtain ⟨u0, u1, u2⟩ := hR 0 l0
  obtain ⟨-, v1, v2⟩ := hR nelx l1
  obtain ⟨-, -, w2⟩ := hR _ l2
  beta_reduce at u0 u1 u2 v1 v2 w2
  rw [Nat.zero_mul, Nat.zero_add, h0 0 (by simp), p0.2.1, p0.2.2] at u0
  rw [Nat.zero_mul, Nat.zero_add, h0 1 (by simp), p0.1, p0.2.2] at u1
  rw [Nat.zero_mul, Nat.zero_add, h0 2 (by simp), p0.1, p0.2.1] at u2
  rw [h0 (nelx * 3 + 1) (by simp; omega), p1.1, p1.2.2] at v1
  rw [h0 (nelx * 3 + 2) (by simp; omega), p1.1, p1.2.1] at v2
  rw [h0 ((nelx + 1) * nely * 3 + 2) (by simp only [List.mem_cons, e3]; omega), p2.1, p2.2.1] at w2
  have b0 : b 0 = 0 := by linarith
  have b1 : b 1 = 0 := by linarith
  have b2 : b 2 = 0 := by linarith
  have t2 : θ 2 = 0 := (mul_eq_zero.1 (by linarith : θ 2 * (h * (nelx : α)) = 0)).resolve_right lx.ne'
  have t1 : θ 1 = 0 := (mul_eq_zero.1 (by linarith : θ 1 * (h * (nelx : α)) = 0)).resolve_right lx.ne'
  have t0 : θ 0 = 0 := (mul_eq_zero.1 (by linarith : θ 0 * (h * (nely : α)) = 0)).resolve_right ly.ne'
  intro i hi
  obtain rfl | rfl | rfl : i = 0 ∨ i = 1 ∨ i = 2 := by omega
  · exact ⟨t0, b0⟩
  · exact ⟨t1, b1⟩
  · exact ⟨t2, b2⟩

/-- **C113** (Hex8 `Regular`) the result of `Solve` has the smallest potential energy -/
theorem C113_hex8_regular {nelx nely nelz : Nat} (hx : 0 < nelx) (hy : 0 < nely) (hz : 0 < nelz) {h : α} (hh : 0 < h) {s : α} (s0 : s ≠ 0)
    (σ τ ρ : Sched) (υ : Nat → Sched) {Ct b u : Ten α} {C g f} (hC : Is6 Ct (nelx * nely * nelz) 8 3 3 3 3 C)
    (hE : ∀ e q, e < nelx * nely * nelz → q < 8 → Elastic3 (C e q)) (hmaj : ∀ e q, e < nelx * nely * nelz → q < 8 → Major 3 (C e q))
    (hb : Is1 b (3 * ((nelx + 1) * (nely + 1) * (nelz + 1))) g) (hu : Is1 u (3 * ((nelx + 1) * (nely + 1) * (nelz + 1))) f) {S : LinSolver α}
    (hSol : S.Suits True) :
    let M := Hex8.Regular.new nelx nely nelz h
    let iip := [0, 1, 2, 3 * nelx + 1, 3 * nelx + 2, 3 * (nelx + 1) * nely + 2]
    IsOk (do
      let conn ← Hex8.Regular.conn M
      let coor ← Hex8.Regular.coor M
      let dofs := meshDofs M.nnode M.ndim
      let (V, Q) ← setup3 s σ τ conn dofs coor
      let y ← solveLinear S ρ υ conn dofs iip Q Ct b u
      return (V, Q, y)) fun r => ∃ f' γ' vol, Is1 r.2.2 (3 * M.nnode) f' ∧ DofGradient3 r.1 r.2.1 (3 * M.nnode) M.nelem f' γ' ∧
        Is2 r.2.1.vol M.nelem 8 vol ∧ (∀ k ∈ iip, f' k = f k) ∧ (∀ w, ∃ γ, DofGradient3 r.1 r.2.1 (3 * M.nnode) M.nelem w γ) ∧
        ∀ w γ, (∀ k ∈ iip, w k = f k) → DofGradient3 r.1 r.2.1 (3 * M.nnode) M.nelem w γ →
          potential3 (3 * M.nnode) M.nelem vol C g f' γ' ≤ potential3 (3 * M.nnode) M.nelem vol C g w γ ∧
          (potential3 (3 * M.nnode) M.nelem vol C g w γ = potential3 (3 * M.nnode) M.nelem vol C g f' γ' →
            ∀ k, k < 3 * M.nnode → w k = f' k) := by
  intro M iip
  obtain ⟨c, x, gr, p, ct, xt, hM, a1, a2, b1, b2, hn, hlt, hlt', hS⟩ := Hex8.Regular.energy_hyps hx hy hz hh
  have pos : 0 < (nelx + 1) * nely := by positivity
  have e3 : 3 * (nelx + 1) * nely = 3 * ((nelx + 1) * nely) := Nat.mul_assoc _ _ _
  have le : nelx + 1 ≤ (nelx + 1) * nely := Nat.le_mul_of_pos_right _ hy
  have := C113_minimum hM s0 σ τ ρ υ a2 b2 (meshDofs3_ok _) hn
    (fun k hk => ⟨k / 3, k % 3, by have hk' : k < 3 * M.nnode := hk
                                   change k / 3 < M.nnode; omega, by omega, by beta_reduce; omega⟩) hC hE hmaj hb hu (iip := iip)
    (by
      simp only [iip, e3]
      generalize (nelx + 1) * nely = K at le
      simp
      omega)
    (fun k hk => by
      simp only [iip, List.mem_cons, List.not_mem_nil, or_false] at hk
      omega) hS hSol
  have e : (do
      let conn ← Hex8.Regular.conn M
      let coor ← Hex8.Regular.coor M
      let dofs := meshDofs M.nnode M.ndim
      let (V, Q) ← setup3 s σ τ conn dofs coor
      let y ← solveLinear S ρ υ conn dofs iip Q Ct b u
      return (V, Q, y)) = (do
      let (V, Q) ← setup3 s σ τ ct (meshDofs M.nnode 3) xt
      let y ← solveLinear S ρ υ ct (meshDofs M.nnode 3) iip Q Ct b u
      return (V, Q, y)) := by
    simp only [M, a1, b1, Res.ok_bind]
    rfl
  rw [e]
  exact this

/-- all hypotheses can be met: isotropic elasticity, the default solver, any load and prescribed displacement -/
example (g f : Nat → ℚ) : IsOk (do
      let conn ← Hex8.Regular.conn (Hex8.Regular.new 2 1 1 (1 : ℚ))
      let coor ← Hex8.Regular.coor (Hex8.Regular.new 2 1 1 (1 : ℚ))
      let dofs := meshDofs 12 3
      let (V, Q) ← setup3 (1 / 2) Sched.seq Sched.seq conn dofs coor
      let y ← solveLinear ldlt Sched.seq (fun _ => Sched.seq) conn dofs [0, 1, 2, 7, 8, 11] Q
        (Ten.of [2, 8, 3, 3, 3, 3] fun ix => isotropic 1 1 (ix.getD 2 0) (ix.getD 3 0) (ix.getD 4 0) (ix.getD 5 0))
        (Ten.of [36] fun ix => g (ix.getD 0 0)) (Ten.of [36] fun ix => f (ix.getD 0 0))
      return (V, Q, y)) fun r => ∃ f', Is1 r.2.2 36 f' ∧ ∀ k ∈ [0, 1, 2, 7, 8, 11], f' k = f k :=
  (C113_hex8_regular (nelx := 2) (nely := 1) (nelz := 1) (h := (1 : ℚ)) (s := 1 / 2) (by norm_num) (by norm_num) (by norm_num) (by norm_num)
    (by norm_num) Sched.seq Sched.seq Sched.seq (fun _ => Sched.seq) (C := fun _ _ => isotropic 1 1) (g := g) (f := f)
    (S := ldlt) ⟨rfl, fun e q i j k l _ _ _ _ _ _ => by simp [Ten.of]⟩ (fun _ _ _ _ => isotropic_elastic3 (by norm_num) (by norm_num))
    (fun _ _ _ _ => isotropic_major 3 _ _) (is1_of _ _) (is1_of _ _) (Or.inr ⟨C98_ldlt, trivial⟩)).imp
    fun r ⟨h0, f', γ', vol, h1, h2, h3, h4, h5, h6⟩ => ⟨h0, f', h1, h4⟩

/-- beside `C113_material`: the isotropic material with moduli 1, 1 is nowhere stiffer than that with moduli 2, 3 -/
example (γ : Nat → Nat → ℚ) : power 3 (ddot 3 (isotropic 1 1) γ) γ ≤ power 3 (ddot 3 (isotropic 2 3) γ) γ := by
  have key : ∀ l μ : ℚ, power 3 (ddot 3 (isotropic l μ) γ) γ =
      l * (γ 0 0 + γ 1 1 + γ 2 2) ^ 2 + 2 * μ * (γ 0 0 ^ 2 + γ 1 1 ^ 2 + γ 2 2 ^ 2) +
        μ * ((γ 0 1 + γ 1 0) ^ 2 + (γ 0 2 + γ 2 0) ^ 2 + (γ 1 2 + γ 2 1) ^ 2) := by
    intro l μ
    simp only [power, ddot, isotropic, sum_range_succ, sum_range_zero]
    norm_num
    ring
  rw [key, key]
  nlinarith [sq_nonneg (γ 0 0 + γ 1 1 + γ 2 2), sq_nonneg (γ 0 0), sq_nonneg (γ 1 1), sq_nonneg (γ 2 2), sq_nonneg (γ 0 1 + γ 1 0),
    sq_nonneg (γ 0 2 + γ 2 0), sq_nonneg (γ 1 2 + γ 2 1)]

end GF
