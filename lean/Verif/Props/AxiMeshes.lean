import Verif.Props.AxiStatics
import Mathlib.Analysis.Real.Sqrt
import Mathlib.Analysis.Real.Pi.Bounds

/-! **C101**, **C102** on the meshes of the library: hollow and solid cylinders. -/

namespace GF
open Finset ElemSpec Element Element.Quad4
variable {α : Type} [Field α]

/-- `coor[:, 1] += R` -/
theorem addRadius_ok {R : α} {coor : Ten α} {nn : Nat} {x : Nat → Nat → α} (h : Is2 coor nn 2 x) :
    Is2 (addRadius R coor) nn 2 (ringPos R x) :=
  ⟨h.1, fun i j hi hj => by
    simp only [addRadius, h.2 i j hi hj, Option.map_some]
    interval_cases j <;> simp [ringPos]⟩

variable [LinearOrder α] [IsStrictOrderedRing α]

/-- **C101** (volume, Quad4 `Regular`) -/
theorem C101_quad4_regular {nelx nely : Nat} {h : α} (hh : 0 < h) {R : α} (hR : 0 ≤ R) {s pi : α}
    (hs : 3 * s ^ 2 = 1) (hpi : 0 < pi) (σ τ : Sched) :
    let M := Quad4.Regular.new nelx nely h
    IsOk (do
      let conn ← Quad4.Regular.conn M
      let coor ← M.coor
      setupAxi s pi σ τ conn (meshDofs M.nnode M.ndim) (addRadius R coor)) fun S => ∃ V, Is2 S.2.vol M.nelem 4 V ∧
        (∀ e q, e < M.nelem → q < 4 → 0 < V e q) ∧
        ∑ e ∈ range M.nelem, ∑ q ∈ range 4, V e q = pi * ((R + h * (nely : α)) ^ 2 - R ^ 2) * (h * (nelx : α)) := by
  intro M
  obtain ⟨c, x, O, hA, hM⟩ := C73_quad4_regular nelx nely hh
  obtain ⟨ct, a1, a2⟩ := hA.conn
  obtain ⟨xt, b1, b2⟩ := hA.coor
  obtain ⟨S, S1, S2⟩ := C101_volume hM hR hs hpi σ τ a2 (addRadius_ok b2) (meshDofs_ok _)
  have a1' : Quad4.Regular.conn M = .ok ct := a1
  have b1' : M.coor = .ok xt := b1
  exact ⟨S, by simp only [a1', b1', Res.ok_bind]; exact S1, S2⟩

/-- **C101** (volume, Quad4 `FineLayer`) -/
theorem C101_finelayer {nelx nely : Nat} (hy : 0 < nely) {h : α} (hh : 0 < h) (nfine : Nat) {R : α} (hR : 0 ≤ R) {s pi : α}
    (hs : 3 * s ^ 2 = 1) (hpi : 0 < pi) (σ τ : Sched) :
    ∃ M Ny, FineLayer.new nelx nely h nfine = .ok M ∧ M.nely = .ok Ny ∧
    IsOk (do
      let conn ← M.conn
      let coor ← M.coor
      setupAxi s pi σ τ conn (meshDofs M.nnode 2) (addRadius R coor)) fun S => ∃ V, Is2 S.2.vol M.nelem 4 V ∧
        (∀ e q, e < M.nelem → q < 4 → 0 < V e q) ∧
        ∑ e ∈ range M.nelem, ∑ q ∈ range 4, V e q = pi * ((R + h * (Ny : α)) ^ 2 - R ^ 2) * (h * (nelx : α)) := by
  obtain ⟨M, Ny, c, x, O, h1, h2, hA, hM⟩ := C73_finelayer nelx nely hy hh nfine
  obtain ⟨ct, a1, a2⟩ := hA.conn
  obtain ⟨xt, b1, b2⟩ := hA.coor
  obtain ⟨S, S1, S2⟩ := C101_volume hM hR hs hpi σ τ a2 (addRadius_ok b2) (meshDofs_ok _)
  exact ⟨M, Ny, h1, h2, S, by simp only [a1, b1, Res.ok_bind]; exact S1, S2⟩

/-- the stress of an isotropic material under `diag(κ, κ, b)` -/
theorem isotropic_axi {l μ κ b : α} {E : Nat → Nat → α} (hE : ∀ i j, i < 3 → j < 3 → E i j = if i = j then (if i = 2 then b else κ) else 0) :
    ddot 3 (isotropic l μ) E 0 0 = ddot 3 (isotropic l μ) E 1 1 ∧ ddot 3 (isotropic l μ) E 0 2 = 0 := by
  have h := fun i j hi hj => hE i j hi hj
  simp only [ddot, sum_range_succ, sum_range_zero, isotropic]
  rw [h 0 0, h 0 1, h 0 2, h 1 0, h 1 1, h 1 2, h 2 0, h 2 1, h 2 2] <;> norm_num
  ring

/-- **C102** (Quad4 `Regular`) the uniform expansion and stretch of a cylinder (hollow if `0 < R`) of an isotropic material: the
solution is exact at every node. On the axis (`R = 0`) nothing needs to be prescribed. -/
theorem C102_quad4_regular {nelx nely : Nat} (hx : 0 < nelx) (hy : 0 < nely) {h : α} (hh : 0 < h) {R : α} (hR : 0 ≤ R) {s pi : α}
    (hs : 3 * s ^ 2 = 1) (hpi : 0 < pi)
    (σ τ ρ : Sched) (υ : Nat → Sched) {l μ : α} (hμ : 0 < μ) (hl : 0 < 3 * l + 2 * μ) {Ct b u : Ten α} {f}
    (hC : Is6 Ct (nelx * nely) 4 3 3 3 3 fun _ _ => isotropic l μ)
    (hb : Is1 b (2 * ((nelx + 1) * (nely + 1))) fun _ => 0) (hu : Is1 u (2 * ((nelx + 1) * (nely + 1))) f) {iip : List Nat} (hi : iip.Nodup)
    (hin : ∀ k ∈ iip, k < 2 * ((nelx + 1) * (nely + 1)))
    (hbd : ∀ iy ix j, iy ≤ nely → ix ≤ nelx → j < 2 → (iy = 0 ∧ R ≠ 0 ∨ iy = nely ∨ ix = 0 ∨ ix = nelx) → (iy * (nelx + 1) + ix) * 2 + j ∈ iip)
    {az bz κ : α}
    (hf : ∀ iy ix, iy ≤ nely → ix ≤ nelx →
      ((iy * (nelx + 1) + ix) * 2 ∈ iip → f ((iy * (nelx + 1) + ix) * 2) = az + bz * (h * (ix : α))) ∧
      ((iy * (nelx + 1) + ix) * 2 + 1 ∈ iip → f ((iy * (nelx + 1) + ix) * 2 + 1) = κ * (R + h * (iy : α))))
    {S : LinSolver α} (hSol : S.Suits True) :
    let M := Quad4.Regular.new nelx nely h
    IsOk (do
      let conn ← Quad4.Regular.conn M
      let coor ← M.coor
      let dofs := meshDofs M.nnode M.ndim
      let (_, Q) ← setupAxi s pi σ τ conn dofs (addRadius R coor)
      solveLinearAxi S ρ υ conn dofs iip Q Ct b u) fun y => ∃ f', Is1 y (2 * M.nnode) f' ∧ ∀ iy ix, iy ≤ nely → ix ≤ nelx →
        f' ((iy * (nelx + 1) + ix) * 2) = az + bz * (h * (ix : α)) ∧
        f' ((iy * (nelx + 1) + ix) * 2 + 1) = κ * (R + h * (iy : α)) := by
  intro M
  obtain ⟨c, x, O, hA, hM⟩ := C73_quad4_regular nelx nely hh
  obtain ⟨ct, a1, a2⟩ := hA.conn
  obtain ⟨xt, b1, b2⟩ := hA.coor
  have hcoor := M.coor_spec rfl rfl
  obtain ⟨xt', b1', b2'⟩ := hcoor
  obtain rfl : xt = xt' := by rw [b1] at b1'; injection b1'
  have node : ∀ iy ix, iy ≤ nely → ix ≤ nelx → iy * (nelx + 1) + ix < M.nnode := by
    intro iy ix h1 h2
    have := grid_lt (show iy < nely + 1 by omega) (show ix < nelx + 1 by omega)
    rw [Nat.mul_comm (nely + 1)] at this; exact this
  have pos : ∀ iy ix, iy ≤ nely → ix ≤ nelx → x (iy * (nelx + 1) + ix) 0 = h * (ix : α) ∧ x (iy * (nelx + 1) + ix) 1 = h * (iy : α) := by
    intro iy ix h1 h2
    have hm := node iy ix h1 h2
    have p := gridCoor_node h (nelx := nelx) (i := iy) (j := ix) (by omega)
    exact ⟨(b2.unique b2' hm (by omega)).trans p.1, (b2.unique b2' hm (by omega)).trans p.2⟩
  have split : ∀ m, m < M.nnode → ∃ iy ix, iy ≤ nely ∧ ix ≤ nelx ∧ m = iy * (nelx + 1) + ix := by
    intro m hm
    have hm' : m < (nely + 1) * (nelx + 1) := by rw [Nat.mul_comm]; exact hm
    obtain ⟨i, j, hi, hj, e⟩ := grid_exists hm'
    exact ⟨i, j, by omega, by omega, e⟩
  have nd : NumDofs M.nnode (fun m i => m * 2 + i) (2 * M.nnode) := by
    refine ⟨fun m i hm hi => by beta_reduce; omega, M.nnode - 1, 1, ?_, by omega, ?_⟩
    · have := hM.nodes; change M.nnode - 1 < M.nnode; change 0 < M.nnode at this; omega
    · have := hM.nodes; change 0 < M.nnode at this; beta_reduce; omega
  have lx : 0 < h * (nelx : α) := mul_pos hh (by exact_mod_cast hx)
  have ly : 0 < h * (nely : α) := mul_pos hh (by exact_mod_cast hy)
  obtain ⟨i1, i2⟩ := isotropic_axi (l := l) (μ := μ) (κ := κ) (b := bz)
    (E := fun i j => if i = j then (if i = 2 then bz else κ) else 0) (fun _ _ _ _ => rfl)
  obtain ⟨y, y1, f', y2, y3⟩ := C102_patch hM lx ly hR hs hpi σ τ ρ υ a2 (addRadius_ok b2) (meshDofs_ok _) nd
    (fun k hk => ⟨k / 2, k % 2, by change k / 2 < M.nnode; omega, by omega, by beta_reduce; omega⟩) hC (isotropic_elastic3 hμ hl) hb hu hi hin
    (fun m i hm hi' hin' => by
      obtain ⟨iy, ix, h1, h2, rfl⟩ := split m hm
      obtain ⟨p0, p1⟩ := pos iy ix h1 h2
      refine hbd iy ix i h1 h2 hi' ?_
      by_contra hc
      push Not at hc
      refine hin' ⟨?_, ?_, ?_, ?_⟩
      · rw [p0]; exact mul_pos hh (by exact_mod_cast Nat.pos_of_ne_zero hc.2.2.1)
      · rw [p0, mul_lt_mul_iff_right₀ hh]; exact_mod_cast lt_of_le_of_ne h2 hc.2.2.2
      · by_cases h0 : iy = 0
        · exact Or.inr (hc.1 h0)
        · left; rw [p1]; exact mul_pos hh (by exact_mod_cast Nat.pos_of_ne_zero h0)
      · rw [p1, mul_lt_mul_iff_right₀ hh]; exact_mod_cast lt_of_le_of_ne h1 hc.2.1)
    (az := az) (bz := bz) (κ := κ) (fA := fun k => if k % 2 = 0 then az + bz * x (k / 2) 0 else κ * (R + x (k / 2) 1))
    (fun m hm => by
      beta_reduce
      rw [show (m * 2 + 0) % 2 = 0 by omega, show (m * 2 + 0) / 2 = m by omega, show (m * 2 + 1) % 2 = 1 by omega, show (m * 2 + 1) / 2 = m by omega]
      exact ⟨if_pos rfl, if_neg one_ne_zero⟩)
    (E := fun i j => if i = j then (if i = 2 then bz else κ) else 0) (fun _ _ _ _ => rfl) i1 i2
    (fun k hk => by
      have hk' : k < 2 * M.nnode := hin k hk
      obtain ⟨iy, ix, h1, h2, e⟩ := split (k / 2) (by omega)
      obtain ⟨g0, g1⟩ := hf iy ix h1 h2
      rw [e, (pos iy ix h1 h2).1, (pos iy ix h1 h2).2]
      rcases Nat.mod_two_eq_zero_or_one k with h0 | h0
      · have ek : k = (iy * (nelx + 1) + ix) * 2 := by rw [← e]; omega
        rw [if_pos h0, ← g0 (by rw [← ek]; exact hk), ← ek]
      · have ek : k = (iy * (nelx + 1) + ix) * 2 + 1 := by rw [← e]; omega
        rw [if_neg (by omega), ← g1 (by rw [← ek]; exact hk), ← ek]) (hSol.imp fun _ => isotropic_major 3 l μ)
  have a1' : Quad4.Regular.conn M = .ok ct := a1
  refine ⟨y, by simp only [a1', b1', Res.ok_bind]; exact y1, f', y2, fun iy ix h1 h2 => ?_⟩
  have := y3 _ (node iy ix h1 h2)
  rw [(pos iy ix h1 h2).1, (pos iy ix h1 h2).2] at this
  exact this

/-- **C102** (Quad4 `FineLayer`) -/
theorem C102_finelayer {nelx nely : Nat} (hx : 0 < nelx) (hy : 0 < nely) {h : α} (hh : 0 < h) (nfine : Nat) {R : α} (hR : 0 ≤ R) {s pi : α}
    (hs : 3 * s ^ 2 = 1) (hpi : 0 < pi) (σ τ ρ : Sched) (υ : Nat → Sched) {l μ : α} (hμ : 0 < μ) (hl : 0 < 3 * l + 2 * μ) {az bz κ : α}
    {S : LinSolver α} (hSol : S.Suits True) :
    ∃ M Ny ct x, FineLayer.new nelx nely h nfine = .ok M ∧ M.nely = .ok Ny ∧ M.coor = .ok ct ∧ Is2 ct M.nnode 2 x ∧
      ∀ (Ct b u : Ten α) (f : Nat → α) (iip : List Nat), Is6 Ct M.nelem 4 3 3 3 3 (fun _ _ => isotropic l μ) → Is1 b (2 * M.nnode) (fun _ => 0) →
        Is1 u (2 * M.nnode) f → iip.Nodup → (∀ k ∈ iip, k < 2 * M.nnode) →
        (∀ m i, m < M.nnode → i < 2 → ¬ (0 < x m 0 ∧ x m 0 < h * (nelx : α) ∧ (0 < x m 1 ∨ R = 0) ∧ x m 1 < h * (Ny : α)) → m * 2 + i ∈ iip) →
        (∀ m, m < M.nnode → (m * 2 ∈ iip → f (m * 2) = az + bz * x m 0) ∧ (m * 2 + 1 ∈ iip → f (m * 2 + 1) = κ * (R + x m 1))) →
    IsOk (do
      let conn ← M.conn
      let coor ← M.coor
      let dofs := meshDofs M.nnode 2
      let (_, Q) ← setupAxi s pi σ τ conn dofs (addRadius R coor)
      solveLinearAxi S ρ υ conn dofs iip Q Ct b u) fun y => ∃ f', Is1 y (2 * M.nnode) f' ∧ ∀ m, m < M.nnode →
        f' (m * 2) = az + bz * x m 0 ∧ f' (m * 2 + 1) = κ * (R + x m 1) := by
  obtain ⟨M, Ny, c, x, O, h1, h2, hA, hM⟩ := C73_finelayer nelx nely hy hh nfine
  obtain ⟨M', n, W, G, R', Ny', -, -, h1', -, -, e1, -, hNy, -⟩ := FineLayer.meshN nelx nely hy h nfine
  obtain rfl : M = M' := by rw [h1] at h1'; injection h1'
  obtain rfl : Ny = Ny' := by rw [h2] at e1; injection e1
  obtain ⟨ct, a1, a2⟩ := hA.conn
  obtain ⟨xt, b1, b2⟩ := hA.coor
  refine ⟨M, Ny, xt, x, h1, h2, b1, b2, fun Ct b u f iip hC hb hu hi hin hbd hf => ?_⟩
  have lx : 0 < h * (nelx : α) := mul_pos hh (by exact_mod_cast hx)
  have ly : 0 < h * (Ny : α) := mul_pos hh (by exact_mod_cast hNy)
  have n0 := hM.nodes
  obtain ⟨i1, i2⟩ := isotropic_axi (l := l) (μ := μ) (κ := κ) (b := bz)
    (E := fun i j => if i = j then (if i = 2 then bz else κ) else 0) (fun _ _ _ _ => rfl)
  have nd : NumDofs M.nnode (fun m i => m * 2 + i) (2 * M.nnode) :=
    ⟨fun m i hm hi => by beta_reduce; omega, M.nnode - 1, 1, by omega, by omega, by beta_reduce; omega⟩
  obtain ⟨y, y1, f', y2, y3⟩ := C102_patch hM lx ly hR hs hpi σ τ ρ υ a2 (addRadius_ok b2) (meshDofs_ok _) nd
    (fun k hk => ⟨k / 2, k % 2, by omega, by omega, by beta_reduce; omega⟩) hC (isotropic_elastic3 hμ hl) hb hu hi hin hbd
    (az := az) (bz := bz) (κ := κ) (fA := fun k => if k % 2 = 0 then az + bz * x (k / 2) 0 else κ * (R + x (k / 2) 1))
    (fun m hm => by
      beta_reduce
      rw [show (m * 2 + 0) % 2 = 0 by omega, show (m * 2 + 0) / 2 = m by omega, show (m * 2 + 1) % 2 = 1 by omega, show (m * 2 + 1) / 2 = m by omega]
      exact ⟨if_pos rfl, if_neg one_ne_zero⟩)
    (E := fun i j => if i = j then (if i = 2 then bz else κ) else 0) (fun _ _ _ _ => rfl) i1 i2
    (fun k hk => by
      have hk' := hin k hk
      obtain ⟨g0, g1⟩ := hf (k / 2) (by omega)
      rcases Nat.mod_two_eq_zero_or_one k with h0 | h0
      · have ek : k / 2 * 2 = k := by omega
        rw [if_pos h0, ← g0 (by rw [ek]; exact hk), ek]
      · have ek : k / 2 * 2 + 1 = k := by omega
        rw [if_neg (by omega), ← g1 (by rw [ek]; exact hk), ek]) (hSol.imp fun _ => isotropic_major 3 l μ)
  exact ⟨y, by simp only [a1, b1, Res.ok_bind]; exact y1, f', y2, y3⟩

/-! ### The hypotheses can be met -/

/-- the Gauss points and `pi` of the library -/
example : ∃ s : ℝ, 3 * s ^ 2 = 1 ∧ 0 < Real.pi := by
  refine ⟨1 / √3, ?_, Real.pi_pos⟩
  have h : √3 ^ 2 = 3 := Real.sq_sqrt (by norm_num)
  rw [div_pow, h]; norm_num

/-- a solid cylinder of 2 x 2 elements, expanded by 1 % and stretched by 2 %: the unknown displacements are those of the node in
the middle (number 4) and of the node in the middle of the axis (number 1) -/
example : ∃ (S : LinSolver ℝ) (iip : List Nat) (f : Nat → ℝ), S.Suits True ∧ iip.Nodup ∧ (∀ k ∈ iip, k < 2 * 9) ∧ 2 ∉ iip ∧ 3 ∉ iip ∧ 8 ∉ iip ∧ 9 ∉ iip ∧
    (∀ iy ix j, iy ≤ 2 → ix ≤ 2 → j < 2 → (iy = 0 ∧ (0 : ℝ) ≠ 0 ∨ iy = 2 ∨ ix = 0 ∨ ix = 2) → (iy * (2 + 1) + ix) * 2 + j ∈ iip) ∧
    ∀ iy ix : Nat, iy ≤ 2 → ix ≤ 2 → f ((iy * (2 + 1) + ix) * 2) = 0 + 1 / 50 * (1 * (ix : ℝ)) ∧
      f ((iy * (2 + 1) + ix) * 2 + 1) = 1 / 100 * (0 + 1 * (iy : ℝ)) := by
  obtain ⟨S, hS⟩ := exists_direct (α := ℝ)
  refine ⟨S, (List.range 18).filter fun k => k ≠ 2 ∧ k ≠ 3 ∧ k ≠ 8 ∧ k ≠ 9,
    fun k => if k % 2 = 0 then 1 / 50 * ((k / 2 % 3 : Nat) : ℝ) else 1 / 100 * ((k / 6 : Nat) : ℝ), hS.suits _,
    List.nodup_range.filter _, ?_, by simp, by simp, by simp, by simp, ?_, ?_⟩
  · intro k hk
    rw [List.mem_filter, List.mem_range] at hk
    omega
  · intro iy ix j h1 h2 hj h
    have h' : iy = 2 ∨ ix = 0 ∨ ix = 2 := by
      rcases h with h | h
      · exact absurd rfl h.2
      · exact h
    simp only [List.mem_filter, List.mem_range, decide_eq_true_eq]
    omega
  · intro iy ix h1 h2
    have e1 : (iy * (2 + 1) + ix) * 2 / 2 % 3 = ix := by omega
    have e2 : (iy * (2 + 1) + ix) * 2 % 2 = 0 := by omega
    have e3 : ((iy * (2 + 1) + ix) * 2 + 1) / 6 = iy := by omega
    have e4 : ((iy * (2 + 1) + ix) * 2 + 1) % 2 = 1 := by omega
    simp only [e1, e2, e3, e4]
    norm_num

end GF
