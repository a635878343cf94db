import Verif.Props.CriticalAxi

/-! **C121**: the modes of axisymmetric bodies, and what happens above the critical time step. -/

namespace GF
open Finset ElemSpec Element Element.Quad4

variable {α : Type} [Field α] [LinearOrder α] [IsStrictOrderedRing α]
variable {nn ne : Nat} {c d : Nat → Nat → Nat} {x : Nat → Nat → α}

/-- **C121** (modes) for a linear elastic material and no load: if the internal force of the displacement `W` is `λ` times its mass
times `W`, then a body that is released from `W` at rest has the displacement `amplitude (1 - dt² λ / 2) n` times `W` after `n`
increments (for any `dt`) -/
theorem C121_mode (hM : RingMesh nn ne c x) (s : α) {pi : α} (hpi : 0 < pi) (σ : Nat → Sched)
    (υ : Nat → Nat → Sched) {conn dofs : Ten Nat} {coor rho : Ten α} (hc : Is2 conn ne 4 c) (hx : Is2 coor nn 2 x) (hd : Is2 dofs nn 2 d)
    {R : Nat → Nat → α} (hr : Is2 rho ne 4 R) (hR : ∀ e q, e < ne → q < 4 → 0 < R e q) (off : ∀ m, m < nn → 0 < x m 1) (dt : α) {material : List (Ten α) → Res (Ten α)}
    {C : Nat → Nat → Nat → Nat → Nat → Nat → α} (hm : HistoryFreeAxi ne material fun E e q => ddot 3 (C e q) (E e q))
    {w v a fext : Ten α} {W : Nat → α} {lam : α} (hw : Is2 w nn 2 fun m i => W (d m i)) (hv : Is2 v nn 2 fun _ _ => 0)
    (ha : Is2 a nn 2 fun m i => - lam * W (d m i)) (hf : Is2 fext nn 2 fun _ _ => 0) (n : Nat) (ρ τ : Sched) :
    IsOk (do
      let (D, M) ← DynamicsAxi.new s pi σ conn dofs coor rho
      let S ← D.run dt material fext υ n ⟨w, v, a, M, []⟩
      return (D, M, S)) fun (D, M, S) => ∃ (N : Nat) (mass : Nat → α), NumDofs nn d N ∧ Is1 M.A N mass ∧
        ((∀ (t : Ten α) (ε : Nat → Nat → Nat → Nat → α) (sig f : Ten α) (F : Nat → Nat → α), D.strain ρ τ w = .ok t → Is4 t ne 4 3 3 ε →
            Is4 sig ne 4 3 3 (fun e q => ddot 3 (C e q) (ε e q)) →
            ((Element.Axi.Int_gradN_dot_tensor2_dV D.quad ρ sig).bind fun fe => D.vector.AssembleNode τ fe) = .ok f → Is2 f nn 2 F →
            ∀ m i, m < nn → i < 2 → F m i = lam * mass (d m i) * W (d m i)) →
          Is2 S.u nn 2 fun m i => amplitude (1 - dt ^ 2 * lam / 2) n * W (d m i)) := by
  obtain ⟨D, M, h1, h2, h3, h4, h5⟩ := dynamics_newA hM s pi σ hc hx hd hr
  have hA := h4.A _ rfl
  rw [h3] at hA
  obtain ⟨t, g1, N, mass, J, g2, g3, -, g4, -⟩ := C120_mass hM s hpi σ hc hx hd hr
  obtain rfl : (D, M) = t := by rw [h1] at g1; injection g1
  have hN : N = D.vector.ndof := by
    have := g3.1.symm.trans hA.1
    simpa using this
  subst hN
  have hpos : ∀ m i, m < nn → i < 2 → lumpedA pi x ne c d R (d m i) ≠ 0 := fun m i hm hi => by
    rw [← g3.unique hA (g2.1 m i hm hi)]
    exact (g4 hR m i hm hi (off m hm)).ne'
  obtain ⟨S, i1, i2⟩ := h2.run_ok (B := fun _ => 0) dt hm hf υ n (S := ⟨w, v, a, M, []⟩) (X := (fun m i => W (d m i), fun _ => 0, fun k => - lam * W k))
    ⟨hw, hv, ha, h4, h3, by simp⟩
  refine ⟨(D, M, S), by simp only [h1, i1, Res.ok_bind]; rfl, _, _, h5, hA, fun hmode => ?_⟩
  have force : ∀ m i, m < nn → i < 2 → forceOfA ne c d (dynB s x c) (dynVolA pi s x c)
      (fun e q => ddot 3 (C e q) (strainOfA (dynB s x c) c (fun m i => W (d m i)) e q)) (d m i) = lam * lumpedA pi x ne c d R (d m i) * W (d m i) := by
    obtain ⟨t, t1, t2⟩ := h2.strain_ok ρ τ hw
    have hsig : Is4 (Ten.of [ne, 4, 3, 3] fun p => match p with
      | [e, q, i, j] => ddot 3 (C e q) (strainOfA (dynB s x c) c (fun m i => W (d m i)) e q) i j
      | _ => 0) ne 4 3 3 (fun e q => ddot 3 (C e q) (strainOfA (dynB s x c) c (fun m i => W (d m i)) e q)) :=
      ⟨rfl, fun _ _ _ _ _ _ _ _ => rfl⟩
    obtain ⟨fe, f, f1, f2, f3⟩ := h2.force_ok ρ τ hsig
    exact hmode t _ _ f _ t1 t2 hsig (by rw [f1]; exact f2) f3
  have hacc : ∀ (g : α) (U : Nat → Nat → α), (∀ m i, m < nn → i < 2 → U m i = g * W (d m i)) → ∀ m i, m < nn → i < 2 →
      accelA ne c d pi s x R C U (d m i) = - lam * g * W (d m i) := by
    intro g U hU m i hm hi
    have e : forceOfA ne c d (dynB s x c) (dynVolA pi s x c) (fun e q => ddot 3 (C e q) (strainOfA (dynB s x c) c U e q)) (d m i) =
        g * forceOfA ne c d (dynB s x c) (dynVolA pi s x c)
          (fun e q => ddot 3 (C e q) (strainOfA (dynB s x c) c (fun m i => W (d m i)) e q)) (d m i) := by
      rw [forceOfA, forceOfA, mul_sum]
      refine sum_congr rfl fun e he => ?_
      rw [mul_sum]
      refine sum_congr rfl fun m' hm' => ?_
      rw [mul_sum]
      refine sum_congr rfl fun i' hi' => ?_
      rw [mul_ite, mul_zero]
      refine ite_congr rfl (fun _ => ?_) fun _ => rfl
      rw [mul_sum]
      refine sum_congr rfl fun q _ => ?_
      rw [← mul_assoc, mul_sum]
      congr 1
      refine sum_congr rfl fun b hb => ?_
      rw [mul_ite, mul_zero]
      refine ite_congr rfl (fun _ => ?_) fun _ => rfl
      have st : ∀ i j, strainOfA (dynB s x c) c U e q i j = g * strainOfA (dynB s x c) c (fun m i => W (d m i)) e q i j := by
        have gr : ∀ i j, Axi.gA (dynB s x c) (fun e m i => U (c e m) i) e q i j = g * Axi.gA (dynB s x c) (fun e m i => W (d (c e m) i)) e q i j := by
          intro i j
          rw [Axi.gA, Axi.gA, mul_sum]
          refine sum_congr rfl fun a ha => ?_
          rw [mul_ite, mul_zero]
          refine ite_congr rfl (fun _ => ?_) fun _ => rfl
          rw [Axi.ga, Axi.ga, mul_sum]
          refine sum_congr rfl fun m hm => ?_
          rw [hU _ (Axi.dof a) (hM.valid e m (mem_range.1 he) (mem_range.1 hm)) (by
            rw [mem_range] at ha
            interval_cases a <;> decide)]
          ring
        intro i j
        rw [strainOfA, strainOfA, Axi.sym3, Axi.sym3, gr i j, gr j i]
        split <;> ring
      simp only [ddot]
      rw [mul_left_comm]
      congr 1
      rw [mul_sum]
      refine sum_congr rfl fun k hk => ?_
      rw [mul_sum]
      refine sum_congr rfl fun l hl => ?_
      rw [st l k]
      ring
    rw [accelA, e, force m i hm hi, div_eq_iff (hpos m i hm hi)]
    ring
  have run : ∀ n, ∃ b : α, b * dt = amplitude (1 - dt ^ 2 * lam / 2) (n + 1) - (1 - dt ^ 2 * lam / 2) * amplitude (1 - dt ^ 2 * lam / 2) n ∧
      ∀ m i, m < nn → i < 2 →
      ((verlet d dt (accelA ne c d pi s x R C))^[n] (fun m i => W (d m i), fun _ => 0, fun k => - lam * W k)).1 m i = amplitude (1 - dt ^ 2 * lam / 2) n * W (d m i) ∧
      ((verlet d dt (accelA ne c d pi s x R C))^[n] (fun m i => W (d m i), fun _ => 0, fun k => - lam * W k)).2.1 (d m i) = b * W (d m i) ∧
      ((verlet d dt (accelA ne c d pi s x R C))^[n] (fun m i => W (d m i), fun _ => 0, fun k => - lam * W k)).2.2 (d m i) =
        - lam * amplitude (1 - dt ^ 2 * lam / 2) n * W (d m i) := by
    intro n
    induction n with
    | zero => exact ⟨0, by simp [amplitude], fun m i _ _ => by simp [amplitude]⟩
    | succ n ih =>
      obtain ⟨b, hb, ih⟩ := ih
      rw [Function.iterate_succ_apply']
      obtain ⟨X, hX⟩ : ∃ X, X = (verlet d dt (accelA ne c d pi s x R C))^[n] (fun m i => W (d m i), fun _ => 0, fun k => - lam * W k) := ⟨_, rfl⟩
      rw [← hX] at ih ⊢
      have hU : ∀ m i, m < nn → i < 2 → (verlet d dt (accelA ne c d pi s x R C) X).1 m i = amplitude (1 - dt ^ 2 * lam / 2) (n + 1) * W (d m i) := by
        intro m i hm hi
        obtain ⟨k1, k2, k3⟩ := ih m i hm hi
        simp only [verlet, k1, k2, k3]
        linear_combination W (d m i) * hb
      have hA2 := hacc _ _ hU
      refine ⟨b - 1 / 2 * dt * lam * (amplitude (1 - dt ^ 2 * lam / 2) n + amplitude (1 - dt ^ 2 * lam / 2) (n + 1)), ?_, fun m i hm hi => ⟨hU m i hm hi, ?_, hA2 m i hm hi⟩⟩
      · rw [amplitude]
        linear_combination hb
      · have : (verlet d dt (accelA ne c d pi s x R C) X).2.1 (d m i) = X.2.1 (d m i) + 1 / 2 * dt * (X.2.2 (d m i) +
          accelA ne c d pi s x R C (verlet d dt (accelA ne c d pi s x R C) X).1 (d m i)) := rfl
        rw [this, hA2 m i hm hi, (ih m i hm hi).2.1, (ih m i hm hi).2.2]
        ring
  obtain ⟨b, -, hrun⟩ := run n
  exact (i2 _ rfl).u.congr fun m i hm hi => (hrun m i hm hi).1

/-- the sum of the terms of the nodes that share the axial DOF of corner `q` -/
theorem ring_column {q : Nat} (hq : q < 4) (G : Nat → Nat → Nat → α) :
    ∑ e ∈ range 1, ∑ m ∈ range 4, ∑ i ∈ range 2, (if (if i = 0 then gridQuad 1 e m % 2 else 2 + gridQuad 1 e m) = gridQuad 1 0 q % 2 then G e m i else 0) =
      if q = 0 ∨ q = 3 then G 0 0 0 + G 0 3 0 else G 0 1 0 + G 0 2 0 := by
  interval_cases q <;> simp [sum_range_succ, gridQuad]

theorem ring_node {q : Nat} (hq : q < 4) (G : Nat → Nat → Nat → α) :
    ∑ e ∈ range 1, ∑ m ∈ range 4, ∑ i ∈ range 2, (if (if i = 0 then gridQuad 1 e m % 2 else 2 + gridQuad 1 e m) = 2 + gridQuad 1 0 q then G e m i else 0) =
      G 0 q 1 := by
  interval_cases q <;> simp [sum_range_succ, gridQuad]

theorem column_D4 (Ξ : Nat → Nat → α) (p : Nat) : D4 Ξ p 0 0 + D4 Ξ p 3 0 = -(1 / 2) ∧ D4 Ξ p 1 0 + D4 Ξ p 2 0 = 1 / 2 := by
  simp only [D4]
  generalize Ξ p 0 = ξ
  generalize Ξ p 1 = η
  constructor <;> simp only [part2, N4, corner4, if_true] <;> ring

/-- **C121** (the critical time step has the right order) one square ring element of isotropic elasticity without lateral contraction (`l = 0`),
of any inner radius `r₀ > 0`, with DOFs such that all nodes of the same axial position share their axial DOF: it is released from a uniform
axial stretch. If `2 μ dt² > ρ₀ h²` the axial displacement of every node grows exponentially. (With `θ = 1`, `C121_cfl` has the condition
`2 μ dt² (1 + h / (2 r₀))² ≤ ρ₀ h²`, so that it can be improved by the factor `(1 + h / (2 r₀))²` at most.) -/
theorem C121_unstable {h : α} (hh : 0 < h) {r₀ : α} (hr0 : 0 < r₀) {pi : α} (hpi : 0 < pi) (s : α) (σ : Nat → Sched)
    (υ : Nat → Nat → Sched) {dofs : Ten Nat} (hd : Is2 dofs 4 2 fun m i => if i = 0 then m % 2 else 2 + m)
    {rho : Ten α} {ρ₀ : α} (hρ : 0 < ρ₀) (hr : Is2 rho 1 4 fun _ _ => ρ₀) (dt : α) {material : List (Ten α) → Res (Ten α)} {μ : α}
    (hm : HistoryFreeAxi 1 material fun E e q => ddot 3 (isotropic 0 μ) (E e q))
    {w v a fext : Ten α} (hw : Is2 w 4 2 fun m i => if i = 0 then if m % 2 = 0 then - (h / 2) else h / 2 else 0) (hv : Is2 v 4 2 fun _ _ => 0)
    (ha : Is2 a 4 2 fun m i => - (8 * μ / (ρ₀ * h ^ 2)) * if i = 0 then if m % 2 = 0 then - (h / 2) else h / 2 else 0)
    (hf : Is2 fext 4 2 fun _ _ => 0) (n : Nat) :
    IsOk (do
      let conn ← Quad4.Regular.conn (Quad4.Regular.new 1 1 h)
      let coor ← (Quad4.Regular.new 1 1 h).coor
      let (D, M) ← DynamicsAxi.new s pi σ conn dofs (addRadius r₀ coor) rho
      D.run dt material fext υ n ⟨w, v, a, M, []⟩) fun S => ∃ U, Is2 S.u 4 2 U ∧
        (ρ₀ * h ^ 2 < dt ^ 2 * (2 * μ) → ∀ m, m < 4 → (4 * μ * dt ^ 2 / (ρ₀ * h ^ 2) - 1) ^ n * (h / 2) ≤ |U m 0| ∧
          1 < 4 * μ * dt ^ 2 / (ρ₀ * h ^ 2) - 1) := by
  obtain ⟨cn, a1, a2⟩ := (Quad4.Regular.sides 1 1 h).1
  obtain ⟨xt, b1, b2⟩ := (Quad4.Regular.new 1 1 h).coor_spec rfl rfl
  have hR : RectMesh ((1 + 1) * (1 + 1)) (1 * 1) (gridQuad 1) (gridCoor h 1) (h * ((1 : Nat) : α)) (h * ((1 : Nat) : α)) (gridOutline 1 1) := regular_rect 1 1 hh
  have lx : 0 < h * ((1 : Nat) : α) := by simpa using hh
  have hM : RingMesh 4 1 (gridQuad 1) (ringPos r₀ (gridCoor h 1)) := hR.ringMesh lx lx hr0.le
  have off : ∀ m, m < 4 → 0 < ringPos r₀ (gridCoor h 1) m 1 := fun m hm => by
    rw [ringPos_one]
    have := (hR.inside m hm).2.2.1
    linarith
  have hx : Is2 (addRadius r₀ xt) 4 2 (ringPos r₀ (gridCoor h 1)) := addRadius_ok (R := r₀) b2
  have a2' : Is2 cn 1 4 (gridQuad 1) := a2
  obtain ⟨W, hW⟩ : ∃ W : Nat → α, ∀ k, W k = if k = 0 then - (h / 2) else if k = 1 then h / 2 else 0 := ⟨_, fun _ => rfl⟩
  have hWd : ∀ m i, i < 2 → W (if i = 0 then m % 2 else 2 + m) = if i = 0 then if m % 2 = 0 then - (h / 2) else h / 2 else 0 := by
    intro m i hi
    obtain rfl | rfl : i = 0 ∨ i = 1 := by omega
    · rw [if_pos rfl, if_pos rfl, hW]
      obtain e | e : m % 2 = 0 ∨ m % 2 = 1 := by omega
      · rw [e, if_pos rfl, if_pos rfl]
      · rw [e, if_neg one_ne_zero, if_pos rfl, if_neg one_ne_zero]
    · rw [if_neg one_ne_zero, if_neg one_ne_zero, hW, if_neg (by omega), if_neg (by omega)]
  have hw' : Is2 w 4 2 fun m i => W (if i = 0 then m % 2 else 2 + m) := hw.congr fun m i _ hi => (hWd m i hi).symm
  obtain ⟨⟨D, M, S⟩, t1, N, mass, t2, t3, t4⟩ := C121_mode hM s hpi σ υ a2' hx hd hr (fun _ _ _ _ => hρ) off dt (C := fun _ _ => isotropic 0 μ) hm
    (w := w) (v := v) (a := a) (W := W) (lam := 8 * μ / (ρ₀ * h ^ 2)) hw' hv
    (ha.congr fun m i _ hi => by rw [hWd m i hi]) hf n Sched.seq Sched.seq
  obtain ⟨D', M', h1, h2, h3, h4, -⟩ := dynamics_newA hM s pi σ a2' hx hd hr
  rw [h1, Res.ok_bind] at t1
  dsimp only at t1
  have same : D' = D ∧ M' = M ∧ D.run dt material fext υ n ⟨w, v, a, M, []⟩ = .ok S := by
    cases hr : D'.run dt material fext υ n ⟨w, v, a, M', []⟩ with
    | ok S' =>
      rw [hr, Res.ok_bind] at t1
      have t1' : Res.ok (D', M', S') = Res.ok (D, M, S) := t1
      injection t1' with t1'
      obtain ⟨e1, e2⟩ := Prod.mk.inj t1'
      obtain ⟨e2, e3⟩ := Prod.mk.inj e2
      rw [← e1, ← e2, ← e3]
      exact ⟨rfl, rfl, hr⟩
    | _ => rw [hr] at t1; cases t1
  obtain ⟨rfl, rfl, hrun⟩ := same
  have t5 := t4 ?_
  · refine ⟨S, ?_, _, t5, fun hdt m hm => ?_⟩
    · rw [a1, Res.ok_bind, b1, Res.ok_bind, h1, Res.ok_bind]
      exact hrun
    · have p : 0 < ρ₀ * h ^ 2 := by positivity
      have ez : 1 - dt ^ 2 * (8 * μ / (ρ₀ * h ^ 2)) / 2 = - (4 * μ * dt ^ 2 / (ρ₀ * h ^ 2) - 1) := by
        field_simp
        ring
      have big : 1 < 4 * μ * dt ^ 2 / (ρ₀ * h ^ 2) - 1 := by
        have : 2 < 4 * μ * dt ^ 2 / (ρ₀ * h ^ 2) := by
          rw [lt_div_iff₀ p]
          linarith
        linarith
      refine ⟨?_, big⟩
      have pos : 0 < h / 2 := by positivity
      have aW : |W (if (0 : Nat) = 0 then m % 2 else 2 + m)| = h / 2 := by
        rw [hWd m 0 (by omega), if_pos rfl]
        split
        · rw [abs_neg, abs_of_pos pos]
        · rw [abs_of_pos pos]
      rw [abs_mul, aW, ez]
      exact mul_le_mul_of_nonneg_right (amplitude_grows big.le n) pos.le
  · have hA := h4.A _ rfl
    rw [h3] at hA
    have hN : N = D'.vector.ndof := by
      have := t3.1.symm.trans hA.1
      simpa using this
    subst hN
    intro t ε sig f F e1 e2 e3 e4 e5 m i hm hi
    obtain ⟨t', k1, k2⟩ := h2.strain_ok Sched.seq Sched.seq hw'
    obtain rfl : t' = t := by rw [k1] at e1; injection e1
    obtain ⟨fe, f', f1, f2, f3⟩ := h2.force_ok Sched.seq Sched.seq e3
    obtain rfl : f' = f := by
      rw [f1] at e4
      have : D'.vector.AssembleNode Sched.seq fe = .ok f := e4
      rw [f2] at this
      injection this
    rw [e5.unique f3 hm hi, t3.unique hA (t2.1 m i hm hi)]
    obtain ⟨g1, g2⟩ := square_geo (e := 0) hh.ne' ((regular_squares 1 1).ring r₀) s (by omega)
    have hne := hh.ne'
    have rne := hρ.ne'
    obtain ⟨q, hq, rfl⟩ : ∃ q, q < 4 ∧ gridQuad 1 0 q = m := by
      interval_cases m
      exacts [⟨0, by omega, rfl⟩, ⟨1, by omega, rfl⟩, ⟨3, by omega, rfl⟩, ⟨2, by omega, rfl⟩]
    have x0 : ringPos r₀ (gridCoor h 1) (gridQuad 1 0 0) 1 = r₀ := by simp [ringPos, gridCoor, gridQuad]
    have x1 : ringPos r₀ (gridCoor h 1) (gridQuad 1 0 1) 1 = r₀ := by simp [ringPos, gridCoor, gridQuad]
    have x2 : ringPos r₀ (gridCoor h 1) (gridQuad 1 0 2) 1 = r₀ + h := by simp [ringPos, gridCoor, gridQuad]
    have x3 : ringPos r₀ (gridCoor h 1) (gridQuad 1 0 3) 1 = r₀ + h := by simp [ringPos, gridCoor, gridQuad]
    have eW : ∀ m, m < 4 → W (gridQuad 1 0 m % 2) = h / 2 * corner4 m 0 := by
      intro m hm
      have := hWd (gridQuad 1 0 m) 0 (by omega)
      rw [if_pos rfl, if_pos rfl] at this
      rw [this]
      interval_cases m <;> simp [gridQuad, corner4]
    have eE : ∀ p i j, p < 4 → i < 3 → j < 3 → ε 0 p i j = if i = 2 ∧ j = 2 then 1 else 0 := by
      intro p i j hp hi hj
      rw [e2.unique k2 (show 0 < 1 by omega) hp hi hj, elemStrainAxi_eq s _ 0 p hi hj]
      have w1 : ∀ G : Nat → α, ∑ n ∈ range 4, G n * W (2 + gridQuad 1 0 n) = 0 := fun G => sum_eq_zero fun n _ => by
        rw [hW, if_neg (by omega), if_neg (by omega), mul_zero]
      have w0 : ∀ i, i < 2 → ∑ n ∈ range 4, dynG s (ringPos r₀ (gridCoor h 1)) (gridQuad 1) 0 p n i * W (gridQuad 1 0 n % 2) = if i = 0 then 1 else 0 := by
        intro i hi
        rw [← D4_corner (fun q i => s * corner4 q i) p hi (show 0 < 2 by omega)]
        refine sum_congr rfl fun n hn => ?_
        rw [g2 p n i hi, eW n (mem_range.1 hn)]
        field_simp
      have v0 := w0 0 (by omega)
      have v1 := w0 1 (by omega)
      obtain rfl | rfl | rfl : i = 0 ∨ i = 1 ∨ i = 2 := by omega
      all_goals obtain rfl | rfl | rfl : j = 0 ∨ j = 1 ∨ j = 2 := by omega
      all_goals simp [elemStrainAxi, w1, v0, v1]
    have eS : ∀ p i j, p < 4 → i < 3 → j < 3 → ddot 3 (isotropic 0 μ) (ε 0 p) i j = if i = 2 ∧ j = 2 then 2 * μ else 0 := by
      intro p i j hp hi hj
      have z := fun i j hi hj => eE p i j hp hi hj
      simp only [ddot, isotropic, sum_range_succ, sum_range_zero, z 0 0 (by omega) (by omega), z 0 1 (by omega) (by omega), z 0 2 (by omega) (by omega),
        z 1 0 (by omega) (by omega), z 1 1 (by omega) (by omega), z 1 2 (by omega) (by omega), z 2 0 (by omega) (by omega), z 2 1 (by omega) (by omega),
        z 2 2 (by omega) (by omega)]
      interval_cases i <;> interval_cases j <;> norm_num <;> ring
    obtain ⟨Fe, hFe⟩ : ∃ Fe : Nat → Nat → Nat → α, ∀ e m i, Fe e m i = ∑ q ∈ range 4, (∑ a ∈ range 5, if Axi.dof a = i then
      dynB s (ringPos r₀ (gridCoor h 1)) (gridQuad 1) a e q m * ddot 3 (isotropic 0 μ) (ε e q) (Axi.ci a) (Axi.cj a) else 0) *
        dynVolA pi s (ringPos r₀ (gridCoor h 1)) (gridQuad 1) e q := ⟨_, fun _ _ _ => rfl⟩
    have vol : ∑ p ∈ range 4, dynVolA pi s (ringPos r₀ (gridCoor h 1)) (gridQuad 1) 0 p = h ^ 2 * (2 * pi * (r₀ + h / 2)) := by
      have hv : ∀ p ∈ range 4, dynVolA pi s (ringPos r₀ (gridCoor h 1)) (gridQuad 1) 0 p = h ^ 2 / 4 * (2 * pi * (r₀ + h / 2 * (1 + s * corner4 p 1))) := by
        intro p _
        rw [dynVolA_eq, g1]
        congr 2
        generalize s * corner4 p 0 = ξ
        generalize s * corner4 p 1 = η
        rw [sum_range_succ, sum_range_succ, sum_range_succ, sum_range_one, x0, x1, x2, x3]
        simp only [N4, corner4]
        ring
      rw [sum_congr rfl hv, sum_range_succ, sum_range_succ, sum_range_succ, sum_range_one]
      simp only [corner4]
      ring
    have F1 : ∀ m, Fe 0 m 1 = 0 := by
      intro m
      rw [hFe]
      refine sum_eq_zero fun p hp => ?_
      rw [mem_range] at hp
      rw [sum_eq_zero, zero_mul]
      intro b hb
      rw [mem_range] at hb
      split
      · rename_i hdof
        rw [eS p _ _ hp (by interval_cases b <;> decide) (by interval_cases b <;> decide), if_neg (by interval_cases b <;> revert hdof <;> decide), mul_zero]
      · rfl
    have F0 : ∀ m, Fe 0 m 0 = ∑ p ∈ range 4, 2 / h * D4 (fun q i => s * corner4 q i) p m 0 * (2 * μ) * dynVolA pi s (ringPos r₀ (gridCoor h 1)) (gridQuad 1) 0 p := by
      intro m
      rw [hFe]
      refine sum_congr rfl fun p hp => ?_
      rw [mem_range] at hp
      congr 1
      have z := fun i j hi hj => eS p i j hp hi hj
      rw [← g2 p m 0 (by omega), dynB_eq, sum_range_succ, sum_range_succ, sum_range_succ, sum_range_succ, sum_range_one]
      simp [Axi.dof, Axi.ci, Axi.cj, Axi.bv, z 2 2 (by omega) (by omega), z 0 2 (by omega) (by omega)]
    obtain ⟨Q, hQ⟩ : ∃ Q, Q = ringPos r₀ (gridCoor h 1) := ⟨_, rfl⟩
    obtain rfl | rfl : i = 0 ∨ i = 1 := by omega
    · have eF : forceOfA 1 (gridQuad 1) (fun m i => if i = 0 then m % 2 else 2 + m) (dynB s (ringPos r₀ (gridCoor h 1)) (gridQuad 1)) (dynVolA pi s (ringPos r₀ (gridCoor h 1)) (gridQuad 1))
          (fun e q => ddot 3 (isotropic 0 μ) (ε e q)) (gridQuad 1 0 q % 2) = if q = 0 ∨ q = 3 then Fe 0 0 0 + Fe 0 3 0 else Fe 0 1 0 + Fe 0 2 0 := by
        rw [← ring_column hq Fe]
        simp only [hFe]
        rfl
      have eL : lumpedA pi (ringPos r₀ (gridCoor h 1)) 1 (gridQuad 1) (fun m i => if i = 0 then m % 2 else 2 + m) (fun _ _ => ρ₀) (gridQuad 1 0 q % 2) =
          ρ₀ * (h ^ 2 / 4 * (2 * pi * (2 * r₀ + h))) := by
        refine (ring_column hq fun e m _ => ρ₀ * nodalVolA pi (ringPos r₀ (gridCoor h 1)) (gridQuad 1) e m).trans ?_
        simp only [nodalVolA, g1, x0, x1, x2, x3]
        split <;> ring
      have pair : ∀ m m', Fe 0 m 0 + Fe 0 m' 0 = ∑ p ∈ range 4, 2 / h * (D4 (fun q i => s * corner4 q i) p m 0 + D4 (fun q i => s * corner4 q i) p m' 0) * (2 * μ) *
          dynVolA pi s (ringPos r₀ (gridCoor h 1)) (gridQuad 1) 0 p := fun m m' => by
        rw [F0, F0, ← sum_add_distrib]
        exact sum_congr rfl fun p _ => by ring
      have p03 : Fe 0 0 0 + Fe 0 3 0 = 2 / h * (-(1 / 2)) * (2 * μ) * (h ^ 2 * (2 * pi * (r₀ + h / 2))) := by
        rw [pair, ← vol, mul_sum]
        exact sum_congr rfl fun p _ => by rw [(column_D4 _ p).1]
      have p12 : Fe 0 1 0 + Fe 0 2 0 = 2 / h * (1 / 2) * (2 * μ) * (h ^ 2 * (2 * pi * (r₀ + h / 2))) := by
        rw [pair, ← vol, mul_sum]
        exact sum_congr rfl fun p _ => by rw [(column_D4 _ p).2]
      refine eF.trans ?_
      rw [p03, p12]
      refine Eq.trans ?_ (congrArg₂ (fun y z => 8 * μ / (ρ₀ * h ^ 2) * y * z) eL.symm (eW q hq).symm)
      interval_cases q <;> simp [corner4] <;> field_simp <;> ring
    · have eF : forceOfA 1 (gridQuad 1) (fun m i => if i = 0 then m % 2 else 2 + m) (dynB s (ringPos r₀ (gridCoor h 1)) (gridQuad 1)) (dynVolA pi s (ringPos r₀ (gridCoor h 1)) (gridQuad 1))
          (fun e q => ddot 3 (isotropic 0 μ) (ε e q)) (2 + gridQuad 1 0 q) = 0 := by
        refine Eq.trans ?_ (F1 q)
        rw [← ring_node hq Fe]
        simp only [hFe]
        rfl
      refine eF.trans ?_
      dsimp only
      rw [hWd _ 1 (by omega), if_neg one_ne_zero, if_neg one_ne_zero, mul_zero]

/-! Non-vacuity: unit ring element, inner radius one, `μ = ρ₀ = 1`, time step one: after 100 increments the displacements exceed `3 ^ 100 / 2`. -/
example : ∃ (material : List (Ten ℚ) → Res (Ten ℚ)) (w v a rho : Ten ℚ) (dofs : Ten Nat), IsOk (do
      let conn ← Quad4.Regular.conn (Quad4.Regular.new 1 1 (1 : ℚ))
      let coor ← (Quad4.Regular.new 1 1 (1 : ℚ)).coor
      let (D, M) ← DynamicsAxi.new (1 / 2) 3 (fun _ => Sched.seq) conn dofs (addRadius 1 coor) rho
      D.run 1 material v (fun _ _ => Sched.rev) 100 ⟨w, v, a, M, []⟩) fun S => ∃ U, Is2 S.u 4 2 U ∧ ∀ m, m < 4 → (3 : ℚ) ^ 100 * (1 / 2) ≤ |U m 0| := by
  obtain ⟨mat, hm⟩ := linear_materialA 1 fun _ _ => isotropic (0 : ℚ) 1
  have hd : Is2 (Ten.of [4, 2] fun i => match i with | [m, i] => if i = 0 then m % 2 else 2 + m | _ => 0) 4 2 fun m i => if i = 0 then m % 2 else 2 + m :=
    ⟨rfl, fun _ _ _ _ => rfl⟩
  have hw : Is2 (Ten.of [4, 2] fun i => match i with | [m, i] => if i = 0 then if m % 2 = 0 then - ((1 : ℚ) / 2) else 1 / 2 else 0 | _ => 0) 4 2
      fun m i => if i = 0 then if m % 2 = 0 then - ((1 : ℚ) / 2) else 1 / 2 else 0 := ⟨rfl, fun _ _ _ _ => rfl⟩
  have ha : Is2 (Ten.of [4, 2] fun i => match i with | [m, i] => - (8 * 1 / (1 * 1 ^ 2)) * (if i = 0 then if m % 2 = 0 then - ((1 : ℚ) / 2) else 1 / 2 else 0) | _ => 0) 4 2
      fun m i => - (8 * 1 / (1 * 1 ^ 2)) * if i = 0 then if m % 2 = 0 then - ((1 : ℚ) / 2) else 1 / 2 else 0 := ⟨rfl, fun _ _ _ _ => rfl⟩
  have hv : Is2 (Ten.of [4, 2] fun _ => (0 : ℚ)) 4 2 fun _ _ => 0 := ⟨rfl, fun _ _ _ _ => rfl⟩
  have hr : Is2 (Ten.of [1, 4] fun _ => (1 : ℚ)) 1 4 fun _ _ => 1 := ⟨rfl, fun _ _ _ _ => rfl⟩
  obtain ⟨S, k1, U, k2, k3⟩ := C121_unstable (h := (1 : ℚ)) one_pos (r₀ := 1) one_pos (pi := 3) (by norm_num) (1 / 2) (fun _ => Sched.seq) (fun _ _ => Sched.rev)
    hd (ρ₀ := 1) one_pos hr 1 (μ := 1) hm hw hv ha hv 100
  refine ⟨mat, _, _, _, _, _, S, k1, U, k2, fun m hm => ?_⟩
  have := (k3 (by norm_num) m hm).1
  norm_num at this ⊢
  exact this

end GF
