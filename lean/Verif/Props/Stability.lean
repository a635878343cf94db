import Verif.Props.Dynamics
import Mathlib.Tactic.Positivity

/-! **C106**: stability of the explicit time integration of docs/examples/dynamics. -/

namespace GF
open Finset ElemSpec Element Element.Quad4

variable {α : Type} [Field α] [LinearOrder α] [IsStrictOrderedRing α]
variable {nn ne : Nat} {c d : Nat → Nat → Nat} {x : Nat → Nat → α} {Lx Ly : α} {O : Outline}

/-- volumes of the Gauss points -/
theorem dynVol_pos (hM : RectMesh nn ne c x Lx Ly O) {s : α} (s1 : -1 ≤ s) (s2 : s ≤ 1) {e q : Nat} (he : e < ne) : 0 < dynVol s x c e q := by
  have hb : ∀ i, -1 ≤ s * corner4 q i ∧ s * corner4 q i ≤ 1 := by
    intro i
    have : corner4 (α := α) q i = 1 ∨ corner4 (α := α) q i = -1 := by unfold corner4; split <;> simp
    rcases this with h | h <;> rw [h] <;> constructor <;> linarith
  exact det_pos (hM.convex e he) (hb 0).1 (hb 0).2 (hb 1).1 (hb 1).2

theorem lumped_nonneg (hM : RectMesh nn ne c x Lx Ly O) {R : Nat → Nat → α} (hR : ∀ e q, e < ne → q < 4 → 0 < R e q) (k : Nat) :
    0 ≤ lumped x ne c d R k := by
  refine sum_nonneg fun e he => sum_nonneg fun m hm => sum_nonneg fun i _ => ?_
  split
  · exact (mul_pos (hR _ _ (mem_range.1 he) (mem_range.1 hm)) (nodal_pos hM (mem_range.1 he))).le
  · exact le_rfl

/-- the acceleration is bounded by the elastic energy if all modes are slow enough -/
theorem Dynamics.State.accel_bound {D : Dynamics α} {s : α} (h2 : D.State nn ne c d x s) (hM : RectMesh nn ne c x Lx Ly O)
    (s1 : -1 ≤ s) (s2 : s ≤ 1) {R : Nat → Nat → α}
    (hpos : ∀ m i, m < nn → i < 2 → lumped x ne c d R (d m i) ≠ 0) {dt θ : α} (hθ : 0 < θ) {C : Nat → Nat → Nat → Nat → Nat → Nat → α}
    (major : ∀ e q i j k l, e < ne → q < 4 → i < 2 → j < 2 → k < 2 → l < 2 → C e q i j k l = C e q k l i j)
    (left : ∀ e q i j k l, e < ne → q < 4 → i < 2 → j < 2 → k < 2 → l < 2 → C e q i j k l = C e q j i k l)
    (nonneg : ∀ e q (g : Nat → Nat → α), e < ne → q < 4 → 0 ≤ power 2 (ddot 2 (C e q) g) g) (U : Nat → Nat → α)
    (hW : ∀ W : Nat → α, dt ^ 2 * elasticWork ne (dynVol s x c) C (strainOf (dynG s x c) c fun m i => W (d m i)) ≤
      4 * θ * ∑ k ∈ range D.vector.ndof, lumped x ne c d R k * W k ^ 2) :
    dt ^ 2 * ∑ k ∈ range D.vector.ndof, lumped x ne c d R k * accel ne c d s x R C U k ^ 2 ≤
      4 * θ * elasticWork ne (dynVol s x c) C (strainOf (dynG s x c) c U) := by
  obtain ⟨y, hy⟩ : ∃ y, y = accel ne c d s x R C U := ⟨_, rfl⟩
  have newton : ∀ k, lumped x ne c d R k * y k = - forceOf ne c d (dynG s x c) (dynVol s x c)
      (fun e q => ddot 2 (C e q) (strainOf (dynG s x c) c U e q)) k := by
    rw [hy]; exact accel_newton hM hpos U
  rw [← hy]
  have sym : ∀ e q, e < ne → q < 4 → ∀ i j k l, i < 2 → j < 2 → k < 2 → l < 2 → C e q i j k l = C e q l k j i := by
    intro e q he hq i j k l hi hj hk hl
    rw [major e q i j k l he hq hi hj hk hl, left e q k l i j he hq hk hl hi hj, major e q l k i j he hq hl hk hi hj,
      left e q i j l k he hq hi hj hl hk, major e q j i l k he hq hj hi hl hk]
  have ssym : ∀ e q, e < ne → q < 4 → ddot 2 (C e q) (strainOf (dynG s x c) c U e q) 0 1 = ddot 2 (C e q) (strainOf (dynG s x c) c U e q) 1 0 := by
    intro e q he hq
    simp only [ddot]
    refine sum_congr rfl fun k hk => sum_congr rfl fun l hl => ?_
    rw [left e q 0 1 k l he hq (by omega) (by omega) (mem_range.1 hk) (mem_range.1 hl)]
  have w1 := h2.work (S := fun e q => ddot 2 (C e q) (strainOf (dynG s x c) c U e q)) ssym y
  obtain ⟨M, hMs⟩ : ∃ M, M = ∑ k ∈ range D.vector.ndof, lumped x ne c d R k * y k ^ 2 := ⟨_, rfl⟩
  have e1 : ∑ e ∈ range ne, ∑ q ∈ range 4, power 2 (ddot 2 (C e q) (strainOf (dynG s x c) c U e q))
      (strainOf (dynG s x c) c (fun m i => y (d m i)) e q) * dynVol s x c e q = - M := by
    rw [← w1, hMs, ← sum_neg_distrib]
    refine sum_congr rfl fun k _ => ?_
    linear_combination y k * newton k
  have key : ∀ t : α, 0 ≤ elasticWork ne (dynVol s x c) C (strainOf (dynG s x c) c U) - 2 * t * M +
      t ^ 2 * elasticWork ne (dynVol s x c) C (strainOf (dynG s x c) c fun m i => y (d m i)) := by
    intro t
    have h0 : 0 ≤ elasticWork ne (dynVol s x c) C (strainOf (dynG s x c) c fun m i => U m i + t * y (d m i)) := by
      refine sum_nonneg fun e he => sum_nonneg fun q hq => ?_
      exact mul_nonneg (nonneg e q _ (mem_range.1 he) (mem_range.1 hq)) (dynVol_pos hM s1 s2 (mem_range.1 he)).le
    refine h0.trans_eq ?_
    have hM' : M = - ∑ e ∈ range ne, ∑ q ∈ range 4, power 2 (ddot 2 (C e q) (strainOf (dynG s x c) c U e q))
      (strainOf (dynG s x c) c (fun m i => y (d m i)) e q) * dynVol s x c e q := by rw [e1, neg_neg]
    rw [hM', elasticWork, elasticWork, elasticWork, mul_neg, sub_neg_eq_add, mul_sum, mul_sum, ← sum_add_distrib, ← sum_add_distrib]
    refine sum_congr rfl fun e he => ?_
    rw [mul_sum, mul_sum, ← sum_add_distrib, ← sum_add_distrib]
    refine sum_congr rfl fun q hq => ?_
    have eS : strainOf (dynG s x c) c (fun m i => U m i + t * y (d m i)) e q = fun i j => strainOf (dynG s x c) c U e q i j +
        t * strainOf (dynG s x c) c (fun m i => y (d m i)) e q i j := by
      funext i j
      simp only [strainOf, symf, grad, mul_add, sum_add_distrib, mul_left_comm _ t, ← mul_sum]
      split <;> ring
    rw [eS]
    have hc := power_comm (sym e q (mem_range.1 he) (mem_range.1 hq)) (strainOf (dynG s x c) c (fun m i => y (d m i)) e q) (strainOf (dynG s x c) c U e q)
    obtain ⟨a, ha⟩ : ∃ a, a = strainOf (dynG s x c) c U e q := ⟨_, rfl⟩
    obtain ⟨b, hb⟩ : ∃ b, b = strainOf (dynG s x c) c (fun m i => y (d m i)) e q := ⟨_, rfl⟩
    rw [← ha, ← hb] at hc ⊢
    have e2 : power 2 (ddot 2 (C e q) fun i j => a i j + t * b i j) (fun i j => a i j + t * b i j) = power 2 (ddot 2 (C e q) a) a +
        t * power 2 (ddot 2 (C e q) a) b + t * power 2 (ddot 2 (C e q) b) a + t ^ 2 * power 2 (ddot 2 (C e q) b) b := by
      simp only [power, ddot, sum_range_succ, sum_range_zero]
      ring
    rw [e2, hc]
    ring
  have k1 := key (dt ^ 2 / (4 * θ))
  have k2 := hW y
  rw [← hMs] at k2 ⊢
  have p : (0 : α) < 4 * θ := by positivity
  obtain ⟨Y, hY⟩ : ∃ Y, Y = elasticWork ne (dynVol s x c) C (strainOf (dynG s x c) c fun m i => y (d m i)) := ⟨_, rfl⟩
  rw [← hY] at k1 k2
  have k3 : dt ^ 2 / (4 * θ) * Y ≤ M := by
    rw [div_mul_eq_mul_div, div_le_iff₀ p]
    linarith
  have k4 : (dt ^ 2 / (4 * θ)) ^ 2 * Y ≤ dt ^ 2 / (4 * θ) * M := by
    rw [sq, mul_assoc]
    exact mul_le_mul_of_nonneg_left k3 (by positivity)
  have k5 : dt ^ 2 / (4 * θ) * M ≤ elasticWork ne (dynVol s x c) C (strainOf (dynG s x c) c U) := by linarith
  rw [div_mul_eq_mul_div, div_le_iff₀ p] at k5
  linarith

/-- **C106** (stability) for a linear elastic material and no load: if for every motion `W` of the DOFs `dt²` times the elastic energy
is at most `4 θ` times the kinetic energy (`θ ≤ 1`; i.e. `dt` times the highest frequency is at most `2 √θ`), then after any number
of increments the kinetic energy plus the fraction `1 - θ` of the elastic energy is at most the initial energy: the program does not
blow up -/
theorem C106_stable (hM : RectMesh nn ne c x Lx Ly O) (lx : 0 < Lx) (ly : 0 < Ly) {s : α} (s1 : -1 ≤ s) (s2 : s ≤ 1) (σ : Nat → Sched)
    (υ : Nat → Nat → Sched) {conn dofs : Ten Nat} {coor rho : Ten α} (hc : Is2 conn ne 4 c) (hx : Is2 coor nn 2 x) (hd : Is2 dofs nn 2 d)
    {R : Nat → Nat → α} (hr : Is2 rho ne 4 R) (hR : ∀ e q, e < ne → q < 4 → 0 < R e q) (dt : α) {material : List (Ten α) → Res (Ten α)} {C : Nat → Nat → Nat → Nat → Nat → Nat → α}
    (hm : HistoryFree ne material fun E e q => ddot 2 (C e q) (E e q))
    (major : ∀ e q i j k l, e < ne → q < 4 → i < 2 → j < 2 → k < 2 → l < 2 → C e q i j k l = C e q k l i j)
    (left : ∀ e q i j k l, e < ne → q < 4 → i < 2 → j < 2 → k < 2 → l < 2 → C e q i j k l = C e q j i k l)
    (nonneg : ∀ e q (g : Nat → Nat → α), e < ne → q < 4 → 0 ≤ power 2 (ddot 2 (C e q) g) g)
    {u v a fext : Ten α} {U : Nat → Nat → α} {V A : Nat → α} (hu : Is2 u nn 2 U) (hv : Is2 v nn 2 fun m i => V (d m i))
    (ha : Is2 a nn 2 fun m i => A (d m i)) (hf : Is2 fext nn 2 fun _ _ => 0) (n : Nat) (ρ τ : Sched) {θ : α} (hθ : 0 < θ) :
    IsOk (do
      let (D, M) ← Dynamics.new s σ conn dofs coor rho
      let S ← D.run dt material fext υ 1 ⟨u, v, a, M, []⟩
      let E ← D.strain ρ τ S.u
      let S' ← D.run dt material fext υ (n + 1) ⟨u, v, a, M, []⟩
      let E' ← D.strain ρ τ S'.u
      return (D, M, S, E, S', E')) fun (D, M, S, E, S', E') => ∃ (N : Nat) (mass : Nat → α) (vol : Nat → Nat → α), NumDofs nn d N ∧ Is1 M.A N mass ∧ Is2 D.quad.vol ne 4 vol ∧
        ∃ (V₁ : Nat → α) (E₁ : Nat → Nat → Nat → Nat → α) (V₂ : Nat → α) (E₂ : Nat → Nat → Nat → Nat → α), Is2 S.v nn 2 (fun m i => V₁ (d m i)) ∧ Is4 E ne 4 2 2 E₁ ∧
          Is2 S'.v nn 2 (fun m i => V₂ (d m i)) ∧ Is4 E' ne 4 2 2 E₂ ∧
          ((∀ (w : Ten α) (W : Nat → α) (t : Ten α) (ε : Nat → Nat → Nat → Nat → α), Is2 w nn 2 (fun m i => W (d m i)) → D.strain ρ τ w = .ok t → Is4 t ne 4 2 2 ε →
              dt ^ 2 * elasticWork ne vol C ε ≤ 4 * θ * ∑ k ∈ range N, mass k * W k ^ 2) →
            1 / 2 * ∑ k ∈ range N, mass k * V₂ k ^ 2 + (1 - θ) * (1 / 2 * elasticWork ne vol C E₂) ≤
            1 / 2 * ∑ k ∈ range N, mass k * V₁ k ^ 2 + 1 / 2 * elasticWork ne vol C E₁) := by
  obtain ⟨D, M, h1, h2, h3, h4, h5⟩ := dynamics_new hM s1 s2 σ hc hx hd hr
  have hA := h4.A _ rfl
  rw [h3] at hA
  obtain ⟨t, g1, N, mass, vol, g2, g3, -, -, g4, -⟩ := C83_mass hM lx ly s1 s2 σ hc hx hd hr
  obtain rfl : (D, M) = t := by rw [h1] at g1; injection g1
  have hN : N = D.vector.ndof := by
    have := g3.1.symm.trans hA.1
    simpa using this
  subst hN
  have hpos : ∀ m i, m < nn → i < 2 → lumped x ne c d R (d m i) ≠ 0 := fun m i hm hi => by
    rw [← g3.unique hA (g2.1 m i hm hi)]
    exact (g4 hR m i hm hi).ne'
  have hf' : Is2 fext nn 2 fun m i => (fun _ : Nat => (0 : α)) (d m i) := hf
  obtain ⟨S, i1, i2⟩ := h2.run_ok (B := fun _ => 0) dt hm hf υ 1 (S := ⟨u, v, a, M, []⟩) (X := (U, V, A)) ⟨hu, hv, ha, h4, h3, by simp⟩
  obtain ⟨S', j1, j2⟩ := h2.run_ok (B := fun _ => 0) dt hm hf υ (n + 1) (S := ⟨u, v, a, M, []⟩) (X := (U, V, A)) ⟨hu, hv, ha, h4, h3, by simp⟩
  have i3 := i2 _ rfl
  have j3 := j2 _ rfl
  rw [Function.iterate_one] at i3
  rw [Function.iterate_succ_apply] at j3
  obtain ⟨E, k1, k2⟩ := h2.strain_ok ρ τ i3.u
  obtain ⟨E', l1, l2⟩ := h2.strain_ok ρ τ j3.u
  refine ⟨(D, M, S, E, S', E'), by simp only [h1, i1, k1, j1, l1, Res.ok_bind]; rfl, _, _, _, h5, hA, h2.volume, _, _, _, _, i3.v, k2,
    j3.v, l2, fun hW => ?_⟩
  have hW' : ∀ W : Nat → α, dt ^ 2 * elasticWork ne (dynVol s x c) C (strainOf (dynG s x c) c fun m i => W (d m i)) ≤
      4 * θ * ∑ k ∈ range D.vector.ndof, lumped x ne c d R k * W k ^ 2 := by
    intro W
    have hw : Is2 (Ten.of [nn, 2] fun i => match i with | [m, i] => W (d m i) | _ => 0) nn 2 fun m i => W (d m i) := ⟨rfl, fun _ _ _ _ => rfl⟩
    obtain ⟨t, t1, t2⟩ := h2.strain_ok ρ τ hw
    exact hW _ W t _ hw t1 t2
  have en := h2.energy hM hpos dt major left n (verlet d dt (accel ne c d s x R C) (U, V, A)) rfl
  obtain ⟨X, hX⟩ : ∃ X, X = verlet d dt (accel ne c d s x R C) (U, V, A) := ⟨_, rfl⟩
  have e0 : verlet d dt (fun U k => (0 - forceOf ne c d (dynG s x c) (dynVol s x c) (fun e q => ddot 2 (C e q) (strainOf (dynG s x c) c U e q)) k) /
    lumped x ne c d R k) (U, V, A) = X := hX.symm
  obtain ⟨Y, hY⟩ : ∃ Y, Y = (verlet d dt (accel ne c d s x R C))^[n] X := ⟨_, rfl⟩
  rw [← hX, ← hY] at en
  have eY : (verlet d dt (fun U k => (0 - forceOf ne c d (dynG s x c) (dynVol s x c) (fun e q => ddot 2 (C e q) (strainOf (dynG s x c) c U e q)) k) /
    lumped x ne c d R k))^[n] X = Y := hY.symm
  rw [e0, eY]
  have hYa : Y.2.2 = accel ne c d s x R C Y.1 := by
    rw [hY]
    cases n with
    | zero => rw [hX]; rfl
    | succ n => rw [Function.iterate_succ_apply']; rfl
  have b := h2.accel_bound hM s1 s2 hpos hθ major left nonneg Y.1 hW'
  have p : 0 ≤ dt ^ 2 / 8 * ∑ k ∈ range D.vector.ndof, lumped x ne c d R k * X.2.2 k ^ 2 :=
    mul_nonneg (by positivity) (sum_nonneg fun k _ => mul_nonneg (lumped_nonneg hM hR k) (sq_nonneg _))
  simp only [verletEnergy] at en
  rw [hYa] at en
  linarith


/-! ### The critical time step -/

/-- all elements are squares of size `h` aligned with the axes -/
def Squares (ne : Nat) (c : Nat → Nat → Nat) (x : Nat → Nat → α) (h : α) : Prop :=
  ∀ e, e < ne → x (c e 1) 0 = x (c e 0) 0 + h ∧ x (c e 1) 1 = x (c e 0) 1 ∧ x (c e 2) 0 = x (c e 0) 0 + h ∧ x (c e 2) 1 = x (c e 0) 1 + h ∧
    x (c e 3) 0 = x (c e 0) 0 ∧ x (c e 3) 1 = x (c e 0) 1 + h

omit [LinearOrder α] [IsStrictOrderedRing α] in
theorem square_jac [CharZero α] {X : Nat → Nat → α} {h : α} (hX : X 1 0 = X 0 0 + h ∧ X 1 1 = X 0 1 ∧ X 2 0 = X 0 0 + h ∧ X 2 1 = X 0 1 + h ∧
    X 3 0 = X 0 0 ∧ X 3 1 = X 0 1 + h) (ξ η : α) :
    jac4 X ξ η 0 0 = h / 2 ∧ jac4 X ξ η 0 1 = 0 ∧ jac4 X ξ η 1 0 = 0 ∧ jac4 X ξ η 1 1 = h / 2 := by
  obtain ⟨a1, a2, a3, a4, a5, a6⟩ := hX
  have p := jac4_0 X ξ η 0
  have p' := jac4_0 X ξ η 1
  have q := jac4_1 X ξ η 0
  have q' := jac4_1 X ξ η 1
  rw [a1, a3, a5] at p q
  rw [a2, a4, a6] at p' q'
  have h4 : (4 : α) ≠ 0 := by norm_num
  refine ⟨?_, ?_, ?_, ?_⟩ <;> refine mul_left_cancel₀ h4 ?_ <;> rw [jac4]
  · rw [p]; ring
  · rw [p']; ring
  · rw [q]; ring
  · rw [q']; ring

omit [LinearOrder α] [IsStrictOrderedRing α] in
/-- volumes and gradients of a square -/
theorem square_geo [CharZero α] {h : α} (hh : h ≠ 0) (hS : Squares ne c x h) (s : α) {e : Nat} (he : e < ne) :
    (∀ ξ η, det4 (fun m i => x (c e m) i) ξ η = h ^ 2 / 4) ∧
      ∀ q m i, i < 2 → dynG s x c e q m i = 2 / h * D4 (fun q i => s * corner4 q i) q m i := by
  have key := fun ξ η => square_jac (X := fun m i => x (c e m) i) (hS e he) ξ η
  refine ⟨fun ξ η => ?_, fun q m i hi => ?_⟩
  · obtain ⟨a, b, c, d⟩ := key ξ η
    rw [det4, a, b, c, d]
    ring
  · obtain ⟨j0, j1, j2, j3⟩ := key (s * corner4 q 0) (s * corner4 q 1)
    rw [dynG, Gf, sum_range_succ, sum_range_succ, sum_range_zero]
    obtain ⟨J, hJ⟩ : ∃ J, J = Jf (D4 fun q i => s * corner4 q i) (fun e m i => x (c e m) i) e q := ⟨_, rfl⟩
    have e0 : J 0 0 = h / 2 := by rw [hJ, Jf_eq]; exact j0
    have e1 : J 0 1 = 0 := by rw [hJ, Jf_eq]; exact j1
    have e2 : J 1 0 = 0 := by rw [hJ, Jf_eq]; exact j2
    have e3 : J 1 1 = h / 2 := by rw [hJ, Jf_eq]; exact j3
    rw [← hJ]
    obtain rfl | rfl : i = 0 ∨ i = 1 := by omega
    · simp only [inv2f, e0, e1, e2, e3]
      field_simp
      ring
    · simp only [inv2f, e0, e1, e2, e3]
      field_simp
      ring

/-- the gradient in the Gauss points of a square, of a nodal field `f` -/
theorem square_grad {s : α} (hs : 2 * s ^ 2 ≤ 1) (f : Nat → α) :
    ∑ q ∈ range 4, ((∑ m ∈ range 4, D4 (fun q i => s * corner4 q i) q m 0 * f m) ^ 2 + (∑ m ∈ range 4, D4 (fun q i => s * corner4 q i) q m 1 * f m) ^ 2) ≤
      ∑ m ∈ range 4, f m ^ 2 := by
  have e : ∑ q ∈ range 4, ((∑ m ∈ range 4, D4 (fun q i => s * corner4 q i) q m 0 * f m) ^ 2 +
      (∑ m ∈ range 4, D4 (fun q i => s * corner4 q i) q m 1 * f m) ^ 2) =
      ((- f 0 + f 1 + f 2 - f 3) ^ 2 + (- f 0 - f 1 + f 2 + f 3) ^ 2 + 2 * s ^ 2 * (f 0 - f 1 + f 2 - f 3) ^ 2) / 4 := by
    simp only [D4, part2, N4, corner4, sum_range_succ, sum_range_zero, if_true, if_neg (show (1 : Nat) ≠ 0 by omega)]
    ring
  have e' : ∑ m ∈ range 4, f m ^ 2 = ((f 0 + f 1 + f 2 + f 3) ^ 2 + (- f 0 + f 1 + f 2 - f 3) ^ 2 + (- f 0 - f 1 + f 2 + f 3) ^ 2 +
      (f 0 - f 1 + f 2 - f 3) ^ 2) / 4 := by
    simp only [sum_range_succ, sum_range_zero]
    ring
  rw [e, e']
  have : 2 * s ^ 2 * (f 0 - f 1 + f 2 - f 3) ^ 2 ≤ 1 * (f 0 - f 1 + f 2 - f 3) ^ 2 := mul_le_mul_of_nonneg_right hs (sq_nonneg _)
  have := sq_nonneg (f 0 + f 1 + f 2 + f 3)
  linarith

/-- the elastic energy of a mesh of squares is bounded by the kinetic energy of the lumped mass -/
theorem Dynamics.State.cfl {D : Dynamics α} {s : α} (h2 : D.State nn ne c d x s) {h : α} (hh : 0 < h) (hS : Squares ne c x h) (hs : 2 * s ^ 2 ≤ 1)
    {R : Nat → Nat → α} {ρ₀ κ θ dt : α} (hR : ∀ e q, e < ne → q < 4 → ρ₀ ≤ R e q) {C : Nat → Nat → Nat → Nat → Nat → Nat → α} (hκ : 0 ≤ κ) (hθ : 0 ≤ θ)
    (stiff : ∀ e q (g : Nat → Nat → α), e < ne → q < 4 → power 2 (ddot 2 (C e q) g) g ≤ κ * power 2 g g)
    (hdt : dt ^ 2 * κ ≤ θ * (ρ₀ * h ^ 2)) (W : Nat → α) :
    dt ^ 2 * elasticWork ne (dynVol s x c) C (strainOf (dynG s x c) c fun m i => W (d m i)) ≤
      4 * θ * ∑ k ∈ range D.vector.ndof, lumped x ne c d R k * W k ^ 2 := by
  obtain ⟨e1, e2, e3, e4⟩ := h2.dims
  have dual := dual_sum h2.vec (fun e m _ => R e m * det4 (fun m i => x (c e m) i) (1 * corner4 m 0) (1 * corner4 m 1)) fun k => W k ^ 2
  rw [e1, e2, e4] at dual
  have dual' : ∑ k ∈ range D.vector.ndof, lumped x ne c d R k * W k ^ 2 = ∑ e ∈ range ne, ∑ m ∈ range 4, ∑ i ∈ range 2,
      R e m * det4 (fun m i => x (c e m) i) (1 * corner4 m 0) (1 * corner4 m 1) * W (d (c e m) i) ^ 2 := dual
  rw [dual', elasticWork, mul_sum, mul_sum]
  refine sum_le_sum fun e he => ?_
  rw [mem_range] at he
  obtain ⟨g1, g2⟩ := square_geo hh.ne' hS s he
  obtain ⟨P, hP⟩ : ∃ P, P = ∑ m ∈ range 4, (W (d (c e m) 0) ^ 2 + W (d (c e m) 1) ^ 2) := ⟨_, rfl⟩
  have hP0 : 0 ≤ P := by rw [hP]; exact sum_nonneg fun m _ => by positivity
  have b1 : ∑ q ∈ range 4, power 2 (ddot 2 (C e q) (strainOf (dynG s x c) c (fun m i => W (d m i)) e q))
      (strainOf (dynG s x c) c (fun m i => W (d m i)) e q) * dynVol s x c e q ≤ κ * P := by
    have t : ∀ q ∈ range 4, power 2 (ddot 2 (C e q) (strainOf (dynG s x c) c (fun m i => W (d m i)) e q))
      (strainOf (dynG s x c) c (fun m i => W (d m i)) e q) * dynVol s x c e q ≤ κ * (
        ((∑ m ∈ range 4, D4 (fun q i => s * corner4 q i) q m 0 * W (d (c e m) 0)) ^ 2 + (∑ m ∈ range 4, D4 (fun q i => s * corner4 q i) q m 1 * W (d (c e m) 0)) ^ 2) +
        ((∑ m ∈ range 4, D4 (fun q i => s * corner4 q i) q m 0 * W (d (c e m) 1)) ^ 2 + (∑ m ∈ range 4, D4 (fun q i => s * corner4 q i) q m 1 * W (d (c e m) 1)) ^ 2)) := by
      intro q hq
      rw [mem_range] at hq
      have hv : dynVol s x c e q = h ^ 2 / 4 := g1 _ _
      rw [hv]
      obtain ⟨y, hy⟩ : ∃ y : Nat → Nat → α, ∀ i j, y i j = ∑ m ∈ range 4, D4 (fun q i => s * corner4 q i) q m i * W (d (c e m) j) := ⟨_, fun _ _ => rfl⟩
      have gr : ∀ i j, i < 2 → grad 4 (dynG s x c) (fun e m i => W (d (c e m) i)) e q i j = 2 / h * y i j := by
        intro i j hi
        rw [grad, hy, mul_sum]
        refine sum_congr rfl fun m _ => ?_
        rw [g2 q m i hi, mul_assoc]
      have st : ∀ i j, strainOf (dynG s x c) c (fun m i => W (d m i)) e q i j = symf (grad 4 (dynG s x c) (fun e m i => W (d (c e m) i)) e q) i j :=
        fun _ _ => rfl
      refine (mul_le_mul_of_nonneg_right (stiff e q _ he hq) (by positivity)).trans ?_
      rw [mul_assoc]
      refine mul_le_mul_of_nonneg_left ?_ hκ
      simp only [power, sum_range_succ (n := 1), sum_range_succ (n := 0), sum_range_zero, st, symf, if_true, if_neg (show (1 : Nat) ≠ 0 by omega),
        if_neg (show (0 : Nat) ≠ 1 by omega), gr 0 _ (by omega), gr 1 _ (by omega), zero_add]
      rw [← hy, ← hy, ← hy, ← hy]
      have h' : h ≠ 0 := hh.ne'
      have e5 : (2 / h * y 0 0 * (2 / h * y 0 0) + 1 / 2 * (2 / h * y 0 1 + 2 / h * y 1 0) * (1 / 2 * (2 / h * y 0 1 + 2 / h * y 1 0)) +
          (1 / 2 * (2 / h * y 0 1 + 2 / h * y 1 0) * (1 / 2 * (2 / h * y 0 1 + 2 / h * y 1 0)) + 2 / h * y 1 1 * (2 / h * y 1 1))) * (h ^ 2 / 4) =
          y 0 0 ^ 2 + y 1 1 ^ 2 + (y 0 1 + y 1 0) ^ 2 / 2 := by
        field_simp
        ring
      refine e5.trans_le ?_
      have := sq_nonneg (y 0 1 - y 1 0)
      linarith
    refine (sum_le_sum t).trans ?_
    rw [← mul_sum, sum_add_distrib]
    refine mul_le_mul_of_nonneg_left ?_ hκ
    have hP' : P = ∑ m ∈ range 4, W (d (c e m) 0) ^ 2 + ∑ m ∈ range 4, W (d (c e m) 1) ^ 2 := by rw [hP, sum_add_distrib]
    rw [hP']
    exact add_le_add (square_grad hs fun m => W (d (c e m) 0)) (square_grad hs fun m => W (d (c e m) 1))
  have b2 : ρ₀ * (h ^ 2 / 4) * P ≤ ∑ m ∈ range 4, ∑ i ∈ range 2,
      R e m * det4 (fun m i => x (c e m) i) (1 * corner4 m 0) (1 * corner4 m 1) * W (d (c e m) i) ^ 2 := by
    rw [hP, mul_sum]
    refine sum_le_sum fun m hm => ?_
    rw [sum_range_succ, sum_range_succ, sum_range_zero, g1, zero_add, ← mul_add]
    exact mul_le_mul_of_nonneg_right (mul_le_mul_of_nonneg_right (hR e m he (mem_range.1 hm)) (by positivity)) (by positivity)
  calc _ ≤ dt ^ 2 * (κ * P) := mul_le_mul_of_nonneg_left b1 (by positivity)
    _ = dt ^ 2 * κ * P := by ring
    _ ≤ θ * (ρ₀ * h ^ 2) * P := mul_le_mul_of_nonneg_right hdt hP0
    _ = 4 * θ * (ρ₀ * (h ^ 2 / 4) * P) := by ring
    _ ≤ _ := mul_le_mul_of_nonneg_left b2 (by positivity)

/-- **C106** (critical time step) on a mesh of squares of size `h`, with density at least `ρ₀` and stiffness at most `κ`, for any DOFs
(so also if the mesh is periodic): the explicit time integration is stable if `dt² κ ≤ θ ρ₀ h²`, `θ ≤ 1` -/
theorem C106_cfl (hM : RectMesh nn ne c x Lx Ly O) (lx : 0 < Lx) (ly : 0 < Ly) {s : α} (s1 : -1 ≤ s) (s2 : s ≤ 1) (s3 : 2 * s ^ 2 ≤ 1) (σ : Nat → Sched)
    (υ : Nat → Nat → Sched) {conn dofs : Ten Nat} {coor rho : Ten α} (hc : Is2 conn ne 4 c) (hx : Is2 coor nn 2 x) (hd : Is2 dofs nn 2 d)
    {h : α} (hh : 0 < h) (hS : Squares ne c x h)
    {R : Nat → Nat → α} (hr : Is2 rho ne 4 R) {ρ₀ : α} (hρ : 0 < ρ₀) (hR : ∀ e q, e < ne → q < 4 → ρ₀ ≤ R e q) (dt : α)
    {material : List (Ten α) → Res (Ten α)} {C : Nat → Nat → Nat → Nat → Nat → Nat → α}
    (hm : HistoryFree ne material fun E e q => ddot 2 (C e q) (E e q))
    (major : ∀ e q i j k l, e < ne → q < 4 → i < 2 → j < 2 → k < 2 → l < 2 → C e q i j k l = C e q k l i j)
    (left : ∀ e q i j k l, e < ne → q < 4 → i < 2 → j < 2 → k < 2 → l < 2 → C e q i j k l = C e q j i k l)
    (nonneg : ∀ e q (g : Nat → Nat → α), e < ne → q < 4 → 0 ≤ power 2 (ddot 2 (C e q) g) g) {κ : α} (hκ : 0 ≤ κ)
    (stiff : ∀ e q (g : Nat → Nat → α), e < ne → q < 4 → power 2 (ddot 2 (C e q) g) g ≤ κ * power 2 g g)
    {u v a fext : Ten α} {U : Nat → Nat → α} {V A : Nat → α} (hu : Is2 u nn 2 U) (hv : Is2 v nn 2 fun m i => V (d m i))
    (ha : Is2 a nn 2 fun m i => A (d m i)) (hf : Is2 fext nn 2 fun _ _ => 0) (n : Nat) (ρ τ : Sched) {θ : α} (hθ : 0 < θ)
    (hdt : dt ^ 2 * κ ≤ θ * (ρ₀ * h ^ 2)) :
    IsOk (do
      let (D, M) ← Dynamics.new s σ conn dofs coor rho
      let S ← D.run dt material fext υ 1 ⟨u, v, a, M, []⟩
      let E ← D.strain ρ τ S.u
      let S' ← D.run dt material fext υ (n + 1) ⟨u, v, a, M, []⟩
      let E' ← D.strain ρ τ S'.u
      return (D, M, S, E, S', E')) fun (D, M, S, E, S', E') => ∃ (N : Nat) (mass : Nat → α) (vol : Nat → Nat → α), NumDofs nn d N ∧ Is1 M.A N mass ∧ Is2 D.quad.vol ne 4 vol ∧
        ∃ (V₁ : Nat → α) (E₁ : Nat → Nat → Nat → Nat → α) (V₂ : Nat → α) (E₂ : Nat → Nat → Nat → Nat → α), Is2 S.v nn 2 (fun m i => V₁ (d m i)) ∧ Is4 E ne 4 2 2 E₁ ∧
          Is2 S'.v nn 2 (fun m i => V₂ (d m i)) ∧ Is4 E' ne 4 2 2 E₂ ∧
            1 / 2 * ∑ k ∈ range N, mass k * V₂ k ^ 2 + (1 - θ) * (1 / 2 * elasticWork ne vol C E₂) ≤
            1 / 2 * ∑ k ∈ range N, mass k * V₁ k ^ 2 + 1 / 2 * elasticWork ne vol C E₁ := by
  obtain ⟨⟨D, M, S, E, S', E'⟩, t1, N, mass, vol, b1, b2, b3, V₁, E₁, V₂, E₂, c1, c2, c3, c4, c5⟩ := C106_stable hM lx ly s1 s2 σ υ hc hx hd hr
    (fun e q he hq => hρ.trans_le (hR e q he hq)) dt hm major left nonneg hu hv ha hf n ρ τ hθ
  refine ⟨_, t1, N, mass, vol, b1, b2, b3, V₁, E₁, V₂, E₂, c1, c2, c3, c4, c5 ?_⟩
  intro w W t ε hw ht hε
  obtain ⟨D', M', h1, h2, h3, h4, h5⟩ := dynamics_new hM s1 s2 σ hc hx hd hr
  rw [h1, Res.ok_bind] at t1
  dsimp only at t1
  have same : D' = D ∧ M' = M := by
    cases r1 : D'.run dt material fext υ 1 ⟨u, v, a, M', []⟩ with
    | ok S0 =>
      rw [r1, Res.ok_bind] at t1
      cases r2 : D'.strain ρ τ S0.u with
      | ok E0 =>
        rw [r2, Res.ok_bind] at t1
        cases r3 : D'.run dt material fext υ (n + 1) ⟨u, v, a, M', []⟩ with
        | ok S1 =>
          rw [r3, Res.ok_bind] at t1
          cases r4 : D'.strain ρ τ S1.u with
          | ok E1 =>
            rw [r4, Res.ok_bind] at t1
            have t1' : Res.ok (D', M', S0, E0, S1, E1) = Res.ok (D, M, S, E, S', E') := t1
            injection t1' with t1'
            exact ⟨(Prod.mk.inj t1').1, (Prod.mk.inj (Prod.mk.inj t1').2).1⟩
          | _ => rw [r4] at t1; cases t1
        | _ => rw [r3] at t1; cases t1
      | _ => rw [r2] at t1; cases t1
    | _ => rw [r1] at t1; cases t1
  obtain ⟨rfl, rfl⟩ := same
  have hA := h4.A _ rfl
  rw [h3] at hA
  have hN : N = D'.vector.ndof := by
    have := b2.1.symm.trans hA.1
    simpa using this
  subst hN
  have := h2.cfl hh hS s3 hR hκ hθ.le stiff hdt W
  obtain ⟨t', k1, k2⟩ := h2.strain_ok ρ τ hw
  obtain rfl : t' = t := by rw [k1] at ht; injection ht
  have f1 : elasticWork ne vol C ε = elasticWork ne (dynVol s x c) C (strainOf (dynG s x c) c fun m i => W (d m i)) := by
    refine sum_congr rfl fun e he => sum_congr rfl fun q hq => ?_
    rw [mem_range] at he hq
    rw [b3.unique h2.volume he hq]
    congr 1
    have eq : ∀ i j, i < 2 → j < 2 → ε e q i j = strainOf (dynG s x c) c (fun m i => W (d m i)) e q i j :=
      fun i j hi hj => hε.unique k2 he hq hi hj
    simp only [power, ddot, sum_range_succ, sum_range_zero, eq 0 0 (by omega) (by omega), eq 0 1 (by omega) (by omega),
      eq 1 0 (by omega) (by omega), eq 1 1 (by omega) (by omega)]
  have f2 : ∑ k ∈ range D'.vector.ndof, mass k * W k ^ 2 = ∑ k ∈ range D'.vector.ndof, lumped x ne c d R k * W k ^ 2 :=
    sum_congr rfl fun k hk => by rw [b2.unique hA (mem_range.1 hk)]
  rw [f1, f2]
  exact this

/-- isotropic elasticity is bounded by twice the plane bulk modulus -/
theorem isotropic_stiff {l μ : α} (hl : 0 ≤ l) (hμ : 0 ≤ μ) (g : Nat → Nat → α) : power 2 (ddot 2 (isotropic l μ) g) g ≤ 2 * (l + μ) * power 2 g g := by
  have key : power 2 (ddot 2 (isotropic l μ) g) g =
      (l + μ) * (g 0 0 + g 1 1) ^ 2 + μ * (g 0 0 - g 1 1) ^ 2 + μ * (g 0 1 + g 1 0) ^ 2 := by
    simp only [power, ddot, isotropic, sum_range_succ, sum_range_zero]
    norm_num
    ring
  have key' : power 2 g g = g 0 0 ^ 2 + g 1 1 ^ 2 + g 0 1 ^ 2 + g 1 0 ^ 2 := by
    simp only [power, sum_range_succ, sum_range_zero]
    ring
  rw [key, key']
  have a1 : 0 ≤ l * (g 0 0 - g 1 1) ^ 2 := by positivity
  have a2 : 0 ≤ μ * (g 0 1 - g 1 0) ^ 2 := by positivity
  have a3 : 0 ≤ l * (g 0 1 ^ 2 + g 1 0 ^ 2) := by positivity
  nlinarith

theorem regular_squares (nelx nely : Nat) {h : α} :
    Squares (nelx * nely) (gridQuad nelx) (gridCoor h nelx) h := by
  intro e he
  have p : 0 < nelx := Nat.pos_of_ne_zero fun h0 => by simp [h0] at he
  have hm := Nat.mod_lt e p
  obtain ⟨i, hi⟩ : ∃ i, i = e / nelx := ⟨_, rfl⟩
  obtain ⟨j, hj⟩ : ∃ j, j = e % nelx := ⟨_, rfl⟩
  rw [← hj] at hm
  have n0 := gridCoor_node h (nelx := nelx) (i := i) (j := j) (by omega)
  have n1 := gridCoor_node h (nelx := nelx) (i := i) (j := j + 1) (by omega)
  have n2 := gridCoor_node h (nelx := nelx) (i := i + 1) (j := j + 1) (by omega)
  have n3 := gridCoor_node h (nelx := nelx) (i := i + 1) (j := j) (by omega)
  have g0 : gridQuad nelx e 0 = i * (nelx + 1) + j := by rw [hi, hj]; rfl
  have g1 : gridQuad nelx e 1 = i * (nelx + 1) + (j + 1) := by rw [hi, hj]; rfl
  have g2 : gridQuad nelx e 2 = (i + 1) * (nelx + 1) + (j + 1) := by rw [hi, hj]; rfl
  have g3 : gridQuad nelx e 3 = (i + 1) * (nelx + 1) + j := by rw [hi, hj]; rfl
  rw [g0, g1, g2, g3, n0.1, n0.2, n1.1, n1.2, n2.1, n2.2, n3.1, n3.2]
  refine ⟨?_, rfl, ?_, ?_, rfl, ?_⟩ <;> push_cast <;> ring

/-- **C106** (Quad4 `Regular`, isotropic elasticity) the program of the example, for any DOFs: stable if `2 (l + μ) dt² ≤ θ ρ₀ h²` -/
theorem C106_quad4_regular {nelx nely : Nat} (px : 0 < nelx) (py : 0 < nely) {h : α} (hh : 0 < h) {s : α} (s1 : -1 ≤ s) (s2 : s ≤ 1) (s3 : 2 * s ^ 2 ≤ 1)
    (σ : Nat → Sched) (υ : Nat → Nat → Sched) {dofs : Ten Nat} (hd : Is2 dofs ((nelx + 1) * (nely + 1)) 2 d)
    {rho : Ten α} {R : Nat → Nat → α} (hr : Is2 rho (nelx * nely) 4 R) {ρ₀ : α} (hρ : 0 < ρ₀) (hR : ∀ e q, e < nelx * nely → q < 4 → ρ₀ ≤ R e q) (dt : α)
    {material : List (Ten α) → Res (Ten α)} {l μ : α} (hl : 0 ≤ l) (hμ : 0 < μ)
    (hm : HistoryFree (nelx * nely) material fun E e q => ddot 2 (isotropic l μ) (E e q))
    {u v a fext : Ten α} {U : Nat → Nat → α} {V A : Nat → α} (hu : Is2 u ((nelx + 1) * (nely + 1)) 2 U)
    (hv : Is2 v ((nelx + 1) * (nely + 1)) 2 fun m i => V (d m i)) (ha : Is2 a ((nelx + 1) * (nely + 1)) 2 fun m i => A (d m i))
    (hf : Is2 fext ((nelx + 1) * (nely + 1)) 2 fun _ _ => 0) (n : Nat) (ρ τ : Sched) {θ : α} (hθ : 0 < θ)
    (hdt : dt ^ 2 * (2 * (l + μ)) ≤ θ * (ρ₀ * h ^ 2)) :
    IsOk (do
      let conn ← Quad4.Regular.conn (Quad4.Regular.new nelx nely h)
      let coor ← (Quad4.Regular.new nelx nely h).coor
      let (D, M) ← Dynamics.new s σ conn dofs coor rho
      let S ← D.run dt material fext υ 1 ⟨u, v, a, M, []⟩
      let E ← D.strain ρ τ S.u
      let S' ← D.run dt material fext υ (n + 1) ⟨u, v, a, M, []⟩
      let E' ← D.strain ρ τ S'.u
      return (D, M, S, E, S', E')) fun (D, M, S, E, S', E') => ∃ (N : Nat) (mass : Nat → α) (vol : Nat → Nat → α),
        NumDofs ((nelx + 1) * (nely + 1)) d N ∧ Is1 M.A N mass ∧ Is2 D.quad.vol (nelx * nely) 4 vol ∧
        ∃ (V₁ : Nat → α) (E₁ : Nat → Nat → Nat → Nat → α) (V₂ : Nat → α) (E₂ : Nat → Nat → Nat → Nat → α),
          Is2 S.v ((nelx + 1) * (nely + 1)) 2 (fun m i => V₁ (d m i)) ∧ Is4 E (nelx * nely) 4 2 2 E₁ ∧
          Is2 S'.v ((nelx + 1) * (nely + 1)) 2 (fun m i => V₂ (d m i)) ∧ Is4 E' (nelx * nely) 4 2 2 E₂ ∧
            1 / 2 * ∑ k ∈ range N, mass k * V₂ k ^ 2 + (1 - θ) * (1 / 2 * elasticWork (nelx * nely) vol (fun _ _ => isotropic l μ) E₂) ≤
            1 / 2 * ∑ k ∈ range N, mass k * V₁ k ^ 2 + 1 / 2 * elasticWork (nelx * nely) vol (fun _ _ => isotropic l μ) E₁ := by
  obtain ⟨cn, a1, a2⟩ := (Quad4.Regular.sides nelx nely h).1
  obtain ⟨xt, b1, b2⟩ := (Quad4.Regular.new nelx nely h).coor_spec rfl rfl
  have hM := regular_rect nelx nely hh
  have lx : 0 < h * (nelx : α) := mul_pos hh (by exact_mod_cast px)
  have ly : 0 < h * (nely : α) := mul_pos hh (by exact_mod_cast py)
  obtain ⟨t, t1, t2⟩ := C106_cfl (d := d) hM lx ly s1 s2 s3 σ υ a2 b2 hd hh (regular_squares nelx nely) hr hρ hR dt (C := fun _ _ => isotropic l μ) hm
    (fun _ _ i j k l _ _ hi hj hk hl => isotropic_major 2 _ _ i j k l hi hj hk hl)
    (fun _ _ i j k m _ _ hi hj hk hm => by
      have := (isotropic_elastic hμ (by positivity : 0 < l + μ)).minor k m i j hk hm hi hj
      rw [isotropic_major 2 _ _ i j k m hi hj hk hm, this, isotropic_major 2 _ _ k m j i hk hm hj hi])
    (fun _ _ g _ _ => (isotropic_elastic hμ (by positivity)).nonneg g) (κ := 2 * (l + μ)) (by positivity) (fun _ _ g _ _ => isotropic_stiff hl hμ.le g)
    hu hv ha hf n ρ τ hθ hdt
  refine ⟨t, ?_, t2⟩
  rw [a1, Res.ok_bind, b1, Res.ok_bind]
  exact t1

/-! ### Time steps that are too large -/

/-- the amplitude of a mode after `n` increments (Chebyshev polynomial in `z = 1 - dt² λ / 2`) -/
def amplitude (z : α) : Nat → α
  | 0 => 1
  | 1 => z
  | n + 2 => 2 * z * amplitude z (n + 1) - amplitude z n

omit [LinearOrder α] [IsStrictOrderedRing α] in
theorem amplitude_neg (z : α) (n : Nat) : amplitude (-z) n = (-1) ^ n * amplitude z n := by
  induction n using Nat.strong_induction_on with
  | _ n ih =>
    match n with
    | 0 => simp [amplitude]
    | 1 => simp [amplitude]
    | n + 2 =>
      rw [amplitude, amplitude, ih (n + 1) (by omega), ih n (by omega), pow_succ, pow_succ]
      ring

/-- exponential growth -/
theorem amplitude_grows {y : α} (hy : 1 ≤ y) (n : Nat) : y ^ n ≤ |amplitude (-y) n| := by
  have key : ∀ n, y ^ n ≤ amplitude y n ∧ y * amplitude y n ≤ amplitude y (n + 1) := by
    intro n
    induction n with
    | zero => exact ⟨by simp [amplitude], by simp [amplitude]⟩
    | succ n ih =>
      obtain ⟨h1, h2⟩ := ih
      have p : 0 ≤ y ^ n := by positivity
      have q : 0 ≤ amplitude y n := p.trans h1
      refine ⟨?_, ?_⟩
      · rw [pow_succ]
        nlinarith
      · rw [amplitude]
        have h3 : y * (y * amplitude y n) ≤ y * amplitude y (n + 1) := mul_le_mul_of_nonneg_left h2 (by linarith)
        have h4 : 1 * amplitude y n ≤ y * y * amplitude y n := mul_le_mul_of_nonneg_right (by nlinarith) q
        rw [one_mul, mul_assoc] at h4
        linarith
  rw [amplitude_neg, abs_mul, abs_pow, abs_neg, abs_one, one_pow, one_mul]
  exact (key n).1.trans (le_abs_self _)

/-- **C106** (modes) for a linear elastic material and no load: if the internal force of the displacement `W` is `λ` times its mass
times `W`, then a body that is released from `W` at rest has the displacement `amplitude (1 - dt² λ / 2) n` times `W` after `n`
increments (for any `dt`) -/
theorem C106_mode (hM : RectMesh nn ne c x Lx Ly O) (lx : 0 < Lx) (ly : 0 < Ly) {s : α} (s1 : -1 ≤ s) (s2 : s ≤ 1) (σ : Nat → Sched)
    (υ : Nat → Nat → Sched) {conn dofs : Ten Nat} {coor rho : Ten α} (hc : Is2 conn ne 4 c) (hx : Is2 coor nn 2 x) (hd : Is2 dofs nn 2 d)
    {R : Nat → Nat → α} (hr : Is2 rho ne 4 R) (hR : ∀ e q, e < ne → q < 4 → 0 < R e q) (dt : α) {material : List (Ten α) → Res (Ten α)}
    {C : Nat → Nat → Nat → Nat → Nat → Nat → α} (hm : HistoryFree ne material fun E e q => ddot 2 (C e q) (E e q))
    {w v a fext : Ten α} {W : Nat → α} {lam : α} (hw : Is2 w nn 2 fun m i => W (d m i)) (hv : Is2 v nn 2 fun _ _ => 0)
    (ha : Is2 a nn 2 fun m i => - lam * W (d m i)) (hf : Is2 fext nn 2 fun _ _ => 0) (n : Nat) (ρ τ : Sched) :
    IsOk (do
      let (D, M) ← Dynamics.new s σ conn dofs coor rho
      let S ← D.run dt material fext υ n ⟨w, v, a, M, []⟩
      return (D, M, S)) fun (D, M, S) => ∃ (N : Nat) (mass : Nat → α), NumDofs nn d N ∧ Is1 M.A N mass ∧
        ((∀ (t : Ten α) (ε : Nat → Nat → Nat → Nat → α) (sig f : Ten α) (F : Nat → Nat → α), D.strain ρ τ w = .ok t → Is4 t ne 4 2 2 ε →
            Is4 sig ne 4 2 2 (fun e q => ddot 2 (C e q) (ε e q)) →
            ((Int_gradN_dot_tensor2_dV D.quad ρ sig).bind fun fe => D.vector.AssembleNode τ fe) = .ok f → Is2 f nn 2 F →
            ∀ m i, m < nn → i < 2 → F m i = lam * mass (d m i) * W (d m i)) →
          Is2 S.u nn 2 fun m i => amplitude (1 - dt ^ 2 * lam / 2) n * W (d m i)) := by
  obtain ⟨D, M, h1, h2, h3, h4, h5⟩ := dynamics_new hM s1 s2 σ hc hx hd hr
  have hA := h4.A _ rfl
  rw [h3] at hA
  obtain ⟨t, g1, N, mass, vol, g2, g3, -, -, g4, -⟩ := C83_mass hM lx ly s1 s2 σ hc hx hd hr
  obtain rfl : (D, M) = t := by rw [h1] at g1; injection g1
  have hN : N = D.vector.ndof := by
    have := g3.1.symm.trans hA.1
    simpa using this
  subst hN
  have hpos : ∀ m i, m < nn → i < 2 → lumped x ne c d R (d m i) ≠ 0 := fun m i hm hi => by
    rw [← g3.unique hA (g2.1 m i hm hi)]
    exact (g4 hR m i hm hi).ne'
  obtain ⟨S, i1, i2⟩ := h2.run_ok (B := fun _ => 0) dt hm hf υ n (S := ⟨w, v, a, M, []⟩) (X := (fun m i => W (d m i), fun _ => 0, fun k => - lam * W k))
    ⟨hw, hv, ha, h4, h3, by simp⟩
  refine ⟨(D, M, S), by simp only [h1, i1, Res.ok_bind]; rfl, _, _, h5, hA, fun hmode => ?_⟩
  have force : ∀ m i, m < nn → i < 2 → forceOf ne c d (dynG s x c) (dynVol s x c)
      (fun e q => ddot 2 (C e q) (strainOf (dynG s x c) c (fun m i => W (d m i)) e q)) (d m i) = lam * lumped x ne c d R (d m i) * W (d m i) := by
    obtain ⟨t, t1, t2⟩ := h2.strain_ok ρ τ hw
    have hsig : Is4 (Ten.of [ne, 4, 2, 2] fun p => match p with
      | [e, q, i, j] => ddot 2 (C e q) (strainOf (dynG s x c) c (fun m i => W (d m i)) e q) i j
      | _ => 0) ne 4 2 2 (fun e q => ddot 2 (C e q) (strainOf (dynG s x c) c (fun m i => W (d m i)) e q)) :=
      ⟨rfl, fun _ _ _ _ _ _ _ _ => rfl⟩
    obtain ⟨fe, f, f1, f2, f3⟩ := h2.force_ok ρ τ hsig
    exact hmode t _ _ f _ t1 t2 hsig (by rw [f1]; exact f2) f3
  have hacc : ∀ (g : α) (U : Nat → Nat → α), (∀ m i, m < nn → i < 2 → U m i = g * W (d m i)) → ∀ m i, m < nn → i < 2 →
      accel ne c d s x R C U (d m i) = - lam * g * W (d m i) := by
    intro g U hU m i hm hi
    have e : forceOf ne c d (dynG s x c) (dynVol s x c) (fun e q => ddot 2 (C e q) (strainOf (dynG s x c) c U e q)) (d m i) =
        g * forceOf ne c d (dynG s x c) (dynVol s x c)
          (fun e q => ddot 2 (C e q) (strainOf (dynG s x c) c (fun m i => W (d m i)) e q)) (d m i) := by
      rw [forceOf, forceOf, mul_sum]
      refine sum_congr rfl fun e he => ?_
      rw [mul_sum]
      refine sum_congr rfl fun m' hm' => ?_
      rw [mul_sum]
      refine sum_congr rfl fun i' hi' => ?_
      rw [mul_ite, mul_zero]
      refine ite_congr rfl (fun _ => ?_) fun _ => rfl
      rw [mul_sum]
      refine sum_congr rfl fun q _ => ?_
      rw [← mul_assoc, mul_sum]
      congr 1
      refine sum_congr rfl fun j hj => ?_
      have st : ∀ i j, i < 2 → j < 2 → strainOf (dynG s x c) c U e q i j = g * strainOf (dynG s x c) c (fun m i => W (d m i)) e q i j := by
        have gr : ∀ i j, j < 2 → grad 4 (dynG s x c) (fun e m i => U (c e m) i) e q i j =
            g * grad 4 (dynG s x c) (fun e m i => W (d (c e m) i)) e q i j := by
          intro i j hj
          rw [grad, grad, mul_sum]
          refine sum_congr rfl fun m hm => ?_
          rw [hU _ j (hM.valid e m (mem_range.1 he) (mem_range.1 hm)) hj]
          ring
        intro i j hi hj
        simp only [strainOf, symf, gr 0 1 (by omega), gr 1 0 (by omega), gr i j hj]
        split <;> ring
      simp only [ddot, sum_range_succ, sum_range_zero, st 0 0 (by omega) (by omega), st 0 1 (by omega) (by omega), st 1 0 (by omega) (by omega),
        st 1 1 (by omega) (by omega)]
      ring
    rw [accel, e, force m i hm hi, div_eq_iff (hpos m i hm hi)]
    ring
  have run : ∀ n, ∃ b : α, b * dt = amplitude (1 - dt ^ 2 * lam / 2) (n + 1) - (1 - dt ^ 2 * lam / 2) * amplitude (1 - dt ^ 2 * lam / 2) n ∧
      ∀ m i, m < nn → i < 2 →
      ((verlet d dt (accel ne c d s x R C))^[n] (fun m i => W (d m i), fun _ => 0, fun k => - lam * W k)).1 m i = amplitude (1 - dt ^ 2 * lam / 2) n * W (d m i) ∧
      ((verlet d dt (accel ne c d s x R C))^[n] (fun m i => W (d m i), fun _ => 0, fun k => - lam * W k)).2.1 (d m i) = b * W (d m i) ∧
      ((verlet d dt (accel ne c d s x R C))^[n] (fun m i => W (d m i), fun _ => 0, fun k => - lam * W k)).2.2 (d m i) =
        - lam * amplitude (1 - dt ^ 2 * lam / 2) n * W (d m i) := by
    intro n
    induction n with
    | zero => exact ⟨0, by simp [amplitude], fun m i _ _ => by simp [amplitude]⟩
    | succ n ih =>
      obtain ⟨b, hb, ih⟩ := ih
      rw [Function.iterate_succ_apply']
      obtain ⟨X, hX⟩ : ∃ X, X = (verlet d dt (accel ne c d s x R C))^[n] (fun m i => W (d m i), fun _ => 0, fun k => - lam * W k) := ⟨_, rfl⟩
      rw [← hX] at ih ⊢
      have hU : ∀ m i, m < nn → i < 2 → (verlet d dt (accel ne c d s x R C) X).1 m i = amplitude (1 - dt ^ 2 * lam / 2) (n + 1) * W (d m i) := by
        intro m i hm hi
        obtain ⟨k1, k2, k3⟩ := ih m i hm hi
        simp only [verlet, k1, k2, k3]
        linear_combination W (d m i) * hb
      have hA2 := hacc _ _ hU
      refine ⟨b - 1 / 2 * dt * lam * (amplitude (1 - dt ^ 2 * lam / 2) n + amplitude (1 - dt ^ 2 * lam / 2) (n + 1)), ?_, fun m i hm hi => ⟨hU m i hm hi, ?_, hA2 m i hm hi⟩⟩
      · rw [amplitude]
        linear_combination hb
      · have : (verlet d dt (accel ne c d s x R C) X).2.1 (d m i) = X.2.1 (d m i) + 1 / 2 * dt * (X.2.2 (d m i) +
          accel ne c d s x R C (verlet d dt (accel ne c d s x R C) X).1 (d m i)) := rfl
        rw [this, hA2 m i hm hi, (ih m i hm hi).2.1, (ih m i hm hi).2.2]
        ring
  obtain ⟨b, -, hrun⟩ := run n
  exact (i2 _ rfl).u.congr fun m i hm hi => (hrun m i hm hi).1

omit [LinearOrder α] [IsStrictOrderedRing α] in
theorem D4_corner [CharZero α] (Ξ : Nat → Nat → α) (p : Nat) {i j : Nat} (hi : i < 2) (hj : j < 2) :
    ∑ m ∈ range 4, D4 Ξ p m i * corner4 m j = if i = j then 1 else 0 := by
  simp only [D4, sum_range_succ, sum_range_zero]
  generalize Ξ p 0 = ξ
  generalize Ξ p 1 = η
  interval_cases i <;> interval_cases j <;> simp only [part2, N4, corner4, if_true, if_neg (show (1 : Nat) ≠ 0 by omega), if_neg (show (0 : Nat) ≠ 1 by omega)] <;> ring

omit [LinearOrder α] [IsStrictOrderedRing α] in
theorem D4_total [CharZero α] (s : α) {q i : Nat} (hq : q < 4) (hi : i < 2) :
    ∑ p ∈ range 4, D4 (fun q i => s * corner4 q i) p q i = corner4 q i := by
  simp only [D4, sum_range_succ, sum_range_zero]
  interval_cases i <;> interval_cases q <;> simp only [part2, N4, corner4, if_true, if_neg (show (1 : Nat) ≠ 0 by omega)] <;> ring

omit [LinearOrder α] [IsStrictOrderedRing α] in
/-- the stress of a dilatation -/
theorem isotropic_unit (l μ : α) {g : Nat → Nat → α} (hg : ∀ i j, i < 2 → j < 2 → g i j = if i = j then 1 else 0) {i j : Nat} (hi : i < 2) (hj : j < 2) :
    ddot 2 (isotropic l μ) g i j = if i = j then 2 * (l + μ) else 0 := by
  simp only [ddot, isotropic, sum_range_succ, sum_range_zero, hg 0 0 (by omega) (by omega), hg 0 1 (by omega) (by omega),
    hg 1 0 (by omega) (by omega), hg 1 1 (by omega) (by omega)]
  interval_cases i <;> interval_cases j <;> norm_num <;> ring

/-- **C106** (the critical time step is sharp) one square element with isotropic elasticity and the DOFs of `Regular`: the body is
released from a dilatation. If `2 (l + μ) dt² > ρ₀ h²` the displacement of every node grows exponentially -/
theorem C106_unstable {h : α} (hh : 0 < h) {s : α} (s1 : -1 ≤ s) (s2 : s ≤ 1) (σ : Nat → Sched) (υ : Nat → Nat → Sched)
    {rho : Ten α} {ρ₀ : α} (hρ : 0 < ρ₀) (hr : Is2 rho 1 4 fun _ _ => ρ₀) (dt : α) {material : List (Ten α) → Res (Ten α)} {l μ : α}
    (hm : HistoryFree 1 material fun E e q => ddot 2 (isotropic l μ) (E e q))
    {w v a fext : Ten α} (hw : Is2 w 4 2 fun m i => if (if i = 0 then m % 2 else m / 2) = 0 then - (h / 2) else h / 2) (hv : Is2 v 4 2 fun _ _ => 0)
    (ha : Is2 a 4 2 fun m i => - (8 * (l + μ) / (ρ₀ * h ^ 2)) * (if (if i = 0 then m % 2 else m / 2) = 0 then - (h / 2) else h / 2))
    (hf : Is2 fext 4 2 fun _ _ => 0) (n : Nat) :
    IsOk (do
      let conn ← Quad4.Regular.conn (Quad4.Regular.new 1 1 h)
      let coor ← (Quad4.Regular.new 1 1 h).coor
      let (D, M) ← Dynamics.new s σ conn (meshDofs 4 2) coor rho
      D.run dt material fext υ n ⟨w, v, a, M, []⟩) fun S => ∃ U, Is2 S.u 4 2 U ∧
        (ρ₀ * h ^ 2 < dt ^ 2 * (2 * (l + μ)) → ∀ m i, m < 4 → i < 2 → (4 * (l + μ) * dt ^ 2 / (ρ₀ * h ^ 2) - 1) ^ n * (h / 2) ≤ |U m i| ∧
          1 < 4 * (l + μ) * dt ^ 2 / (ρ₀ * h ^ 2) - 1) := by
  obtain ⟨cn, a1, a2⟩ := (Quad4.Regular.sides 1 1 h).1
  obtain ⟨xt, b1, b2⟩ := (Quad4.Regular.new 1 1 h).coor_spec rfl rfl
  have hM := regular_rect 1 1 hh
  have lx : 0 < h * ((1 : Nat) : α) := by simpa using hh
  obtain ⟨W, hW⟩ : ∃ W : Nat → α, ∀ k, W k = if (if k % 2 = 0 then k / 2 % 2 else k / 2 / 2) = 0 then - (h / 2) else h / 2 := ⟨_, fun _ => rfl⟩
  have hWd : ∀ m i, i < 2 → W (m * 2 + i) = if (if i = 0 then m % 2 else m / 2) = 0 then - (h / 2) else h / 2 := by
    intro m i hi
    rw [hW, show (m * 2 + i) % 2 = i by omega, show (m * 2 + i) / 2 = m by omega]
  obtain ⟨⟨D, M, S⟩, t1, N, mass, t2, t3, t4⟩ := C106_mode hM lx lx s1 s2 σ υ a2 b2 (meshDofs_ok 4) hr (fun _ _ _ _ => hρ) dt (C := fun _ _ => isotropic l μ) hm
    (w := w) (v := v) (a := a) (W := W) (lam := 8 * (l + μ) / (ρ₀ * h ^ 2)) (hw.congr fun m i _ hi => (hWd m i hi).symm) hv
    (ha.congr fun m i _ hi => by rw [hWd m i hi]) hf n Sched.seq Sched.seq
  obtain ⟨D', M', h1, h2, h3, h4, -⟩ := dynamics_new (d := fun m i => m * 2 + i) hM s1 s2 σ a2 b2 (meshDofs_ok 4) hr
  rw [h1, Res.ok_bind] at t1
  dsimp only at t1
  have same : D' = D ∧ M' = M ∧ D.run dt material fext υ n ⟨w, v, a, M, []⟩ = .ok S := by
    cases hr : D'.run dt material fext υ n ⟨w, v, a, M', []⟩ with
    | ok S' =>
      rw [hr, Res.ok_bind] at t1
      have t1' : Res.ok (D', M', S') = Res.ok (D, M, S) := t1
      injection t1' with t1'
      obtain ⟨e1, e2⟩ := Prod.mk.inj t1'
      obtain ⟨e2, e3⟩ := Prod.mk.inj e2
      rw [← e1, ← e2, ← e3]
      exact ⟨rfl, rfl, hr⟩
    | _ => rw [hr] at t1; cases t1
  obtain ⟨rfl, rfl, hrun⟩ := same
  have t5 := t4 ?_
  · refine ⟨S, ?_, _, t5, fun hdt m i hm hi => ?_⟩
    · rw [a1, Res.ok_bind, b1, Res.ok_bind]
      have h1' : Dynamics.new s σ cn (meshDofs 4 2) xt rho = .ok (D', M') := h1
      rw [h1', Res.ok_bind]
      exact hrun
    · have p : 0 < ρ₀ * h ^ 2 := by positivity
      have ez : 1 - dt ^ 2 * (8 * (l + μ) / (ρ₀ * h ^ 2)) / 2 = - (4 * (l + μ) * dt ^ 2 / (ρ₀ * h ^ 2) - 1) := by
        field_simp
        ring
      have big : 1 < 4 * (l + μ) * dt ^ 2 / (ρ₀ * h ^ 2) - 1 := by
        have : 2 < 4 * (l + μ) * dt ^ 2 / (ρ₀ * h ^ 2) := by
          rw [lt_div_iff₀ p]
          linarith
        linarith
      refine ⟨?_, big⟩
      have aW : |W (m * 2 + i)| = h / 2 := by
        have : 0 < h / 2 := by positivity
        rw [hWd m i hi]
        obtain ⟨z, hz⟩ : ∃ z, z = if i = 0 then m % 2 else m / 2 := ⟨_, rfl⟩
        rw [← hz]
        split
        · rw [abs_neg, abs_of_pos this]
        · rw [abs_of_pos this]
      rw [abs_mul, aW, ez]
      exact mul_le_mul_of_nonneg_right (amplitude_grows big.le n) (by positivity)
  · have hA := h4.A _ rfl
    rw [h3] at hA
    have hN : N = D'.vector.ndof := by
      have := t3.1.symm.trans hA.1
      simpa using this
    subst hN
    intro t ε sig f F e1 e2 e3 e4 e5 m i hm hi
    obtain ⟨t', k1, k2⟩ := h2.strain_ok Sched.seq Sched.seq (hw.congr fun m i _ hi => (hWd m i hi).symm)
    obtain rfl : t' = t := by rw [k1] at e1; injection e1
    obtain ⟨fe, f', f1, f2, f3⟩ := h2.force_ok Sched.seq Sched.seq e3
    obtain rfl : f' = f := by
      rw [f1] at e4
      have : D'.vector.AssembleNode Sched.seq fe = .ok f := e4
      rw [f2] at this
      injection this
    rw [e5.unique f3 hm hi, t3.unique hA (t2.1 m i hm hi)]
    obtain ⟨g1, g2⟩ := square_geo (e := 0) hh.ne' (regular_squares 1 1) s (by omega)
    -- the element has all nodes
    have hm4 : m < 4 := hm
    obtain ⟨q, hq, rfl⟩ : ∃ q, q < 4 ∧ gridQuad 1 0 q = m := by
      clear hm
      interval_cases m
      exacts [⟨0, by omega, rfl⟩, ⟨1, by omega, rfl⟩, ⟨3, by omega, rfl⟩, ⟨2, by omega, rfl⟩]
    have one : ∀ G : Nat → Nat → Nat → α, ∑ e ∈ range 1, ∑ m ∈ range 4, ∑ j ∈ range 2, (if gridQuad 1 e m * 2 + j = gridQuad 1 0 q * 2 + i then G e m j else 0) = G 0 q i := by
      intro G
      rw [sum_range_one, sum_eq_single q, sum_eq_single i]
      · rw [if_pos rfl]
      · intro j hj hne
        exact if_neg fun e => hne (by omega)
      · intro h; exact absurd (mem_range.2 hi) h
      · intro m hm hne
        refine sum_eq_zero fun j hj => if_neg fun e => hne ?_
        rw [mem_range] at hm hj
        have : gridQuad 1 0 m = gridQuad 1 0 q := by omega
        interval_cases m <;> interval_cases q <;> first | rfl | (exact absurd this (by decide))
      · intro h; exact absurd (mem_range.2 hq) h
    have eL : lumped (gridCoor h 1) 1 (gridQuad 1) (fun m i => m * 2 + i) (fun _ _ => ρ₀) (gridQuad 1 0 q * 2 + i) = ρ₀ * (h ^ 2 / 4) := by
      refine (one fun e m _ => ρ₀ * det4 (fun m i => gridCoor h 1 (gridQuad 1 e m) i) (1 * corner4 m 0) (1 * corner4 m 1)).trans ?_
      rw [g1]
    have eW : ∀ m j, m < 4 → j < 2 → W (gridQuad 1 0 m * 2 + j) = h / 2 * corner4 m j := by
      intro m j hm hj
      rw [hWd _ j hj]
      interval_cases m <;> interval_cases j <;> simp [gridQuad, corner4]
    have eE : ∀ p i j, p < 4 → i < 2 → j < 2 → ε 0 p i j = if i = j then 1 else 0 := by
      intro p i j hp hi hj
      have h0 : 0 < (Quad4.Regular.new 1 1 h).nelem := Nat.one_pos
      rw [e2.unique k2 h0 hp hi hj]
      have gr : ∀ i j, i < 2 → j < 2 → grad 4 (dynG s (gridCoor h 1) (gridQuad 1)) (fun e m i => W (gridQuad 1 e m * 2 + i)) 0 p i j = if i = j then 1 else 0 := by
        intro i j hi hj
        have : grad 4 (dynG s (gridCoor h 1) (gridQuad 1)) (fun e m i => W (gridQuad 1 e m * 2 + i)) 0 p i j = ∑ m ∈ range 4, D4 (fun q i => s * corner4 q i) p m i * corner4 m j := by
          rw [grad]
          refine sum_congr rfl fun m hm => ?_
          rw [g2 p m i hi, eW m j (mem_range.1 hm) hj]
          field_simp
        rw [this]
        exact D4_corner _ p hi hj
      change symf (grad 4 (dynG s (gridCoor h 1) (gridQuad 1)) (fun e m i => W (gridQuad 1 e m * 2 + i)) 0 p) i j = _
      rw [symf]
      by_cases hij : i = j
      · rw [if_pos hij, gr i j hi hj]
      · rw [if_neg hij, if_neg hij, gr 0 1 (by omega) (by omega), gr 1 0 (by omega) (by omega), if_neg (show ¬ (0 : Nat) = 1 by omega),
          if_neg (show ¬ (1 : Nat) = 0 by omega), add_zero, mul_zero]
    have eS : ∀ p j, p < 4 → j < 2 → ddot 2 (isotropic l μ) (ε 0 p) j i = if j = i then 2 * (l + μ) else 0 := by
      intro p j hp hj
      exact isotropic_unit l μ (fun i j hi hj => eE p i j hp hi hj) hj hi
    have eF : forceOf 1 (gridQuad 1) (fun m i => m * 2 + i) (dynG s (gridCoor h 1) (gridQuad 1)) (dynVol s (gridCoor h 1) (gridQuad 1))
        (fun e q => ddot 2 (isotropic l μ) (ε e q)) (gridQuad 1 0 q * 2 + i) = h * (l + μ) * corner4 q i := by
      refine (one fun e m i => ∑ q ∈ range 4, (∑ j ∈ range 2, dynG s (gridCoor h 1) (gridQuad 1) e q m j * ddot 2 (isotropic l μ) (ε e q) j i) *
        dynVol s (gridCoor h 1) (gridQuad 1) e q).trans ?_
      have : ∀ p ∈ range 4, (∑ j ∈ range 2, dynG s (gridCoor h 1) (gridQuad 1) 0 p q j * ddot 2 (isotropic l μ) (ε 0 p) j i) *
          dynVol s (gridCoor h 1) (gridQuad 1) 0 p = h * (l + μ) * D4 (fun q i => s * corner4 q i) p q i := by
        intro p hp
        rw [mem_range] at hp
        have hv : dynVol s (gridCoor h 1) (gridQuad 1) 0 p = h ^ 2 / 4 := g1 _ _
        rw [hv, sum_range_succ, sum_range_succ, sum_range_zero, eS p 0 hp (by omega), eS p 1 hp (by omega), g2 p q 0 (by omega), g2 p q 1 (by omega)]
        have := hh.ne'
        interval_cases i <;> norm_num <;> field_simp <;> ring
      rw [sum_congr rfl this, ← mul_sum]
      rw [D4_total s hq hi]
    refine eF.trans ?_
    rw [eW q i hq hi]
    refine Eq.trans ?_ (congrArg (fun z => 8 * (l + μ) / (ρ₀ * h ^ 2) * z * (h / 2 * corner4 q i)) eL.symm)
    have := hh.ne'
    have := hρ.ne'
    field_simp
    ring

/-! ### The hypotheses can be met -/

omit [LinearOrder α] [IsStrictOrderedRing α] in
/-- a linear elastic material -/
theorem linear_material (ne : Nat) (C : Nat → Nat → Nat → Nat → Nat → Nat → α) :
    ∃ material : List (Ten α) → Res (Ten α), HistoryFree ne material fun E e q => ddot 2 (C e q) (E e q) := by
  refine ⟨fun l => match l with
    | [] => .ub
    | t :: _ => .ok (Ten.of [ne, 4, 2, 2] fun i => match i with
      | [e, q, i, j] => ∑ k ∈ range 2, ∑ l ∈ range 2, C e q i j k l * (t.v [e, q, l, k]).getD 0
      | _ => 0), ?_⟩
  intro t l E hE
  refine ⟨_, rfl, rfl, fun e q i j he hq hi hj => congrArg some ?_⟩
  refine sum_congr rfl fun k hk => sum_congr rfl fun l hl => ?_
  rw [hE.2 e q l k he hq (mem_range.1 hl) (mem_range.1 hk)]
  rfl

/-- a 3 x 2 mesh with all DOFs independent, for 1000 increments -/
example : ∃ (material : List (Ten ℚ) → Res (Ten ℚ)) (u v rho : Ten ℚ), HistoryFree 6 material (fun E e q => ddot 2 (isotropic 1 1) (E e q)) ∧ IsOk (do
      let conn ← Quad4.Regular.conn (Quad4.Regular.new 3 2 1)
      let coor ← (Quad4.Regular.new 3 2 (1 : ℚ)).coor
      let (D, M) ← Dynamics.new (1 / 2) (fun _ => Sched.seq) conn (meshDofs 12 2) coor rho
      let S ← D.run (1 / 3) material v (fun _ _ => Sched.seq) 1 ⟨u, v, v, M, []⟩
      let E ← D.strain Sched.seq Sched.rev S.u
      let S' ← D.run (1 / 3) material v (fun _ _ => Sched.seq) 1001 ⟨u, v, v, M, []⟩
      let E' ← D.strain Sched.seq Sched.rev S'.u
      return (D, M, S, E, S', E')) fun _ => True := by
  obtain ⟨mat, hm⟩ := linear_material 6 fun _ _ => isotropic (1 : ℚ) 1
  have hu : Is2 (Ten.of [12, 2] fun i => match i with | [m, i] => ((m * m + i : Nat) : ℚ) | _ => 0) 12 2 fun m i => ((m * m + i : Nat) : ℚ) := ⟨rfl, fun _ _ _ _ => rfl⟩
  have hv : Is2 (Ten.of [12, 2] fun _ => (0 : ℚ)) 12 2 fun m i => (fun _ : Nat => (0 : ℚ)) (m * 2 + i) := ⟨rfl, fun _ _ _ _ => rfl⟩
  have hr : Is2 (Ten.of [6, 4] fun _ => (1 : ℚ)) 6 4 fun _ _ => 1 := ⟨rfl, fun _ _ _ _ => rfl⟩
  obtain ⟨t, t1, -⟩ := C106_quad4_regular (nelx := 3) (nely := 2) (d := fun m i => m * 2 + i) (by omega) (by omega) (h := (1 : ℚ)) (by norm_num) (s := 1 / 2)
    (by norm_num) (by norm_num) (by norm_num) (fun _ => Sched.seq) (fun _ _ => Sched.seq) (meshDofs_ok 12) hr (ρ₀ := 1) (by norm_num)
    (fun _ _ _ _ => le_rfl) (1 / 3) (l := 1) (μ := 1) (by norm_num) (by norm_num) hm hu (V := fun _ => 0) (A := fun _ => 0) hv hv hv 1000 Sched.seq Sched.rev (θ := 1 / 2) (by norm_num) (by norm_num)
  exact ⟨mat, _, _, _, hm, t, t1, trivial⟩

/-- one element of size one with `l = μ = ρ₀ = 1`: with the time step `1` the displacement is multiplied by more than six in every
increment -/
example : ∃ (material : List (Ten ℚ) → Res (Ten ℚ)) (w v a rho : Ten ℚ), HistoryFree 1 material (fun E e q => ddot 2 (isotropic 1 1) (E e q)) ∧ ∀ n, IsOk (do
      let conn ← Quad4.Regular.conn (Quad4.Regular.new 1 1 1)
      let coor ← (Quad4.Regular.new 1 1 (1 : ℚ)).coor
      let (D, M) ← Dynamics.new (1 / 2) (fun _ => Sched.seq) conn (meshDofs 4 2) coor rho
      D.run 1 material v (fun _ _ => Sched.seq) n ⟨w, v, a, M, []⟩) fun S => ∃ U, Is2 S.u 4 2 U ∧ 7 ^ n * (1 / 2) ≤ |U 2 1| := by
  obtain ⟨mat, hm⟩ := linear_material 1 fun _ _ => isotropic (1 : ℚ) 1
  obtain ⟨w, hw⟩ : ∃ w, Is2 w 4 2 fun m i => if (if i = 0 then m % 2 else m / 2) = 0 then - ((1 : ℚ) / 2) else 1 / 2 :=
    ⟨Ten.of [4, 2] fun i => match i with | [m, i] => if (if i = 0 then m % 2 else m / 2) = 0 then - ((1 : ℚ) / 2) else 1 / 2 | _ => 0, rfl, fun _ _ _ _ => rfl⟩
  obtain ⟨a, ha⟩ : ∃ a, Is2 a 4 2 fun m i => - (8 * (1 + 1) / (1 * 1 ^ 2)) * if (if i = 0 then m % 2 else m / 2) = 0 then - ((1 : ℚ) / 2) else 1 / 2 :=
    ⟨Ten.of [4, 2] fun i => match i with | [m, i] => - (8 * (1 + 1) / (1 * 1 ^ 2)) * (if (if i = 0 then m % 2 else m / 2) = 0 then - ((1 : ℚ) / 2) else 1 / 2) | _ => 0,
      rfl, fun _ _ _ _ => rfl⟩
  have hv : Is2 (Ten.of [4, 2] fun _ => (0 : ℚ)) 4 2 fun _ _ => 0 := ⟨rfl, fun _ _ _ _ => rfl⟩
  have hr : Is2 (Ten.of [1, 4] fun _ => (1 : ℚ)) 1 4 fun _ _ => 1 := ⟨rfl, fun _ _ _ _ => rfl⟩
  refine ⟨mat, w, Ten.of [4, 2] fun _ => (0 : ℚ), a, Ten.of [1, 4] fun _ => (1 : ℚ), hm, fun n => ?_⟩
  obtain ⟨S, h1, U, h2, h3⟩ := C106_unstable (h := (1 : ℚ)) (by norm_num) (s := 1 / 2) (by norm_num) (by norm_num) (fun _ => Sched.seq) (fun _ _ => Sched.seq)
    (ρ₀ := 1) (by norm_num) hr 1 (l := 1) (μ := 1) hm hw hv ha hv n
  refine ⟨S, h1, U, h2, ?_⟩
  have := (h3 (by norm_num) 2 1 (by omega) (by omega)).1
  norm_num at this ⊢
  exact this

end GF
