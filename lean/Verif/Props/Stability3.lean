import Verif.Props.Dynamics3
import Verif.Props.Linear3
import Verif.Props.Stability
import Verif.Spec.Stability3

/-! **C119**: stability of the explicit time integration in three dimensions (compare **C106**). -/

namespace GF
open Finset ElemSpec Element Element.Hex8 Element.Quad4

variable {α : Type} [Field α] [LinearOrder α] [IsStrictOrderedRing α]
variable {nn ne : Nat} {c d : Nat → Nat → Nat} {x : Nat → Nat → α}

theorem lumped_nonneg3 (hM : HexMesh nn ne c x) {R : Nat → Nat → α} (hR : ∀ e q, e < ne → q < 8 → 0 < R e q) (k : Nat) :
    0 ≤ lumped3 x ne c d R k := by
  refine sum_nonneg fun e he => sum_nonneg fun m hm => sum_nonneg fun i _ => ?_
  split
  · exact (mul_pos (hR _ _ (mem_range.1 he) (mem_range.1 hm)) (hM.corners _ _ (mem_range.1 he) (mem_range.1 hm))).le
  · exact le_rfl

/-- the acceleration is bounded by the elastic energy if all modes are slow enough -/
theorem Dynamics.State3.accel_bound {D : Dynamics α} {s : α} (h2 : D.State3 nn ne c d x s) (hM : HexMesh nn ne c x)
    (hG : ∀ e q, e < ne → q < 8 → 0 < det8 (fun m i => x (c e m) i) (s * corner8 q 0) (s * corner8 q 1) (s * corner8 q 2)) {R : Nat → Nat → α}
    (hpos : ∀ m i, m < nn → i < 3 → lumped3 x ne c d R (d m i) ≠ 0) {dt θ : α} (hθ : 0 < θ) {C : Nat → Nat → Nat → Nat → Nat → Nat → α}
    (major : ∀ e q i j k l, e < ne → q < 8 → i < 3 → j < 3 → k < 3 → l < 3 → C e q i j k l = C e q k l i j)
    (left : ∀ e q i j k l, e < ne → q < 8 → i < 3 → j < 3 → k < 3 → l < 3 → C e q i j k l = C e q j i k l)
    (nonneg : ∀ e q (g : Nat → Nat → α), e < ne → q < 8 → 0 ≤ power 3 (ddot 3 (C e q) g) g) (U : Nat → Nat → α)
    (hW : ∀ W : Nat → α, dt ^ 2 * elasticWork3 ne (dynVol3 s x c) C (strainOf3 (dynG3 s x c) c fun m i => W (d m i)) ≤
      4 * θ * ∑ k ∈ range D.vector.ndof, lumped3 x ne c d R k * W k ^ 2) :
    dt ^ 2 * ∑ k ∈ range D.vector.ndof, lumped3 x ne c d R k * accel3 ne c d s x R C U k ^ 2 ≤
      4 * θ * elasticWork3 ne (dynVol3 s x c) C (strainOf3 (dynG3 s x c) c U) := by
  obtain ⟨y, hy⟩ : ∃ y, y = accel3 ne c d s x R C U := ⟨_, rfl⟩
  have newton : ∀ k, lumped3 x ne c d R k * y k = - forceOf3 ne c d (dynG3 s x c) (dynVol3 s x c)
      (fun e q => ddot 3 (C e q) (strainOf3 (dynG3 s x c) c U e q)) k := by
    rw [hy]; exact accel_newton3 hM hpos U
  rw [← hy]
  have sym : ∀ e q, e < ne → q < 8 → ∀ i j k l, i < 3 → j < 3 → k < 3 → l < 3 → C e q i j k l = C e q l k j i := by
    intro e q he hq i j k l hi hj hk hl
    rw [major e q i j k l he hq hi hj hk hl, left e q k l i j he hq hk hl hi hj, major e q l k i j he hq hl hk hi hj,
      left e q i j l k he hq hi hj hl hk, major e q j i l k he hq hj hi hl hk]
  have ssym : ∀ e q, e < ne → q < 8 → ∀ i j, i < 3 → j < 3 → ddot 3 (C e q) (strainOf3 (dynG3 s x c) c U e q) i j =
      ddot 3 (C e q) (strainOf3 (dynG3 s x c) c U e q) j i := by
    intro e q he hq i j hi hj
    simp only [ddot]
    refine sum_congr rfl fun k hk => sum_congr rfl fun l hl => ?_
    rw [left e q i j k l he hq hi hj (mem_range.1 hk) (mem_range.1 hl)]
  have w1 := h2.work (S := fun e q => ddot 3 (C e q) (strainOf3 (dynG3 s x c) c U e q)) ssym y
  obtain ⟨M, hMs⟩ : ∃ M, M = ∑ k ∈ range D.vector.ndof, lumped3 x ne c d R k * y k ^ 2 := ⟨_, rfl⟩
  have e1 : ∑ e ∈ range ne, ∑ q ∈ range 8, power 3 (ddot 3 (C e q) (strainOf3 (dynG3 s x c) c U e q))
      (strainOf3 (dynG3 s x c) c (fun m i => y (d m i)) e q) * dynVol3 s x c e q = - M := by
    rw [← w1, hMs, ← sum_neg_distrib]
    refine sum_congr rfl fun k _ => ?_
    linear_combination y k * newton k
  have key : ∀ t : α, 0 ≤ elasticWork3 ne (dynVol3 s x c) C (strainOf3 (dynG3 s x c) c U) - 2 * t * M +
      t ^ 2 * elasticWork3 ne (dynVol3 s x c) C (strainOf3 (dynG3 s x c) c fun m i => y (d m i)) := by
    intro t
    have h0 : 0 ≤ elasticWork3 ne (dynVol3 s x c) C (strainOf3 (dynG3 s x c) c fun m i => U m i + t * y (d m i)) := by
      refine sum_nonneg fun e he => sum_nonneg fun q hq => ?_
      exact mul_nonneg (nonneg e q _ (mem_range.1 he) (mem_range.1 hq)) (hG e q (mem_range.1 he) (mem_range.1 hq)).le
    refine h0.trans_eq ?_
    have hM' : M = - ∑ e ∈ range ne, ∑ q ∈ range 8, power 3 (ddot 3 (C e q) (strainOf3 (dynG3 s x c) c U e q))
      (strainOf3 (dynG3 s x c) c (fun m i => y (d m i)) e q) * dynVol3 s x c e q := by rw [e1, neg_neg]
    rw [hM', elasticWork3, elasticWork3, elasticWork3, mul_neg, sub_neg_eq_add, mul_sum, mul_sum, ← sum_add_distrib, ← sum_add_distrib]
    refine sum_congr rfl fun e he => ?_
    rw [mul_sum, mul_sum, ← sum_add_distrib, ← sum_add_distrib]
    refine sum_congr rfl fun q hq => ?_
    have eS : strainOf3 (dynG3 s x c) c (fun m i => U m i + t * y (d m i)) e q = fun i j => strainOf3 (dynG3 s x c) c U e q i j +
        t * strainOf3 (dynG3 s x c) c (fun m i => y (d m i)) e q i j := by
      funext i j
      simp only [strainOf3, grad, mul_add, sum_add_distrib, mul_left_comm _ t, ← mul_sum]
      ring
    rw [eS]
    have hc := power3_comm (sym e q (mem_range.1 he) (mem_range.1 hq)) (strainOf3 (dynG3 s x c) c (fun m i => y (d m i)) e q) (strainOf3 (dynG3 s x c) c U e q)
    obtain ⟨a, ha⟩ : ∃ a, a = strainOf3 (dynG3 s x c) c U e q := ⟨_, rfl⟩
    obtain ⟨b, hb⟩ : ∃ b, b = strainOf3 (dynG3 s x c) c (fun m i => y (d m i)) e q := ⟨_, rfl⟩
    rw [← ha, ← hb] at hc ⊢
    have e2 : power 3 (ddot 3 (C e q) fun i j => a i j + t * b i j) (fun i j => a i j + t * b i j) = power 3 (ddot 3 (C e q) a) a +
        t * power 3 (ddot 3 (C e q) a) b + t * power 3 (ddot 3 (C e q) b) a + t ^ 2 * power 3 (ddot 3 (C e q) b) b := by
      simp only [power, ddot, sum_range_succ, sum_range_zero]
      ring
    rw [e2, hc]
    ring
  have k1 := key (dt ^ 2 / (4 * θ))
  have k2 := hW y
  rw [← hMs] at k2 ⊢
  have p : (0 : α) < 4 * θ := by positivity
  obtain ⟨Y, hY⟩ : ∃ Y, Y = elasticWork3 ne (dynVol3 s x c) C (strainOf3 (dynG3 s x c) c fun m i => y (d m i)) := ⟨_, rfl⟩
  rw [← hY] at k1 k2
  have k3 : dt ^ 2 / (4 * θ) * Y ≤ M := by
    rw [div_mul_eq_mul_div, div_le_iff₀ p]
    linarith
  have k4 : (dt ^ 2 / (4 * θ)) ^ 2 * Y ≤ dt ^ 2 / (4 * θ) * M := by
    rw [sq, mul_assoc]
    exact mul_le_mul_of_nonneg_left k3 (by positivity)
  have k5 : dt ^ 2 / (4 * θ) * M ≤ elasticWork3 ne (dynVol3 s x c) C (strainOf3 (dynG3 s x c) c U) := by linarith
  rw [div_mul_eq_mul_div, div_le_iff₀ p] at k5
  linarith

/-- **C119** (stability) for a linear elastic material and no load: if for every motion `W` of the DOFs `dt²` times the elastic energy
is at most `4 θ` times the kinetic energy (`θ ≤ 1`; i.e. `dt` times the highest frequency is at most `2 √θ`), then after any number
of increments the kinetic energy plus the fraction `1 - θ` of the elastic energy is at most the initial energy: the program does not
blow up -/
theorem C119_stable (hM : HexMesh nn ne c x) (s : α)
    (hG : ∀ e q, e < ne → q < 8 → 0 < det8 (fun m i => x (c e m) i) (s * corner8 q 0) (s * corner8 q 1) (s * corner8 q 2)) (σ : Nat → Sched)
    (υ : Nat → Nat → Sched) {conn dofs : Ten Nat} {coor rho : Ten α} (hc : Is2 conn ne 8 c) (hx : Is2 coor nn 3 x) (hd : Is2 dofs nn 3 d)
    {R : Nat → Nat → α} (hr : Is2 rho ne 8 R) (hR : ∀ e q, e < ne → q < 8 → 0 < R e q) (dt : α) {material : List (Ten α) → Res (Ten α)} {C : Nat → Nat → Nat → Nat → Nat → Nat → α}
    (hm : HistoryFree3 ne material fun E e q => ddot 3 (C e q) (E e q))
    (major : ∀ e q i j k l, e < ne → q < 8 → i < 3 → j < 3 → k < 3 → l < 3 → C e q i j k l = C e q k l i j)
    (left : ∀ e q i j k l, e < ne → q < 8 → i < 3 → j < 3 → k < 3 → l < 3 → C e q i j k l = C e q j i k l)
    (nonneg : ∀ e q (g : Nat → Nat → α), e < ne → q < 8 → 0 ≤ power 3 (ddot 3 (C e q) g) g)
    {u v a fext : Ten α} {U : Nat → Nat → α} {V A : Nat → α} (hu : Is2 u nn 3 U) (hv : Is2 v nn 3 fun m i => V (d m i))
    (ha : Is2 a nn 3 fun m i => A (d m i)) (hf : Is2 fext nn 3 fun _ _ => 0) (n : Nat) (ρ τ : Sched) {θ : α} (hθ : 0 < θ) :
    IsOk (do
      let (D, M) ← Dynamics.new3 s σ conn dofs coor rho
      let S ← D.run3 dt material fext υ 1 ⟨u, v, a, M, []⟩
      let E ← D.strain3 ρ τ S.u
      let S' ← D.run3 dt material fext υ (n + 1) ⟨u, v, a, M, []⟩
      let E' ← D.strain3 ρ τ S'.u
      return (D, M, S, E, S', E')) fun (D, M, S, E, S', E') => ∃ (N : Nat) (mass : Nat → α) (vol : Nat → Nat → α), NumDofs3 nn d N ∧ Is1 M.A N mass ∧ Is2 D.quad.vol ne 8 vol ∧
        ∃ (V₁ : Nat → α) (E₁ : Nat → Nat → Nat → Nat → α) (V₂ : Nat → α) (E₂ : Nat → Nat → Nat → Nat → α), Is2 S.v nn 3 (fun m i => V₁ (d m i)) ∧ Is4 E ne 8 3 3 E₁ ∧
          Is2 S'.v nn 3 (fun m i => V₂ (d m i)) ∧ Is4 E' ne 8 3 3 E₂ ∧
          ((∀ (w : Ten α) (W : Nat → α) (t : Ten α) (ε : Nat → Nat → Nat → Nat → α), Is2 w nn 3 (fun m i => W (d m i)) → D.strain3 ρ τ w = .ok t → Is4 t ne 8 3 3 ε →
              dt ^ 2 * elasticWork3 ne vol C ε ≤ 4 * θ * ∑ k ∈ range N, mass k * W k ^ 2) →
            1 / 2 * ∑ k ∈ range N, mass k * V₂ k ^ 2 + (1 - θ) * (1 / 2 * elasticWork3 ne vol C E₂) ≤
            1 / 2 * ∑ k ∈ range N, mass k * V₁ k ^ 2 + 1 / 2 * elasticWork3 ne vol C E₁) := by
  obtain ⟨D, M, h1, h2, h3, h4, h5⟩ := dynamics_new3 hM s σ hc hx hd hr
  have hA := h4.A _ rfl
  rw [h3] at hA
  obtain ⟨t, g1, N, mass, g2, g3, g4, -⟩ := C118_mass hM s σ hc hx hd hr
  obtain rfl : (D, M) = t := by rw [h1] at g1; injection g1
  have hN : N = D.vector.ndof := by
    have := g3.1.symm.trans hA.1
    simpa using this
  subst hN
  have hpos : ∀ m i, m < nn → i < 3 → lumped3 x ne c d R (d m i) ≠ 0 := fun m i hm hi => by
    rw [← g3.unique hA (g2.1 m i hm hi)]
    exact (g4 hR m i hm hi).ne'
  have hf' : Is2 fext nn 3 fun m i => (fun _ : Nat => (0 : α)) (d m i) := hf
  obtain ⟨S, i1, i2⟩ := h2.run_ok (B := fun _ => 0) dt hm hf υ 1 (S := ⟨u, v, a, M, []⟩) (X := (U, V, A)) ⟨hu, hv, ha, h4, h3, by simp⟩
  obtain ⟨S', j1, j2⟩ := h2.run_ok (B := fun _ => 0) dt hm hf υ (n + 1) (S := ⟨u, v, a, M, []⟩) (X := (U, V, A)) ⟨hu, hv, ha, h4, h3, by simp⟩
  have i3 := i2 _ rfl
  have j3 := j2 _ rfl
  rw [Function.iterate_one] at i3
  rw [Function.iterate_succ_apply] at j3
  obtain ⟨E, k1, k2⟩ := h2.strain_ok ρ τ i3.u
  obtain ⟨E', l1, l2⟩ := h2.strain_ok ρ τ j3.u
  refine ⟨(D, M, S, E, S', E'), by simp only [h1, i1, k1, j1, l1, Res.ok_bind]; rfl, _, _, _, h5, hA, h2.volume, _, _, _, _, i3.v, k2,
    j3.v, l2, fun hW => ?_⟩
  have hW' : ∀ W : Nat → α, dt ^ 2 * elasticWork3 ne (dynVol3 s x c) C (strainOf3 (dynG3 s x c) c fun m i => W (d m i)) ≤
      4 * θ * ∑ k ∈ range D.vector.ndof, lumped3 x ne c d R k * W k ^ 2 := by
    intro W
    have hw : Is2 (Ten.of [nn, 3] fun i => match i with | [m, i] => W (d m i) | _ => 0) nn 3 fun m i => W (d m i) := ⟨rfl, fun _ _ _ _ => rfl⟩
    obtain ⟨t, t1, t2⟩ := h2.strain_ok ρ τ hw
    exact hW _ W t _ hw t1 t2
  have en := h2.energy hM hpos dt major left n (verlet d dt (accel3 ne c d s x R C) (U, V, A)) rfl
  obtain ⟨X, hX⟩ : ∃ X, X = verlet d dt (accel3 ne c d s x R C) (U, V, A) := ⟨_, rfl⟩
  have e0 : verlet d dt (fun U k => (0 - forceOf3 ne c d (dynG3 s x c) (dynVol3 s x c) (fun e q => ddot 3 (C e q) (strainOf3 (dynG3 s x c) c U e q)) k) /
    lumped3 x ne c d R k) (U, V, A) = X := hX.symm
  obtain ⟨Y, hY⟩ : ∃ Y, Y = (verlet d dt (accel3 ne c d s x R C))^[n] X := ⟨_, rfl⟩
  rw [← hX, ← hY] at en
  have eY : (verlet d dt (fun U k => (0 - forceOf3 ne c d (dynG3 s x c) (dynVol3 s x c) (fun e q => ddot 3 (C e q) (strainOf3 (dynG3 s x c) c U e q)) k) /
    lumped3 x ne c d R k))^[n] X = Y := hY.symm
  rw [e0, eY]
  have hYa : Y.2.2 = accel3 ne c d s x R C Y.1 := by
    rw [hY]
    cases n with
    | zero => rw [hX]; rfl
    | succ n => rw [Function.iterate_succ_apply']; rfl
  have b := h2.accel_bound hM hG hpos hθ major left nonneg Y.1 hW'
  have p : 0 ≤ dt ^ 2 / 8 * ∑ k ∈ range D.vector.ndof, lumped3 x ne c d R k * X.2.2 k ^ 2 :=
    mul_nonneg (by positivity) (sum_nonneg fun k _ => mul_nonneg (lumped_nonneg3 hM hR k) (sq_nonneg _))
  simp only [verletEnergy3] at en
  rw [hYa] at en
  linarith


/-! ### The critical time step -/

theorem Cuboids.boxes {h : α} (hS : Cuboids ne c x h) : ∃ cc hh : Nat → Nat → α, Boxes ne (fun e m i => x (c e m) i) cc hh ∧
    ∀ e i, e < ne → i < 3 → h / 2 ≤ hh e i := by
  have ex : ∀ e, ∃ q : (Nat → α) × (Nat → α), e < ne → ∀ i, i < 3 → h ≤ q.2 i ∧ ∀ m, m < 8 → x (c e m) i = q.1 i + q.2 i * (hexOffset m i : α) := by
    intro e
    by_cases he : e < ne
    · obtain ⟨o, l, h1⟩ := hS e he
      exact ⟨(o, l), fun _ => h1⟩
    · exact ⟨(fun _ => 0, fun _ => 0), fun h => absurd h he⟩
  choose q hq using ex
  refine ⟨fun e i => (q e).1 i + (q e).2 i / 2, fun e i => (q e).2 i / 2, fun e m i he hm hi => ?_, fun e i he hi => ?_⟩
  · dsimp only
    rw [(hq e he i hi).2 m hm, corner8_offset hm hi]
    ring
  · have := (hq e he i hi).1
    dsimp only
    linarith

theorem Cuboids.det_pos {h : α} (hS : Cuboids ne c x h) (hh : 0 < h) (s : α) {e : Nat} (he : e < ne) (q : Nat) :
    0 < det8 (fun m i => x (c e m) i) (s * corner8 q 0) (s * corner8 q 1) (s * corner8 q 2) := by
  obtain ⟨cc, l, hB, hl⟩ := hS.boxes
  have := det8_box hB he (s * corner8 q 0) (s * corner8 q 1) (s * corner8 q 2)
  rw [this]
  have p : ∀ i, i < 3 → 0 < l e i := fun i hi => (by linarith : 0 < h / 2).trans_le (hl e i he hi)
  exact mul_pos (mul_pos (p 0 (by omega)) (p 1 (by omega))) (p 2 (by omega))

/-- the gradient in the Gauss points of the reference cube, of a nodal field `f` -/
theorem cube_grad {s : α} (hs : 2 * s ^ 2 ≤ 1) (f : Nat → α) :
    ∑ q ∈ range 8, ∑ i ∈ range 3, (∑ m ∈ range 8, D8 (fun q i => s * corner8 q i) q m i * f m) ^ 2 ≤ ∑ m ∈ range 8, f m ^ 2 := by
  -- coefficients of the polynomial that interpolates `f`
  obtain ⟨a0, h0⟩ : ∃ a, a = (f 0 + f 1 + f 2 + f 3 + f 4 + f 5 + f 6 + f 7) / 8 := ⟨_, rfl⟩
  obtain ⟨a1, h1⟩ : ∃ a, a = (- f 0 + f 1 + f 2 - f 3 - f 4 + f 5 + f 6 - f 7) / 8 := ⟨_, rfl⟩
  obtain ⟨a2, h2⟩ : ∃ a, a = (- f 0 - f 1 + f 2 + f 3 - f 4 - f 5 + f 6 + f 7) / 8 := ⟨_, rfl⟩
  obtain ⟨a3, h3⟩ : ∃ a, a = (- f 0 - f 1 - f 2 - f 3 + f 4 + f 5 + f 6 + f 7) / 8 := ⟨_, rfl⟩
  obtain ⟨a4, h4⟩ : ∃ a, a = (f 0 - f 1 + f 2 - f 3 + f 4 - f 5 + f 6 - f 7) / 8 := ⟨_, rfl⟩
  obtain ⟨a5, h5⟩ : ∃ a, a = (f 0 - f 1 - f 2 + f 3 - f 4 + f 5 + f 6 - f 7) / 8 := ⟨_, rfl⟩
  obtain ⟨a6, h6⟩ : ∃ a, a = (f 0 + f 1 - f 2 - f 3 - f 4 - f 5 + f 6 + f 7) / 8 := ⟨_, rfl⟩
  obtain ⟨a7, h7⟩ : ∃ a, a = (- f 0 + f 1 - f 2 + f 3 + f 4 - f 5 + f 6 - f 7) / 8 := ⟨_, rfl⟩
  have y0 : ∀ q, ∑ m ∈ range 8, D8 (fun q i => s * corner8 q i) q m 0 * f m =
      a1 + a4 * (s * corner8 q 1) + a5 * (s * corner8 q 2) + a7 * (s * corner8 q 1) * (s * corner8 q 2) := by
    intro q
    simp only [D8]
    generalize s * (corner8 q 0 : α) = ξ, s * (corner8 q 1 : α) = η, s * (corner8 q 2 : α) = ζ
    rw [h1, h4, h5, h7]
    simp [sum_range_succ, part3, N8, corner8, corner4]
    ring
  have y1 : ∀ q, ∑ m ∈ range 8, D8 (fun q i => s * corner8 q i) q m 1 * f m =
      a2 + a4 * (s * corner8 q 0) + a6 * (s * corner8 q 2) + a7 * (s * corner8 q 0) * (s * corner8 q 2) := by
    intro q
    simp only [D8]
    generalize s * (corner8 q 0 : α) = ξ, s * (corner8 q 1 : α) = η, s * (corner8 q 2 : α) = ζ
    rw [h2, h4, h6, h7]
    simp [sum_range_succ, part3, N8, corner8, corner4]
    ring
  have y2 : ∀ q, ∑ m ∈ range 8, D8 (fun q i => s * corner8 q i) q m 2 * f m =
      a3 + a5 * (s * corner8 q 0) + a6 * (s * corner8 q 1) + a7 * (s * corner8 q 0) * (s * corner8 q 1) := by
    intro q
    simp only [D8]
    generalize s * (corner8 q 0 : α) = ξ, s * (corner8 q 1 : α) = η, s * (corner8 q 2 : α) = ζ
    rw [h3, h5, h6, h7]
    simp [sum_range_succ, part3, N8, corner8, corner4]
    ring
  have eL : ∑ q ∈ range 8, ∑ i ∈ range 3, (∑ m ∈ range 8, D8 (fun q i => s * corner8 q i) q m i * f m) ^ 2 =
      8 * (a1 ^ 2 + a2 ^ 2 + a3 ^ 2) + 8 * (2 * s ^ 2) * (a4 ^ 2 + a5 ^ 2 + a6 ^ 2) + 24 * s ^ 4 * a7 ^ 2 := by
    have e : ∀ q, ∑ i ∈ range 3, (∑ m ∈ range 8, D8 (fun q i => s * corner8 q i) q m i * f m) ^ 2 =
        (a1 + a4 * (s * corner8 q 1) + a5 * (s * corner8 q 2) + a7 * (s * corner8 q 1) * (s * corner8 q 2)) ^ 2 +
        (a2 + a4 * (s * corner8 q 0) + a6 * (s * corner8 q 2) + a7 * (s * corner8 q 0) * (s * corner8 q 2)) ^ 2 +
        (a3 + a5 * (s * corner8 q 0) + a6 * (s * corner8 q 1) + a7 * (s * corner8 q 0) * (s * corner8 q 1)) ^ 2 := by
      intro q
      rw [sum_range_succ, sum_range_succ, sum_range_succ, sum_range_zero, y0, y1, y2, zero_add]
    rw [sum_congr rfl fun q _ => e q]
    simp [sum_range_succ, corner8, corner4]
    ring
  have eR : ∑ m ∈ range 8, f m ^ 2 = 8 * (a0 ^ 2 + a1 ^ 2 + a2 ^ 2 + a3 ^ 2 + a4 ^ 2 + a5 ^ 2 + a6 ^ 2 + a7 ^ 2) := by
    rw [h0, h1, h2, h3, h4, h5, h6, h7]
    simp only [sum_range_succ, sum_range_zero]
    ring
  rw [eL, eR]
  have b1 : 2 * s ^ 2 * (a4 ^ 2 + a5 ^ 2 + a6 ^ 2) ≤ 1 * (a4 ^ 2 + a5 ^ 2 + a6 ^ 2) := mul_le_mul_of_nonneg_right hs (by positivity)
  have b2 : 3 * s ^ 4 ≤ 1 := by
    have := sq_nonneg s
    have : s ^ 2 * (2 * s ^ 2) ≤ s ^ 2 * 1 := mul_le_mul_of_nonneg_left hs this
    nlinarith
  have b3 : 3 * s ^ 4 * a7 ^ 2 ≤ 1 * a7 ^ 2 := mul_le_mul_of_nonneg_right b2 (sq_nonneg _)
  have := sq_nonneg a0
  linarith

/-- the elastic energy of a mesh of boxes is bounded by the kinetic energy of the lumped mass -/
theorem Dynamics.State3.cfl {D : Dynamics α} {s : α} (h2 : D.State3 nn ne c d x s) {h : α} (hh : 0 < h) (hS : Cuboids ne c x h) (hs : 2 * s ^ 2 ≤ 1)
    {R : Nat → Nat → α} {ρ₀ κ θ dt : α} (hR : ∀ e q, e < ne → q < 8 → ρ₀ ≤ R e q) {C : Nat → Nat → Nat → Nat → Nat → Nat → α} (hκ : 0 ≤ κ) (hθ : 0 ≤ θ)
    (stiff : ∀ e q (g : Nat → Nat → α), e < ne → q < 8 → power 3 (ddot 3 (C e q) g) g ≤ κ * power 3 g g)
    (hdt : dt ^ 2 * κ ≤ θ * (ρ₀ * h ^ 2)) (W : Nat → α) :
    dt ^ 2 * elasticWork3 ne (dynVol3 s x c) C (strainOf3 (dynG3 s x c) c fun m i => W (d m i)) ≤
      4 * θ * ∑ k ∈ range D.vector.ndof, lumped3 x ne c d R k * W k ^ 2 := by
  obtain ⟨e1, e2, e3, e4⟩ := h2.dims
  obtain ⟨cc, l, hB, hl⟩ := hS.boxes
  have dual := dual_sum h2.vec (fun e m _ => R e m * det8 (fun m i => x (c e m) i) (corner8 m 0) (corner8 m 1) (corner8 m 2)) fun k => W k ^ 2
  rw [e1, e2, e4] at dual
  have dual' : ∑ k ∈ range D.vector.ndof, lumped3 x ne c d R k * W k ^ 2 = ∑ e ∈ range ne, ∑ m ∈ range 8, ∑ i ∈ range 3,
      R e m * det8 (fun m i => x (c e m) i) (corner8 m 0) (corner8 m 1) (corner8 m 2) * W (d (c e m) i) ^ 2 := dual
  rw [dual', elasticWork3, mul_sum, mul_sum]
  refine sum_le_sum fun e he => ?_
  rw [mem_range] at he
  have lpos : ∀ i, i < 3 → 0 < l e i := fun i hi => (by linarith : 0 < h / 2).trans_le (hl e i he hi)
  obtain ⟨v, hv⟩ : ∃ v, v = l e 0 * l e 1 * l e 2 := ⟨_, rfl⟩
  have vpos : 0 < v := by rw [hv]; exact mul_pos (mul_pos (lpos 0 (by omega)) (lpos 1 (by omega))) (lpos 2 (by omega))
  have hdet : ∀ ξ η ζ, det8 (fun m i => x (c e m) i) ξ η ζ = v := fun ξ η ζ => by rw [hv]; exact det8_box hB he ξ η ζ
  obtain ⟨P, hP⟩ : ∃ P, P = ∑ j ∈ range 3, ∑ m ∈ range 8, W (d (c e m) j) ^ 2 := ⟨_, rfl⟩
  have hP0 : 0 ≤ P := by rw [hP]; exact sum_nonneg fun j _ => sum_nonneg fun m _ => sq_nonneg _
  have b1 : ∑ q ∈ range 8, power 3 (ddot 3 (C e q) (strainOf3 (dynG3 s x c) c (fun m i => W (d m i)) e q))
      (strainOf3 (dynG3 s x c) c (fun m i => W (d m i)) e q) * dynVol3 s x c e q ≤ κ * (v * (4 / h ^ 2)) * P := by
    have t : ∀ q ∈ range 8, power 3 (ddot 3 (C e q) (strainOf3 (dynG3 s x c) c (fun m i => W (d m i)) e q))
      (strainOf3 (dynG3 s x c) c (fun m i => W (d m i)) e q) * dynVol3 s x c e q ≤ κ * (v * (4 / h ^ 2)) * (
        ∑ j ∈ range 3, ∑ i ∈ range 3, (∑ m ∈ range 8, D8 (fun q i => s * corner8 q i) q m i * W (d (c e m) j)) ^ 2) := by
      intro q hq
      rw [mem_range] at hq
      have hvq : dynVol3 s x c e q = v := hdet _ _ _
      rw [hvq]
      obtain ⟨y, hy⟩ : ∃ y : Nat → Nat → α, ∀ i j, y i j = ∑ m ∈ range 8, D8 (fun q i => s * corner8 q i) q m i * W (d (c e m) j) := ⟨_, fun _ _ => rfl⟩
      obtain ⟨z, hz⟩ : ∃ z : Nat → Nat → α, ∀ i j, z i j = grad 8 (dynG3 s x c) (fun e m i => W (d (c e m) i)) e q i j := ⟨_, fun _ _ => rfl⟩
      have gr : ∀ i j, i < 3 → l e i * z i j = y i j := by
        intro i j hi
        rw [hz, grad, hy, mul_sum]
        refine sum_congr rfl fun m _ => ?_
        rw [← mul_assoc]
        congr 1
        exact G8_box hB (fun e i he hi => ((by linarith : 0 < h / 2).trans_le (hl e i he hi)).ne') _ he hi
      have gz : ∀ i j, i < 3 → z i j ^ 2 ≤ 4 / h ^ 2 * y i j ^ 2 := by
        intro i j hi
        rw [← gr i j hi]
        have p : 0 < h ^ 2 := by positivity
        rw [div_mul_eq_mul_div, le_div_iff₀ p]
        have q1 : h ^ 2 ≤ 4 * l e i ^ 2 := by
          have := hl e i he hi
          nlinarith [lpos i hi]
        have := mul_le_mul_of_nonneg_left q1 (sq_nonneg (z i j))
        calc _ ≤ z i j ^ 2 * (4 * l e i ^ 2) := this
          _ = _ := by ring
      have st : ∀ i j, strainOf3 (dynG3 s x c) c (fun m i => W (d m i)) e q i j = 1 / 2 * (z i j + z j i) := by
        intro i j
        rw [hz, hz]
        rfl
      refine (mul_le_mul_of_nonneg_right (stiff e q _ he hq) vpos.le).trans ?_
      rw [mul_assoc, mul_assoc]
      refine mul_le_mul_of_nonneg_left ?_ hκ
      rw [mul_comm, mul_assoc]
      refine mul_le_mul_of_nonneg_left ?_ vpos.le
      simp only [← hy]
      have k1 : power 3 (strainOf3 (dynG3 s x c) c (fun m i => W (d m i)) e q) (strainOf3 (dynG3 s x c) c (fun m i => W (d m i)) e q) ≤
          ∑ j ∈ range 3, ∑ i ∈ range 3, z i j ^ 2 := by
        simp only [power, st, sum_range_succ, sum_range_zero]
        have := sq_nonneg (z 0 1 - z 1 0)
        have := sq_nonneg (z 0 2 - z 2 0)
        have := sq_nonneg (z 1 2 - z 2 1)
        linarith
      refine k1.trans ?_
      rw [mul_sum]
      refine sum_le_sum fun j _ => ?_
      rw [mul_sum]
      exact sum_le_sum fun i hi => gz i j (mem_range.1 hi)
    refine (sum_le_sum t).trans ?_
    rw [← mul_sum]
    refine mul_le_mul_of_nonneg_left ?_ (by positivity)
    rw [sum_comm, hP]
    exact sum_le_sum fun j _ => cube_grad hs fun m => W (d (c e m) j)
  have b2 : ρ₀ * v * P ≤ ∑ m ∈ range 8, ∑ i ∈ range 3,
      R e m * det8 (fun m i => x (c e m) i) (corner8 m 0) (corner8 m 1) (corner8 m 2) * W (d (c e m) i) ^ 2 := by
    rw [hP, sum_comm, mul_sum]
    refine sum_le_sum fun m hm => ?_
    rw [mul_sum]
    refine sum_le_sum fun i _ => ?_
    rw [hdet]
    exact mul_le_mul_of_nonneg_right (mul_le_mul_of_nonneg_right (hR e m he (mem_range.1 hm)) vpos.le) (sq_nonneg _)
  have h' : h ≠ 0 := hh.ne'
  calc _ ≤ dt ^ 2 * (κ * (v * (4 / h ^ 2)) * P) := mul_le_mul_of_nonneg_left b1 (sq_nonneg _)
    _ = dt ^ 2 * κ * (v * (4 / h ^ 2) * P) := by ring
    _ ≤ θ * (ρ₀ * h ^ 2) * (v * (4 / h ^ 2) * P) := mul_le_mul_of_nonneg_right hdt (by positivity)
    _ = 4 * θ * (ρ₀ * v * P) := by field_simp
    _ ≤ _ := mul_le_mul_of_nonneg_left b2 (by positivity)

/-- **C119** (critical time step) on a mesh of boxes with edges of at least `h`, with density at least `ρ₀` and stiffness at most `κ`, for any DOFs
(so also if the mesh is periodic): the explicit time integration is stable if `dt² κ ≤ θ ρ₀ h²`, `θ ≤ 1` -/
theorem C119_cfl (hM : HexMesh nn ne c x) {s : α} (s3 : 2 * s ^ 2 ≤ 1) (σ : Nat → Sched)
    (υ : Nat → Nat → Sched) {conn dofs : Ten Nat} {coor rho : Ten α} (hc : Is2 conn ne 8 c) (hx : Is2 coor nn 3 x) (hd : Is2 dofs nn 3 d)
    {h : α} (hh : 0 < h) (hS : Cuboids ne c x h)
    {R : Nat → Nat → α} (hr : Is2 rho ne 8 R) {ρ₀ : α} (hρ : 0 < ρ₀) (hR : ∀ e q, e < ne → q < 8 → ρ₀ ≤ R e q) (dt : α)
    {material : List (Ten α) → Res (Ten α)} {C : Nat → Nat → Nat → Nat → Nat → Nat → α}
    (hm : HistoryFree3 ne material fun E e q => ddot 3 (C e q) (E e q))
    (major : ∀ e q i j k l, e < ne → q < 8 → i < 3 → j < 3 → k < 3 → l < 3 → C e q i j k l = C e q k l i j)
    (left : ∀ e q i j k l, e < ne → q < 8 → i < 3 → j < 3 → k < 3 → l < 3 → C e q i j k l = C e q j i k l)
    (nonneg : ∀ e q (g : Nat → Nat → α), e < ne → q < 8 → 0 ≤ power 3 (ddot 3 (C e q) g) g) {κ : α} (hκ : 0 ≤ κ)
    (stiff : ∀ e q (g : Nat → Nat → α), e < ne → q < 8 → power 3 (ddot 3 (C e q) g) g ≤ κ * power 3 g g)
    {u v a fext : Ten α} {U : Nat → Nat → α} {V A : Nat → α} (hu : Is2 u nn 3 U) (hv : Is2 v nn 3 fun m i => V (d m i))
    (ha : Is2 a nn 3 fun m i => A (d m i)) (hf : Is2 fext nn 3 fun _ _ => 0) (n : Nat) (ρ τ : Sched) {θ : α} (hθ : 0 < θ)
    (hdt : dt ^ 2 * κ ≤ θ * (ρ₀ * h ^ 2)) :
    IsOk (do
      let (D, M) ← Dynamics.new3 s σ conn dofs coor rho
      let S ← D.run3 dt material fext υ 1 ⟨u, v, a, M, []⟩
      let E ← D.strain3 ρ τ S.u
      let S' ← D.run3 dt material fext υ (n + 1) ⟨u, v, a, M, []⟩
      let E' ← D.strain3 ρ τ S'.u
      return (D, M, S, E, S', E')) fun (D, M, S, E, S', E') => ∃ (N : Nat) (mass : Nat → α) (vol : Nat → Nat → α), NumDofs3 nn d N ∧ Is1 M.A N mass ∧ Is2 D.quad.vol ne 8 vol ∧
        ∃ (V₁ : Nat → α) (E₁ : Nat → Nat → Nat → Nat → α) (V₂ : Nat → α) (E₂ : Nat → Nat → Nat → Nat → α), Is2 S.v nn 3 (fun m i => V₁ (d m i)) ∧ Is4 E ne 8 3 3 E₁ ∧
          Is2 S'.v nn 3 (fun m i => V₂ (d m i)) ∧ Is4 E' ne 8 3 3 E₂ ∧
            1 / 2 * ∑ k ∈ range N, mass k * V₂ k ^ 2 + (1 - θ) * (1 / 2 * elasticWork3 ne vol C E₂) ≤
            1 / 2 * ∑ k ∈ range N, mass k * V₁ k ^ 2 + 1 / 2 * elasticWork3 ne vol C E₁ := by
  obtain ⟨⟨D, M, S, E, S', E'⟩, t1, N, mass, vol, b1, b2, b3, V₁, E₁, V₂, E₂, c1, c2, c3, c4, c5⟩ := C119_stable hM s (fun e q he _ => hS.det_pos hh s he q) σ υ hc hx hd hr
    (fun e q he hq => hρ.trans_le (hR e q he hq)) dt hm major left nonneg hu hv ha hf n ρ τ hθ
  refine ⟨_, t1, N, mass, vol, b1, b2, b3, V₁, E₁, V₂, E₂, c1, c2, c3, c4, c5 ?_⟩
  intro w W t ε hw ht hε
  obtain ⟨D', M', h1, h2, h3, h4, h5⟩ := dynamics_new3 hM s σ hc hx hd hr
  rw [h1, Res.ok_bind] at t1
  dsimp only at t1
  have same : D' = D ∧ M' = M := by
    cases r1 : D'.run3 dt material fext υ 1 ⟨u, v, a, M', []⟩ with
    | ok S0 =>
      rw [r1, Res.ok_bind] at t1
      cases r2 : D'.strain3 ρ τ S0.u with
      | ok E0 =>
        rw [r2, Res.ok_bind] at t1
        cases r3 : D'.run3 dt material fext υ (n + 1) ⟨u, v, a, M', []⟩ with
        | ok S1 =>
          rw [r3, Res.ok_bind] at t1
          cases r4 : D'.strain3 ρ τ S1.u with
          | ok E1 =>
            rw [r4, Res.ok_bind] at t1
            have t1' : Res.ok (D', M', S0, E0, S1, E1) = Res.ok (D, M, S, E, S', E') := t1
            injection t1' with t1'
            exact ⟨(Prod.mk.inj t1').1, (Prod.mk.inj (Prod.mk.inj t1').2).1⟩
          | _ => rw [r4] at t1; cases t1
        | _ => rw [r3] at t1; cases t1
      | _ => rw [r2] at t1; cases t1
    | _ => rw [r1] at t1; cases t1
  obtain ⟨rfl, rfl⟩ := same
  have hA := h4.A _ rfl
  rw [h3] at hA
  have hN : N = D'.vector.ndof := by
    have := b2.1.symm.trans hA.1
    simpa using this
  subst hN
  have := h2.cfl hh hS s3 hR hκ hθ.le stiff hdt W
  obtain ⟨t', k1, k2⟩ := h2.strain_ok ρ τ hw
  obtain rfl : t' = t := by rw [k1] at ht; injection ht
  have f1 : elasticWork3 ne vol C ε = elasticWork3 ne (dynVol3 s x c) C (strainOf3 (dynG3 s x c) c fun m i => W (d m i)) := by
    refine sum_congr rfl fun e he => sum_congr rfl fun q hq => ?_
    rw [mem_range] at he hq
    rw [b3.unique h2.volume he hq]
    congr 1
    have eq : ∀ i j, i < 3 → j < 3 → ε e q i j = strainOf3 (dynG3 s x c) c (fun m i => W (d m i)) e q i j :=
      fun i j hi hj => hε.unique k2 he hq hi hj
    simp only [power, ddot]
    refine sum_congr rfl fun i hi => sum_congr rfl fun j hj => ?_
    rw [mem_range] at hi hj
    rw [eq i j hi hj]
    congr 1
    refine sum_congr rfl fun k hk => sum_congr rfl fun l hl => ?_
    rw [eq l k (mem_range.1 hl) (mem_range.1 hk)]
  have f2 : ∑ k ∈ range D'.vector.ndof, mass k * W k ^ 2 = ∑ k ∈ range D'.vector.ndof, lumped3 x ne c d R k * W k ^ 2 :=
    sum_congr rfl fun k hk => by rw [b2.unique hA (mem_range.1 hk)]
  rw [f1, f2]
  exact this

/-- isotropic elasticity is bounded by three times the bulk modulus -/
theorem isotropic_stiff3 {l μ : α} (hl : 0 ≤ l) (hμ : 0 ≤ μ) (g : Nat → Nat → α) :
    power 3 (ddot 3 (isotropic l μ) g) g ≤ (3 * l + 2 * μ) * power 3 g g := by
  have key : power 3 (ddot 3 (isotropic l μ) g) g =
      l * (g 0 0 + g 1 1 + g 2 2) ^ 2 + 2 * μ * (g 0 0 ^ 2 + g 1 1 ^ 2 + g 2 2 ^ 2) +
        μ * ((g 0 1 + g 1 0) ^ 2 + (g 0 2 + g 2 0) ^ 2 + (g 1 2 + g 2 1) ^ 2) := by
    simp only [power, ddot, isotropic, sum_range_succ, sum_range_zero]
    norm_num
    ring
  have key' : power 3 g g = g 0 0 ^ 2 + g 1 1 ^ 2 + g 2 2 ^ 2 + (g 0 1 ^ 2 + g 1 0 ^ 2 + g 0 2 ^ 2 + g 2 0 ^ 2 + g 1 2 ^ 2 + g 2 1 ^ 2) := by
    simp only [power, sum_range_succ, sum_range_zero]
    ring
  rw [key, key']
  have a1 : 0 ≤ l * ((g 0 0 - g 1 1) ^ 2 + (g 0 0 - g 2 2) ^ 2 + (g 1 1 - g 2 2) ^ 2) := by positivity
  have a2 : 0 ≤ μ * ((g 0 1 - g 1 0) ^ 2 + (g 0 2 - g 2 0) ^ 2 + (g 1 2 - g 2 1) ^ 2) := by positivity
  have a3 : 0 ≤ l * (g 0 1 ^ 2 + g 1 0 ^ 2 + g 0 2 ^ 2 + g 2 0 ^ 2 + g 1 2 ^ 2 + g 2 1 ^ 2) := by positivity
  linarith

/-- the elements of a grid of which all cells have edges of at least `h` -/
theorem BoxMesh.cuboids {g : BoxGrid} {p : Nat → Nat → α} (hB : BoxMesh nn ne c x g p) {h : α}
    (hp : ∀ i, (i < g.nx → h ≤ p 0 (i + 1) - p 0 i) ∧ (i < g.ny → h ≤ p 1 (i + 1) - p 1 i) ∧ (i < g.nz → h ≤ p 2 (i + 1) - p 2 i)) :
    Cuboids ne c x h := by
  intro e he
  obtain ⟨i, j, k, hi, hj, hk, rfl⟩ := hB.cell_surj e he
  have o2 : ∀ m, hexOffset m 0 ≤ 1 ∧ hexOffset m 1 ≤ 1 ∧ hexOffset m 2 ≤ 1 := fun m => ⟨hexOffset_le1 _ _, hexOffset_le1 _ _, hexOffset_le1 _ _⟩
  have key : ∀ (a i m : Nat), hexOffset m a ≤ 1 → p a (i + hexOffset m a) = p a i + (p a (i + 1) - p a i) * (hexOffset m a : α) := by
    intro a i m hm
    obtain h0 | h1 : hexOffset m a = 0 ∨ hexOffset m a = 1 := by omega
    · rw [h0]; simp
    · rw [h1]; simp
  refine ⟨fun a => p a (idx3 i j k a), fun a => p a (idx3 i j k a + 1) - p a (idx3 i j k a), fun a ha => ?_⟩
  have pos : ∀ m, m < 8 → _ := fun m hm => hB.position (i + hexOffset m 0) (j + hexOffset m 1) (k + hexOffset m 2)
    (by have := (o2 m).1; omega) (by have := (o2 m).2.1; omega) (by have := (o2 m).2.2; omega)
  obtain rfl | rfl | rfl : a = 0 ∨ a = 1 ∨ a = 2 := by omega
  · exact ⟨(hp i).1 hi, fun m hm => by rw [hB.conn i j k m hi hj hk hm, (pos m hm).1]; exact key 0 i m (o2 m).1⟩
  · exact ⟨(hp j).2.1 hj, fun m hm => by rw [hB.conn i j k m hi hj hk hm, (pos m hm).2.1]; exact key 1 j m (o2 m).2.1⟩
  · exact ⟨(hp k).2.2 hk, fun m hm => by rw [hB.conn i j k m hi hj hk hm, (pos m hm).2.2]; exact key 2 k m (o2 m).2.2⟩

/-- **C119** (Hex8 `Regular`, isotropic elasticity) for any DOFs: stable if `(3 l + 2 μ) dt² ≤ θ ρ₀ h²` -/
theorem C119_hex8_regular {nelx nely nelz : Nat} (px : 0 < nelx) (py : 0 < nely) (pz : 0 < nelz) {h : α} (hh : 0 < h) {s : α} (s3 : 2 * s ^ 2 ≤ 1)
    (σ : Nat → Sched) (υ : Nat → Nat → Sched) {dofs : Ten Nat} (hd : Is2 dofs ((nelx + 1) * (nely + 1) * (nelz + 1)) 3 d)
    {rho : Ten α} {R : Nat → Nat → α} (hr : Is2 rho (nelx * nely * nelz) 8 R) {ρ₀ : α} (hρ : 0 < ρ₀)
    (hR : ∀ e q, e < nelx * nely * nelz → q < 8 → ρ₀ ≤ R e q) (dt : α)
    {material : List (Ten α) → Res (Ten α)} {l μ : α} (hl : 0 ≤ l) (hμ : 0 < μ)
    (hm : HistoryFree3 (nelx * nely * nelz) material fun E e q => ddot 3 (isotropic l μ) (E e q))
    {u v a fext : Ten α} {U : Nat → Nat → α} {V A : Nat → α} (hu : Is2 u ((nelx + 1) * (nely + 1) * (nelz + 1)) 3 U)
    (hv : Is2 v ((nelx + 1) * (nely + 1) * (nelz + 1)) 3 fun m i => V (d m i))
    (ha : Is2 a ((nelx + 1) * (nely + 1) * (nelz + 1)) 3 fun m i => A (d m i))
    (hf : Is2 fext ((nelx + 1) * (nely + 1) * (nelz + 1)) 3 fun _ _ => 0) (n : Nat) (ρ τ : Sched) {θ : α} (hθ : 0 < θ)
    (hdt : dt ^ 2 * (3 * l + 2 * μ) ≤ θ * (ρ₀ * h ^ 2)) :
    IsOk (do
      let conn ← Hex8.Regular.conn (Hex8.Regular.new nelx nely nelz h)
      let coor ← Hex8.Regular.coor (Hex8.Regular.new nelx nely nelz h)
      let (D, M) ← Dynamics.new3 s σ conn dofs coor rho
      let S ← D.run3 dt material fext υ 1 ⟨u, v, a, M, []⟩
      let E ← D.strain3 ρ τ S.u
      let S' ← D.run3 dt material fext υ (n + 1) ⟨u, v, a, M, []⟩
      let E' ← D.strain3 ρ τ S'.u
      return (D, M, S, E, S', E')) fun (D, M, S, E, S', E') => ∃ (N : Nat) (mass : Nat → α) (vol : Nat → Nat → α),
        NumDofs3 ((nelx + 1) * (nely + 1) * (nelz + 1)) d N ∧ Is1 M.A N mass ∧ Is2 D.quad.vol (nelx * nely * nelz) 8 vol ∧
        ∃ (V₁ : Nat → α) (E₁ : Nat → Nat → Nat → Nat → α) (V₂ : Nat → α) (E₂ : Nat → Nat → Nat → Nat → α),
          Is2 S.v ((nelx + 1) * (nely + 1) * (nelz + 1)) 3 (fun m i => V₁ (d m i)) ∧ Is4 E (nelx * nely * nelz) 8 3 3 E₁ ∧
          Is2 S'.v ((nelx + 1) * (nely + 1) * (nelz + 1)) 3 (fun m i => V₂ (d m i)) ∧ Is4 E' (nelx * nely * nelz) 8 3 3 E₂ ∧
            1 / 2 * ∑ k ∈ range N, mass k * V₂ k ^ 2 + (1 - θ) * (1 / 2 * elasticWork3 (nelx * nely * nelz) vol (fun _ _ => isotropic l μ) E₂) ≤
            1 / 2 * ∑ k ∈ range N, mass k * V₁ k ^ 2 + 1 / 2 * elasticWork3 (nelx * nely * nelz) vol (fun _ _ => isotropic l μ) E₁ := by
  obtain ⟨c, x, g, ⟨cn, a1, a2⟩, ⟨xt, b1, b2⟩, g1, g2, g3, hB⟩ := C89_hex8_regular px py pz hh
  have cub := hB.cuboids (h := h) fun i => by
    have : h ≤ h * ((i + 1 : Nat) : α) - h * (i : α) := by push_cast; linarith
    exact ⟨fun _ => this, fun _ => this, fun _ => this⟩
  obtain ⟨t, t1, t2⟩ := C119_cfl (d := d) hB.hexMesh s3 σ υ a2 b2 hd hh cub hr hρ hR dt (C := fun _ _ => isotropic l μ) hm
    (fun _ _ i j k l _ _ hi hj hk hl => isotropic_major 3 _ _ i j k l hi hj hk hl)
    (fun _ _ i j k m _ _ hi hj hk hm => by
      have := (isotropic_elastic3 hμ (by positivity : 0 < 3 * l + 2 * μ)).minor k m i j hk hm hi hj
      rw [isotropic_major 3 _ _ i j k m hi hj hk hm, this, isotropic_major 3 _ _ k m j i hk hm hj hi])
    (fun _ _ g _ _ => (isotropic_elastic3 hμ (by positivity)).nonneg g) (κ := 3 * l + 2 * μ) (by positivity) (fun _ _ g _ _ => isotropic_stiff3 hl hμ.le g)
    hu hv ha hf n ρ τ hθ hdt
  refine ⟨t, ?_, t2⟩
  rw [a1, Res.ok_bind, b1, Res.ok_bind]
  exact t1

/-! ### Modes -/

/-- **C119** (modes) for a linear elastic material and no load: if the internal force of the displacement `W` is `λ` times its mass
times `W`, then a body that is released from `W` at rest has the displacement `amplitude (1 - dt² λ / 2) n` times `W` after `n`
increments (for any `dt`) -/
theorem C119_mode (hM : HexMesh nn ne c x) (s : α) (σ : Nat → Sched)
    (υ : Nat → Nat → Sched) {conn dofs : Ten Nat} {coor rho : Ten α} (hc : Is2 conn ne 8 c) (hx : Is2 coor nn 3 x) (hd : Is2 dofs nn 3 d)
    {R : Nat → Nat → α} (hr : Is2 rho ne 8 R) (hR : ∀ e q, e < ne → q < 8 → 0 < R e q) (dt : α) {material : List (Ten α) → Res (Ten α)}
    {C : Nat → Nat → Nat → Nat → Nat → Nat → α} (hm : HistoryFree3 ne material fun E e q => ddot 3 (C e q) (E e q))
    {w v a fext : Ten α} {W : Nat → α} {lam : α} (hw : Is2 w nn 3 fun m i => W (d m i)) (hv : Is2 v nn 3 fun _ _ => 0)
    (ha : Is2 a nn 3 fun m i => - lam * W (d m i)) (hf : Is2 fext nn 3 fun _ _ => 0) (n : Nat) (ρ τ : Sched) :
    IsOk (do
      let (D, M) ← Dynamics.new3 s σ conn dofs coor rho
      let S ← D.run3 dt material fext υ n ⟨w, v, a, M, []⟩
      return (D, M, S)) fun (D, M, S) => ∃ (N : Nat) (mass : Nat → α), NumDofs3 nn d N ∧ Is1 M.A N mass ∧
        ((∀ (t : Ten α) (ε : Nat → Nat → Nat → Nat → α) (sig f : Ten α) (F : Nat → Nat → α), D.strain3 ρ τ w = .ok t → Is4 t ne 8 3 3 ε →
            Is4 sig ne 8 3 3 (fun e q => ddot 3 (C e q) (ε e q)) →
            ((Element.Hex8.Int_gradN_dot_tensor2_dV D.quad ρ sig).bind fun fe => D.vector.AssembleNode τ fe) = .ok f → Is2 f nn 3 F →
            ∀ m i, m < nn → i < 3 → F m i = lam * mass (d m i) * W (d m i)) →
          Is2 S.u nn 3 fun m i => amplitude (1 - dt ^ 2 * lam / 2) n * W (d m i)) := by
  obtain ⟨D, M, h1, h2, h3, h4, h5⟩ := dynamics_new3 hM s σ hc hx hd hr
  have hA := h4.A _ rfl
  rw [h3] at hA
  obtain ⟨t, g1, N, mass, g2, g3, g4, -⟩ := C118_mass hM s σ hc hx hd hr
  obtain rfl : (D, M) = t := by rw [h1] at g1; injection g1
  have hN : N = D.vector.ndof := by
    have := g3.1.symm.trans hA.1
    simpa using this
  subst hN
  have hpos : ∀ m i, m < nn → i < 3 → lumped3 x ne c d R (d m i) ≠ 0 := fun m i hm hi => by
    rw [← g3.unique hA (g2.1 m i hm hi)]
    exact (g4 hR m i hm hi).ne'
  obtain ⟨S, i1, i2⟩ := h2.run_ok (B := fun _ => 0) dt hm hf υ n (S := ⟨w, v, a, M, []⟩) (X := (fun m i => W (d m i), fun _ => 0, fun k => - lam * W k))
    ⟨hw, hv, ha, h4, h3, by simp⟩
  refine ⟨(D, M, S), by simp only [h1, i1, Res.ok_bind]; rfl, _, _, h5, hA, fun hmode => ?_⟩
  have force : ∀ m i, m < nn → i < 3 → forceOf3 ne c d (dynG3 s x c) (dynVol3 s x c)
      (fun e q => ddot 3 (C e q) (strainOf3 (dynG3 s x c) c (fun m i => W (d m i)) e q)) (d m i) = lam * lumped3 x ne c d R (d m i) * W (d m i) := by
    obtain ⟨t, t1, t2⟩ := h2.strain_ok ρ τ hw
    have hsig : Is4 (Ten.of [ne, 8, 3, 3] fun p => match p with
      | [e, q, i, j] => ddot 3 (C e q) (strainOf3 (dynG3 s x c) c (fun m i => W (d m i)) e q) i j
      | _ => 0) ne 8 3 3 (fun e q => ddot 3 (C e q) (strainOf3 (dynG3 s x c) c (fun m i => W (d m i)) e q)) :=
      ⟨rfl, fun _ _ _ _ _ _ _ _ => rfl⟩
    obtain ⟨fe, f, f1, f2, f3⟩ := h2.force_ok ρ τ hsig
    exact hmode t _ _ f _ t1 t2 hsig (by rw [f1]; exact f2) f3
  have hacc : ∀ (g : α) (U : Nat → Nat → α), (∀ m i, m < nn → i < 3 → U m i = g * W (d m i)) → ∀ m i, m < nn → i < 3 →
      accel3 ne c d s x R C U (d m i) = - lam * g * W (d m i) := by
    intro g U hU m i hm hi
    have e : forceOf3 ne c d (dynG3 s x c) (dynVol3 s x c) (fun e q => ddot 3 (C e q) (strainOf3 (dynG3 s x c) c U e q)) (d m i) =
        g * forceOf3 ne c d (dynG3 s x c) (dynVol3 s x c)
          (fun e q => ddot 3 (C e q) (strainOf3 (dynG3 s x c) c (fun m i => W (d m i)) e q)) (d m i) := by
      rw [forceOf3, forceOf3, mul_sum]
      refine sum_congr rfl fun e he => ?_
      rw [mul_sum]
      refine sum_congr rfl fun m' hm' => ?_
      rw [mul_sum]
      refine sum_congr rfl fun i' hi' => ?_
      rw [mul_ite, mul_zero]
      refine ite_congr rfl (fun _ => ?_) fun _ => rfl
      rw [mul_sum]
      refine sum_congr rfl fun q _ => ?_
      rw [← mul_assoc, mul_sum]
      congr 1
      refine sum_congr rfl fun j hj => ?_
      have st : ∀ i j, i < 3 → j < 3 → strainOf3 (dynG3 s x c) c U e q i j = g * strainOf3 (dynG3 s x c) c (fun m i => W (d m i)) e q i j := by
        have gr : ∀ i j, j < 3 → grad 8 (dynG3 s x c) (fun e m i => U (c e m) i) e q i j =
            g * grad 8 (dynG3 s x c) (fun e m i => W (d (c e m) i)) e q i j := by
          intro i j hj
          rw [grad, grad, mul_sum]
          refine sum_congr rfl fun m hm => ?_
          rw [hU _ j (hM.valid e m (mem_range.1 he) (mem_range.1 hm)) hj]
          ring
        intro i j hi hj
        rw [strainOf3, strainOf3, gr i j hj, gr j i hi]
        ring
      simp only [ddot]
      rw [mul_left_comm]
      congr 1
      rw [mul_sum]
      refine sum_congr rfl fun k hk => ?_
      rw [mul_sum]
      refine sum_congr rfl fun l hl => ?_
      rw [st l k (mem_range.1 hl) (mem_range.1 hk)]
      ring
    rw [accel3, e, force m i hm hi, div_eq_iff (hpos m i hm hi)]
    ring
  have run : ∀ n, ∃ b : α, b * dt = amplitude (1 - dt ^ 2 * lam / 2) (n + 1) - (1 - dt ^ 2 * lam / 2) * amplitude (1 - dt ^ 2 * lam / 2) n ∧
      ∀ m i, m < nn → i < 3 →
      ((verlet d dt (accel3 ne c d s x R C))^[n] (fun m i => W (d m i), fun _ => 0, fun k => - lam * W k)).1 m i = amplitude (1 - dt ^ 2 * lam / 2) n * W (d m i) ∧
      ((verlet d dt (accel3 ne c d s x R C))^[n] (fun m i => W (d m i), fun _ => 0, fun k => - lam * W k)).2.1 (d m i) = b * W (d m i) ∧
      ((verlet d dt (accel3 ne c d s x R C))^[n] (fun m i => W (d m i), fun _ => 0, fun k => - lam * W k)).2.2 (d m i) =
        - lam * amplitude (1 - dt ^ 2 * lam / 2) n * W (d m i) := by
    intro n
    induction n with
    | zero => exact ⟨0, by simp [amplitude], fun m i _ _ => by simp [amplitude]⟩
    | succ n ih =>
      obtain ⟨b, hb, ih⟩ := ih
      rw [Function.iterate_succ_apply']
      obtain ⟨X, hX⟩ : ∃ X, X = (verlet d dt (accel3 ne c d s x R C))^[n] (fun m i => W (d m i), fun _ => 0, fun k => - lam * W k) := ⟨_, rfl⟩
      rw [← hX] at ih ⊢
      have hU : ∀ m i, m < nn → i < 3 → (verlet d dt (accel3 ne c d s x R C) X).1 m i = amplitude (1 - dt ^ 2 * lam / 2) (n + 1) * W (d m i) := by
        intro m i hm hi
        obtain ⟨k1, k2, k3⟩ := ih m i hm hi
        simp only [verlet, k1, k2, k3]
        linear_combination W (d m i) * hb
      have hA2 := hacc _ _ hU
      refine ⟨b - 1 / 2 * dt * lam * (amplitude (1 - dt ^ 2 * lam / 2) n + amplitude (1 - dt ^ 2 * lam / 2) (n + 1)), ?_, fun m i hm hi => ⟨hU m i hm hi, ?_, hA2 m i hm hi⟩⟩
      · rw [amplitude]
        linear_combination hb
      · have : (verlet d dt (accel3 ne c d s x R C) X).2.1 (d m i) = X.2.1 (d m i) + 1 / 2 * dt * (X.2.2 (d m i) +
          accel3 ne c d s x R C (verlet d dt (accel3 ne c d s x R C) X).1 (d m i)) := rfl
        rw [this, hA2 m i hm hi, (ih m i hm hi).2.1, (ih m i hm hi).2.2]
        ring
  obtain ⟨b, -, hrun⟩ := run n
  exact (i2 _ rfl).u.congr fun m i hm hi => (hrun m i hm hi).1

/-- the stress of a dilatation -/
theorem isotropic_unit3 (l μ : α) {g : Nat → Nat → α} (hg : ∀ i j, i < 3 → j < 3 → g i j = if i = j then 1 else 0) {i j : Nat} (hi : i < 3) (hj : j < 3) :
    ddot 3 (isotropic l μ) g i j = if i = j then 3 * l + 2 * μ else 0 := by
  simp only [ddot, isotropic, sum_range_succ, sum_range_zero, hg 0 0 (by omega) (by omega), hg 0 1 (by omega) (by omega), hg 0 2 (by omega) (by omega),
    hg 1 0 (by omega) (by omega), hg 1 1 (by omega) (by omega), hg 1 2 (by omega) (by omega), hg 2 0 (by omega) (by omega), hg 2 1 (by omega) (by omega),
    hg 2 2 (by omega) (by omega)]
  interval_cases i <;> interval_cases j <;> norm_num <;> ring

theorem D8_corner (Ξ : Nat → Nat → α) (q : Nat) {i j : Nat} (hi : i < 3) (hj : j < 3) :
    ∑ m ∈ range 8, D8 Ξ q m i * corner8 m j = if i = j then 1 else 0 := by
  have h1 := jac8_parallelepiped (X := fun m i => (corner8 m i : α)) (c := fun _ => 0) (H := fun k l => if k = l then 1 else 0) (j := j)
    (fun m _ => by simp [hj]) hi (Ξ q 0) (Ξ q 1) (Ξ q 2)
  rw [jac8, part3_map8] at h1
  exact h1

/-- **C119** (the critical time step is sharp) one cube with isotropic elasticity and the DOFs of `Regular`: the body is
released from a dilatation. If `(3 l + 2 μ) dt² > ρ₀ h²` the displacement of every node grows exponentially -/
theorem C119_unstable {h : α} (hh : 0 < h) (s : α) (σ : Nat → Sched) (υ : Nat → Nat → Sched)
    {rho : Ten α} {ρ₀ : α} (hρ : 0 < ρ₀) (hr : Is2 rho 1 8 fun _ _ => ρ₀) (dt : α) {material : List (Ten α) → Res (Ten α)} {l μ : α}
    (hm : HistoryFree3 1 material fun E e q => ddot 3 (isotropic l μ) (E e q))
    {w v a fext : Ten α} (hw : Is2 w 8 3 fun m i => if (if i = 0 then m % 2 else if i = 1 then m / 2 % 2 else m / 4) = 0 then - (h / 2) else h / 2)
    (hv : Is2 v 8 3 fun _ _ => 0)
    (ha : Is2 a 8 3 fun m i => - (4 * (3 * l + 2 * μ) / (ρ₀ * h ^ 2)) *
      (if (if i = 0 then m % 2 else if i = 1 then m / 2 % 2 else m / 4) = 0 then - (h / 2) else h / 2))
    (hf : Is2 fext 8 3 fun _ _ => 0) (n : Nat) :
    IsOk (do
      let conn ← Hex8.Regular.conn (Hex8.Regular.new 1 1 1 h)
      let coor ← Hex8.Regular.coor (Hex8.Regular.new 1 1 1 h)
      let (D, M) ← Dynamics.new3 s σ conn (meshDofs 8 3) coor rho
      D.run3 dt material fext υ n ⟨w, v, a, M, []⟩) fun S => ∃ U, Is2 S.u 8 3 U ∧
        (ρ₀ * h ^ 2 < dt ^ 2 * (3 * l + 2 * μ) → ∀ m i, m < 8 → i < 3 →
          (2 * (3 * l + 2 * μ) * dt ^ 2 / (ρ₀ * h ^ 2) - 1) ^ n * (h / 2) ≤ |U m i| ∧
          1 < 2 * (3 * l + 2 * μ) * dt ^ 2 / (ρ₀ * h ^ 2) - 1) := by
  obtain ⟨c, x, g, ⟨cn, a1, a2⟩, ⟨xt, b1, b2⟩, g1, g2, g3, hB⟩ := C89_hex8_regular (nelx := 1) (nely := 1) (nelz := 1) (by omega) (by omega) (by omega) hh
  have hM : HexMesh 8 1 c x := hB.hexMesh
  have hB' : BoxMesh 8 1 c x g fun _ i => h * (i : α) := hB
  have a2' : Is2 cn 1 8 c := a2
  have b2' : Is2 xt 8 3 x := b2
  have cub := hB'.cuboids (h := h) fun i => by
    have : h ≤ h * ((i + 1 : Nat) : α) - h * (i : α) := by push_cast; linarith
    exact ⟨fun _ => this, fun _ => this, fun _ => this⟩
  have hG : ∀ e q, e < 1 → q < 8 → 0 < det8 (fun m i => x (c e m) i) (s * corner8 q 0) (s * corner8 q 1) (s * corner8 q 2) :=
    fun e q he _ => cub.det_pos hh s he q
  -- the nodes of the element
  obtain ⟨bit, hbit⟩ : ∃ bit : Nat → Nat → Nat, ∀ m i, bit m i = if i = 0 then m % 2 else if i = 1 then m / 2 % 2 else m / 4 := ⟨_, fun _ _ => rfl⟩
  have cell0 : g.cell 0 0 0 = 0 := by
    have := hB'.cell_lt 0 0 0 (by omega) (by omega) (by omega)
    omega
  have xoff : ∀ m i, m < 8 → i < 3 → x (c 0 m) i = h * (hexOffset m i : α) := by
    intro m i hm hi
    have o := fun i => hexOffset_le1 m i
    have := o 0
    have := o 1
    have := o 2
    have cc := hB'.conn 0 0 0 m (by omega) (by omega) (by omega) hm
    rw [cell0, zero_add, zero_add, zero_add] at cc
    obtain ⟨p0, p1, p2⟩ := hB'.position (hexOffset m 0) (hexOffset m 1) (hexOffset m 2) (by omega) (by omega) (by omega)
    rw [cc]
    obtain rfl | rfl | rfl : i = 0 ∨ i = 1 ∨ i = 2 := by omega
    · exact p0
    · exact p1
    · exact p2
  have cbit : ∀ m i, m < 8 → i < 3 → bit (c 0 m) i = hexOffset m i := by
    intro m i hm hi
    obtain ⟨xt', q1, q2⟩ := Hex8.Regular.coor_spec 1 1 1 h
    obtain rfl : xt = xt' := by rw [b1] at q1; injection q1
    have hcm : c 0 m < 8 := hM.valid 0 m (by omega) hm
    have e1 : x (c 0 m) i = gridCoor3 h 1 1 (c 0 m) i := b2.unique q2 hcm hi
    have e2 : gridCoor3 h 1 1 (c 0 m) i = h * (bit (c 0 m) i : α) := by
      rw [hbit, gridCoor3]
      obtain rfl | rfl | rfl : i = 0 ∨ i = 1 ∨ i = 2 := by omega
      · rfl
      · rfl
      · simp only [if_neg two_ne_zero, if_neg (show (2 : Nat) ≠ 1 by omega)]
        rw [show c 0 m / (1 + 1) / (1 + 1) = c 0 m / 4 by omega]
    rw [xoff m i hm hi, e2] at e1
    exact_mod_cast (mul_left_cancel₀ hh.ne' e1).symm
  have cinj : ∀ m m', m < 8 → m' < 8 → c 0 m = c 0 m' → m = m' := by
    intro m m' hm hm' e
    have k : ∀ i, i < 3 → hexOffset m i = hexOffset m' i := fun i hi => by rw [← cbit m i hm hi, ← cbit m' i hm' hi, e]
    have k0 := k 0 (by omega)
    have k1 := k 1 (by omega)
    have k2 := k 2 (by omega)
    clear k e
    revert k0 k1 k2
    clear hG cub
    interval_cases m <;> interval_cases m' <;> decide
  obtain ⟨W, hW⟩ : ∃ W : Nat → α, ∀ k, W k = if bit (k / 3) (k % 3) = 0 then - (h / 2) else h / 2 := ⟨_, fun _ => rfl⟩
  have hWd : ∀ m i, i < 3 → W (m * 3 + i) = if (if i = 0 then m % 2 else if i = 1 then m / 2 % 2 else m / 4) = 0 then - (h / 2) else h / 2 := by
    intro m i hi
    rw [hW, show (m * 3 + i) % 3 = i by omega, show (m * 3 + i) / 3 = m by omega, hbit]
  obtain ⟨⟨D, M, S⟩, t1, N, mass, t2, t3, t4⟩ := C119_mode hM s σ υ a2' b2' (meshDofs3_ok 8) hr (fun _ _ _ _ => hρ) dt (C := fun _ _ => isotropic l μ) hm
    (w := w) (v := v) (a := a) (W := W) (lam := 4 * (3 * l + 2 * μ) / (ρ₀ * h ^ 2)) (hw.congr fun m i _ hi => (hWd m i hi).symm) hv
    (ha.congr fun m i _ hi => by rw [hWd m i hi]) hf n Sched.seq Sched.seq
  obtain ⟨D', M', h1, h2, h3, h4, -⟩ := dynamics_new3 (d := fun m i => m * 3 + i) hM s σ a2' b2' (meshDofs3_ok 8) hr
  rw [h1, Res.ok_bind] at t1
  dsimp only at t1
  have same : D' = D ∧ M' = M ∧ D.run3 dt material fext υ n ⟨w, v, a, M, []⟩ = .ok S := by
    cases hr : D'.run3 dt material fext υ n ⟨w, v, a, M', []⟩ with
    | ok S' =>
      rw [hr, Res.ok_bind] at t1
      have t1' : Res.ok (D', M', S') = Res.ok (D, M, S) := t1
      injection t1' with t1'
      obtain ⟨e1, e2⟩ := Prod.mk.inj t1'
      obtain ⟨e2, e3⟩ := Prod.mk.inj e2
      rw [← e1, ← e2, ← e3]
      exact ⟨rfl, rfl, hr⟩
    | _ => rw [hr] at t1; cases t1
  obtain ⟨rfl, rfl, hrun⟩ := same
  have t5 := t4 ?_
  · refine ⟨S, ?_, _, t5, fun hdt m i hm hi => ?_⟩
    · rw [a1, Res.ok_bind, b1, Res.ok_bind, h1, Res.ok_bind]
      exact hrun
    · have p : 0 < ρ₀ * h ^ 2 := by positivity
      have ez : 1 - dt ^ 2 * (4 * (3 * l + 2 * μ) / (ρ₀ * h ^ 2)) / 2 = - (2 * (3 * l + 2 * μ) * dt ^ 2 / (ρ₀ * h ^ 2) - 1) := by
        field_simp
        ring
      have big : 1 < 2 * (3 * l + 2 * μ) * dt ^ 2 / (ρ₀ * h ^ 2) - 1 := by
        have : 2 < 2 * (3 * l + 2 * μ) * dt ^ 2 / (ρ₀ * h ^ 2) := by
          rw [lt_div_iff₀ p]
          linarith
        linarith
      refine ⟨?_, big⟩
      have aW : |W (m * 3 + i)| = h / 2 := by
        have : 0 < h / 2 := by positivity
        rw [hWd m i hi]
        obtain ⟨z, hz⟩ : ∃ z, z = if i = 0 then m % 2 else if i = 1 then m / 2 % 2 else m / 4 := ⟨_, rfl⟩
        rw [← hz]
        split
        · rw [abs_neg, abs_of_pos this]
        · rw [abs_of_pos this]
      rw [abs_mul, aW, ez]
      exact mul_le_mul_of_nonneg_right (amplitude_grows big.le n) (by positivity)
  · have hA := h4.A _ rfl
    rw [h3] at hA
    have hN : N = D'.vector.ndof := by
      have := t3.1.symm.trans hA.1
      simpa using this
    subst hN
    intro t ε sig f F e1 e2 e3 e4 e5 m i hm hi
    obtain ⟨t', k1, k2⟩ := h2.strain_ok Sched.seq Sched.seq (hw.congr fun m i _ hi => (hWd m i hi).symm)
    obtain rfl : t' = t := by rw [k1] at e1; injection e1
    obtain ⟨fe, f', f1, f2, f3⟩ := h2.force_ok Sched.seq Sched.seq e3
    obtain rfl : f' = f := by
      rw [f1] at e4
      have : D'.vector.AssembleNode Sched.seq fe = .ok f := e4
      rw [f2] at this
      injection this
    rw [e5.unique f3 hm hi, t3.unique hA (t2.1 m i hm hi)]
    -- volume and gradients of the cube
    have hX : Boxes 1 (fun e m i => x (c e m) i) (fun _ _ => h / 2) (fun _ _ => h / 2) := by
      intro e m i he hm hi
      obtain rfl : e = 0 := by omega
      dsimp only
      rw [xoff m i hm hi, corner8_offset hm hi]
      ring
    have g1 : ∀ ξ η ζ, det8 (fun m i => x (c 0 m) i) ξ η ζ = h ^ 3 / 8 := fun ξ η ζ => by
      have := det8_box hX (show 0 < 1 by omega) ξ η ζ
      rw [this]
      ring
    have hne := hh.ne'
    have g2 : ∀ q m i, i < 3 → dynG3 s x c 0 q m i = 2 / h * D8 (fun q i => s * corner8 q i) q m i := by
      intro q m i hi
      have := G8_box hX (fun _ _ _ _ => (by positivity : h / 2 ≠ 0)) (fun q i => s * corner8 q i) (q := q) (m := m) (show 0 < 1 by omega) hi
      rw [← this, dynG3]
      field_simp
    obtain ⟨e', q, he', hq, rfl⟩ := hM.used m hm
    obtain rfl : e' = 0 := by omega
    have one : ∀ G : Nat → Nat → Nat → α, ∑ e ∈ range 1, ∑ m ∈ range 8, ∑ j ∈ range 3, (if c e m * 3 + j = c 0 q * 3 + i then G e m j else 0) = G 0 q i := by
      intro G
      rw [sum_range_one, sum_eq_single q, sum_eq_single i]
      · rw [if_pos rfl]
      · intro j hj hne
        exact if_neg fun e => hne (by omega)
      · intro h; exact absurd (mem_range.2 hi) h
      · intro m hm hne
        refine sum_eq_zero fun j hj => if_neg fun e => hne ?_
        rw [mem_range] at hm hj
        exact cinj m q hm hq (by omega)
      · intro h; exact absurd (mem_range.2 hq) h
    have eL : lumped3 x 1 c (fun m i => m * 3 + i) (fun _ _ => ρ₀) (c 0 q * 3 + i) = ρ₀ * (h ^ 3 / 8) := by
      refine (one fun e m _ => ρ₀ * det8 (fun m i => x (c e m) i) (corner8 m 0) (corner8 m 1) (corner8 m 2)).trans ?_
      rw [g1]
    have eW : ∀ m j, m < 8 → j < 3 → W (c 0 m * 3 + j) = h / 2 * corner8 m j := by
      intro m j hm hj
      rw [hWd _ j hj, ← hbit, cbit m j hm hj, corner8_offset hm hj]
      have := hexOffset_le1 m j
      obtain h0 | h0 : hexOffset m j = 0 ∨ hexOffset m j = 1 := by omega
      · rw [h0, if_pos rfl]; push_cast; ring
      · rw [h0, if_neg one_ne_zero]; push_cast; ring
    have eE : ∀ p i j, p < 8 → i < 3 → j < 3 → ε 0 p i j = if i = j then 1 else 0 := by
      intro p i j hp hi hj
      rw [e2.unique k2 (show 0 < 1 by omega) hp hi hj]
      have gr : ∀ i j, i < 3 → j < 3 → grad 8 (dynG3 s x c) (fun e m i => W (c e m * 3 + i)) 0 p i j = if i = j then 1 else 0 := by
        intro i j hi hj
        have : grad 8 (dynG3 s x c) (fun e m i => W (c e m * 3 + i)) 0 p i j = ∑ m ∈ range 8, D8 (fun q i => s * corner8 q i) p m i * corner8 m j := by
          rw [grad]
          refine sum_congr rfl fun m hm => ?_
          rw [g2 p m i hi, eW m j (mem_range.1 hm) hj]
          field_simp
        rw [this]
        exact D8_corner _ p hi hj
      have k : strainOf3 (dynG3 s x c) c (fun m i => W (m * 3 + i)) 0 p i j =
        1 / 2 * (grad 8 (dynG3 s x c) (fun e m i => W (c e m * 3 + i)) 0 p i j + grad 8 (dynG3 s x c) (fun e m i => W (c e m * 3 + i)) 0 p j i) := rfl
      rw [k, gr i j hi hj, gr j i hj hi]
      by_cases hij : i = j
      · subst hij; norm_num
      · rw [if_neg hij, if_neg (Ne.symm hij)]; simp
    have eS : ∀ p j, p < 8 → j < 3 → ddot 3 (isotropic l μ) (ε 0 p) j i = if j = i then 3 * l + 2 * μ else 0 := by
      intro p j hp hj
      exact isotropic_unit3 l μ (fun i j hi hj => eE p i j hp hi hj) hj hi
    have eF : forceOf3 1 c (fun m i => m * 3 + i) (dynG3 s x c) (dynVol3 s x c)
        (fun e q => ddot 3 (isotropic l μ) (ε e q)) (c 0 q * 3 + i) = h ^ 2 / 4 * (3 * l + 2 * μ) * corner8 q i := by
      refine (one fun e m i => ∑ q ∈ range 8, (∑ j ∈ range 3, dynG3 s x c e q m j * ddot 3 (isotropic l μ) (ε e q) j i) *
        dynVol3 s x c e q).trans ?_
      have : ∀ p ∈ range 8, (∑ j ∈ range 3, dynG3 s x c 0 p q j * ddot 3 (isotropic l μ) (ε 0 p) j i) *
          dynVol3 s x c 0 p = h ^ 2 / 4 * (3 * l + 2 * μ) * D8 (fun q i => s * corner8 q i) p q i := by
        intro p hp
        rw [mem_range] at hp
        have hv : dynVol3 s x c 0 p = h ^ 3 / 8 := g1 _ _ _
        rw [hv, sum_congr rfl fun j hj => by rw [eS p j hp (mem_range.1 hj), mul_ite, mul_zero]]
        rw [sum_ite_eq', if_pos (mem_range.2 hi), g2 p q i hi]
        field_simp
        ring
      rw [sum_congr rfl this, ← mul_sum, D8_gauss_sum s hq hi]
    refine eF.trans ?_
    rw [eW q i hq hi]
    refine Eq.trans ?_ (congrArg (fun z => 4 * (3 * l + 2 * μ) / (ρ₀ * h ^ 2) * z * (h / 2 * corner8 q i)) eL.symm)
    have := hρ.ne'
    field_simp
    ring


/-! ### The hypotheses can be met -/

omit [LinearOrder α] [IsStrictOrderedRing α] in
/-- a linear elastic material -/
theorem linear_material3 (ne : Nat) (C : Nat → Nat → Nat → Nat → Nat → Nat → α) :
    ∃ material : List (Ten α) → Res (Ten α), HistoryFree3 ne material fun E e q => ddot 3 (C e q) (E e q) := by
  refine ⟨fun l => match l with
    | [] => .ub
    | t :: _ => .ok (Ten.of [ne, 8, 3, 3] fun i => match i with
      | [e, q, i, j] => ∑ k ∈ range 3, ∑ l ∈ range 3, C e q i j k l * (t.v [e, q, l, k]).getD 0
      | _ => 0), ?_⟩
  intro t l E hE
  refine ⟨_, rfl, rfl, fun e q i j he hq hi hj => congrArg some ?_⟩
  refine sum_congr rfl fun k hk => sum_congr rfl fun l hl => ?_
  rw [hE.2 e q l k he hq (mem_range.1 hl) (mem_range.1 hk)]
  rfl

/-- a 3 x 2 x 1 mesh with all DOFs independent, for 1000 increments -/
example : ∃ (material : List (Ten ℚ) → Res (Ten ℚ)) (u v rho : Ten ℚ), HistoryFree3 6 material (fun E e q => ddot 3 (isotropic 1 1) (E e q)) ∧ IsOk (do
      let conn ← Hex8.Regular.conn (Hex8.Regular.new 3 2 1 1)
      let coor ← Hex8.Regular.coor (Hex8.Regular.new 3 2 1 (1 : ℚ))
      let (D, M) ← Dynamics.new3 (1 / 2) (fun _ => Sched.seq) conn (meshDofs 24 3) coor rho
      let S ← D.run3 (1 / 4) material v (fun _ _ => Sched.seq) 1 ⟨u, v, v, M, []⟩
      let E ← D.strain3 Sched.seq Sched.rev S.u
      let S' ← D.run3 (1 / 4) material v (fun _ _ => Sched.seq) 1001 ⟨u, v, v, M, []⟩
      let E' ← D.strain3 Sched.seq Sched.rev S'.u
      return (D, M, S, E, S', E')) fun _ => True := by
  obtain ⟨mat, hm⟩ := linear_material3 6 fun _ _ => isotropic (1 : ℚ) 1
  have hu : Is2 (Ten.of [24, 3] fun i => match i with | [m, i] => ((m * m + i : Nat) : ℚ) | _ => 0) 24 3 fun m i => ((m * m + i : Nat) : ℚ) := ⟨rfl, fun _ _ _ _ => rfl⟩
  have hv : Is2 (Ten.of [24, 3] fun _ => (0 : ℚ)) 24 3 fun m i => (fun _ : Nat => (0 : ℚ)) (m * 3 + i) := ⟨rfl, fun _ _ _ _ => rfl⟩
  have hr : Is2 (Ten.of [6, 8] fun _ => (1 : ℚ)) 6 8 fun _ _ => 1 := ⟨rfl, fun _ _ _ _ => rfl⟩
  obtain ⟨t, t1, -⟩ := C119_hex8_regular (nelx := 3) (nely := 2) (nelz := 1) (d := fun m i => m * 3 + i) (by omega) (by omega) (by omega) (h := (1 : ℚ)) (by norm_num)
    (s := 1 / 2) (by norm_num) (fun _ => Sched.seq) (fun _ _ => Sched.seq) (meshDofs3_ok 24) hr (ρ₀ := 1) (by norm_num)
    (fun _ _ _ _ => le_rfl) (1 / 4) (l := 1) (μ := 1) (by norm_num) (by norm_num) hm hu (V := fun _ => 0) (A := fun _ => 0) hv hv hv 1000 Sched.seq Sched.rev (θ := 1 / 2) (by norm_num) (by norm_num)
  exact ⟨mat, _, _, _, hm, t, t1, trivial⟩

/-- one cube of size one with `l = μ = ρ₀ = 1`: with the time step `1` the displacement is multiplied by nine in every
increment -/
example : ∃ (material : List (Ten ℚ) → Res (Ten ℚ)) (w v a rho : Ten ℚ), HistoryFree3 1 material (fun E e q => ddot 3 (isotropic 1 1) (E e q)) ∧ ∀ n, IsOk (do
      let conn ← Hex8.Regular.conn (Hex8.Regular.new 1 1 1 1)
      let coor ← Hex8.Regular.coor (Hex8.Regular.new 1 1 1 (1 : ℚ))
      let (D, M) ← Dynamics.new3 (1 / 2) (fun _ => Sched.seq) conn (meshDofs 8 3) coor rho
      D.run3 1 material v (fun _ _ => Sched.seq) n ⟨w, v, a, M, []⟩) fun S => ∃ U, Is2 S.u 8 3 U ∧ 9 ^ n * (1 / 2) ≤ |U 2 1| := by
  obtain ⟨mat, hm⟩ := linear_material3 1 fun _ _ => isotropic (1 : ℚ) 1
  obtain ⟨w, hw⟩ : ∃ w, Is2 w 8 3 fun m i => if (if i = 0 then m % 2 else if i = 1 then m / 2 % 2 else m / 4) = 0 then - ((1 : ℚ) / 2) else 1 / 2 :=
    ⟨Ten.of [8, 3] fun i => match i with
      | [m, i] => if (if i = 0 then m % 2 else if i = 1 then m / 2 % 2 else m / 4) = 0 then - ((1 : ℚ) / 2) else 1 / 2
      | _ => 0, rfl, fun _ _ _ _ => rfl⟩
  obtain ⟨a, ha⟩ : ∃ a, Is2 a 8 3 fun m i => - (4 * (3 * 1 + 2 * 1) / (1 * 1 ^ 2)) *
      if (if i = 0 then m % 2 else if i = 1 then m / 2 % 2 else m / 4) = 0 then - ((1 : ℚ) / 2) else 1 / 2 :=
    ⟨Ten.of [8, 3] fun i => match i with
      | [m, i] => - (4 * (3 * 1 + 2 * 1) / (1 * 1 ^ 2)) * (if (if i = 0 then m % 2 else if i = 1 then m / 2 % 2 else m / 4) = 0 then - ((1 : ℚ) / 2) else 1 / 2)
      | _ => 0, rfl, fun _ _ _ _ => rfl⟩
  have hv : Is2 (Ten.of [8, 3] fun _ => (0 : ℚ)) 8 3 fun _ _ => 0 := ⟨rfl, fun _ _ _ _ => rfl⟩
  have hr : Is2 (Ten.of [1, 8] fun _ => (1 : ℚ)) 1 8 fun _ _ => 1 := ⟨rfl, fun _ _ _ _ => rfl⟩
  refine ⟨mat, w, Ten.of [8, 3] fun _ => (0 : ℚ), a, Ten.of [1, 8] fun _ => (1 : ℚ), hm, fun n => ?_⟩
  obtain ⟨S, h1, U, h2, h3⟩ := C119_unstable (h := (1 : ℚ)) (by norm_num) (1 / 2) (fun _ => Sched.seq) (fun _ _ => Sched.seq)
    (ρ₀ := 1) (by norm_num) hr 1 (l := 1) (μ := 1) hm hw hv ha hv n
  refine ⟨S, h1, U, h2, ?_⟩
  have := (h3 (by norm_num) 2 1 (by omega) (by omega)).1
  norm_num at this ⊢
  exact this

end GF
