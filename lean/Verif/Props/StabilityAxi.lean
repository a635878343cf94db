import Verif.Props.DynamicsAxi
import Verif.Props.Stability3

/-! **C121**: stability of the explicit time integration of axisymmetric bodies (compare **C106**, **C119**). -/

namespace GF
open Finset ElemSpec Element Element.Quad4

variable {α : Type} [Field α] [LinearOrder α] [IsStrictOrderedRing α]
variable {nn ne : Nat} {c d : Nat → Nat → Nat} {x : Nat → Nat → α}

theorem RingMesh.convex (hM : RingMesh nn ne c x) {e : Nat} (he : e < ne) : Convex4 fun a => x (c e a) := by
  obtain ⟨d0, d1, d2, d3⟩ := corner_det fun m i => x (c e m) i
  have k0 := hM.corners e 0 he (by omega)
  have k1 := hM.corners e 1 he (by omega)
  have k2 := hM.corners e 2 he (by omega)
  have k3 := hM.corners e 3 he (by omega)
  rw [d0] at k0
  rw [d1] at k1
  rw [d2] at k2
  rw [d3] at k3
  have f : (0 : α) < 4 := by norm_num
  exact ⟨by simpa using (div_pos_iff_of_pos_right f).1 k0, by simpa using (div_pos_iff_of_pos_right f).1 k1,
    by simpa using (div_pos_iff_of_pos_right f).1 k2, by simpa using (div_pos_iff_of_pos_right f).1 k3⟩

theorem gauss_box {s : α} (s1 : -1 ≤ s) (s2 : s ≤ 1) (q i : Nat) : -1 ≤ s * corner4 q i ∧ s * corner4 q i ≤ 1 := by
  have : corner4 (α := α) q i = 1 ∨ corner4 (α := α) q i = -1 := by unfold corner4; split <;> simp
  rcases this with h | h <;> rw [h] <;> constructor <;> linarith

/-- volume of an integration point -/
theorem dynVolA_eq {pi s : α} (e q : Nat) : dynVolA pi s x c e q = det4 (fun m i => x (c e m) i) (s * corner4 q 0) (s * corner4 q 1) *
    (2 * pi * ∑ m ∈ range 4, N4 m (s * corner4 q 0) (s * corner4 q 1) * x (c e m) 1) := by
  have e1 : detf (Jf (D4 fun q i => s * corner4 q i) (fun e m i => x (c e m) i) e q) =
      det4 (fun m i => x (c e m) i) (s * corner4 q 0) (s * corner4 q 1) := by
    simp only [detf, Jf_eq]
    rfl
  rw [dynVolA, Axi.Vf, e1]
  change 1 * _ * 2 * pi * (∑ m ∈ range 4, N4 m (s * corner4 q 0) (s * corner4 q 1) * x (c e m) 1) = _
  ring

theorem dynVolA_nonneg (hM : RingMesh nn ne c x) {pi s : α} (hpi : 0 < pi) (s1 : -1 ≤ s) (s2 : s ≤ 1) {e : Nat} (he : e < ne) (q : Nat) :
    0 ≤ dynVolA pi s x c e q := by
  obtain ⟨h1, h2⟩ := gauss_box s1 s2 q 0
  obtain ⟨h3, h4⟩ := gauss_box s1 s2 q 1
  rw [dynVolA_eq]
  refine mul_nonneg (det_pos (hM.convex he) h1 h2 h3 h4).le (mul_nonneg (by linarith) (sum_nonneg fun m hm => ?_))
  rw [mem_range] at hm
  exact mul_nonneg (N4_nonneg h1 h2 h3 h4 hm) (hM.radius _ (hM.valid e m he hm))

theorem lumped_nonnegA (hM : RingMesh nn ne c x) {pi : α} (hpi : 0 < pi) {R : Nat → Nat → α} (hR : ∀ e q, e < ne → q < 4 → 0 < R e q) (k : Nat) :
    0 ≤ lumpedA pi x ne c d R k := by
  refine sum_nonneg fun e he => sum_nonneg fun m hm => sum_nonneg fun i _ => ?_
  split
  · rw [mem_range] at he hm
    exact mul_nonneg (hR _ _ he hm).le (mul_nonneg (hM.corners _ _ he hm).le (mul_nonneg (by linarith) (hM.radius _ (hM.valid _ _ he hm))))
  · exact le_rfl

/-- the acceleration is bounded by the elastic energy if all modes are slow enough -/
theorem DynamicsAxi.State.accel_bound {D : DynamicsAxi α} {pi s : α} (h2 : D.State nn ne c d x pi s) (hM : RingMesh nn ne c x)
    (hpi : 0 < pi) (s1 : -1 ≤ s) (s2 : s ≤ 1) {R : Nat → Nat → α}
    (hpos : ∀ m i, m < nn → i < 2 → lumpedA pi x ne c d R (d m i) ≠ 0) {dt θ : α} (hθ : 0 < θ) {C : Nat → Nat → Nat → Nat → Nat → Nat → α}
    (major : ∀ e q i j k l, e < ne → q < 4 → i < 3 → j < 3 → k < 3 → l < 3 → C e q i j k l = C e q k l i j)
    (left : ∀ e q i j k l, e < ne → q < 4 → i < 3 → j < 3 → k < 3 → l < 3 → C e q i j k l = C e q j i k l)
    (nonneg : ∀ e q (g : Nat → Nat → α), e < ne → q < 4 → 0 ≤ power 3 (ddot 3 (C e q) g) g) (U : Nat → Nat → α)
    (hW : ∀ W : Nat → α, dt ^ 2 * elasticWorkAxi ne (dynVolA pi s x c) C (strainOfA (dynB s x c) c fun m i => W (d m i)) ≤
      4 * θ * ∑ k ∈ range D.vector.ndof, lumpedA pi x ne c d R k * W k ^ 2) :
    dt ^ 2 * ∑ k ∈ range D.vector.ndof, lumpedA pi x ne c d R k * accelA ne c d pi s x R C U k ^ 2 ≤
      4 * θ * elasticWorkAxi ne (dynVolA pi s x c) C (strainOfA (dynB s x c) c U) := by
  obtain ⟨y, hy⟩ : ∃ y, y = accelA ne c d pi s x R C U := ⟨_, rfl⟩
  have newton : ∀ k, lumpedA pi x ne c d R k * y k = - forceOfA ne c d (dynB s x c) (dynVolA pi s x c)
      (fun e q => ddot 3 (C e q) (strainOfA (dynB s x c) c U e q)) k := by
    rw [hy]; exact accel_newtonA hM hpos U
  rw [← hy]
  have sym : ∀ e q, e < ne → q < 4 → ∀ i j k l, i < 3 → j < 3 → k < 3 → l < 3 → C e q i j k l = C e q l k j i := by
    intro e q he hq i j k l hi hj hk hl
    rw [major e q i j k l he hq hi hj hk hl, left e q k l i j he hq hk hl hi hj, major e q l k i j he hq hl hk hi hj,
      left e q i j l k he hq hi hj hl hk, major e q j i l k he hq hj hi hl hk]
  have ssym : ∀ e q, e < ne → q < 4 → ∀ i j, i < 3 → j < 3 → ddot 3 (C e q) (strainOfA (dynB s x c) c U e q) i j =
      ddot 3 (C e q) (strainOfA (dynB s x c) c U e q) j i := by
    intro e q he hq i j hi hj
    simp only [ddot]
    refine sum_congr rfl fun k hk => sum_congr rfl fun l hl => ?_
    rw [left e q i j k l he hq hi hj (mem_range.1 hk) (mem_range.1 hl)]
  have w1 := h2.work (S := fun e q => ddot 3 (C e q) (strainOfA (dynB s x c) c U e q)) ssym y
  obtain ⟨M, hMs⟩ : ∃ M, M = ∑ k ∈ range D.vector.ndof, lumpedA pi x ne c d R k * y k ^ 2 := ⟨_, rfl⟩
  have e1 : ∑ e ∈ range ne, ∑ q ∈ range 4, power 3 (ddot 3 (C e q) (strainOfA (dynB s x c) c U e q))
      (strainOfA (dynB s x c) c (fun m i => y (d m i)) e q) * dynVolA pi s x c e q = - M := by
    rw [← w1, hMs, ← sum_neg_distrib]
    refine sum_congr rfl fun k _ => ?_
    linear_combination y k * newton k
  have key : ∀ t : α, 0 ≤ elasticWorkAxi ne (dynVolA pi s x c) C (strainOfA (dynB s x c) c U) - 2 * t * M +
      t ^ 2 * elasticWorkAxi ne (dynVolA pi s x c) C (strainOfA (dynB s x c) c fun m i => y (d m i)) := by
    intro t
    have h0 : 0 ≤ elasticWorkAxi ne (dynVolA pi s x c) C (strainOfA (dynB s x c) c fun m i => U m i + t * y (d m i)) := by
      refine sum_nonneg fun e he => sum_nonneg fun q hq => ?_
      exact mul_nonneg (nonneg e q _ (mem_range.1 he) (mem_range.1 hq)) (dynVolA_nonneg hM hpi s1 s2 (mem_range.1 he) q)
    refine h0.trans_eq ?_
    have hM' : M = - ∑ e ∈ range ne, ∑ q ∈ range 4, power 3 (ddot 3 (C e q) (strainOfA (dynB s x c) c U e q))
      (strainOfA (dynB s x c) c (fun m i => y (d m i)) e q) * dynVolA pi s x c e q := by rw [e1, neg_neg]
    rw [hM', elasticWorkAxi, elasticWorkAxi, elasticWorkAxi, mul_neg, sub_neg_eq_add, mul_sum, mul_sum, ← sum_add_distrib, ← sum_add_distrib]
    refine sum_congr rfl fun e he => ?_
    rw [mul_sum, mul_sum, ← sum_add_distrib, ← sum_add_distrib]
    refine sum_congr rfl fun q hq => ?_
    have eS : strainOfA (dynB s x c) c (fun m i => U m i + t * y (d m i)) e q = fun i j => strainOfA (dynB s x c) c U e q i j +
        t * strainOfA (dynB s x c) c (fun m i => y (d m i)) e q i j := by
      funext i j
      have eg : ∀ i j, Axi.gA (dynB s x c) (fun e m i => U (c e m) i + t * y (d (c e m) i)) e q i j =
          Axi.gA (dynB s x c) (fun e m i => U (c e m) i) e q i j + t * Axi.gA (dynB s x c) (fun e m i => y (d (c e m) i)) e q i j := by
        intro i j
        simp only [Axi.gA, Axi.ga, mul_add, sum_add_distrib, mul_left_comm _ t, ← mul_sum]
        rw [mul_sum, ← sum_add_distrib]
        refine sum_congr rfl fun a _ => ?_
        split <;> simp
      simp only [strainOfA, Axi.sym3, eg]
      split <;> ring
    rw [eS]
    have hc := power3_comm (sym e q (mem_range.1 he) (mem_range.1 hq)) (strainOfA (dynB s x c) c (fun m i => y (d m i)) e q) (strainOfA (dynB s x c) c U e q)
    obtain ⟨a, ha⟩ : ∃ a, a = strainOfA (dynB s x c) c U e q := ⟨_, rfl⟩
    obtain ⟨b, hb⟩ : ∃ b, b = strainOfA (dynB s x c) c (fun m i => y (d m i)) e q := ⟨_, rfl⟩
    rw [← ha, ← hb] at hc ⊢
    have e2 : power 3 (ddot 3 (C e q) fun i j => a i j + t * b i j) (fun i j => a i j + t * b i j) = power 3 (ddot 3 (C e q) a) a +
        t * power 3 (ddot 3 (C e q) a) b + t * power 3 (ddot 3 (C e q) b) a + t ^ 2 * power 3 (ddot 3 (C e q) b) b := by
      simp only [power, ddot, sum_range_succ, sum_range_zero]
      ring
    rw [e2, hc]
    ring
  have k1 := key (dt ^ 2 / (4 * θ))
  have k2 := hW y
  rw [← hMs] at k2 ⊢
  have p : (0 : α) < 4 * θ := by positivity
  obtain ⟨Y, hY⟩ : ∃ Y, Y = elasticWorkAxi ne (dynVolA pi s x c) C (strainOfA (dynB s x c) c fun m i => y (d m i)) := ⟨_, rfl⟩
  rw [← hY] at k1 k2
  have k3 : dt ^ 2 / (4 * θ) * Y ≤ M := by
    rw [div_mul_eq_mul_div, div_le_iff₀ p]
    linarith
  have k4 : (dt ^ 2 / (4 * θ)) ^ 2 * Y ≤ dt ^ 2 / (4 * θ) * M := by
    rw [sq, mul_assoc]
    exact mul_le_mul_of_nonneg_left k3 (by positivity)
  have k5 : dt ^ 2 / (4 * θ) * M ≤ elasticWorkAxi ne (dynVolA pi s x c) C (strainOfA (dynB s x c) c U) := by linarith
  rw [div_mul_eq_mul_div, div_le_iff₀ p] at k5
  linarith

/-- **C121** (stability) for a linear elastic material and no load: if for every motion `W` of the DOFs `dt²` times the elastic energy
is at most `4 θ` times the kinetic energy (`θ ≤ 1`; i.e. `dt` times the highest frequency is at most `2 √θ`), then after any number
of increments the kinetic energy plus the fraction `1 - θ` of the elastic energy is at most the initial energy: the program does not
blow up -/
theorem C121_stable (hM : RingMesh nn ne c x) {s : α} (s1 : -1 ≤ s) (s2 : s ≤ 1) {pi : α} (hpi : 0 < pi) (σ : Nat → Sched)
    (υ : Nat → Nat → Sched) {conn dofs : Ten Nat} {coor rho : Ten α} (hc : Is2 conn ne 4 c) (hx : Is2 coor nn 2 x) (hd : Is2 dofs nn 2 d)
    {R : Nat → Nat → α} (hr : Is2 rho ne 4 R) (hR : ∀ e q, e < ne → q < 4 → 0 < R e q) (off : ∀ m, m < nn → 0 < x m 1) (dt : α) {material : List (Ten α) → Res (Ten α)} {C : Nat → Nat → Nat → Nat → Nat → Nat → α}
    (hm : HistoryFreeAxi ne material fun E e q => ddot 3 (C e q) (E e q))
    (major : ∀ e q i j k l, e < ne → q < 4 → i < 3 → j < 3 → k < 3 → l < 3 → C e q i j k l = C e q k l i j)
    (left : ∀ e q i j k l, e < ne → q < 4 → i < 3 → j < 3 → k < 3 → l < 3 → C e q i j k l = C e q j i k l)
    (nonneg : ∀ e q (g : Nat → Nat → α), e < ne → q < 4 → 0 ≤ power 3 (ddot 3 (C e q) g) g)
    {u v a fext : Ten α} {U : Nat → Nat → α} {V A : Nat → α} (hu : Is2 u nn 2 U) (hv : Is2 v nn 2 fun m i => V (d m i))
    (ha : Is2 a nn 2 fun m i => A (d m i)) (hf : Is2 fext nn 2 fun _ _ => 0) (n : Nat) (ρ τ : Sched) {θ : α} (hθ : 0 < θ) :
    IsOk (do
      let (D, M) ← DynamicsAxi.new s pi σ conn dofs coor rho
      let S ← D.run dt material fext υ 1 ⟨u, v, a, M, []⟩
      let E ← D.strain ρ τ S.u
      let S' ← D.run dt material fext υ (n + 1) ⟨u, v, a, M, []⟩
      let E' ← D.strain ρ τ S'.u
      return (D, M, S, E, S', E')) fun (D, M, S, E, S', E') => ∃ (N : Nat) (mass : Nat → α) (vol : Nat → Nat → α), NumDofs nn d N ∧ Is1 M.A N mass ∧ Is2 D.quad.vol ne 4 vol ∧
        ∃ (V₁ : Nat → α) (E₁ : Nat → Nat → Nat → Nat → α) (V₂ : Nat → α) (E₂ : Nat → Nat → Nat → Nat → α), Is2 S.v nn 2 (fun m i => V₁ (d m i)) ∧ Is4 E ne 4 3 3 E₁ ∧
          Is2 S'.v nn 2 (fun m i => V₂ (d m i)) ∧ Is4 E' ne 4 3 3 E₂ ∧
          ((∀ (w : Ten α) (W : Nat → α) (t : Ten α) (ε : Nat → Nat → Nat → Nat → α), Is2 w nn 2 (fun m i => W (d m i)) → D.strain ρ τ w = .ok t → Is4 t ne 4 3 3 ε →
              dt ^ 2 * elasticWorkAxi ne vol C ε ≤ 4 * θ * ∑ k ∈ range N, mass k * W k ^ 2) →
            1 / 2 * ∑ k ∈ range N, mass k * V₂ k ^ 2 + (1 - θ) * (1 / 2 * elasticWorkAxi ne vol C E₂) ≤
            1 / 2 * ∑ k ∈ range N, mass k * V₁ k ^ 2 + 1 / 2 * elasticWorkAxi ne vol C E₁) := by
  obtain ⟨D, M, h1, h2, h3, h4, h5⟩ := dynamics_newA hM s pi σ hc hx hd hr
  have hA := h4.A _ rfl
  rw [h3] at hA
  obtain ⟨t, g1, N, mass, J, g2, g3, -, g4, -⟩ := C120_mass hM s hpi σ hc hx hd hr
  obtain rfl : (D, M) = t := by rw [h1] at g1; injection g1
  have hN : N = D.vector.ndof := by
    have := g3.1.symm.trans hA.1
    simpa using this
  subst hN
  have hpos : ∀ m i, m < nn → i < 2 → lumpedA pi x ne c d R (d m i) ≠ 0 := fun m i hm hi => by
    rw [← g3.unique hA (g2.1 m i hm hi)]
    exact (g4 hR m i hm hi (off m hm)).ne'
  have hf' : Is2 fext nn 2 fun m i => (fun _ : Nat => (0 : α)) (d m i) := hf
  obtain ⟨S, i1, i2⟩ := h2.run_ok (B := fun _ => 0) dt hm hf υ 1 (S := ⟨u, v, a, M, []⟩) (X := (U, V, A)) ⟨hu, hv, ha, h4, h3, by simp⟩
  obtain ⟨S', j1, j2⟩ := h2.run_ok (B := fun _ => 0) dt hm hf υ (n + 1) (S := ⟨u, v, a, M, []⟩) (X := (U, V, A)) ⟨hu, hv, ha, h4, h3, by simp⟩
  have i3 := i2 _ rfl
  have j3 := j2 _ rfl
  rw [Function.iterate_one] at i3
  rw [Function.iterate_succ_apply] at j3
  obtain ⟨E, k1, k2⟩ := h2.strain_ok ρ τ i3.u
  obtain ⟨E', l1, l2⟩ := h2.strain_ok ρ τ j3.u
  refine ⟨(D, M, S, E, S', E'), by simp only [h1, i1, k1, j1, l1, Res.ok_bind]; rfl, _, _, _, h5, hA, h2.volume, _, _, _, _, i3.v, k2,
    j3.v, l2, fun hW => ?_⟩
  have hW' : ∀ W : Nat → α, dt ^ 2 * elasticWorkAxi ne (dynVolA pi s x c) C (strainOfA (dynB s x c) c fun m i => W (d m i)) ≤
      4 * θ * ∑ k ∈ range D.vector.ndof, lumpedA pi x ne c d R k * W k ^ 2 := by
    intro W
    have hw : Is2 (Ten.of [nn, 2] fun i => match i with | [m, i] => W (d m i) | _ => 0) nn 2 fun m i => W (d m i) := ⟨rfl, fun _ _ _ _ => rfl⟩
    obtain ⟨t, t1, t2⟩ := h2.strain_ok ρ τ hw
    exact hW _ W t _ hw t1 t2
  have en := h2.energy hM hpos dt major left n (verlet d dt (accelA ne c d pi s x R C) (U, V, A)) rfl
  obtain ⟨X, hX⟩ : ∃ X, X = verlet d dt (accelA ne c d pi s x R C) (U, V, A) := ⟨_, rfl⟩
  have e0 : verlet d dt (fun U k => (0 - forceOfA ne c d (dynB s x c) (dynVolA pi s x c) (fun e q => ddot 3 (C e q) (strainOfA (dynB s x c) c U e q)) k) /
    lumpedA pi x ne c d R k) (U, V, A) = X := hX.symm
  obtain ⟨Y, hY⟩ : ∃ Y, Y = (verlet d dt (accelA ne c d pi s x R C))^[n] X := ⟨_, rfl⟩
  rw [← hX, ← hY] at en
  have eY : (verlet d dt (fun U k => (0 - forceOfA ne c d (dynB s x c) (dynVolA pi s x c) (fun e q => ddot 3 (C e q) (strainOfA (dynB s x c) c U e q)) k) /
    lumpedA pi x ne c d R k))^[n] X = Y := hY.symm
  rw [e0, eY]
  have hYa : Y.2.2 = accelA ne c d pi s x R C Y.1 := by
    rw [hY]
    cases n with
    | zero => rw [hX]; rfl
    | succ n => rw [Function.iterate_succ_apply']; rfl
  have b := h2.accel_bound hM hpi s1 s2 hpos hθ major left nonneg Y.1 hW'
  have p : 0 ≤ dt ^ 2 / 8 * ∑ k ∈ range D.vector.ndof, lumpedA pi x ne c d R k * X.2.2 k ^ 2 :=
    mul_nonneg (by positivity) (sum_nonneg fun k _ => mul_nonneg (lumped_nonnegA hM hpi hR k) (sq_nonneg _))
  simp only [verletEnergyA] at en
  rw [hYa] at en
  linarith



/-! ### The critical time step -/

/-- interpolation to the Gauss points, of a nodal field `f` -/
theorem square_interp {s : α} (hs : 2 * s ^ 2 ≤ 1) (f : Nat → α) :
    ∑ q ∈ range 4, (∑ m ∈ range 4, N4 m (s * corner4 q 0) (s * corner4 q 1) * f m) ^ 2 ≤ ∑ m ∈ range 4, f m ^ 2 := by
  have e : ∑ q ∈ range 4, (∑ m ∈ range 4, N4 m (s * corner4 q 0) (s * corner4 q 1) * f m) ^ 2 =
      ((f 0 + f 1 + f 2 + f 3) ^ 2 + s ^ 2 * (- f 0 + f 1 + f 2 - f 3) ^ 2 + s ^ 2 * (- f 0 - f 1 + f 2 + f 3) ^ 2 +
        s ^ 2 * s ^ 2 * (f 0 - f 1 + f 2 - f 3) ^ 2) / 4 := by
    simp only [N4, corner4, sum_range_succ, sum_range_zero]
    norm_num
    ring
  have e' : ∑ m ∈ range 4, f m ^ 2 = ((f 0 + f 1 + f 2 + f 3) ^ 2 + (- f 0 + f 1 + f 2 - f 3) ^ 2 + (- f 0 - f 1 + f 2 + f 3) ^ 2 +
      (f 0 - f 1 + f 2 - f 3) ^ 2) / 4 := by
    simp only [sum_range_succ, sum_range_zero]
    ring
  rw [e, e']
  have p := sq_nonneg s
  have k1 : s ^ 2 * (- f 0 + f 1 + f 2 - f 3) ^ 2 ≤ 1 * (- f 0 + f 1 + f 2 - f 3) ^ 2 := mul_le_mul_of_nonneg_right (by linarith) (sq_nonneg _)
  have k2 : s ^ 2 * (- f 0 - f 1 + f 2 + f 3) ^ 2 ≤ 1 * (- f 0 - f 1 + f 2 + f 3) ^ 2 := mul_le_mul_of_nonneg_right (by linarith) (sq_nonneg _)
  have k3 : s ^ 2 * s ^ 2 * (f 0 - f 1 + f 2 - f 3) ^ 2 ≤ 1 * (f 0 - f 1 + f 2 - f 3) ^ 2 :=
    mul_le_mul_of_nonneg_right (by nlinarith) (sq_nonneg _)
  linarith

/-- the strain in a Gauss point of a square at radius `r`, with `y i j` the gradient in the reference element and `w` the interpolated
radial displacement -/
theorem square_strainA {h : α} (hh : 0 < h) (hS : Squares ne c x h) (s : α) {e : Nat} (he : e < ne) (q : Nat) (U : Nat → Nat → α)
    {y : Nat → Nat → α} (hy : ∀ i j, y i j = ∑ m ∈ range 4, D4 (fun q i => s * corner4 q i) q m i * U (c e m) j) {w r : α}
    (hw : w = ∑ m ∈ range 4, N4 m (s * corner4 q 0) (s * corner4 q 1) * U (c e m) 1)
    (hr : r = ∑ m ∈ range 4, N4 m (s * corner4 q 0) (s * corner4 q 1) * x (c e m) 1) :
    power 3 (strainOfA (dynB s x c) c U e q) (strainOfA (dynB s x c) c U e q) =
      (2 / h * y 1 1) ^ 2 + (w / r) ^ 2 + (2 / h * y 0 0) ^ 2 + (2 / h * y 1 0 + 2 / h * y 0 1) ^ 2 / 2 := by
  obtain ⟨-, g2⟩ := square_geo hh.ne' hS s he
  have gr : ∀ i j, i < 2 → ∑ m ∈ range 4, dynG s x c e q m i * U (c e m) j = 2 / h * y i j := by
    intro i j hi
    rw [hy, mul_sum]
    refine sum_congr rfl fun m _ => ?_
    rw [g2 q m i hi, mul_assoc]
  have a0 : Axi.ga (dynB s x c) (fun e m i => U (c e m) i) e q 0 = 2 / h * y 1 1 := gr 1 1 (by omega)
  have a2 : Axi.ga (dynB s x c) (fun e m i => U (c e m) i) e q 2 = 2 / h * y 0 0 := gr 0 0 (by omega)
  have a3 : Axi.ga (dynB s x c) (fun e m i => U (c e m) i) e q 3 = 2 / h * y 1 0 := gr 1 0 (by omega)
  have a4 : Axi.ga (dynB s x c) (fun e m i => U (c e m) i) e q 4 = 2 / h * y 0 1 := gr 0 1 (by omega)
  have a1 : Axi.ga (dynB s x c) (fun e m i => U (c e m) i) e q 1 = w / r := by
    rw [hw, hr, Axi.ga, sum_div]
    refine sum_congr rfl fun m _ => ?_
    change 1 / (∑ m ∈ range 4, N4 m (s * corner4 q 0) (s * corner4 q 1) * x (c e m) 1) * N4 m (s * corner4 q 0) (s * corner4 q 1) * U (c e m) 1 = _
    ring
  obtain ⟨b, hb⟩ : ∃ b, b = dynB s x c := ⟨_, rfl⟩
  rw [← hb] at a0 a1 a2 a3 a4 ⊢
  obtain ⟨g, hg⟩ : ∃ g, g = Axi.gA b (fun e m i => U (c e m) i) e q := ⟨_, rfl⟩
  have k0 : g 0 0 = 2 / h * y 1 1 := by rw [hg, ← a0]; exact Axi.gA_of b _ e q (a := 0) (by omega)
  have k1 : g 1 1 = w / r := by rw [hg, ← a1]; exact Axi.gA_of b _ e q (a := 1) (by omega)
  have k2 : g 2 2 = 2 / h * y 0 0 := by rw [hg, ← a2]; exact Axi.gA_of b _ e q (a := 2) (by omega)
  have k3 : g 0 2 = 2 / h * y 1 0 := by rw [hg, ← a3]; exact Axi.gA_of b _ e q (a := 3) (by omega)
  have k4 : g 2 0 = 2 / h * y 0 1 := by rw [hg, ← a4]; exact Axi.gA_of b _ e q (a := 4) (by omega)
  have z : ∀ i j, i = 1 ∧ j ≠ 1 ∨ i ≠ 1 ∧ j = 1 → g i j = 0 := fun i j hij => by
    rw [hg]
    refine Axi.gA_off b _ e q fun a ha => ?_
    obtain rfl | rfl | rfl | rfl | rfl : a = 0 ∨ a = 1 ∨ a = 2 ∨ a = 3 ∨ a = 4 := by omega
    all_goals simp only [Axi.ci, Axi.cj, List.getD_cons_zero, List.getD_cons_succ]; omega
  have st : strainOfA b c U e q = Axi.sym3 g := by rw [hg]; rfl
  rw [st]
  simp only [power, Axi.sym3, sum_range_succ, sum_range_zero, if_true, if_neg (show (0 : Nat) ≠ 1 by omega), if_neg (show (1 : Nat) ≠ 0 by omega),
    if_neg (show (0 : Nat) ≠ 2 by omega), if_neg (show (2 : Nat) ≠ 0 by omega), if_neg (show (1 : Nat) ≠ 2 by omega),
    if_neg (show (2 : Nat) ≠ 1 by omega), k0, k1, k2, k3, k4, z 0 1 (by omega), z 1 0 (by omega), z 1 2 (by omega), z 2 1 (by omega)]
  ring

/-- the elastic energy of a mesh of squares, at a distance of at least `r₀` from the axis, is bounded by the kinetic energy of the lumped mass -/
theorem DynamicsAxi.State.cfl {D : DynamicsAxi α} {pi s : α} (h2 : D.State nn ne c d x pi s) (hM : RingMesh nn ne c x) (hpi : 0 < pi) (s1 : -1 ≤ s)
    (s2 : s ≤ 1) {h : α} (hh : 0 < h) (hS : Squares ne c x h) (hs : 2 * s ^ 2 ≤ 1) {r₀ : α} (hr0 : 0 < r₀) (off : ∀ m, m < nn → r₀ ≤ x m 1)
    {R : Nat → Nat → α} {ρ₀ κ θ dt : α} (hρ : 0 < ρ₀) (hR : ∀ e q, e < ne → q < 4 → ρ₀ ≤ R e q) {C : Nat → Nat → Nat → Nat → Nat → Nat → α} (hκ : 0 ≤ κ)
    (hθ : 0 ≤ θ) (stiff : ∀ e q (g : Nat → Nat → α), e < ne → q < 4 → power 3 (ddot 3 (C e q) g) g ≤ κ * power 3 g g)
    (hdt : dt ^ 2 * κ * (1 + h / (2 * r₀)) ^ 2 ≤ θ * (ρ₀ * h ^ 2)) (W : Nat → α) :
    dt ^ 2 * elasticWorkAxi ne (dynVolA pi s x c) C (strainOfA (dynB s x c) c fun m i => W (d m i)) ≤
      4 * θ * ∑ k ∈ range D.vector.ndof, lumpedA pi x ne c d R k * W k ^ 2 := by
  obtain ⟨e1, e2, e3, e4⟩ := h2.dims
  have dual := dual_sum h2.vec (fun e m _ => R e m * nodalVolA pi x c e m) fun k => W k ^ 2
  rw [e1, e2, e4] at dual
  have dual' : ∑ k ∈ range D.vector.ndof, lumpedA pi x ne c d R k * W k ^ 2 = ∑ e ∈ range ne, ∑ m ∈ range 4, ∑ i ∈ range 2,
      R e m * nodalVolA pi x c e m * W (d (c e m) i) ^ 2 := dual
  rw [dual', elasticWorkAxi, mul_sum, mul_sum]
  refine sum_le_sum fun e he => ?_
  rw [mem_range] at he
  obtain ⟨g1, -⟩ := square_geo hh.ne' hS s he
  obtain ⟨-, t1, -, t2, -, t3⟩ := hS e he
  obtain ⟨r, hr⟩ : ∃ r, r = x (c e 0) 1 := ⟨_, rfl⟩
  have hr' : r₀ ≤ r := by rw [hr]; exact off _ (hM.valid e 0 he (by omega))
  have rp : 0 < r := hr0.trans_le hr'
  rw [← hr] at t1 t2 t3
  have rm : ∀ m, m < 4 → r ≤ x (c e m) 1 ∧ x (c e m) 1 ≤ r + h := by
    intro m hm
    obtain rfl | rfl | rfl | rfl : m = 0 ∨ m = 1 ∨ m = 2 ∨ m = 3 := by omega
    · rw [← hr]; exact ⟨le_rfl, by linarith⟩
    · rw [t1]; exact ⟨le_rfl, by linarith⟩
    · rw [t2]; exact ⟨by linarith, le_rfl⟩
    · rw [t3]; exact ⟨by linarith, le_rfl⟩
  obtain ⟨P, hP⟩ : ∃ P, P = ∑ m ∈ range 4, (W (d (c e m) 0) ^ 2 + W (d (c e m) 1) ^ 2) := ⟨_, rfl⟩
  have hP0 : 0 ≤ P := by rw [hP]; exact sum_nonneg fun m _ => by positivity
  have hP' : P = ∑ m ∈ range 4, W (d (c e m) 0) ^ 2 + ∑ m ∈ range 4, W (d (c e m) 1) ^ 2 := by rw [hP, sum_add_distrib]
  have b1 : ∑ q ∈ range 4, power 3 (ddot 3 (C e q) (strainOfA (dynB s x c) c (fun m i => W (d m i)) e q))
      (strainOfA (dynB s x c) c (fun m i => W (d m i)) e q) * dynVolA pi s x c e q ≤ κ * (2 * pi * ((r + h) * P + h ^ 2 / (4 * r) * P)) := by
    have t : ∀ q ∈ range 4, power 3 (ddot 3 (C e q) (strainOfA (dynB s x c) c (fun m i => W (d m i)) e q))
      (strainOfA (dynB s x c) c (fun m i => W (d m i)) e q) * dynVolA pi s x c e q ≤ κ * (2 * pi * ((r + h) * (
        ((∑ m ∈ range 4, D4 (fun q i => s * corner4 q i) q m 0 * W (d (c e m) 0)) ^ 2 + (∑ m ∈ range 4, D4 (fun q i => s * corner4 q i) q m 1 * W (d (c e m) 0)) ^ 2) +
        ((∑ m ∈ range 4, D4 (fun q i => s * corner4 q i) q m 0 * W (d (c e m) 1)) ^ 2 + (∑ m ∈ range 4, D4 (fun q i => s * corner4 q i) q m 1 * W (d (c e m) 1)) ^ 2)) +
        h ^ 2 / (4 * r) * (∑ m ∈ range 4, N4 m (s * corner4 q 0) (s * corner4 q 1) * W (d (c e m) 1)) ^ 2)) := by
      intro q hq
      rw [mem_range] at hq
      obtain ⟨i1, i2⟩ := gauss_box s1 s2 q 0
      obtain ⟨i3, i4⟩ := gauss_box s1 s2 q 1
      obtain ⟨y, hy⟩ : ∃ y : Nat → Nat → α, ∀ i j, y i j = ∑ m ∈ range 4, D4 (fun q i => s * corner4 q i) q m i * W (d (c e m) j) := ⟨_, fun _ _ => rfl⟩
      obtain ⟨w, hw⟩ : ∃ w, w = ∑ m ∈ range 4, N4 m (s * corner4 q 0) (s * corner4 q 1) * W (d (c e m) 1) := ⟨_, rfl⟩
      obtain ⟨rq, hrq⟩ : ∃ rq, rq = ∑ m ∈ range 4, N4 m (s * corner4 q 0) (s * corner4 q 1) * x (c e m) 1 := ⟨_, rfl⟩
      have one := N4_sum (s * corner4 q 0) (s * corner4 q 1)
      have q1 : r ≤ rq := by
        have : r = ∑ m ∈ range 4, N4 m (s * corner4 q 0) (s * corner4 q 1) * r := by rw [← sum_mul, one, one_mul]
        rw [this, hrq]
        refine sum_le_sum fun m hm => ?_
        rw [mem_range] at hm
        exact mul_le_mul_of_nonneg_left (rm m hm).1 (N4_nonneg i1 i2 i3 i4 hm)
      have q2 : rq ≤ r + h := by
        have : r + h = ∑ m ∈ range 4, N4 m (s * corner4 q 0) (s * corner4 q 1) * (r + h) := by rw [← sum_mul, one, one_mul]
        rw [this, hrq]
        refine sum_le_sum fun m hm => ?_
        rw [mem_range] at hm
        exact mul_le_mul_of_nonneg_left (rm m hm).2 (N4_nonneg i1 i2 i3 i4 hm)
      have qp : 0 < rq := rp.trans_le q1
      have hv : dynVolA pi s x c e q = h ^ 2 / 4 * (2 * pi * rq) := by rw [dynVolA_eq, g1, hrq]
      rw [hv]
      refine (mul_le_mul_of_nonneg_right (stiff e q _ he hq) (by positivity)).trans ?_
      rw [mul_assoc]
      refine mul_le_mul_of_nonneg_left ?_ hκ
      rw [square_strainA hh hS s he q (fun m i => W (d m i)) hy hw hrq, ← hw, ← hy, ← hy, ← hy, ← hy]
      have h' : h ≠ 0 := hh.ne'
      have e5 : ((2 / h * y 1 1) ^ 2 + (w / rq) ^ 2 + (2 / h * y 0 0) ^ 2 + (2 / h * y 1 0 + 2 / h * y 0 1) ^ 2 / 2) * (h ^ 2 / 4 * (2 * pi * rq)) =
          2 * pi * (rq * (y 0 0 ^ 2 + y 1 1 ^ 2 + (y 0 1 + y 1 0) ^ 2 / 2) + h ^ 2 / (4 * rq) * w ^ 2) := by
        field_simp
        ring
      rw [e5]
      refine mul_le_mul_of_nonneg_left (add_le_add ?_ ?_) (by linarith)
      · refine mul_le_mul q2 ?_ (by positivity) (by linarith)
        have := sq_nonneg (y 0 1 - y 1 0)
        linarith
      · refine mul_le_mul_of_nonneg_right ?_ (sq_nonneg _)
        exact div_le_div_of_nonneg_left (by positivity) (by linarith) (by linarith)
    refine (sum_le_sum t).trans ?_
    rw [← mul_sum, ← mul_sum, sum_add_distrib, ← mul_sum, ← mul_sum, sum_add_distrib]
    refine mul_le_mul_of_nonneg_left (mul_le_mul_of_nonneg_left (add_le_add (mul_le_mul_of_nonneg_left ?_ (by linarith))
      (mul_le_mul_of_nonneg_left ?_ (by positivity))) (by linarith)) hκ
    · rw [hP']
      exact add_le_add (square_grad hs fun m => W (d (c e m) 0)) (square_grad hs fun m => W (d (c e m) 1))
    · rw [hP']
      refine (square_interp hs fun m => W (d (c e m) 1)).trans ?_
      have : 0 ≤ ∑ m ∈ range 4, W (d (c e m) 0) ^ 2 := sum_nonneg fun _ _ => sq_nonneg _
      linarith
  have b2 : ρ₀ * (h ^ 2 / 4 * (2 * pi * r)) * P ≤ ∑ m ∈ range 4, ∑ i ∈ range 2,
      R e m * nodalVolA pi x c e m * W (d (c e m) i) ^ 2 := by
    rw [hP, mul_sum]
    refine sum_le_sum fun m hm => ?_
    rw [mem_range] at hm
    rw [sum_range_succ, sum_range_succ, sum_range_zero, nodalVolA, g1, zero_add, ← mul_add]
    refine mul_le_mul_of_nonneg_right (mul_le_mul (hR e m he hm) ?_ (by positivity) (hρ.le.trans (hR e m he hm))) (by positivity)
    exact mul_le_mul_of_nonneg_left (mul_le_mul_of_nonneg_left (rm m hm).1 (by linarith)) (by positivity)
  have b3 : (r + h) * P + h ^ 2 / (4 * r) * P ≤ (1 + h / (2 * r₀)) ^ 2 * r * P := by
    have e6 : (r + h) * P + h ^ 2 / (4 * r) * P = (1 + h / (2 * r)) ^ 2 * r * P := by
      have : r ≠ 0 := rp.ne'
      field_simp
      ring
    rw [e6]
    refine mul_le_mul_of_nonneg_right (mul_le_mul_of_nonneg_right ?_ rp.le) hP0
    have : h / (2 * r) ≤ h / (2 * r₀) := div_le_div_of_nonneg_left hh.le (by linarith) (by linarith)
    exact pow_le_pow_left₀ (by positivity) (by linarith) 2
  calc _ ≤ dt ^ 2 * (κ * (2 * pi * ((r + h) * P + h ^ 2 / (4 * r) * P))) := mul_le_mul_of_nonneg_left b1 (by positivity)
    _ ≤ dt ^ 2 * (κ * (2 * pi * ((1 + h / (2 * r₀)) ^ 2 * r * P))) :=
      mul_le_mul_of_nonneg_left (mul_le_mul_of_nonneg_left (mul_le_mul_of_nonneg_left b3 (by linarith)) hκ) (by positivity)
    _ = dt ^ 2 * κ * (1 + h / (2 * r₀)) ^ 2 * (2 * pi * r * P) := by ring
    _ ≤ θ * (ρ₀ * h ^ 2) * (2 * pi * r * P) := mul_le_mul_of_nonneg_right hdt (by positivity)
    _ = 4 * θ * (ρ₀ * (h ^ 2 / 4 * (2 * pi * r)) * P) := by ring
    _ ≤ _ := mul_le_mul_of_nonneg_left b2 (by positivity)

/-- **C121** (critical time step) on a mesh of squares of size `h` at a distance of at least `r₀` from the axis, with density at least `ρ₀` and stiffness at most `κ`, for any DOFs
(so also if the mesh is periodic): the explicit time integration is stable if
`dt² κ (1 + h / (2 r₀))² ≤ θ ρ₀ h²`, `θ ≤ 1` -/
theorem C121_cfl (hM : RingMesh nn ne c x) {pi : α} (hpi : 0 < pi) {s : α} (s1 : -1 ≤ s) (s2 : s ≤ 1) (s3 : 2 * s ^ 2 ≤ 1) (σ : Nat → Sched)
    (υ : Nat → Nat → Sched) {conn dofs : Ten Nat} {coor rho : Ten α} (hc : Is2 conn ne 4 c) (hx : Is2 coor nn 2 x) (hd : Is2 dofs nn 2 d)
    {h : α} (hh : 0 < h) (hS : Squares ne c x h) {r₀ : α} (hr0 : 0 < r₀) (off : ∀ m, m < nn → r₀ ≤ x m 1)
    {R : Nat → Nat → α} (hr : Is2 rho ne 4 R) {ρ₀ : α} (hρ : 0 < ρ₀) (hR : ∀ e q, e < ne → q < 4 → ρ₀ ≤ R e q) (dt : α)
    {material : List (Ten α) → Res (Ten α)} {C : Nat → Nat → Nat → Nat → Nat → Nat → α}
    (hm : HistoryFreeAxi ne material fun E e q => ddot 3 (C e q) (E e q))
    (major : ∀ e q i j k l, e < ne → q < 4 → i < 3 → j < 3 → k < 3 → l < 3 → C e q i j k l = C e q k l i j)
    (left : ∀ e q i j k l, e < ne → q < 4 → i < 3 → j < 3 → k < 3 → l < 3 → C e q i j k l = C e q j i k l)
    (nonneg : ∀ e q (g : Nat → Nat → α), e < ne → q < 4 → 0 ≤ power 3 (ddot 3 (C e q) g) g) {κ : α} (hκ : 0 ≤ κ)
    (stiff : ∀ e q (g : Nat → Nat → α), e < ne → q < 4 → power 3 (ddot 3 (C e q) g) g ≤ κ * power 3 g g)
    {u v a fext : Ten α} {U : Nat → Nat → α} {V A : Nat → α} (hu : Is2 u nn 2 U) (hv : Is2 v nn 2 fun m i => V (d m i))
    (ha : Is2 a nn 2 fun m i => A (d m i)) (hf : Is2 fext nn 2 fun _ _ => 0) (n : Nat) (ρ τ : Sched) {θ : α} (hθ : 0 < θ)
    (hdt : dt ^ 2 * κ * (1 + h / (2 * r₀)) ^ 2 ≤ θ * (ρ₀ * h ^ 2)) :
    IsOk (do
      let (D, M) ← DynamicsAxi.new s pi σ conn dofs coor rho
      let S ← D.run dt material fext υ 1 ⟨u, v, a, M, []⟩
      let E ← D.strain ρ τ S.u
      let S' ← D.run dt material fext υ (n + 1) ⟨u, v, a, M, []⟩
      let E' ← D.strain ρ τ S'.u
      return (D, M, S, E, S', E')) fun (D, M, S, E, S', E') => ∃ (N : Nat) (mass : Nat → α) (vol : Nat → Nat → α), NumDofs nn d N ∧ Is1 M.A N mass ∧ Is2 D.quad.vol ne 4 vol ∧
        ∃ (V₁ : Nat → α) (E₁ : Nat → Nat → Nat → Nat → α) (V₂ : Nat → α) (E₂ : Nat → Nat → Nat → Nat → α), Is2 S.v nn 2 (fun m i => V₁ (d m i)) ∧ Is4 E ne 4 3 3 E₁ ∧
          Is2 S'.v nn 2 (fun m i => V₂ (d m i)) ∧ Is4 E' ne 4 3 3 E₂ ∧
            1 / 2 * ∑ k ∈ range N, mass k * V₂ k ^ 2 + (1 - θ) * (1 / 2 * elasticWorkAxi ne vol C E₂) ≤
            1 / 2 * ∑ k ∈ range N, mass k * V₁ k ^ 2 + 1 / 2 * elasticWorkAxi ne vol C E₁ := by
  obtain ⟨⟨D, M, S, E, S', E'⟩, t1, N, mass, vol, b1, b2, b3, V₁, E₁, V₂, E₂, c1, c2, c3, c4, c5⟩ := C121_stable hM s1 s2 hpi σ υ hc hx hd hr
    (fun e q he hq => hρ.trans_le (hR e q he hq)) (fun m hm => hr0.trans_le (off m hm)) dt hm major left nonneg hu hv ha hf n ρ τ hθ
  refine ⟨_, t1, N, mass, vol, b1, b2, b3, V₁, E₁, V₂, E₂, c1, c2, c3, c4, c5 ?_⟩
  intro w W t ε hw ht hε
  obtain ⟨D', M', h1, h2, h3, h4, h5⟩ := dynamics_newA hM s pi σ hc hx hd hr
  rw [h1, Res.ok_bind] at t1
  dsimp only at t1
  have same : D' = D ∧ M' = M := by
    cases r1 : D'.run dt material fext υ 1 ⟨u, v, a, M', []⟩ with
    | ok S0 =>
      rw [r1, Res.ok_bind] at t1
      cases r2 : D'.strain ρ τ S0.u with
      | ok E0 =>
        rw [r2, Res.ok_bind] at t1
        cases r3 : D'.run dt material fext υ (n + 1) ⟨u, v, a, M', []⟩ with
        | ok S1 =>
          rw [r3, Res.ok_bind] at t1
          cases r4 : D'.strain ρ τ S1.u with
          | ok E1 =>
            rw [r4, Res.ok_bind] at t1
            have t1' : Res.ok (D', M', S0, E0, S1, E1) = Res.ok (D, M, S, E, S', E') := t1
            injection t1' with t1'
            exact ⟨(Prod.mk.inj t1').1, (Prod.mk.inj (Prod.mk.inj t1').2).1⟩
          | _ => rw [r4] at t1; cases t1
        | _ => rw [r3] at t1; cases t1
      | _ => rw [r2] at t1; cases t1
    | _ => rw [r1] at t1; cases t1
  obtain ⟨rfl, rfl⟩ := same
  have hA := h4.A _ rfl
  rw [h3] at hA
  have hN : N = D'.vector.ndof := by
    have := b2.1.symm.trans hA.1
    simpa using this
  subst hN
  have := h2.cfl hM hpi s1 s2 hh hS s3 hr0 off hρ hR hκ hθ.le stiff hdt W
  obtain ⟨t', k1, k2⟩ := h2.strain_ok ρ τ hw
  obtain rfl : t' = t := by rw [k1] at ht; injection ht
  have f1 : elasticWorkAxi ne vol C ε = elasticWorkAxi ne (dynVolA pi s x c) C (strainOfA (dynB s x c) c fun m i => W (d m i)) := by
    refine sum_congr rfl fun e he => sum_congr rfl fun q hq => ?_
    rw [mem_range] at he hq
    rw [b3.unique h2.volume he hq]
    congr 1
    have eq : ∀ i j, i < 3 → j < 3 → ε e q i j = strainOfA (dynB s x c) c (fun m i => W (d m i)) e q i j :=
      fun i j hi hj => hε.unique k2 he hq hi hj
    simp only [power, ddot, sum_range_succ, sum_range_zero, eq 0 0 (by omega) (by omega), eq 0 1 (by omega) (by omega),
      eq 0 2 (by omega) (by omega), eq 1 0 (by omega) (by omega), eq 1 1 (by omega) (by omega), eq 1 2 (by omega) (by omega),
      eq 2 0 (by omega) (by omega), eq 2 1 (by omega) (by omega), eq 2 2 (by omega) (by omega)]
  have f2 : ∑ k ∈ range D'.vector.ndof, mass k * W k ^ 2 = ∑ k ∈ range D'.vector.ndof, lumpedA pi x ne c d R k * W k ^ 2 :=
    sum_congr rfl fun k hk => by rw [b2.unique hA (mem_range.1 hk)]
  rw [f1, f2]
  exact this

omit [LinearOrder α] [IsStrictOrderedRing α] in
theorem Squares.ring {h : α} (hS : Squares ne c x h) (R : α) : Squares ne c (ringPos R x) h := by
  intro e he
  obtain ⟨q1, q2, q3, q4, q5, q6⟩ := hS e he
  have z : ∀ m, ringPos R x m 0 = x m 0 := fun m => rfl
  have o : ∀ m, ringPos R x m 1 = R + x m 1 := fun m => rfl
  simp only [z, o]
  rw [q1, q2, q3, q4, q5, q6]
  refine ⟨rfl, rfl, rfl, ?_, rfl, ?_⟩ <;> ring

/-- **C121** (Quad4 `Regular`, isotropic elasticity) a hollow cylinder with inner radius `r₀`, for any DOFs: stable if
`(3 l + 2 μ) dt² (1 + h / (2 r₀))² ≤ θ ρ₀ h²` -/
theorem C121_quad4_regular {nelx nely : Nat} (px : 0 < nelx) (py : 0 < nely) {h : α} (hh : 0 < h) {r₀ : α} (hr0 : 0 < r₀) {pi : α} (hpi : 0 < pi) {s : α} (s1 : -1 ≤ s) (s2 : s ≤ 1) (s3 : 2 * s ^ 2 ≤ 1)
    (σ : Nat → Sched) (υ : Nat → Nat → Sched) {dofs : Ten Nat} (hd : Is2 dofs ((nelx + 1) * (nely + 1)) 2 d)
    {rho : Ten α} {R : Nat → Nat → α} (hr : Is2 rho (nelx * nely) 4 R) {ρ₀ : α} (hρ : 0 < ρ₀) (hR : ∀ e q, e < nelx * nely → q < 4 → ρ₀ ≤ R e q) (dt : α)
    {material : List (Ten α) → Res (Ten α)} {l μ : α} (hl : 0 ≤ l) (hμ : 0 < μ)
    (hm : HistoryFreeAxi (nelx * nely) material fun E e q => ddot 3 (isotropic l μ) (E e q))
    {u v a fext : Ten α} {U : Nat → Nat → α} {V A : Nat → α} (hu : Is2 u ((nelx + 1) * (nely + 1)) 2 U)
    (hv : Is2 v ((nelx + 1) * (nely + 1)) 2 fun m i => V (d m i)) (ha : Is2 a ((nelx + 1) * (nely + 1)) 2 fun m i => A (d m i))
    (hf : Is2 fext ((nelx + 1) * (nely + 1)) 2 fun _ _ => 0) (n : Nat) (ρ τ : Sched) {θ : α} (hθ : 0 < θ)
    (hdt : dt ^ 2 * (3 * l + 2 * μ) * (1 + h / (2 * r₀)) ^ 2 ≤ θ * (ρ₀ * h ^ 2)) :
    IsOk (do
      let conn ← Quad4.Regular.conn (Quad4.Regular.new nelx nely h)
      let coor ← (Quad4.Regular.new nelx nely h).coor
      let (D, M) ← DynamicsAxi.new s pi σ conn dofs (addRadius r₀ coor) rho
      let S ← D.run dt material fext υ 1 ⟨u, v, a, M, []⟩
      let E ← D.strain ρ τ S.u
      let S' ← D.run dt material fext υ (n + 1) ⟨u, v, a, M, []⟩
      let E' ← D.strain ρ τ S'.u
      return (D, M, S, E, S', E')) fun (D, M, S, E, S', E') => ∃ (N : Nat) (mass : Nat → α) (vol : Nat → Nat → α),
        NumDofs ((nelx + 1) * (nely + 1)) d N ∧ Is1 M.A N mass ∧ Is2 D.quad.vol (nelx * nely) 4 vol ∧
        ∃ (V₁ : Nat → α) (E₁ : Nat → Nat → Nat → Nat → α) (V₂ : Nat → α) (E₂ : Nat → Nat → Nat → Nat → α),
          Is2 S.v ((nelx + 1) * (nely + 1)) 2 (fun m i => V₁ (d m i)) ∧ Is4 E (nelx * nely) 4 3 3 E₁ ∧
          Is2 S'.v ((nelx + 1) * (nely + 1)) 2 (fun m i => V₂ (d m i)) ∧ Is4 E' (nelx * nely) 4 3 3 E₂ ∧
            1 / 2 * ∑ k ∈ range N, mass k * V₂ k ^ 2 + (1 - θ) * (1 / 2 * elasticWorkAxi (nelx * nely) vol (fun _ _ => isotropic l μ) E₂) ≤
            1 / 2 * ∑ k ∈ range N, mass k * V₁ k ^ 2 + 1 / 2 * elasticWorkAxi (nelx * nely) vol (fun _ _ => isotropic l μ) E₁ := by
  obtain ⟨cn, a1, a2⟩ := (Quad4.Regular.sides nelx nely h).1
  obtain ⟨xt, b1, b2⟩ := (Quad4.Regular.new nelx nely h).coor_spec rfl rfl
  have hM : RectMesh ((nelx + 1) * (nely + 1)) (nelx * nely) (gridQuad nelx) (gridCoor h nelx)
      (h * (nelx : α)) (h * (nely : α)) (gridOutline nelx nely) := regular_rect nelx nely hh
  have lx : 0 < h * (nelx : α) := mul_pos hh (by exact_mod_cast px)
  have ly : 0 < h * (nely : α) := mul_pos hh (by exact_mod_cast py)
  have b3 : Is2 xt ((nelx + 1) * (nely + 1)) 2 (gridCoor h nelx) := b2
  have hE := isotropic_elastic3 hμ (by positivity : 0 < 3 * l + 2 * μ)
  obtain ⟨t, t1, t2⟩ := C121_cfl (d := d) (hM.ringMesh lx ly hr0.le) hpi s1 s2 s3 σ υ a2 (addRadius_ok (R := r₀) b3) hd hh
    ((regular_squares nelx nely).ring r₀) hr0 (fun m hm => by
      rw [ringPos_one]
      have := (hM.inside m hm).2.2.1
      linarith) hr hρ hR dt (C := fun _ _ => isotropic l μ) hm
    (fun _ _ i j k l _ _ hi hj hk hl => isotropic_major 3 _ _ i j k l hi hj hk hl)
    (fun _ _ i j k m _ _ hi hj hk hm => by
      have := hE.minor k m i j hk hm hi hj
      rw [isotropic_major 3 _ _ i j k m hi hj hk hm, this, isotropic_major 3 _ _ k m j i hk hm hj hi])
    (fun _ _ g _ _ => hE.nonneg g) (κ := 3 * l + 2 * μ) (by positivity) (fun _ _ g _ _ => isotropic_stiff3 hl hμ.le g)
    hu hv ha hf n ρ τ hθ hdt
  refine ⟨t, ?_, t2⟩
  rw [a1, Res.ok_bind, b1, Res.ok_bind]
  exact t1

/-! Non-vacuity: a hollow cylinder of 3 by 2 elements of size one with inner radius one, `l = μ = ρ₀ = 1`, time step 1/5, 1000 increments. -/
example : ∃ (material : List (Ten ℚ) → Res (Ten ℚ)) (u v rho : Ten ℚ), HistoryFreeAxi 6 material (fun E e q => ddot 3 (isotropic 1 1) (E e q)) ∧ IsOk (do
      let conn ← Quad4.Regular.conn (Quad4.Regular.new 3 2 1)
      let coor ← (Quad4.Regular.new 3 2 (1 : ℚ)).coor
      let (D, M) ← DynamicsAxi.new (1 / 2) 3 (fun _ => Sched.seq) conn (meshDofs 12 2) (addRadius 1 coor) rho
      let S ← D.run (1 / 5) material v (fun _ _ => Sched.seq) 1 ⟨u, v, v, M, []⟩
      let E ← D.strain Sched.seq Sched.rev S.u
      let S' ← D.run (1 / 5) material v (fun _ _ => Sched.seq) 1001 ⟨u, v, v, M, []⟩
      let E' ← D.strain Sched.seq Sched.rev S'.u
      return (D, M, S, E, S', E')) fun _ => True := by
  obtain ⟨mat, hm⟩ := linear_materialA 6 fun _ _ => isotropic (1 : ℚ) 1
  have hu : Is2 (Ten.of [12, 2] fun i => match i with | [m, i] => ((m * m + i : Nat) : ℚ) | _ => 0) 12 2 fun m i => ((m * m + i : Nat) : ℚ) := ⟨rfl, fun _ _ _ _ => rfl⟩
  have hv : Is2 (Ten.of [12, 2] fun _ => (0 : ℚ)) 12 2 fun m i => (fun _ : Nat => (0 : ℚ)) (m * 2 + i) := ⟨rfl, fun _ _ _ _ => rfl⟩
  have hr : Is2 (Ten.of [6, 4] fun _ => (1 : ℚ)) 6 4 fun _ _ => 1 := ⟨rfl, fun _ _ _ _ => rfl⟩
  obtain ⟨t, t1, -⟩ := C121_quad4_regular (nelx := 3) (nely := 2) (d := fun m i => m * 2 + i) (by omega) (by omega) (h := (1 : ℚ)) (by norm_num)
    (r₀ := 1) (by norm_num) (pi := 3) (by norm_num) (s := 1 / 2)
    (by norm_num) (by norm_num) (by norm_num) (fun _ => Sched.seq) (fun _ _ => Sched.seq) (meshDofs_ok 12) hr (ρ₀ := 1) (by norm_num)
    (fun _ _ _ _ => le_rfl) (1 / 5) (l := 1) (μ := 1) (by norm_num) (by norm_num) hm hu (V := fun _ => 0) (A := fun _ => 0) hv hv hv 1000 Sched.seq Sched.rev (θ := 1 / 2) (by norm_num) (by norm_num)
  exact ⟨mat, _, _, _, hm, t, t1, trivial⟩

end GF
