import Verif.Lemmas.ElementQuad4Geo
import Mathlib.Analysis.Calculus.Deriv.Basic
import Mathlib.Analysis.Calculus.Deriv.Add
import Mathlib.Analysis.Calculus.Deriv.Mul

/-!
# Properties C43, C44, C46 - C49, C53, C54: the four-node element `Element::Quad4::Quadrature`

`Live 2 1 ne nip Ξ W Q X` (Spec/ElementHistory.lean): `Q` is any object a user can have: constructed with integration
points `Ξ` and weights `W`, then updated (`update_x`) any number of times, with last coordinates `X`.
Everything below holds for every such history and every OpenMP schedule.
-/

namespace GF.Element.Quad4
open Finset ElemSpec

variable {α : Type} [Field α] [CharZero α]

/-! ### C53: the life of the object -/

/-- **C53** (constructor): on arrays of the right shape the constructor never fails. -/
theorem C53_constructor (σ : Sched) {x xi w : Ten α} {ne nip : Nat} {X Ξ W} (hx : Is3 x ne 4 2 X)
    (hxi : Is2 xi nip 2 Ξ) (hw : Is1 w nip W) :
    IsOk (new σ x xi w) fun Q => Live 2 1 ne nip Ξ W Q X := by
  obtain ⟨Q, h1, -⟩ := construct_ok hx hxi hw 2 1 σ
  exact ⟨Q, h1, .new hx hxi hw h1⟩

/-- **C53** (`update_x`): any sequence of updates succeeds and leaves an object whose arrays (volumes and gradients)
are those of a fresh object constructed with the last coordinates: nothing of the history remains. -/
theorem C53_update_history {ne nip : Nat} {Ξ : Nat → Nat → α} {W : Nat → α} {Q₀ : Quadrature α} {X₀}
    (h₀ : Live 2 1 ne nip Ξ W Q₀ X₀) (hist : List (Sched × Ten α))
    (hh : ∀ p ∈ hist, ∃ X, Is3 p.2 ne 4 2 X) (τ σ : Sched) {x xi w : Ten α} {X} (hx : Is3 x ne 4 2 X)
    (hxi : Is2 xi nip 2 Ξ) (hw : Is1 w nip W) :
    IsOk (do
      let Q ← forEach hist (fun Q p => update_x 1 p.1 Q p.2) Q₀
      update_x 1 τ Q x) fun Q =>
      Live 2 1 ne nip Ξ W Q X ∧
      ∃ Q' G V, new σ x xi w = .ok Q' ∧ Is4 Q.dNx ne nip 4 2 G ∧ Is4 Q'.dNx ne nip 4 2 G ∧
        Is2 Q.vol ne nip V ∧ Is2 Q'.vol ne nip V := by
  have key : ∀ (hist : List (Sched × Ten α)) (Q₀ : Quadrature α) X₀, Live 2 1 ne nip Ξ W Q₀ X₀ →
      (∀ p ∈ hist, ∃ X, Is3 p.2 ne 4 2 X) →
      ∃ Q X, forEach hist (fun Q p => update_x 1 p.1 Q p.2) Q₀ = .ok Q ∧ Live 2 1 ne nip Ξ W Q X := by
    intro hist
    induction hist with
    | nil => intro Q₀ X₀ h _; exact ⟨Q₀, X₀, rfl, h⟩
    | cons p l ih =>
      intro Q₀ X₀ h hp
      obtain ⟨X', hX'⟩ := hp p (by simp)
      obtain ⟨Q', h1⟩ := update_ok h p.1 hX'
      obtain ⟨Q, X, h2, h3⟩ := ih Q' X' (.update h hX' h1) fun r hr => hp r (by simp [hr])
      exact ⟨Q, X, by rw [forEach, h1]; exact h2, h3⟩
  obtain ⟨Q, X', h1, h2⟩ := key hist Q₀ X₀ h₀ hh
  obtain ⟨Q₁, h3⟩ := update_ok h2 τ hx
  obtain ⟨Q', h4, h5⟩ := C53_constructor σ hx hxi hw
  have h6 : Live 2 1 ne nip Ξ W Q₁ X := .update h2 hx h3
  exact ⟨Q₁, by rw [h1, Res.ok_bind, h3], h6, Q', _, _, h4, (live_holds h6).1.G_is,
    (live_holds h5).1.G_is, (live_holds h6).1.V_is, (live_holds h5).1.V_is⟩

/-! ### a concrete object that meets the hypotheses: a trapezium, updated once -/

/-- two elements: a trapezium, and a skewed quadrilateral -/
def exX : Nat → Nat → Nat → ℚ := fun e m i =>
  ([[[0, 0], [4, 0], [3, 2], [1, 2]], [[4, 0], [8, 1], [7, 5], [3, 2]]].getD e []).getD m [] |>.getD i 0

/-- integration points half-way to the corners -/
def exΞ : Nat → Nat → ℚ := fun q i => 1 / 2 * corner4 q i

theorem exLive : ∃ Q, Live 2 1 2 4 exΞ (fun _ => (1 : ℚ)) Q exX ∧
    ∀ e q, e < 2 → q < 4 → det4 (exX e) (exΞ q 0) (exΞ q 1) ≠ 0 := by
  obtain ⟨Q, -, h⟩ := C53_constructor Sched.rev (is3_of 2 4 2 fun ix => exX (ix.getD 0 0) (ix.getD 1 0) (ix.getD 2 0) + 1)
    (is2_of 4 2 fun ix => exΞ (ix.getD 0 0) (ix.getD 1 0)) (is1_of 4 fun _ => (1 : ℚ))
  have hx := is3_of 2 4 2 fun ix => exX (ix.getD 0 0) (ix.getD 1 0) (ix.getD 2 0)
  obtain ⟨Q', h'⟩ := update_ok h Sched.seq hx
  refine ⟨Q', .update h hx h', fun e q he hq => ?_⟩
  interval_cases e <;> interval_cases q <;>
    simp [det4, jac4, part2, map4, N4, corner4, sum_range_succ, exX, exΞ] <;> norm_num

/-! ### C43: shape functions and interpolation -/

variable {ne nip : Nat} {Ξ : Nat → Nat → α} {W : Nat → α} {Q : Quadrature α} {X : Nat → Nat → Nat → α}

/-- **C43** (shape functions): the stored shape functions are the bilinear functions of the reference square at the
integration points: equal to one at their own corner and zero at the others, adding up to one everywhere. -/
theorem C43_shape_functions (hQ : Live 2 1 ne nip Ξ W Q X) :
    ∃ N : Nat → α → α → α, Is2 Q.N nip 4 (fun q m => N m (Ξ q 0) (Ξ q 1)) ∧
      (∀ m n, m < 4 → n < 4 → N m (corner4 n 0) (corner4 n 1) = if m = n then 1 else 0) ∧
      (∀ ξ η, ∑ m ∈ range 4, N m ξ η = 1) ∧
      (∀ m, ∃ a b c d, ∀ ξ η, N m ξ η = a + b * ξ + c * η + d * ξ * η) := by
  refine ⟨N4, (live_holds hQ).1.N_is, fun m n hm hn => N4_corner hm hn, N4_sum, fun m => ?_⟩
  refine ⟨1 / 4, corner4 m 0 / 4, corner4 m 1 / 4, corner4 m 0 * corner4 m 1 / 4, fun ξ η => ?_⟩
  rw [N4]
  ring

/-- **C43** (local gradients): the stored local gradients are the derivatives of these functions: the functions
are affine in each local coordinate with the stored value as slope; the gradients add up to zero. -/
theorem C43_local_gradients (hQ : Live 2 1 ne nip Ξ W Q X) :
    ∃ D : Nat → Nat → Nat → α, Is3 Q.dNxi nip 4 2 D ∧
      (∀ q m δ, N4 m (Ξ q 0 + δ) (Ξ q 1) = N4 m (Ξ q 0) (Ξ q 1) + D q m 0 * δ) ∧
      (∀ q m δ, N4 m (Ξ q 0) (Ξ q 1 + δ) = N4 m (Ξ q 0) (Ξ q 1) + D q m 1 * δ) ∧
      ∀ q i, ∑ m ∈ range 4, D q m i = 0 :=
  ⟨D4 Ξ, (live_holds hQ).2.1, fun _ _ _ => N4_deriv0 _ _ _ _, fun _ _ _ => N4_deriv1 _ _ _ _,
    fun _ _ => D4_sum _ _ _⟩

/-- **C43** (local gradients, calculus): over the reals the stored local gradients are the partial derivatives of
the shape functions in the sense of analysis. -/
theorem C43_local_gradients_real {Ξ : Nat → Nat → ℝ} {W : Nat → ℝ} {Q : Quadrature ℝ} {X : Nat → Nat → Nat → ℝ}
    (hQ : Live 2 1 ne nip Ξ W Q X) :
    ∃ D : Nat → Nat → Nat → ℝ, Is3 Q.dNxi nip 4 2 D ∧
      ∀ q m, HasDerivAt (fun ξ => N4 m ξ (Ξ q 1)) (D q m 0) (Ξ q 0) ∧
        HasDerivAt (fun η => N4 m (Ξ q 0) η) (D q m 1) (Ξ q 1) := by
  refine ⟨D4 Ξ, (live_holds hQ).2.1, fun q m => ⟨?_, ?_⟩⟩
  · have h : (fun ξ => N4 m ξ (Ξ q 1)) = fun ξ => N4 m (Ξ q 0) (Ξ q 1) + D4 Ξ q m 0 * (ξ - Ξ q 0) := by
      funext ξ
      have := N4_deriv0 m (Ξ q 0) (Ξ q 1) (ξ - Ξ q 0)
      rw [show Ξ q 0 + (ξ - Ξ q 0) = ξ by ring] at this
      exact this
    rw [h]
    simpa using (((hasDerivAt_id (Ξ q 0)).sub_const (Ξ q 0)).const_mul (D4 Ξ q m 0)).const_add
      (N4 m (Ξ q 0) (Ξ q 1))
  · have h : (fun η => N4 m (Ξ q 0) η) = fun η => N4 m (Ξ q 0) (Ξ q 1) + D4 Ξ q m 1 * (η - Ξ q 1) := by
      funext η
      have := N4_deriv1 m (Ξ q 0) (Ξ q 1) (η - Ξ q 1)
      rw [show Ξ q 1 + (η - Ξ q 1) = η by ring] at this
      exact this
    rw [h]
    simpa using (((hasDerivAt_id (Ξ q 1)).sub_const (Ξ q 1)).const_mul (D4 Ξ q m 1)).const_add
      (N4 m (Ξ q 0) (Ξ q 1))

theorem InterpQuad_ok (hQ : Live 2 1 ne nip Ξ W Q X) (σ : Sched) {u : Ten α} {U} (hu : Is3 u ne 4 2 U) :
    IsOk (InterpQuad_vector Q σ u) fun t =>
      Is3 t ne nip 2 fun e q j => map4 (U e) j (Ξ q 0) (Ξ q 1) := by
  have h := (live_holds hQ).1
  obtain ⟨t, h1, h2⟩ := interp_ok h σ hu (Ten.empty (Q.shape_qvector_n 2)) (by
    simp [Ten.empty, Quadrature.shape_qvector_n, h.ne_eq, h.nip_eq])
  exact ⟨t, by rw [InterpQuad_vector, hu.1]; exact h1, h2⟩

/-- **C43** (interpolation): `InterpQuad_vector` returns the bilinear interpolation of the nodal values; for the
nodal values of an affine field, the value of that field at the position of the integration point. -/
theorem C43_interpolation (hQ : Live 2 1 ne nip Ξ W Q X) (σ : Sched) {u : Ten α} {U} (hu : Is3 u ne 4 2 U) :
    IsOk (InterpQuad_vector Q σ u) fun t => ∃ T, Is3 t ne nip 2 T ∧
      (∀ e q j, e < ne → q < nip → j < 2 → T e q j = ∑ m ∈ range 4, N4 m (Ξ q 0) (Ξ q 1) * U e m j) ∧
      ∀ A b, AffineField 2 4 ne X U A b → ∀ e q j, e < ne → q < nip → j < 2 →
        T e q j = b j + ∑ k ∈ range 2, A j k * map4 (X e) k (Ξ q 0) (Ξ q 1) := by
  obtain ⟨t, h1, h2⟩ := InterpQuad_ok hQ σ hu
  refine ⟨t, h1, _, h2, fun _ _ _ _ _ _ => rfl, fun A b hA e q j he hq hj => ?_⟩
  rw [map4, sum_congr rfl fun m hm => by rw [hA e m j he (mem_range.1 hm) hj]]
  simp only [mul_add, sum_add_distrib, map4]
  rw [← sum_mul, N4_sum, one_mul]
  congr 1
  simp only [mul_sum]
  rw [sum_comm]
  exact sum_congr rfl fun k _ => sum_congr rfl fun m _ => by ring

/-! the integration rules of the library -/

theorem rule_ok (s : α) : ∃ t, Gauss.xi s = .ok t ∧ Is2 t 4 2 (fun q i => s * corner4 q i) := by
  refine ⟨_, rfl, rfl, fun i j hi hj => ?_⟩
  interval_cases i <;> interval_cases j <;> simp [corner4, Function.update]

theorem nodal_ok : ∃ t : Ten α, Nodal.xi = .ok t ∧ Is2 t 4 2 (fun q i => 1 * corner4 q i) := by
  refine ⟨_, rfl, rfl, fun i j hi hj => ?_⟩
  interval_cases i <;> interval_cases j <;> simp [corner4, Function.update]

theorem weights_ok : (∃ t : Ten α, Gauss.w = .ok t ∧ Is1 t 4 (fun _ => 1)) ∧
    (∃ t : Ten α, Nodal.w = .ok t ∧ Is1 t 4 (fun _ => 1)) := by
  refine ⟨⟨_, rfl, rfl, fun i hi => ?_⟩, ⟨_, rfl, rfl, fun i hi => ?_⟩⟩ <;>
  · interval_cases i <;> simp [Function.update]

theorem midpoint_ok : (∃ t : Ten α, MidPoint.xi = .ok t ∧ Is2 t 1 2 (fun _ _ => 0)) ∧
    (∃ t : Ten α, MidPoint.w = .ok t ∧ Is1 t 1 (fun _ => 1)) := by
  refine ⟨⟨_, rfl, rfl, fun i j hi hj => ?_⟩, ⟨_, rfl, rfl, fun i hi => ?_⟩⟩
  · interval_cases i <;> interval_cases j <;> simp [Function.update]
  · interval_cases i; simp [Function.update]

/-- **C43** (nodal rule): with the rule `Nodal`, interpolation returns the nodal values. -/
theorem C43_nodal_interpolation (σ τ : Sched) {x u : Ten α} {U} (hx : Is3 x ne 4 2 X) (hu : Is3 u ne 4 2 U) :
    IsOk (do
      let xi ← Nodal.xi
      let w ← Nodal.w
      let Q ← new σ x xi w
      InterpQuad_vector Q τ u) fun t => Is3 t ne 4 2 U := by
  obtain ⟨xi, h1, h2⟩ := nodal_ok (α := α)
  obtain ⟨w, h3, h4⟩ := (weights_ok (α := α)).2
  obtain ⟨Q, h5, h6⟩ := C53_constructor σ hx h2 h4
  obtain ⟨t, h7, h8⟩ := InterpQuad_ok h6 τ hu
  refine ⟨t, by simp only [h1, h3, h5, h7, Res.ok_bind], h8.1, fun e q j he hq hj => ?_⟩
  rw [h8.2 e q j he hq hj]
  simp only [map4]
  simp only [one_mul]
  rw [sum_congr rfl fun m hm => by rw [N4_corner (mem_range.1 hm) hq]]
  congr 1
  interval_cases q <;> simp [sum_range_succ]

/-! ### C44: gradients -/

theorem GradN_ok (hQ : Live 2 1 ne nip Ξ W Q X) (σ : Sched) {u : Ten α} {U} (hu : Is3 u ne 4 2 U) :
    IsOk (GradN_vector Q σ u) fun t => Is4 t ne nip 2 2 (grad 4 (Gf (D4 Ξ) X) U) := by
  have h := (live_holds hQ).1
  obtain ⟨⟨t, h1, h2, h3, -⟩, -, -⟩ := grads_ok h (le_refl 2) σ hu (Ten.empty (Q.shape_qtensor 2)) (by
    simp [Ten.empty, Quadrature.shape_qtensor, h.ne_eq, h.nip_eq, h.td_eq])
  exact ⟨t, h1, h2, h3⟩

/-- **C44** (affine fields): for every element with non-zero Jacobian determinant at the integration points and every
affine field `u(x) = b + A x`, `GradN_vector` returns `∂u_j/∂x_i = A_ji` at every integration point,
`GradN_vector_T` its transpose, `SymGradN_vector` its symmetric part. -/
theorem C44_affine_gradient (hQ : Live 2 1 ne nip Ξ W Q X)
    (hdet : ∀ e q, e < ne → q < nip → det4 (X e) (Ξ q 0) (Ξ q 1) ≠ 0)
    {u : Ten α} {U A b} (hu : Is3 u ne 4 2 U) (hA : AffineField 2 4 ne X U A b) (σ : Sched) :
    IsOk (GradN_vector Q σ u) (fun t => Is4 t ne nip 2 2 fun _ _ i j => A j i) ∧
    IsOk (GradN_vector_T Q σ u) (fun t => Is4 t ne nip 2 2 fun _ _ i j => A i j) ∧
    IsOk (SymGradN_vector Q σ u) (fun t => Is4 t ne nip 2 2 fun _ _ i j => (A i j + A j i) / 2) := by
  have h := (live_holds hQ).1
  obtain ⟨⟨t, h1, h2, h3, -⟩, ⟨t', h1', h2', h3', -⟩, ⟨t'', h1'', h2'', h3'', -⟩⟩ :=
    grads_ok h (le_refl 2) σ hu (Ten.empty (Q.shape_qtensor 2)) (by
      simp [Ten.empty, Quadrature.shape_qtensor, h.ne_eq, h.nip_eq, h.td_eq])
  have hg : ∀ e q i j, e < ne → q < nip → i < 2 → j < 2 → grad 4 (Gf (D4 Ξ) X) U e q i j = A j i :=
    fun e q i j he hq hi hj => grad_affine hA he (hdet e q he hq) hi hj
  refine ⟨⟨t, h1, h2, fun e q i j he hq hi hj => ?_⟩, ⟨t', h1', h2', fun e q i j he hq hi hj => ?_⟩,
    ⟨t'', h1'', h2'', fun e q i j he hq hi hj => ?_⟩⟩
  · rw [h3 e q i j he hq hi hj, hg e q i j he hq hi hj]
  · rw [h3' e q i j he hq hi hj, hg e q j i he hq hj hi]
  · rw [h3'' e q i j he hq hi hj, symf]
    have h0 := hg e q 0 1 he hq (by omega) (by omega)
    have h1 := hg e q 1 0 he hq (by omega) (by omega)
    split
    · next hij => subst hij; rw [hg e q i i he hq hi hi]; congr 1; field_simp; ring
    · next hij =>
      rw [h0, h1]
      congr 1
      have : (i = 0 ∧ j = 1) ∨ (i = 1 ∧ j = 0) := by omega
      rcases this with ⟨rfl, rfl⟩ | ⟨rfl, rfl⟩ <;> ring

/-- **C44** (all fields): for arbitrary nodal values the returned gradient is the gradient of the
interpolated field: contracted with the derivatives of the position it gives the derivatives of the
interpolation in the local coordinates (chain rule; this determines it). -/
theorem C44_chain_rule (hQ : Live 2 1 ne nip Ξ W Q X)
    (hdet : ∀ e q, e < ne → q < nip → det4 (X e) (Ξ q 0) (Ξ q 1) ≠ 0)
    {u : Ten α} {U} (hu : Is3 u ne 4 2 U) (σ : Sched) :
    IsOk (GradN_vector Q σ u) fun t => ∃ g, Is4 t ne nip 2 2 g ∧
      ∀ e q k j, e < ne → q < nip → k < 2 → j < 2 →
        ∑ i ∈ range 2, part2 (map4 (X e) i) k (Ξ q 0) (Ξ q 1) * g e q i j =
          part2 (map4 (U e) j) k (Ξ q 0) (Ξ q 1) := by
  obtain ⟨t, h1, h2⟩ := GradN_ok hQ σ hu
  exact ⟨t, h1, _, h2, fun e q k j he hq hk _ => grad_chain (hdet e q he hq) hk j⟩

/-- the hypotheses are met by a sheared, rotated field on the example object -/
example : ∃ (Q : Quadrature ℚ) (U : Nat → Nat → Nat → ℚ) (A : Nat → Nat → ℚ) (b : Nat → ℚ),
    Live 2 1 2 4 exΞ (fun _ => 1) Q exX ∧ (∀ e q, e < 2 → q < 4 → det4 (exX e) (exΞ q 0) (exΞ q 1) ≠ 0) ∧
    AffineField 2 4 2 exX U A b ∧ A 0 1 ≠ A 1 0 := by
  obtain ⟨Q, h1, h2⟩ := exLive
  exact ⟨Q, fun e m j => (j : ℚ) + ∑ k ∈ range 2, ((j : ℚ) + 3 * k) * exX e m k, fun j k => (j : ℚ) + 3 * k,
    fun j => j, h1, h2, fun _ _ _ _ _ _ => rfl, by norm_num⟩

/-! ### C46: volumes -/

theorem vol_ok {td : Nat} {thick : α} (hQ : Live td thick ne nip Ξ W Q X) :
    Is2 Q.vol ne nip fun e q => W q * det4 (X e) (Ξ q 0) (Ξ q 1) * thick :=
  (live_holds hQ).1.V_is.congr fun e q _ _ => by rw [detf_eq]

/-- **C46** (volumes): the volume stored for an integration point is its weight times the Jacobian determinant. -/
theorem C46_volume (hQ : Live 2 1 ne nip Ξ W Q X) :
    Is2 Q.vol ne nip fun e q => W q * det4 (X e) (Ξ q 0) (Ξ q 1) :=
  (vol_ok hQ).congr fun _ _ _ _ => mul_one _

/-- **C46** (area): with the default (Gauss) rule, and with the nodal rule, the volumes of an element add up to its
signed area, whatever its shape. -/
theorem C46_area (s : α) (σ : Sched) {x : Ten α} (hx : Is3 x ne 4 2 X) :
    IsOk (newGauss s σ x) (fun Q => ∃ V, Is2 Q.vol ne 4 V ∧ ∀ e, e < ne → ∑ q ∈ range 4, V e q = area4 (X e)) ∧
    IsOk (do let xi ← Nodal.xi; let w ← Nodal.w; new σ x xi w)
      (fun Q => ∃ V, Is2 Q.vol ne 4 V ∧ ∀ e, e < ne → ∑ q ∈ range 4, V e q = area4 (X e)) := by
  constructor
  · obtain ⟨xi, h1, h2⟩ := rule_ok s
    obtain ⟨w, h3, h4⟩ := (weights_ok (α := α)).1
    obtain ⟨Q, h5, h6⟩ := C53_constructor σ hx h2 h4
    refine ⟨Q, by simp only [newGauss, h1, h3, h5, Res.ok_bind], _, C46_volume h6, fun e _ => ?_⟩
    simp only [one_mul]
    exact det4_sum (X e) s
  · obtain ⟨xi, h1, h2⟩ := nodal_ok (α := α)
    obtain ⟨w, h3, h4⟩ := (weights_ok (α := α)).2
    obtain ⟨Q, h5, h6⟩ := C53_constructor σ hx h2 h4
    refine ⟨Q, by simp only [h1, h3, h5, Res.ok_bind], _, C46_volume h6, fun e _ => ?_⟩
    have := det4_sum (X e) 1
    simpa only [one_mul] using this

/-- **C46** (one-point rule, discrepancy): with the rule `MidPoint` of the library the volume is only a quarter of the
area (its weight is 1; exact integration of constants needs 4). -/
theorem C46_midpoint_quarter (σ : Sched) {x : Ten α} (hx : Is3 x ne 4 2 X) :
    IsOk (do let xi ← MidPoint.xi; let w ← MidPoint.w; new σ x xi w)
      (fun Q => ∃ V, Is2 Q.vol ne 1 V ∧ ∀ e, e < ne → ∑ q ∈ range 1, V e q = area4 (X e) / 4) := by
  obtain ⟨⟨xi, h1, h2⟩, w, h3, h4⟩ := midpoint_ok (α := α)
  obtain ⟨Q, h5, h6⟩ := C53_constructor σ hx h2 h4
  refine ⟨Q, by simp only [h1, h3, h5, Res.ok_bind], _, C46_volume h6, fun e _ => ?_⟩
  simp [det4_mid]

/-- integral of `ξ^a` over `[-1, 1]` -/
def integ (a : Nat) : α := if a % 2 = 0 then 2 / (a + 1) else 0

/-- **C46** (accuracy of the rules): with `3 s^2 = 1` the Gauss rule integrates every monomial `ξ^a η^b` with
`a, b ≤ 3` exactly over the reference square; the nodal rule those with `a, b ≤ 1`. -/
theorem C46_rules_exact (s : α) (hs : 3 * s * s = 1) :
    (∃ xi w Ξ W, Gauss.xi s = .ok xi ∧ Gauss.w = .ok w ∧ Is2 xi 4 2 Ξ ∧ Is1 w 4 W ∧
      ∀ a b, a ≤ 3 → b ≤ 3 → ∑ q ∈ range 4, W q * (Ξ q 0 ^ a * Ξ q 1 ^ b) = integ a * integ (α := α) b) ∧
    (∃ xi w Ξ W, Nodal.xi = .ok xi ∧ Nodal.w = .ok w ∧ Is2 xi 4 2 Ξ ∧ Is1 w 4 W ∧
      ∀ a b, a ≤ 1 → b ≤ 1 → ∑ q ∈ range 4, W q * (Ξ q 0 ^ a * Ξ q 1 ^ b) = integ a * integ (α := α) b) := by
  constructor
  · obtain ⟨xi, h1, h2⟩ := rule_ok s
    obtain ⟨w, h3, h4⟩ := (weights_ok (α := α)).1
    refine ⟨xi, w, _, _, h1, h3, h2, h4, fun a b ha hb => ?_⟩
    have h3' : s ^ 2 = 1 / 3 := by field_simp; linear_combination hs
    have h4' : s ^ 4 = 1 / 9 := by
      have : s ^ 4 = (s ^ 2) ^ 2 := by ring
      rw [this, h3']; norm_num
    interval_cases a <;> interval_cases b <;> simp [sum_range_succ, corner4, integ] <;>
      first | ring1 | (ring_nf; rw [h3']; norm_num; done) | (ring_nf; rw [h4']; norm_num)
  · obtain ⟨xi, h1, h2⟩ := nodal_ok (α := α)
    obtain ⟨w, h3, h4⟩ := (weights_ok (α := α)).2
    refine ⟨xi, w, _, _, h1, h3, h2, h4, fun a b ha hb => ?_⟩
    interval_cases a <;> interval_cases b <;> simp [sum_range_succ, corner4, integ] <;> ring1

end GF.Element.Quad4
