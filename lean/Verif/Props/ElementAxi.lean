import Verif.Props.ElementQuad4Mech
import Verif.Lemmas.ElementAxi
import Mathlib.Algebra.BigOperators.Field

/-!
# Property C50 (axisymmetric part): `Element::Quad4::QuadratureAxisymmetric`

Nodes are given by (z, r), nodal vectors by (axial, radial) components; tensors are 3 x 3 in the order (r, θ, z).
`Live pi ..` ranges over all histories of construction and `update_x`; `pi` stands for the constant `M_PI`.
-/

namespace GF.Element.Axi
open Finset ElemSpec Quad4

variable {α : Type} [Field α] [CharZero α]
variable {ne nip : Nat} {pi : α} {Ξ : Nat → Nat → α} {W : Nat → α} {A : QuadratureAxi α} {X : Nat → Nat → Nat → α}

/-- shape functions at the integration points -/
abbrev NΞ (Ξ : Nat → Nat → α) (q m : Nat) : α := N4 m (Ξ q 0) (Ξ q 1)

theorem live_holds (hA : Live pi ne nip Ξ W A X) :
    AHolds A ne nip (NΞ Ξ) (bX (NΞ Ξ) (D4 Ξ) X) (Vf pi W (NΞ Ξ) (D4 Ξ) X) ∧
      Is3 A.dNxi nip 4 2 (D4 Ξ) ∧ Is1 A.w nip W := by
  induction hA with
  | new hx hxi hw h =>
    rename_i σ _ _ _ _ _
    obtain ⟨A', h1, h2, h3, -, h4⟩ := new_ok hx hxi hw pi σ
    rw [h1] at h
    cases h
    exact ⟨h2, h3, h4 ▸ hw⟩
  | update hA hx h ih =>
    rename_i σ x A A' _ _
    obtain ⟨i1, i2, i3⟩ := ih
    obtain ⟨g, v, h1, h2, h3, h4⟩ := compute_dN_ok (A := { A with x := x }) i1.ne_eq i1.nip_eq i1.N_is i2 hx i3 pi
      i1.B_shape i1.V_is.1 σ
    rw [update_x, h1] at h
    cases h
    exact ⟨⟨i1.nne_eq, i1.nd_eq, i1.td_eq, i1.ne_eq, i1.nip_eq, i1.N_is, h2, h3, h4⟩, i2, i3⟩

/-- **C50** (axisymmetric, constructor and updates): construction and `update_x` never fail on arrays of the right
shape. -/
theorem C50_axisymmetric_life (σ τ : Sched) {x xi w x' : Ten α} {X'} (hx : Is3 x ne 4 2 X)
    (hxi : Is2 xi nip 2 Ξ) (hw : Is1 w nip W) (hx' : Is3 x' ne 4 2 X') :
    IsOk (new pi σ x xi w) fun A => Live pi ne nip Ξ W A X ∧
      IsOk (update_x pi τ A x') fun A' => Live pi ne nip Ξ W A' X' := by
  obtain ⟨A, h1, -⟩ := new_ok hx hxi hw pi σ
  have h2 : Live pi ne nip Ξ W A X := .new hx hxi hw h1
  obtain ⟨i1, i2, i3⟩ := live_holds h2
  obtain ⟨g, v, h3, -⟩ := compute_dN_ok (A := { A with x := x' }) i1.ne_eq i1.nip_eq i1.N_is i2 hx' i3 pi
    i1.B_shape i1.V_is.1 τ
  exact ⟨A, h1, h2, _, h3, .update h2 hx' h3⟩

/-- **C50** (axisymmetric, volumes): the volume of an integration point is that of the ring it sweeps: weight, times
Jacobian determinant, times circumference at its radius. -/
theorem C50_axisymmetric_volume (hA : Live pi ne nip Ξ W A X) :
    Is2 A.vol ne nip fun e q => W q * det4 (X e) (Ξ q 0) (Ξ q 1) * (2 * pi * map4 (X e) 1 (Ξ q 0) (Ξ q 1)) := by
  refine (live_holds hA).1.V_is.congr fun e q _ _ => ?_
  rw [Vf, detf_eq]
  simp only [Rf, map4]
  ring

/-- first moment about the axis `r = 0` of the quadrilateral with the given corners (polygon formula) -/
def moment4 (X : Nat → Nat → α) : α :=
  ((X 0 0 * X 1 1 - X 1 0 * X 0 1) * (X 0 1 + X 1 1) + (X 1 0 * X 2 1 - X 2 0 * X 1 1) * (X 1 1 + X 2 1) +
    (X 2 0 * X 3 1 - X 3 0 * X 2 1) * (X 2 1 + X 3 1) + (X 3 0 * X 0 1 - X 0 0 * X 3 1) * (X 3 1 + X 0 1)) / 6

theorem det4_lin (X : Nat → Nat → α) (a b : α) :
    det4 X a b = det4 X 0 0 + a * (det4 X 1 0 - det4 X 0 0) + b * (det4 X 0 1 - det4 X 0 0) := by
  simp only [sum_range_succ, sum_range_zero, zero_add, det4, jac4, part2, map4, N4, corner4, if_true,
    if_neg one_ne_zero]
  field_simp
  ring

theorem map4_bilin (X : Nat → Nat → α) (j : Nat) (a b : α) :
    map4 X j a b = map4 X j 0 0 + a * (map4 X j 1 0 - map4 X j 0 0) + b * (map4 X j 0 1 - map4 X j 0 0) +
      a * b * (map4 X j 1 1 - map4 X j 1 0 - map4 X j 0 1 + map4 X j 0 0) := by
  simp only [sum_range_succ, sum_range_zero, zero_add, map4, N4, corner4]
  field_simp
  ring

theorem moment4_eq (X : Nat → Nat → α) : 3 * moment4 X = 4 * (3 * (det4 X 0 0 * map4 X 1 0 0) +
    (det4 X 1 0 - det4 X 0 0) * (map4 X 1 1 0 - map4 X 1 0 0) +
      (det4 X 0 1 - det4 X 0 0) * (map4 X 1 0 1 - map4 X 1 0 0)) := by
  simp only [sum_range_succ, sum_range_zero, zero_add, det4, jac4, part2, map4, N4, corner4, if_true,
    if_neg one_ne_zero, moment4]
  field_simp
  ring

theorem gauss_moment (X : Nat → Nat → α) {s : α} (hs : 3 * s ^ 2 = 1) :
    ∑ q ∈ range 4, det4 X (s * corner4 q 0) (s * corner4 q 1) * map4 X 1 (s * corner4 q 0) (s * corner4 q 1) =
      moment4 X := by
  have h3 : (3 : α) ≠ 0 := by norm_num
  have h := moment4_eq X
  refine mul_left_cancel₀ h3 ?_
  rw [h]
  simp only [sum_range_succ, sum_range_zero, zero_add, corner4]
  rw [det4_lin X (s * -1) (s * -1), det4_lin X (s * 1) (s * -1), det4_lin X (s * 1) (s * 1), det4_lin X (s * -1) (s * 1),
    map4_bilin X 1 (s * -1) (s * -1), map4_bilin X 1 (s * 1) (s * -1), map4_bilin X 1 (s * 1) (s * 1),
    map4_bilin X 1 (s * -1) (s * 1)]
  generalize det4 X 0 0 = d0, det4 X 1 0 = d1, det4 X 0 1 = d2, map4 X 1 0 0 = c0, map4 X 1 1 0 = c1,
    map4 X 1 0 1 = c2, map4 X 1 1 1 = c3
  linear_combination (4 * ((d1 - d0) * (c1 - c0) + (d2 - d0) * (c2 - c0))) * hs

/-- **C50** (axisymmetric, total volume): with the default Gauss rule the volumes of an element add up to the exact
volume of its solid of revolution, `2 pi` times the first moment of the quadrilateral (Pappus). -/
theorem C50_axisymmetric_total (s pi : α) (hs : 3 * s ^ 2 = 1) (σ : Sched) {x : Ten α} (hx : Is3 x ne 4 2 X) :
    IsOk (newGauss s pi σ x) fun A => ∃ V, Is2 A.vol ne 4 V ∧
      ∀ e, e < ne → ∑ q ∈ range 4, V e q = 2 * pi * moment4 (X e) := by
  obtain ⟨xi, h1, h2⟩ := rule_ok s
  obtain ⟨w, h3, h4⟩ := (weights_ok (α := α)).1
  obtain ⟨A, h5, -⟩ := new_ok hx h2 h4 pi σ
  refine ⟨A, by simp only [newGauss, h1, h3, h5, Res.ok_bind], _,
    C50_axisymmetric_volume (.new hx h2 h4 h5), fun e _ => ?_⟩
  rw [← gauss_moment (X e) hs, mul_sum]
  exact sum_congr rfl fun q _ => by ring

/-- **C50** (axisymmetric, positivity): all volumes are positive for strictly convex elements at positive radii, a rule
with positive weights and points inside the reference square, and positive `pi`. -/
theorem C50_axisymmetric_positive {α : Type} [Field α] [LinearOrder α] [IsStrictOrderedRing α] {ne nip : Nat} {pi : α}
    {Ξ : Nat → Nat → α} {W : Nat → α} {A : QuadratureAxi α} {X} (hA : Live pi ne nip Ξ W A X) (hpi : 0 < pi)
    (hX : ∀ e, e < ne → Convex4 (X e)) (hr : ∀ e m, e < ne → m < 4 → 0 < X e m 1)
    (hΞ : ∀ q i, q < nip → i < 2 → -1 ≤ Ξ q i ∧ Ξ q i ≤ 1) (hW : ∀ q, q < nip → 0 < W q) :
    ∃ V, Is2 A.vol ne nip V ∧ (∀ e q, e < ne → q < nip → 0 < V e q) ∧
      ∀ e q, e < ne → q < nip → det4 (X e) (Ξ q 0) (Ξ q 1) ≠ 0 ∧ map4 (X e) 1 (Ξ q 0) (Ξ q 1) ≠ 0 := by
  have hd : ∀ e q, e < ne → q < nip → 0 < det4 (X e) (Ξ q 0) (Ξ q 1) := fun e q he hq =>
    det_pos (hX e he) (hΞ q 0 hq (by omega)).1 (hΞ q 0 hq (by omega)).2 (hΞ q 1 hq (by omega)).1
      (hΞ q 1 hq (by omega)).2
  have hm : ∀ e q, e < ne → q < nip → 0 < map4 (X e) 1 (Ξ q 0) (Ξ q 1) := by
    intro e q he hq
    have hn := fun m hm => N4_nonneg (hΞ q 0 hq (by omega)).1 (hΞ q 0 hq (by omega)).2 (hΞ q 1 hq (by omega)).1
      (hΞ q 1 hq (by omega)).2 (m := m) hm
    have hs := N4_sum (Ξ q 0) (Ξ q 1)
    refine lt_of_le_of_ne (sum_nonneg fun m hm => mul_nonneg (hn m (mem_range.1 hm)) (hr e m he (mem_range.1 hm)).le) ?_
    intro h0
    have h1 := (sum_eq_zero_iff_of_nonneg fun m hm =>
      mul_nonneg (hn m (mem_range.1 hm)) (hr e m he (mem_range.1 hm)).le).1 h0.symm
    have h2 : ∀ m ∈ range 4, N4 m (Ξ q 0) (Ξ q 1) = 0 := fun m hm =>
      (mul_eq_zero.1 (h1 m hm)).resolve_right (hr e m he (mem_range.1 hm)).ne'
    rw [sum_eq_zero h2] at hs
    exact zero_ne_one hs
  refine ⟨_, C50_axisymmetric_volume hA, fun e q he hq => ?_, fun e q he hq => ⟨(hd e q he hq).ne', (hm e q he hq).ne'⟩⟩
  have h1 := hd e q he hq
  have h2 := hm e q he hq
  have h3 := hW q hq
  positivity

/-- expected gradient in the order (r, θ, z), for `u_z = b 0 + A 0 0 z + A 0 1 r` and `u_r = b 1 + A 1 0 z + A 1 1 r`,
with `hoop` the circumferential strain -/
def cylGrad (A : Nat → Nat → α) (hoop : α) (i j : Nat) : α :=
  match i, j with
  | 0, 0 => A 1 1
  | 1, 1 => hoop
  | 2, 2 => A 0 0
  | 0, 2 => A 0 1
  | 2, 0 => A 1 0
  | _, _ => 0

theorem gA_affine {U B b} (hU : AffineField 2 4 ne X U B b) {e q : Nat} (he : e < ne)
    (h : det4 (X e) (Ξ q 0) (Ξ q 1) ≠ 0) {i j : Nat} (hi : i < 3) (hj : j < 3) :
    gA (bX (NΞ Ξ) (D4 Ξ) X) U e q i j =
      cylGrad B (map4 (U e) 1 (Ξ q 0) (Ξ q 1) / map4 (X e) 1 (Ξ q 0) (Ξ q 1)) i j := by
  have hg := fun i j hi hj => grad_affine hU he h (i := i) (j := j) hi hj
  have h0 : ga (bX (NΞ Ξ) (D4 Ξ) X) U e q 0 = B 1 1 := hg 1 1 (by omega) (by omega)
  have h2 : ga (bX (NΞ Ξ) (D4 Ξ) X) U e q 2 = B 0 0 := hg 0 0 (by omega) (by omega)
  have h3 : ga (bX (NΞ Ξ) (D4 Ξ) X) U e q 3 = B 0 1 := hg 1 0 (by omega) (by omega)
  have h4 : ga (bX (NΞ Ξ) (D4 Ξ) X) U e q 4 = B 1 0 := hg 0 1 (by omega) (by omega)
  have h1 : ga (bX (NΞ Ξ) (D4 Ξ) X) U e q 1 =
      map4 (U e) 1 (Ξ q 0) (Ξ q 1) / map4 (X e) 1 (Ξ q 0) (Ξ q 1) := by
    rw [ga, map4, map4, sum_div]
    refine sum_congr rfl fun m _ => ?_
    simp only [bX, bv, Rf, dof, NΞ, List.getD_cons_zero, List.getD_cons_succ]
    rw [one_div, div_eq_mul_inv]
    ring
  interval_cases i <;> interval_cases j <;>
    simp [gA, sum_range_succ, ci, cj, h0, h1, h2, h3, h4, cylGrad]

/-- **C50** (axisymmetric, gradients): for displacements affine in (z, r) the 3 x 3 gradients are exact at every
integration point: the in-plane derivatives, the hoop strain `u_r / r`, and zeros elsewhere; for the plain, transposed
and symmetric versions. -/
theorem C50_axisymmetric_gradient (hA : Live pi ne nip Ξ W A X)
    (hdet : ∀ e q, e < ne → q < nip → det4 (X e) (Ξ q 0) (Ξ q 1) ≠ 0)
    {u : Ten α} {U B b} (hu : Is3 u ne 4 2 U) (hU : AffineField 2 4 ne X U B b) (σ : Sched) {hoop : Nat → Nat → α}
    (hhoop : ∀ e q, e < ne → q < nip →
      hoop e q = map4 (U e) 1 (Ξ q 0) (Ξ q 1) / map4 (X e) 1 (Ξ q 0) (Ξ q 1)) :
    IsOk (GradN_vector A σ u) (fun t => Is4 t ne nip 3 3 fun e q i j => cylGrad B (hoop e q) i j) ∧
    IsOk (GradN_vector_T A σ u) (fun t => Is4 t ne nip 3 3 fun e q i j => cylGrad B (hoop e q) j i) ∧
    IsOk (SymGradN_vector A σ u) (fun t => Is4 t ne nip 3 3 fun e q i j =>
      (cylGrad B (hoop e q) i j + cylGrad B (hoop e q) j i) / 2) := by
  obtain ⟨⟨t, h1, h2⟩, ⟨t', h1', h2'⟩, ⟨t'', h1'', h2''⟩⟩ := grads_ok (live_holds hA).1 σ hu
  refine ⟨⟨t, h1, h2.congr ?_⟩, ⟨t', h1', h2'.congr ?_⟩, ⟨t'', h1'', h2''.congr ?_⟩⟩
  · intro e q i j he hq hi hj
    rw [gA_affine hU he (hdet e q he hq) hi hj, hhoop e q he hq]
  · intro e q i j he hq hi hj
    rw [gA_affine hU he (hdet e q he hq) hj hi, hhoop e q he hq]
  · intro e q i j he hq hi hj
    rw [sym3, gA_affine hU he (hdet e q he hq) hi hj, gA_affine hU he (hdet e q he hq) hj hi, hhoop e q he hq]
    split
    · next h => subst h; field_simp; ring
    · ring

/-- **C50** (axisymmetric, hoop strain): for every displacement field the (θ,θ) component is the interpolated radial
displacement over the interpolated radius. -/
theorem C50_axisymmetric_hoop (hA : Live pi ne nip Ξ W A X) {u : Ten α} {U} (hu : Is3 u ne 4 2 U) (σ : Sched) :
    IsOk (GradN_vector A σ u) fun t => ∃ g, Is4 t ne nip 3 3 g ∧ ∀ e q, e < ne → q < nip →
      g e q 1 1 = map4 (U e) 1 (Ξ q 0) (Ξ q 1) / map4 (X e) 1 (Ξ q 0) (Ξ q 1) := by
  obtain ⟨⟨t, h1, h2⟩, -⟩ := grads_ok (live_holds hA).1 σ hu
  refine ⟨t, h1, _, h2, fun e q _ _ => ?_⟩
  rw [show gA (bX (NΞ Ξ) (D4 Ξ) X) U e q 1 1 = _ from gA_of (bX (NΞ Ξ) (D4 Ξ) X) U e q (a := 1) (by omega), ga, map4,
    map4, sum_div]
  refine sum_congr rfl fun m _ => ?_
  simp only [bX, bv, Rf, dof, NΞ, List.getD_cons_zero, List.getD_cons_succ]
  rw [one_div, div_eq_mul_inv]
  ring

/-- **C50** (axisymmetric, mass matrix). -/
theorem C50_axisymmetric_mass (hA : Live pi ne nip Ξ W A X) (σ : Sched) {r : Ten α} {R} (hr : Is2 r ne nip R) :
    ∃ V, Is2 A.vol ne nip V ∧ IsOk (Int_N_scalar_NT_dV A σ r) fun t => ∃ M, Is3 t ne 8 8 M ∧
      MassLaws 4 2 ne nip (fun q m => N4 m (Ξ q 0) (Ξ q 1)) R V M := by
  have h := (live_holds hA).1
  refine ⟨_, h.V_is, ?_⟩
  obtain ⟨t, h1, h2, h3⟩ := mass_ok h.N_is h.V_is σ hr (Ten.empty A.shape_elemmat) (by
    simp [Ten.empty, Quadrature.shape_elemmat, h.ne_eq, h.nne_eq, h.nd_eq])
  refine ⟨t, by rw [Int_N_scalar_NT_dV, h.ne_eq, h.nip_eq]; exact h1,
    fun e a b => if a % 2 = b % 2 then ∑ q ∈ range nip,
      N4 (a / 2) (Ξ q 0) (Ξ q 1) * R e q * N4 (b / 2) (Ξ q 0) (Ξ q 1) * Vf pi W (NΞ Ξ) (D4 Ξ) X e q else 0,
    ⟨h2, fun e a b he ha hb => ?_⟩, massLaws ?_ fun q _ => N4_sum _ _⟩
  · have := h3 e (a / 2) (b / 2) (a % 2) (b % 2) he (by omega) (by omega) (by omega) (by omega)
    rw [show a / 2 * 2 + a % 2 = a by omega, show b / 2 * 2 + b % 2 = b by omega] at this
    exact this
  · intro e m n i j he hm hn hi hj
    have e1 : (m * 2 + i) / 2 = m := by omega
    have e2 : (n * 2 + j) / 2 = n := by omega
    have e3 : (m * 2 + i) % 2 = i := by omega
    have e4 : (n * 2 + j) % 2 = j := by omega
    simp only [e1, e2, e3, e4]

omit [CharZero α] in
theorem sum_gA (b : Nat → Nat → Nat → Nat → α) (U : Nat → Nat → Nat → α) (e q : Nat) (S : Nat → Nat → α) :
    ∑ i ∈ range 3, ∑ j ∈ range 3, S i j * gA b U e q i j = ∑ a ∈ range 5, S (ci a) (cj a) * ga b U e q a := by
  simp [gA, sum_range_succ, ci, cj]
  ring

omit [CharZero α] in
theorem sum_gA' (b : Nat → Nat → Nat → Nat → α) (U : Nat → Nat → Nat → α) (e q : Nat) (S : Nat → Nat → α) :
    ∑ k ∈ range 3, ∑ l ∈ range 3, S k l * gA b U e q l k = ∑ a ∈ range 5, S (cj a) (ci a) * ga b U e q a := by
  rw [sum_comm]
  exact sum_gA b U e q fun i j => S j i

omit [CharZero α] in
/-- sum over the two components, each gradient component being driven by one of them -/
theorem sum_dof (f : Nat → α) (v : Nat → α) :
    ∑ j ∈ range 2, (∑ a ∈ range 5, if dof a = j then f a else 0) * v j = ∑ a ∈ range 5, f a * v (dof a) := by
  simp [sum_range_succ, dof]
  ring

omit [CharZero α] in
theorem virtual_workA {b : Nat → Nat → Nat → Nat → α} {S : Nat → Nat → Nat → Nat → α} {V : Nat → Nat → α}
    {U : Nat → Nat → Nat → α} (e : Nat) :
    ∑ m ∈ range 4, ∑ j ∈ range 2, (∑ q ∈ range nip,
      (∑ a ∈ range 5, if dof a = j then b a e q m * S e q (ci a) (cj a) else 0) * V e q) * U e m j =
      ∑ q ∈ range nip, power 3 (S e q) (gA b U e q) * V e q := by
  have h1 : ∀ m ∈ range 4, ∑ j ∈ range 2, (∑ q ∈ range nip,
      (∑ a ∈ range 5, if dof a = j then b a e q m * S e q (ci a) (cj a) else 0) * V e q) * U e m j =
      ∑ q ∈ range nip, ∑ a ∈ range 5, b a e q m * S e q (ci a) (cj a) * U e m (dof a) * V e q := by
    intro m _
    have : ∀ q ∈ range nip, ∑ a ∈ range 5, b a e q m * S e q (ci a) (cj a) * U e m (dof a) * V e q =
        ∑ j ∈ range 2, (∑ a ∈ range 5, if dof a = j then b a e q m * S e q (ci a) (cj a) else 0) * V e q * U e m j := by
      intro q _
      rw [← sum_mul, ← sum_dof (fun a => b a e q m * S e q (ci a) (cj a)) (U e m), sum_mul]
      exact sum_congr rfl fun j _ => by ring
    rw [sum_congr rfl this]
    refine Eq.trans ?_ sum_comm
    exact sum_congr rfl fun j _ => sum_mul _ _ _
  rw [sum_congr rfl h1]
  refine Eq.trans sum_comm ?_
  refine sum_congr rfl fun q _ => ?_
  rw [power, sum_gA, sum_mul]
  refine Eq.trans sum_comm ?_
  refine sum_congr rfl fun a _ => ?_
  rw [ga, mul_sum, sum_mul]
  exact sum_congr rfl fun m _ => by ring

/-- **C50** (axisymmetric, internal force): for every 3 x 3 stress field the nodal forces do the virtual work of the
full contraction with the gradient (including the hoop contribution), and their axial components add up to zero. -/
theorem C50_axisymmetric_force (hA : Live pi ne nip Ξ W A X) (σ τ : Sched) {s v : Ten α} {S v'}
    (hs : Is4 s ne nip 3 3 S) (hv : Is3 v ne 4 2 v') :
    ∃ V F g, Is2 A.vol ne nip V ∧
      IsOk (Int_gradN_dot_tensor2_dV A σ s) (fun t => Is3 t ne 4 2 F) ∧
      IsOk (GradN_vector A τ v) (fun t => Is4 t ne nip 3 3 g) ∧
      (∀ e, e < ne → ∑ m ∈ range 4, F e m 0 = 0) ∧
      ∀ e, e < ne → ∑ m ∈ range 4, ∑ j ∈ range 2, F e m j * v' e m j =
        ∑ q ∈ range nip, power 3 (S e q) (g e q) * V e q := by
  have h := (live_holds hA).1
  refine ⟨_, _, _, h.V_is, force_ok h σ hs, (grads_ok h τ hv).1, ?_, fun e _ => virtual_workA e⟩
  intro e _
  rw [sum_comm]
  refine sum_eq_zero fun q _ => ?_
  have h0 := G_sum Ξ X e q 0
  have h1 := G_sum Ξ X e q 1
  rw [← sum_mul]
  have : ∑ m ∈ range 4, ∑ a ∈ range 5, (if dof a = 0 then
      bX (NΞ Ξ) (D4 Ξ) X a e q m * S e q (ci a) (cj a) else 0) =
      (∑ m ∈ range 4, Gf (D4 Ξ) X e q m 0) * S e q 2 2 + (∑ m ∈ range 4, Gf (D4 Ξ) X e q m 1) * S e q 0 2 := by
    rw [sum_mul, sum_mul, ← sum_add_distrib]
    refine sum_congr rfl fun m _ => ?_
    simp [sum_range_succ, dof, ci, cj, bX, bv]
  rw [this, h0, h1]
  ring

omit [CharZero α] in
/-- the stiffness is the linearisation of the force -/
theorem stiff_linearA {b : Nat → Nat → Nat → Nat → α} {C : Nat → Nat → Nat → Nat → Nat → Nat → α} {V : Nat → Nat → α}
    {U : Nat → Nat → Nat → α} (e m j : Nat) :
    ∑ n ∈ range 4, ∑ k ∈ range 2, (∑ q ∈ range nip, ∑ a ∈ range 5, ∑ a' ∈ range 5, if dof a = j ∧ dof a' = k then
          b a e q m * C e q (ci a) (cj a) (cj a') (ci a') * b a' e q n * V e q else 0) * U e n k =
      ∑ q ∈ range nip, (∑ a ∈ range 5, if dof a = j then b a e q m *
        ddot 3 (C e q) (gA b U e q) (ci a) (cj a) else 0) * V e q := by
  have h1 : ∀ n ∈ range 4, ∑ k ∈ range 2, (∑ q ∈ range nip, ∑ a ∈ range 5, ∑ a' ∈ range 5,
      if dof a = j ∧ dof a' = k then
          b a e q m * C e q (ci a) (cj a) (cj a') (ci a') * b a' e q n * V e q else 0) * U e n k =
      ∑ q ∈ range nip, ∑ a ∈ range 5, ∑ a' ∈ range 5, if dof a = j then
        b a e q m * C e q (ci a) (cj a) (cj a') (ci a') * b a' e q n * U e n (dof a') * V e q else 0 := by
    intro n _
    have : ∀ q ∈ range nip, ∑ a ∈ range 5, ∑ a' ∈ range 5, (if dof a = j then
        b a e q m * C e q (ci a) (cj a) (cj a') (ci a') * b a' e q n * U e n (dof a') * V e q else 0) =
        ∑ k ∈ range 2, (∑ a ∈ range 5, ∑ a' ∈ range 5, if dof a = j ∧ dof a' = k then
          b a e q m * C e q (ci a) (cj a) (cj a') (ci a') * b a' e q n * V e q else 0) * U e n k := by
      intro q _
      rw [sum_congr rfl fun k _ => sum_mul _ _ _]
      refine Eq.trans ?_ sum_comm
      refine sum_congr rfl fun a _ => ?_
      by_cases ha : dof a = j
      · simp only [ha, true_and, if_true]
        rw [sum_dof (fun a' => b a e q m * C e q (ci a) (cj a) (cj a') (ci a') * b a' e q n * V e q) (U e n)]
        exact sum_congr rfl fun a' _ => by ring
      · simp [ha]
    rw [sum_congr rfl this]
    refine Eq.trans ?_ sum_comm
    exact sum_congr rfl fun k _ => sum_mul _ _ _
  rw [sum_congr rfl h1]
  refine Eq.trans sum_comm ?_
  refine sum_congr rfl fun q _ => ?_
  rw [sum_mul]
  refine Eq.trans sum_comm ?_
  refine sum_congr rfl fun a _ => ?_
  by_cases ha : dof a = j
  · simp only [ha, if_true]
    rw [ddot, sum_gA', mul_sum, sum_mul]
    refine Eq.trans sum_comm ?_
    refine sum_congr rfl fun a' _ => ?_
    rw [ga, mul_sum, mul_sum, sum_mul]
    exact sum_congr rfl fun n _ => by ring
  · simp [ha]

/-- **C50** (axisymmetric, stiffness): the stiffness of a 3 x 3 x 3 x 3 tangent, applied to nodal displacements, gives
the internal force of the stress `C : grad u`; it is symmetric for a symmetric tangent, and gives no force for an axial
translation. -/
theorem C50_axisymmetric_stiffness (hA : Live pi ne nip Ξ W A X) (σ τ ρ : Sched) {c u s : Ten α} {C U}
    (hc : Is6 c ne nip 3 3 3 3 C) (hu : Is3 u ne 4 2 U) {g S}
    (hg : IsOk (GradN_vector A τ u) fun t => Is4 t ne nip 3 3 g)
    (hs : Is4 s ne nip 3 3 S)
    (hS : ∀ e q i j, e < ne → q < nip → i < 3 → j < 3 → S e q i j = ddot 3 (C e q) (g e q) i j) :
    ∃ K F, IsOk (Int_gradN_dot_tensor4_dot_gradNT_dV A σ c) (fun t => Is3 t ne 8 8 K) ∧
      IsOk (Int_gradN_dot_tensor2_dV A ρ s) (fun t => Is3 t ne 4 2 F) ∧
      (∀ e m j, e < ne → m < 4 → j < 2 →
        ∑ n ∈ range 4, ∑ k ∈ range 2, K e (m * 2 + j) (n * 2 + k) * U e n k = F e m j) ∧
      ((∀ e q i j k l, e < ne → q < nip → i < 3 → j < 3 → k < 3 → l < 3 → C e q i j k l = C e q l k j i) →
        ∀ e a b, e < ne → a < 8 → b < 8 → K e a b = K e b a) ∧
      ∀ e a, e < ne → a < 8 → ∑ n ∈ range 4, K e a (n * 2 + 0) = 0 := by
  have h := (live_holds hA).1
  obtain ⟨t, h1, h2, h3⟩ := stiff_ok h σ hc
  set b := bX (NΞ Ξ) (D4 Ξ) X with hb
  set V := Vf pi W (NΞ Ξ) (D4 Ξ) X with hV
  let Kk : Nat → Nat → Nat → Nat → Nat → α := fun e m j n k =>
    ∑ q ∈ range nip, ∑ a ∈ range 5, ∑ a' ∈ range 5, if dof a = j ∧ dof a' = k then
          b a e q m * C e q (ci a) (cj a) (cj a') (ci a') * b a' e q n * V e q else 0
  have hKk : ∀ e m j n k, j < 2 → k < 2 →
      Kk e ((m * 2 + j) / 2) ((m * 2 + j) % 2) ((n * 2 + k) / 2) ((n * 2 + k) % 2) = Kk e m j n k := by
    intro e m j n k hj hk
    rw [show (m * 2 + j) / 2 = m by omega, show (n * 2 + k) / 2 = n by omega, show (m * 2 + j) % 2 = j by omega,
      show (n * 2 + k) % 2 = k by omega]
  refine ⟨fun e a b => Kk e (a / 2) (a % 2) (b / 2) (b % 2), _, ⟨t, h1, h2, fun e a b he ha hb => ?_⟩,
    force_ok h ρ hs, ?_, ?_, ?_⟩
  · have := h3 e (a / 2) (b / 2) (a % 2) (b % 2) he (by omega) (by omega) (by omega) (by omega)
    rw [show a / 2 * 2 + a % 2 = a by omega, show b / 2 * 2 + b % 2 = b by omega] at this
    exact this
  · intro e m j he hm hj
    obtain ⟨tg, hg1, hg2⟩ := hg
    obtain ⟨tg', hg1', hg2'⟩ := (grads_ok h τ hu).1
    rw [hg1] at hg1'
    cases hg1'
    have hci : ∀ a, a < 5 → ci a < 3 ∧ cj a < 3 := by
      intro a ha; interval_cases a <;> simp [ci, cj]
    rw [sum_congr rfl fun n _ => sum_congr rfl fun k hk => by
      beta_reduce; rw [hKk e m j n k hj (mem_range.1 hk)], stiff_linearA]
    refine sum_congr rfl fun q hq => ?_
    rw [mem_range] at hq
    congr 1
    refine sum_congr rfl fun a ha => ?_
    rw [mem_range] at ha
    rw [hS e q _ _ he hq (hci a ha).1 (hci a ha).2]
    congr 2
    exact sum_congr rfl fun k hk => sum_congr rfl fun l hl => by
      rw [hg2.unique hg2' he hq (mem_range.1 hl) (mem_range.1 hk)]
  · intro hC e a' b' he ha hb
    have hci : ∀ a, a < 5 → ci a < 3 ∧ cj a < 3 := by
      intro a ha; interval_cases a <;> simp [ci, cj]
    refine sum_congr rfl fun q hq => ?_
    rw [mem_range] at hq
    refine Eq.trans sum_comm ?_
    refine sum_congr rfl fun i hi => sum_congr rfl fun i' hi' => ?_
    rw [mem_range] at hi hi'
    by_cases hd : dof i = b' % 2 ∧ dof i' = a' % 2
    · rw [if_pos hd, if_pos ⟨hd.2, hd.1⟩, hC e q _ _ _ _ he hq (hci i' hi').1 (hci i' hi').2 (hci i hi).2 (hci i hi).1]
      ring
    · rw [if_neg hd, if_neg fun h' => hd ⟨h'.2, h'.1⟩]
  · intro e a' he ha
    have hz : ∀ n ∈ range 4, Kk e (a' / 2) (a' % 2) ((n * 2 + 0) / 2) ((n * 2 + 0) % 2) =
        ∑ q ∈ range nip, ∑ a ∈ range 5, ∑ a₂ ∈ range 5, if dof a = a' % 2 ∧ dof a₂ = 0 then
          b a e q (a' / 2) * C e q (ci a) (cj a) (cj a₂) (ci a₂) * b a₂ e q n * V e q else 0 := by
      intro n _
      rw [show (n * 2 + 0) / 2 = n by omega, show (n * 2 + 0) % 2 = 0 by omega]
    rw [sum_congr rfl hz]
    refine Eq.trans sum_comm (sum_eq_zero fun q _ => ?_)
    refine Eq.trans sum_comm (sum_eq_zero fun a _ => ?_)
    refine Eq.trans sum_comm (sum_eq_zero fun a₂ ha₂ => ?_)
    by_cases hd : dof a = a' % 2 ∧ dof a₂ = 0
    · simp only [hd, and_self, if_true]
      rw [← sum_mul, ← mul_sum]
      have : ∑ n ∈ range 4, b a₂ e q n = 0 := by
        rw [mem_range] at ha₂
        have h2 := hd.2
        interval_cases a₂ <;> simp [dof] at h2
        · exact G_sum Ξ X e q 0
        · exact G_sum Ξ X e q 1
      rw [this]
      ring
    · simp only [if_neg hd, sum_const_zero]

/-- a concrete axisymmetric object with positive radii, which meets the hypotheses above -/
def exXa (e m i : Nat) : ℚ := exX e m i + if i = 1 then 3 else 0

theorem exAxi : ∃ A, Live 3 2 4 exΞ (fun _ => (1 : ℚ)) A exXa := by
  obtain ⟨A, -, h, -⟩ := C50_axisymmetric_life Sched.rev Sched.seq
    (is3_of 2 4 2 fun ix => exXa (ix.getD 0 0) (ix.getD 1 0) (ix.getD 2 0))
    (is2_of 4 2 fun ix => exΞ (ix.getD 0 0) (ix.getD 1 0)) (is1_of 4 fun _ => (1 : ℚ)) (pi := 3)
    (is3_of 2 4 2 fun ix => exXa (ix.getD 0 0) (ix.getD 1 0) (ix.getD 2 0))
  exact ⟨A, h⟩

example : (∀ e, e < 2 → Convex4 (exXa e)) ∧ ∀ e m, e < 2 → m < 4 → 0 < exXa e m 1 := by
  constructor
  · intro e he
    interval_cases e <;> simp [Convex4, turn, exXa, exX] <;> norm_num
  · intro e m he hm
    interval_cases e <;> interval_cases m <;> simp [exXa, exX] <;> norm_num

end GF.Element.Axi
