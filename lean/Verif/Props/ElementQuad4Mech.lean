import Verif.Spec.Polygon
import Verif.Props.ElementQuad4

/-!
# Properties C46 (positivity), C47, C48, C49, C50 (planar), C54: mass, internal force, stiffness

For the 2-d class (`Live 2 1 ..`) and the planar class (`Live 3 thick ..`).
-/

namespace GF.Element.Quad4
open Finset ElemSpec

/-! ### C46: positivity -/

section ordered
variable {α : Type} [Field α] [LinearOrder α] [IsStrictOrderedRing α]

theorem corner_det (X : Nat → Nat → α) :
    det4 X (corner4 0 0) (corner4 0 1) = turn (X 3) (X 0) (X 1) / 4 ∧
    det4 X (corner4 1 0) (corner4 1 1) = turn (X 0) (X 1) (X 2) / 4 ∧
    det4 X (corner4 2 0) (corner4 2 1) = turn (X 1) (X 2) (X 3) / 4 ∧
    det4 X (corner4 3 0) (corner4 3 1) = turn (X 2) (X 3) (X 0) / 4 := by
  refine ⟨?_, ?_, ?_, ?_⟩ <;>
  · simp only [det4, jac4, part2, map4, N4, corner4, sum_range_succ, sum_range_zero, if_true,
      if_neg one_ne_zero, turn]
    field_simp
    ring

theorem N4_nonneg {ξ η : α} (h1 : -1 ≤ ξ) (h2 : ξ ≤ 1) (h3 : -1 ≤ η) (h4 : η ≤ 1) {m : Nat} (hm : m < 4) :
    0 ≤ N4 m ξ η := by
  have a1 : 0 ≤ 1 - ξ := by linarith
  have a2 : 0 ≤ 1 + ξ := by linarith
  have b1 : 0 ≤ 1 - η := by linarith
  have b2 : 0 ≤ 1 + η := by linarith
  have c : (0 : α) ≤ 4 := by norm_num
  interval_cases m <;> simp only [N4, corner4] <;> refine div_nonneg (mul_nonneg ?_ ?_) c <;> linarith

theorem det_pos {X : Nat → Nat → α} (hX : Convex4 X) {ξ η : α} (h1 : -1 ≤ ξ) (h2 : ξ ≤ 1) (h3 : -1 ≤ η)
    (h4 : η ≤ 1) : 0 < det4 X ξ η := by
  obtain ⟨d0, d1, d2, d3⟩ := corner_det X
  obtain ⟨p0, p1, p2, p3⟩ := hX
  have hs := N4_sum ξ η
  have n0 := N4_nonneg h1 h2 h3 h4 (m := 0) (by omega)
  have n1 := N4_nonneg h1 h2 h3 h4 (m := 1) (by omega)
  have n2 := N4_nonneg h1 h2 h3 h4 (m := 2) (by omega)
  have n3 := N4_nonneg h1 h2 h3 h4 (m := 3) (by omega)
  rw [det4_interp]
  simp only [sum_range_succ, sum_range_zero, zero_add] at hs ⊢
  rw [d0, d1, d2, d3]
  have q0 : 0 < turn (X 3) (X 0) (X 1) / 4 := by positivity
  have q1 : 0 < turn (X 0) (X 1) (X 2) / 4 := by positivity
  have q2 : 0 < turn (X 1) (X 2) (X 3) / 4 := by positivity
  have q3 : 0 < turn (X 2) (X 3) (X 0) / 4 := by positivity
  have m0 := mul_nonneg n0 q0.le
  have m1 := mul_nonneg n1 q1.le
  have m2 := mul_nonneg n2 q2.le
  have m3 := mul_nonneg n3 q3.le
  have hz : N4 0 ξ η ≠ 0 ∨ N4 1 ξ η ≠ 0 ∨ N4 2 ξ η ≠ 0 ∨ N4 3 ξ η ≠ 0 := by
    by_contra hc
    push Not at hc
    rw [hc.1, hc.2.1, hc.2.2.1, hc.2.2.2] at hs
    norm_num at hs
  rcases hz with h | h | h | h
  · have := mul_pos (lt_of_le_of_ne n0 h.symm) q0; linarith
  · have := mul_pos (lt_of_le_of_ne n1 h.symm) q1; linarith
  · have := mul_pos (lt_of_le_of_ne n2 h.symm) q2; linarith
  · have := mul_pos (lt_of_le_of_ne n3 h.symm) q3; linarith

/-- **C46** (positivity): for a strictly convex, counter-clockwise quadrilateral all volumes are positive, for every
rule with positive weights and points inside the reference square.  In particular the Jacobian determinants
are non-zero, as the other theorems ask. -/
theorem C46_positive {ne nip : Nat} {Ξ : Nat → Nat → α} {W : Nat → α} {Q : Quadrature α} {X}
    (hQ : Live 2 1 ne nip Ξ W Q X) (hX : ∀ e, e < ne → Convex4 (X e))
    (hΞ : ∀ q i, q < nip → i < 2 → -1 ≤ Ξ q i ∧ Ξ q i ≤ 1) (hW : ∀ q, q < nip → 0 < W q) :
    (∃ V, Is2 Q.vol ne nip V ∧ ∀ e q, e < ne → q < nip → 0 < V e q) ∧
      ∀ e q, e < ne → q < nip → det4 (X e) (Ξ q 0) (Ξ q 1) ≠ 0 := by
  have hd : ∀ e q, e < ne → q < nip → 0 < det4 (X e) (Ξ q 0) (Ξ q 1) := fun e q he hq =>
    det_pos (hX e he) (hΞ q 0 hq (by omega)).1 (hΞ q 0 hq (by omega)).2 (hΞ q 1 hq (by omega)).1
      (hΞ q 1 hq (by omega)).2
  exact ⟨⟨_, C46_volume hQ, fun e q he hq => mul_pos (hW q hq) (hd e q he hq)⟩,
    fun e q he hq => (hd e q he hq).ne'⟩

/-- the trapezium of the example is strictly convex -/
example : ∀ e, e < 2 → Convex4 (exX e) := by
  intro e he
  interval_cases e <;> simp [Convex4, turn, exX] <;> norm_num

end ordered

variable {α : Type} [Field α] [CharZero α]
variable {td ne nip : Nat} {thick : α} {Ξ : Nat → Nat → α} {W : Nat → α} {Q : Quadrature α} {X : Nat → Nat → Nat → α}

/-! ### C47: mass matrix -/

theorem mass_live (hQ : Live td thick ne nip Ξ W Q X) (σ : Sched) {r : Ten α} {R} (hr : Is2 r ne nip R) {V}
    (hV : Is2 Q.vol ne nip V) :
    IsOk (Int_N_scalar_NT_dV Q σ r) fun t => ∃ M, Is3 t ne 8 8 M ∧
      ∀ e m n i j, e < ne → m < 4 → n < 4 → i < 2 → j < 2 → M e (m * 2 + i) (n * 2 + j) =
        if i = j then ∑ q ∈ range nip, N4 m (Ξ q 0) (Ξ q 1) * R e q * N4 n (Ξ q 0) (Ξ q 1) * V e q else 0 := by
  have h := (live_holds hQ).1
  obtain ⟨t, h1, h2, h3⟩ := mass_ok h.N_is hV σ hr (Ten.empty Q.shape_elemmat) (by
    simp [Ten.empty, Quadrature.shape_elemmat, h.ne_eq, h.nne_eq, h.nd_eq])
  refine ⟨t, by rw [Int_N_scalar_NT_dV, h.ne_eq, h.nip_eq]; exact h1,
    fun e a b => if a % 2 = b % 2 then ∑ q ∈ range nip,
      N4 (a / 2) (Ξ q 0) (Ξ q 1) * R e q * N4 (b / 2) (Ξ q 0) (Ξ q 1) * V e q else 0, ⟨h2, fun e a b he ha hb => ?_⟩, ?_⟩
  · have := h3 e (a / 2) (b / 2) (a % 2) (b % 2) he (by omega) (by omega) (by omega) (by omega)
    rw [show a / 2 * 2 + a % 2 = a by omega, show b / 2 * 2 + b % 2 = b by omega] at this
    exact this
  · intro e m n i j he hm hn hi hj
    have e1 : (m * 2 + i) / 2 = m := by omega
    have e2 : (n * 2 + j) / 2 = n := by omega
    have e3 : (m * 2 + i) % 2 = i := by omega
    have e4 : (n * 2 + j) % 2 = j := by omega
    simp only [e1, e2, e3, e4]

/-- **C47** (mass matrix, 2-d and planar class): `Int_N_scalar_NT_dV` gives, for every density, symmetric matrices
without coupling between the components, whose entries add up per component to the total mass, and whose quadratic
form is twice the kinetic energy of the interpolated velocity field. -/
theorem C47_mass (hQ : Live td thick ne nip Ξ W Q X) (σ : Sched) {r : Ten α} {R} (hr : Is2 r ne nip R) :
    ∃ V, Is2 Q.vol ne nip V ∧ IsOk (Int_N_scalar_NT_dV Q σ r) fun t => ∃ M, Is3 t ne 8 8 M ∧
      MassLaws 4 2 ne nip (fun q m => N4 m (Ξ q 0) (Ξ q 1)) R V M := by
  refine ⟨_, (live_holds hQ).1.V_is, ?_⟩
  obtain ⟨t, h1, M, h2, h3⟩ := mass_live hQ σ hr (live_holds hQ).1.V_is
  exact ⟨t, h1, M, h2, massLaws h3 fun q _ => N4_sum _ _⟩

/-- **C47** (positive semi-definite): for non-negative densities and volumes. -/
theorem C47_mass_psd {α : Type} [Field α] [LinearOrder α] [IsStrictOrderedRing α] {td ne nip : Nat} {thick : α}
    {Ξ : Nat → Nat → α} {W : Nat → α} {Q : Quadrature α} {X}
    (hQ : Live td thick ne nip Ξ W Q X) (σ : Sched) {r : Ten α} {R} (hr : Is2 r ne nip R)
    (hR : ∀ e q, e < ne → q < nip → 0 ≤ R e q) {V} (hV : Is2 Q.vol ne nip V)
    (hV0 : ∀ e q, e < ne → q < nip → 0 ≤ V e q) :
    IsOk (Int_N_scalar_NT_dV Q σ r) fun t => ∃ M, Is3 t ne 8 8 M ∧
      ∀ e, e < ne → ∀ v : Nat → α, 0 ≤ ∑ m ∈ range 4, ∑ i ∈ range 2, ∑ n ∈ range 4, ∑ j ∈ range 2,
        v (m * 2 + i) * M e (m * 2 + i) (n * 2 + j) * v (n * 2 + j) := by
  obtain ⟨t, h1, M, h2, h3⟩ := mass_live hQ σ hr hV
  exact ⟨t, h1, M, h2, fun e he v => massLaws_psd (massLaws h3 fun q _ => N4_sum _ _) hR hV0 he v⟩

/-- **C47** (nodal rule): with the rule `Nodal` the mass matrix is diagonal, with on the diagonal, for both components of
node `m`, the density times the volume of integration point `m`. -/
theorem C47_mass_nodal (σ τ : Sched) {x r : Ten α} {X R} (hx : Is3 x ne 4 2 X) (hr : Is2 r ne 4 R) :
    ∃ V, IsOk (do let xi ← Nodal.xi; let w ← Nodal.w; new σ x xi w) fun Q => Is2 Q.vol ne 4 V ∧
      IsOk (Int_N_scalar_NT_dV Q τ r) fun t => ∃ M, Is3 t ne 8 8 M ∧
        (∀ e a b, e < ne → a < 8 → b < 8 → a ≠ b → M e a b = 0) ∧
        ∀ e m i, e < ne → m < 4 → i < 2 → M e (m * 2 + i) (m * 2 + i) = R e m * V e m := by
  obtain ⟨xi, h1, h2⟩ := nodal_ok (α := α)
  obtain ⟨w, h3, h4⟩ := (weights_ok (α := α)).2
  obtain ⟨Q, h5, h6⟩ := C53_constructor σ hx h2 h4
  refine ⟨_, Q, by simp only [h1, h3, h5, Res.ok_bind], C46_volume h6, ?_⟩
  obtain ⟨t, h7, M, h8, h9⟩ := mass_live h6 τ hr (C46_volume h6)
  have hN : ∀ m n, m < 4 → n < 4 → N4 m (1 * corner4 n 0 : α) (1 * corner4 n 1) = if m = n then 1 else 0 := by
    intro m n hm hn
    rw [one_mul, one_mul, N4_corner hm hn]
  refine ⟨t, h7, M, h8, ?_, ?_⟩
  · intro e a b he ha hb hab
    have := h9 e (a / 2) (b / 2) (a % 2) (b % 2) he (by omega) (by omega) (by omega) (by omega)
    rw [show a / 2 * 2 + a % 2 = a by omega, show b / 2 * 2 + b % 2 = b by omega] at this
    rw [this]
    split
    · refine sum_eq_zero fun q hq => ?_
      rw [mem_range] at hq
      rw [hN _ q (by omega) hq, hN _ q (by omega) hq]
      by_cases c1 : a / 2 = q
      · rw [if_neg (show b / 2 ≠ q by omega)]; ring
      · rw [if_neg c1]; ring
    · rfl
  · intro e m i he hm hi
    rw [h9 e m m i i he hm hm hi hi, if_pos rfl, sum_eq_single m]
    · rw [hN m m hm hm, if_pos rfl]; ring
    · intro q hq hne
      rw [hN m q hm (mem_range.1 hq), if_neg (Ne.symm hne)]; ring
    · intro h; exact absurd (mem_range.2 hm) h

/-! ### C54: body forces -/

/-- **C54** (`Int_N_vector_dV`): for every number of components, the element forces are the integrals of the shape
functions times the given density; added over the nodes of an element they give the total. -/
theorem C54_body_force (hQ : Live td thick ne nip Ξ W Q X) (σ : Sched) {b : Ten α} {n : Nat} {B}
    (hb : Is3 b ne nip n B) :
    ∃ V, Is2 Q.vol ne nip V ∧ IsOk (Q.Int_N_vector_dV σ b) fun t => ∃ F, Is3 t ne 4 n F ∧
      (∀ e m i, e < ne → m < 4 → i < n →
        F e m i = ∑ q ∈ range nip, N4 m (Ξ q 0) (Ξ q 1) * B e q i * V e q) ∧
      ∀ e i, e < ne → i < n → ∑ m ∈ range 4, F e m i = ∑ q ∈ range nip, B e q i * V e q := by
  have h := (live_holds hQ).1
  refine ⟨_, h.V_is, ?_⟩
  obtain ⟨t, h1, h2⟩ := intNvector_generic h σ hb (Ten.empty (Q.shape_elemvec_n n)) (by
    simp [Ten.empty, Quadrature.shape_elemvec_n, h.ne_eq, h.nne_eq])
  refine ⟨t, by rw [Quadrature.Int_N_vector_dV, hb.1]; exact h1, _, h2, fun _ _ _ _ _ _ => rfl,
    fun e i he hi => ?_⟩
  rw [sum_comm]
  refine sum_congr rfl fun q _ => ?_
  rw [← sum_mul, ← sum_mul, N4_sum, one_mul]

/-! ### C48: internal force -/

theorem force_live (hQ : Live td thick ne nip Ξ W Q X) (htd : 2 ≤ td) (σ : Sched) {s : Ten α} {S}
    (hs : Is4 s ne nip td td S) {V} (hV : Is2 Q.vol ne nip V) :
    IsOk (Int_gradN_dot_tensor2_dV Q σ s) fun t =>
      Is3 t ne 4 2 fun e m j => ∑ q ∈ range nip, (∑ i ∈ range 2, Gf (D4 Ξ) X e q m i * S e q i j) * V e q := by
  have h := (live_holds hQ).1
  have h' : Holds Q 4 2 td ne nip _ (Gf (D4 Ξ) X) V :=
    ⟨h.nne_eq, h.nd_eq, h.td_eq, h.ne_eq, h.nip_eq, h.N_is, h.G_is, hV⟩
  exact force_ok h' htd σ hs (Ten.empty Q.shape_elemvec) (by
    simp [Ten.empty, Quadrature.shape_elemvec, h.ne_eq, h.nne_eq, h.nd_eq])

/-- **C48** (internal force): for every stress field and every element geometry the nodal forces of
`Int_gradN_dot_tensor2_dV` add up to zero, and their power on any nodal velocities equals the integral of the stress
power computed with `GradN_vector` (virtual work). -/
theorem C48_internal_force (hQ : Live 2 1 ne nip Ξ W Q X) (σ τ : Sched) {s v : Ten α} {S v'}
    (hs : Is4 s ne nip 2 2 S) (hv : Is3 v ne 4 2 v') :
    ∃ V F g, Is2 Q.vol ne nip V ∧
      IsOk (Int_gradN_dot_tensor2_dV Q σ s) (fun t => Is3 t ne 4 2 F) ∧
      IsOk (GradN_vector Q τ v) (fun t => Is4 t ne nip 2 2 g) ∧
      (∀ e j, e < ne → j < 2 → ∑ m ∈ range 4, F e m j = 0) ∧
      ∀ e, e < ne → ∑ m ∈ range 4, ∑ j ∈ range 2, F e m j * v' e m j =
        ∑ q ∈ range nip, power 2 (S e q) (g e q) * V e q := by
  refine ⟨_, _, _, (live_holds hQ).1.V_is, force_live hQ (le_refl 2) σ hs (live_holds hQ).1.V_is,
    GradN_ok hQ τ hv, ?_, ?_⟩
  · intro e j _ _
    exact equilibrium (nne := 4) (nd := 2) (nip := nip) (G := Gf (D4 Ξ) X) (S := S) (e := e)
      (V := fun e q => W q * detf (Jf (D4 Ξ) X e q) * 1) (fun q i _ _ => G_sum Ξ X e q i) j
  · intro e _
    exact virtual_work (nne := 4) (nd := 2) (nip := nip) (G := Gf (D4 Ξ) X) (S := S)
      (V := fun e q => W q * detf (Jf (D4 Ξ) X e q) * 1) (U := v') e

/-- **C48** (moments): for a symmetric stress and non-zero Jacobian determinants the resulting moment of the nodal
forces of an element is zero. -/
theorem C48_moment (hQ : Live 2 1 ne nip Ξ W Q X) (σ : Sched) {s : Ten α} {S}
    (hdet : ∀ e q, e < ne → q < nip → det4 (X e) (Ξ q 0) (Ξ q 1) ≠ 0)
    (hs : Is4 s ne nip 2 2 S) (hsym : ∀ e q, e < ne → q < nip → S e q 0 1 = S e q 1 0) :
    ∃ F, IsOk (Int_gradN_dot_tensor2_dV Q σ s) (fun t => Is3 t ne 4 2 F) ∧
      ∀ e, e < ne → ∑ m ∈ range 4, (X e m 0 * F e m 1 - X e m 1 * F e m 0) = 0 := by
  refine ⟨_, force_live hQ (le_refl 2) σ hs (live_holds hQ).1.V_is, fun e he => ?_⟩
  have h := virtual_work (nne := 4) (nd := 2) (nip := nip) (G := Gf (D4 Ξ) X) (S := S)
    (V := fun e q => W q * detf (Jf (D4 Ξ) X e q) * 1)
    (U := fun e m j => if j = 0 then - X e m 1 else X e m 0) e
  have h2 : ∀ q ∈ range nip, (∑ i ∈ range 2, ∑ j ∈ range 2, S e q i j *
      grad 4 (Gf (D4 Ξ) X) (fun e m j => if j = 0 then - X e m 1 else X e m 0) e q i j) *
        (W q * detf (Jf (D4 Ξ) X e q) * 1) = 0 := by
    intro q hq
    rw [mem_range] at hq
    have hA : AffineField 2 4 ne X (fun e m j => if j = 0 then - X e m 1 else X e m 0)
        (fun j k => if j = 0 then (if k = 0 then 0 else -1) else (if k = 0 then 1 else 0)) (fun _ => 0) := by
      intro e m j _ _ hj
      interval_cases j <;> simp [sum_range_succ]
    have hg := fun i j hi hj => grad_affine hA he (hdet e q he hq) (i := i) (j := j) hi hj
    simp only [sum_range_succ, sum_range_zero, zero_add]
    rw [hg 0 0 (by omega) (by omega), hg 0 1 (by omega) (by omega), hg 1 0 (by omega) (by omega),
      hg 1 1 (by omega) (by omega), hsym e q he hq]
    simp
  rw [sum_eq_zero h2] at h
  rw [← h]
  refine sum_congr rfl fun m _ => ?_
  simp only [sum_range_succ (n := 1), sum_range_succ (n := 0), sum_range_zero, if_true, if_neg one_ne_zero]
  ring

/-! ### C49: stiffness -/

theorem stiff_live (hQ : Live td thick ne nip Ξ W Q X) (htd : 2 ≤ td) (σ : Sched) {c : Ten α} {C}
    (hc : Is6 c ne nip td td td td C) {V} (hV : Is2 Q.vol ne nip V) :
    IsOk (Q.Int_gradN_dot_tensor4_dot_gradNT_dV σ c) fun t => ∃ K, Is3 t ne 8 8 K ∧
      ∀ e m j n k, e < ne → m < 4 → n < 4 → j < 2 → k < 2 →
        K e (m * 2 + j) (n * 2 + k) = Kf 2 nip (Gf (D4 Ξ) X) C V e m j n k := by
  have h := (live_holds hQ).1
  have h' : Holds Q 4 2 td ne nip _ (Gf (D4 Ξ) X) V :=
    ⟨h.nne_eq, h.nd_eq, h.td_eq, h.ne_eq, h.nip_eq, h.N_is, h.G_is, hV⟩
  obtain ⟨t, h1, h2, h3⟩ := stiffness_generic h' htd σ hc (Ten.empty Q.shape_elemmat) (by
    simp [Ten.empty, Quadrature.shape_elemmat, h.ne_eq, h.nne_eq, h.nd_eq])
  refine ⟨t, h1, fun e a b => Kf 2 nip (Gf (D4 Ξ) X) C V e (a / 2) (a % 2) (b / 2) (b % 2),
    ⟨h2, fun e a b he ha hb => ?_⟩, ?_⟩
  · have := h3 e (a / 2) (b / 2) (a % 2) (b % 2) he (by omega) (by omega) (by omega) (by omega)
    rw [show a / 2 * 2 + a % 2 = a by omega, show b / 2 * 2 + b % 2 = b by omega] at this
    exact this
  · intro e m j n k he hm hn hj hk
    have e1 : (m * 2 + j) / 2 = m := by omega
    have e2 : (n * 2 + k) / 2 = n := by omega
    have e3 : (m * 2 + j) % 2 = j := by omega
    have e4 : (n * 2 + k) % 2 = k := by omega
    simp only [e1, e2, e3, e4]

/-- **C49** (linearisation): the matrix of `Int_gradN_dot_tensor4_dot_gradNT_dV`, applied to nodal displacements, gives
exactly the internal force of the stress `C : grad u`, with `grad u` as computed by `GradN_vector`; moreover it is
symmetric for a tangent with major and minor symmetry, and gives no force for rigid translations. -/
theorem C49_stiffness (hQ : Live 2 1 ne nip Ξ W Q X) (σ τ ρ : Sched) {c u s : Ten α} {C U}
    (hc : Is6 c ne nip 2 2 2 2 C) (hu : Is3 u ne 4 2 U) {g S}
    (hg : IsOk (GradN_vector Q τ u) fun t => Is4 t ne nip 2 2 g)
    (hs : Is4 s ne nip 2 2 S)
    (hS : ∀ e q i j, e < ne → q < nip → i < 2 → j < 2 → S e q i j = ddot 2 (C e q) (g e q) i j) :
    ∃ K F, IsOk (Q.Int_gradN_dot_tensor4_dot_gradNT_dV σ c) (fun t => Is3 t ne 8 8 K) ∧
      IsOk (Int_gradN_dot_tensor2_dV Q ρ s) (fun t => Is3 t ne 4 2 F) ∧
      (∀ e m j, e < ne → m < 4 → j < 2 →
        ∑ n ∈ range 4, ∑ k ∈ range 2, K e (m * 2 + j) (n * 2 + k) * U e n k = F e m j) ∧
      StiffLaws 4 2 ne nip C K := by
  have hV := (live_holds hQ).1.V_is
  obtain ⟨t, h1, K, h2, h3⟩ := stiff_live hQ (le_refl 2) σ hc hV
  refine ⟨K, _, ⟨t, h1, h2⟩, force_live hQ (le_refl 2) ρ hs hV, ?_,
    stiffLaws h3 fun e q i _ _ _ => G_sum _ _ _ _ _⟩
  intro e m j he hm hj
  obtain ⟨tg, hg1, hg2⟩ := hg
  obtain ⟨tg', hg1', hg2'⟩ := GradN_ok hQ τ hu
  rw [hg1] at hg1'
  cases hg1'
  have hgg : ∀ e q i j, e < ne → q < nip → i < 2 → j < 2 → g e q i j = grad 4 (Gf (D4 Ξ) X) U e q i j :=
    fun e q i j he hq hi hj => hg2.unique hg2' he hq hi hj
  rw [sum_congr rfl fun n hn => sum_congr rfl fun k hk => by
    rw [h3 e m j n k he hm (mem_range.1 hn) hj (mem_range.1 hk)], ← stiff_linear]
  refine sum_congr rfl fun q hq => ?_
  rw [mem_range] at hq
  congr 1
  refine sum_congr rfl fun i hi => ?_
  rw [mem_range] at hi
  rw [hS e q i j he hq hi hj, ddot]
  congr 1
  refine sum_congr rfl fun k hk => sum_congr rfl fun l hl => ?_
  rw [hgg e q l k he hq (mem_range.1 hl) (mem_range.1 hk)]

/-- **C49** (symmetry): the usual major and minor symmetries of a stiffness tensor imply the one used in `StiffLaws`, so
the element matrices are symmetric. -/
theorem C49_symmetry {C : Nat → Nat → Nat → Nat → Nat → Nat → α} {K : Nat → Nat → Nat → α}
    (hK : StiffLaws 4 2 ne nip C K)
    (major : ∀ e q i j k l, e < ne → q < nip → i < 2 → j < 2 → k < 2 → l < 2 → C e q i j k l = C e q k l i j)
    (left : ∀ e q i j k l, e < ne → q < nip → i < 2 → j < 2 → k < 2 → l < 2 → C e q i j k l = C e q j i k l)
    (right : ∀ e q i j k l, e < ne → q < nip → i < 2 → j < 2 → k < 2 → l < 2 → C e q i j k l = C e q i j l k) :
    ∀ e a b, e < ne → a < 8 → b < 8 → K e a b = K e b a :=
  hK.symm fun e q i j k l he hq hi hj hk hl => by
    rw [left e q i j k l he hq hi hj hk hl, right e q j i k l he hq hj hi hk hl,
      major e q j i l k he hq hj hi hl hk]

/-- **C49** (rigid rotations): an infinitesimal rotation (with translation) gives no force when the tangent has minor
symmetry in its last two indices. -/
theorem C49_rotation (hQ : Live 2 1 ne nip Ξ W Q X) (σ : Sched) {c : Ten α} {C}
    (hc : Is6 c ne nip 2 2 2 2 C)
    (hdet : ∀ e q, e < ne → q < nip → det4 (X e) (Ξ q 0) (Ξ q 1) ≠ 0)
    (right : ∀ e q i j k l, e < ne → q < nip → i < 2 → j < 2 → k < 2 → l < 2 → C e q i j k l = C e q i j l k) :
    ∃ K, IsOk (Q.Int_gradN_dot_tensor4_dot_gradNT_dV σ c) (fun t => Is3 t ne 8 8 K) ∧
      ∀ (θ b₀ b₁ : α) e m j, e < ne → m < 4 → j < 2 →
        ∑ n ∈ range 4, (K e (m * 2 + j) (n * 2 + 0) * (b₀ - θ * X e n 1) +
          K e (m * 2 + j) (n * 2 + 1) * (b₁ + θ * X e n 0)) = 0 := by
  obtain ⟨t, h1, K, h2, h3⟩ := stiff_live hQ (le_refl 2) σ hc (live_holds hQ).1.V_is
  refine ⟨K, ⟨t, h1, h2⟩, fun θ b₀ b₁ e m j he hm hj => ?_⟩
  have hA : AffineField 2 4 ne X (fun e m j => if j = 0 then b₀ - θ * X e m 1 else b₁ + θ * X e m 0)
      (fun j k => if j = 0 then (if k = 0 then 0 else -θ) else (if k = 0 then θ else 0))
      (fun j => if j = 0 then b₀ else b₁) := by
    intro e m j _ _ hj
    interval_cases j <;> simp [sum_range_succ, sub_eq_add_neg]
  have hl := stiff_linear (nne := 4) (nd := 2) (nip := nip) (G := Gf (D4 Ξ) X) (C := C)
    (V := fun e q => W q * detf (Jf (D4 Ξ) X e q) * 1)
    (U := fun e m j => if j = 0 then b₀ - θ * X e m 1 else b₁ + θ * X e m 0) e m j
  have hr : ∑ n ∈ range 4, (K e (m * 2 + j) (n * 2 + 0) * (b₀ - θ * X e n 1) +
      K e (m * 2 + j) (n * 2 + 1) * (b₁ + θ * X e n 0)) =
      ∑ n ∈ range 4, ∑ k ∈ range 2, Kf 2 nip (Gf (D4 Ξ) X) C
        (fun e q => W q * detf (Jf (D4 Ξ) X e q) * 1) e m j n k *
        (fun e m j => if j = 0 then b₀ - θ * X e m 1 else b₁ + θ * X e m 0) e n k := by
    refine sum_congr rfl fun n hn => ?_
    rw [mem_range] at hn
    rw [h3 e m j n 0 he hm hn hj (by omega), h3 e m j n 1 he hm hn hj (by omega)]
    simp only [sum_range_succ (n := 1), sum_range_succ (n := 0), sum_range_zero, if_true, if_neg one_ne_zero,
      zero_add]
  rw [hr, ← hl]
  refine sum_eq_zero fun q hq => ?_
  rw [mem_range] at hq
  rw [sum_eq_zero, zero_mul]
  intro i hi
  rw [mem_range] at hi
  have hg := fun i j hi hj => grad_affine hA he (hdet e q he hq) (i := i) (j := j) hi hj
  simp only [sum_range_succ (n := 1), sum_range_succ (n := 0), sum_range_zero, zero_add]
  rw [hg 0 0 (by omega) (by omega), hg 0 1 (by omega) (by omega), hg 1 0 (by omega) (by omega),
    hg 1 1 (by omega) (by omega), right e q i j 0 1 he hq hi hj (by omega) (by omega)]
  simp

/-- **C49** (energy): the stiffness is positive semi-definite when the tangent is and the volumes are
non-negative. -/
theorem C49_energy {α : Type} [Field α] [LinearOrder α] [IsStrictOrderedRing α] {ne nip : Nat}
    {Ξ : Nat → Nat → α} {W : Nat → α} {Q : Quadrature α} {X}
    (hQ : Live 2 1 ne nip Ξ W Q X) (σ : Sched) {c : Ten α} {C}
    (hc : Is6 c ne nip 2 2 2 2 C) {V} (hV : Is2 Q.vol ne nip V)
    (hV0 : ∀ e q, e < ne → q < nip → 0 ≤ V e q)
    (hC : ∀ e q, e < ne → q < nip → ∀ g : Nat → Nat → α,
      0 ≤ ∑ i ∈ range 2, ∑ j ∈ range 2, ddot 2 (C e q) g i j * g i j) :
    ∃ K, IsOk (Q.Int_gradN_dot_tensor4_dot_gradNT_dV σ c) (fun t => Is3 t ne 8 8 K) ∧
      ∀ e, e < ne → ∀ v : Nat → Nat → α, 0 ≤ ∑ m ∈ range 4, ∑ j ∈ range 2, (∑ n ∈ range 4, ∑ k ∈ range 2,
        K e (m * 2 + j) (n * 2 + k) * v n k) * v m j := by
  obtain ⟨t, h1, K, h2, h3⟩ := stiff_live hQ (le_refl 2) σ hc hV
  refine ⟨K, ⟨t, h1, h2⟩, fun e he v => ?_⟩
  have e1 : ∑ m ∈ range 4, ∑ j ∈ range 2, (∑ n ∈ range 4, ∑ k ∈ range 2,
        K e (m * 2 + j) (n * 2 + k) * v n k) * v m j =
      ∑ m ∈ range 4, ∑ j ∈ range 2, (∑ q ∈ range nip, (∑ i ∈ range 2, Gf (D4 Ξ) X e q m i *
        (ddot 2 (C e q) (grad 4 (Gf (D4 Ξ) X) (fun _ => v) e q) i j)) * V e q) * v m j := by
    refine sum_congr rfl fun m hm => sum_congr rfl fun j hj => ?_
    congr 1
    have := stiff_linear (nne := 4) (nd := 2) (nip := nip) (G := Gf (D4 Ξ) X) (C := C) (V := V)
      (U := fun _ => v) e m j
    simp only [ddot]
    rw [this]
    refine sum_congr rfl fun n hn => sum_congr rfl fun k hk => ?_
    rw [h3 e m j n k he (mem_range.1 hm) (mem_range.1 hn) (mem_range.1 hj) (mem_range.1 hk)]
  rw [e1, virtual_work (S := fun e q i j => ddot 2 (C e q) (grad 4 (Gf (D4 Ξ) X) (fun _ => v) e q) i j)
    (U := fun _ => v) e]
  refine sum_nonneg fun q hq => mul_nonneg ?_ (hV0 e q he (mem_range.1 hq))
  exact hC e q he (mem_range.1 hq) _

end GF.Element.Quad4
