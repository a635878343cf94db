import Verif.Lemmas.ElementHex8Ops
import Verif.Props.ElementQuad4Mech
import Mathlib.Analysis.SpecialFunctions.Integrals.Basic

/-!
# Properties C45, C55, C56: the eight-node element `Element::Hex8::Quadrature`

`Live ne nip Ξ W Q X` (Spec/ElementHistory.lean): `Q` is any object a user can have: constructed with integration
points `Ξ` and weights `W`, then updated (`update_x`) any number of times, with last coordinates `X`.
Everything below holds for every such history and every OpenMP schedule.
-/

namespace GF.Element.Hex8
open Finset ElemSpec Quad4

variable {α : Type} [Field α] [CharZero α]

/-! ### C55: construction, shape functions, rules, volumes -/

/-- **C55** (constructor): it succeeds on arrays of the right shape. -/
theorem C55_constructor (σ : Sched) {x xi w : Ten α} {ne nip : Nat} {X Ξ W} (hx : Is3 x ne 8 3 X)
    (hxi : Is2 xi nip 3 Ξ) (hw : Is1 w nip W) : IsOk (new σ x xi w) fun Q => Live ne nip Ξ W Q X := by
  obtain ⟨Q, h, -⟩ := new_ok hx hxi hw σ
  exact ⟨Q, h, .new hx hxi hw h⟩

/-- **C55** (history): after any number of updates the object holds the gradients and volumes of a fresh object with
the last coordinates. -/
theorem C55_update_history {ne nip : Nat} {Ξ : Nat → Nat → α} {W : Nat → α} {Q₀ : Quadrature α} {X₀}
    (h₀ : Live ne nip Ξ W Q₀ X₀) (hist : List (Sched × Ten α))
    (hh : ∀ p ∈ hist, ∃ X, Is3 p.2 ne 8 3 X) (τ σ : Sched) {x xi w : Ten α} {X} (hx : Is3 x ne 8 3 X)
    (hxi : Is2 xi nip 3 Ξ) (hw : Is1 w nip W) :
    IsOk (do
      let Q ← forEach hist (fun Q p => update_x p.1 Q p.2) Q₀
      update_x τ Q x) fun Q =>
      Live ne nip Ξ W Q X ∧
      ∃ Q' G V, new σ x xi w = .ok Q' ∧ Is4 Q.dNx ne nip 8 3 G ∧ Is4 Q'.dNx ne nip 8 3 G ∧
        Is2 Q.vol ne nip V ∧ Is2 Q'.vol ne nip V := by
  have key : ∀ (hist : List (Sched × Ten α)) (Q₀ : Quadrature α) X₀, Live ne nip Ξ W Q₀ X₀ →
      (∀ p ∈ hist, ∃ X, Is3 p.2 ne 8 3 X) →
      ∃ Q X, forEach hist (fun Q p => update_x p.1 Q p.2) Q₀ = .ok Q ∧ Live ne nip Ξ W Q X := by
    intro hist
    induction hist with
    | nil => intro Q₀ X₀ h _; exact ⟨Q₀, X₀, rfl, h⟩
    | cons p l ih =>
      intro Q₀ X₀ h hp
      obtain ⟨X', hX'⟩ := hp p (by simp)
      obtain ⟨Q', h1⟩ := update_ok h p.1 hX'
      obtain ⟨Q, X, h2, h3⟩ := ih Q' X' (.update h hX' h1) fun r hr => hp r (by simp [hr])
      exact ⟨Q, X, by rw [forEach, h1]; exact h2, h3⟩
  obtain ⟨Q, X', h1, h2⟩ := key hist Q₀ X₀ h₀ hh
  obtain ⟨Q₁, h3⟩ := update_ok h2 τ hx
  obtain ⟨Q', h4, h5⟩ := C55_constructor σ hx hxi hw
  have h6 : Live ne nip Ξ W Q₁ X := .update h2 hx h3
  exact ⟨Q₁, by rw [h1, Res.ok_bind, h3], h6, Q', _, _, h4, (live_holds h6).1.G_is,
    (live_holds h5).1.G_is, (live_holds h6).1.V_is, (live_holds h5).1.V_is⟩

variable {ne nip : Nat} {Ξ : Nat → Nat → α} {W : Nat → α} {Q : Quadrature α} {X : Nat → Nat → Nat → α}

/-- **C55** (shape functions): the stored shape functions are the trilinear functions of the reference cube at the
integration points: one at their own corner and zero at the others, adding up to one everywhere. -/
theorem C55_shape_functions (hQ : Live ne nip Ξ W Q X) :
    ∃ N : Nat → α → α → α → α, Is2 Q.N nip 8 (fun q m => N m (Ξ q 0) (Ξ q 1) (Ξ q 2)) ∧
      (∀ m n, m < 8 → n < 8 → N m (corner8 n 0) (corner8 n 1) (corner8 n 2) = if m = n then 1 else 0) ∧
      (∀ ξ η ζ, ∑ m ∈ range 8, N m ξ η ζ = 1) ∧
      (∀ m, ∃ a : Nat → α, ∀ ξ η ζ, N m ξ η ζ = a 0 + a 1 * ξ + a 2 * η + a 3 * ζ + a 4 * (ξ * η) + a 5 * (η * ζ) +
        a 6 * (ξ * ζ) + a 7 * (ξ * η * ζ)) := by
  refine ⟨N8, (live_holds hQ).1.N_is, fun m n hm hn => N8_corner hm hn, N8_sum, fun m => ?_⟩
  refine ⟨fun k => match k with
    | 0 => 1 / 8 | 1 => corner8 m 0 / 8 | 2 => corner8 m 1 / 8 | 3 => corner8 m 2 / 8
    | 4 => corner8 m 0 * corner8 m 1 / 8 | 5 => corner8 m 1 * corner8 m 2 / 8
    | 6 => corner8 m 0 * corner8 m 2 / 8 | _ => corner8 m 0 * corner8 m 1 * corner8 m 2 / 8, fun ξ η ζ => ?_⟩
  simp only [N8]
  ring

/-- **C55** (local gradients): the stored local gradients are the derivatives of these functions. -/
theorem C55_local_gradients (hQ : Live ne nip Ξ W Q X) :
    ∃ D : Nat → Nat → Nat → α, Is3 Q.dNxi nip 8 3 D ∧
      (∀ q m δ, N8 m (Ξ q 0 + δ) (Ξ q 1) (Ξ q 2) = N8 m (Ξ q 0) (Ξ q 1) (Ξ q 2) + D q m 0 * δ) ∧
      (∀ q m δ, N8 m (Ξ q 0) (Ξ q 1 + δ) (Ξ q 2) = N8 m (Ξ q 0) (Ξ q 1) (Ξ q 2) + D q m 1 * δ) ∧
      (∀ q m δ, N8 m (Ξ q 0) (Ξ q 1) (Ξ q 2 + δ) = N8 m (Ξ q 0) (Ξ q 1) (Ξ q 2) + D q m 2 * δ) ∧
      ∀ q i, ∑ m ∈ range 8, D q m i = 0 :=
  ⟨D8 Ξ, (live_holds hQ).2.1, fun _ _ _ => N8_deriv0 _ _ _ _ _, fun _ _ _ => N8_deriv1 _ _ _ _ _,
    fun _ _ _ => N8_deriv2 _ _ _ _ _, fun _ _ => D8_sum _ _ _⟩

/-- the rules of the library -/
theorem rule_ok (s : α) : ∃ t : Ten α, Gauss.xi s = .ok t ∧ Is2 t 8 3 (fun q i => s * corner8 q i) := by
  have H : IsSets [8, 3] (fun t : Ten α => Gauss.xiFill s t)
      ([([0, 0], -s)] ++
        ([([0, 1], -s)] ++
        ([([0, 2], -s)] ++
        ([([1, 0], s)] ++
        ([([1, 1], -s)] ++
        ([([1, 2], -s)] ++
        ([([2, 0], s)] ++
        ([([2, 1], s)] ++
        ([([2, 2], -s)] ++
        ([([3, 0], -s)] ++
        ([([3, 1], s)] ++
        ([([3, 2], -s)] ++
        ([([4, 0], -s)] ++
        ([([4, 1], -s)] ++
        ([([4, 2], s)] ++
        ([([5, 0], s)] ++
        ([([5, 1], -s)] ++
        ([([5, 2], s)] ++
        ([([6, 0], s)] ++
        ([([6, 1], s)] ++
        ([([6, 2], s)] ++
        ([([7, 0], -s)] ++
        ([([7, 1], s)] ++
        ([([7, 2], s)])))))))))))))))))))))))) := by
    unfold Gauss.xiFill
    iterate 23 refine isSets_seq (isSets_one _ _ _ _ fun _ _ => rfl) ?_ (fun _ _ => rfl)
    exact isSets_one _ _ _ _ fun _ _ => rfl
  obtain ⟨t, h1, h2, h3, -⟩ := H.spec
    (fun p => s * corner8 (p.getD 0 0) (p.getD 1 0)) (by
    simp only [List.mem_append, List.mem_singleton]
    rintro st (rfl | rfl | rfl | rfl | rfl | rfl | rfl | rfl | rfl | rfl | rfl | rfl | rfl | rfl | rfl | rfl | rfl | rfl | rfl | rfl | rfl | rfl | rfl | rfl) <;>
      exact ⟨by simp, by simp [corner8, corner4]⟩) (Ten.empty [8, 3]) rfl
  refine ⟨t, h1, h2, fun q m hq hm => ?_⟩
  rw [h3 [q, m] ?_]
  · rfl
  · interval_cases q <;> interval_cases m <;> simp

theorem nodal_ok : ∃ t : Ten α, Nodal.xi = .ok t ∧ Is2 t 8 3 (fun q i => 1 * corner8 q i) := by
  have H : IsSets [8, 3] (fun t : Ten α => Nodal.xiFill t)
      ([([0, 0], -1)] ++
        ([([0, 1], -1)] ++
        ([([0, 2], -1)] ++
        ([([1, 0], 1)] ++
        ([([1, 1], -1)] ++
        ([([1, 2], -1)] ++
        ([([2, 0], 1)] ++
        ([([2, 1], 1)] ++
        ([([2, 2], -1)] ++
        ([([3, 0], -1)] ++
        ([([3, 1], 1)] ++
        ([([3, 2], -1)] ++
        ([([4, 0], -1)] ++
        ([([4, 1], -1)] ++
        ([([4, 2], 1)] ++
        ([([5, 0], 1)] ++
        ([([5, 1], -1)] ++
        ([([5, 2], 1)] ++
        ([([6, 0], 1)] ++
        ([([6, 1], 1)] ++
        ([([6, 2], 1)] ++
        ([([7, 0], -1)] ++
        ([([7, 1], 1)] ++
        ([([7, 2], 1)])))))))))))))))))))))))) := by
    unfold Nodal.xiFill
    iterate 23 refine isSets_seq (isSets_one _ _ _ _ fun _ _ => rfl) ?_ (fun _ _ => rfl)
    exact isSets_one _ _ _ _ fun _ _ => rfl
  obtain ⟨t, h1, h2, h3, -⟩ := H.spec
    (fun p => 1 * corner8 (p.getD 0 0) (p.getD 1 0)) (by
    simp only [List.mem_append, List.mem_singleton]
    rintro st (rfl | rfl | rfl | rfl | rfl | rfl | rfl | rfl | rfl | rfl | rfl | rfl | rfl | rfl | rfl | rfl | rfl | rfl | rfl | rfl | rfl | rfl | rfl | rfl) <;>
      exact ⟨by simp, by simp [corner8, corner4]⟩) (Ten.empty [8, 3]) rfl
  refine ⟨t, h1, h2, fun q m hq hm => ?_⟩
  rw [h3 [q, m] ?_]
  · rfl
  · interval_cases q <;> interval_cases m <;> simp

theorem weights_ok : (∃ t : Ten α, Gauss.w = .ok t ∧ Is1 t 8 (fun _ => 1)) ∧
    (∃ t : Ten α, Nodal.w = .ok t ∧ Is1 t 8 (fun _ => 1)) := by
  refine ⟨⟨_, rfl, rfl, fun i hi => ?_⟩, ⟨_, rfl, rfl, fun i hi => ?_⟩⟩ <;>
  · interval_cases i <;> simp [Function.update]

/-- the Gauss constructor -/
theorem newGauss_ok (s : α) (σ : Sched) {x : Ten α} (hx : Is3 x ne 8 3 X) :
    IsOk (newGauss s σ x) fun Q => Live ne 8 (fun q i => s * corner8 q i) (fun _ => 1) Q X := by
  obtain ⟨xi, h1, h2⟩ := rule_ok s
  obtain ⟨w, h3, h4⟩ := (weights_ok (α := α)).1
  obtain ⟨Q, h5, h6⟩ := C55_constructor σ hx h2 h4
  exact ⟨Q, by simp only [newGauss, h1, h3, h5, Res.ok_bind], h6⟩

/-- **C55** (volumes): the volume of an integration point is its weight times the Jacobian determinant. -/
theorem C55_volume (hQ : Live ne nip Ξ W Q X) :
    Is2 Q.vol ne nip fun e q => W q * det8 (X e) (Ξ q 0) (Ξ q 1) (Ξ q 2) :=
  (live_holds hQ).1.V_is.congr fun e q _ _ => by rw [dt3_det8]

/-- **C55** (parallelepipeds): for an element with edge vectors `2 H k` the Gauss volumes add up to the
volume `8 det H`, whatever the position `s` of the points. -/
theorem C55_parallelepiped (s : α) (σ : Sched) {x : Ten α} (hx : Is3 x ne 8 3 X) {c : Nat → Nat → α}
    {H : Nat → Nat → Nat → α}
    (hX : ∀ e m j, e < ne → m < 8 → j < 3 → X e m j = c e j + ∑ k ∈ range 3, H e k j * corner8 m k) :
    IsOk (newGauss s σ x) fun Q => ∃ V, Is2 Q.vol ne 8 V ∧
      ∀ e, e < ne → ∑ q ∈ range 8, V e q = 8 * matDet3 (H e) := by
  obtain ⟨Q, h1, h2⟩ := newGauss_ok s σ hx
  refine ⟨Q, h1, _, C55_volume h2, fun e he => ?_⟩
  have hJ : ∀ i j, i < 3 → j < 3 → ∀ ξ η ζ, jac8 (X e) ξ η ζ i j = H e i j := fun i j hi hj ξ η ζ =>
    jac8_parallelepiped (c := c e) (H := H e) (fun m hm => hX e m j he hm hj) hi ξ η ζ
  have : ∀ q ∈ range 8, (1 : α) * det8 (X e) (s * corner8 q 0) (s * corner8 q 1) (s * corner8 q 2) =
      matDet3 (H e) := by
    intro q _
    rw [one_mul, det8, matDet3, matDet3]
    simp only [hJ 0 0 (by omega) (by omega), hJ 0 1 (by omega) (by omega), hJ 0 2 (by omega) (by omega),
      hJ 1 0 (by omega) (by omega), hJ 1 1 (by omega) (by omega), hJ 1 2 (by omega) (by omega),
      hJ 2 0 (by omega) (by omega), hJ 2 1 (by omega) (by omega), hJ 2 2 (by omega) (by omega)]
  rw [sum_congr rfl this, sum_const, card_range, nsmul_eq_mul]
  norm_num

/-! Gauss integration of the determinant over the reference cube. -/

theorem jac8_affine0 (X : Nat → Nat → α) (ξ η ζ : α) (i j : Nat) :
    jac8 X ξ η ζ i j = jac8 X 0 η ζ i j + ξ * (jac8 X 1 η ζ i j - jac8 X 0 η ζ i j) := by
  simp only [jac8, part3_map8]
  rw [← sum_sub_distrib, mul_sum, ← sum_add_distrib]
  refine sum_congr rfl fun m _ => ?_
  simp only [part3, N8]
  split
  · ring
  · split <;> ring

theorem jac8_affine1 (X : Nat → Nat → α) (ξ η ζ : α) (i j : Nat) :
    jac8 X ξ η ζ i j = jac8 X ξ 0 ζ i j + η * (jac8 X ξ 1 ζ i j - jac8 X ξ 0 ζ i j) := by
  simp only [jac8, part3_map8]
  rw [← sum_sub_distrib, mul_sum, ← sum_add_distrib]
  refine sum_congr rfl fun m _ => ?_
  simp only [part3, N8]
  split
  · ring
  · split <;> ring

theorem jac8_affine2 (X : Nat → Nat → α) (ξ η ζ : α) (i j : Nat) :
    jac8 X ξ η ζ i j = jac8 X ξ η 0 i j + ζ * (jac8 X ξ η 1 i j - jac8 X ξ η 0 i j) := by
  simp only [jac8, part3_map8]
  rw [← sum_sub_distrib, mul_sum, ← sum_add_distrib]
  refine sum_congr rfl fun m _ => ?_
  simp only [part3, N8]
  split
  · ring
  · split <;> ring

theorem jac8_const0 (X : Nat → Nat → α) (ξ η ζ : α) (j : Nat) : jac8 X ξ η ζ 0 j = jac8 X 0 η ζ 0 j := by
  simp only [jac8, part3_map8]
  refine sum_congr rfl fun m _ => ?_
  simp only [part3, N8, if_true]
  ring

theorem jac8_const1 (X : Nat → Nat → α) (ξ η ζ : α) (j : Nat) : jac8 X ξ η ζ 1 j = jac8 X ξ 0 ζ 1 j := by
  simp only [jac8, part3_map8]
  refine sum_congr rfl fun m _ => ?_
  simp only [part3, N8, if_true, if_neg one_ne_zero]
  ring

theorem jac8_const2 (X : Nat → Nat → α) (ξ η ζ : α) (j : Nat) : jac8 X ξ η ζ 2 j = jac8 X ξ η 0 2 j := by
  simp only [jac8, part3_map8]
  refine sum_congr rfl fun m _ => ?_
  simp only [part3, N8, if_neg two_ne_zero, if_neg (show (2 : ℕ) ≠ 1 by decide)]
  ring

/-- polynomial of degree at most two -/
def Quad (f : α → α) : Prop := ∃ a b c, ∀ x, f x = a + b * x + c * (x * x)

omit [CharZero α] in
theorem Quad.add {f g : α → α} (hf : Quad f) (hg : Quad g) : Quad fun x => f x + g x := by
  obtain ⟨a, b, c, h⟩ := hf
  obtain ⟨a', b', c', h'⟩ := hg
  exact ⟨a + a', b + b', c + c', fun x => by beta_reduce; rw [h, h']; ring⟩

/-- product of a constant and two affine functions, antisymmetrised: the shape of a 3 x 3 determinant -/
theorem det8_quad0 (X : Nat → Nat → α) (η ζ : α) : Quad fun ξ => det8 X ξ η ζ := by
  refine ⟨?a, ?b, ?c, fun ξ => ?_⟩
  case a => exact det8 X 0 η ζ
  case c => exact matDet3 fun i j => if i = 0 then jac8 X 0 η ζ 0 j else jac8 X 1 η ζ i j - jac8 X 0 η ζ i j
  case b => exact (matDet3 fun i j => if i = 0 then jac8 X 0 η ζ 0 j else if i = 1 then jac8 X 0 η ζ 1 j else
                jac8 X 1 η ζ 2 j - jac8 X 0 η ζ 2 j) +
              (matDet3 fun i j => if i = 0 then jac8 X 0 η ζ 0 j else if i = 2 then jac8 X 0 η ζ 2 j else
                jac8 X 1 η ζ 1 j - jac8 X 0 η ζ 1 j)
  simp only [det8, matDet3, jac8_const0 X ξ]
  rw [jac8_affine0 X ξ η ζ 1 0, jac8_affine0 X ξ η ζ 1 1, jac8_affine0 X ξ η ζ 1 2, jac8_affine0 X ξ η ζ 2 0,
    jac8_affine0 X ξ η ζ 2 1, jac8_affine0 X ξ η ζ 2 2]
  simp only [if_true, if_neg one_ne_zero, if_neg two_ne_zero, if_neg (show (2 : ℕ) ≠ 1 by decide),
    if_neg (show (1 : ℕ) ≠ 2 by decide)]
  ring

theorem det8_quad1 (X : Nat → Nat → α) (ξ ζ : α) : Quad fun η => det8 X ξ η ζ := by
  refine ⟨?a, ?b, ?c, fun η => ?_⟩
  case a => exact det8 X ξ 0 ζ
  case c => exact matDet3 fun i j => if i = 1 then jac8 X ξ 0 ζ 1 j else jac8 X ξ 1 ζ i j - jac8 X ξ 0 ζ i j
  case b => exact (matDet3 fun i j => if i = 1 then jac8 X ξ 0 ζ 1 j else if i = 0 then jac8 X ξ 0 ζ 0 j else
                jac8 X ξ 1 ζ 2 j - jac8 X ξ 0 ζ 2 j) +
              (matDet3 fun i j => if i = 1 then jac8 X ξ 0 ζ 1 j else if i = 2 then jac8 X ξ 0 ζ 2 j else
                jac8 X ξ 1 ζ 0 j - jac8 X ξ 0 ζ 0 j)
  simp only [det8, matDet3, jac8_const1 X ξ η]
  rw [jac8_affine1 X ξ η ζ 0 0, jac8_affine1 X ξ η ζ 0 1, jac8_affine1 X ξ η ζ 0 2, jac8_affine1 X ξ η ζ 2 0,
    jac8_affine1 X ξ η ζ 2 1, jac8_affine1 X ξ η ζ 2 2]
  simp only [if_true, if_neg one_ne_zero, if_neg two_ne_zero, if_neg (show (2 : ℕ) ≠ 1 by decide),
    if_neg (show (0 : ℕ) ≠ 2 by decide), if_neg (show (0 : ℕ) ≠ 1 by decide)]
  ring

theorem det8_quad2 (X : Nat → Nat → α) (ξ η : α) : Quad fun ζ => det8 X ξ η ζ := by
  refine ⟨?a, ?b, ?c, fun ζ => ?_⟩
  case a => exact det8 X ξ η 0
  case c => exact matDet3 fun i j => if i = 2 then jac8 X ξ η 0 2 j else jac8 X ξ η 1 i j - jac8 X ξ η 0 i j
  case b => exact (matDet3 fun i j => if i = 2 then jac8 X ξ η 0 2 j else if i = 0 then jac8 X ξ η 0 0 j else
                jac8 X ξ η 1 1 j - jac8 X ξ η 0 1 j) +
              (matDet3 fun i j => if i = 2 then jac8 X ξ η 0 2 j else if i = 1 then jac8 X ξ η 0 1 j else
                jac8 X ξ η 1 0 j - jac8 X ξ η 0 0 j)
  simp only [det8, matDet3, jac8_const2 X ξ η ζ]
  rw [jac8_affine2 X ξ η ζ 0 0, jac8_affine2 X ξ η ζ 0 1, jac8_affine2 X ξ η ζ 0 2, jac8_affine2 X ξ η ζ 1 0,
    jac8_affine2 X ξ η ζ 1 1, jac8_affine2 X ξ η ζ 1 2]
  simp only [if_true, if_neg one_ne_zero, if_neg (show (1 : ℕ) ≠ 2 by decide),
    if_neg (show (0 : ℕ) ≠ 2 by decide), if_neg (show (0 : ℕ) ≠ 1 by decide)]
  ring

/-- two-point Gauss rule -/
theorem gauss2 {f : ℝ → ℝ} (hf : Quad f) {s : ℝ} (hs : 3 * s * s = 1) :
    ∫ x in (-1 : ℝ)..1, f x = f s + f (-s) := by
  obtain ⟨a, b, c, h⟩ := hf
  have h1 : ∫ x in (-1 : ℝ)..1, f x = ∫ x in (-1 : ℝ)..1, (a + b * x + c * x ^ 2) := by
    congr 1; funext x; rw [h]; ring
  have i1 : IntervalIntegrable (fun x : ℝ => a + b * x) MeasureTheory.volume (-1) 1 :=
    (by fun_prop : Continuous fun x : ℝ => a + b * x).intervalIntegrable _ _
  have i2 : IntervalIntegrable (fun x : ℝ => c * x ^ 2) MeasureTheory.volume (-1) 1 :=
    (by fun_prop : Continuous fun x : ℝ => c * x ^ 2).intervalIntegrable _ _
  have i3 : IntervalIntegrable (fun x : ℝ => b * x) MeasureTheory.volume (-1) 1 :=
    (by fun_prop : Continuous fun x : ℝ => b * x).intervalIntegrable _ _
  rw [h1, intervalIntegral.integral_add i1 i2, intervalIntegral.integral_add (by simp) i3,
    intervalIntegral.integral_const_mul, intervalIntegral.integral_const_mul, integral_pow, h, h]
  simp
  norm_num
  linear_combination (-2 * c / 3) * hs

/-- **C55** (volume, calculus): for every element geometry the volumes of the Gauss rule (`s = 1/√3`) add up to the exact
integral of the Jacobian determinant over the reference cube, i.e. to the (signed) volume of the hexahedron with
trilinear faces. -/
theorem C55_volume_integral {s : ℝ} (hs : 3 * s * s = 1) (σ : Sched) {x : Ten ℝ} {X : Nat → Nat → Nat → ℝ}
    (hx : Is3 x ne 8 3 X) :
    IsOk (newGauss s σ x) fun Q => ∃ V, Is2 Q.vol ne 8 V ∧
      ∀ e, e < ne → ∑ q ∈ range 8, V e q =
        ∫ ξ in (-1 : ℝ)..1, ∫ η in (-1 : ℝ)..1, ∫ ζ in (-1 : ℝ)..1, det8 (X e) ξ η ζ := by
  obtain ⟨Q, h1, h2⟩ := newGauss_ok s σ hx
  refine ⟨Q, h1, _, C55_volume h2, fun e _ => ?_⟩
  have a1 : ∀ ξ η, ∫ ζ in (-1 : ℝ)..1, det8 (X e) ξ η ζ = det8 (X e) ξ η s + det8 (X e) ξ η (-s) :=
    fun ξ η => gauss2 (det8_quad2 (X e) ξ η) hs
  have a2 : ∀ ξ, ∫ η in (-1 : ℝ)..1, (det8 (X e) ξ η s + det8 (X e) ξ η (-s)) =
      (det8 (X e) ξ s s + det8 (X e) ξ s (-s)) + (det8 (X e) ξ (-s) s + det8 (X e) ξ (-s) (-s)) :=
    fun ξ => gauss2 ((det8_quad1 (X e) ξ s).add (det8_quad1 (X e) ξ (-s))) hs
  have a3 := gauss2 (((det8_quad0 (X e) s s).add (det8_quad0 (X e) s (-s))).add
    ((det8_quad0 (X e) (-s) s).add (det8_quad0 (X e) (-s) (-s)))) hs
  simp only [a1, a2]
  rw [a3]
  simp only [sum_range_succ, sum_range_zero, corner8, corner4]
  norm_num
  ring

/-- the position used by the library, `1 / √3`, meets the hypothesis -/
example : ∃ s : ℝ, 3 * s * s = 1 := by
  refine ⟨1 / √3, ?_⟩
  have h : √3 * √3 = 3 := Real.mul_self_sqrt (by norm_num)
  have h0 : √3 ≠ 0 := by intro h'; rw [h'] at h; norm_num at h
  field_simp
  linear_combination -h

/-! ### C45: gradients -/

theorem GradN_ok (hQ : Live ne nip Ξ W Q X) (σ : Sched) {u : Ten α} {U} (hu : Is3 u ne 8 3 U) :
    IsOk (GradN_vector Q σ u) fun t => Is4 t ne nip 3 3 (Quad4.grad 8 (G8 (D8 Ξ) X) U) := by
  have h := (live_holds hQ).1
  exact gradN_generic h σ hu (Ten.empty (Q.shape_qtensor 2)) (by
    simp [Ten.empty, Quadrature.shape_qtensor, h.ne_eq, h.nip_eq, h.td_eq])

/-- **C45** (what is computed): for every geometry and every field, `GradN_vector` returns the derivative of the
interpolated field in local direction `i`, scaled by a factor `r e q i` that depends on the geometry only: the
derivatives in the other local directions never enter.  The factor is the sum of row `i` of the inverse of the
Jacobian matrix. -/
theorem C45_computed (hQ : Live ne nip Ξ W Q X)
    (hdet : ∀ e q, e < ne → q < nip → det8 (X e) (Ξ q 0) (Ξ q 1) (Ξ q 2) ≠ 0) :
    ∃ Jinv : Nat → Nat → Nat → Nat → α,
      (∀ e q i j, e < ne → q < nip → i < 3 → j < 3 →
        ∑ k ∈ range 3, Jinv e q i k * jac8 (X e) (Ξ q 0) (Ξ q 1) (Ξ q 2) k j = if i = j then 1 else 0) ∧
      ∀ (σ : Sched) (u : Ten α) (U : Nat → Nat → Nat → α), Is3 u ne 8 3 U →
        IsOk (GradN_vector Q σ u) fun t => Is4 t ne nip 3 3 fun e q i j =>
          (∑ k ∈ range 3, Jinv e q i k) * part3 (map8 (U e) j) i (Ξ q 0) (Ξ q 1) (Ξ q 2) := by
  refine ⟨fun e q i j => inv3f (jac8 (X e) (Ξ q 0) (Ξ q 1) (Ξ q 2)) i j, fun e q i j he hq hi hj =>
    inv3f_mul _ (hdet e q he hq) hi hj, fun σ u U hu => ?_⟩
  obtain ⟨t, h1, h2⟩ := GradN_ok hQ σ hu
  exact ⟨t, h1, h2.congr fun e q i j _ _ _ _ => grad_eq _ _ _ _ _ _ _⟩

/-- **C45** (exactly when it is right): for elements with non-zero Jacobian determinants, `GradN_vector` returns the
exact gradient of every affine field if and only if the Jacobian matrix is diagonal at every integration point, i.e. the
element is locally aligned with the axes.  For all other geometries the result is wrong for some affine field. -/
theorem C45_exact_iff (hQ : Live ne nip Ξ W Q X)
    (hdet : ∀ e q, e < ne → q < nip → det8 (X e) (Ξ q 0) (Ξ q 1) (Ξ q 2) ≠ 0) (σ : Sched) :
    (∀ (u : Ten α) (U : Nat → Nat → Nat → α) (A : Nat → Nat → α) (b : Nat → α), Is3 u ne 8 3 U →
        AffineField 3 8 ne X U A b →
        IsOk (GradN_vector Q σ u) fun t => Is4 t ne nip 3 3 fun _ _ i j => A j i) ↔
      ∀ e q i j, e < ne → q < nip → i < 3 → j < 3 → i ≠ j →
        jac8 (X e) (Ξ q 0) (Ξ q 1) (Ξ q 2) i j = 0 := by
  constructor
  · intro H e q i j he hq hi hj hij
    have key : ∀ k, k < 3 → rowInv (jac8 (X e) (Ξ q 0) (Ξ q 1) (Ξ q 2)) i *
        jac8 (X e) (Ξ q 0) (Ξ q 1) (Ξ q 2) i k = if k = i then 1 else 0 := by
      intro k hk
      have hu := is3_of ne 8 3 fun ix : List Nat => X (ix.getD 0 0) (ix.getD 1 0) k
      have hA : AffineField 3 8 ne X (fun e m _ => X e m k) (fun _ l => if l = k then 1 else 0) (fun _ => 0) := by
        intro e m j _ _ _
        simp only [ite_mul, one_mul, zero_mul, zero_add]
        rw [sum_ite_eq' (range 3) k, if_pos (mem_range.2 hk)]
      obtain ⟨t, h1, h2⟩ := H _ _ _ _ hu hA
      obtain ⟨t', h1', h2'⟩ := GradN_ok hQ σ hu
      rw [h1] at h1'
      cases h1'
      have := h2.unique h2' he hq hi (show 0 < 3 by omega)
      beta_reduce at this
      rw [Quad4.grad] at this
      have g2 := grad_eq Ξ X (fun e m _ => X e m k) e q i 0
      rw [show ∑ m ∈ range 8, G8 (D8 Ξ) X e q m i * X ([e, m, 0].getD 0 0) ([e, m, 0].getD 1 0) k =
        ∑ m ∈ range 8, G8 (D8 Ξ) X e q m i * (fun e m _ => X e m k) e m 0 from rfl, g2, part3_affine (e := e) hA he (show 0 < 3 by omega)] at this
      simp only [ite_mul, one_mul, zero_mul] at this
      rw [sum_ite_eq' (range 3) k, if_pos (mem_range.2 hk)] at this
      rw [← this]
      simp only [eq_comm]
    have h1 := key i hi
    rw [if_pos rfl] at h1
    have h2 := key j hj
    rw [if_neg (Ne.symm hij)] at h2
    exact (mul_eq_zero.1 h2).resolve_left (left_ne_zero_of_mul_eq_one h1)
  · intro H u U A b hu hA
    obtain ⟨t, h1, h2⟩ := GradN_ok hQ σ hu
    refine ⟨t, h1, h2.congr fun e q i j he hq hi hj => ?_⟩
    rw [Quad4.grad, grad_eq, part3_affine hA he hj, sum_eq_single i]
    · have := rowInv_diag _ (hdet e q he hq) (fun a b ha hb hab => H e q a b he hq ha hb hab) hi
      linear_combination A j i * this
    · intro k hk hki
      rw [H e q i k he hq hi (mem_range.1 hk) (Ne.symm hki), mul_zero]
    · intro h; exact absurd (mem_range.2 hi) h

/-- the nodes of every element are the corners of an axis-aligned box with centre `c e` and half-edges `h e i` -/
def Boxes (ne : Nat) (X : Nat → Nat → Nat → α) (c h : Nat → Nat → α) : Prop :=
  ∀ e m i, e < ne → m < 8 → i < 3 → X e m i = c e i + h e i * corner8 m i

theorem jac8_box {c h : Nat → Nat → α} (hX : Boxes ne X c h) {e i j : Nat} (he : e < ne) (hi : i < 3) (hj : j < 3)
    (ξ η ζ : α) : jac8 (X e) ξ η ζ i j = if i = j then h e j else 0 := by
  refine (jac8_parallelepiped (c := c e) (H := fun k l => if k = l then h e l else 0) (fun m hm => ?_) hi ξ η ζ)
  rw [hX e m j he hm hj]
  simp only [ite_mul, zero_mul]
  rw [sum_ite_eq' (range 3) j, if_pos (mem_range.2 hj)]

/-- **C45** (boxes): if all elements are axis-aligned boxes with non-zero edges, the three gradient operators are exact:
`GradN_vector` is the gradient of the interpolated field for every field (chain rule: derivative in local direction `i`
= half-edge times the result), the other two its transpose and symmetric part; for affine fields `u(x) = b + A x`,
`∂u_j/∂x_i = A_ji`. -/
theorem C45_box (hQ : Live ne nip Ξ W Q X) {c h : Nat → Nat → α} (hX : Boxes ne X c h)
    (h0 : ∀ e i, e < ne → i < 3 → h e i ≠ 0) (σ : Sched) {u : Ten α} {U} (hu : Is3 u ne 8 3 U) :
    ∃ g : Nat → Nat → Nat → Nat → α,
      IsOk (GradN_vector Q σ u) (fun t => Is4 t ne nip 3 3 g) ∧
      IsOk (GradN_vector_T Q σ u) (fun t => Is4 t ne nip 3 3 fun e q i j => g e q j i) ∧
      IsOk (SymGradN_vector Q σ u) (fun t => Is4 t ne nip 3 3 fun e q i j => (g e q i j + g e q j i) / 2) ∧
      (∀ e q i j, e < ne → q < nip → i < 3 → j < 3 →
        h e i * g e q i j = part3 (map8 (U e) j) i (Ξ q 0) (Ξ q 1) (Ξ q 2)) ∧
      ∀ A b, AffineField 3 8 ne X U A b → ∀ e q i j, e < ne → q < nip → i < 3 → j < 3 → g e q i j = A j i := by
  have hH := (live_holds hQ).1
  have hsh : (Ten.empty (Q.shape_qtensor 2) : Ten α).shape = [ne, nip, 3, 3] := by
    simp [Ten.empty, Quadrature.shape_qtensor, hH.ne_eq, hH.nip_eq, hH.td_eq]
  have hr : ∀ e q i, e < ne → i < 3 → rowInv (jac8 (X e) (Ξ q 0) (Ξ q 1) (Ξ q 2)) i * h e i = 1 := by
    intro e q i he hi
    have hJ := fun {i j} (hi : i < 3) (hj : j < 3) => jac8_box hX he hi hj (Ξ q 0) (Ξ q 1) (Ξ q 2)
    have := rowInv_diag (jac8 (X e) (Ξ q 0) (Ξ q 1) (Ξ q 2)) (by
      rw [matDet3]
      simp only [hJ (show 0 < 3 by omega) (show 0 < 3 by omega), hJ (show 0 < 3 by omega) (show 1 < 3 by omega),
        hJ (show 0 < 3 by omega) (show 2 < 3 by omega), hJ (show 1 < 3 by omega) (show 0 < 3 by omega),
        hJ (show 1 < 3 by omega) (show 1 < 3 by omega), hJ (show 1 < 3 by omega) (show 2 < 3 by omega),
        hJ (show 2 < 3 by omega) (show 0 < 3 by omega), hJ (show 2 < 3 by omega) (show 1 < 3 by omega),
        hJ (show 2 < 3 by omega) (show 2 < 3 by omega)]
      simp [h0 e 0 he (by omega), h0 e 1 he (by omega), h0 e 2 he (by omega)])
      (fun a b ha hb hab => by rw [hJ ha hb, if_neg hab]) hi
    rw [hJ hi hi, if_pos rfl] at this
    exact this
  obtain ⟨t1, a1, b1⟩ := gradN_generic hH σ hu (Ten.empty (Q.shape_qtensor 2)) hsh
  obtain ⟨t2, a2, b2⟩ := gradN_T_generic hH σ hu (Ten.empty (Q.shape_qtensor 2)) hsh
  obtain ⟨t3, a3, b3⟩ := symGradN_generic hH σ hu (Ten.empty (Q.shape_qtensor 2)) hsh
  have hc : ∀ e q i j, e < ne → q < nip → i < 3 → j < 3 →
      h e i * ∑ m ∈ range 8, G8 (D8 Ξ) X e q m i * U e m j = part3 (map8 (U e) j) i (Ξ q 0) (Ξ q 1) (Ξ q 2) := by
    intro e q i j he hq hi hj
    rw [grad_eq]
    linear_combination part3 (map8 (U e) j) i (Ξ q 0) (Ξ q 1) (Ξ q 2) * hr e q i he hi
  refine ⟨_, ⟨t1, a1, b1⟩, ⟨t2, a2, b2⟩, ⟨t3, a3, b3.congr fun e q i j _ _ _ _ => by ring⟩, hc, ?_⟩
  intro A b hA e q i j he hq hi hj
  have h1 := hc e q i j he hq hi hj
  have h2 : ∑ k ∈ range 3, A j k * jac8 (X e) (Ξ q 0) (Ξ q 1) (Ξ q 2) i k = h e i * A j i := by
    rw [sum_eq_single i, jac8_box hX he hi hi, if_pos rfl, mul_comm]
    · intro k hk hki
      rw [jac8_box hX he hi (mem_range.1 hk), if_neg (Ne.symm hki), mul_zero]
    · intro h; exact absurd (mem_range.2 hi) h
  rw [part3_affine hA he hj, h2] at h1
  exact mul_left_cancel₀ (h0 e i he hi) h1

/-- **C45** (simple shear): elements `x = ξ + k η, y = η, z = ζ` (volume 8, for every `k`).  For the field
`u = (y, y, y)`, with `∂u/∂y = 1`, `GradN_vector` returns `1 - k` for that derivative: wrong for every `k ≠ 0`. -/
theorem C45_shear_wrong (hQ : Live ne nip Ξ W Q X) (k : α)
    (hX : ∀ e m, e < ne → m < 8 → X e m 0 = corner8 m 0 + k * corner8 m 1 ∧ X e m 1 = corner8 m 1 ∧
      X e m 2 = corner8 m 2) (σ : Sched) {u : Ten α} {U} (hu : Is3 u ne 8 3 U)
    (hU : ∀ e m j, e < ne → m < 8 → j < 3 → U e m j = X e m 1) :
    ∃ g : Nat → Nat → Nat → Nat → α, IsOk (GradN_vector Q σ u) (fun t => Is4 t ne nip 3 3 g) ∧
      (∀ e q, e < ne → q < nip → det8 (X e) (Ξ q 0) (Ξ q 1) (Ξ q 2) = 1) ∧
      ∀ e q j, e < ne → q < nip → j < 3 → g e q 1 j = 1 - k := by
  have hJ : ∀ e i j, e < ne → i < 3 → j < 3 → ∀ ξ η ζ : α, jac8 (X e) ξ η ζ i j =
      (fun i j => if i = 1 ∧ j = 0 then k else if i = j then 1 else 0) i j := by
    intro e i j he hi hj ξ η ζ
    refine jac8_parallelepiped (X := X e) (c := fun _ => 0)
      (H := fun i j => if i = 1 ∧ j = 0 then k else if i = j then 1 else 0) (fun m hm => ?_) hi ξ η ζ
    obtain ⟨h1, h2, h3⟩ := hX e m he hm
    interval_cases j
    · rw [h1]; simp [sum_range_succ]
    · rw [h2]; simp [sum_range_succ]
    · rw [h3]; simp [sum_range_succ]
  obtain ⟨t, h1, h2⟩ := GradN_ok hQ σ hu
  refine ⟨_, ⟨t, h1, h2⟩, fun e q he hq => ?_, fun e q j he hq hj => ?_⟩
  · rw [det8, matDet3]
    simp [hJ e _ _ he (show 0 < 3 by omega) (show 0 < 3 by omega), hJ e _ _ he (show 0 < 3 by omega) (show 1 < 3 by omega),
        hJ e _ _ he (show 0 < 3 by omega) (show 2 < 3 by omega), hJ e _ _ he (show 1 < 3 by omega) (show 0 < 3 by omega),
        hJ e _ _ he (show 1 < 3 by omega) (show 1 < 3 by omega), hJ e _ _ he (show 1 < 3 by omega) (show 2 < 3 by omega),
        hJ e _ _ he (show 2 < 3 by omega) (show 0 < 3 by omega), hJ e _ _ he (show 2 < 3 by omega) (show 1 < 3 by omega),
        hJ e _ _ he (show 2 < 3 by omega) (show 2 < 3 by omega)]
  · have hA : AffineField 3 8 ne X U (fun _ l => if l = 1 then 1 else 0) (fun _ => 0) := by
      intro e m j he hm hj
      rw [hU e m j he hm hj]
      simp [sum_range_succ]
    rw [Quad4.grad, grad_eq, part3_affine hA he hj, rowInv]
    simp [sum_range_succ, inv3f, det3,
        hJ e _ _ he (show 0 < 3 by omega) (show 0 < 3 by omega), hJ e _ _ he (show 0 < 3 by omega) (show 1 < 3 by omega),
        hJ e _ _ he (show 0 < 3 by omega) (show 2 < 3 by omega), hJ e _ _ he (show 1 < 3 by omega) (show 0 < 3 by omega),
        hJ e _ _ he (show 1 < 3 by omega) (show 1 < 3 by omega), hJ e _ _ he (show 1 < 3 by omega) (show 2 < 3 by omega),
        hJ e _ _ he (show 2 < 3 by omega) (show 0 < 3 by omega), hJ e _ _ he (show 2 < 3 by omega) (show 1 < 3 by omega),
        hJ e _ _ he (show 2 < 3 by omega) (show 2 < 3 by omega)]
    ring

/-- a concrete object: two boxes, updated once; and one that is sheared -/
theorem exLive (X : Nat → Nat → Nat → ℚ) : ∃ Q, Live 2 8 (fun q i => 1 / 2 * corner8 q i) (fun _ => (1 : ℚ)) Q X := by
  obtain ⟨Q, -, h⟩ := C55_constructor Sched.rev (is3_of 2 8 3 fun ix => X (ix.getD 0 0) (ix.getD 1 0) (ix.getD 2 0) + 1)
    (is2_of 8 3 fun ix => 1 / 2 * corner8 (ix.getD 0 0) (ix.getD 1 0)) (is1_of 8 fun _ => (1 : ℚ))
  have hx := is3_of 2 8 3 fun ix => X (ix.getD 0 0) (ix.getD 1 0) (ix.getD 2 0)
  obtain ⟨Q', h'⟩ := update_ok h Sched.seq hx
  exact ⟨Q', .update h hx h'⟩

/-- the hypotheses of `C45_box` are met by two boxes of different size, those of `C45_shear_wrong` with `k = 1` -/
example : (∃ Q X c h, Live 2 8 (fun q i => 1 / 2 * corner8 q i) (fun _ => (1 : ℚ)) Q X ∧ Boxes 2 X c h ∧
      ∀ e i, e < 2 → i < 3 → h e i ≠ 0) ∧
    ∃ Q X, Live 2 8 (fun q i => 1 / 2 * corner8 q i) (fun _ => (1 : ℚ)) Q X ∧
      ∀ e m, e < 2 → m < 8 → X e m 0 = corner8 m 0 + 1 * corner8 m 1 ∧ X e m 1 = corner8 m 1 ∧
        X e m 2 = corner8 m 2 := by
  obtain ⟨Q, h⟩ := exLive fun e m i => (2 * e : ℚ) + ((1 : ℚ) + e + i) * corner8 m i
  obtain ⟨Q', h'⟩ := exLive fun _ m i => if i = 0 then corner8 m 0 + 1 * corner8 m 1 else corner8 m i
  refine ⟨⟨Q, _, fun e _ => 2 * e, fun e i => (1 : ℚ) + e + i, h, fun _ _ _ _ _ _ => rfl, fun e i _ _ => ?_⟩,
    Q', _, h', fun e m _ _ => ?_⟩
  · have : (0 : ℚ) < (1 : ℚ) + e + i := by positivity
    exact ne_of_gt this
  · simp

/-! ### C56: mechanics -/

/-- **C56** (mass): symmetric, decoupled, total mass, kinetic energy. -/
theorem mass_live (hQ : Live ne nip Ξ W Q X) (σ : Sched) {r : Ten α} {R} (hr : Is2 r ne nip R) {V}
    (hV : Is2 Q.vol ne nip V) :
    IsOk (Int_N_scalar_NT_dV Q σ r) fun t => ∃ M, Is3 t ne 24 24 M ∧
      ∀ e m n i j, e < ne → m < 8 → n < 8 → i < 3 → j < 3 → M e (m * 3 + i) (n * 3 + j) =
        if i = j then ∑ q ∈ range nip,
          N8 m (Ξ q 0) (Ξ q 1) (Ξ q 2) * R e q * N8 n (Ξ q 0) (Ξ q 1) (Ξ q 2) * V e q else 0 := by
  have h := (live_holds hQ).1
  have h' : Holds Q 8 3 3 ne nip _ (G8 (D8 Ξ) X) V :=
    ⟨h.nne_eq, h.nd_eq, h.td_eq, h.ne_eq, h.nip_eq, h.N_is, h.G_is, hV⟩
  obtain ⟨t, h1, h2, h3⟩ := mass_ok h' σ hr (Ten.empty Q.shape_elemmat) (by
    simp [Ten.empty, Quadrature.shape_elemmat, h.ne_eq, h.nne_eq, h.nd_eq])
  refine ⟨t, h1,
    fun e a b => if a % 3 = b % 3 then ∑ q ∈ range nip, N8 (a / 3) (Ξ q 0) (Ξ q 1) (Ξ q 2) * R e q *
      N8 (b / 3) (Ξ q 0) (Ξ q 1) (Ξ q 2) * V e q else 0, ⟨h2, fun e a b he ha hb => ?_⟩, ?_⟩
  · have := h3 e (a / 3) (b / 3) (a % 3) (b % 3) he (by omega) (by omega) (by omega) (by omega)
    rw [show a / 3 * 3 + a % 3 = a by omega, show b / 3 * 3 + b % 3 = b by omega] at this
    exact this
  · intro e m n i j he hm hn hi hj
    have e1 : (m * 3 + i) / 3 = m := by omega
    have e2 : (n * 3 + j) / 3 = n := by omega
    have e3 : (m * 3 + i) % 3 = i := by omega
    have e4 : (n * 3 + j) % 3 = j := by omega
    simp only [e1, e2, e3, e4]

/-- **C56** (mass matrix): `Int_N_scalar_NT_dV` gives, for every density, symmetric matrices without coupling between the
components, whose entries add up per component to the total mass, and whose quadratic form is twice the kinetic
energy of the interpolated velocity field. -/
theorem C56_mass (hQ : Live ne nip Ξ W Q X) (σ : Sched) {r : Ten α} {R} (hr : Is2 r ne nip R) :
    IsOk (Int_N_scalar_NT_dV Q σ r) fun t => ∃ M, Is3 t ne 24 24 M ∧
      MassLaws 8 3 ne nip (fun q m => N8 m (Ξ q 0) (Ξ q 1) (Ξ q 2)) R
        (fun e q => W q * det8 (X e) (Ξ q 0) (Ξ q 1) (Ξ q 2)) M := by
  obtain ⟨t, h1, M, h2, h3⟩ := mass_live hQ σ hr (C55_volume hQ)
  exact ⟨t, h1, M, h2, massLaws h3 fun q _ => N8_sum _ _ _⟩

/-- **C56** (mass matrix, nodal rule): with the rule `Nodal` the mass matrix is diagonal. -/
theorem C56_mass_nodal (σ τ : Sched) {x r : Ten α} {X R} (hx : Is3 x ne 8 3 X) (hr : Is2 r ne 8 R) :
    IsOk (do
      let xi ← Nodal.xi
      let w ← Nodal.w
      let Q ← new σ x xi w
      Int_N_scalar_NT_dV Q τ r) fun t => ∃ M, Is3 t ne 24 24 M ∧
        (∀ e a b, e < ne → a < 24 → b < 24 → a ≠ b → M e a b = 0) ∧
        ∀ e m i, e < ne → m < 8 → i < 3 → M e (m * 3 + i) (m * 3 + i) =
          R e m * det8 (X e) (corner8 m 0) (corner8 m 1) (corner8 m 2) := by
  obtain ⟨xi, h1, h2⟩ := nodal_ok (α := α)
  obtain ⟨w, h3, h4⟩ := (weights_ok (α := α)).2
  obtain ⟨Q, h5, h6⟩ := C55_constructor σ hx h2 h4
  obtain ⟨t, h7, M, h8, h9⟩ := mass_live h6 τ hr (C55_volume h6)
  have hN : ∀ m n, m < 8 → n < 8 → N8 m (1 * corner8 n 0 : α) (1 * corner8 n 1) (1 * corner8 n 2) =
      if m = n then 1 else 0 := by
    intro m n hm hn
    rw [one_mul, one_mul, one_mul, N8_corner hm hn]
  refine ⟨t, by simp only [h1, h3, h5, h7, Res.ok_bind], M, h8, ?_, ?_⟩
  · intro e a b he ha hb hab
    have := h9 e (a / 3) (b / 3) (a % 3) (b % 3) he (by omega) (by omega) (by omega) (by omega)
    rw [show a / 3 * 3 + a % 3 = a by omega, show b / 3 * 3 + b % 3 = b by omega] at this
    rw [this]
    split
    · refine sum_eq_zero fun q hq => ?_
      rw [mem_range] at hq
      rw [hN _ q (by omega) hq, hN _ q (by omega) hq]
      by_cases c1 : a / 3 = q
      · rw [if_neg (show b / 3 ≠ q by omega)]; ring
      · rw [if_neg c1]; ring
    · rfl
  · intro e m i he hm hi
    rw [h9 e m m i i he hm hm hi hi, if_pos rfl, sum_eq_single m]
    · rw [hN m m hm hm, if_pos rfl, one_mul, one_mul, one_mul]; ring
    · intro q hq hne
      rw [hN m q hm (mem_range.1 hq), if_neg (Ne.symm hne)]; ring
    · intro h; exact absurd (mem_range.2 hm) h

theorem force_live (hQ : Live ne nip Ξ W Q X) (σ : Sched) {s : Ten α} {S}
    (hs : Is4 s ne nip 3 3 S) {V} (hV : Is2 Q.vol ne nip V) :
    IsOk (Int_gradN_dot_tensor2_dV Q σ s) fun t =>
      Is3 t ne 8 3 fun e m j => ∑ q ∈ range nip, (∑ i ∈ range 3, G8 (D8 Ξ) X e q m i * S e q i j) * V e q := by
  have h := (live_holds hQ).1
  have h' : Holds Q 8 3 3 ne nip _ (G8 (D8 Ξ) X) V :=
    ⟨h.nne_eq, h.nd_eq, h.td_eq, h.ne_eq, h.nip_eq, h.N_is, h.G_is, hV⟩
  exact force_ok h' σ hs (Ten.empty Q.shape_elemvec) (by
    simp [Ten.empty, Quadrature.shape_elemvec, h.ne_eq, h.nne_eq, h.nd_eq])

/-- **C56** (internal force): for every stress field and every geometry the nodal forces of
`Int_gradN_dot_tensor2_dV` add up to zero, and their power on any nodal velocities equals the integral of the
stress power computed with `GradN_vector` (virtual work): even where the gradient is wrong (C45), force and gradient
are adjoint. -/
theorem C56_internal_force (hQ : Live ne nip Ξ W Q X) (σ τ : Sched) {s v : Ten α} {S v'}
    (hs : Is4 s ne nip 3 3 S) (hv : Is3 v ne 8 3 v') :
    ∃ F g, 
      IsOk (Int_gradN_dot_tensor2_dV Q σ s) (fun t => Is3 t ne 8 3 F) ∧
      IsOk (GradN_vector Q τ v) (fun t => Is4 t ne nip 3 3 g) ∧
      (∀ e j, e < ne → j < 3 → ∑ m ∈ range 8, F e m j = 0) ∧
      ∀ e, e < ne → ∑ m ∈ range 8, ∑ j ∈ range 3, F e m j * v' e m j =
        ∑ q ∈ range nip, (∑ i ∈ range 3, ∑ j ∈ range 3, S e q i j * g e q i j) *
          (W q * det8 (X e) (Ξ q 0) (Ξ q 1) (Ξ q 2)) := by
  refine ⟨_, _, force_live hQ σ hs (C55_volume hQ), GradN_ok hQ τ hv, ?_, ?_⟩
  · intro e j _ _
    exact equilibrium (nne := 8) (nd := 3) (nip := nip) (G := G8 (D8 Ξ) X) (S := S) (e := e)
      (V := fun e q => W q * det8 (X e) (Ξ q 0) (Ξ q 1) (Ξ q 2)) (fun q i _ _ => G_sum Ξ X e q i) j
  · intro e _
    exact virtual_work (nne := 8) (nd := 3) (nip := nip) (G := G8 (D8 Ξ) X) (S := S)
      (V := fun e q => W q * det8 (X e) (Ξ q 0) (Ξ q 1) (Ξ q 2)) (U := v') e

theorem stiff_live (hQ : Live ne nip Ξ W Q X) (σ : Sched) {c : Ten α} {C}
    (hc : Is6 c ne nip 3 3 3 3 C) {V} (hV : Is2 Q.vol ne nip V) :
    IsOk (Q.Int_gradN_dot_tensor4_dot_gradNT_dV σ c) fun t => ∃ K, Is3 t ne 24 24 K ∧
      ∀ e m j n k, e < ne → m < 8 → n < 8 → j < 3 → k < 3 →
        K e (m * 3 + j) (n * 3 + k) = Kf 3 nip (G8 (D8 Ξ) X) C V e m j n k := by
  have h := (live_holds hQ).1
  have h' : Holds Q 8 3 3 ne nip _ (G8 (D8 Ξ) X) V :=
    ⟨h.nne_eq, h.nd_eq, h.td_eq, h.ne_eq, h.nip_eq, h.N_is, h.G_is, hV⟩
  obtain ⟨t, h1, h2, h3⟩ := stiffness_generic h' (le_refl 3) σ hc (Ten.empty Q.shape_elemmat) (by
    simp [Ten.empty, Quadrature.shape_elemmat, h.ne_eq, h.nne_eq, h.nd_eq])
  refine ⟨t, h1, fun e a b => Kf 3 nip (G8 (D8 Ξ) X) C V e (a / 3) (a % 3) (b / 3) (b % 3),
    ⟨h2, fun e a b he ha hb => ?_⟩, ?_⟩
  · have := h3 e (a / 3) (b / 3) (a % 3) (b % 3) he (by omega) (by omega) (by omega) (by omega)
    rw [show a / 3 * 3 + a % 3 = a by omega, show b / 3 * 3 + b % 3 = b by omega] at this
    exact this
  · intro e m j n k he hm hn hj hk
    have e1 : (m * 3 + j) / 3 = m := by omega
    have e2 : (n * 3 + k) / 3 = n := by omega
    have e3 : (m * 3 + j) % 3 = j := by omega
    have e4 : (n * 3 + k) % 3 = k := by omega
    simp only [e1, e2, e3, e4]

/-- **C56** (stiffness): the matrix of `Int_gradN_dot_tensor4_dot_gradNT_dV`, applied to nodal displacements, gives
exactly the internal force of the stress `C : grad u`, with `grad u` as computed by `GradN_vector`; it is symmetric for
a symmetric tangent, and gives no force for rigid translations. -/
theorem C56_stiffness (hQ : Live ne nip Ξ W Q X) (σ τ ρ : Sched) {c u s : Ten α} {C U}
    (hc : Is6 c ne nip 3 3 3 3 C) (hu : Is3 u ne 8 3 U) {g S}
    (hg : IsOk (GradN_vector Q τ u) fun t => Is4 t ne nip 3 3 g)
    (hs : Is4 s ne nip 3 3 S)
    (hS : ∀ e q i j, e < ne → q < nip → i < 3 → j < 3 →
      S e q i j = ∑ k ∈ range 3, ∑ l ∈ range 3, C e q i j k l * g e q l k) :
    ∃ K F, IsOk (Q.Int_gradN_dot_tensor4_dot_gradNT_dV σ c) (fun t => Is3 t ne 24 24 K) ∧
      IsOk (Int_gradN_dot_tensor2_dV Q ρ s) (fun t => Is3 t ne 8 3 F) ∧
      (∀ e m j, e < ne → m < 8 → j < 3 →
        ∑ n ∈ range 8, ∑ k ∈ range 3, K e (m * 3 + j) (n * 3 + k) * U e n k = F e m j) ∧
      StiffLaws 8 3 ne nip C K := by
  have hV := (live_holds hQ).1.V_is
  obtain ⟨t, h1, K, h2, h3⟩ := stiff_live hQ σ hc hV
  refine ⟨K, _, ⟨t, h1, h2⟩, force_live hQ ρ hs hV, ?_,
    stiffLaws h3 fun e q i _ _ _ => G_sum _ _ _ _ _⟩
  intro e m j he hm hj
  obtain ⟨tg, hg1, hg2⟩ := hg
  obtain ⟨tg', hg1', hg2'⟩ := GradN_ok hQ τ hu
  rw [hg1] at hg1'
  cases hg1'
  have hgg : ∀ e q i j, e < ne → q < nip → i < 3 → j < 3 → g e q i j = Quad4.grad 8 (G8 (D8 Ξ) X) U e q i j :=
    fun e q i j he hq hi hj => hg2.unique hg2' he hq hi hj
  rw [sum_congr rfl fun n hn => sum_congr rfl fun k hk => by
    rw [h3 e m j n k he hm (mem_range.1 hn) hj (mem_range.1 hk)], ← stiff_linear]
  refine sum_congr rfl fun q hq => ?_
  rw [mem_range] at hq
  congr 1
  refine sum_congr rfl fun i hi => ?_
  rw [mem_range] at hi
  rw [hS e q i j he hq hi hj]
  congr 1
  refine sum_congr rfl fun k hk => sum_congr rfl fun l hl => ?_
  rw [hgg e q l k he hq (mem_range.1 hl) (mem_range.1 hk)]

/-- **C56** (interpolation): `InterpQuad_vector` returns, for every number of components, the trilinear interpolation of
the nodal values. -/
theorem C56_interpolation (hQ : Live ne nip Ξ W Q X) (σ : Sched) {u : Ten α} {n : Nat} {U} (hu : Is3 u ne 8 n U) :
    IsOk (Q.InterpQuad_vector σ u) fun t => Is3 t ne nip n fun e q j =>
      map8 (U e) j (Ξ q 0) (Ξ q 1) (Ξ q 2) := by
  have h := (live_holds hQ).1
  obtain ⟨t, h1, h2⟩ := interpQuad_generic h σ hu (Ten.empty (Q.shape_qvector_n n)) (by
    simp [Ten.empty, Quadrature.shape_qvector_n, h.ne_eq, h.nip_eq])
  exact ⟨t, by rw [Quadrature.InterpQuad_vector, hu.1]; exact h1, h2⟩

/-- **C56** (body force): the integrals of the shape functions times the density; their sum is the total. -/
theorem C56_body_force (hQ : Live ne nip Ξ W Q X) (σ : Sched) {b : Ten α} {n : Nat} {B}
    (hb : Is3 b ne nip n B) :
    IsOk (Q.Int_N_vector_dV σ b) fun t => ∃ F, Is3 t ne 8 n F ∧
      (∀ e m i, e < ne → m < 8 → i < n →
        F e m i = ∑ q ∈ range nip, N8 m (Ξ q 0) (Ξ q 1) (Ξ q 2) * B e q i *
          (W q * det8 (X e) (Ξ q 0) (Ξ q 1) (Ξ q 2))) ∧
      ∀ e i, e < ne → i < n → ∑ m ∈ range 8, F e m i =
        ∑ q ∈ range nip, B e q i * (W q * det8 (X e) (Ξ q 0) (Ξ q 1) (Ξ q 2)) := by
  have h := (live_holds hQ).1
  have h' : Holds Q 8 3 3 ne nip _ (G8 (D8 Ξ) X) _ :=
    ⟨h.nne_eq, h.nd_eq, h.td_eq, h.ne_eq, h.nip_eq, h.N_is, h.G_is, C55_volume hQ⟩
  obtain ⟨t, h1, h2⟩ := intNvector_generic h' σ hb (Ten.empty (Q.shape_elemvec_n n)) (by
    simp [Ten.empty, Quadrature.shape_elemvec_n, h.ne_eq, h.nne_eq])
  refine ⟨t, by rw [Quadrature.Int_N_vector_dV, hb.1]; exact h1, _, h2, fun _ _ _ _ _ _ => rfl,
    fun e i he hi => ?_⟩
  rw [sum_comm]
  refine sum_congr rfl fun q _ => ?_
  rw [← sum_mul, ← sum_mul, N8_sum, one_mul]

end GF.Element.Hex8
