import Verif.Lemmas.ElementLaws
import Verif.Spec.ElementHistory
import Mathlib.Tactic.LinearCombination
import Mathlib.Tactic.Linarith

/-! Geometry of the four-node element. -/

namespace GF.Element.Quad4
open Finset ElemSpec

variable {α : Type} [Field α]

theorem live_holds [CharZero α] {td ne nip : Nat} {thick : α} {Ξ W} {Q : Quadrature α} {X}
    (h : Live td thick ne nip Ξ W Q X) :
    Holds Q 4 2 td ne nip (fun q m => N4 m (Ξ q 0) (Ξ q 1)) (Gf (D4 Ξ) X)
        (fun e q => W q * detf (Jf (D4 Ξ) X e q) * thick) ∧ Is3 Q.dNxi nip 4 2 (D4 Ξ) ∧
      Is3 Q.x ne 4 2 X ∧ Is1 Q.w nip W := by
  induction h with
  | new hx hxi hw h =>
    obtain ⟨Q, h1, h2, h3, h4, h5, -⟩ := construct_ok hx hxi hw td thick _
    rw [h] at h1
    cases h1
    exact ⟨h2, h3, by rw [h4]; exact hx, by rw [h5]; exact hw⟩
  | @update σ x Q Q' X X' hQ hx h ih =>
    obtain ⟨h1, h2, h3, h4⟩ := ih
    obtain ⟨g, v, h5, h6, h7⟩ := compute_dN_ok (Q := { Q with x := x }) h1.ne_eq h1.nip_eq h2 hx h4 thick
      h1.G_is.1 h1.V_is.1 σ
    rw [update_x, h5] at h
    cases h
    exact ⟨⟨h1.nne_eq, h1.nd_eq, h1.td_eq, h1.ne_eq, h1.nip_eq, h1.N_is, h6, h7⟩, h2, hx, h4⟩

theorem update_ok [CharZero α] {td ne nip : Nat} {thick : α} {Ξ W} {Q : Quadrature α} {X}
    (h : Live td thick ne nip Ξ W Q X) (σ : Sched) {x : Ten α} {X'} (hx : Is3 x ne 4 2 X') :
    ∃ Q', update_x thick σ Q x = .ok Q' := by
  obtain ⟨h1, h2, h3, h4⟩ := live_holds h
  obtain ⟨g, v, h5, h6, h7⟩ := compute_dN_ok (Q := { Q with x := x }) h1.ne_eq h1.nip_eq h2 hx h4 thick
      h1.G_is.1 h1.V_is.1 σ
  exact ⟨_, h5⟩

theorem N4_sum [CharZero α] (ξ η : α) : ∑ m ∈ range 4, N4 m ξ η = 1 := by
  simp only [sum_range_succ, sum_range_zero, N4, corner4]
  field_simp
  ring

/-- nodal interpolation -/
theorem N4_corner [CharZero α] {m n : Nat} (hm : m < 4) (hn : n < 4) :
    N4 m (corner4 n 0 : α) (corner4 n 1) = if m = n then 1 else 0 := by
  interval_cases m <;> interval_cases n <;> simp [N4, corner4] <;> norm_num

/-- exact derivative of the shape functions -/
theorem N4_deriv0 (m : Nat) (ξ η δ : α) : N4 m (ξ + δ) η = N4 m ξ η + part2 (N4 m) 0 ξ η * δ := by
  simp only [N4, part2, if_true]
  ring

theorem N4_deriv1 (m : Nat) (ξ η δ : α) : N4 m ξ (η + δ) = N4 m ξ η + part2 (N4 m) 1 ξ η * δ := by
  simp only [N4, part2, if_neg one_ne_zero]
  ring

theorem part2_map4 (X : Nat → Nat → α) (j i : Nat) (ξ η : α) :
    part2 (map4 X j) i ξ η = ∑ m ∈ range 4, part2 (N4 m) i ξ η * X m j := by
  simp only [part2, map4]
  split
  · rw [← sum_sub_distrib]; exact sum_congr rfl fun m _ => by ring
  · rw [← sum_sub_distrib]; exact sum_congr rfl fun m _ => by ring

theorem Jf_eq (Ξ : Nat → Nat → α) (X : Nat → Nat → Nat → α) (e q i j : Nat) :
    Jf (D4 Ξ) X e q i j = jac4 (X e) (Ξ q 0) (Ξ q 1) i j := by
  rw [jac4, part2_map4]; rfl

theorem detf_eq (Ξ : Nat → Nat → α) (X : Nat → Nat → Nat → α) (e q : Nat) :
    detf (Jf (D4 Ξ) X e q) = det4 (X e) (Ξ q 0) (Ξ q 1) := by
  rw [detf, det4, Jf_eq, Jf_eq, Jf_eq, Jf_eq]

theorem D4_sum (Ξ : Nat → Nat → α) (q i : Nat) [CharZero α] : ∑ m ∈ range 4, D4 Ξ q m i = 0 := by
  have h1 := N4_sum (Ξ q 0 + 1) (Ξ q 1)
  have h2 := N4_sum (Ξ q 0) (Ξ q 1)
  have h3 := N4_sum (Ξ q 0) (Ξ q 1 + 1)
  simp only [D4, part2]
  split
  · rw [sum_sub_distrib, h1, h2, sub_self]
  · rw [sum_sub_distrib, h3, h2, sub_self]

theorem G_sum [CharZero α] (Ξ : Nat → Nat → α) (X : Nat → Nat → Nat → α) (e q i : Nat) :
    ∑ m ∈ range 4, Gf (D4 Ξ) X e q m i = 0 := by
  simp only [Gf]
  rw [sum_comm]
  refine sum_eq_zero fun j _ => ?_
  rw [← mul_sum, D4_sum, mul_zero]

/-- the 2x2 inverse is a left inverse -/
theorem inv2f_mul (J : Nat → Nat → α) (h : detf J ≠ 0) {i j : Nat} (hi : i < 2) (hj : j < 2) :
    ∑ k ∈ range 2, inv2f J i k * J k j = if i = j then 1 else 0 := by
  have h' : J 0 0 * J 1 1 - J 0 1 * J 1 0 ≠ 0 := h
  simp only [sum_range_succ, sum_range_zero, zero_add]
  interval_cases i <;> interval_cases j <;> simp [inv2f] <;>
    first | ring1 | linear_combination mul_inv_cancel₀ h'

theorem mul_inv2f (J : Nat → Nat → α) (h : detf J ≠ 0) {i j : Nat} (hi : i < 2) (hj : j < 2) :
    ∑ k ∈ range 2, J i k * inv2f J k j = if i = j then 1 else 0 := by
  have h' : J 0 0 * J 1 1 - J 0 1 * J 1 0 ≠ 0 := h
  simp only [sum_range_succ, sum_range_zero, zero_add]
  interval_cases i <;> interval_cases j <;> simp [inv2f] <;>
    first | ring1 | linear_combination mul_inv_cancel₀ h'

/-- the global gradients reproduce the coordinates -/
theorem G_X {Ξ : Nat → Nat → α} {X : Nat → Nat → Nat → α} {e q i j : Nat}
    (h : det4 (X e) (Ξ q 0) (Ξ q 1) ≠ 0) (hi : i < 2) (hj : j < 2) :
    ∑ m ∈ range 4, Gf (D4 Ξ) X e q m i * X e m j = if i = j then 1 else 0 := by
  rw [← detf_eq] at h
  rw [← inv2f_mul _ h hi hj]
  simp only [Gf, sum_mul]
  rw [sum_comm]
  refine sum_congr rfl fun k _ => ?_
  rw [Jf, mul_sum]
  exact sum_congr rfl fun m _ => by ring

/-- gradient of an affine field -/
theorem grad_affine [CharZero α] {Ξ : Nat → Nat → α} {X U : Nat → Nat → Nat → α} {A : Nat → Nat → α} {b : Nat → α}
    {ne e q i j : Nat} (hU : AffineField 2 4 ne X U A b) (he : e < ne)
    (h : det4 (X e) (Ξ q 0) (Ξ q 1) ≠ 0) (hi : i < 2) (hj : j < 2) :
    grad 4 (Gf (D4 Ξ) X) U e q i j = A j i := by
  have h1 : grad 4 (Gf (D4 Ξ) X) U e q i j =
      b j * ∑ m ∈ range 4, Gf (D4 Ξ) X e q m i +
        ∑ k ∈ range 2, A j k * ∑ m ∈ range 4, Gf (D4 Ξ) X e q m i * X e m k := by
    rw [grad, sum_congr rfl fun m hm => by rw [hU e m j he (mem_range.1 hm) hj]]
    simp only [mul_add, sum_add_distrib, mul_sum]
    congr 1
    · exact sum_congr rfl fun m _ => mul_comm _ _
    · rw [sum_comm]
      exact sum_congr rfl fun k _ => sum_congr rfl fun m _ => by ring
  rw [h1, G_sum, mul_zero, zero_add, sum_congr rfl fun k hk => by rw [G_X h hi (mem_range.1 hk)]]
  interval_cases i <;> simp [sum_range_succ]

/-- chain rule for an arbitrary nodal field -/
theorem grad_chain {Ξ : Nat → Nat → α} {X U : Nat → Nat → Nat → α}
    {e q k : Nat} (h : det4 (X e) (Ξ q 0) (Ξ q 1) ≠ 0) (hk : k < 2) (j : Nat) :
    ∑ i ∈ range 2, jac4 (X e) (Ξ q 0) (Ξ q 1) k i * grad 4 (Gf (D4 Ξ) X) U e q i j =
      part2 (map4 (U e) j) k (Ξ q 0) (Ξ q 1) := by
  rw [← detf_eq] at h
  rw [part2_map4]
  have h1 : ∀ m ∈ range 4, part2 (N4 m) k (Ξ q 0) (Ξ q 1) * U e m j =
      ∑ i ∈ range 2, Jf (D4 Ξ) X e q k i * (Gf (D4 Ξ) X e q m i * U e m j) := by
    intro m _
    have h2 : D4 Ξ q m k = ∑ l ∈ range 2, (∑ i ∈ range 2, Jf (D4 Ξ) X e q k i * inv2f (Jf (D4 Ξ) X e q) i l) *
        D4 Ξ q m l := by
      rw [sum_congr rfl fun l hl => by rw [mul_inv2f _ h hk (mem_range.1 hl)]]
      interval_cases k <;> simp [sum_range_succ]
    rw [show part2 (N4 m) k (Ξ q 0) (Ξ q 1) = D4 Ξ q m k from rfl, h2]
    simp only [Gf, sum_range_succ, sum_range_zero]
    ring
  rw [sum_congr rfl h1, sum_comm]
  refine sum_congr rfl fun i _ => ?_
  rw [← mul_sum, ← Jf_eq]
  rfl

/-- the determinant is affine in the local coordinates: it is interpolated from the corners -/
theorem det4_interp [CharZero α] (X : Nat → Nat → α) (ξ η : α) :
    det4 X ξ η = ∑ m ∈ range 4, N4 m ξ η * det4 X (corner4 m 0) (corner4 m 1) := by
  simp only [det4, jac4, part2, map4, N4, corner4, sum_range_succ, sum_range_zero, if_true,
    if_neg one_ne_zero]
  field_simp
  ring

theorem det4_sum [CharZero α] (X : Nat → Nat → α) (s : α) :
    ∑ q ∈ range 4, det4 X (s * corner4 q 0) (s * corner4 q 1) = area4 X := by
  simp only [det4, jac4, part2, map4, N4, corner4, sum_range_succ, sum_range_zero, if_true,
    if_neg one_ne_zero, area4]
  field_simp
  ring

theorem det4_mid [CharZero α] (X : Nat → Nat → α) : det4 X 0 0 = area4 X / 4 := by
  simp only [det4, jac4, part2, map4, N4, corner4, sum_range_succ, sum_range_zero, if_true,
    if_neg one_ne_zero, area4]
  field_simp
  ring

end GF.Element.Quad4
