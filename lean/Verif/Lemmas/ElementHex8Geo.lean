import Verif.Lemmas.ElementHex8
import Mathlib.Tactic.FieldSimp
import Mathlib.Tactic.NormNum

/-! Geometry of the eight-node element. -/

namespace GF.Element.Hex8
open Finset ElemSpec Quad4

variable {α : Type} [Field α]

theorem new_ok [CharZero α] {x xi w : Ten α} {ne nip : Nat} {X Ξ W} (hx : Is3 x ne 8 3 X)
    (hxi : Is2 xi nip 3 Ξ) (hw : Is1 w nip W) (σ : Sched) :
    ∃ Q, new σ x xi w = .ok Q ∧
      Holds Q 8 3 3 ne nip (fun q m => N8 m (Ξ q 0) (Ξ q 1) (Ξ q 2)) (G8 (D8 Ξ) X)
        (fun e q => W q * dt3 (J8 (D8 Ξ) X e q)) ∧
      Is3 Q.dNxi nip 8 3 (D8 Ξ) ∧ Q.x = x ∧ Q.w = w := by
  obtain ⟨N, h1, h2⟩ := shapeN_ok hxi
  obtain ⟨D, h3, h4⟩ := shapeDN_ok hxi
  obtain ⟨g, v, h5, h6, h7⟩ := compute_dN_ok (Q := ⟨8, 3, 3, ne, nip, x, w, xi, N, D, Ten.empty [ne, nip, 8, 3],
      Ten.empty [ne, nip]⟩) rfl rfl rfl rfl h4 hx hw rfl rfl σ
  refine ⟨⟨8, 3, 3, ne, nip, x, w, xi, N, D, g, v⟩, ?_, ⟨rfl, rfl, rfl, rfl, rfl, h2, h6, h7⟩, h4, rfl, rfl⟩
  rw [new, hw.1, hx.1]
  dsimp only
  rw [h1, Res.ok_bind, h3, Res.ok_bind, h5]

theorem live_holds [CharZero α] {ne nip : Nat} {Ξ W} {Q : Quadrature α} {X}
    (h : Live ne nip Ξ W Q X) :
    Holds Q 8 3 3 ne nip (fun q m => N8 m (Ξ q 0) (Ξ q 1) (Ξ q 2)) (G8 (D8 Ξ) X)
        (fun e q => W q * dt3 (J8 (D8 Ξ) X e q)) ∧ Is3 Q.dNxi nip 8 3 (D8 Ξ) ∧
      Is3 Q.x ne 8 3 X ∧ Is1 Q.w nip W := by
  induction h with
  | new hx hxi hw h =>
    obtain ⟨Q, h1, h2, h3, h4, h5⟩ := new_ok hx hxi hw _
    rw [h] at h1
    cases h1
    exact ⟨h2, h3, by rw [h4]; exact hx, by rw [h5]; exact hw⟩
  | @update σ x Q Q' X X' hQ hx h ih =>
    obtain ⟨h1, h2, h3, h4⟩ := ih
    obtain ⟨g, v, h5, h6, h7⟩ := compute_dN_ok (Q := { Q with x := x }) h1.nne_eq h1.nd_eq h1.ne_eq h1.nip_eq h2 hx h4
      h1.G_is.1 h1.V_is.1 σ
    rw [update_x, h5] at h
    cases h
    exact ⟨⟨h1.nne_eq, h1.nd_eq, h1.td_eq, h1.ne_eq, h1.nip_eq, h1.N_is, h6, h7⟩, h2, hx, h4⟩

theorem update_ok [CharZero α] {ne nip : Nat} {Ξ W} {Q : Quadrature α} {X}
    (h : Live ne nip Ξ W Q X) (σ : Sched) {x : Ten α} {X'} (hx : Is3 x ne 8 3 X') :
    ∃ Q', update_x σ Q x = .ok Q' := by
  obtain ⟨h1, h2, h3, h4⟩ := live_holds h
  obtain ⟨g, v, h5, h6, h7⟩ := compute_dN_ok (Q := { Q with x := x }) h1.nne_eq h1.nd_eq h1.ne_eq h1.nip_eq h2 hx h4
      h1.G_is.1 h1.V_is.1 σ
  exact ⟨_, h5⟩

theorem N8_sum [CharZero α] (ξ η ζ : α) : ∑ m ∈ range 8, N8 m ξ η ζ = 1 := by
  simp only [sum_range_succ, sum_range_zero, N8, corner8, corner4]
  norm_num
  field_simp
  ring

theorem N8_corner [CharZero α] {m n : Nat} (hm : m < 8) (hn : n < 8) :
    N8 m (corner8 n 0 : α) (corner8 n 1) (corner8 n 2) = if m = n then 1 else 0 := by
  interval_cases m <;> interval_cases n <;> simp [N8, corner8, corner4] <;> norm_num

theorem N8_deriv0 (m : Nat) (ξ η ζ δ : α) : N8 m (ξ + δ) η ζ = N8 m ξ η ζ + part3 (N8 m) 0 ξ η ζ * δ := by
  simp only [N8, part3, if_true]
  ring

theorem N8_deriv1 (m : Nat) (ξ η ζ δ : α) : N8 m ξ (η + δ) ζ = N8 m ξ η ζ + part3 (N8 m) 1 ξ η ζ * δ := by
  simp only [N8, part3, if_true, if_neg one_ne_zero]
  ring

theorem N8_deriv2 (m : Nat) (ξ η ζ δ : α) : N8 m ξ η (ζ + δ) = N8 m ξ η ζ + part3 (N8 m) 2 ξ η ζ * δ := by
  simp only [N8, part3, if_neg two_ne_zero, if_neg (show (2:ℕ) ≠ 1 by decide)]
  ring

theorem part3_map8 (X : Nat → Nat → α) (j i : Nat) (ξ η ζ : α) :
    part3 (map8 X j) i ξ η ζ = ∑ m ∈ range 8, part3 (N8 m) i ξ η ζ * X m j := by
  simp only [part3, map8]
  split
  · rw [← sum_sub_distrib]; exact sum_congr rfl fun m _ => by ring
  · split
    · rw [← sum_sub_distrib]; exact sum_congr rfl fun m _ => by ring
    · rw [← sum_sub_distrib]; exact sum_congr rfl fun m _ => by ring

theorem J8_eq (Ξ : Nat → Nat → α) (X : Nat → Nat → Nat → α) (e q i j : Nat) :
    J8 (D8 Ξ) X e q i j = jac8 (X e) (Ξ q 0) (Ξ q 1) (Ξ q 2) i j := by
  rw [jac8, part3_map8]; rfl

theorem J8_eq' (Ξ : Nat → Nat → α) (X : Nat → Nat → Nat → α) (e q : Nat) :
    J8 (D8 Ξ) X e q = jac8 (X e) (Ξ q 0) (Ξ q 1) (Ξ q 2) := by
  funext i j; exact J8_eq _ _ _ _ _ _

theorem dt3_eq (J : Nat → Nat → α) : dt3 J = matDet3 J := by
  simp only [dt3, det3, matDet3]; ring

theorem dt3_det8 (Ξ : Nat → Nat → α) (X : Nat → Nat → Nat → α) (e q : Nat) :
    dt3 (J8 (D8 Ξ) X e q) = det8 (X e) (Ξ q 0) (Ξ q 1) (Ξ q 2) := by
  rw [dt3_eq, J8_eq', det8]

theorem D8_sum [CharZero α] (Ξ : Nat → Nat → α) (q i : Nat) : ∑ m ∈ range 8, D8 Ξ q m i = 0 := by
  simp only [D8, part3]
  split
  · rw [sum_sub_distrib, N8_sum, N8_sum, sub_self]
  · split
    · rw [sum_sub_distrib, N8_sum, N8_sum, sub_self]
    · rw [sum_sub_distrib, N8_sum, N8_sum, sub_self]

/-- sum of row `i` of the inverse of `J` -/
def rowInv (J : Nat → Nat → α) (i : Nat) : α := ∑ j ∈ range 3, inv3f J i j

theorem G8_eq (D : Nat → Nat → Nat → α) (X : Nat → Nat → Nat → α) (e q m i : Nat) :
    G8 D X e q m i = rowInv (J8 D X e q) i * D q m i := by
  rw [G8, rowInv, sum_mul]

theorem G_sum [CharZero α] (Ξ : Nat → Nat → α) (X : Nat → Nat → Nat → α) (e q i : Nat) :
    ∑ m ∈ range 8, G8 (D8 Ξ) X e q m i = 0 := by
  simp only [G8_eq]
  rw [← mul_sum, D8_sum, mul_zero]

theorem inv3f_mul (J : Nat → Nat → α) (h : matDet3 J ≠ 0) {i j : Nat} (hi : i < 3) (hj : j < 3) :
    ∑ k ∈ range 3, inv3f J i k * J k j = if i = j then 1 else 0 := by
  rw [← dt3_eq] at h
  have h' : det3 (J 0 0) (J 0 1) (J 0 2) (J 1 0) (J 1 1) (J 1 2) (J 2 0) (J 2 1) (J 2 2) ≠ 0 := h
  simp only [sum_range_succ, sum_range_zero, zero_add]
  interval_cases i <;> interval_cases j <;> simp only [inv3f] <;> field_simp <;> simp [det3] <;> ring

/-- the gradient operator as computed -/
theorem grad_eq (Ξ : Nat → Nat → α) (X U : Nat → Nat → Nat → α) (e q i j : Nat) :
    ∑ m ∈ range 8, G8 (D8 Ξ) X e q m i * U e m j =
      rowInv (jac8 (X e) (Ξ q 0) (Ξ q 1) (Ξ q 2)) i * part3 (map8 (U e) j) i (Ξ q 0) (Ξ q 1) (Ξ q 2) := by
  rw [part3_map8, mul_sum]
  refine sum_congr rfl fun m _ => ?_
  rw [G8_eq, J8_eq']
  simp only [D8]
  ring

theorem rowInv_diag (J : Nat → Nat → α) (h : matDet3 J ≠ 0)
    (hd : ∀ i j, i < 3 → j < 3 → i ≠ j → J i j = 0) {i : Nat} (hi : i < 3) : rowInv J i * J i i = 1 := by
  have h1 := inv3f_mul J h hi hi
  have z : ∀ a b, a < 3 → b < 3 → a ≠ b → J a b = 0 := hd
  have e01 := z 0 1 (by omega) (by omega) (by omega)
  have e02 := z 0 2 (by omega) (by omega) (by omega)
  have e10 := z 1 0 (by omega) (by omega) (by omega)
  have e12 := z 1 2 (by omega) (by omega) (by omega)
  have e20 := z 2 0 (by omega) (by omega) (by omega)
  have e21 := z 2 1 (by omega) (by omega) (by omega)
  rw [rowInv]
  simp only [sum_range_succ, sum_range_zero, zero_add, if_true] at h1 ⊢
  interval_cases i <;> simp [inv3f, e01, e02, e10, e12, e20, e21] at h1 ⊢ <;> exact h1

/-- field with affine nodal values: derivatives in the local directions -/
theorem part3_affine [CharZero α] {X U : Nat → Nat → Nat → α} {A : Nat → Nat → α} {b : Nat → α} {ne e j : Nat}
    (hU : AffineField 3 8 ne X U A b) (he : e < ne) (hj : j < 3) (i : Nat) (ξ η ζ : α) :
    part3 (map8 (U e) j) i ξ η ζ = ∑ k ∈ range 3, A j k * jac8 (X e) ξ η ζ i k := by
  have hs := D8_sum (fun _ k => if k = 0 then ξ else if k = 1 then η else ζ) 0 i
  simp only [D8, if_true, if_neg one_ne_zero, if_neg two_ne_zero, if_neg (show (2:ℕ) ≠ 1 by decide)] at hs
  rw [part3_map8, sum_congr rfl fun m hm => by rw [hU e m j he (mem_range.1 hm) hj]]
  simp only [mul_add, sum_add_distrib]
  rw [← sum_mul, hs, zero_mul, zero_add]
  simp only [mul_sum]
  rw [sum_comm]
  refine sum_congr rfl fun k _ => ?_
  rw [jac8, part3_map8, mul_sum]
  exact sum_congr rfl fun m _ => by ring

/-- Jacobian of a parallelepiped -/
theorem jac8_parallelepiped [CharZero α] {X : Nat → Nat → α} {c : Nat → α} {H : Nat → Nat → α} {j : Nat}
    (hX : ∀ m, m < 8 → X m j = c j + ∑ k ∈ range 3, H k j * corner8 m k) {i : Nat} (hi : i < 3) (ξ η ζ : α) :
    jac8 X ξ η ζ i j = H i j := by
  rw [jac8, part3_map8]
  rw [sum_congr rfl fun m hm => by rw [hX m (mem_range.1 hm)]]
  interval_cases i <;> simp [sum_range_succ, part3, N8, corner8, corner4] <;> ring

end GF.Element.Hex8
