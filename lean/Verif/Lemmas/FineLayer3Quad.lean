import Verif.Lemmas.Box
import Verif.Props.FineLayer3Tiling
import Verif.Lemmas.Stokes
import Mathlib.Tactic.Linarith
import Mathlib.Tactic.Positivity

/-! Numerical quadrature on the elements of `Mesh::Hex8::FineLayer`. -/

namespace GF
open Finset ElemSpec Element Element.Hex8 FineLayerSpec

section
variable {α : Type} [Field α] [CharZero α]

theorem jac8_dir0 (X : Nat → Nat → α) (ξ η ζ : α) (d : Nat) : jac8 X ξ η ζ 0 d =
    ((X 1 d - X 0 d) * (1 - η) * (1 - ζ) + (X 2 d - X 3 d) * (1 + η) * (1 - ζ) +
      (X 5 d - X 4 d) * (1 - η) * (1 + ζ) + (X 6 d - X 7 d) * (1 + η) * (1 + ζ)) / 8 := by
  simp only [jac8, part3, map8, sum_range_succ, sum_range_zero, N8, corner8, corner4]
  norm_num
  ring

theorem jac8_dir1 (X : Nat → Nat → α) (ξ η ζ : α) (d : Nat) : jac8 X ξ η ζ 1 d =
    ((X 3 d - X 0 d) * (1 - ξ) * (1 - ζ) + (X 2 d - X 1 d) * (1 + ξ) * (1 - ζ) +
      (X 7 d - X 4 d) * (1 - ξ) * (1 + ζ) + (X 6 d - X 5 d) * (1 + ξ) * (1 + ζ)) / 8 := by
  simp only [jac8, part3, map8, sum_range_succ, sum_range_zero, N8, corner8, corner4]
  norm_num
  ring

theorem jac8_dir2 (X : Nat → Nat → α) (ξ η ζ : α) (d : Nat) : jac8 X ξ η ζ 2 d =
    ((X 4 d - X 0 d) * (1 - ξ) * (1 - η) + (X 5 d - X 1 d) * (1 + ξ) * (1 - η) +
      (X 7 d - X 3 d) * (1 - ξ) * (1 + η) + (X 6 d - X 2 d) * (1 + ξ) * (1 + η)) / 8 := by
  simp only [jac8, part3, map8, sum_range_succ, sum_range_zero, N8, corner8, corner4]
  norm_num
  ring

variable {X C : Nat → Nat → α} {o u : Nat → α}

/-- stretching an element -/
theorem jac8_scaled (hX : ∀ j d, j < 8 → d < 3 → X j d = o d + u d * C j d) {i d : Nat} (hi : i < 3) (hd : d < 3) (ξ η ζ : α) :
    jac8 X ξ η ζ i d = u d * jac8 C ξ η ζ i d := by
  have h := fun j (hj : j < 8) => hX j d hj hd
  interval_cases i
  · simp only [jac8_dir0, h 0 (by omega), h 1 (by omega), h 2 (by omega), h 3 (by omega), h 4 (by omega), h 5 (by omega),
      h 6 (by omega), h 7 (by omega)]
    ring
  · simp only [jac8_dir1, h 0 (by omega), h 1 (by omega), h 2 (by omega), h 3 (by omega), h 4 (by omega), h 5 (by omega),
      h 6 (by omega), h 7 (by omega)]
    ring
  · simp only [jac8_dir2, h 0 (by omega), h 1 (by omega), h 2 (by omega), h 3 (by omega), h 4 (by omega), h 5 (by omega),
      h 6 (by omega), h 7 (by omega)]
    ring

theorem det8_scaled (hX : ∀ j d, j < 8 → d < 3 → X j d = o d + u d * C j d) (ξ η ζ : α) :
    det8 X ξ η ζ = u 0 * u 1 * u 2 * det8 C ξ η ζ := by
  have h := fun {i d} (hi : i < 3) (hd : d < 3) => jac8_scaled hX hi hd ξ η ζ
  simp only [det8, matDet3, h (show 0 < 3 by omega) (show 0 < 3 by omega), h (show 0 < 3 by omega) (show 1 < 3 by omega),
    h (show 0 < 3 by omega) (show 2 < 3 by omega), h (show 1 < 3 by omega) (show 0 < 3 by omega),
    h (show 1 < 3 by omega) (show 1 < 3 by omega), h (show 1 < 3 by omega) (show 2 < 3 by omega),
    h (show 2 < 3 by omega) (show 0 < 3 by omega), h (show 2 < 3 by omega) (show 1 < 3 by omega),
    h (show 2 < 3 by omega) (show 2 < 3 by omega)]
  ring

/-- the corners of an element of a block, in units of length -/
def FineLayerSpec.Kind3.shape (K : Kind3) (q j d : Nat) : α := (K.corner q j d : α)

/-- coefficients of the Jacobian determinant of the elements of a block, in units of length: 16 times the value at the centre,
and 16 times the three partial derivatives -/
def FineLayerSpec.Kind3.dets : Kind3 → List (List Int)
  | .normal => [[2, 0, 0, 0]]
  | .xBelow => [[4, 0, -2, 0], [3, 0, -1, 0], [2, 0, 0, 0], [3, -1, 0, 0]]
  | .xAbove => [[3, -1, 0, 0], [2, 0, 0, 0], [3, 1, 0, 0], [4, 0, 2, 0]]
  | .zBelow => [[4, 0, 0, -2], [3, 0, 0, 1], [2, 0, 0, 0], [3, 0, 0, -1]]
  | .zAbove => [[3, 0, 0, -1], [2, 0, 0, 0], [3, 0, 0, 1], [4, 0, 2, 0]]

def FineLayerSpec.Kind3.det (K : Kind3) (q k : Nat) : Int := (K.dets.getD q []).getD k 0

theorem FineLayerSpec.Kind3.det8_shape (K : Kind3) {q : Nat} (hq : q < K.tiles) (ξ η ζ : α) :
    det8 (K.shape q) ξ η ζ = ((K.det q 0 : α) + K.det q 1 * ξ + K.det q 2 * η + K.det q 3 * ζ) / 16 := by
  cases K <;> simp only [Kind3.tiles] at hq <;> interval_cases q <;>
    simp only [det8, matDet3, jac8_dir0, jac8_dir1, jac8_dir2, Kind3.shape, Kind3.corner, Kind3.corners, Kind3.det, Kind3.dets,
      List.getD_cons_zero, List.getD_cons_succ] <;> norm_num <;> ring

/-- for every transition block there is an element of which the vertical position depends on a horizontal local coordinate -/
theorem FineLayerSpec.Kind3.skew {K : Kind3} (hK : K ≠ .normal) : ∃ q i τ, q < K.tiles ∧ i < 3 ∧ i ≠ 1 ∧ (τ = (1 : α) ∨ τ = -1) ∧
    ∀ ξ η ζ : α, 4 * jac8 (K.shape q) ξ η ζ i 1 = τ * (1 - τ * η) := by
  cases K
  · exact absurd rfl hK
  · refine ⟨3, 0, 1, by decide, by omega, by omega, Or.inl rfl, fun ξ η ζ => ?_⟩
    simp only [jac8_dir0, Kind3.shape, Kind3.corner, Kind3.corners, List.getD_cons_zero, List.getD_cons_succ]
    norm_num; ring
  · refine ⟨0, 0, -1, by decide, by omega, by omega, Or.inr rfl, fun ξ η ζ => ?_⟩
    simp only [jac8_dir0, Kind3.shape, Kind3.corner, Kind3.corners, List.getD_cons_zero, List.getD_cons_succ]
    norm_num; ring
  · refine ⟨3, 2, 1, by decide, by omega, by omega, Or.inl rfl, fun ξ η ζ => ?_⟩
    simp only [jac8_dir2, Kind3.shape, Kind3.corner, Kind3.corners, List.getD_cons_zero, List.getD_cons_succ]
    norm_num; ring
  · refine ⟨0, 2, -1, by decide, by omega, by omega, Or.inr rfl, fun ξ η ζ => ?_⟩
    simp only [jac8_dir2, Kind3.shape, Kind3.corner, Kind3.corners, List.getD_cons_zero, List.getD_cons_succ]
    norm_num; ring

theorem gauss8_odd (a b c d s : α) :
    ∑ q ∈ range 8, (a + b * (s * corner8 q 0) + c * (s * corner8 q 1) + d * (s * corner8 q 2)) / 16 = a / 2 := by
  simp only [sum_range_succ, sum_range_zero, corner8, corner4]
  norm_num
  ring

/-- the volumes at the eight integration points add up to the volume of the element, wherever they are -/
theorem FineLayerSpec.Kind3.gauss_shape (K : Kind3) {q : Nat} (hq : q < K.tiles) (s : α) :
    ∑ k ∈ range 8, det8 (K.shape q) (s * corner8 k 0) (s * corner8 k 1) (s * corner8 k 2) = (K.det q 0 : α) / 2 := by
  simp only [K.det8_shape hq]
  exact gauss8_odd _ _ _ _ s

/-- the elements of a block fill it -/
theorem FineLayerSpec.Kind3.sum_shape (K : Kind3) : ∑ q ∈ range K.tiles, (K.det q 0 : α) / 2 = (K.nx : α) * K.ny * K.nz := by
  cases K <;> simp [Kind3.tiles, Kind3.nx, Kind3.ny, Kind3.nz, Kind3.det, Kind3.dets, sum_range_succ] <;> norm_num

end

variable {α : Type} [Field α] [LinearOrder α] [IsStrictOrderedRing α]

theorem FineLayerSpec.Kind3.det8_pos (K : Kind3) {q : Nat} (hq : q < K.tiles) {ξ η ζ : α} (h0 : -1 ≤ ξ ∧ ξ ≤ 1) (h1 : -1 ≤ η ∧ η ≤ 1)
    (h2 : -1 ≤ ζ ∧ ζ ≤ 1) : 0 < det8 (K.shape q) ξ η ζ := by
  rw [K.det8_shape hq]
  obtain ⟨a1, a2⟩ := h0
  obtain ⟨b1, b2⟩ := h1
  obtain ⟨c1, c2⟩ := h2
  cases K <;> simp only [Kind3.tiles] at hq <;> interval_cases q <;>
    simp only [Kind3.det, Kind3.dets, List.getD_cons_zero, List.getD_cons_succ] <;> push_cast <;> linarith

end GF
