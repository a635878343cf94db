import Verif.Props.PeriodicCell
import Mathlib.Tactic.LinearCombination

/-! The energy of a bilinear displacement of a square element, and of the same displacement on `r` x `r` squares (for C116). -/

namespace GF
open Finset ElemSpec Element Element.Quad4

namespace RefineEnergy
variable {α : Type} [Field α] [LinearOrder α] [IsStrictOrderedRing α]

/-- mean gradient of a square of side `h` with displacement `v m j` of its corners -/
def mean (h : α) (v : Nat → Nat → α) (i j : Nat) : α :=
  if i = 0 then ((v 1 j - v 0 j) + (v 2 j - v 3 j)) / (2 * h) else ((v 3 j - v 0 j) + (v 2 j - v 1 j)) / (2 * h)

/-- the part of the gradient that varies -/
def vary (h : α) (v : Nat → Nat → α) (k i j : Nat) : α :=
  if i = k then ((v 0 j - v 1 j) + (v 2 j - v 3 j)) / (2 * h) else 0

/-- the gradient in a square of side `h` -/
theorem square_grad {h : α} (hh : 0 < h) (s : α) {X : Nat → Nat → Nat → α} {v : Nat → Nat → Nat → α} {e : Nat} {p0 p1 : α}
    (X00 : X e 0 0 = p0) (X01 : X e 0 1 = p1) (X10 : X e 1 0 = p0 + h) (X11 : X e 1 1 = p1)
    (X20 : X e 2 0 = p0 + h) (X21 : X e 2 1 = p1 + h) (X30 : X e 3 0 = p0) (X31 : X e 3 1 = p1 + h) (q : Nat) :
    (∀ i j, i < 2 → grad 4 (Gf (D4 fun q i => s * corner4 q i) X) v e q i j =
      mean h (v e) i j + s * corner4 q 1 * vary h (v e) 0 i j + s * corner4 q 0 * vary h (v e) 1 i j) ∧
    det4 (X e) (s * corner4 q 0) (s * corner4 q 1) = h * h / 4 := by
  have J0 : ∀ j, Jf (D4 fun q i => s * corner4 q i) X e q 0 j =
      ((X e 1 j - X e 0 j) * (1 - s * corner4 q 1) + (X e 2 j - X e 3 j) * (1 + s * corner4 q 1)) / 4 := by
    intro j
    simp only [Jf, sum_range_succ, sum_range_zero, zero_add, (D4_form _ _ _).1, corner4]
    ring
  have J1 : ∀ j, Jf (D4 fun q i => s * corner4 q i) X e q 1 j =
      ((X e 3 j - X e 0 j) * (1 - s * corner4 q 0) + (X e 2 j - X e 1 j) * (1 + s * corner4 q 0)) / 4 := by
    intro j
    simp only [Jf, sum_range_succ, sum_range_zero, zero_add, (D4_form _ _ _).2, corner4]
    ring
  have a00 : Jf (D4 fun q i => s * corner4 q i) X e q 0 0 = h / 2 := by rw [J0, X00, X10, X20, X30]; ring
  have a01 : Jf (D4 fun q i => s * corner4 q i) X e q 0 1 = 0 := by rw [J0, X01, X11, X21, X31]; ring
  have a10 : Jf (D4 fun q i => s * corner4 q i) X e q 1 0 = 0 := by rw [J1, X00, X10, X20, X30]; ring
  have a11 : Jf (D4 fun q i => s * corner4 q i) X e q 1 1 = h / 2 := by rw [J1, X01, X11, X21, X31]; ring
  have h0 : h ≠ 0 := hh.ne'
  have i00 : inv2f (Jf (D4 fun q i => s * corner4 q i) X e q) 0 0 = 2 / h := by simp only [inv2f, a00, a01, a10, a11]; field_simp; ring
  have i01 : inv2f (Jf (D4 fun q i => s * corner4 q i) X e q) 0 1 = 0 := by simp only [inv2f, a01]; simp
  have i10 : inv2f (Jf (D4 fun q i => s * corner4 q i) X e q) 1 0 = 0 := by simp only [inv2f, a10]; simp
  have i11 : inv2f (Jf (D4 fun q i => s * corner4 q i) X e q) 1 1 = 2 / h := by simp only [inv2f, a00, a01, a10, a11]; field_simp; ring
  have G0 : ∀ m, Gf (D4 fun q i => s * corner4 q i) X e q m 0 = 2 / h * (corner4 m 0 * (1 + corner4 m 1 * (s * corner4 q 1)) / 4) := by
    intro m
    rw [Gf, sum_range_succ, sum_range_succ, sum_range_zero, i00, i01, (D4_form _ _ _).1]
    ring
  have G1 : ∀ m, Gf (D4 fun q i => s * corner4 q i) X e q m 1 = 2 / h * (corner4 m 1 * (1 + corner4 m 0 * (s * corner4 q 0)) / 4) := by
    intro m
    rw [Gf, sum_range_succ, sum_range_succ, sum_range_zero, i10, i11, (D4_form _ _ _).2]
    ring
  constructor
  · intro i j hi
    obtain rfl | rfl : i = 0 ∨ i = 1 := by omega
    · simp only [grad, sum_range_succ, sum_range_zero, zero_add, G0]
      generalize s * corner4 q 1 = z
      generalize s * corner4 q 0 = y
      simp only [corner4, mean, vary]
      norm_num
      field_simp
      ring
    · simp only [grad, sum_range_succ, sum_range_zero, zero_add, G1]
      generalize s * corner4 q 1 = z
      generalize s * corner4 q 0 = y
      simp only [corner4, mean, vary]
      norm_num
      field_simp
      ring
  · rw [← detf_eq (fun q i => s * corner4 q i) X e q, detf, a00, a01, a10, a11]
    ring

/-- quadratic form of a stiffness -/
abbrev quad (C : Nat → Nat → Nat → Nat → α) (g : Nat → Nat → α) : α := power 2 (ddot 2 C g) g

theorem quad_expand (C : Nat → Nat → Nat → Nat → α) (A E F : Nat → Nat → α) : ∃ l m n : α, ∀ η ξ : α,
    quad C (fun i j => A i j + η * E i j + ξ * F i j) = quad C A + η * l + ξ * m + η * ξ * n + η ^ 2 * quad C E + ξ ^ 2 * quad C F := by
  refine ⟨power 2 (ddot 2 C A) E + power 2 (ddot 2 C E) A, power 2 (ddot 2 C A) F + power 2 (ddot 2 C F) A,
    power 2 (ddot 2 C E) F + power 2 (ddot 2 C F) E, fun η ξ => ?_⟩
  simp only [quad, power, ddot, sum_range_succ, sum_range_zero, zero_add]
  ring

theorem quad_congr {C : Nat → Nat → Nat → Nat → α} {g g' : Nat → Nat → α} (h : ∀ i j, i < 2 → j < 2 → g i j = g' i j) : quad C g = quad C g' := by
  simp only [quad, power, ddot, sum_range_succ, sum_range_zero, zero_add, h 0 0 (by omega) (by omega), h 0 1 (by omega) (by omega),
    h 1 0 (by omega) (by omega), h 1 1 (by omega) (by omega)]

/-- energy of one square element by the 2 x 2 Gauss points -/
theorem square_energy {s : α} (hs : 3 * s ^ 2 = 1) (C : Nat → Nat → Nat → Nat → α) (h : α) (v : Nat → Nat → α) :
    ∑ q ∈ range 4, quad C (fun i j => mean h v i j + s * corner4 q 1 * vary h v 0 i j + s * corner4 q 0 * vary h v 1 i j) * (h * h / 4) =
      h * h * (quad C (mean h v) + (quad C (vary h v 0) + quad C (vary h v 1)) / 3) := by
  obtain ⟨l, m, n, H⟩ := quad_expand C (mean h v) (vary h v 0) (vary h v 1)
  simp only [H, sum_range_succ, sum_range_zero, zero_add, corner4]
  linear_combination (h * h * (quad C (vary h v 0) + quad C (vary h v 1)) / 3) * hs

/-- corner values of the square `(a, b)` of `r` x `r` squares, for a bilinear displacement -/
def part (r : Nat) (v : Nat → Nat → α) (a b m j : Nat) : α :=
  let y : α := if m < 2 then a else a + 1
  let z : α := if m = 0 ∨ m = 3 then b else b + 1
  (((r - y) * ((r - z) * v 0 j + z * v 1 j)) + y * ((r - z) * v 3 j + z * v 2 j)) / (r * r)

theorem part_corner (r : Nat) (v : Nat → Nat → α) (a b j : Nat) :
    part r v a b 0 j = (((r : α) - a) * ((r - b) * v 0 j + b * v 1 j) + a * ((r - b) * v 3 j + b * v 2 j)) / (r * r) ∧
    part r v a b 1 j = (((r : α) - a) * ((r - (b + 1)) * v 0 j + (b + 1) * v 1 j) + a * ((r - (b + 1)) * v 3 j + (b + 1) * v 2 j)) / (r * r) ∧
    part r v a b 2 j = (((r : α) - (a + 1)) * ((r - (b + 1)) * v 0 j + (b + 1) * v 1 j) + (a + 1) * ((r - (b + 1)) * v 3 j + (b + 1) * v 2 j)) / (r * r) ∧
    part r v a b 3 j = (((r : α) - (a + 1)) * ((r - b) * v 0 j + b * v 1 j) + (a + 1) * ((r - b) * v 3 j + b * v 2 j)) / (r * r) := by
  refine ⟨?_, ?_, ?_, ?_⟩ <;> simp [part]

theorem part_grad {r : Nat} (hr : 0 < r) {h : α} (hh : 0 < h) (v : Nat → Nat → α) (a b : Nat) :
    (∀ i j, i < 2 → mean (h / r) (part r v a b) i j = mean h v i j + (2 * a + 1 - r) / r * vary h v 0 i j + (2 * b + 1 - r) / r * vary h v 1 i j) ∧
    ∀ k i j, vary (h / r) (part r v a b) k i j = vary h v k i j / r := by
  have h0 : h ≠ 0 := hh.ne'
  have r0 : (r : α) ≠ 0 := by exact_mod_cast hr.ne'
  constructor
  · intro i j hi
    obtain ⟨p0, p1, p2, p3⟩ := part_corner r v a b j
    obtain rfl | rfl : i = 0 ∨ i = 1 := by omega
    · simp only [mean, vary, p0, p1, p2, p3, if_true, if_neg zero_ne_one]
      field_simp
      ring
    · simp only [mean, vary, p0, p1, p2, p3, if_true, if_neg one_ne_zero]
      field_simp
      ring
  · intro k i j
    obtain ⟨p0, p1, p2, p3⟩ := part_corner r v a b j
    simp only [vary, p0, p1, p2, p3]
    split_ifs
    · field_simp
      ring
    · simp

theorem sum_odd (r : α) (n : Nat) : ∑ a ∈ range n, (2 * (a : α) + 1 - r) = n * (n - r) := by
  induction n with
  | zero => simp
  | succ n ih => rw [sum_range_succ, ih]; push_cast; ring

theorem sum_odd2 (r : α) (n : Nat) : ∑ a ∈ range n, (2 * (a : α) + 1 - r) ^ 2 = n * (4 * n ^ 2 - 1) / 3 - 2 * r * n ^ 2 + r ^ 2 * n := by
  induction n with
  | zero => simp
  | succ n ih => rw [sum_range_succ, ih]; push_cast; ring

/-- a bilinear displacement has the same energy on the `r` x `r` squares as on the large one -/
theorem parts_energy {r : Nat} (hr : 0 < r) {h : α} (hh : 0 < h) (C : Nat → Nat → Nat → Nat → α) (v : Nat → Nat → α) :
    ∑ a ∈ range r, ∑ b ∈ range r, h / r * (h / r) * (quad C (mean (h / r) (part r v a b)) +
        (quad C (vary (h / r) (part r v a b) 0) + quad C (vary (h / r) (part r v a b) 1)) / 3) =
      h * h * (quad C (mean h v) + (quad C (vary h v 0) + quad C (vary h v 1)) / 3) := by
  have r0 : (r : α) ≠ 0 := by exact_mod_cast hr.ne'
  obtain ⟨l, m, n, H⟩ := quad_expand C (mean h v) (vary h v 0) (vary h v 1)
  have hv : ∀ k a b, quad C (vary (h / r) (part r v a b) k) = quad C (vary h v k) / (r * r) := by
    intro k a b
    rw [quad_congr (g' := fun i j => vary h v k i j / r) fun i j _ _ => (part_grad hr hh v a b).2 k i j]
    simp only [quad, power, ddot, sum_range_succ, sum_range_zero, zero_add]
    field_simp
  have hm : ∀ a b : Nat, quad C (mean (h / r) (part r v a b)) = quad C (mean h v) + (2 * a + 1 - r) / r * l + (2 * b + 1 - r) / r * m +
      (2 * a + 1 - r) / r * ((2 * b + 1 - r) / r) * n + ((2 * a + 1 - r) / r) ^ 2 * quad C (vary h v 0) + ((2 * b + 1 - r) / r) ^ 2 * quad C (vary h v 1) := by
    intro a b
    rw [← H, quad_congr fun i j hi _ => (part_grad hr hh v a b).1 i j hi]
  have S1 : ∑ a ∈ range r, (2 * (a : α) + 1 - r) = 0 := by rw [sum_odd]; ring
  have S2 : ∑ a ∈ range r, (2 * (a : α) + 1 - r) ^ 2 = (r : α) * ((r : α) ^ 2 - 1) / 3 := by rw [sum_odd2]; ring
  have T1 : ∀ k : α, ∑ b ∈ range r, (2 * (b : α) + 1 - r) * k = 0 := fun k => by rw [← sum_mul, S1, zero_mul]
  have T2 : ∀ k : α, ∑ b ∈ range r, (2 * (b : α) + 1 - r) ^ 2 * k = (r : α) * ((r : α) ^ 2 - 1) / 3 * k := fun k => by rw [← sum_mul, S2]
  have inner : ∀ a : Nat, ∑ b ∈ range r, h / r * (h / r) * (quad C (mean (h / r) (part r v a b)) +
        (quad C (vary (h / r) (part r v a b) 0) + quad C (vary (h / r) (part r v a b) 1)) / 3) =
      h / r * (h / r) * (r * (quad C (mean h v) + (quad C (vary h v 0) / (r * r) + quad C (vary h v 1) / (r * r)) / 3) +
        r * (r ^ 2 - 1) / 3 * (quad C (vary h v 1) / r ^ 2)) + (2 * (a : α) + 1 - r) * (h / r * (h / r) * l) +
        (2 * (a : α) + 1 - r) ^ 2 * (h / r * (h / r) / r * quad C (vary h v 0)) := by
    intro a
    rw [sum_congr rfl fun b _ => show h / r * (h / r) * (quad C (mean (h / r) (part r v a b)) +
        (quad C (vary (h / r) (part r v a b) 0) + quad C (vary (h / r) (part r v a b) 1)) / 3) =
        (h / r * (h / r) * (quad C (mean h v) + (quad C (vary h v 0) / (r * r) + quad C (vary h v 1) / (r * r)) / 3) +
          (2 * (a : α) + 1 - r) / r * (h / r * (h / r) * l) + (2 * (a : α) + 1 - r) ^ 2 * (h / r * (h / r) / r ^ 2 * quad C (vary h v 0))) +
        (2 * (b : α) + 1 - r) * (h / r * (h / r) * (m / r + (2 * (a : α) + 1 - r) / r * (n / r))) +
        (2 * (b : α) + 1 - r) ^ 2 * (h / r * (h / r) * (quad C (vary h v 1) / r ^ 2)) by rw [hm, hv, hv]; field_simp; ring]
    rw [sum_add_distrib, sum_add_distrib, T1, T2, sum_const, card_range, nsmul_eq_mul]
    field_simp
    ring
  rw [sum_congr rfl fun a _ => inner a, sum_add_distrib, sum_add_distrib, T1, T2, sum_const, card_range, nsmul_eq_mul]
  field_simp
  ring

/-- linear interpolation of nodal values on `r` times as many intervals -/
def lin1 (r : Nat) (v : Nat → α) (t : Nat) : α := (((r : α) - ((t % r : Nat) : α)) * v (t / r) + ((t % r : Nat) : α) * v (t / r + 1)) / r

theorem lin1_at {r : Nat} (hr : 0 < r) (v : Nat → α) {i a : Nat} (ha : a ≤ r) : lin1 r v (i * r + a) = (((r : α) - a) * v i + a * v (i + 1)) / r := by
  have r0 : (r : α) ≠ 0 := by exact_mod_cast hr.ne'
  rcases Nat.lt_or_ge a r with h | h
  · rw [lin1, grid_mod h, grid_div h]
  · obtain rfl : a = r := by omega
    have : i * a + a = (i + 1) * a + 0 := by ring
    rw [lin1, this, grid_mod hr, grid_div hr]
    field_simp
    push_cast
    ring

/-- bilinear interpolation -/
def lin2 (r : Nat) (v : Nat → Nat → α) (y z : Nat) : α := lin1 r (fun i => lin1 r (v i) z) y

theorem lin2_at {r : Nat} (hr : 0 < r) (v : Nat → Nat → α) {i j a b : Nat} (ha : a ≤ r) (hb : b ≤ r) : lin2 r v (i * r + a) (j * r + b) =
    (((r : α) - a) * (((r : α) - b) * v i j + b * v i (j + 1)) + a * (((r : α) - b) * v (i + 1) j + b * v (i + 1) (j + 1))) / (r * r) := by
  have r0 : (r : α) ≠ 0 := by exact_mod_cast hr.ne'
  rw [lin2, lin1_at hr _ ha, lin1_at hr _ hb, lin1_at hr _ hb]
  field_simp

end RefineEnergy
end GF
