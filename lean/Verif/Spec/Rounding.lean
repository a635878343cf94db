import Mathlib.Algebra.Order.Field.Basic
import Mathlib.Algebra.Order.AbsoluteValue.Basic
import Mathlib.Algebra.Order.Round
import Mathlib.Data.Int.Log
import Mathlib.Tactic.Linarith
import Mathlib.Tactic.Positivity
import Mathlib.Tactic.Ring
import Mathlib.Tactic.FieldSimp
import Mathlib.Tactic.NormNum

/-! Rounded arithmetic: the standard model of floating-point computation, and binary floating-point numbers as an instance.

A `Rounding` says how the exact result of one operation is rounded to a representable number; `Rounding.Num` are the
representable numbers, whose `+`, `-`, `*`, `/` are the exact operations followed by one rounding.  The model of the code is
polymorphic in the type of the entries: instantiated with `Rounding.Num` it is the program that a computer runs (each `+=`,
`*`, ... of the source rounds once, in the order in which the source writes it; no fused multiply-add).  Overflow and
underflow are not represented. -/

namespace GF

/-- The standard model of floating-point arithmetic: rounding changes a number by at most the relative amount `u`; rounding
a representable number (one obtained by rounding) does nothing; 1 and 2 are representable. -/
structure Rounding (α : Type) [Field α] [LinearOrder α] where
  /-- round to a representable number -/
  fl : α → α
  /-- the unit round-off -/
  u : α
  u_nonneg : 0 ≤ u
  err : ∀ x, |fl x - x| ≤ u * |x|
  idem : ∀ x, fl (fl x) = fl x
  one : fl 1 = 1
  two : fl 2 = 2

variable {α : Type} [Field α] [LinearOrder α] [IsStrictOrderedRing α]

theorem Rounding.zero (r : Rounding α) : r.fl 0 = 0 := by
  have := r.err 0
  simpa using this

/-- a representable number -/
@[ext] structure Rounding.Num (r : Rounding α) where
  val : α
  rep : r.fl val = val

namespace Rounding.Num
variable {r : Rounding α}

/-- the number that the machine stores for `x` -/
def of (r : Rounding α) (x : α) : r.Num := ⟨r.fl x, r.idem x⟩

instance : Zero r.Num := ⟨⟨0, r.zero⟩⟩
instance : One r.Num := ⟨⟨1, r.one⟩⟩
instance : Add r.Num := ⟨fun x y => of r (x.val + y.val)⟩
instance : Sub r.Num := ⟨fun x y => of r (x.val - y.val)⟩
instance : Mul r.Num := ⟨fun x y => of r (x.val * y.val)⟩
instance : Div r.Num := ⟨fun x y => of r (x.val / y.val)⟩
instance : Neg r.Num := ⟨fun x => of r (-x.val)⟩
instance : NatCast r.Num := ⟨fun n => of r n⟩

end Rounding.Num

/-- the relative error that `n` successive roundings can accumulate -/
def Rounding.acc (r : Rounding α) (n : Nat) : α := (1 + r.u) ^ n - 1

/-! ### binary floating-point numbers -/

section
variable [FloorRing α]

/-- distance between consecutive `p`-bit numbers around `x` -/
def ulp (p : Nat) (x : α) : α := 2 ^ (Int.log 2 |x| + 1 - p : Int)

/-- round to the nearest number with a `p`-bit significand (`p = 53` for `double`), unbounded exponent -/
def roundBits (p : Nat) (x : α) : α := round (x / ulp p x) * ulp p x

theorem ulp_pos (p : Nat) (x : α) : 0 < ulp p x := zpow_pos two_pos _

/-- numbers with a significand of at most `p` bits are not changed by rounding -/
theorem roundBits_rep {p : Nat} (hp : 0 < p) (m e : Int) (hm : |m| ≤ 2 ^ p) :
    roundBits p ((m : α) * 2 ^ e) = m * 2 ^ e := by
  have h2 : (2 : α) ≠ 0 := two_ne_zero
  rcases eq_or_ne m 0 with rfl | h0
  · simp [roundBits]
  obtain ⟨x, hx⟩ : ∃ x, x = (m : α) * 2 ^ e := ⟨_, rfl⟩
  rw [← hx]
  have hpos : 0 < |x| := by
    rw [hx, abs_pos]
    exact mul_ne_zero (by exact_mod_cast h0) (zpow_ne_zero _ h2)
  have hL : (2 : α) ^ Int.log 2 |x| ≤ |x| := by
    have := Int.zpow_log_le_self (b := 2) (by norm_num) hpos
    exact_mod_cast this
  obtain ⟨L, hLe⟩ : ∃ L, L = Int.log 2 |x| := ⟨_, rfl⟩
  rw [← hLe] at hL
  suffices h : ∃ k : Int, x = k * ulp p x by
    obtain ⟨k, hk⟩ := h
    have hu := (ulp_pos p x).ne'
    have : x / ulp p x = k := by rw [div_eq_iff hu]; exact hk
    rw [roundBits, this, round_intCast, ← hk]
  unfold ulp
  rw [← hLe]
  by_cases he : L + 1 - p ≤ e
  · obtain ⟨n, hn⟩ := Int.le.dest he
    refine ⟨m * 2 ^ n, ?_⟩
    rw [hx, ← hn, zpow_add₀ h2]
    push_cast
    rw [zpow_natCast]
    ring
  · have habs : |x| = (|m| : Int) * (2 : α) ^ e := by
      rw [hx, abs_mul, abs_of_pos (zpow_pos (zero_lt_two' α) e)]
      push_cast
      rfl
    have hle : (2 : α) ^ (L - e) ≤ (|m| : Int) := by
      rw [zpow_sub₀ h2, div_le_iff₀ (zpow_pos (zero_lt_two' α) e), ← habs]
      exact hL
    have hm' : ((|m| : Int) : α) ≤ 2 ^ (p : Int) := by
      rw [zpow_natCast]
      exact_mod_cast hm
    have hLe' : L - e = p := by
      have h1 : (2 : α) ^ (L - e) ≤ 2 ^ (p : Int) := hle.trans hm'
      have h2' := (zpow_le_zpow_iff_right₀ (one_lt_two (α := α))).1 h1
      omega
    have hmp : |m| = 2 ^ p := by
      refine le_antisymm hm ?_
      rw [hLe', zpow_natCast] at hle
      exact_mod_cast hle
    have hsign : m = m.sign * 2 ^ p := by rw [← hmp]; exact (Int.sign_mul_abs m).symm
    refine ⟨m.sign * 2 ^ (p - 1), ?_⟩
    have he' : L + 1 - p = e + 1 := by omega
    rw [he', hx, zpow_add_one₀ h2]
    obtain ⟨q, rfl⟩ : ∃ q, p = q + 1 := ⟨p - 1, by omega⟩
    rw [hsign]
    rw [Int.sign_mul, show ((2 : Int) ^ (q + 1)).sign = 1 from Int.sign_eq_one_of_pos (by positivity), mul_one,
      Int.sign_sign, Nat.add_sub_cancel]
    push_cast
    ring

/-- rounding gives a significand of at most `p` bits -/
theorem roundBits_form {p : Nat} (x : α) : ∃ m e : Int, |m| ≤ 2 ^ p ∧ roundBits p x = m * 2 ^ e := by
  refine ⟨round (x / ulp p x), Int.log 2 |x| + 1 - p, ?_, rfl⟩
  rcases eq_or_ne x 0 with rfl | h0
  · simp
  have hlt : |x / ulp p x| < 2 ^ p := by
    rw [abs_div, abs_of_pos (ulp_pos p x), div_lt_iff₀ (ulp_pos p x)]
    unfold ulp
    rw [← zpow_natCast, ← zpow_add₀ two_ne_zero]
    have := Int.lt_zpow_succ_log_self (b := 2) (R := α) (by norm_num) |x|
    have h : (p : Int) + (Int.log 2 |x| + 1 - p) = Int.log 2 |x| + 1 := by ring
    rw [h]
    exact_mod_cast this
  rw [abs_lt] at hlt
  rw [abs_le]
  have key : ∀ y : α, y < 2 ^ p → round y ≤ 2 ^ p := by
    intro y hy
    rw [round_eq]
    have : y + 1 / 2 < (((2 : Int) ^ p + 1 : Int) : α) := by
      push_cast
      have : (1 : α) / 2 < 1 := by norm_num
      linarith
    have := Int.floor_lt.2 this
    omega
  refine ⟨?_, key _ hlt.2⟩
  rw [round_eq, Int.le_floor]
  push_cast
  have : (0 : α) < 1 / 2 := by norm_num
  linarith

theorem roundBits_err (p : Nat) (x : α) : |roundBits p x - x| ≤ 2 ^ (-(p : Int)) * |x| := by
  rcases eq_or_ne x 0 with rfl | h0
  · simp [roundBits]
  have hu := ulp_pos p x
  have h1 : roundBits p x - x = (round (x / ulp p x) - x / ulp p x) * ulp p x := by
    rw [roundBits, sub_mul, div_mul_cancel₀ _ hu.ne']
  have h2 := abs_sub_round (x / ulp p x)
  rw [h1, abs_mul, abs_of_pos hu, abs_sub_comm]
  have h3 : (2 : α) ^ Int.log 2 |x| ≤ |x| := by
    have := Int.zpow_log_le_self (b := 2) (by norm_num) (abs_pos.2 h0)
    exact_mod_cast this
  calc _ ≤ 1 / 2 * ulp p x := mul_le_mul_of_nonneg_right h2 hu.le
    _ = 2 ^ (-(p : Int)) * 2 ^ Int.log 2 |x| := by
      unfold ulp
      rw [← zpow_add₀ two_ne_zero, show Int.log 2 |x| + 1 - (p : Int) = (-(p : Int) + Int.log 2 |x|) + 1 by ring,
        zpow_add_one₀ two_ne_zero]
      ring
    _ ≤ _ := mul_le_mul_of_nonneg_left h3 (zpow_nonneg zero_le_two _)

/-- Binary floating-point arithmetic with `p`-bit significands, rounding to nearest: unit round-off `2⁻ᵖ`. -/
def binary (α : Type) [Field α] [LinearOrder α] [IsStrictOrderedRing α] [FloorRing α] (p : Nat) (hp : 0 < p) : Rounding α where
  fl := roundBits p
  u := 2 ^ (-(p : Int))
  u_nonneg := zpow_nonneg zero_le_two _
  err := roundBits_err p
  idem x := by
    obtain ⟨m, e, hm, h⟩ := roundBits_form (p := p) x
    rw [h, roundBits_rep hp m e hm]
  one := by simpa using roundBits_rep (α := α) hp 1 0 (by rw [abs_one]; exact one_le_pow₀ one_le_two)
  two := by simpa using roundBits_rep (α := α) hp 1 1 (by rw [abs_one]; exact one_le_pow₀ one_le_two)

end
end GF
