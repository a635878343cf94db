import Verif.Lemmas.ElementQuad4Geo
import Verif.Spec.Surface
import Mathlib.Algebra.Order.BigOperators.Group.Finset
import Mathlib.Tactic.LinearCombination
import Mathlib.Tactic.Linarith
import Mathlib.Tactic.FieldSimp

/-! A displacement without strain at the four Gauss points of every element of a mesh of a rectangle is a rigid motion. -/

namespace GF
open Finset ElemSpec

section element
variable {α : Type} [Field α] [CharZero α]

theorem jac4_0 (X : Nat → Nat → α) (ξ η : α) (j : Nat) :
    4 * part2 (map4 X j) 0 ξ η = (1 - η) * (X 1 j - X 0 j) + (1 + η) * (X 2 j - X 3 j) := by
  have h4 : (4 : α) ≠ 0 := by norm_num
  simp only [part2, map4, N4, corner4, sum_range_succ, sum_range_zero, if_true]
  field_simp
  ring

theorem jac4_1 (X : Nat → Nat → α) (ξ η : α) (j : Nat) :
    4 * part2 (map4 X j) 1 ξ η = (1 - ξ) * (X 3 j - X 0 j) + (1 + ξ) * (X 2 j - X 1 j) := by
  have h4 : (4 : α) ≠ 0 := by norm_num
  simp only [part2, map4, N4, corner4, sum_range_succ, sum_range_zero, if_neg (show (1 : Nat) ≠ 0 by omega)]
  field_simp
  ring

/-- two linear equations from opposite Gauss points -/
theorem pair_zero {s p q : α} (hs : s ≠ 0) (h1 : (1 + s) * p + (1 - s) * q = 0) (h2 : (1 - s) * p + (1 + s) * q = 0) :
    p = 0 ∧ q = 0 := by
  have e1 : p + q = 0 := by
    have : 2 * (p + q) = 0 := by linear_combination h1 + h2
    exact (mul_eq_zero.1 this).resolve_left (by norm_num)
  have e2 : p - q = 0 := by
    have : 2 * s * (p - q) = 0 := by linear_combination h1 - h2
    exact (mul_eq_zero.1 this).resolve_left (mul_ne_zero (by norm_num) hs)
  constructor
  · have : 2 * p = 0 := by linear_combination e1 + e2
    exact (mul_eq_zero.1 this).resolve_left (by norm_num)
  · have : 2 * q = 0 := by linear_combination e1 - e2
    exact (mul_eq_zero.1 this).resolve_left (by norm_num)

/-- an element without strain at its four Gauss points moves rigidly -/
theorem elem_rigid {X U : Nat → Nat → α} {s : α} (hs : s ≠ 0) {g : Nat → Nat → Nat → α}
    (hdet : ∀ q, q < 4 → det4 X (s * corner4 q 0) (s * corner4 q 1) ≠ 0)
    (hch : ∀ q k j, q < 4 → k < 2 → j < 2 → ∑ i ∈ range 2, jac4 X (s * corner4 q 0) (s * corner4 q 1) k i * g q i j =
      part2 (map4 U j) k (s * corner4 q 0) (s * corner4 q 1))
    (hg : ∀ q, q < 4 → g q 0 0 = 0 ∧ g q 1 1 = 0 ∧ g q 0 1 + g q 1 0 = 0) :
    ∃ θ b₀ b₁, ∀ m, m < 4 → U m 0 = b₀ - θ * X m 1 ∧ U m 1 = b₁ + θ * X m 0 := by
  have row : ∀ q k, q < 4 → k < 2 →
      part2 (map4 U 0) k (s * corner4 q 0) (s * corner4 q 1) = - g q 0 1 * part2 (map4 X 1) k (s * corner4 q 0) (s * corner4 q 1) ∧
      part2 (map4 U 1) k (s * corner4 q 0) (s * corner4 q 1) = g q 0 1 * part2 (map4 X 0) k (s * corner4 q 0) (s * corner4 q 1) := by
    intro q k hq hk
    obtain ⟨g0, g1, g2⟩ := hg q hq
    have h0 := hch q k 0 hq hk (by omega)
    have h1 := hch q k 1 hq hk (by omega)
    simp only [sum_range_succ, sum_range_zero, jac4, g0, g1] at h0 h1
    have g2' : g q 1 0 = - g q 0 1 := by linear_combination g2
    rw [g2'] at h0
    exact ⟨by rw [← h0]; ring, by rw [← h1]; ring⟩
  have R0 : ∀ q, q < 4 → _ := fun q hq => row q 0 hq (by omega)
  have R1 : ∀ q, q < 4 → _ := fun q hq => row q 1 hq (by omega)
  -- with the factor 4 and explicit differences
  have E0 : ∀ q, q < 4 →
      (1 - s * corner4 q 1) * (U 1 0 - U 0 0) + (1 + s * corner4 q 1) * (U 2 0 - U 3 0) =
        - g q 0 1 * ((1 - s * corner4 q 1) * (X 1 1 - X 0 1) + (1 + s * corner4 q 1) * (X 2 1 - X 3 1)) ∧
      (1 - s * corner4 q 1) * (U 1 1 - U 0 1) + (1 + s * corner4 q 1) * (U 2 1 - U 3 1) =
        g q 0 1 * ((1 - s * corner4 q 1) * (X 1 0 - X 0 0) + (1 + s * corner4 q 1) * (X 2 0 - X 3 0)) := by
    intro q hq
    obtain ⟨r0, r1⟩ := R0 q hq
    rw [← jac4_0 U (s * corner4 q 0), ← jac4_0 U (s * corner4 q 0), ← jac4_0 X (s * corner4 q 0), ← jac4_0 X (s * corner4 q 0), r0, r1]
    exact ⟨by ring, by ring⟩
  have E1 : ∀ q, q < 4 →
      (1 - s * corner4 q 0) * (U 3 0 - U 0 0) + (1 + s * corner4 q 0) * (U 2 0 - U 1 0) =
        - g q 0 1 * ((1 - s * corner4 q 0) * (X 3 1 - X 0 1) + (1 + s * corner4 q 0) * (X 2 1 - X 1 1)) ∧
      (1 - s * corner4 q 0) * (U 3 1 - U 0 1) + (1 + s * corner4 q 0) * (U 2 1 - U 1 1) =
        g q 0 1 * ((1 - s * corner4 q 0) * (X 3 0 - X 0 0) + (1 + s * corner4 q 0) * (X 2 0 - X 1 0)) := by
    intro q hq
    obtain ⟨r0, r1⟩ := R1 q hq
    rw [← jac4_1 U _ (s * corner4 q 1), ← jac4_1 U _ (s * corner4 q 1), ← jac4_1 X _ (s * corner4 q 1),
      ← jac4_1 X _ (s * corner4 q 1), r0, r1]
    exact ⟨by ring, by ring⟩
  have hd : ∀ q, q < 4 →
      ((1 - s * corner4 q 1) * (X 1 0 - X 0 0) + (1 + s * corner4 q 1) * (X 2 0 - X 3 0)) *
        ((1 - s * corner4 q 0) * (X 3 1 - X 0 1) + (1 + s * corner4 q 0) * (X 2 1 - X 1 1)) -
      ((1 - s * corner4 q 1) * (X 1 1 - X 0 1) + (1 + s * corner4 q 1) * (X 2 1 - X 3 1)) *
        ((1 - s * corner4 q 0) * (X 3 0 - X 0 0) + (1 + s * corner4 q 0) * (X 2 0 - X 1 0)) ≠ 0 := by
    intro q hq h
    refine hdet q hq ?_
    rw [← jac4_0 X (s * corner4 q 0), ← jac4_0 X (s * corner4 q 0), ← jac4_1 X _ (s * corner4 q 1), ← jac4_1 X _ (s * corner4 q 1)] at h
    have : (16 : α) * det4 X (s * corner4 q 0) (s * corner4 q 1) = 0 := by
      simp only [det4, jac4]
      linear_combination h
    exact (mul_eq_zero.1 this).resolve_left (by norm_num)
  have c : (corner4 0 0 : α) = -1 ∧ (corner4 0 1 : α) = -1 ∧ (corner4 1 0 : α) = 1 ∧ (corner4 1 1 : α) = -1 ∧
      (corner4 2 0 : α) = 1 ∧ (corner4 2 1 : α) = 1 ∧ (corner4 3 0 : α) = -1 ∧ (corner4 3 1 : α) = 1 :=
    ⟨rfl, rfl, rfl, rfl, rfl, rfl, rfl, rfl⟩
  obtain ⟨c00, c01, c10, c11, c20, c21, c30, c31⟩ := c
  -- equal rotation if a nonzero tangent is shared
  have same : ∀ {t t' a b a' b' : α}, a * b' - b * a' ≠ 0 → - t * b = - t' * b → t * a = t' * a → t = t' := by
    intro t t' a b a' b' h h1 h2
    have e1 : (t - t') * b = 0 := by linear_combination - h1
    have e2 : (t - t') * a = 0 := by linear_combination h2
    by_contra hne
    have hne' : t - t' ≠ 0 := sub_ne_zero.2 hne
    have a0 := (mul_eq_zero.1 e2).resolve_left hne'
    have b0 := (mul_eq_zero.1 e1).resolve_left hne'
    exact h (by rw [a0, b0]; ring)
  have same' : ∀ {t t' a b a' b' : α}, a * b' - b * a' ≠ 0 → - t * b' = - t' * b' → t * a' = t' * a' → t = t' := by
    intro t t' a b a' b' h h1 h2
    exact same (a := a') (b := b') (a' := a) (b' := b) (fun e => h (by linear_combination - e)) h1 h2
  have t01 : g 0 0 1 = g 1 0 1 := by
    have h0 := E0 0 (by omega); have h1 := E0 1 (by omega)
    rw [c01] at h0; rw [c11] at h1
    have hh := hd 0 (by omega)
    rw [c01, c00] at hh
    exact same hh (h0.1.symm.trans h1.1) (h0.2.symm.trans h1.2)
  have t32 : g 3 0 1 = g 2 0 1 := by
    have h0 := E0 3 (by omega); have h1 := E0 2 (by omega)
    rw [c31] at h0; rw [c21] at h1
    have hh := hd 3 (by omega)
    rw [c31, c30] at hh
    exact same hh (h0.1.symm.trans h1.1) (h0.2.symm.trans h1.2)
  have t03 : g 0 0 1 = g 3 0 1 := by
    have h0 := E1 0 (by omega); have h1 := E1 3 (by omega)
    rw [c00] at h0; rw [c30] at h1
    have hh := hd 0 (by omega)
    rw [c01, c00] at hh
    exact same' hh (h0.1.symm.trans h1.1) (h0.2.symm.trans h1.2)
  have a0 := E0 0 (by omega); have a2 := E0 2 (by omega)
  have b0 := E1 0 (by omega); have b2 := E1 2 (by omega)
  rw [c01] at a0; rw [c00] at b0; rw [c21] at a2; rw [c20] at b2
  rw [← t32, ← t03] at a2 b2
  obtain ⟨p1, p2⟩ := pair_zero hs (p := (U 1 0 - U 0 0) + g 0 0 1 * (X 1 1 - X 0 1)) (q := (U 2 0 - U 3 0) + g 0 0 1 * (X 2 1 - X 3 1))
    (by linear_combination a0.1) (by linear_combination a2.1)
  obtain ⟨p3, p4⟩ := pair_zero hs (p := (U 1 1 - U 0 1) - g 0 0 1 * (X 1 0 - X 0 0)) (q := (U 2 1 - U 3 1) - g 0 0 1 * (X 2 0 - X 3 0))
    (by linear_combination a0.2) (by linear_combination a2.2)
  obtain ⟨p5, p6⟩ := pair_zero hs (p := (U 3 0 - U 0 0) + g 0 0 1 * (X 3 1 - X 0 1)) (q := (U 2 0 - U 1 0) + g 0 0 1 * (X 2 1 - X 1 1))
    (by linear_combination b0.1) (by linear_combination b2.1)
  obtain ⟨p7, p8⟩ := pair_zero hs (p := (U 3 1 - U 0 1) - g 0 0 1 * (X 3 0 - X 0 0)) (q := (U 2 1 - U 1 1) - g 0 0 1 * (X 2 0 - X 1 0))
    (by linear_combination b0.2) (by linear_combination b2.2)
  refine ⟨g 0 0 1, U 0 0 + g 0 0 1 * X 0 1, U 0 1 - g 0 0 1 * X 0 0, fun m hm => ?_⟩
  have : m = 0 ∨ m = 1 ∨ m = 2 ∨ m = 3 := by omega
  rcases this with rfl | rfl | rfl | rfl
  · exact ⟨by ring, by ring⟩
  · exact ⟨by linear_combination p1, by linear_combination p3⟩
  · exact ⟨by linear_combination p6 + p1, by linear_combination p8 + p3⟩
  · exact ⟨by linear_combination p5, by linear_combination p7⟩

/-- two rigid motions that agree at two different points are equal -/
theorem rigid_unique {x y x' y' θ b₀ b₁ θ' b₀' b₁' : α} (hne : ¬ (x = x' ∧ y = y'))
    (h1 : b₀ - θ * y = b₀' - θ' * y) (h2 : b₁ + θ * x = b₁' + θ' * x)
    (h3 : b₀ - θ * y' = b₀' - θ' * y') (h4 : b₁ + θ * x' = b₁' + θ' * x') : θ = θ' ∧ b₀ = b₀' ∧ b₁ = b₁' := by
  have e1 : (θ - θ') * (y - y') = 0 := by linear_combination h3 - h1
  have e2 : (θ - θ') * (x - x') = 0 := by linear_combination h2 - h4
  have ht : θ = θ' := by
    by_contra h
    have h' := sub_ne_zero.2 h
    exact hne ⟨sub_eq_zero.1 ((mul_eq_zero.1 e2).resolve_left h'), sub_eq_zero.1 ((mul_eq_zero.1 e1).resolve_left h')⟩
  subst ht
  exact ⟨rfl, by linear_combination h1, by linear_combination h2⟩

end element

section mesh
variable {α : Type} [Field α] [LinearOrder α] [IsStrictOrderedRing α]

theorem mono_lt {l : Nat} {t : Nat → α} (mono : ∀ i, i + 1 < l → t i < t (i + 1)) {i j : Nat} (hij : i < j) (hj : j < l) : t i < t j := by
  induction j with
  | zero => omega
  | succ j ih =>
    rcases Nat.lt_or_ge i j with h | h
    · exact (ih h (by omega)).trans (mono j hj)
    · obtain rfl : i = j := by omega
      exact mono i hj

section side
variable {l : Nat} {t : Nat → α} {r : Nat → Prop} [DecidablePred r]

theorem side_nonneg (mono : ∀ i, i + 1 < l → t i < t (i + 1)) {i : Nat} (hi : i + 1 < l) : 0 ≤ if r i then t (i + 1) - t i else 0 := by
  split
  · exact (sub_pos.2 (mono i hi)).le
  · exact le_rfl

theorem side_pos (mono : ∀ i, i + 1 < l → t i < t (i + 1)) {i : Nat} (hi : i + 1 < l) (hr : r i) :
    0 < ∑ i ∈ range (l - 1), if r i then t (i + 1) - t i else 0 := by
  refine sum_pos' (fun j hj => side_nonneg mono (by rw [mem_range] at hj; omega)) ⟨i, by rw [mem_range]; omega, ?_⟩
  rw [if_pos hr]
  exact sub_pos.2 (mono i hi)

theorem side_full (mono : ∀ i, i + 1 < l → t i < t (i + 1))
    (h : ∑ i ∈ range (l - 1), (if r i then t (i + 1) - t i else 0) = t (l - 1) - t 0) {i : Nat} (hi : i + 1 < l) : r i := by
  rw [← sum_range_sub t (l - 1), ← sub_eq_zero, ← neg_eq_zero, neg_sub, ← sum_sub_distrib] at h
  rw [sum_eq_zero_iff_of_nonneg] at h
  · have := h i (by rw [mem_range]; omega)
    by_contra hr
    rw [if_neg hr, sub_zero] at this
    exact (sub_pos.2 (mono i hi)).ne' this
  · intro j hj
    rw [mem_range] at hj
    have := mono j (by omega)
    split
    · rw [sub_self]
    · rw [sub_zero]; exact (sub_pos.2 this).le

end side

variable {nn ne : Nat} {c : Nat → Nat → Nat} {x : Nat → Nat → α} {Lx Ly : α} {O : Outline}

/-- the corners of an edge of a convex quadrilateral are different -/
theorem convex_edge {X : Nat → Nat → α} (h : Convex4 X) {a : Nat} (ha : a < 4) :
    ¬ (X a 0 = X ((a + 1) % 4) 0 ∧ X a 1 = X ((a + 1) % 4) 1) := by
  rintro ⟨e0, e1⟩
  simp only [Convex4, turn] at h
  obtain ⟨h1, h2, h3, h4⟩ := h
  have : a = 0 ∨ a = 1 ∨ a = 2 ∨ a = 3 := by omega
  rcases this with rfl | rfl | rfl | rfl <;> norm_num at e0 e1
  · rw [e0, e1] at h1; exact absurd h1 (by ring_nf; exact lt_irrefl _)
  · rw [e0, e1] at h2; exact absurd h2 (by ring_nf; exact lt_irrefl _)
  · rw [e0, e1] at h3; exact absurd h3 (by ring_nf; exact lt_irrefl _)
  · rw [e0, e1] at h4; exact absurd h4 (by ring_nf; exact lt_irrefl _)

/-- node `m` moves with the given rigid motion -/
def Rig (x U : Nat → Nat → α) (θ b₀ b₁ : α) (m : Nat) : Prop := U m 0 = b₀ - θ * x m 1 ∧ U m 1 = b₁ + θ * x m 0

open Classical in
/-- sums over the boundary edges that follow a rigid motion are sums over the elements that do -/
theorem rig_stokes (hM : RectMesh nn ne c x Lx Ly O) {U : Nat → Nat → α}
    (hU : ∀ e, e < ne → ∃ θ b₀ b₁, ∀ a, a < 4 → Rig x U θ b₀ b₁ (c e a)) (θ b₀ b₁ : α) (f : Nat → Nat → α) (hf : ∀ p q, f q p = - f p q) :
    O.sum (fun p q => if Rig x U θ b₀ b₁ p ∧ Rig x U θ b₀ b₁ q then f p q else 0) =
      ∑ e ∈ range ne, if (∀ a, a < 4 → Rig x U θ b₀ b₁ (c e a)) then ∑ a ∈ range 4, f (c e a) (c e ((a + 1) % 4)) else 0 := by
  rw [Outline.sum, ← hM.perimeter.stokes (fun p q => if Rig x U θ b₀ b₁ p ∧ Rig x U θ b₀ b₁ q then f p q else 0) (fun p q => by
    beta_reduce
    by_cases h : Rig x U θ b₀ b₁ p ∧ Rig x U θ b₀ b₁ q
    · rw [if_pos h, if_pos h.symm, hf]
    · rw [if_neg h, if_neg (fun h' => h h'.symm), neg_zero]), edgeSum]
  refine sum_congr rfl fun e he => ?_
  rw [mem_range] at he
  by_cases h : ∀ a, a < 4 → Rig x U θ b₀ b₁ (c e a)
  · rw [if_pos h]
    refine sum_congr rfl fun a ha => ?_
    rw [mem_range] at ha
    rw [if_pos ⟨h a ha, h _ (Nat.mod_lt _ (by omega))⟩]
  · rw [if_neg h]
    refine sum_eq_zero fun a ha => ?_
    rw [mem_range] at ha
    refine if_neg fun hr => h ?_
    obtain ⟨θ', b₀', b₁', h'⟩ := hU e he
    have r1 := h' a ha
    have r2 := h' ((a + 1) % 4) (Nat.mod_lt _ (by omega))
    obtain ⟨rfl, rfl, rfl⟩ := rigid_unique (convex_edge (hM.convex e he) ha) (hr.1.1.symm.trans r1.1) (hr.1.2.symm.trans r1.2)
      (hr.2.1.symm.trans r2.1) (hr.2.2.symm.trans r2.2)
    exact h'

theorem pathSum_first {l : Nat} {P : Nat → Nat} {f : Nat → Nat → α} (hl : 1 < l)
    (h : ∀ i, 0 < i → i + 1 < l → f (P i) (P (i + 1)) = 0) : pathSum l P f = f (P 0) (P 1) :=
  sum_eq_single 0 (fun i hi h0 => h i (by omega) (by rw [mem_range] at hi; omega)) fun h' => absurd (by rw [mem_range]; omega) h'

theorem pathSum_last {l : Nat} {P : Nat → Nat} {f : Nat → Nat → α} (hl : 1 < l)
    (h : ∀ i, i + 2 < l → f (P i) (P (i + 1)) = 0) : pathSum l P f = f (P (l - 2)) (P (l - 1)) := by
  have := sum_eq_single (s := range (l - 1)) (f := fun i => f (P i) (P (i + 1))) (l - 2)
    (fun i hi h0 => h i (by rw [mem_range] at hi; omega)) fun h' => absurd (by rw [mem_range]; omega) h'
  rw [pathSum, this, show l - 2 + 1 = l - 1 by omega]

theorem pathSum_none {l : Nat} {P : Nat → Nat} {f : Nat → Nat → α}
    (h : ∀ i, i + 1 < l → f (P i) (P (i + 1)) = 0) : pathSum l P f = 0 :=
  sum_eq_zero fun i hi => h i (by rw [mem_range] at hi; omega)

theorem pathSum_some {l : Nat} {P : Nat → Nat} {f : Nat → Nat → α} (h : pathSum l P f ≠ 0) :
    ∃ i, i + 1 < l ∧ f (P i) (P (i + 1)) ≠ 0 := by
  by_contra hc
  push Not at hc
  exact h (pathSum_none hc)

/-- positions of the corners -/
theorem RectMesh.corners (hM : RectMesh nn ne c x Lx Ly O) : x (O.bottom 0) 0 = 0 ∧ x (O.bottom (O.nb - 1)) 0 = Lx ∧
    x (O.left 0) 1 = 0 ∧ x (O.left (O.nl - 1)) 1 = Ly := by
  obtain ⟨s1, s2, s3, s4⟩ := hM.sizes
  refine ⟨?_, ?_, ?_, ?_⟩
  · rw [hM.perimeter.bl]; exact (hM.left 0 s3).2
  · rw [hM.perimeter.br]; exact (hM.right 0 (by omega)).2.1
  · rw [← hM.perimeter.bl]; exact (hM.bottom 0 s1).2
  · rw [← hM.perimeter.tl]; exact (hM.top 0 (by omega)).2.1

open Classical in
/-- a rigid motion followed by one element is followed by all nodes of the boundary -/
theorem rig_boundary (hM : RectMesh nn ne c x Lx Ly O) (lx : 0 < Lx) (ly : 0 < Ly) {U : Nat → Nat → α}
    (hU : ∀ e, e < ne → ∃ θ b₀ b₁, ∀ a, a < 4 → Rig x U θ b₀ b₁ (c e a)) {θ b₀ b₁ : α} {e0 : Nat} (he0 : e0 < ne)
    (h0 : ∀ a, a < 4 → Rig x U θ b₀ b₁ (c e0 a)) : ∀ i, i < O.nb → Rig x U θ b₀ b₁ (O.bottom i) := by
  obtain ⟨s1, s2, s3, s4⟩ := hM.sizes
  obtain ⟨k1, k2, k3, k4⟩ := hM.corners
  have nb2 : 1 < O.nb := by
    by_contra h
    rw [show O.nb - 1 = 0 by omega, k1] at k2
    exact lx.ne k2
  have nl2 : 1 < O.nl := by
    by_contra h
    rw [show O.nl - 1 = 0 by omega, k3] at k4
    exact ly.ne k4
  obtain ⟨R, hR⟩ : ∃ R : Nat → Prop, ∀ m, Rig x U θ b₀ b₁ m = R m := ⟨_, fun _ => rfl⟩
  have St := rig_stokes hM hU θ b₀ b₁
  simp only [hR] at St h0 ⊢
  have yb : ∀ i, i < O.nb → x (O.bottom i) 1 = 0 := fun i hi => (hM.bottom i hi).2
  have yt : ∀ i, i < O.nb → x (O.top i) 1 = Ly := fun i hi => (hM.top i (by omega)).2.1
  have xt : ∀ i, i < O.nb → x (O.top i) 0 = x (O.bottom i) 0 := fun i hi => (hM.top i (by omega)).2.2
  have xl : ∀ i, i < O.nl → x (O.left i) 0 = 0 := fun i hi => (hM.left i hi).2
  have xr : ∀ i, i < O.nl → x (O.right i) 0 = Lx := fun i hi => (hM.right i (by omega)).2.1
  have yr : ∀ i, i < O.nl → x (O.right i) 1 = x (O.left i) 1 := fun i hi => (hM.right i (by omega)).2.2
  have bm := hM.bottom_mono
  have lm := hM.left_mono
  have blt : ∀ i, i + 1 < O.nb → x (O.bottom i) 0 < Lx := fun i hi => by
    have := mono_lt (t := fun i => x (O.bottom i) 0) bm (i := i) (j := O.nb - 1) (by omega) (by omega)
    rw [← k2]; exact this
  have bgt : ∀ i, 0 < i → i < O.nb → 0 < x (O.bottom i) 0 := fun i h hi => by
    have := mono_lt (t := fun i => x (O.bottom i) 0) bm h hi
    rw [← k1]; exact this
  have llt : ∀ i, i + 1 < O.nl → x (O.left i) 1 < Ly := fun i hi => by
    have := mono_lt (t := fun i => x (O.left i) 1) lm (i := i) (j := O.nl - 1) (by omega) (by omega)
    rw [← k4]; exact this
  have lgt : ∀ i, 0 < i → i < O.nl → 0 < x (O.left i) 1 := fun i h hi => by
    have := mono_lt (t := fun i => x (O.left i) 1) lm h hi
    rw [← k3]; exact this
  -- closed: sums of differences vanish
  have D : ∀ φ : Nat → α, O.sum (fun p q => if R p ∧ R q then φ q - φ p else 0) = 0 := by
    intro φ
    rw [St (fun p q => φ q - φ p) (fun p q => by ring)]
    refine sum_eq_zero fun e _ => ?_
    split
    · simp only [sum_range_succ, sum_range_zero]
      norm_num
    · rfl
  -- the four sums of lengths
  have hB : ∑ i ∈ range (O.nb - 1), (if R (O.bottom i) ∧ R (O.bottom (i + 1)) then x (O.bottom (i + 1)) 0 - x (O.bottom i) 0 else 0) =
      if R (O.right 0) ∧ R (O.right 1) then Lx else 0 := by
    have h := D fun m => if x m 1 = 0 then x m 0 else 0
    rw [Outline.sum, pathSum_first (l := O.nr) (by omega), pathSum_none (l := O.nt), pathSum_none (l := O.nl)] at h
    · rw [xr 0 s3, xr 1 nl2, yr 0 s3, yr 1 nl2, if_neg (lgt 1 (by omega) nl2).ne', k3, if_pos rfl, zero_sub, sub_zero, sub_zero] at h
      have e : pathSum O.nb O.bottom (fun p q => if R p ∧ R q then (if x q 1 = 0 then x q 0 else 0) - (if x p 1 = 0 then x p 0 else 0) else 0) =
          ∑ i ∈ range (O.nb - 1), (if R (O.bottom i) ∧ R (O.bottom (i + 1)) then x (O.bottom (i + 1)) 0 - x (O.bottom i) 0 else 0) := by
        refine sum_congr rfl fun i hi => ?_
        rw [mem_range] at hi
        beta_reduce
        rw [yb i (by omega), yb (i + 1) (by omega), if_pos rfl, if_pos rfl]
      rw [e] at h
      rw [eq_neg_of_add_eq_zero_left h]
      split <;> simp
    · intro i hi
      rw [xl i (by omega), xl (i + 1) (by omega)]
      simp
    · intro i hi
      rw [yt i (by omega), yt (i + 1) (by omega)]
      simp [ly.ne']
    · intro i hi hi'
      rw [yr i (by omega), yr (i + 1) (by omega), if_neg (lgt i hi (by omega)).ne', if_neg (lgt (i + 1) (by omega) (by omega)).ne']
      simp
  have hRt : ∑ i ∈ range (O.nl - 1), (if R (O.right i) ∧ R (O.right (i + 1)) then x (O.left (i + 1)) 1 - x (O.left i) 1 else 0) =
      if R (O.top (O.nb - 2)) ∧ R (O.top (O.nb - 1)) then Ly else 0 := by
    have h := D fun m => if x m 0 = Lx then x m 1 else 0
    rw [Outline.sum, pathSum_none (l := O.nb), pathSum_last (l := O.nt) (by omega), pathSum_none (l := O.nl)] at h
    · rw [s2, xt (O.nb - 2) (by omega), xt (O.nb - 1) (by omega), yt _ (by omega), yt _ (by omega), if_neg (blt (O.nb - 2) (by omega)).ne, k2, if_pos rfl,
        zero_add, sub_zero, sub_zero] at h
      have e : pathSum O.nr O.right (fun p q => if R p ∧ R q then (if x q 0 = Lx then x q 1 else 0) - (if x p 0 = Lx then x p 1 else 0) else 0) =
          ∑ i ∈ range (O.nl - 1), (if R (O.right i) ∧ R (O.right (i + 1)) then x (O.left (i + 1)) 1 - x (O.left i) 1 else 0) := by
        rw [pathSum, s4]
        refine sum_congr rfl fun i hi => ?_
        rw [mem_range] at hi
        beta_reduce
        rw [xr i (by omega), xr (i + 1) (by omega), if_pos rfl, if_pos rfl, yr i (by omega), yr (i + 1) (by omega)]
      rw [e] at h
      exact sub_eq_zero.1 h
    · intro i hi
      rw [xl i (by omega), xl (i + 1) (by omega)]
      simp [lx.ne]
    · intro i hi
      rw [xt i (by omega), xt (i + 1) (by omega), if_neg (blt i (by omega)).ne, if_neg (blt (i + 1) (by omega)).ne]
      simp
    · intro i hi
      rw [yb i (by omega), yb (i + 1) (by omega)]
      simp
  have hT : ∑ i ∈ range (O.nb - 1), (if R (O.top i) ∧ R (O.top (i + 1)) then x (O.bottom (i + 1)) 0 - x (O.bottom i) 0 else 0) =
      if R (O.left (O.nl - 2)) ∧ R (O.left (O.nl - 1)) then Lx else 0 := by
    have h := D fun m => if x m 1 = Ly then x m 0 - Lx else 0
    rw [Outline.sum, pathSum_none (l := O.nb), pathSum_none (l := O.nr), pathSum_last (l := O.nl) (by omega)] at h
    · rw [xl _ (by omega), xl _ (by omega), if_neg (llt (O.nl - 2) (by omega)).ne, k4, if_pos rfl, sub_zero, zero_add, zero_sub, zero_sub] at h
      have e : pathSum O.nt O.top (fun p q => if R p ∧ R q then (if x q 1 = Ly then x q 0 - Lx else 0) - (if x p 1 = Ly then x p 0 - Lx else 0) else 0) =
          ∑ i ∈ range (O.nb - 1), (if R (O.top i) ∧ R (O.top (i + 1)) then x (O.bottom (i + 1)) 0 - x (O.bottom i) 0 else 0) := by
        rw [pathSum, s2]
        refine sum_congr rfl fun i hi => ?_
        rw [mem_range] at hi
        beta_reduce
        rw [yt i (by omega), yt (i + 1) (by omega), if_pos rfl, if_pos rfl, xt i (by omega), xt (i + 1) (by omega), sub_sub_sub_cancel_right]
      rw [e] at h
      have h' : ∑ i ∈ range (O.nb - 1), (if R (O.top i) ∧ R (O.top (i + 1)) then x (O.bottom (i + 1)) 0 - x (O.bottom i) 0 else 0) =
        - (if R (O.left (O.nl - 2)) ∧ R (O.left (O.nl - 1)) then - Lx else 0) := by linear_combination - h
      rw [h']
      split <;> simp
    · intro i hi
      rw [if_neg (llt i (by omega)).ne, if_neg (llt (i + 1) (by omega)).ne]
      simp
    · intro i hi
      rw [xr i (by omega), xr (i + 1) (by omega)]
      simp
    · intro i hi
      rw [yb i (by omega), yb (i + 1) (by omega)]
      simp [ly.ne]
  have hLt : ∑ i ∈ range (O.nl - 1), (if R (O.left i) ∧ R (O.left (i + 1)) then x (O.left (i + 1)) 1 - x (O.left i) 1 else 0) =
      if R (O.bottom 0) ∧ R (O.bottom 1) then Ly else 0 := by
    have h := D fun m => if x m 0 = 0 then x m 1 - Ly else 0
    rw [Outline.sum, pathSum_first (l := O.nb) (by omega), pathSum_none (l := O.nr), pathSum_none (l := O.nt)] at h
    · rw [if_neg (bgt 1 (by omega) nb2).ne', k1, if_pos rfl, yb 0 s1, zero_sub, zero_sub, neg_neg, add_zero, sub_zero] at h
      have e : pathSum O.nl O.left (fun p q => if R p ∧ R q then (if x q 0 = 0 then x q 1 - Ly else 0) - (if x p 0 = 0 then x p 1 - Ly else 0) else 0) =
          ∑ i ∈ range (O.nl - 1), (if R (O.left i) ∧ R (O.left (i + 1)) then x (O.left (i + 1)) 1 - x (O.left i) 1 else 0) := by
        refine sum_congr rfl fun i hi => ?_
        rw [mem_range] at hi
        beta_reduce
        rw [xl i (by omega), xl (i + 1) (by omega), if_pos rfl, if_pos rfl, sub_sub_sub_cancel_right]
      rw [e] at h
      exact (sub_eq_zero.1 h).symm
    · intro i hi
      rw [yt i (by omega), yt (i + 1) (by omega)]
      simp
    · intro i hi
      rw [xr i (by omega), xr (i + 1) (by omega)]
      simp [lx.ne']
    · intro i hi hi'
      rw [if_neg (bgt i hi (by omega)).ne', if_neg (bgt (i + 1) (by omega) (by omega)).ne']
      simp
  -- from one side to the next
  have allL : (R (O.bottom 0) ∧ R (O.bottom 1)) → ∀ i, i + 1 < O.nl → R (O.left i) ∧ R (O.left (i + 1)) := by
    intro h i hi
    rw [if_pos h] at hLt
    exact side_full (t := fun i => x (O.left i) 1) (r := fun i => R (O.left i) ∧ R (O.left (i + 1))) lm (hLt.trans (by rw [k3, k4, sub_zero])) hi
  have allT : (R (O.left (O.nl - 2)) ∧ R (O.left (O.nl - 1))) → ∀ i, i + 1 < O.nb → R (O.top i) ∧ R (O.top (i + 1)) := by
    intro h i hi
    rw [if_pos h] at hT
    exact side_full (t := fun i => x (O.bottom i) 0) (r := fun i => R (O.top i) ∧ R (O.top (i + 1))) bm (hT.trans (by rw [k1, k2, sub_zero])) hi
  have allR : (R (O.top (O.nb - 2)) ∧ R (O.top (O.nb - 1))) → ∀ i, i + 1 < O.nl → R (O.right i) ∧ R (O.right (i + 1)) := by
    intro h i hi
    rw [if_pos h] at hRt
    exact side_full (t := fun i => x (O.left i) 1) (r := fun i => R (O.right i) ∧ R (O.right (i + 1))) lm (hRt.trans (by rw [k3, k4, sub_zero])) hi
  have allB : (R (O.right 0) ∧ R (O.right 1)) → ∀ i, i + 1 < O.nb → R (O.bottom i) ∧ R (O.bottom (i + 1)) := by
    intro h i hi
    rw [if_pos h] at hB
    exact side_full (t := fun i => x (O.bottom i) 0) (r := fun i => R (O.bottom i) ∧ R (O.bottom (i + 1))) bm (hB.trans (by rw [k1, k2, sub_zero])) hi
  have someT : ∀ i, i + 1 < O.nb → R (O.top i) ∧ R (O.top (i + 1)) → R (O.left (O.nl - 2)) ∧ R (O.left (O.nl - 1)) := by
    intro i hi h
    by_contra hn
    rw [if_neg hn] at hT
    exact (side_pos (t := fun i => x (O.bottom i) 0) (r := fun i => R (O.top i) ∧ R (O.top (i + 1))) bm hi h).ne' hT
  have someR : ∀ i, i + 1 < O.nl → R (O.right i) ∧ R (O.right (i + 1)) → R (O.top (O.nb - 2)) ∧ R (O.top (O.nb - 1)) := by
    intro i hi h
    by_contra hn
    rw [if_neg hn] at hRt
    exact (side_pos (t := fun i => x (O.left i) 1) (r := fun i => R (O.right i) ∧ R (O.right (i + 1))) lm hi h).ne' hRt
  have someL : ∀ i, i + 1 < O.nl → R (O.left i) ∧ R (O.left (i + 1)) → R (O.bottom 0) ∧ R (O.bottom 1) := by
    intro i hi h
    by_contra hn
    rw [if_neg hn] at hLt
    exact (side_pos (t := fun i => x (O.left i) 1) (r := fun i => R (O.left i) ∧ R (O.left (i + 1))) lm hi h).ne' hLt
  have ht : R (O.left (O.nl - 2)) ∧ R (O.left (O.nl - 1)) → ∀ i, i + 1 < O.nb → R (O.bottom i) ∧ R (O.bottom (i + 1)) := by
    intro h
    have a := allT h (O.nb - 2) (by omega)
    rw [show O.nb - 2 + 1 = O.nb - 1 by omega] at a
    exact allB (allR a 0 (by omega))
  -- the area of the element is not zero, so some edge of the boundary follows
  have hA : ∀ i, i + 1 < O.nb → R (O.bottom i) ∧ R (O.bottom (i + 1)) := by
    have h := St (fun p q => x p 0 * x q 1 - x q 0 * x p 1) (fun p q => by ring)
    have hpos : 0 < O.sum (fun p q => if R p ∧ R q then x p 0 * x q 1 - x q 0 * x p 1 else 0) := by
      rw [h]
      have ar : ∀ e, e < ne → 0 < ∑ a ∈ range 4, (x (c e a) 0 * x (c e ((a + 1) % 4)) 1 - x (c e ((a + 1) % 4)) 0 * x (c e a) 1) := by
        intro e he
        have := hM.convex e he
        simp only [Convex4, turn] at this
        simp only [sum_range_succ, sum_range_zero]
        norm_num
        linarith [this.1, this.2.1, this.2.2.1, this.2.2.2]
      refine sum_pos' (fun e he => ?_) ⟨e0, mem_range.2 he0, ?_⟩
      · rw [mem_range] at he
        split
        · exact (ar e he).le
        · exact le_rfl
      · rw [if_pos h0]; exact ar e0 he0
    rw [Outline.sum, pathSum_none (l := O.nb), pathSum_none (l := O.nl)] at hpos
    · rw [zero_add, sub_zero] at hpos
      by_cases hz : pathSum O.nt O.top (fun p q => if R p ∧ R q then x p 0 * x q 1 - x q 0 * x p 1 else 0) = 0
      · rw [hz, sub_zero] at hpos
        obtain ⟨i, hi, h⟩ := pathSum_some hpos.ne'
        have hr : R (O.right i) ∧ R (O.right (i + 1)) := by
          by_contra hn
          exact h (if_neg hn)
        have a := someR i (by omega) hr
        exact ht (someT (O.nb - 2) (by omega) (by rw [show O.nb - 2 + 1 = O.nb - 1 by omega]; exact a))
      · obtain ⟨i, hi, h⟩ := pathSum_some hz
        have hr : R (O.top i) ∧ R (O.top (i + 1)) := by
          by_contra hn
          exact h (if_neg hn)
        exact ht (someT i (by omega) hr)
    · intro i hi
      rw [xl i (by omega), xl (i + 1) (by omega)]
      simp
    · intro i hi
      rw [yb i (by omega), yb (i + 1) (by omega)]
      simp
  intro i hi
  rcases Nat.lt_or_ge (i + 1) O.nb with h | h
  · exact (hA i h).1
  · have := (hA (i - 1) (by omega)).2
    rwa [show i - 1 + 1 = i by omega] at this

/-- if every element moves rigidly the whole mesh moves rigidly -/
theorem mesh_rigid (hM : RectMesh nn ne c x Lx Ly O) (lx : 0 < Lx) (ly : 0 < Ly) {U : Nat → Nat → α}
    (hU : ∀ e, e < ne → ∃ θ b₀ b₁, ∀ a, a < 4 → Rig x U θ b₀ b₁ (c e a)) : ∃ θ b₀ b₁, ∀ m, m < nn → Rig x U θ b₀ b₁ m := by
  obtain ⟨e0, a0, he0, -, -⟩ := hM.used lx ly 0 hM.nodes
  obtain ⟨θ, b₀, b₁, h0⟩ := hU e0 he0
  refine ⟨θ, b₀, b₁, fun m hm => ?_⟩
  obtain ⟨e, a, he, ha, rfl⟩ := hM.used lx ly m hm
  obtain ⟨θ', b₀', b₁', h1⟩ := hU e he
  obtain ⟨s1, s2, s3, s4⟩ := hM.sizes
  obtain ⟨k1, k2, k3, k4⟩ := hM.corners
  have p := rig_boundary hM lx ly hU he0 h0
  have q := rig_boundary hM lx ly hU he h1
  obtain ⟨rfl, rfl, rfl⟩ := rigid_unique (x := x (O.bottom 0) 0) (y := x (O.bottom 0) 1) (x' := x (O.bottom (O.nb - 1)) 0)
    (y' := x (O.bottom (O.nb - 1)) 1) (fun h => lx.ne (by rw [← k1, ← k2]; exact h.1))
    ((p 0 s1).1.symm.trans (q 0 s1).1) ((p 0 s1).2.symm.trans (q 0 s1).2)
    ((p (O.nb - 1) (by omega)).1.symm.trans (q (O.nb - 1) (by omega)).1) ((p (O.nb - 1) (by omega)).2.symm.trans (q (O.nb - 1) (by omega)).2)
  exact h1 a ha

end mesh
end GF
