import Verif.Lemmas.FineLayer2RegularEntries
import Mathlib.Tactic.Linarith
import Mathlib.Tactic.FieldSimp
import Mathlib.Tactic.LinearCombination

namespace GF
open FineLayerSpec ElemSpec Finset
namespace FineLayer2Regular
open FineLayer
variable {α : Type} [Field α] [LinearOrder α] [IsStrictOrderedRing α]

/-- the points of element `q` of a block, in local coordinates -/
def InTile (K : Kind) (q : Nat) (a P Q : α) : Prop :=
  match K, q with
  | .normal, _ => 0 ≤ P ∧ P ≤ a ∧ 0 ≤ Q ∧ Q ≤ a
  | .below, 0 => 0 ≤ Q ∧ Q ≤ a ∧ Q ≤ P ∧ P + Q ≤ 3 * a
  | .below, 1 => 2 * a ≤ P ∧ P ≤ 3 * a ∧ 3 * a ≤ P + Q ∧ Q ≤ 2 * a
  | .below, 2 => a ≤ P ∧ P ≤ 2 * a ∧ a ≤ Q ∧ Q ≤ 2 * a
  | .below, _ => 0 ≤ P ∧ P ≤ a ∧ P ≤ Q ∧ Q ≤ 2 * a
  | .above, 0 => 0 ≤ P ∧ P ≤ a ∧ 0 ≤ Q ∧ P + Q ≤ 2 * a
  | .above, 1 => a ≤ P ∧ P ≤ 2 * a ∧ 0 ≤ Q ∧ Q ≤ a
  | .above, 2 => 2 * a ≤ P ∧ P ≤ 3 * a ∧ 0 ≤ Q ∧ Q + a ≤ P
  | .above, _ => a ≤ Q ∧ Q ≤ 2 * a ∧ 2 * a ≤ P + Q ∧ P ≤ Q + a

omit [IsStrictOrderedRing α] in
theorem ball4 {p : Nat → Prop} : (∀ j, j < 4 → p j) ↔ p 0 ∧ p 1 ∧ p 2 ∧ p 3 := by
  constructor
  · intro h; exact ⟨h 0 (by omega), h 1 (by omega), h 2 (by omega), h 3 (by omega)⟩
  · rintro ⟨h0, h1, h2, h3⟩ j hj
    obtain rfl | rfl | rfl | rfl : j = 0 ∨ j = 1 ∨ j = 2 ∨ j = 3 := by omega
    all_goals assumption

theorem edges_iff {K : Kind} {q : Nat} (hq : q < K.tiles) (a P Q : α) :
    (∀ j, j < 4 → 0 ≤ edge K q a P Q j) ↔ InTile K q a P Q := by
  rw [ball4]
  cases K
  · simp only [Kind.tiles] at hq
    interval_cases q
    simp [edge, Kind.corner, Kind.corners, InTile, -and_congr_right_iff]
    constructor
    · rintro ⟨h0, h1, h2, h3⟩; exact ⟨h3, by linarith, h0, by linarith⟩
    · rintro ⟨h0, h1, h2, h3⟩; exact ⟨h2, by linarith, by linarith, h0⟩
  all_goals
    simp only [Kind.tiles] at hq
    interval_cases q
    all_goals
      simp [edge, Kind.corner, Kind.corners, InTile, -and_congr_right_iff]
      constructor
      · rintro ⟨h0, h1, h2, h3⟩; refine ⟨?_, ?_, ?_, ?_⟩ <;> linarith
      · rintro ⟨h0, h1, h2, h3⟩; refine ⟨?_, ?_, ?_, ?_⟩ <;> linarith

/-- `Overlap` in local coordinates: cell `[X, X + h] x [Y, Y + h]` -/
def LOverlap (K : Kind) (q : Nat) (a h X Y f : α) : Prop :=
  (f = 1 ∧ ∀ P Q, X ≤ P → P ≤ X + h → Y ≤ Q → Q ≤ Y + h → InTile K q a P Q) ∨
  (f = 1 / 2 ∧ ((∀ P Q, X ≤ P → P ≤ X + h → Y ≤ Q → Q ≤ Y + h → (InTile K q a P Q ↔ P - X ≤ Q - Y)) ∨
    (∀ P Q, X ≤ P → P ≤ X + h → Y ≤ Q → Q ≤ Y + h → (InTile K q a P Q ↔ (P - X) + (Q - Y) ≤ h)) ∨
    (∀ P Q, X ≤ P → P ≤ X + h → Y ≤ Q → Q ≤ Y + h → (InTile K q a P Q ↔ Q - Y ≤ P - X)) ∨
    (∀ P Q, X ≤ P → P ≤ X + h → Y ≤ Q → Q ≤ Y + h → (InTile K q a P Q ↔ h ≤ (P - X) + (Q - Y))))) ∨
  (f = 0 ∧ ∀ P Q, X < P → P < X + h → Y < Q → Q < Y + h → ¬ InTile K q a P Q)

theorem loverlap {K : Kind} {q u j k : Nat} (hq : q < K.tiles) {h : α} (hh : 0 < h) (hj : j < u * K.rows) (hk : k < u * K.cols) :
    LOverlap K q (h * (u : α)) h (h * (k : α)) (h * (j : α)) (frac K u q j k) := by
  have mono : ∀ {a b : Nat}, a ≤ b → h * (a : α) ≤ h * (b : α) := fun hab =>
    mul_le_mul_of_nonneg_left (by exact_mod_cast hab) hh.le
  have eqn : ∀ {a b : Nat}, a = b → h * (a : α) = h * (b : α) := fun hab => by rw [hab]
  have h0j := mul_nonneg hh.le (Nat.cast_nonneg (α := α) j)
  have h0k := mul_nonneg hh.le (Nat.cast_nonneg (α := α) k)
  have f1 : ∀ {f : α}, f = 1 → (∀ P Q, h * (k : α) ≤ P → P ≤ h * (k : α) + h → h * (j : α) ≤ Q → Q ≤ h * (j : α) + h → InTile K q (h * (u : α)) P Q) →
    LOverlap K q (h * (u : α)) h (h * (k : α)) (h * (j : α)) f := fun e H => Or.inl ⟨e, H⟩
  have f0 : ∀ {f : α}, f = 0 → (∀ P Q, h * (k : α) < P → P < h * (k : α) + h → h * (j : α) < Q → Q < h * (j : α) + h → ¬ InTile K q (h * (u : α)) P Q) →
    LOverlap K q (h * (u : α)) h (h * (k : α)) (h * (j : α)) f := fun e H => Or.inr (Or.inr ⟨e, H⟩)
  cases K
  · simp only [Kind.tiles, Kind.rows, Kind.cols, Nat.mul_one] at hq hj hk
    interval_cases q
    refine f1 (by simp [frac, lo, hi, cut, Kind.rows, hj, hk]) fun P Q p1 p2 q1 q2 => ?_
    have n1 := mono (show j + 1 ≤ u by omega)
    have n2 := mono (show k + 1 ≤ u by omega)
    push_cast at n1 n2
    refine ⟨?_, ?_, ?_, ?_⟩ <;> linarith
  · simp only [Kind.tiles, Kind.rows, Kind.cols] at hq hj hk
    have nj := mono (show j + 1 ≤ u * 2 by omega)
    have nk := mono (show k + 1 ≤ u * 3 by omega)
    push_cast at nj nk
    interval_cases q
    · -- the trapezoid at the bottom
      by_cases c1 : j < u
      · have n1 := mono (show j + 1 ≤ u by omega)
        push_cast at n1
        rcases Nat.lt_trichotomy k j with c | c | c
        · refine f0 (by simp only [frac, lo, hi]; rw [if_neg (by simp only [c1, if_true]; omega)]) ?_
          rintro P Q p1 p2 q1 q2 ⟨t1, t2, t3, t4⟩
          have n2 := mono (show k + 1 ≤ j by omega)
          push_cast at n2; linarith
        · right; left
          refine ⟨by simp only [frac, lo, hi, cut, Kind.rows]; rw [if_pos (by simp only [c1, if_true]; omega), if_pos (Or.inl c)], ?_⟩
          right; right; left
          intro P Q p1 p2 q1 q2
          have n2 := eqn c
          constructor
          · rintro ⟨t1, t2, t3, t4⟩; linarith
          · intro t; refine ⟨?_, ?_, ?_, ?_⟩ <;> linarith
        · have n2 := mono (show j + 1 ≤ k by omega)
          rcases Nat.lt_trichotomy (k + 1) (3 * u - j) with c' | c' | c'
          · refine f1 (by simp only [frac, lo, hi, cut, Kind.rows]; rw [if_pos (by simp only [c1, if_true]; omega), if_neg (by omega)]) ?_
            intro P Q p1 p2 q1 q2
            have n3 := mono (show k + 1 + j + 1 ≤ 3 * u by omega)
            push_cast at n2 n3
            refine ⟨?_, ?_, ?_, ?_⟩ <;> linarith
          · right; left
            refine ⟨by simp only [frac, lo, hi, cut, Kind.rows]; rw [if_pos (by simp only [c1, if_true]; omega), if_pos (by omega)], ?_⟩
            right; left
            intro P Q p1 p2 q1 q2
            have n3 := eqn (show k + 1 + j = 3 * u by omega)
            push_cast at n2 n3
            constructor
            · rintro ⟨t1, t2, t3, t4⟩; linarith
            · intro t; refine ⟨?_, ?_, ?_, ?_⟩ <;> linarith
          · refine f0 (by simp only [frac, lo, hi]; rw [if_neg (by simp only [c1, if_true]; omega)]) ?_
            rintro P Q p1 p2 q1 q2 ⟨t1, t2, t3, t4⟩
            have n3 := mono (show 3 * u ≤ k + j by omega)
            push_cast at n3; linarith
      · refine f0 (by simp only [frac, lo, hi]; rw [if_neg (by simp only [c1, if_false]; omega)]) ?_
        rintro P Q p1 p2 q1 q2 ⟨t1, t2, t3, t4⟩
        have n1 := mono (show u ≤ j by omega)
        linarith
    · -- right
      by_cases c1 : j < u
      · have n1 := mono (show j + 1 ≤ u by omega)
        push_cast at n1
        rcases Nat.lt_trichotomy (k + 1) (3 * u - j) with c | c | c
        · refine f0 (by simp only [frac, lo, hi]; rw [if_neg (by simp only [c1, if_true]; omega)]) ?_
          rintro P Q p1 p2 q1 q2 ⟨t1, t2, t3, t4⟩
          have n3 := mono (show k + 1 + j + 1 ≤ 3 * u by omega)
          push_cast at n3; linarith
        · right; left
          refine ⟨by simp only [frac, lo, hi, cut, Kind.rows]; rw [if_pos (by simp only [c1, if_true]; omega), if_pos (by omega)], ?_⟩
          right; right; right
          intro P Q p1 p2 q1 q2
          have n3 := eqn (show k + 1 + j = 3 * u by omega)
          push_cast at n3
          constructor
          · rintro ⟨t1, t2, t3, t4⟩; linarith
          · intro t; refine ⟨?_, ?_, ?_, ?_⟩ <;> linarith
        · refine f1 (by simp only [frac, lo, hi, cut, Kind.rows]; rw [if_pos (by simp only [c1, if_true]; omega), if_neg (by omega)]) ?_
          intro P Q p1 p2 q1 q2
          have n3 := mono (show 3 * u ≤ k + j by omega)
          push_cast at n3
          refine ⟨?_, ?_, ?_, ?_⟩ <;> linarith
      · have n1 := mono (show u ≤ j by omega)
        by_cases c2 : k < 2 * u
        · refine f0 (by simp only [frac, lo, hi]; rw [if_neg (by simp only [c1, if_false]; omega)]) ?_
          rintro P Q p1 p2 q1 q2 ⟨t1, t2, t3, t4⟩
          have n3 := mono (show k + 1 ≤ 2 * u by omega)
          push_cast at n3; linarith
        · refine f1 (by simp only [frac, lo, hi, cut, Kind.rows]; rw [if_pos (by simp only [c1, if_false]; omega), if_neg (by omega)]) ?_
          intro P Q p1 p2 q1 q2
          have n3 := mono (show 2 * u ≤ k by omega)
          push_cast at n3
          refine ⟨?_, ?_, ?_, ?_⟩ <;> linarith
    · -- the square at the top
      by_cases c1 : u ≤ j ∧ u ≤ k ∧ k < 2 * u
      · refine f1 (by simp only [frac, lo, hi, cut, Kind.rows]; rw [if_pos (by rw [if_neg (show ¬ j < u by omega)]; omega), if_neg (by simp)]) ?_
        intro P Q p1 p2 q1 q2
        have n1 := mono c1.1
        have n2 := mono c1.2.1
        have n3 := mono (show k + 1 ≤ 2 * u by omega)
        push_cast at n3
        refine ⟨?_, ?_, ?_, ?_⟩ <;> linarith
      · refine f0 (by simp only [frac, lo, hi]; rw [if_neg]; split_ifs <;> omega) ?_
        rintro P Q p1 p2 q1 q2 ⟨t1, t2, t3, t4⟩
        rcases (show j + 1 ≤ u ∨ k + 1 ≤ u ∨ 2 * u ≤ k by omega) with c | c | c
        all_goals
          have n3 := mono c
          push_cast at n3; linarith
    · -- left
      by_cases c1 : j < u
      · have n1 := mono (show j + 1 ≤ u by omega)
        push_cast at n1
        rcases Nat.lt_trichotomy k j with c | c | c
        · refine f1 (by simp only [frac, lo, hi, cut, Kind.rows]; rw [if_pos (by simp only [c1, if_true]; omega), if_neg (by omega)]) ?_
          intro P Q p1 p2 q1 q2
          have n2 := mono (show k + 1 ≤ j by omega)
          push_cast at n2
          refine ⟨?_, ?_, ?_, ?_⟩ <;> linarith
        · right; left
          refine ⟨by simp only [frac, lo, hi, cut, Kind.rows]; rw [if_pos (by simp only [c1, if_true]; omega), if_pos (by omega)], ?_⟩
          left
          intro P Q p1 p2 q1 q2
          have n2 := eqn c
          constructor
          · rintro ⟨t1, t2, t3, t4⟩; linarith
          · intro t; refine ⟨?_, ?_, ?_, ?_⟩ <;> linarith
        · refine f0 (by simp only [frac, lo, hi]; rw [if_neg (by simp only [c1, if_true]; omega)]) ?_
          rintro P Q p1 p2 q1 q2 ⟨t1, t2, t3, t4⟩
          have n2 := mono (show j + 1 ≤ k by omega)
          push_cast at n2; linarith
      · have n1 := mono (show u ≤ j by omega)
        by_cases c2 : k < u
        · refine f1 (by simp only [frac, lo, hi, cut, Kind.rows]; rw [if_pos (by simp only [c1, if_false]; omega), if_neg (by omega)]) ?_
          intro P Q p1 p2 q1 q2
          have n3 := mono (show k + 1 ≤ u by omega)
          push_cast at n3
          refine ⟨?_, ?_, ?_, ?_⟩ <;> linarith
        · refine f0 (by simp only [frac, lo, hi]; rw [if_neg (by simp only [c1, if_false]; omega)]) ?_
          rintro P Q p1 p2 q1 q2 ⟨t1, t2, t3, t4⟩
          have n3 := mono (show u ≤ k by omega)
          linarith
  · simp only [Kind.tiles, Kind.rows, Kind.cols] at hq hj hk
    have nj := mono (show j + 1 ≤ u * 2 by omega)
    have nk := mono (show k + 1 ≤ u * 3 by omega)
    push_cast at nj nk
    interval_cases q
    · -- left
      by_cases c1 : j < u
      · have n1 := mono (show j + 1 ≤ u by omega)
        push_cast at n1
        by_cases c2 : k < u
        · refine f1 (by simp only [frac, lo, hi, cut, Kind.rows]; rw [if_pos (by simp only [c1, if_true]; omega), if_neg (by omega)]) ?_
          intro P Q p1 p2 q1 q2
          have n3 := mono (show k + 1 ≤ u by omega)
          push_cast at n3
          refine ⟨?_, ?_, ?_, ?_⟩ <;> linarith
        · refine f0 (by simp only [frac, lo, hi]; rw [if_neg (by simp only [c1, if_true]; omega)]) ?_
          rintro P Q p1 p2 q1 q2 ⟨t1, t2, t3, t4⟩
          have n3 := mono (show u ≤ k by omega)
          linarith
      · have n1 := mono (show u ≤ j by omega)
        rcases Nat.lt_trichotomy (k + 1) (2 * u - j) with c | c | c
        · refine f1 (by simp only [frac, lo, hi, cut, Kind.rows]; rw [if_pos (by simp only [c1, if_false]; omega), if_neg (by omega)]) ?_
          intro P Q p1 p2 q1 q2
          have n2 := mono (show k + 1 + j + 1 ≤ 2 * u by omega)
          push_cast at n2
          refine ⟨?_, ?_, ?_, ?_⟩ <;> linarith
        · right; left
          refine ⟨by simp only [frac, lo, hi, cut, Kind.rows]; rw [if_pos (by simp only [c1, if_false]; omega), if_pos (by omega)], ?_⟩
          right; left
          intro P Q p1 p2 q1 q2
          have n2 := eqn (show k + 1 + j = 2 * u by omega)
          push_cast at n2
          constructor
          · rintro ⟨t1, t2, t3, t4⟩; linarith
          · intro t; refine ⟨?_, ?_, ?_, ?_⟩ <;> linarith
        · refine f0 (by simp only [frac, lo, hi]; rw [if_neg (by simp only [c1, if_false]; omega)]) ?_
          rintro P Q p1 p2 q1 q2 ⟨t1, t2, t3, t4⟩
          have n2 := mono (show 2 * u ≤ k + j by omega)
          push_cast at n2; linarith
    · -- the square at the bottom
      by_cases c1 : j < u ∧ u ≤ k ∧ k < 2 * u
      · refine f1 (by simp only [frac, lo, hi, cut, Kind.rows]; rw [if_pos (by rw [if_pos c1.1]; omega), if_neg (by simp)]) ?_
        intro P Q p1 p2 q1 q2
        have n1 := mono (show j + 1 ≤ u by omega)
        have n2 := mono c1.2.1
        have n3 := mono (show k + 1 ≤ 2 * u by omega)
        push_cast at n1 n3
        refine ⟨?_, ?_, ?_, ?_⟩ <;> linarith
      · refine f0 (by simp only [frac, lo, hi]; rw [if_neg]; split_ifs <;> omega) ?_
        rintro P Q p1 p2 q1 q2 ⟨t1, t2, t3, t4⟩
        rcases (show u ≤ j ∨ k + 1 ≤ u ∨ 2 * u ≤ k by omega) with c | c | c
        all_goals
          have n3 := mono c
          push_cast at n3; linarith
    · -- right
      by_cases c1 : j < u
      · have n1 := mono (show j + 1 ≤ u by omega)
        push_cast at n1
        by_cases c2 : k < 2 * u
        · refine f0 (by simp only [frac, lo, hi]; rw [if_neg (by simp only [c1, if_true]; omega)]) ?_
          rintro P Q p1 p2 q1 q2 ⟨t1, t2, t3, t4⟩
          have n3 := mono (show k + 1 ≤ 2 * u by omega)
          push_cast at n3; linarith
        · refine f1 (by simp only [frac, lo, hi, cut, Kind.rows]; rw [if_pos (by simp only [c1, if_true]; omega), if_neg (by omega)]) ?_
          intro P Q p1 p2 q1 q2
          have n3 := mono (show 2 * u ≤ k by omega)
          push_cast at n3
          refine ⟨?_, ?_, ?_, ?_⟩ <;> linarith
      · have n1 := mono (show u ≤ j by omega)
        rcases Nat.lt_trichotomy k (u + j) with c | c | c
        · refine f0 (by simp only [frac, lo, hi]; rw [if_neg (by simp only [c1, if_false]; omega)]) ?_
          rintro P Q p1 p2 q1 q2 ⟨t1, t2, t3, t4⟩
          have n2 := mono (show k + 1 ≤ u + j by omega)
          push_cast at n2; linarith
        · right; left
          refine ⟨by simp only [frac, lo, hi, cut, Kind.rows]; rw [if_pos (by simp only [c1, if_false]; omega), if_pos (by omega)], ?_⟩
          right; right; left
          intro P Q p1 p2 q1 q2
          have n2 := eqn c
          push_cast at n2
          constructor
          · rintro ⟨t1, t2, t3, t4⟩; linarith
          · intro t; refine ⟨?_, ?_, ?_, ?_⟩ <;> linarith
        · refine f1 (by simp only [frac, lo, hi, cut, Kind.rows]; rw [if_pos (by simp only [c1, if_false]; omega), if_neg (by omega)]) ?_
          intro P Q p1 p2 q1 q2
          have n2 := mono (show u + j + 1 ≤ k by omega)
          push_cast at n2
          refine ⟨?_, ?_, ?_, ?_⟩ <;> linarith
    · -- the trapezoid at the top
      by_cases c1 : j < u
      · refine f0 (by simp only [frac, lo, hi]; rw [if_neg (by simp only [c1, if_true]; omega)]) ?_
        rintro P Q p1 p2 q1 q2 ⟨t1, t2, t3, t4⟩
        have n1 := mono (show j + 1 ≤ u by omega)
        push_cast at n1; linarith
      · have n1 := mono (show u ≤ j by omega)
        rcases Nat.lt_trichotomy (k + 1) (2 * u - j) with c | c | c
        · refine f0 (by simp only [frac, lo, hi]; rw [if_neg (by simp only [c1, if_false]; omega)]) ?_
          rintro P Q p1 p2 q1 q2 ⟨t1, t2, t3, t4⟩
          have n2 := mono (show k + 1 + j + 1 ≤ 2 * u by omega)
          push_cast at n2; linarith
        · right; left
          refine ⟨by simp only [frac, lo, hi, cut, Kind.rows]; rw [if_pos (by simp only [c1, if_false]; omega), if_pos (by omega)], ?_⟩
          right; right; right
          intro P Q p1 p2 q1 q2
          have n2 := eqn (show k + 1 + j = 2 * u by omega)
          push_cast at n2
          constructor
          · rintro ⟨t1, t2, t3, t4⟩; linarith
          · intro t; refine ⟨?_, ?_, ?_, ?_⟩ <;> linarith
        · have n2 := mono (show 2 * u ≤ k + j by omega)
          push_cast at n2
          rcases Nat.lt_trichotomy k (u + j) with c' | c' | c'
          · refine f1 (by simp only [frac, lo, hi, cut, Kind.rows]; rw [if_pos (by simp only [c1, if_false]; omega), if_neg (by omega)]) ?_
            intro P Q p1 p2 q1 q2
            have n3 := mono (show k + 1 ≤ u + j by omega)
            push_cast at n3
            refine ⟨?_, ?_, ?_, ?_⟩ <;> linarith
          · right; left
            refine ⟨by simp only [frac, lo, hi, cut, Kind.rows]; rw [if_pos (by simp only [c1, if_false]; omega), if_pos (by omega)], ?_⟩
            left
            intro P Q p1 p2 q1 q2
            have n3 := eqn c'
            push_cast at n3
            constructor
            · rintro ⟨t1, t2, t3, t4⟩; linarith
            · intro t; refine ⟨?_, ?_, ?_, ?_⟩ <;> linarith
          · refine f0 (by simp only [frac, lo, hi]; rw [if_neg (by simp only [c1, if_false]; omega)]) ?_
            rintro P Q p1 p2 q1 q2 ⟨t1, t2, t3, t4⟩
            have n3 := mono (show u + j + 1 ≤ k by omega)
            push_cast at n3; linarith

end FineLayer2Regular
end GF
