import Verif.Spec.Surface
import Verif.Lemmas.FineLayerEdges
import Verif.Lemmas.FineLayerMesh
import Mathlib.Algebra.BigOperators.Group.Finset.Sigma
import Mathlib.Algebra.BigOperators.Intervals
import Mathlib.Tactic.Abel

namespace GF
open Finset

variable {A : Type} [AddCommGroup A] {f : Nat → Nat → A}

/-- sum over the edges of one element with four nodes -/
def quadSum (f : Nat → Nat → A) (a b c d : Nat) : A := f a b + f b c + f c d + f d a

theorem sum_quad (f : Nat → Nat → A) (c : Nat → Nat) :
    ∑ a ∈ range 4, f (c a) (c ((a + 1) % 4)) = quadSum f (c 0) (c 1) (c 2) (c 3) := by
  simp [sum_range_succ, quadSum]

/-- a row of quadrilaterals -/
theorem row_normal (hf : ∀ p q, f q p = - f p q) (B T : Nat → Nat) (m : Nat) :
    ∑ k ∈ range m, quadSum f (B k) (B (k + 1)) (T (k + 1)) (T k) =
      ∑ a ∈ range m, f (B a) (B (a + 1)) + f (B m) (T m) - ∑ a ∈ range m, f (T a) (T (a + 1)) - f (B 0) (T 0) := by
  induction m with
  | zero => simp
  | succ m ih =>
    rw [sum_range_succ, ih, sum_range_succ, sum_range_succ, quadSum, hf (T m) (T (m + 1)), hf (B m) (T m)]
    abel

/-- a row of pairs of triangles -/
theorem row_tri (hf : ∀ p q, f q p = - f p q) (B T : Nat → Nat) (m : Nat) :
    ∑ k ∈ range m, ((f (B k) (B (k + 1)) + f (B (k + 1)) (T k) + f (T k) (B k)) +
        (f (B (k + 1)) (T (k + 1)) + f (T (k + 1)) (T k) + f (T k) (B (k + 1)))) =
      ∑ a ∈ range m, f (B a) (B (a + 1)) + f (B m) (T m) - ∑ a ∈ range m, f (T a) (T (a + 1)) - f (B 0) (T 0) := by
  rw [← row_normal hf]
  refine sum_congr rfl fun k _ => ?_
  rw [quadSum, hf (B (k + 1)) (T k)]
  abel

open FineLayer in
theorem row_below (hf : ∀ p q, f q p = - f p q) (B M T : Nat → Nat) (m : Nat) :
    ∑ b ∈ range m, ∑ q ∈ range 4, quadSum f (belowNode B M T b q 0) (belowNode B M T b q 1) (belowNode B M T b q 2)
        (belowNode B M T b q 3) =
      ∑ a ∈ range m, f (B a) (B (a + 1)) + f (B m) (T (3 * m)) - ∑ a ∈ range (3 * m), f (T a) (T (a + 1)) - f (B 0) (T 0) := by
  induction m with
  | zero => simp
  | succ m ih =>
    rw [sum_range_succ, ih, sum_range_succ, show 3 * (m + 1) = 3 * m + 3 by ring, sum_range_succ _ (3 * m + 2),
      sum_range_succ _ (3 * m + 1), sum_range_succ _ (3 * m)]
    simp only [sum_range_succ, sum_range_zero, zero_add, quadSum, belowNode]
    simp only [hf (T (3 * m)) (T (3 * m + 1)), hf (T (3 * m + 1)) (T (3 * m + 1 + 1)), hf (T (3 * m + 2)) (T (3 * m + 2 + 1)), hf (B m) (T (3 * m)),
      hf (M (2 * m)) (M (2 * m + 1)), hf (B m) (M (2 * m)), hf (M (2 * m)) (T (3 * m + 1)), hf (M (2 * m + 1)) (T (3 * m + 2)), hf (B (m + 1)) (M (2 * m + 1))]
    abel

open FineLayer in
theorem row_above (hf : ∀ p q, f q p = - f p q) (B M T : Nat → Nat) (m : Nat) :
    ∑ b ∈ range m, ∑ q ∈ range 4, quadSum f (aboveNode B M T b q 0) (aboveNode B M T b q 1) (aboveNode B M T b q 2)
        (aboveNode B M T b q 3) =
      ∑ a ∈ range (3 * m), f (B a) (B (a + 1)) + f (B (3 * m)) (T m) - ∑ a ∈ range m, f (T a) (T (a + 1)) - f (B 0) (T 0) := by
  induction m with
  | zero => simp
  | succ m ih =>
    rw [sum_range_succ, ih, sum_range_succ _ m, show 3 * (m + 1) = 3 * m + 3 by ring, sum_range_succ _ (3 * m + 2),
      sum_range_succ _ (3 * m + 1), sum_range_succ _ (3 * m)]
    simp only [sum_range_succ, sum_range_zero, zero_add, quadSum, aboveNode]
    simp only [hf (T m) (T (m + 1)), hf (B (3 * m)) (T m),
      hf (M (2 * m)) (M (2 * m + 1)), hf (M (2 * m)) (T m), hf (B (3 * m + 1)) (M (2 * m)), hf (B (3 * m + 2)) (M (2 * m + 1)), hf (M (2 * m + 1)) (T (m + 1))]
    abel

/-- a sum over blocks of four -/
theorem sum_four (F : Nat → A) (m : Nat) : ∑ k ∈ range (4 * m), F k = ∑ b ∈ range m, ∑ q ∈ range 4, F (4 * b + q) := by
  induction m with
  | zero => simp
  | succ m ih =>
    rw [sum_range_succ, ← ih, show 4 * (m + 1) = 4 * m + 4 by ring]
    simp only [sum_range_succ, sum_range_zero, zero_add, add_zero]
    abel

theorem sum_blocks (F : Nat → A) (m k : Nat) : ∑ e ∈ range (m * k), F e = ∑ b ∈ range m, ∑ q ∈ range k, F (b * k + q) := by
  induction m with
  | zero => simp
  | succ m ih => rw [Nat.succ_mul, sum_range_add, ih, sum_range_succ]

/-- a sum over consecutive blocks -/
theorem sum_height (g : Nat → Nat) (F : Nat → A) (N : Nat) :
    ∑ k ∈ range (FineLayerSpec.height g N), F k =
      ∑ i ∈ range N, ∑ k ∈ range (g i), F (FineLayerSpec.height g i + k) := by
  induction N with
  | zero => simp [FineLayerSpec.height]
  | succ N ih => rw [FineLayer.height_succ, sum_range_add, ih, sum_range_succ]

namespace FineLayer
open FineLayerSpec

variable {nelx n : Nat} {W G : Nat → Nat} {R : Nat → Int}

theorem layer_stokes (hf : ∀ p q, f q p = - f p q) (hL : Layers nelx n W G R) {i : Nat} (hi : i < 2 * n - 1) (B M T : Nat → Nat) :
    ∑ k ∈ range (layE nelx W R i), ∑ a ∈ range 4, f (elemNode n R B M T i k a) (elemNode n R B M T i k ((a + 1) % 4)) =
      ∑ a ∈ range (nelx / rowW n W i), f (B a) (B (a + 1)) + f (B (nelx / rowW n W i)) (T (nelx / rowW n W (i + 1))) -
        ∑ a ∈ range (nelx / rowW n W (i + 1)), f (T a) (T (a + 1)) - f (B 0) (T 0) := by
  simp only [sum_quad]
  have hw := (hL.fits i hi)
  rcases hL.kind hi with ⟨a, a1, a2, a3⟩ | ⟨a, b0, a1, a2, a3⟩ | ⟨a, b0, a1, a2, a3⟩
  · rw [layE, if_neg (by omega), a1, a2, ← row_normal hf]
    simp only [elemNode, if_pos a]
    rfl
  · have hd : nelx / rowW n W (i + 1) = 3 * (nelx / W i) := by
      obtain ⟨k, hk⟩ := hw
      have hp := hL.wpos i hi
      rw [hk, Nat.mul_div_cancel_left _ hp, a2, Nat.mul_assoc, Nat.mul_comm 3, Nat.mul_assoc,
        Nat.mul_div_cancel_left _ (by omega), Nat.mul_comm]
    rw [layE, if_pos a, a1, hd, ← row_below hf B M T, sum_four]
    refine sum_congr rfl fun b _ => sum_congr rfl fun q hq => ?_
    rw [mem_range] at hq
    simp only [elemNode, if_neg (show ¬ R i = -1 by omega), if_pos (show i < n by omega),
      show (4 * b + q) / 4 = b by omega, show (4 * b + q) % 4 = q by omega]
  · have hd : nelx / rowW n W i = 3 * (nelx / W i) := by
      obtain ⟨k, hk⟩ := hw
      have hp := hL.wpos i hi
      rw [hk, Nat.mul_div_cancel_left _ hp, a2, Nat.mul_assoc, Nat.mul_comm 3, Nat.mul_assoc,
        Nat.mul_div_cancel_left _ (by omega), Nat.mul_comm]
    rw [layE, if_pos a, a1, hd, ← row_above hf B M T, sum_four]
    refine sum_congr rfl fun b _ => sum_congr rfl fun q hq => ?_
    rw [mem_range] at hq
    simp only [elemNode, if_neg (show ¬ R i = -1 by omega), if_neg (show ¬ i < n by omega),
      show (4 * b + q) / 4 = b by omega, show (4 * b + q) % 4 = q by omega]

end FineLayer
end GF
