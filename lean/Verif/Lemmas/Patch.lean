import Verif.Spec.System
import Verif.Props.ElementQuad4Mech
import Verif.Props.Vector

namespace GF
open Finset ElemSpec Element Element.Quad4
variable {α : Type} [Field α] [CharZero α]

theorem D4_form (Ξ : Nat → Nat → α) (q m : Nat) :
    D4 Ξ q m 0 = corner4 m 0 * (1 + corner4 m 1 * Ξ q 1) / 4 ∧ D4 Ξ q m 1 = corner4 m 1 * (1 + corner4 m 0 * Ξ q 0) / 4 := by
  constructor
  · simp only [D4, part2, N4, if_true]; ring
  · simp only [D4, part2, N4, if_neg one_ne_zero]; ring

/-- adjugate of a 2 x 2 matrix -/
def adj2 (J : Nat → Nat → α) (i j : Nat) : α :=
  if i = 0 then (if j = 0 then J 1 1 else - J 0 1) else (if j = 0 then - J 1 0 else J 0 0)

omit [CharZero α] in
theorem inv2f_adj (J : Nat → Nat → α) {i j : Nat} (hi : i < 2) (hj : j < 2) : inv2f J i j = adj2 J i j / detf J := by
  have h1 : i = 0 ∨ i = 1 := by omega
  have h2 : j = 0 ∨ j = 1 := by omega
  rcases h1 with rfl | rfl <;> rcases h2 with rfl | rfl <;> simp [inv2f, adj2, detf]

/-- the integral of the gradient of a shape function, by the 2 x 2 rules -/
theorem grad_integral (X : Nat → Nat → Nat → α) (s : α) {e m i : Nat} (hm : m < 4) (hi : i < 2)
    (hdet : ∀ q, q < 4 → det4 (X e) (s * corner4 q 0) (s * corner4 q 1) ≠ 0) :
    ∑ q ∈ range 4, Gf (D4 fun q i => s * corner4 q i) X e q m i * det4 (X e) (s * corner4 q 0) (s * corner4 q 1) =
      (edgeNormal (X e) m ((m + 1) % 4) i + edgeNormal (X e) ((m + 3) % 4) m i) / 2 := by
  have key : ∀ q ∈ range 4, Gf (D4 fun q i => s * corner4 q i) X e q m i * det4 (X e) (s * corner4 q 0) (s * corner4 q 1) =
      ∑ j ∈ range 2, adj2 (Jf (D4 fun q i => s * corner4 q i) X e q) i j * D4 (fun q i => s * corner4 q i) q m j := by
    intro q hq
    have h := hdet q (mem_range.1 hq)
    rw [← detf_eq (fun q i => s * corner4 q i) X e q] at h ⊢
    rw [Gf, sum_mul]
    refine sum_congr rfl fun j hj => ?_
    rw [inv2f_adj _ hi (mem_range.1 hj)]
    field_simp
  rw [sum_congr rfl key]
  have hm' : m = 0 ∨ m = 1 ∨ m = 2 ∨ m = 3 := by omega
  have hi' : i = 0 ∨ i = 1 := by omega
  have hJ : ∀ q j, Jf (D4 fun q i => s * corner4 q i) X e q 0 j =
      ((X e 1 j - X e 0 j) * (1 - s * corner4 q 1) + (X e 2 j - X e 3 j) * (1 + s * corner4 q 1)) / 4 := by
    intro q j
    simp only [Jf, sum_range_succ, sum_range_zero, zero_add, (D4_form _ _ _).1, corner4]
    ring
  have hK : ∀ q j, Jf (D4 fun q i => s * corner4 q i) X e q 1 j =
      ((X e 3 j - X e 0 j) * (1 - s * corner4 q 0) + (X e 2 j - X e 1 j) * (1 + s * corner4 q 0)) / 4 := by
    intro q j
    simp only [Jf, sum_range_succ, sum_range_zero, zero_add, (D4_form _ _ _).2, corner4]
    ring
  rcases hi' with rfl | rfl
  · simp only [sum_range_succ, sum_range_zero, zero_add, adj2, if_true, if_neg one_ne_zero, hJ, hK, (D4_form _ _ _).1, (D4_form _ _ _).2]
    rcases hm' with rfl | rfl | rfl | rfl <;>
    · simp only [corner4, edgeNormal, if_true]
      norm_num
      ring
  · simp only [sum_range_succ, sum_range_zero, zero_add, adj2, if_true, if_neg one_ne_zero, hJ, hK, (D4_form _ _ _).1, (D4_form _ _ _).2]
    rcases hm' with rfl | rfl | rfl | rfl <;>
    · simp only [corner4, edgeNormal, if_neg one_ne_zero]
      norm_num
      ring

omit [CharZero α] in
theorem tractionForce_anti (d : Nat → Nat → Nat) (x S : Nat → Nat → α) (k p q : Nat) :
    tractionForce d x S k q p = - tractionForce d x S k p q := by
  simp only [tractionForce, sum_range_succ, sum_range_zero, zero_add, edgeNormal, if_true, if_neg one_ne_zero]
  ring

/-- internal force of a constant stress, per element -/
theorem const_force {X : Nat → Nat → Nat → α} {td ne : Nat} {thick s : α} {Q : Quadrature α}
    (hQ : Live td thick ne 4 (fun q i => s * corner4 q i) (fun _ => 1) Q X) (htd : 2 ≤ td)
    (hdet : ∀ e q, e < ne → q < 4 → det4 (X e) (s * corner4 q 0) (s * corner4 q 1) ≠ 0) (σ : Sched) {st : Ten α}
    {S : Nat → Nat → α} (hs : Is4 st ne 4 td td fun _ _ i j => S i j) :
    IsOk (Int_gradN_dot_tensor2_dV Q σ st) fun t => Is3 t ne 4 2 fun e m j => thick *
      ∑ i ∈ range 2, (edgeNormal (X e) m ((m + 1) % 4) i + edgeNormal (X e) ((m + 3) % 4) m i) / 2 * S i j := by
  obtain ⟨t, h1, h2⟩ := force_live hQ htd σ hs (vol_ok hQ)
  refine ⟨t, h1, h2.congr fun e m j he hm hj => ?_⟩
  have h : ∀ i ∈ range 2, (edgeNormal (X e) m ((m + 1) % 4) i + edgeNormal (X e) ((m + 3) % 4) m i) / 2 * S i j =
      ∑ q ∈ range 4, Gf (D4 fun q i => s * corner4 q i) X e q m i * det4 (X e) (s * corner4 q 0) (s * corner4 q 1) * S i j := by
    intro i hi
    rw [← grad_integral X s hm (mem_range.1 hi) (hdet e · he), sum_mul]
  rw [sum_congr rfl h, sum_comm, mul_sum]
  refine sum_congr rfl fun q _ => ?_
  rw [sum_mul, mul_sum]
  refine sum_congr rfl fun i _ => ?_
  ring

/-- the assembled force of a constant stress is a sum over the oriented edges -/
theorem const_edges (c d : Nat → Nat → Nat) (x S : Nat → Nat → α) (thick : α) (ne k : Nat) :
    ∑ e ∈ range ne, ∑ m ∈ range 4, ∑ j ∈ range 2, (if d (c e m) j = k then thick *
      ∑ i ∈ range 2, (edgeNormal (fun m i => x (c e m) i) m ((m + 1) % 4) i +
        edgeNormal (fun m i => x (c e m) i) ((m + 3) % 4) m i) / 2 * S i j else 0) =
    thick * edgeSum 4 ne c (tractionForce d x S k) := by
  have hite : ∀ (p : Prop) [Decidable p] (a : α), (if p then a else 0) = (if p then 1 else 0) * a := fun p _ a => by
    split <;> simp
  rw [edgeSum, mul_sum]
  refine sum_congr rfl fun e _ => ?_
  rw [sum_congr rfl fun m _ => sum_congr rfl fun j _ => hite _ _]
  obtain ⟨w, hw⟩ : ∃ w : Nat → Nat → α, ∀ p j, (if d p j = k then 1 else 0) = w p j := ⟨_, fun _ _ => rfl⟩
  simp only [tractionForce, hw]
  simp only [sum_range_succ, sum_range_zero, zero_add, edgeNormal, if_true, if_neg one_ne_zero]
  norm_num
  ring

end GF
