import Verif.Spec.Axi
import Verif.Props.ElementAxi
import Verif.Lemmas.Patch

/-! Integrals over one axisymmetric element. -/

namespace GF
open Finset ElemSpec Element Element.Quad4
variable {α : Type} [Field α] [CharZero α]

/-- the first moment (about the axis) of the gradient of a shape function: what its ends carry of the two edges -/
def ringEdge (X : Nat → Nat → α) (m i : Nat) : α :=
  edgeNormal X m ((m + 1) % 4) i * ((2 * X m 1 + X ((m + 1) % 4) 1) / 6) +
    edgeNormal X ((m + 3) % 4) m i * ((X ((m + 3) % 4) 1 + 2 * X m 1) / 6)

theorem gauss_quadratic {F : α → α} {s R : α} (hs : 3 * s ^ 2 = 1) (h : ∀ s, F s = F 0 + s ^ 2 * (F 1 - F 0))
    (h' : 2 * F 0 + F 1 = 3 * R) : F s = R := by
  have h3 : (3 : α) ≠ 0 := by norm_num
  rw [h]
  refine mul_left_cancel₀ h3 ?_
  linear_combination (F 1 - F 0) * hs + h'

/-- determinant times gradient of a shape function -/
def aD (X : Nat → Nat → α) (i m : Nat) (ξ η : α) : α :=
  if i = 0 then jac4 X ξ η 1 1 * part2 (N4 m) 0 ξ η - jac4 X ξ η 0 1 * part2 (N4 m) 1 ξ η
  else jac4 X ξ η 0 0 * part2 (N4 m) 1 ξ η - jac4 X ξ η 1 0 * part2 (N4 m) 0 ξ η

theorem Gf_aD (Ξ : Nat → Nat → α) (X : Nat → Nat → Nat → α) {e q m i : Nat} (hi : i < 2)
    (h : det4 (X e) (Ξ q 0) (Ξ q 1) ≠ 0) :
    Gf (D4 Ξ) X e q m i * det4 (X e) (Ξ q 0) (Ξ q 1) = aD (X e) i m (Ξ q 0) (Ξ q 1) := by
  rw [← detf_eq] at h ⊢
  have : ∀ j ∈ range 2, inv2f (Jf (D4 Ξ) X e q) i j * D4 Ξ q m j * detf (Jf (D4 Ξ) X e q) =
      adj2 (Jf (D4 Ξ) X e q) i j * D4 Ξ q m j := by
    intro j hj
    rw [inv2f_adj _ hi (mem_range.1 hj)]
    field_simp
  rw [Gf, sum_mul, sum_congr rfl this]
  have hi' : i = 0 ∨ i = 1 := by omega
  rcases hi' with rfl | rfl <;>
    simp only [sum_range_succ, sum_range_zero, zero_add, adj2, if_true, if_neg one_ne_zero, aD, Jf_eq, D4] <;> ring

theorem jac4_form (X : Nat → Nat → α) (ξ η : α) (j : Nat) :
    jac4 X ξ η 0 j = ((X 1 j - X 0 j) * (1 - η) + (X 2 j - X 3 j) * (1 + η)) / 4 ∧
    jac4 X ξ η 1 j = ((X 3 j - X 0 j) * (1 - ξ) + (X 2 j - X 1 j) * (1 + ξ)) / 4 := by
  constructor
  · simp only [jac4, part2, map4, N4, corner4, if_true, sum_range_succ, sum_range_zero, zero_add]; ring
  · simp only [jac4, part2, map4, N4, corner4, if_neg one_ne_zero, sum_range_succ, sum_range_zero, zero_add]; ring

theorem part_form (m : Nat) (ξ η : α) : part2 (N4 m) 0 ξ η = corner4 m 0 * (1 + corner4 m 1 * η) / 4 ∧
    part2 (N4 m) 1 ξ η = corner4 m 1 * (1 + corner4 m 0 * ξ) / 4 := by
  constructor
  · simp only [part2, N4, if_true]; ring
  · simp only [part2, N4, if_neg one_ne_zero]; ring

theorem map4_form (X : Nat → Nat → α) (j : Nat) (ξ η : α) : map4 X j ξ η =
    ((1 - ξ) * (1 - η) * X 0 j + (1 + ξ) * (1 - η) * X 1 j + (1 + ξ) * (1 + η) * X 2 j + (1 - ξ) * (1 + η) * X 3 j) / 4 := by
  simp only [map4, N4, corner4, sum_range_succ, sum_range_zero, zero_add]; ring

/-- axial direction: `∫ r ∂N/∂z` -/
theorem ring_axial (X : Nat → Nat → α) {s : α} (hs : 3 * s ^ 2 = 1) {m : Nat} (hm : m < 4) :
    ∑ q ∈ range 4, aD X 0 m (s * corner4 q 0) (s * corner4 q 1) * map4 X 1 (s * corner4 q 0) (s * corner4 q 1) =
      ringEdge X m 0 := by
  have hm' : m = 0 ∨ m = 1 ∨ m = 2 ∨ m = 3 := by omega
  refine gauss_quadratic (F := fun s => ∑ q ∈ range 4, aD X 0 m (s * corner4 q 0) (s * corner4 q 1) *
    map4 X 1 (s * corner4 q 0) (s * corner4 q 1)) hs (fun s => ?_) ?_
  all_goals
    simp only [sum_range_succ, sum_range_zero, zero_add, aD, if_true, (jac4_form _ _ _ _).1, (jac4_form _ _ _ _).2, map4_form,
      (part_form _ _ _).1, (part_form _ _ _).2]
    rcases hm' with rfl | rfl | rfl | rfl <;>
    · simp only [corner4, edgeNormal, ringEdge, if_true]
      norm_num
      ring

set_option maxHeartbeats 2000000 in
/-- radial direction: `∫ r ∂N/∂r + N` -/
theorem ring_radial (X : Nat → Nat → α) {s : α} (hs : 3 * s ^ 2 = 1) {m : Nat} (hm : m < 4) :
    ∑ q ∈ range 4, (aD X 1 m (s * corner4 q 0) (s * corner4 q 1) * map4 X 1 (s * corner4 q 0) (s * corner4 q 1) +
      N4 m (s * corner4 q 0) (s * corner4 q 1) * det4 X (s * corner4 q 0) (s * corner4 q 1)) =
      ringEdge X m 1 := by
  have hm' : m = 0 ∨ m = 1 ∨ m = 2 ∨ m = 3 := by omega
  refine gauss_quadratic (F := fun s => ∑ q ∈ range 4, (aD X 1 m (s * corner4 q 0) (s * corner4 q 1) *
    map4 X 1 (s * corner4 q 0) (s * corner4 q 1) +
      N4 m (s * corner4 q 0) (s * corner4 q 1) * det4 X (s * corner4 q 0) (s * corner4 q 1))) hs (fun s => ?_) ?_
  all_goals
    simp only [sum_range_succ, sum_range_zero, zero_add, aD, if_neg one_ne_zero, det4, (jac4_form _ _ _ _).1, (jac4_form _ _ _ _).2, map4_form,
      (part_form _ _ _).1, (part_form _ _ _).2, N4]
    rcases hm' with rfl | rfl | rfl | rfl <;>
    · simp only [corner4, edgeNormal, ringEdge, if_neg one_ne_zero]
      norm_num
      ring

/-- internal force of a constant stress in equilibrium, per element -/
theorem ring_force {X : Nat → Nat → Nat → α} {ne : Nat} {pi s : α} (hs : 3 * s ^ 2 = 1) {Q : QuadratureAxi α}
    (hQ : Axi.Live pi ne 4 (fun q i => s * corner4 q i) (fun _ => 1) Q X)
    (hdet : ∀ e q, e < ne → q < 4 → det4 (X e) (s * corner4 q 0) (s * corner4 q 1) ≠ 0)
    (hr : ∀ e q, e < ne → q < 4 → map4 (X e) 1 (s * corner4 q 0) (s * corner4 q 1) ≠ 0) (σ : Sched) {st : Ten α}
    {S : Nat → Nat → α} (hS : Is4 st ne 4 3 3 fun _ _ i j => S i j) (h1 : S 0 0 = S 1 1) (h2 : S 0 2 = 0) :
    IsOk (Axi.Int_gradN_dot_tensor2_dV Q σ st) fun t => Is3 t ne 4 2 fun e m j => 2 * pi *
      if j = 0 then ringEdge (X e) m 0 * S 2 2 else ringEdge (X e) m 1 * S 0 0 + ringEdge (X e) m 0 * S 2 0 := by
  obtain ⟨t, h3, h4⟩ := Axi.force_ok (Axi.live_holds hQ).1 σ hS
  refine ⟨t, h3, h4.congr fun e m j he hm hj => ?_⟩
  obtain ⟨V, hV⟩ : ∃ V : Nat → α, ∀ q, V q = Axi.Vf pi (fun _ => 1) (Axi.NΞ fun q i => s * corner4 q i) (D4 fun q i => s * corner4 q i) X e q :=
    ⟨_, fun _ => rfl⟩
  have hV' : ∀ q, V q = det4 (X e) (s * corner4 q 0) (s * corner4 q 1) * (2 * pi * map4 (X e) 1 (s * corner4 q 0) (s * corner4 q 1)) := by
    intro q
    rw [hV, Axi.Vf, detf_eq]
    simp only [Axi.Rf, map4]
    ring
  have a0 : ∀ q ∈ range 4, Gf (D4 fun q i => s * corner4 q i) X e q m 0 * V q =
      2 * pi * (aD (X e) 0 m (s * corner4 q 0) (s * corner4 q 1) * map4 (X e) 1 (s * corner4 q 0) (s * corner4 q 1)) := fun q hq => by
    have := Gf_aD (fun q i => s * corner4 q i) X (e := e) (q := q) (m := m) (i := 0) (by omega) (hdet e q he (mem_range.1 hq))
    beta_reduce at this
    rw [hV', ← this]; ring
  have a1 : ∀ q ∈ range 4, (Gf (D4 fun q i => s * corner4 q i) X e q m 1 + 1 / Axi.Rf (Axi.NΞ fun q i => s * corner4 q i) X e q *
        Axi.NΞ (fun q i => s * corner4 q i) q m) * V q =
      2 * pi * (aD (X e) 1 m (s * corner4 q 0) (s * corner4 q 1) * map4 (X e) 1 (s * corner4 q 0) (s * corner4 q 1) +
      N4 m (s * corner4 q 0) (s * corner4 q 1) * det4 (X e) (s * corner4 q 0) (s * corner4 q 1)) := fun q hq => by
    have := Gf_aD (fun q i => s * corner4 q i) X (e := e) (q := q) (m := m) (i := 1) (by omega) (hdet e q he (mem_range.1 hq))
    beta_reduce at this
    have hR : Axi.Rf (Axi.NΞ fun q i => s * corner4 q i) X e q = map4 (X e) 1 (s * corner4 q 0) (s * corner4 q 1) := rfl
    have hn := hr e q he (mem_range.1 hq)
    rw [hV', ← this, hR]
    field_simp
  have hj' : j = 0 ∨ j = 1 := by omega
  rcases hj' with rfl | rfl
  · rw [if_pos rfl, ← ring_axial (X e) hs hm, sum_mul, mul_sum]
    refine sum_congr rfl fun q hq => ?_
    rw [← hV, show (2 : α) * pi * (aD (X e) 0 m (s * corner4 q 0) (s * corner4 q 1) * map4 (X e) 1 (s * corner4 q 0) (s * corner4 q 1) * S 2 2) =
      2 * pi * (aD (X e) 0 m (s * corner4 q 0) (s * corner4 q 1) * map4 (X e) 1 (s * corner4 q 0) (s * corner4 q 1)) * S 2 2 by ring, ← a0 q hq]
    simp [sum_range_succ, Axi.dof, Axi.ci, Axi.cj, Axi.bX, Axi.bv, h2]
    ring
  · rw [if_neg one_ne_zero, ← ring_axial (X e) hs hm, ← ring_radial (X e) hs hm, sum_mul, sum_mul, ← sum_add_distrib, mul_sum]
    refine sum_congr rfl fun q hq => ?_
    have b0 := a0 q hq
    have b1 := a1 q hq
    rw [← hV, mul_add, ← mul_assoc, ← mul_assoc, ← b0, ← b1]
    simp [sum_range_succ, Axi.dof, Axi.ci, Axi.cj, Axi.bX, Axi.bv, ← h1]
    ring

omit [CharZero α] in
theorem ringForce_anti (pi : α) (d : Nat → Nat → Nat) (y S : Nat → Nat → α) (k p q : Nat) :
    ringForce pi d y S k q p = - ringForce pi d y S k p q := by
  simp only [ringForce, sum_range_succ, sum_range_zero, zero_add, edgeNormal, if_true, if_neg one_ne_zero]
  ring

/-- the assembled force of a constant stress is a sum over the oriented edges -/
theorem ring_edges (c d : Nat → Nat → Nat) (y S : Nat → Nat → α) (pi : α) (h2 : S 0 2 = 0) (ne k : Nat) :
    ∑ e ∈ range ne, ∑ m ∈ range 4, ∑ j ∈ range 2, (if d (c e m) j = k then 2 * pi *
      (if j = 0 then ringEdge (fun m i => y (c e m) i) m 0 * S 2 2
        else ringEdge (fun m i => y (c e m) i) m 1 * S 0 0 + ringEdge (fun m i => y (c e m) i) m 0 * S 2 0) else 0) =
    edgeSum 4 ne c (ringForce pi d y S k) := by
  have hite : ∀ (p : Prop) [Decidable p] (a : α), (if p then a else 0) = (if p then 1 else 0) * a := fun p _ a => by
    split <;> simp
  rw [edgeSum]
  refine sum_congr rfl fun e _ => ?_
  rw [sum_congr rfl fun m _ => sum_congr rfl fun j _ => hite _ _]
  obtain ⟨w, hw⟩ : ∃ w : Nat → Nat → α, ∀ p j, (if d p j = k then 1 else 0) = w p j := ⟨_, fun _ _ => rfl⟩
  simp only [ringForce, hw, h2]
  simp only [sum_range_succ, sum_range_zero, zero_add, edgeNormal, ringEdge, if_true, if_neg one_ne_zero]
  norm_num
  ring

end GF
