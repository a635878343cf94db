import Verif.Props.RoundingShape
import Verif.Lemmas.RoundingGrad

/-! **C107**, gradients of the shape functions of Quad4 in floating-point arithmetic. -/

namespace GF.Element
open Finset Quad4
variable {α : Type} [Field α] [LinearOrder α] [IsStrictOrderedRing α] {r : Rounding α}

/-- What is claimed of the stored gradients `G`, given the stored local gradients `D` and the coordinates `X`.  There is a
Jacobian matrix `J` within 4 roundings of the exact one, and a determinant `d` within 2 roundings of that of `J`, such that
(unless `d` is zero) the gradients are those of Cramer's rule with `J` and `d`, within 5 roundings relative to the same
expression in absolute values. -/
def GradBounds (r : Rounding α) (ne nip : Nat) (D X : Nat → Nat → Nat → r.Num) (G : Nat → Nat → Nat → Nat → r.Num) : Prop :=
  ∀ e q, e < ne → q < nip → ∃ (J : Nat → Nat → α) (d : α),
    (∀ i j, i < 2 → j < 2 → |J i j - ∑ m ∈ range 4, (D q m i).val * (X e m j).val| ≤
      r.acc 4 * ∑ m ∈ range 4, |(D q m i).val| * |(X e m j).val|) ∧
    |d - (J 0 0 * J 1 1 - J 0 1 * J 1 0)| ≤ r.acc 2 * (|J 0 0| * |J 1 1| + |J 0 1| * |J 1 0|) ∧
    (d ≠ 0 → ∀ m, m < 4 →
      |(G e q m 0).val - (J 1 1 * (D q m 0).val - J 0 1 * (D q m 1).val) / d| ≤
        r.acc 5 * ((|J 1 1| * |(D q m 0).val| + |J 0 1| * |(D q m 1).val|) / |d|) ∧
      |(G e q m 1).val - (J 0 0 * (D q m 1).val - J 1 0 * (D q m 0).val) / d| ≤
        r.acc 5 * ((|J 1 0| * |(D q m 0).val| + |J 0 0| * |(D q m 1).val|) / |d|))

theorem grad_bounds (r : Rounding α) (ne nip : Nat) (D X : Nat → Nat → Nat → r.Num) :
    GradBounds r ne nip D X (Computed.Gf D X) := by
  intro e q _ _
  refine ⟨fun i j => (Computed.Jf D X e q i j).val, (Computed.detf (Computed.Jf D X e q)).val, fun i j _ _ => ?_, ?_, fun _ m _ => ?_⟩
  · have h1 : ∀ m, Rounds r (D q m i * X e m j) (Bound.of (D q m i).val * Bound.of (X e m j).val) :=
      fun m => (Rounds.of _).mul (Rounds.of _)
    have h := ((((h1 0).add (h1 1)).add (h1 2)).add (h1 3)).mono (n := 4) le_rfl
    simp only [Bound.add_exact, Bound.add_size, Bound.mul_exact, Bound.mul_size, Bound.of_exact, Bound.of_size] at h
    simp only [Finset.sum_range_succ, Finset.sum_range_zero, zero_add]
    exact h
  · generalize Computed.Jf D X e q = J
    have h := (((Rounds.of (J 0 0)).mul (Rounds.of (J 1 1))).sub ((Rounds.of (J 0 1)).mul (Rounds.of (J 1 0)))).mono
      (n := 2) le_rfl
    exact h
  · generalize hJ : Computed.Jf D X e q = J
    have hd : ∀ {x : r.Num} {a : Bound α}, Rounds r x a → Rounds r (x / Computed.detf J) (a / Bound.of (Computed.detf J).val) :=
      fun h => h.div rfl
    constructor
    · have h := (((hd (Rounds.of (J 1 1))).mul (Rounds.of (D q m 0))).add
        ((hd (Rounds.one.neg.mul (Rounds.of (J 0 1)))).mul (Rounds.of (D q m 1)))).mono (n := 5) le_rfl
      have e1 : (-1 : Bound α).exact = -1 := rfl
      have e2 : (-1 : Bound α).size = 1 := rfl
      simp only [Bound.add_exact, Bound.add_size, Bound.mul_exact, Bound.mul_size, Bound.div_exact, Bound.div_size,
        Bound.of_exact, Bound.of_size, e1, e2] at h
      have hG : Computed.Gf D X e q m 0 = J 1 1 / Computed.detf J * D q m 0 + -1 * J 0 1 / Computed.detf J * D q m 1 := by rw [Computed.Gf, hJ]; rfl
      rw [hG]
      beta_reduce
      rw [show ((J 1 1).val * (D q m 0).val - (J 0 1).val * (D q m 1).val) / (Computed.detf J).val =
          (J 1 1).val / (Computed.detf J).val * (D q m 0).val + -1 * (J 0 1).val / (Computed.detf J).val * (D q m 1).val by ring,
        show (|(J 1 1).val| * |(D q m 0).val| + |(J 0 1).val| * |(D q m 1).val|) / |(Computed.detf J).val| =
          |(J 1 1).val| / |(Computed.detf J).val| * |(D q m 0).val| + 1 * |(J 0 1).val| / |(Computed.detf J).val| * |(D q m 1).val| by ring]
      exact h
    · have h := (((hd (Rounds.one.neg.mul (Rounds.of (J 1 0)))).mul (Rounds.of (D q m 0))).add
        ((hd (Rounds.of (J 0 0))).mul (Rounds.of (D q m 1)))).mono (n := 5) le_rfl
      have e1 : (-1 : Bound α).exact = -1 := rfl
      have e2 : (-1 : Bound α).size = 1 := rfl
      simp only [Bound.add_exact, Bound.add_size, Bound.mul_exact, Bound.mul_size, Bound.div_exact, Bound.div_size,
        Bound.of_exact, Bound.of_size, e1, e2] at h
      have hG : Computed.Gf D X e q m 1 = -1 * J 1 0 / Computed.detf J * D q m 0 + J 0 0 / Computed.detf J * D q m 1 := by rw [Computed.Gf, hJ]; rfl
      rw [hG]
      beta_reduce
      rw [show ((J 0 0).val * (D q m 1).val - (J 1 0).val * (D q m 0).val) / (Computed.detf J).val =
          -1 * (J 1 0).val / (Computed.detf J).val * (D q m 0).val + (J 0 0).val / (Computed.detf J).val * (D q m 1).val by ring,
        show (|(J 1 0).val| * |(D q m 0).val| + |(J 0 0).val| * |(D q m 1).val|) / |(Computed.detf J).val| =
          1 * |(J 1 0).val| / |(Computed.detf J).val| * |(D q m 0).val| + |(J 0 0).val| / |(Computed.detf J).val| * |(D q m 1).val| by ring]
      exact h

theorem construct_grad {ne nip : Nat} {x xi w : Ten r.Num} {X : Nat → Nat → Nat → r.Num}
    {Ξ : Nat → Nat → r.Num} {W : Nat → r.Num} (hx : Is3 x ne 4 2 X) (hxi : Is2 xi nip 2 Ξ) (hw : Is1 w nip W) (td : Nat)
    (thick : r.Num) (σ : Sched) :
    IsOk (construct td thick σ x xi w) fun Q => ∃ D G, Is3 Q.dNxi nip 4 2 D ∧ Is4 Q.dNx ne nip 4 2 G ∧
      GradBounds r ne nip D X G := by
  obtain ⟨N, n1, -⟩ := AnyArith.shapeN_ok hxi
  obtain ⟨D, d1, d2⟩ := AnyArith.shapeDN_ok hxi
  obtain ⟨g, v, h1, h2, -⟩ := Computed.compute_dN_ok (Q := ⟨4, 2, td, ne, nip, x, w, xi, N, D,
    Ten.empty [ne, nip, 4, 2], Ten.empty [ne, nip]⟩) rfl rfl d2 hx hw thick rfl rfl σ
  have h3 : construct td thick σ x xi w = .ok ⟨4, 2, td, ne, nip, x, w, xi, N, D, g, v⟩ := by
    rw [construct, hw.1, hx.1]
    dsimp only
    rw [n1, Res.ok_bind, d1, Res.ok_bind, h1]
  exact ⟨_, h3, _, _, d2, h2, grad_bounds r ne nip _ X⟩

/-- **C107** (gradients of the shape functions of Quad4, 2-d and planar): see `GradBounds`. -/
theorem C107_dN_quad4 {ne nip : Nat} {x xi w : Ten r.Num} {X : Nat → Nat → Nat → r.Num}
    {Ξ : Nat → Nat → r.Num} {W : Nat → r.Num} (hx : Is3 x ne 4 2 X) (hxi : Is2 xi nip 2 Ξ) (hw : Is1 w nip W) (σ : Sched) :
    (IsOk (Quad4.new σ x xi w) fun Q => ∃ D G, Is3 Q.dNxi nip 4 2 D ∧ Is4 Q.dNx ne nip 4 2 G ∧ GradBounds r ne nip D X G) ∧
    ∀ thick, IsOk (Quad4.newPlanar σ x xi w thick) fun Q => ∃ D G, Is3 Q.dNxi nip 4 2 D ∧ Is4 Q.dNx ne nip 4 2 G ∧
      GradBounds r ne nip D X G :=
  ⟨construct_grad hx hxi hw 2 1 σ, fun thick => construct_grad hx hxi hw 3 thick σ⟩

/-- **C107** (gradients after `update_x`): the same for the new coordinates. -/
theorem C107_dN_update {Q : Quadrature r.Num} {td ne nip : Nat} {N : Nat → Nat → r.Num}
    {G : Nat → Nat → Nat → Nat → r.Num} {V : Nat → Nat → r.Num} {D X : Nat → Nat → Nat → r.Num} {W : Nat → r.Num}
    (h : Holds Q 4 2 td ne nip N G V) (hd : Is3 Q.dNxi nip 4 2 D) (hw : Is1 Q.w nip W) {x : Ten r.Num} (hx : Is3 x ne 4 2 X)
    (thick : r.Num) (σ : Sched) :
    IsOk (Quad4.update_x thick σ Q x) fun Q' => ∃ G', Is4 Q'.dNx ne nip 4 2 G' ∧ GradBounds r ne nip D X G' := by
  obtain ⟨g, v, h1, h2, -⟩ := Computed.compute_dN_ok (Q := { Q with x := x }) h.ne_eq h.nip_eq hd hx hw thick h.G_is.1 h.V_is.1 σ
  exact ⟨_, h1, _, h2, grad_bounds r ne nip D X⟩

/-! ### the hypotheses are met: a square element in `double` arithmetic -/

example : ∃ (x xi w : Ten (binary ℚ 53 (by norm_num)).Num) (X : _) (Ξ : _) (W : _),
    Is3 x 1 4 2 X ∧ Is2 xi 4 2 Ξ ∧ Is1 w 4 W := by
  let r := binary ℚ 53 (by norm_num)
  exact ⟨_, _, _, _, _, _, is3_of 1 4 2 fun ix => Rounding.Num.of r (
      if ix.getD 2 0 = 0 then (if ix.getD 1 0 = 1 ∨ ix.getD 1 0 = 2 then 1 / 10 else 0) else (if 2 ≤ ix.getD 1 0 then 1 / 10 else 0)),
    is2_of 4 2 fun _ => Rounding.Num.of r (577 / 1000), is1_of 4 fun _ => (1 : r.Num)⟩

end GF.Element
