import Verif.Props.RoundingGrad
import Verif.Lemmas.RoundingGradAxi

/-! **C107**, gradient coefficients of the axisymmetric element in floating-point arithmetic. -/

namespace GF.Element
open Finset Quad4 GF.Element.Axi
variable {α : Type} [Field α] [LinearOrder α] [IsStrictOrderedRing α] {r : Rounding α}

/-- **C107** (gradient coefficients of the axisymmetric element): the stored coefficients `B` of the axial and radial
derivatives are the gradients `G` of the planar element (see `GradBounds`), and the coefficient of the hoop strain is shape
function over radius within 2 roundings, for a radius `ρ` within 4 roundings of the interpolated one. -/
theorem C107_dN_axi {ne nip : Nat} {x xi w : Ten r.Num} {X : Nat → Nat → Nat → r.Num}
    {Ξ : Nat → Nat → r.Num} {W : Nat → r.Num} (hx : Is3 x ne 4 2 X) (hxi : Is2 xi nip 2 Ξ) (hw : Is1 w nip W) (pi : r.Num)
    (σ : Sched) :
    IsOk (Axi.new pi σ x xi w) fun A => ∃ N D G, Is2 A.N nip 4 N ∧ Is3 A.dNxi nip 4 2 D ∧ GradBounds r ne nip D X G ∧
      ∀ e q, e < ne → q < nip →
        (∀ m, m < 4 → A.B.get [e, q, m, 0, 0, 0] = .ok (G e q m 1) ∧ A.B.get [e, q, m, 0, 2, 2] = .ok (G e q m 1) ∧
          A.B.get [e, q, m, 2, 0, 0] = .ok (G e q m 0) ∧ A.B.get [e, q, m, 2, 2, 2] = .ok (G e q m 0)) ∧
        ∃ ρ : α, |ρ - ∑ m ∈ range 4, (N q m).val * (X e m 1).val| ≤
            r.acc 4 * ∑ m ∈ range 4, |(N q m).val| * |(X e m 1).val| ∧
          ∀ m, m < 4 → ∃ z, A.B.get [e, q, m, 1, 1, 0] = .ok z ∧
            (ρ ≠ 0 → |z.val - (N q m).val / ρ| ≤ r.acc 2 * (|(N q m).val| / |ρ|)) := by
  obtain ⟨N, n1, N', n2⟩ : ∃ N, shapeN nip xi = .ok N ∧ ∃ N', Is2 N nip 4 N' := by
    obtain ⟨N, n1, n2⟩ := AnyArith.shapeN_ok hxi
    exact ⟨N, n1, _, n2⟩
  obtain ⟨D, d1, d2⟩ := AnyArith.shapeDN_ok hxi
  obtain ⟨g, v, h1, -, h2, -⟩ := Computed.Axi.compute_dN_ok (A := ⟨⟨4, 2, 3, ne, nip, x, w, xi, N, D,
    Ten.empty [], Ten.empty [ne, nip]⟩, Ten.empty [ne, nip, 4, 3, 3, 3]⟩) rfl rfl n2 d2 hx hw pi rfl rfl σ
  have h3 : Axi.new pi σ x xi w = .ok ⟨⟨4, 2, 3, ne, nip, x, w, xi, N, D, Ten.empty [], v⟩, g⟩ := by
    rw [Axi.new, hw.1, hx.1]
    dsimp only
    rw [n1, Res.ok_bind, d1, Res.ok_bind, h1]
  refine ⟨_, h3, _, _, _, n2, d2, grad_bounds r ne nip _ X, fun e q he hq => ⟨fun m hm => ⟨h2 0 e q m (by omega) he hq hm,
    h2 3 e q m (by omega) he hq hm, h2 4 e q m (by omega) he hq hm, h2 2 e q m (by omega) he hq hm⟩, ?_⟩⟩
  refine ⟨(Computed.Axi.Rf N' X e q).val, ?_, fun m hm => ⟨_, h2 1 e q m (by omega) he hq hm, fun _ => ?_⟩⟩
  · have h1 : ∀ m, Rounds r (N' q m * X e m 1) (Bound.of (N' q m).val * Bound.of (X e m 1).val) :=
      fun m => (Rounds.of _).mul (Rounds.of _)
    have h := ((((h1 0).add (h1 1)).add (h1 2)).add (h1 3)).mono (n := 4) le_rfl
    simp only [Bound.add_exact, Bound.add_size, Bound.mul_exact, Bound.mul_size, Bound.of_exact, Bound.of_size] at h
    simp only [Finset.sum_range_succ, Finset.sum_range_zero, zero_add]
    exact h
  · have h := (((Rounds.one (r := r)).div (y := Computed.Axi.Rf N' X e q) (b := Bound.of (Computed.Axi.Rf N' X e q).val) rfl).mul
      (Rounds.of (N' q m))).mono (n := 2) le_rfl
    simp only [Bound.mul_exact, Bound.mul_size, Bound.div_exact, Bound.div_size, Bound.of_exact, Bound.of_size,
      Bound.one_exact, Bound.one_size] at h
    change |(1 / Computed.Axi.Rf N' X e q * N' q m).val - _| ≤ _
    rw [show (N' q m).val / (Computed.Axi.Rf N' X e q).val = 1 / (Computed.Axi.Rf N' X e q).val * (N' q m).val by ring,
      show |(N' q m).val| / |(Computed.Axi.Rf N' X e q).val| = 1 / |(Computed.Axi.Rf N' X e q).val| * |(N' q m).val| by ring]
    exact h

/-! ### the hypotheses are met: a ring in `double` arithmetic, at radius 1 to 1.1 -/

example : ∃ (x xi w : Ten (binary ℚ 53 (by norm_num)).Num) (X : _) (Ξ : _) (W : _),
    Is3 x 1 4 2 X ∧ Is2 xi 4 2 Ξ ∧ Is1 w 4 W := by
  let r := binary ℚ 53 (by norm_num)
  exact ⟨_, _, _, _, _, _, is3_of 1 4 2 fun ix => Rounding.Num.of r (
      if ix.getD 2 0 = 0 then (if ix.getD 1 0 = 1 ∨ ix.getD 1 0 = 2 then 1 / 10 else 0) else (if 2 ≤ ix.getD 1 0 then 11 / 10 else 1)),
    is2_of 4 2 fun _ => Rounding.Num.of r (577 / 1000), is1_of 4 fun _ => (1 : r.Num)⟩

end GF.Element
