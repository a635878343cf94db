import Verif.Props.RoundingVolume
import Verif.Lemmas.RoundingVolumeHex8

/-! **C107**, integration volumes of Hex8 in floating-point arithmetic. -/

namespace GF.Element
variable {α : Type} [Field α] [LinearOrder α] [IsStrictOrderedRing α] {r : Rounding α}

namespace Hex8
open Finset

/-- the computed volume, given the stored local gradients, coordinates and weights -/
theorem volume_core {Q : Quadrature r.Num} {ne nip : Nat} {D X : Nat → Nat → Nat → r.Num} {W : Nat → r.Num}
    (hnne : Q.nne = 8) (hnd : Q.ndim = 3) (hne : Q.nelem = ne) (hnip : Q.nip = nip) (hd : Is3 Q.dNxi nip 8 3 D)
    (hx : Is3 Q.x ne 8 3 X) (hw : Is1 Q.w nip W) (hs : Q.dNx.shape = [ne, nip, 8, 3]) (hv : Q.vol.shape = [ne, nip])
    (σ : Sched) :
    IsOk (Q.compute_dN_impl σ) fun P => ∃ g v, P = { Q with dNx := g, vol := v } ∧ v.shape = [ne, nip] ∧
      ∀ e q, e < ne → q < nip → ∃ z, v.v [e, q] = some z ∧
        let J := fun i j => ∑ m ∈ range 8, (D q m i).val * (X e m j).val
        let S := fun i j => ∑ m ∈ range 8, |(D q m i).val| * |(X e m j).val|
        |z.val - (W q).val * ((J 0 0 * J 1 1 * J 2 2 + J 0 1 * J 1 2 * J 2 0 + J 0 2 * J 1 0 * J 2 1) -
            (J 0 2 * J 1 1 * J 2 0 + J 0 1 * J 1 0 * J 2 2 + J 0 0 * J 1 2 * J 2 1))| ≤
          r.acc 30 * (|(W q).val| * ((S 0 0 * S 1 1 * S 2 2 + S 0 1 * S 1 2 * S 2 0 + S 0 2 * S 1 0 * S 2 1) +
            (S 0 2 * S 1 1 * S 2 0 + S 0 1 * S 1 0 * S 2 2 + S 0 0 * S 1 2 * S 2 1))) := by
  obtain ⟨g, v, h1, -, h2⟩ := AnyArith.Hex8.compute_dN_ok (Q := Q.bound) hnne hnd hne hnip
    (hd.lift fun x : r.Num => Bound.of x.val) (hx.lift fun x : r.Num => Bound.of x.val)
    (hw.lift fun x : r.Num => Bound.of x.val) hs hv σ
  obtain ⟨P, h3, g', v', h4, h5⟩ := AnyArith.Hex8.compute_dN_sim (Rounds.arith r) (fun h h' => h.sub h') (P := Q)
    (Q := Q.bound) rfl hnd hnd rfl rfl rfl (TenSim.exact _) (TenSim.exact _) (TenSim.exact _) (TenSim.exact _) σ _ h1
  have h5 : TenSim (Rounds r) v' v := h5
  refine ⟨P, h3, g', v', h4, by rw [h5.1, h2.1], fun e q he hq => ?_⟩
  obtain ⟨z, h6, h7⟩ := h5.entry (h2.2 e q he hq)
  refine ⟨z, h6, ?_⟩
  intro J S
  set B := fun i j => AnyArith.Hex8.J8 (fun q m i => Bound.of (D q m i).val) (fun e m j => Bound.of (X e m j).val) e q i j
    with hB
  have hJ : ∀ i j, (B i j).exact = J i j := fun i j => by simp [B, AnyArith.Hex8.J8, Bound.sum_exact, J]
  have hS : ∀ i j, (B i j).size = S i j := fun i j => by simp [B, AnyArith.Hex8.J8, Bound.sum_size, S]
  have hR : ∀ i j, (B i j).roundings ≤ 8 := fun i j => by
    have h1 : (B i j).depth ≤ 1 := Bound.sum_depth fun m _ => by simp [Bound.roundings]
    have h2 : (B i j).terms = 8 := by
      change (∑ m ∈ range 8, _ : Bound α).terms = 8
      rw [Bound.sum_terms]; simp
    rw [Bound.roundings]
    omega
  have e1 : ∀ a b : Bound α, (a - b).exact = a.exact - b.exact := fun _ _ => rfl
  have e2 : ∀ a b : Bound α, (a - b).size = a.size + b.size := fun _ _ => rfl
  have e3 : ∀ a b : Bound α, (a - b).terms = 1 := fun _ _ => rfl
  have e4 : ∀ a b : Bound α, (a - b).depth = max a.roundings b.roundings + 1 := fun _ _ => rfl
  have t3 : ∀ a b c : Bound α, a.roundings ≤ 8 → b.roundings ≤ 8 → c.roundings ≤ 8 →
      (a * b * c).terms = 1 ∧ (a * b * c).depth ≤ 26 := fun a b c ha hb hc => by
    refine ⟨Bound.mul_terms _ _, ?_⟩
    simp only [Bound.roundings, Bound.mul_terms, Bound.mul_depth] at ha hb hc ⊢
    omega
  have s3 : ∀ a b c : Bound α, a.terms = 1 ∧ a.depth ≤ 26 → b.terms = 1 ∧ b.depth ≤ 26 → c.terms = 1 ∧ c.depth ≤ 26 →
      (a + b + c).roundings ≤ 28 := fun a b c ha hb hc => by
    simp only [Bound.roundings, Bound.add_terms, Bound.add_depth]
    omega
  beta_reduce at h7
  change Rounds r z (Bound.of (W q).val * ((B 0 0 * B 1 1 * B 2 2 + B 0 1 * B 1 2 * B 2 0 + B 0 2 * B 1 0 * B 2 1) -
    (B 0 2 * B 1 1 * B 2 0 + B 0 1 * B 1 0 * B 2 2 + B 0 0 * B 1 2 * B 2 1))) at h7
  have h8 := h7.mono (n := 30) (by
    have a1 := s3 _ _ _ (t3 _ _ _ (hR 0 0) (hR 1 1) (hR 2 2)) (t3 _ _ _ (hR 0 1) (hR 1 2) (hR 2 0))
      (t3 _ _ _ (hR 0 2) (hR 1 0) (hR 2 1))
    have a2 := s3 _ _ _ (t3 _ _ _ (hR 0 2) (hR 1 1) (hR 2 0)) (t3 _ _ _ (hR 0 1) (hR 1 0) (hR 2 2))
      (t3 _ _ _ (hR 0 0) (hR 1 2) (hR 2 1))
    generalize B 0 0 * B 1 1 * B 2 2 + B 0 1 * B 1 2 * B 2 0 + B 0 2 * B 1 0 * B 2 1 = a at a1 ⊢
    generalize B 0 2 * B 1 1 * B 2 0 + B 0 1 * B 1 0 * B 2 2 + B 0 0 * B 1 2 * B 2 1 = b at a2 ⊢
    simp only [Bound.roundings, Bound.mul_terms, Bound.mul_depth, e3, e4, Bound.of_terms, Bound.of_depth] at a1 a2 ⊢
    omega)
  simp only [Bound.mul_exact, Bound.mul_size, Bound.add_exact, Bound.add_size, e1, e2, hJ, hS, Bound.of_exact,
    Bound.of_size] at h8
  exact h8

/-- **C107** (integration volumes of Hex8): the stored volume of an integration point is weight times Jacobian determinant of
the given coordinates and the stored local gradients `D`, up to the error of 30 roundings relative to the same expression
in absolute values. -/
theorem C107_volume_hex8 {ne nip : Nat} {x xi w : Ten r.Num} {X : Nat → Nat → Nat → r.Num} {Ξ : Nat → Nat → r.Num}
    {W : Nat → r.Num} (hx : Is3 x ne 8 3 X) (hxi : Is2 xi nip 3 Ξ) (hw : Is1 w nip W) (σ : Sched) :
    IsOk (Hex8.new σ x xi w) fun Q => ∃ D, Q.w = w ∧ Is3 Q.dNxi nip 8 3 D ∧ Q.vol.shape = [ne, nip] ∧
      ∀ e q, e < ne → q < nip → ∃ z, Q.vol.v [e, q] = some z ∧
        let J := fun i j => ∑ m ∈ range 8, (D q m i).val * (X e m j).val
        let S := fun i j => ∑ m ∈ range 8, |(D q m i).val| * |(X e m j).val|
        |z.val - (W q).val * ((J 0 0 * J 1 1 * J 2 2 + J 0 1 * J 1 2 * J 2 0 + J 0 2 * J 1 0 * J 2 1) -
            (J 0 2 * J 1 1 * J 2 0 + J 0 1 * J 1 0 * J 2 2 + J 0 0 * J 1 2 * J 2 1))| ≤
          r.acc 30 * (|(W q).val| * ((S 0 0 * S 1 1 * S 2 2 + S 0 1 * S 1 2 * S 2 0 + S 0 2 * S 1 0 * S 2 1) +
            (S 0 2 * S 1 1 * S 2 0 + S 0 1 * S 1 0 * S 2 2 + S 0 0 * S 1 2 * S 2 1))) := by
  have any : ∀ t : Ten r.Num, TenSim (Any r.Num α) t (t.map' fun x => x.val) := fun t => TenSim.map' (fun _ => trivial) t
  obtain ⟨N, n1, -⟩ := shapeN_ok (hxi.lift fun x : r.Num => x.val)
  obtain ⟨D, d1, d2⟩ := shapeDN_ok (hxi.lift fun x : r.Num => x.val)
  obtain ⟨N', n3, -⟩ := shapeN_any nip (any xi) N n1
  obtain ⟨D', d3, d4⟩ := shapeDN_any nip (any xi) D d1
  have h3 : ∀ a b c, ∃ z, a < nip → b < 8 → c < 3 → D'.v [a, b, c] = some z := by
    intro a b c
    by_cases hi : a < nip ∧ b < 8 ∧ c < 3
    · obtain ⟨z, hz, -⟩ := d4.2 _ _ (d2.2 a b c hi.1 hi.2.1 hi.2.2)
      exact ⟨z, fun _ _ _ => hz⟩
    · exact ⟨0, fun h1 h2 h3 => absurd ⟨h1, h2, h3⟩ hi⟩
  choose G hG using h3
  have hD : Is3 D' nip 8 3 G := ⟨by rw [d4.1, d2.1], fun a b c h1 h2 h3 => hG a b c h1 h2 h3⟩
  obtain ⟨P, h4, g, v, h5, h6, h7⟩ := volume_core (Q := ⟨8, 3, 3, ne, nip, x, w, xi, N', D',
    Ten.empty [ne, nip, 8, 3], Ten.empty [ne, nip]⟩) rfl rfl rfl rfl hD hx hw rfl rfl σ
  refine ⟨P, ?_, G, by rw [h5], by rw [h5]; exact hD, by rw [h5]; exact h6, by rw [h5]; exact h7⟩
  rw [new, hw.1, hx.1]
  dsimp only
  rw [n3, Res.ok_bind, d3, Res.ok_bind, h4]

/-! ### the hypotheses are met: two elements, eight points, in `double` arithmetic -/

example : ∃ (x xi w : Ten (binary ℚ 53 (by norm_num)).Num) (X : _) (Ξ : _) (W : _),
    Is3 x 2 8 3 X ∧ Is2 xi 8 3 Ξ ∧ Is1 w 8 W := by
  let r := binary ℚ 53 (by norm_num)
  exact ⟨_, _, _, _, _, _, is3_of 2 8 3 fun ix => Rounding.Num.of r (if ix.getD 1 0 < 4 then ix.getD 0 0 else 1 / 10),
    is2_of 8 3 fun _ => Rounding.Num.of r (577 / 1000), is1_of 8 fun _ => (1 : r.Num)⟩

end Hex8
end GF.Element
