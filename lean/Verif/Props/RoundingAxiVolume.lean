import Verif.Props.RoundingVolume
import Verif.Props.RoundingAxi
import Verif.Lemmas.RoundingAxiVolume

/-! **C107**, integration volumes of the axisymmetric element in floating-point arithmetic. -/

namespace GF.Element.Axi
open Finset Quad4

variable {α : Type} [Field α] [LinearOrder α] [IsStrictOrderedRing α] {r : Rounding α}

theorem two_rounds : Rounds r 2 2 := by
  have e : (2 : Bound α).size = 2 := by change ((2 : ℕ) : α) = 2; norm_num
  refine ⟨by rw [Bound.two_exact, e, abs_two], ?_, fun h => nomatch h⟩
  rw [Rounds.two_val, Bound.two_exact, sub_self, abs_zero, e]
  exact mul_nonneg (r.acc_nonneg _) (by norm_num)

/-- the computed volume, given the stored arrays -/
theorem volume_core {A : QuadratureAxi r.Num} {ne nip : Nat} {N : Nat → Nat → r.Num} {D X : Nat → Nat → Nat → r.Num}
    {W : Nat → r.Num} (hne : A.nelem = ne) (hnip : A.nip = nip) (hN : Is2 A.N nip 4 N) (hd : Is3 A.dNxi nip 4 2 D)
    (hx : Is3 A.x ne 4 2 X) (hw : Is1 A.w nip W) (hs : A.B.shape = [ne, nip, 4, 3, 3, 3]) (hv : A.vol.shape = [ne, nip])
    (pi : r.Num) (σ : Sched) :
    IsOk (compute_dN_impl pi A σ) fun P => ∃ g v, P = { A with B := g, vol := v } ∧ v.shape = [ne, nip] ∧
      ∀ e q, e < ne → q < nip → ∃ z, v.v [e, q] = some z ∧
        let J := fun i j => ∑ m ∈ range 4, (D q m i).val * (X e m j).val
        let S := fun i j => ∑ m ∈ range 4, |(D q m i).val| * |(X e m j).val|
        |z.val - (W q).val * (J 0 0 * J 1 1 - J 0 1 * J 1 0) * 2 * pi.val * ∑ m ∈ range 4, (N q m).val * (X e m 1).val| ≤
          r.acc 19 * (|(W q).val| * (S 0 0 * S 1 1 + S 0 1 * S 1 0) * 2 * |pi.val| *
            ∑ m ∈ range 4, |(N q m).val| * |(X e m 1).val|) := by
  obtain ⟨g, v, h1, -, -, h2⟩ := AnyArith.Axi.compute_dN_ok (A := A.bound) hne hnip (hN.lift fun x : r.Num => Bound.of x.val)
    (hd.lift fun x : r.Num => Bound.of x.val)
    (hx.lift fun x : r.Num => Bound.of x.val) (hw.lift fun x : r.Num => Bound.of x.val) (Bound.of pi.val) hs hv σ
  obtain ⟨P, h3, g', v', h4, h5⟩ := AnyArith.Axi.compute_dN_sim (Rounds.arith r) (fun h h' => h.sub h') two_rounds (P := A)
    (Q := A.bound) rfl rfl
    (AnyArith.TenSim.any (TenSim.exact _)) (TenSim.exact _) (TenSim.exact _) (TenSim.exact _) (TenSim.exact _) (TenSim.exact _)
    (Rounds.of pi) σ _ h1
  have h5 : TenSim (Rounds r) v' v := h5
  refine ⟨P, h3, g', v', h4, by rw [h5.1, h2.1], fun e q he hq => ?_⟩
  obtain ⟨z, h6, h7⟩ := h5.entry (h2.2 e q he hq)
  refine ⟨z, h6, ?_⟩
  intro J S
  have hJ : ∀ i j, (AnyArith.Jf (fun q m i => Bound.of (D q m i).val) (fun e m j => Bound.of (X e m j).val) e q i j).exact = J i j :=
    fun i j => by simp [AnyArith.Jf, Bound.sum_exact, J]
  have hS : ∀ i j, (AnyArith.Jf (fun q m i => Bound.of (D q m i).val) (fun e m j => Bound.of (X e m j).val) e q i j).size = S i j :=
    fun i j => by simp [AnyArith.Jf, Bound.sum_size, S]
  have four : ∀ f g : Nat → r.Num, (∑ m ∈ range 4, Bound.of (f m).val * Bound.of (g m).val).roundings ≤ 4 := fun f g => by
    have h1 : (∑ m ∈ range 4, Bound.of (f m).val * Bound.of (g m).val).depth ≤ 1 :=
      Bound.sum_depth fun m _ => by simp [Bound.roundings]
    have h2 : (∑ m ∈ range 4, Bound.of (f m).val * Bound.of (g m).val).terms = 4 := by rw [Bound.sum_terms]; simp
    rw [Bound.roundings]
    omega
  have hR : ∀ i j, (AnyArith.Jf (fun q m i => Bound.of (D q m i).val) (fun e m j => Bound.of (X e m j).val) e q i j).roundings ≤ 4 :=
    fun i j => four _ _
  have hRr : (AnyArith.Axi.Rf (fun q m => Bound.of (N q m).val) (fun e m j => Bound.of (X e m j).val) e q).roundings ≤ 4 :=
    four _ _
  have hRe : (AnyArith.Axi.Rf (fun q m => Bound.of (N q m).val) (fun e m j => Bound.of (X e m j).val) e q).exact =
      ∑ m ∈ range 4, (N q m).val * (X e m 1).val := by simp [AnyArith.Axi.Rf, Bound.sum_exact]
  have hRs : (AnyArith.Axi.Rf (fun q m => Bound.of (N q m).val) (fun e m j => Bound.of (X e m j).val) e q).size =
      ∑ m ∈ range 4, |(N q m).val| * |(X e m 1).val| := by simp [AnyArith.Axi.Rf, Bound.sum_size]
  have e1 : ∀ a b : Bound α, (a - b).exact = a.exact - b.exact := fun _ _ => rfl
  have e2 : ∀ a b : Bound α, (a - b).size = a.size + b.size := fun _ _ => rfl
  have e3 : ∀ a b : Bound α, (a - b).terms = 1 := fun _ _ => rfl
  have e4 : ∀ a b : Bound α, (a - b).depth = max a.roundings b.roundings + 1 := fun _ _ => rfl
  have t1 : (2 : Bound α).terms = 1 := rfl
  have t2 : (2 : Bound α).depth = 1 := rfl
  have t3 : (2 : Bound α).size = 2 := by change ((2 : ℕ) : α) = 2; norm_num
  beta_reduce at h7
  have h8 := h7.mono (n := 19) (by
    have a1 := hR 0 0
    have a2 := hR 0 1
    have a3 := hR 1 0
    have a4 := hR 1 1
    have a5 := hRr
    rw [AnyArith.Axi.Vf, AnyArith.detf]
    simp only [Bound.roundings, Bound.mul_terms, Bound.mul_depth, e3, e4, Bound.of_terms, Bound.of_depth, t1, t2]
      at a1 a2 a3 a4 a5 ⊢
    omega)
  simp only [AnyArith.Axi.Vf, AnyArith.detf, Bound.mul_exact, Bound.mul_size, e1, e2, hJ, hS, Bound.of_exact, Bound.of_size, hRe,
    hRs, Bound.two_exact, t3] at h8
  exact h8

/-- **C107** (integration volumes, axisymmetric): the stored volume of an integration point is weight times Jacobian determinant
times circumference `2 π r` at the interpolated radius, for the given coordinates and the stored shape functions `N` and local
gradients `D`, up to the error of 19 roundings relative to the same expression in absolute values. -/
theorem C107_volume_axi {ne nip : Nat} {x xi w : Ten r.Num} {X : Nat → Nat → Nat → r.Num} {Ξ : Nat → Nat → r.Num}
    {W : Nat → r.Num} (hx : Is3 x ne 4 2 X) (hxi : Is2 xi nip 2 Ξ) (hw : Is1 w nip W) (pi : r.Num) (σ : Sched) :
    IsOk (Axi.new pi σ x xi w) fun A => ∃ N D, A.w = w ∧ Is2 A.N nip 4 N ∧ Is3 A.dNxi nip 4 2 D ∧ A.vol.shape = [ne, nip] ∧
      ∀ e q, e < ne → q < nip → ∃ z, A.vol.v [e, q] = some z ∧
        let J := fun i j => ∑ m ∈ range 4, (D q m i).val * (X e m j).val
        let S := fun i j => ∑ m ∈ range 4, |(D q m i).val| * |(X e m j).val|
        |z.val - (W q).val * (J 0 0 * J 1 1 - J 0 1 * J 1 0) * 2 * pi.val * ∑ m ∈ range 4, (N q m).val * (X e m 1).val| ≤
          r.acc 19 * (|(W q).val| * (S 0 0 * S 1 1 + S 0 1 * S 1 0) * 2 * |pi.val| *
            ∑ m ∈ range 4, |(N q m).val| * |(X e m 1).val|) := by
  have any : ∀ t : Ten r.Num, TenSim (Any r.Num α) t (t.map' fun x => x.val) := fun t => TenSim.map' (fun _ => trivial) t
  obtain ⟨N, n1, n2⟩ := shapeN_ok (hxi.lift fun x : r.Num => x.val)
  obtain ⟨D, d1, d2⟩ := shapeDN_ok (hxi.lift fun x : r.Num => x.val)
  obtain ⟨N', n3, n4⟩ := shapeN_any nip (any xi) N n1
  obtain ⟨D', d3, d4⟩ := shapeDN_any nip (any xi) D d1
  have h3 : ∀ a b c, ∃ z, a < nip → b < 4 → c < 2 → D'.v [a, b, c] = some z := by
    intro a b c
    by_cases hi : a < nip ∧ b < 4 ∧ c < 2
    · obtain ⟨z, hz, -⟩ := d4.2 _ _ (d2.2 a b c hi.1 hi.2.1 hi.2.2)
      exact ⟨z, fun _ _ _ => hz⟩
    · exact ⟨0, fun h1 h2 h3 => absurd ⟨h1, h2, h3⟩ hi⟩
  choose G hG using h3
  have h3' : ∀ a b, ∃ z, a < nip → b < 4 → N'.v [a, b] = some z := by
    intro a b
    by_cases hi : a < nip ∧ b < 4
    · obtain ⟨z, hz, -⟩ := n4.2 _ _ (n2.2 a b hi.1 hi.2)
      exact ⟨z, fun _ _ => hz⟩
    · exact ⟨0, fun h1 h2 => absurd ⟨h1, h2⟩ hi⟩
  choose F hF using h3'
  have hD : Is3 D' nip 4 2 G := ⟨by rw [d4.1, d2.1], fun a b c h1 h2 h3 => hG a b c h1 h2 h3⟩
  have hN : Is2 N' nip 4 F := ⟨by rw [n4.1, n2.1], fun a b h1 h2 => hF a b h1 h2⟩
  obtain ⟨P, h4, g, v, h5, h6, h7⟩ := volume_core (A := ⟨⟨4, 2, 3, ne, nip, x, w, xi, N', D',
    Ten.empty [], Ten.empty [ne, nip]⟩, Ten.empty [ne, nip, 4, 3, 3, 3]⟩) rfl rfl hN hD hx hw rfl rfl pi σ
  refine ⟨P, ?_, F, G, by rw [h5], by rw [h5]; exact hN, by rw [h5]; exact hD, by rw [h5]; exact h6, by rw [h5]; exact h7⟩
  rw [Axi.new, hw.1, hx.1]
  dsimp only
  rw [n3, Res.ok_bind, d3, Res.ok_bind, h4]

/-! ### the hypotheses are met: a ring in `double` arithmetic, at radius 1 to 1.1 -/

example : ∃ (x xi w : Ten (binary ℚ 53 (by norm_num)).Num) (X : _) (Ξ : _) (W : _), Is3 x 1 4 2 X ∧ Is2 xi 4 2 Ξ ∧ Is1 w 4 W := by
  let r := binary ℚ 53 (by norm_num)
  exact ⟨_, _, _, _, _, _, is3_of 1 4 2 fun ix => Rounding.Num.of r (
      if ix.getD 2 0 = 0 then (if ix.getD 1 0 = 1 ∨ ix.getD 1 0 = 2 then 1 / 10 else 0)
        else (if 2 ≤ ix.getD 1 0 then 11 / 10 else 1)),
    is2_of 4 2 fun ix => Rounding.Num.of r (if ix.getD 1 0 = 0 then 577 / 1000 else -577 / 1000), is1_of 4 fun _ => (1 : r.Num)⟩

end GF.Element.Axi
