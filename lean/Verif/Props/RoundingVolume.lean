import Verif.Props.RoundingMatrix
import Verif.Lemmas.RoundingVolume

/-! **C107**, integration volumes of Quad4 in floating-point arithmetic. -/

namespace GF
variable {α : Type} [Field α] [LinearOrder α] [IsStrictOrderedRing α] {r : Rounding α}

theorem Rounds.sub {x y : r.Num} {a b : Bound α} (hx : Rounds r x a) (hy : Rounds r y b) : Rounds r (x - y) (a - b) := by
  have e1 : (a - b).exact = a.exact - b.exact := rfl
  have e2 : (a - b).size = a.size + b.size := rfl
  have hs : |(a - b).exact| ≤ (a - b).size := by
    rw [e1, e2]
    exact (abs_sub _ _).trans (add_le_add hx.size hy.size)
  refine ⟨hs, ?_, fun h => nomatch h⟩
  have h1 : |x.val - y.val - (a - b).exact| ≤ r.acc (max a.roundings b.roundings) * (a - b).size := by
    calc |x.val - y.val - (a - b).exact| = |(x.val - a.exact) - (y.val - b.exact)| := by rw [e1]; ring_nf
      _ ≤ |x.val - a.exact| + |y.val - b.exact| := abs_sub _ _
      _ ≤ r.acc (max a.roundings b.roundings) * a.size + r.acc (max a.roundings b.roundings) * b.size :=
          add_le_add (hx.mono (le_max_left _ _)) (hy.mono (le_max_right _ _))
      _ = _ := by rw [e2]; ring
  refine (r.step hs h1).trans (mul_le_mul_of_nonneg_right (r.acc_mono ?_) ((abs_nonneg _).trans hs))
  have e3 : (a - b).terms = 1 := rfl
  have e4 : (a - b).depth = max a.roundings b.roundings + 1 := rfl
  rw [show (a - b).roundings = (a - b).terms - 1 + (a - b).depth from rfl, e3, e4]
  omega

namespace Element
open Finset Quad4

/-- the computed volume, given the stored local gradients, coordinates and weights -/
theorem volume_core {Q : Quadrature r.Num} {ne nip : Nat} {D X : Nat → Nat → Nat → r.Num} {W : Nat → r.Num}
    (hne : Q.nelem = ne) (hnip : Q.nip = nip) (hd : Is3 Q.dNxi nip 4 2 D) (hx : Is3 Q.x ne 4 2 X) (hw : Is1 Q.w nip W)
    (hs : Q.dNx.shape = [ne, nip, 4, 2]) (hv : Q.vol.shape = [ne, nip]) (thick : r.Num) (σ : Sched) :
    IsOk (compute_dN_impl Q thick σ) fun P => ∃ g v, P = { Q with dNx := g, vol := v } ∧ v.shape = [ne, nip] ∧
      ∀ e q, e < ne → q < nip → ∃ z, v.v [e, q] = some z ∧
        let J := fun i j => ∑ m ∈ range 4, (D q m i).val * (X e m j).val
        let S := fun i j => ∑ m ∈ range 4, |(D q m i).val| * |(X e m j).val|
        |z.val - (W q).val * (J 0 0 * J 1 1 - J 0 1 * J 1 0) * thick.val| ≤
          r.acc 12 * (|(W q).val| * (S 0 0 * S 1 1 + S 0 1 * S 1 0) * |thick.val|) := by
  obtain ⟨g, v, h1, -, h2⟩ := AnyArith.compute_dN_ok (Q := Q.bound) hne hnip (hd.lift fun x : r.Num => Bound.of x.val)
    (hx.lift fun x : r.Num => Bound.of x.val) (hw.lift fun x : r.Num => Bound.of x.val) (Bound.of thick.val) hs hv σ
  obtain ⟨P, h3, g', v', h4, h5⟩ := AnyArith.compute_dN_sim (Rounds.arith r) (fun h h' => h.sub h') (P := Q) (Q := Q.bound) rfl rfl
    (AnyArith.TenSim.any (TenSim.exact _)) (TenSim.exact _) (TenSim.exact _) (TenSim.exact _) (TenSim.exact _)
    (Rounds.of thick) σ _ h1
  have h5 : TenSim (Rounds r) v' v := h5
  refine ⟨P, h3, g', v', h4, by rw [h5.1, h2.1], fun e q he hq => ?_⟩
  obtain ⟨z, h6, h7⟩ := h5.entry (h2.2 e q he hq)
  refine ⟨z, h6, ?_⟩
  intro J S
  have hJ : ∀ i j, (AnyArith.Jf (fun q m i => Bound.of (D q m i).val) (fun e m j => Bound.of (X e m j).val) e q i j).exact = J i j :=
    fun i j => by simp [AnyArith.Jf, Bound.sum_exact, J]
  have hS : ∀ i j, (AnyArith.Jf (fun q m i => Bound.of (D q m i).val) (fun e m j => Bound.of (X e m j).val) e q i j).size = S i j :=
    fun i j => by simp [AnyArith.Jf, Bound.sum_size, S]
  have hR : ∀ i j, (AnyArith.Jf (fun q m i => Bound.of (D q m i).val) (fun e m j => Bound.of (X e m j).val) e q i j).roundings ≤ 4 :=
    fun i j => by
      have h1 : (AnyArith.Jf (fun q m i => Bound.of (D q m i).val) (fun e m j => Bound.of (X e m j).val) e q i j).depth ≤ 1 :=
        Bound.sum_depth fun m _ => by simp [Bound.roundings]
      have h2 : (AnyArith.Jf (fun q m i => Bound.of (D q m i).val) (fun e m j => Bound.of (X e m j).val) e q i j).terms = 4 := by
        rw [AnyArith.Jf, Bound.sum_terms]; simp
      rw [Bound.roundings]
      omega
  have e1 : ∀ a b : Bound α, (a - b).exact = a.exact - b.exact := fun _ _ => rfl
  have e2 : ∀ a b : Bound α, (a - b).size = a.size + b.size := fun _ _ => rfl
  have e3 : ∀ a b : Bound α, (a - b).terms = 1 := fun _ _ => rfl
  have e4 : ∀ a b : Bound α, (a - b).depth = max a.roundings b.roundings + 1 := fun _ _ => rfl
  beta_reduce at h7
  have h8 := h7.mono (n := 12) (by
    have a1 := hR 0 0
    have a2 := hR 0 1
    have a3 := hR 1 0
    have a4 := hR 1 1
    rw [AnyArith.detf]
    simp only [Bound.roundings, Bound.mul_terms, Bound.mul_depth, e3, e4, Bound.of_terms, Bound.of_depth] at a1 a2 a3 a4 ⊢
    omega)
  simp only [AnyArith.detf, Bound.mul_exact, Bound.mul_size, e1, e2, hJ, hS, Bound.of_exact, Bound.of_size] at h8
  exact h8

theorem construct_core {ne nip : Nat} {x xi w : Ten r.Num} {X : Nat → Nat → Nat → r.Num} {Ξ : Nat → Nat → r.Num}
    {W : Nat → r.Num} (hx : Is3 x ne 4 2 X) (hxi : Is2 xi nip 2 Ξ) (hw : Is1 w nip W) (td : Nat) (thick : r.Num)
    (σ : Sched) :
    IsOk (construct td thick σ x xi w) fun Q => ∃ D, Q.w = w ∧ Is3 Q.dNxi nip 4 2 D ∧ Q.vol.shape = [ne, nip] ∧
      ∀ e q, e < ne → q < nip → ∃ z, Q.vol.v [e, q] = some z ∧
        let J := fun i j => ∑ m ∈ range 4, (D q m i).val * (X e m j).val
        let S := fun i j => ∑ m ∈ range 4, |(D q m i).val| * |(X e m j).val|
        |z.val - (W q).val * (J 0 0 * J 1 1 - J 0 1 * J 1 0) * thick.val| ≤
          r.acc 12 * (|(W q).val| * (S 0 0 * S 1 1 + S 0 1 * S 1 0) * |thick.val|) := by
  have any : ∀ t : Ten r.Num, TenSim (Any r.Num α) t (t.map' fun x => x.val) := fun t => TenSim.map' (fun _ => trivial) t
  obtain ⟨N, n1, -⟩ := shapeN_ok (hxi.lift fun x : r.Num => x.val)
  obtain ⟨D, d1, d2⟩ := shapeDN_ok (hxi.lift fun x : r.Num => x.val)
  obtain ⟨N', n3, -⟩ := shapeN_any nip (any xi) N n1
  obtain ⟨D', d3, d4⟩ := shapeDN_any nip (any xi) D d1
  have h3 : ∀ a b c, ∃ z, a < nip → b < 4 → c < 2 → D'.v [a, b, c] = some z := by
    intro a b c
    by_cases hi : a < nip ∧ b < 4 ∧ c < 2
    · obtain ⟨z, hz, -⟩ := d4.2 _ _ (d2.2 a b c hi.1 hi.2.1 hi.2.2)
      exact ⟨z, fun _ _ _ => hz⟩
    · exact ⟨0, fun h1 h2 h3 => absurd ⟨h1, h2, h3⟩ hi⟩
  choose G hG using h3
  have hD : Is3 D' nip 4 2 G := ⟨by rw [d4.1, d2.1], fun a b c h1 h2 h3 => hG a b c h1 h2 h3⟩
  obtain ⟨P, h4, g, v, h5, h6, h7⟩ := volume_core (Q := ⟨4, 2, td, ne, nip, x, w, xi, N', D',
    Ten.empty [ne, nip, 4, 2], Ten.empty [ne, nip]⟩) rfl rfl hD hx hw rfl rfl thick σ
  refine ⟨P, ?_, G, by rw [h5], by rw [h5]; exact hD, by rw [h5]; exact h6, by rw [h5]; exact h7⟩
  rw [construct, hw.1, hx.1]
  dsimp only
  rw [n3, Res.ok_bind, d3, Res.ok_bind, h4]

/-- **C107** (integration volumes of Quad4): in the 2-d and in the planar class the stored volume of an integration point is
weight times Jacobian determinant (times thickness) of the given coordinates and the stored local gradients `D`, up to the
error of 12 roundings relative to the same expression in absolute values: small compared with the volume for elements
that are not too distorted and not too far from the origin. -/
theorem C107_volume_quad4 {ne nip : Nat} {x xi w : Ten r.Num} {X : Nat → Nat → Nat → r.Num} {Ξ : Nat → Nat → r.Num}
    {W : Nat → r.Num} (hx : Is3 x ne 4 2 X) (hxi : Is2 xi nip 2 Ξ) (hw : Is1 w nip W) (σ : Sched) :
    (IsOk (Quad4.new σ x xi w) fun Q => ∃ D, Q.w = w ∧ Is3 Q.dNxi nip 4 2 D ∧ Q.vol.shape = [ne, nip] ∧
      ∀ e q, e < ne → q < nip → ∃ z, Q.vol.v [e, q] = some z ∧
        let J := fun i j => ∑ m ∈ range 4, (D q m i).val * (X e m j).val
        let S := fun i j => ∑ m ∈ range 4, |(D q m i).val| * |(X e m j).val|
        |z.val - (W q).val * (J 0 0 * J 1 1 - J 0 1 * J 1 0)| ≤
          r.acc 12 * (|(W q).val| * (S 0 0 * S 1 1 + S 0 1 * S 1 0))) ∧
    ∀ thick, IsOk (Quad4.newPlanar σ x xi w thick) fun Q => ∃ D, Q.w = w ∧ Is3 Q.dNxi nip 4 2 D ∧ Q.vol.shape = [ne, nip] ∧
      ∀ e q, e < ne → q < nip → ∃ z, Q.vol.v [e, q] = some z ∧
        let J := fun i j => ∑ m ∈ range 4, (D q m i).val * (X e m j).val
        let S := fun i j => ∑ m ∈ range 4, |(D q m i).val| * |(X e m j).val|
        |z.val - (W q).val * (J 0 0 * J 1 1 - J 0 1 * J 1 0) * thick.val| ≤
          r.acc 12 * (|(W q).val| * (S 0 0 * S 1 1 + S 0 1 * S 1 0) * |thick.val|) := by
  refine ⟨?_, fun thick => construct_core hx hxi hw 3 thick σ⟩
  obtain ⟨Q, h1, D, h0, h2, h3, h4⟩ := construct_core hx hxi hw 2 1 σ
  refine ⟨Q, h1, D, h0, h2, h3, fun e q he hq => ?_⟩
  obtain ⟨z, h5, h6⟩ := h4 e q he hq
  refine ⟨z, h5, ?_⟩
  have h7 : (1 : r.Num).val = 1 := rfl
  dsimp only at h6 ⊢
  rwa [h7, abs_one, mul_one, mul_one] at h6

/-- **C107** (integration volumes of Quad4 after `update_x`): the same for the new coordinates. -/
theorem C107_volume_update {Q : Quadrature r.Num} {td ne nip : Nat} {N : Nat → Nat → r.Num}
    {G : Nat → Nat → Nat → Nat → r.Num} {V : Nat → Nat → r.Num} {D X : Nat → Nat → Nat → r.Num} {W : Nat → r.Num}
    (h : Holds Q 4 2 td ne nip N G V) (hd : Is3 Q.dNxi nip 4 2 D) (hw : Is1 Q.w nip W) {x : Ten r.Num} (hx : Is3 x ne 4 2 X)
    (thick : r.Num) (σ : Sched) :
    IsOk (Quad4.update_x thick σ Q x) fun Q' => Q'.dNxi = Q.dNxi ∧ Q'.vol.shape = [ne, nip] ∧
      ∀ e q, e < ne → q < nip → ∃ z, Q'.vol.v [e, q] = some z ∧
        let J := fun i j => ∑ m ∈ range 4, (D q m i).val * (X e m j).val
        let S := fun i j => ∑ m ∈ range 4, |(D q m i).val| * |(X e m j).val|
        |z.val - (W q).val * (J 0 0 * J 1 1 - J 0 1 * J 1 0) * thick.val| ≤
          r.acc 12 * (|(W q).val| * (S 0 0 * S 1 1 + S 0 1 * S 1 0) * |thick.val|) := by
  obtain ⟨P, h1, g, v, rfl, h2, h3⟩ := volume_core (Q := { Q with x := x }) h.ne_eq h.nip_eq hd hx hw h.G_is.1 h.V_is.1 thick σ
  exact ⟨_, h1, rfl, h2, h3⟩

/-! ### the hypotheses are met: a square element in `double` arithmetic -/

example : ∃ (Q : Quadrature (binary ℚ 53 (by norm_num)).Num) (N : _) (G : _) (V : _) (D : _) (W : _)
    (x : Ten (binary ℚ 53 (by norm_num)).Num) (X : _), Holds Q 4 2 2 1 4 N G V ∧ Is3 Q.dNxi 4 4 2 D ∧ Is1 Q.w 4 W ∧
      Is3 x 1 4 2 X := by
  let r := binary ℚ 53 (by norm_num)
  have hw : Is1 (Ten.of [4] fun _ => (1 : r.Num)) 4 _ := is1_of 4 fun _ => (1 : r.Num)
  have hxi := is2_of 4 2 fun _ => Rounding.Num.of r (577 / 1000)
  have hx := is3_of 1 4 2 fun ix => Rounding.Num.of r (
        if ix.getD 2 0 = 0 then (if ix.getD 1 0 = 1 ∨ ix.getD 1 0 = 2 then 1 / 10 else 0) else (if 2 ≤ ix.getD 1 0 then 1 / 10 else 0))
  obtain ⟨Q, h1, N, G, V, h2⟩ := ((C107_new (r := r) (ne := 1) (nip := 4) Sched.seq hw).1 hx hxi).1
  obtain ⟨Q', h3, D, h5, h4, -⟩ := (C107_volume_quad4 (r := r) hx hxi hw Sched.seq).1
  obtain rfl : Q = Q' := Res.ok.inj (h1.symm.trans h3)
  exact ⟨Q, N, G, V, D, _, _, _, h2, h4, h5 ▸ hw, is3_of 1 4 2 fun _ => Rounding.Num.of r (1 / 3)⟩

end Element
end GF
