import Verif.Props.RoundingVolume
import Verif.Props.RoundingAxiVolume

/-! **C107**, shape functions of Quad4 in floating-point arithmetic. -/

namespace GF
variable {α : Type} [Field α] [LinearOrder α] [IsStrictOrderedRing α] {r : Rounding α}

theorem Rounds.neg {x : r.Num} {a : Bound α} (hx : Rounds r x a) : Rounds r (-x) (-a) := by
  have e1 : (-a).exact = -a.exact := rfl
  have e2 : (-a).size = a.size := rfl
  have hs : |(-a).exact| ≤ (-a).size := by rw [e1, e2, abs_neg]; exact hx.size
  refine ⟨hs, ?_, fun h => nomatch h⟩
  have h1 : |-x.val - (-a).exact| ≤ r.acc a.roundings * (-a).size := by
    rw [e1, e2, ← abs_neg]
    have := hx.err
    rwa [show -(-x.val - -a.exact) = x.val - a.exact by ring]
  refine (r.step hs h1).trans (mul_le_mul_of_nonneg_right (r.acc_mono ?_) ((abs_nonneg _).trans hs))
  have e3 : (-a).terms = 1 := rfl
  have e4 : (-a).depth = a.roundings + 1 := rfl
  rw [show (-a).roundings = (-a).terms - 1 + (-a).depth from rfl, e3, e4]
  omega

namespace Element.AnyArith
open Quad4

section
variable {β : Type} [Zero β] [One β] [Add β] [Mul β] [Sub β] [Div β] [Neg β] [NatCast β]

/-- the two factors of a shape function -/
def facA (m : Nat) (a : β) : β := if m = 1 ∨ m = 2 then 1 + a else 1 - a
def facB (m : Nat) (b : β) : β := if 2 ≤ m then 1 + b else 1 - b
def sgnA (m : Nat) : β := if m = 0 ∨ m = 3 then -(1 / 4) else 1 / 4
def sgnB (m : Nat) : β := if m = 0 ∨ m = 1 then -(1 / 4) else 1 / 4

theorem shapeN_ok {xi : Ten β} {nip : Nat} {Ξ} (h : Is2 xi nip 2 Ξ) :
    ∃ t, shapeN nip xi = .ok t ∧ Is2 t nip 4 (fun q m => 1 / 4 * facA m (Ξ q 0) * facB m (Ξ q 1)) := by
  have H : IsSets [nip, 4] (fun t : Ten β => forEach (it1 nip) (fun t q => do
      let a ← xi.get [q, 0]
      let b ← xi.get [q, 1]
      let t ← t.set [q, 0] (1 / 4 * (1 - a) * (1 - b))
      let t ← t.set [q, 1] (1 / 4 * (1 + a) * (1 - b))
      let t ← t.set [q, 2] (1 / 4 * (1 + a) * (1 + b))
      t.set [q, 3] (1 / 4 * (1 - a) * (1 + b))) t)
      ((it1 nip).flatMap fun q =>
        [([q, 0], 1 / 4 * (1 - Ξ q 0) * (1 - Ξ q 1))] ++ ([([q, 1], 1 / 4 * (1 + Ξ q 0) * (1 - Ξ q 1))] ++
        ([([q, 2], 1 / 4 * (1 + Ξ q 0) * (1 + Ξ q 1))] ++
          [([q, 3], 1 / 4 * (1 - Ξ q 0) * (1 + Ξ q 1))]))) := by
    refine isSets_loop _ _ _ fun q hq => ?_
    rw [mem_it1] at hq
    rw [h.get hq (by omega), h.get hq (by omega)]
    simp only [Res.ok_bind]
    exact isSets_seq (isSets_one _ _ _ _ fun _ _ => rfl) (isSets_seq (isSets_one _ _ _ _ fun _ _ => rfl)
      (isSets_seq (isSets_one _ _ _ _ fun _ _ => rfl) (isSets_one _ _ _ _ fun _ _ => rfl)
      fun _ _ => rfl) fun _ _ => rfl) fun _ _ => rfl
  obtain ⟨t, h1, h2, h3, -⟩ := H.spec
    (fun p => 1 / 4 * facA (p.getD 1 0) (Ξ (p.getD 0 0) 0) * facB (p.getD 1 0) (Ξ (p.getD 0 0) 1)) (by
    simp only [List.mem_flatMap, mem_it1, List.mem_append, List.mem_singleton]
    rintro st ⟨q, hq, rfl | rfl | rfl | rfl⟩ <;>
    · refine ⟨by simp [hq], ?_⟩
      simp [facA, facB]) (Ten.empty [nip, 4]) rfl
  refine ⟨t, h1, h2, fun q m hq hm => ?_⟩
  rw [h3 [q, m] ?_]
  · rfl
  · refine covered (mem_it1.2 hq) ?_
    interval_cases m <;> simp

theorem shapeDN_ok {xi : Ten β} {nip : Nat} {Ξ} (h : Is2 xi nip 2 Ξ) :
    ∃ t, shapeDN nip xi = .ok t ∧
      Is3 t nip 4 2 (fun q m i => if i = 0 then sgnA m * facB m (Ξ q 1) else sgnB m * facA m (Ξ q 0)) := by
  have H : IsSets [nip, 4, 2] (fun t : Ten β => forEach (it1 nip) (fun t q => do
      let a ← xi.get [q, 0]
      let b ← xi.get [q, 1]
      let t ← t.set [q, 0, 0] (-(1 / 4) * (1 - b))
      let t ← t.set [q, 1, 0] ((1 / 4) * (1 - b))
      let t ← t.set [q, 2, 0] ((1 / 4) * (1 + b))
      let t ← t.set [q, 3, 0] (-(1 / 4) * (1 + b))
      let t ← t.set [q, 0, 1] (-(1 / 4) * (1 - a))
      let t ← t.set [q, 1, 1] (-(1 / 4) * (1 + a))
      let t ← t.set [q, 2, 1] ((1 / 4) * (1 + a))
      t.set [q, 3, 1] ((1 / 4) * (1 - a))) t)
      ((it1 nip).flatMap fun q =>
        [([q, 0, 0], -(1 / 4) * (1 - Ξ q 1))] ++ ([([q, 1, 0], (1 / 4) * (1 - Ξ q 1))] ++
        ([([q, 2, 0], (1 / 4) * (1 + Ξ q 1))] ++ ([([q, 3, 0], -(1 / 4) * (1 + Ξ q 1))] ++
        ([([q, 0, 1], -(1 / 4) * (1 - Ξ q 0))] ++ ([([q, 1, 1], -(1 / 4) * (1 + Ξ q 0))] ++
        ([([q, 2, 1], (1 / 4) * (1 + Ξ q 0))] ++ [([q, 3, 1], (1 / 4) * (1 - Ξ q 0))]))))))) := by
    refine isSets_loop _ _ _ fun q hq => ?_
    rw [mem_it1] at hq
    rw [h.get hq (by omega), h.get hq (by omega)]
    simp only [Res.ok_bind]
    iterate 7 refine isSets_seq (isSets_one _ _ _ _ fun _ _ => rfl) ?_ (fun _ _ => rfl)
    exact isSets_one _ _ _ _ fun _ _ => rfl
  obtain ⟨t, h1, h2, h3, -⟩ := H.spec
    (fun p => if p.getD 2 0 = 0 then sgnA (p.getD 1 0) * facB (p.getD 1 0) (Ξ (p.getD 0 0) 1)
      else sgnB (p.getD 1 0) * facA (p.getD 1 0) (Ξ (p.getD 0 0) 0)) (by
    simp only [List.mem_flatMap, mem_it1, List.mem_append, List.mem_singleton]
    rintro st ⟨q, hq, rfl | rfl | rfl | rfl | rfl | rfl | rfl | rfl⟩ <;>
    · refine ⟨by simp [hq], ?_⟩
      simp [facA, facB, sgnA, sgnB]) (Ten.empty [nip, 4, 2]) rfl
  refine ⟨t, h1, h2, fun q m i hq hm hi => ?_⟩
  rw [h3 [q, m, i] ?_]
  · rfl
  · refine covered (mem_it1.2 hq) ?_
    interval_cases m <;> interval_cases i <;> simp

end
end Element.AnyArith

namespace Element
open ElemSpec Quad4 AnyArith

theorem quarter_rounds (h4 : r.fl 4 = 4) : ∃ c : Bound α, Rounds r (1 / 4) c ∧ c.exact = 1 / 4 ∧ c.size = 1 / 4 ∧
    c.roundings = 1 := by
  have e : (4 : Bound α).exact = 4 := by change ((4 : ℕ) : α) = 4; norm_num
  refine ⟨1 / 4, Rounds.one.div ?_, ?_, ?_, rfl⟩
  · rw [e]
    change r.fl ((4 : ℕ) : α) = 4
    rw [Nat.cast_ofNat, h4]
  · rw [Bound.div_exact, e, Bound.one_exact]
  · rw [Bound.div_size, e, Bound.one_size, abs_of_nonneg (by norm_num)]

theorem plus_rounds (a : r.Num) : Rounds r (1 + a) (1 + Bound.of a.val) := Rounds.one.add (Rounds.of a)
theorem minus_rounds (a : r.Num) : Rounds r (1 - a) (1 - Bound.of a.val) := Rounds.one.sub (Rounds.of a)

theorem fac_rounds (p : Prop) [Decidable p] (a : r.Num) : ∃ c : Bound α, Rounds r (if p then 1 + a else 1 - a) c ∧
    c.exact = (if p then 1 + a.val else 1 - a.val) ∧ c.size = 1 + |a.val| ∧ c.roundings = 1 := by
  split
  · exact ⟨_, plus_rounds a, rfl, rfl, rfl⟩
  · exact ⟨_, minus_rounds a, rfl, rfl, rfl⟩

theorem sgn_rounds (h4 : r.fl 4 = 4) (p : Prop) [Decidable p] : ∃ c : Bound α,
    Rounds r (if p then -(1 / 4) else 1 / 4) c ∧ c.exact = (if p then -(1 / 4) else 1 / 4) ∧ c.size = 1 / 4 ∧ c.roundings ≤ 2 := by
  obtain ⟨c, h1, h2, h3, h5⟩ := quarter_rounds h4
  split
  · exact ⟨-c, h1.neg, by rw [← h2]; rfl, by rw [← h3]; rfl, by
      rw [show (-c).roundings = 1 - 1 + (c.roundings + 1) from rfl, h5]⟩
  · exact ⟨c, h1, h2, h3, by omega⟩

/-- what is claimed of the stored shape functions `N` and local gradients `D` of the points `ξ` -/
def ShapeBounds (r : Rounding α) (nip : Nat) (ξ : Nat → Nat → r.Num) (N : Nat → Nat → r.Num) (D : Nat → Nat → Nat → r.Num) : Prop :=
  ∀ q m, q < nip → m < 4 →
    |(N q m).val - N4 m (ξ q 0).val (ξ q 1).val| ≤ r.acc 5 * ((1 + |(ξ q 0).val|) * (1 + |(ξ q 1).val|) / 4) ∧
    |(D q m 0).val - part2 (N4 m) 0 (ξ q 0).val (ξ q 1).val| ≤ r.acc 4 * ((1 + |(ξ q 1).val|) / 4) ∧
    |(D q m 1).val - part2 (N4 m) 1 (ξ q 0).val (ξ q 1).val| ≤ r.acc 4 * ((1 + |(ξ q 0).val|) / 4)

theorem shape_bounds (h4 : r.fl 4 = 4) (nip : Nat) (Ξ : Nat → Nat → r.Num) :
    ShapeBounds r nip Ξ (fun q m => 1 / 4 * facA m (Ξ q 0) * facB m (Ξ q 1))
      (fun q m i => if i = 0 then sgnA m * facB m (Ξ q 1) else sgnB m * facA m (Ξ q 0)) := by
  intro q m hq hm
  obtain ⟨c, c1, c2, c3, c4⟩ := quarter_rounds h4
  obtain ⟨a, a1, a2, a3, a4⟩ := fac_rounds (m = 1 ∨ m = 2) (Ξ q 0)
  obtain ⟨b, b1, b2, b3, b4⟩ := fac_rounds (2 ≤ m) (Ξ q 1)
  obtain ⟨s, s1, s2, s3, s4⟩ := sgn_rounds h4 (m = 0 ∨ m = 3)
  obtain ⟨t, t1, t2, t3, t4⟩ := sgn_rounds h4 (m = 0 ∨ m = 1)
  have hm4 : ∀ x y : Bound α, (x * y).roundings = x.roundings + y.roundings + 1 := fun x y => by
    rw [show (x * y).roundings = 1 - 1 + (x.roundings + y.roundings + 1) from rfl]; omega
  refine ⟨?_, ?_, ?_⟩
  · have h := ((c1.mul a1).mul b1).mono (n := 5) (by rw [hm4, hm4, c4, a4, b4])
    rw [Bound.mul_exact, Bound.mul_exact, Bound.mul_size, Bound.mul_size, c2, c3, a2, a3, b2, b3] at h
    have e : N4 m (Ξ q 0).val (Ξ q 1).val = 1 / 4 * (if m = 1 ∨ m = 2 then 1 + (Ξ q 0).val else 1 - (Ξ q 0).val) *
        (if 2 ≤ m then 1 + (Ξ q 1).val else 1 - (Ξ q 1).val) := by
      interval_cases m <;> simp [N4, corner4] <;> ring
    rw [e, show (1 + |(Ξ q 0).val|) * (1 + |(Ξ q 1).val|) / 4 = 1 / 4 * (1 + |(Ξ q 0).val|) * (1 + |(Ξ q 1).val|) by ring]
    exact h
  · have h := (s1.mul b1).mono (n := 4) (by rw [hm4, b4]; omega)
    rw [Bound.mul_exact, Bound.mul_size, s2, s3, b2, b3] at h
    have e : part2 (N4 m) 0 (Ξ q 0).val (Ξ q 1).val = (if m = 0 ∨ m = 3 then -(1 / 4) else 1 / 4) *
        (if 2 ≤ m then 1 + (Ξ q 1).val else 1 - (Ξ q 1).val) := by
      interval_cases m <;> simp [part2, N4, corner4] <;> ring
    rw [e, show (1 + |(Ξ q 1).val|) / 4 = 1 / 4 * (1 + |(Ξ q 1).val|) by ring]
    exact h
  · have h := (t1.mul a1).mono (n := 4) (by rw [hm4, a4]; omega)
    rw [Bound.mul_exact, Bound.mul_size, t2, t3, a2, a3] at h
    have e : part2 (N4 m) 1 (Ξ q 0).val (Ξ q 1).val = (if m = 0 ∨ m = 1 then -(1 / 4) else 1 / 4) *
        (if m = 1 ∨ m = 2 then 1 + (Ξ q 0).val else 1 - (Ξ q 0).val) := by
      interval_cases m <;> simp [part2, N4, corner4] <;> ring
    rw [e, show (1 + |(Ξ q 0).val|) / 4 = 1 / 4 * (1 + |(Ξ q 0).val|) by ring]
    exact h

theorem construct_shape (h4 : r.fl 4 = 4) {ne nip : Nat} {x xi w : Ten r.Num} {X : Nat → Nat → Nat → r.Num}
    {Ξ : Nat → Nat → r.Num} {W : Nat → r.Num} (hx : Is3 x ne 4 2 X) (hxi : Is2 xi nip 2 Ξ) (hw : Is1 w nip W) (td : Nat)
    (thick : r.Num) (σ : Sched) :
    IsOk (construct td thick σ x xi w) fun Q => ∃ N D, Is2 Q.N nip 4 N ∧ Is3 Q.dNxi nip 4 2 D ∧ ShapeBounds r nip Ξ N D := by
  obtain ⟨N, n1, n2⟩ := AnyArith.shapeN_ok hxi
  obtain ⟨D, d1, d2⟩ := AnyArith.shapeDN_ok hxi
  obtain ⟨P, h1, g, v, h2, -, -⟩ := volume_core (Q := ⟨4, 2, td, ne, nip, x, w, xi, N, D,
    Ten.empty [ne, nip, 4, 2], Ten.empty [ne, nip]⟩) rfl rfl d2 hx hw rfl rfl thick σ
  refine ⟨P, ?_, _, _, by rw [h2]; exact n2, by rw [h2]; exact d2, shape_bounds h4 nip Ξ⟩
  rw [construct, hw.1, hx.1]
  dsimp only
  rw [n1, Res.ok_bind, d1, Res.ok_bind, h1]

/-- **C107** (shape functions of Quad4, 2-d, planar and axisymmetric): the stored shape functions and local gradients are those
of the given quadrature points `(Ξ q 0, Ξ q 1)`, up to the errors of 5 and 4 roundings relative to the same expressions in
absolute values (at most 1 and 1/2 for points in the element).  `r.fl 4 = 4`: the literals 1/4 of the source are computed
from a representable 4. -/
theorem C107_shape_quad4 (h4 : r.fl 4 = 4) {ne nip : Nat} {x xi w : Ten r.Num} {X : Nat → Nat → Nat → r.Num}
    {Ξ : Nat → Nat → r.Num} {W : Nat → r.Num} (hx : Is3 x ne 4 2 X) (hxi : Is2 xi nip 2 Ξ) (hw : Is1 w nip W) (σ : Sched) :
    (IsOk (Quad4.new σ x xi w) fun Q => ∃ N D, Is2 Q.N nip 4 N ∧ Is3 Q.dNxi nip 4 2 D ∧ ShapeBounds r nip Ξ N D) ∧
    (∀ thick, IsOk (Quad4.newPlanar σ x xi w thick) fun Q => ∃ N D, Is2 Q.N nip 4 N ∧ Is3 Q.dNxi nip 4 2 D ∧
      ShapeBounds r nip Ξ N D) ∧
    ∀ pi, IsOk (Axi.new pi σ x xi w) fun Q => ∃ N D, Is2 Q.N nip 4 N ∧ Is3 Q.dNxi nip 4 2 D ∧ ShapeBounds r nip Ξ N D := by
  refine ⟨construct_shape h4 hx hxi hw 2 1 σ, fun thick => construct_shape h4 hx hxi hw 3 thick σ, fun pi => ?_⟩
  obtain ⟨N, n1, n2⟩ := AnyArith.shapeN_ok hxi
  obtain ⟨D, d1, d2⟩ := AnyArith.shapeDN_ok hxi
  obtain ⟨P, h1, g, v, h2, -, -⟩ := Axi.volume_core (A := ⟨⟨4, 2, 3, ne, nip, x, w, xi, N, D,
    Ten.empty [], Ten.empty [ne, nip]⟩, Ten.empty [ne, nip, 4, 3, 3, 3]⟩) rfl rfl n2 d2 hx hw rfl rfl pi σ
  refine ⟨P, ?_, _, _, by rw [h2]; exact n2, by rw [h2]; exact d2, shape_bounds h4 nip Ξ⟩
  rw [Axi.new, hw.1, hx.1]
  dsimp only
  rw [n1, Res.ok_bind, d1, Res.ok_bind, h1]

/-! ### the hypotheses are met: `double` arithmetic -/

example : (binary ℚ 53 (by norm_num)).fl 4 = 4 ∧ ∃ (x xi w : Ten (binary ℚ 53 (by norm_num)).Num) (X : _) (Ξ : _) (W : _),
    Is3 x 1 4 2 X ∧ Is2 xi 4 2 Ξ ∧ Is1 w 4 W := by
  refine ⟨?_, ?_⟩
  · have h := roundBits_rep (α := ℚ) (p := 53) (by norm_num) 1 2 (by norm_num)
    norm_num at h
    exact h
  · let r := binary ℚ 53 (by norm_num)
    exact ⟨_, _, _, _, _, _, is3_of 1 4 2 fun ix => Rounding.Num.of r (ix.getD 1 0), is2_of 4 2 fun _ => Rounding.Num.of r (577 / 1000),
      is1_of 4 fun _ => (1 : r.Num)⟩

end Element
end GF
