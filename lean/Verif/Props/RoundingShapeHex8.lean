import Verif.Props.RoundingShape
import Verif.Props.RoundingVolumeHex8

/-! **C107**, shape functions of Hex8 in floating-point arithmetic. -/

namespace GF.Element.AnyArith.Hex8
open Quad4 GF.Element.Hex8

section
variable {β : Type} [Zero β] [One β] [Add β] [Mul β] [Sub β] [Div β] [Neg β] [NatCast β]

/-- a factor of a shape function -/
def fac (p : Prop) [Decidable p] (a : β) : β := if p then 1 + a else 1 - a
/-- the leading factor of a local gradient -/
def sgn (p : Prop) [Decidable p] : β := if p then -(1 / 8) else 1 / 8

/-- the shape functions as computed -/
def N8f (Ξ : Nat → Nat → β) (q m : Nat) : β :=
  1 / 8 * fac (m % 4 = 1 ∨ m % 4 = 2) (Ξ q 0) * fac (2 ≤ m % 4) (Ξ q 1) * fac (4 ≤ m) (Ξ q 2)

/-- the local gradients as computed -/
def D8f (Ξ : Nat → Nat → β) (q m i : Nat) : β :=
  if i = 0 then sgn (m % 4 = 0 ∨ m % 4 = 3) * fac (2 ≤ m % 4) (Ξ q 1) * fac (4 ≤ m) (Ξ q 2)
  else if i = 1 then sgn (m % 4 = 0 ∨ m % 4 = 1) * fac (m % 4 = 1 ∨ m % 4 = 2) (Ξ q 0) * fac (4 ≤ m) (Ξ q 2)
  else sgn (m < 4) * fac (m % 4 = 1 ∨ m % 4 = 2) (Ξ q 0) * fac (2 ≤ m % 4) (Ξ q 1)

theorem shapeN_ok {xi : Ten β} {nip : Nat} {Ξ} (h : Is2 xi nip 3 Ξ) :
    ∃ t, GF.Element.Hex8.shapeN nip xi = .ok t ∧ Is2 t nip 8 (N8f Ξ) := by
  have H : IsSets [nip, 8] (fun t : Ten β => shapeNLoop nip xi t)
      ((it1 nip).flatMap fun q =>
        [([q, 0], 1 / 8 * (1 - Ξ q 0) * (1 - Ξ q 1) * (1 - Ξ q 2))] ++
        ([([q, 1], 1 / 8 * (1 + Ξ q 0) * (1 - Ξ q 1) * (1 - Ξ q 2))] ++
        ([([q, 2], 1 / 8 * (1 + Ξ q 0) * (1 + Ξ q 1) * (1 - Ξ q 2))] ++
        ([([q, 3], 1 / 8 * (1 - Ξ q 0) * (1 + Ξ q 1) * (1 - Ξ q 2))] ++
        ([([q, 4], 1 / 8 * (1 - Ξ q 0) * (1 - Ξ q 1) * (1 + Ξ q 2))] ++
        ([([q, 5], 1 / 8 * (1 + Ξ q 0) * (1 - Ξ q 1) * (1 + Ξ q 2))] ++
        ([([q, 6], 1 / 8 * (1 + Ξ q 0) * (1 + Ξ q 1) * (1 + Ξ q 2))] ++
        ([([q, 7], 1 / 8 * (1 - Ξ q 0) * (1 + Ξ q 1) * (1 + Ξ q 2))])))))))) := by
    unfold shapeNLoop
    refine isSets_loop _ _ _ fun q hq => ?_
    rw [mem_it1] at hq
    rw [h.get hq (by omega), h.get hq (by omega), h.get hq (by omega)]
    simp only [Res.ok_bind]
    iterate 7 refine isSets_seq (isSets_one _ _ _ _ fun _ _ => rfl) ?_ (fun _ _ => rfl)
    exact isSets_one _ _ _ _ fun _ _ => rfl
  obtain ⟨t, h1, h2, h3, -⟩ := H.spec
    (fun p => N8f Ξ (p.getD 0 0) (p.getD 1 0)) (by
    simp only [List.mem_flatMap, mem_it1, List.mem_append, List.mem_singleton]
    rintro st ⟨q, hq, rfl | rfl | rfl | rfl | rfl | rfl | rfl | rfl⟩ <;>
    · refine ⟨by simp [hq], ?_⟩
      simp [N8f, fac]) (Ten.empty [nip, 8]) rfl
  refine ⟨t, h1, h2, fun q m hq hm => ?_⟩
  rw [h3 [q, m] ?_]
  · rfl
  · refine covered (mem_it1.2 hq) ?_
    interval_cases m <;> simp

theorem shapeDN_ok {xi : Ten β} {nip : Nat} {Ξ} (h : Is2 xi nip 3 Ξ) :
    ∃ t, GF.Element.Hex8.shapeDN nip xi = .ok t ∧ Is3 t nip 8 3 (D8f Ξ) := by
  have H : IsSets [nip, 8, 3] (fun t : Ten β => shapeDNLoop nip xi t)
      ((it1 nip).flatMap fun q =>
        [([q, 0, 0], -(1 / 8) * (1 - Ξ q 1) * (1 - Ξ q 2))] ++
        ([([q, 1, 0], (1 / 8) * (1 - Ξ q 1) * (1 - Ξ q 2))] ++
        ([([q, 2, 0], (1 / 8) * (1 + Ξ q 1) * (1 - Ξ q 2))] ++
        ([([q, 3, 0], -(1 / 8) * (1 + Ξ q 1) * (1 - Ξ q 2))] ++
        ([([q, 4, 0], -(1 / 8) * (1 - Ξ q 1) * (1 + Ξ q 2))] ++
        ([([q, 5, 0], (1 / 8) * (1 - Ξ q 1) * (1 + Ξ q 2))] ++
        ([([q, 6, 0], (1 / 8) * (1 + Ξ q 1) * (1 + Ξ q 2))] ++
        ([([q, 7, 0], -(1 / 8) * (1 + Ξ q 1) * (1 + Ξ q 2))] ++
        ([([q, 0, 1], -(1 / 8) * (1 - Ξ q 0) * (1 - Ξ q 2))] ++
        ([([q, 1, 1], -(1 / 8) * (1 + Ξ q 0) * (1 - Ξ q 2))] ++
        ([([q, 2, 1], (1 / 8) * (1 + Ξ q 0) * (1 - Ξ q 2))] ++
        ([([q, 3, 1], (1 / 8) * (1 - Ξ q 0) * (1 - Ξ q 2))] ++
        ([([q, 4, 1], -(1 / 8) * (1 - Ξ q 0) * (1 + Ξ q 2))] ++
        ([([q, 5, 1], -(1 / 8) * (1 + Ξ q 0) * (1 + Ξ q 2))] ++
        ([([q, 6, 1], (1 / 8) * (1 + Ξ q 0) * (1 + Ξ q 2))] ++
        ([([q, 7, 1], (1 / 8) * (1 - Ξ q 0) * (1 + Ξ q 2))] ++
        ([([q, 0, 2], -(1 / 8) * (1 - Ξ q 0) * (1 - Ξ q 1))] ++
        ([([q, 1, 2], -(1 / 8) * (1 + Ξ q 0) * (1 - Ξ q 1))] ++
        ([([q, 2, 2], -(1 / 8) * (1 + Ξ q 0) * (1 + Ξ q 1))] ++
        ([([q, 3, 2], -(1 / 8) * (1 - Ξ q 0) * (1 + Ξ q 1))] ++
        ([([q, 4, 2], (1 / 8) * (1 - Ξ q 0) * (1 - Ξ q 1))] ++
        ([([q, 5, 2], (1 / 8) * (1 + Ξ q 0) * (1 - Ξ q 1))] ++
        ([([q, 6, 2], (1 / 8) * (1 + Ξ q 0) * (1 + Ξ q 1))] ++
        ([([q, 7, 2], (1 / 8) * (1 - Ξ q 0) * (1 + Ξ q 1))])))))))))))))))))))))))) := by
    unfold shapeDNLoop
    refine isSets_loop _ _ _ fun q hq => ?_
    rw [mem_it1] at hq
    rw [h.get hq (by omega), h.get hq (by omega), h.get hq (by omega)]
    simp only [Res.ok_bind]
    iterate 23 refine isSets_seq (isSets_one _ _ _ _ fun _ _ => rfl) ?_ (fun _ _ => rfl)
    exact isSets_one _ _ _ _ fun _ _ => rfl
  obtain ⟨t, h1, h2, h3, -⟩ := H.spec
    (fun p => D8f Ξ (p.getD 0 0) (p.getD 1 0) (p.getD 2 0)) (by
    simp only [List.mem_flatMap, mem_it1, List.mem_append, List.mem_singleton]
    rintro st ⟨q, hq, rfl | rfl | rfl | rfl | rfl | rfl | rfl | rfl | rfl | rfl | rfl | rfl | rfl | rfl | rfl | rfl | rfl | rfl | rfl | rfl | rfl | rfl | rfl | rfl⟩ <;>
    · refine ⟨by simp [hq], ?_⟩
      simp [D8f, fac, sgn]) (Ten.empty [nip, 8, 3]) rfl
  refine ⟨t, h1, h2, fun q m i hq hm hi => ?_⟩
  rw [h3 [q, m, i] ?_]
  · rfl
  · refine covered (mem_it1.2 hq) ?_
    interval_cases m <;> interval_cases i <;> simp

end
end GF.Element.AnyArith.Hex8

namespace GF.Element
open ElemSpec AnyArith AnyArith.Hex8
variable {α : Type} [Field α] [LinearOrder α] [IsStrictOrderedRing α] {r : Rounding α}

theorem eighth_rounds (h8 : r.fl 8 = 8) : ∃ c : Bound α, Rounds r (1 / 8) c ∧ c.exact = 1 / 8 ∧ c.size = 1 / 8 ∧
    c.roundings = 1 := by
  have e : (8 : Bound α).exact = 8 := by change ((8 : ℕ) : α) = 8; norm_num
  refine ⟨1 / 8, Rounds.one.div ?_, ?_, ?_, rfl⟩
  · rw [e]
    change r.fl ((8 : ℕ) : α) = 8
    rw [Nat.cast_ofNat, h8]
  · rw [Bound.div_exact, e, Bound.one_exact]
  · rw [Bound.div_size, e, Bound.one_size, abs_of_nonneg (by norm_num)]

theorem sgn8_rounds (h8 : r.fl 8 = 8) (p : Prop) [Decidable p] : ∃ c : Bound α,
    Rounds r (sgn p) c ∧ c.exact = (if p then -(1 / 8) else 1 / 8) ∧ c.size = 1 / 8 ∧ c.roundings ≤ 2 := by
  obtain ⟨c, h1, h2, h3, h5⟩ := eighth_rounds h8
  unfold sgn
  split
  · exact ⟨-c, h1.neg, by rw [← h2]; rfl, by rw [← h3]; rfl, by
      rw [show (-c).roundings = 1 - 1 + (c.roundings + 1) from rfl, h5]⟩
  · exact ⟨c, h1, h2, h3, by omega⟩

/-- the product of a factor and two others -/
theorem prod3_rounds {x y z : r.Num} {a b c : Bound α} {n k : Nat} (ha : Rounds r x a) (hb : Rounds r y b) (hc : Rounds r z c)
    (h1 : a.roundings ≤ n) (h2 : b.roundings = 1) (h3 : c.roundings = 1) (hk : n + 4 ≤ k) :
    |(x * y * z).val - a.exact * b.exact * c.exact| ≤ r.acc k * (a.size * b.size * c.size) := by
  have hm4 : ∀ x y : Bound α, (x * y).roundings = x.roundings + y.roundings + 1 := fun x y => by
    rw [show (x * y).roundings = 1 - 1 + (x.roundings + y.roundings + 1) from rfl]; omega
  have h := ((ha.mul hb).mul hc).mono (n := k) (by rw [hm4, hm4, h2, h3]; omega)
  rwa [Bound.mul_exact, Bound.mul_exact, Bound.mul_size, Bound.mul_size] at h

/-- **C107** (shape functions of Hex8): the stored shape functions and local gradients are those of the given quadrature
points, up to the errors of 7 and 6 roundings relative to the same expressions in absolute values (at most 1 and 1/2 for points
in the element). -/
theorem C107_shape_hex8 (h8 : r.fl 8 = 8) {ne nip : Nat} {x xi w : Ten r.Num} {X : Nat → Nat → Nat → r.Num}
    {Ξ : Nat → Nat → r.Num} {W : Nat → r.Num} (hx : Is3 x ne 8 3 X) (hxi : Is2 xi nip 3 Ξ) (hw : Is1 w nip W) (σ : Sched) :
    IsOk (Hex8.new σ x xi w) fun Q => ∃ N D, Is2 Q.N nip 8 N ∧ Is3 Q.dNxi nip 8 3 D ∧ ∀ q m, q < nip → m < 8 →
      let ξ := (Ξ q 0).val
      let η := (Ξ q 1).val
      let ζ := (Ξ q 2).val
      |(N q m).val - N8 m ξ η ζ| ≤ r.acc 7 * ((1 + |ξ|) * (1 + |η|) * (1 + |ζ|) / 8) ∧
      |(D q m 0).val - part3 (N8 m) 0 ξ η ζ| ≤ r.acc 6 * ((1 + |η|) * (1 + |ζ|) / 8) ∧
      |(D q m 1).val - part3 (N8 m) 1 ξ η ζ| ≤ r.acc 6 * ((1 + |ξ|) * (1 + |ζ|) / 8) ∧
      |(D q m 2).val - part3 (N8 m) 2 ξ η ζ| ≤ r.acc 6 * ((1 + |ξ|) * (1 + |η|) / 8) := by
  obtain ⟨N, n1, n2⟩ := AnyArith.Hex8.shapeN_ok hxi
  obtain ⟨D, d1, d2⟩ := AnyArith.Hex8.shapeDN_ok hxi
  obtain ⟨P, h1, g, v, h2, -, -⟩ := Hex8.volume_core (Q := ⟨8, 3, 3, ne, nip, x, w, xi, N, D,
    Ten.empty [ne, nip, 8, 3], Ten.empty [ne, nip]⟩) rfl rfl rfl rfl d2 hx hw rfl rfl σ
  refine ⟨P, ?_, _, _, by rw [h2]; exact n2, by rw [h2]; exact d2, fun q m hq hm => ?_⟩
  · rw [GF.Element.Hex8.new, hw.1, hx.1]
    dsimp only
    rw [n1, Res.ok_bind, d1, Res.ok_bind, h1]
  intro ξ η ζ
  obtain ⟨c, c1, c2, c3, c4⟩ := eighth_rounds h8
  obtain ⟨a, a1, a2, a3, a4⟩ := fac_rounds (m % 4 = 1 ∨ m % 4 = 2) (Ξ q 0)
  obtain ⟨b, b1, b2, b3, b4⟩ := fac_rounds (2 ≤ m % 4) (Ξ q 1)
  obtain ⟨d, e1, e2, e3, e4⟩ := fac_rounds (4 ≤ m) (Ξ q 2)
  obtain ⟨s, s1, s2, s3, s4⟩ := sgn8_rounds h8 (m % 4 = 0 ∨ m % 4 = 3)
  obtain ⟨t, t1, t2, t3, t4⟩ := sgn8_rounds h8 (m % 4 = 0 ∨ m % 4 = 1)
  obtain ⟨k, k1, k2, k3, k4⟩ := sgn8_rounds h8 (m < 4)
  have hm4 : ∀ x y : Bound α, (x * y).roundings = x.roundings + y.roundings + 1 := fun x y => by
    rw [show (x * y).roundings = 1 - 1 + (x.roundings + y.roundings + 1) from rfl]; omega
  refine ⟨?_, ?_, ?_, ?_⟩
  · have h := prod3_rounds (k := 7) (c1.mul a1) b1 e1 (n := 3) (by rw [hm4, c4, a4]) b4 e4 (by omega)
    rw [Bound.mul_exact, Bound.mul_size, c2, c3, a2, a3, b2, b3, e2, e3] at h
    have e : N8 m ξ η ζ = 1 / 8 * (if m % 4 = 1 ∨ m % 4 = 2 then 1 + ξ else 1 - ξ) * (if 2 ≤ m % 4 then 1 + η else 1 - η) *
        (if 4 ≤ m then 1 + ζ else 1 - ζ) := by
      interval_cases m <;> simp [N8, corner8, corner4] <;> ring
    rw [e, show (1 + |ξ|) * (1 + |η|) * (1 + |ζ|) / 8 = 1 / 8 * (1 + |ξ|) * (1 + |η|) * (1 + |ζ|) by ring]
    exact h
  · have h := prod3_rounds (k := 6) s1 b1 e1 s4 b4 e4 (by omega)
    rw [s2, s3, b2, b3, e2, e3] at h
    have e : part3 (N8 m) 0 ξ η ζ = (if m % 4 = 0 ∨ m % 4 = 3 then -(1 / 8) else 1 / 8) *
        (if 2 ≤ m % 4 then 1 + η else 1 - η) * (if 4 ≤ m then 1 + ζ else 1 - ζ) := by
      interval_cases m <;> simp [part3, N8, corner8, corner4] <;> ring
    rw [e, show (1 + |η|) * (1 + |ζ|) / 8 = 1 / 8 * (1 + |η|) * (1 + |ζ|) by ring]
    exact h
  · have h := prod3_rounds (k := 6) t1 a1 e1 t4 a4 e4 (by omega)
    rw [t2, t3, a2, a3, e2, e3] at h
    have e : part3 (N8 m) 1 ξ η ζ = (if m % 4 = 0 ∨ m % 4 = 1 then -(1 / 8) else 1 / 8) *
        (if m % 4 = 1 ∨ m % 4 = 2 then 1 + ξ else 1 - ξ) * (if 4 ≤ m then 1 + ζ else 1 - ζ) := by
      interval_cases m <;> simp [part3, N8, corner8, corner4] <;> ring
    rw [e, show (1 + |ξ|) * (1 + |ζ|) / 8 = 1 / 8 * (1 + |ξ|) * (1 + |ζ|) by ring]
    exact h
  · have h := prod3_rounds (k := 6) k1 a1 b1 k4 a4 b4 (by omega)
    rw [k2, k3, a2, a3, b2, b3] at h
    have e : part3 (N8 m) 2 ξ η ζ = (if m < 4 then -(1 / 8) else 1 / 8) *
        (if m % 4 = 1 ∨ m % 4 = 2 then 1 + ξ else 1 - ξ) * (if 2 ≤ m % 4 then 1 + η else 1 - η) := by
      interval_cases m <;> simp [part3, N8, corner8, corner4] <;> ring
    rw [e, show (1 + |ξ|) * (1 + |η|) / 8 = 1 / 8 * (1 + |ξ|) * (1 + |η|) by ring]
    exact h

/-! ### the hypotheses are met: `double` arithmetic -/

example : (binary ℚ 53 (by norm_num)).fl 8 = 8 ∧ ∃ (x xi w : Ten (binary ℚ 53 (by norm_num)).Num) (X : _) (Ξ : _) (W : _),
    Is3 x 1 8 3 X ∧ Is2 xi 8 3 Ξ ∧ Is1 w 8 W := by
  refine ⟨?_, ?_⟩
  · have h := roundBits_rep (α := ℚ) (p := 53) (by norm_num) 1 3 (by norm_num)
    norm_num at h
    exact h
  · let r := binary ℚ 53 (by norm_num)
    exact ⟨_, _, _, _, _, _, is3_of 1 8 3 fun ix => Rounding.Num.of r (ix.getD 1 0), is2_of 8 3 fun _ => Rounding.Num.of r (577 / 1000),
      is1_of 8 fun _ => (1 : r.Num)⟩

end GF.Element
