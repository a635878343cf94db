import Verif.Lemmas.ElementOps
import Mathlib.Tactic.IntervalCases
import Mathlib.Tactic.LinearCombination

/-! Lemmas on the Quad4 element code. -/

namespace GF.Element
open Finset ElemSpec

section
variable {α : Type} [AddCommMonoid α] [Mul α] [One α] [Sub α] [Div α] [Neg α] [NatCast α]


theorem dot4_ok {a b : Nat → Res α} {A B : Nat → α} (ha : ∀ m, m < 4 → a m = .ok (A m))
    (hb : ∀ m, m < 4 → b m = .ok (B m)) :
    Quad4.dot4 a b = .ok (∑ m ∈ range 4, A m * B m) := by
  rw [Quad4.dot4, ha 0 (by omega), ha 1 (by omega), ha 2 (by omega), ha 3 (by omega), hb 0 (by omega),
    hb 1 (by omega), hb 2 (by omega), hb 3 (by omega)]
  simp only [Res.ok_bind]
  simp [Finset.sum_range_succ]

end

section
variable {α : Type} [Field α]

/-- the 2x2 inverse as a function of the entries -/
def inv2f (J : Nat → Nat → α) (i j : Nat) : α :=
  (match i, j with
  | 0, 0 => J 1 1
  | 0, _ => - J 0 1
  | _, 0 => - J 1 0
  | _, _ => J 0 0) / (J 0 0 * J 1 1 - J 0 1 * J 1 0)

theorem inv2_ok {A Ainv : Ten α} {J : Nat → Nat → α} (hA : Is2 A 2 2 J) (hs : Ainv.shape = [2, 2]) :
    ∃ t, inv2 A Ainv = .ok (J 0 0 * J 1 1 - J 0 1 * J 1 0, t) ∧ Is2 t 2 2 (inv2f J) := by
  rw [inv2, hA.get (by omega) (by omega), hA.get (by omega) (by omega), hA.get (by omega) (by omega),
    hA.get (by omega) (by omega)]
  simp only [Res.ok_bind]
  rw [set_put (by simp [hs]), Res.ok_bind, set_put (by simp [hs]), Res.ok_bind,
    set_put (by simp [hs]), Res.ok_bind, set_put (by simp [hs]), Res.ok_bind]
  refine ⟨_, rfl, by simp [hs], fun i j hi hj => ?_⟩
  interval_cases i <;> interval_cases j <;> simp [Ten.put_v, inv2f]

/-- the 3x3 cofactor inverse as a function of the entries -/
def inv3f (J : Nat → Nat → α) (i j : Nat) : α :=
  (match i, j with
  | 0, 0 => J 1 1 * J 2 2 - J 1 2 * J 2 1
  | 0, 1 => J 0 2 * J 2 1 - J 0 1 * J 2 2
  | 0, _ => J 0 1 * J 1 2 - J 0 2 * J 1 1
  | 1, 0 => J 1 2 * J 2 0 - J 1 0 * J 2 2
  | 1, 1 => J 0 0 * J 2 2 - J 0 2 * J 2 0
  | 1, _ => J 0 2 * J 1 0 - J 0 0 * J 1 2
  | _, 0 => J 1 0 * J 2 1 - J 1 1 * J 2 0
  | _, 1 => J 0 1 * J 2 0 - J 0 0 * J 2 1
  | _, _ => J 0 0 * J 1 1 - J 0 1 * J 1 0) /
    det3 (J 0 0) (J 0 1) (J 0 2) (J 1 0) (J 1 1) (J 1 2) (J 2 0) (J 2 1) (J 2 2)

theorem inv3_ok {A Ainv : Ten α} {J : Nat → Nat → α} (hA : Is2 A 3 3 J) (hs : Ainv.shape = [3, 3]) :
    ∃ t, inv3 A Ainv =
      .ok (det3 (J 0 0) (J 0 1) (J 0 2) (J 1 0) (J 1 1) (J 1 2) (J 2 0) (J 2 1) (J 2 2), t) ∧
      Is2 t 3 3 (inv3f J) := by
  rw [inv3, hA.get (by omega) (by omega), Res.ok_bind, hA.get (by omega) (by omega), Res.ok_bind,
    hA.get (by omega) (by omega), Res.ok_bind, hA.get (by omega) (by omega), Res.ok_bind,
    hA.get (by omega) (by omega), Res.ok_bind, hA.get (by omega) (by omega), Res.ok_bind,
    hA.get (by omega) (by omega), Res.ok_bind, hA.get (by omega) (by omega), Res.ok_bind,
    hA.get (by omega) (by omega), Res.ok_bind]
  rw [set_put (by simp [hs]), Res.ok_bind, set_put (by simp [hs]), Res.ok_bind,
    set_put (by simp [hs]), Res.ok_bind, set_put (by simp [hs]), Res.ok_bind,
    set_put (by simp [hs]), Res.ok_bind, set_put (by simp [hs]), Res.ok_bind,
    set_put (by simp [hs]), Res.ok_bind, set_put (by simp [hs]), Res.ok_bind,
    set_put (by simp [hs]), Res.ok_bind]
  refine ⟨_, rfl, by simp [hs], fun i j hi hj => ?_⟩
  interval_cases i <;> interval_cases j <;> simp [Ten.put_v, inv3f]

namespace Quad4

/-- local gradient of the shape functions -/
def D4 (Ξ : Nat → Nat → α) (q m i : Nat) : α := part2 (N4 m) i (Ξ q 0) (Ξ q 1)

theorem shapeN_ok [CharZero α] {xi : Ten α} {nip : Nat} {Ξ} (h : Is2 xi nip 2 Ξ) :
    ∃ t, shapeN nip xi = .ok t ∧ Is2 t nip 4 (fun q m => N4 m (Ξ q 0) (Ξ q 1)) := by
  have H : IsSets [nip, 4] (fun t : Ten α => forEach (it1 nip) (fun t q => do
      let a ← xi.get [q, 0]
      let b ← xi.get [q, 1]
      let t ← t.set [q, 0] (1 / 4 * (1 - a) * (1 - b))
      let t ← t.set [q, 1] (1 / 4 * (1 + a) * (1 - b))
      let t ← t.set [q, 2] (1 / 4 * (1 + a) * (1 + b))
      t.set [q, 3] (1 / 4 * (1 - a) * (1 + b))) t)
      ((it1 nip).flatMap fun q =>
        [([q, 0], 1 / 4 * (1 - Ξ q 0) * (1 - Ξ q 1))] ++ ([([q, 1], 1 / 4 * (1 + Ξ q 0) * (1 - Ξ q 1))] ++
        ([([q, 2], 1 / 4 * (1 + Ξ q 0) * (1 + Ξ q 1))] ++
          [([q, 3], 1 / 4 * (1 - Ξ q 0) * (1 + Ξ q 1))]))) := by
    refine isSets_loop _ _ _ fun q hq => ?_
    rw [mem_it1] at hq
    rw [h.get hq (by omega), h.get hq (by omega)]
    simp only [Res.ok_bind]
    exact isSets_seq (isSets_one _ _ _ _ fun _ _ => rfl) (isSets_seq (isSets_one _ _ _ _ fun _ _ => rfl)
      (isSets_seq (isSets_one _ _ _ _ fun _ _ => rfl) (isSets_one _ _ _ _ fun _ _ => rfl)
      fun _ _ => rfl) fun _ _ => rfl) fun _ _ => rfl
  obtain ⟨t, h1, h2, h3, -⟩ := H.spec
    (fun p => N4 (p.getD 1 0) (Ξ (p.getD 0 0) 0) (Ξ (p.getD 0 0) 1)) (by
    simp only [List.mem_flatMap, mem_it1, List.mem_append, List.mem_singleton]
    rintro st ⟨q, hq, rfl | rfl | rfl | rfl⟩ <;>
    · refine ⟨by simp [hq], ?_⟩
      simp [N4, corner4]; ring) (Ten.empty [nip, 4]) rfl
  refine ⟨t, h1, h2, fun q m hq hm => ?_⟩
  rw [h3 [q, m] ?_]
  · rfl
  · refine covered (mem_it1.2 hq) ?_
    interval_cases m <;> simp

theorem shapeDN_ok [CharZero α] {xi : Ten α} {nip : Nat} {Ξ} (h : Is2 xi nip 2 Ξ) :
    ∃ t, shapeDN nip xi = .ok t ∧ Is3 t nip 4 2 (D4 Ξ) := by
  have H : IsSets [nip, 4, 2] (fun t : Ten α => forEach (it1 nip) (fun t q => do
      let a ← xi.get [q, 0]
      let b ← xi.get [q, 1]
      let t ← t.set [q, 0, 0] (-(1 / 4) * (1 - b))
      let t ← t.set [q, 1, 0] ((1 / 4) * (1 - b))
      let t ← t.set [q, 2, 0] ((1 / 4) * (1 + b))
      let t ← t.set [q, 3, 0] (-(1 / 4) * (1 + b))
      let t ← t.set [q, 0, 1] (-(1 / 4) * (1 - a))
      let t ← t.set [q, 1, 1] (-(1 / 4) * (1 + a))
      let t ← t.set [q, 2, 1] ((1 / 4) * (1 + a))
      t.set [q, 3, 1] ((1 / 4) * (1 - a))) t)
      ((it1 nip).flatMap fun q =>
        [([q, 0, 0], -(1 / 4) * (1 - Ξ q 1))] ++ ([([q, 1, 0], (1 / 4) * (1 - Ξ q 1))] ++
        ([([q, 2, 0], (1 / 4) * (1 + Ξ q 1))] ++ ([([q, 3, 0], -(1 / 4) * (1 + Ξ q 1))] ++
        ([([q, 0, 1], -(1 / 4) * (1 - Ξ q 0))] ++ ([([q, 1, 1], -(1 / 4) * (1 + Ξ q 0))] ++
        ([([q, 2, 1], (1 / 4) * (1 + Ξ q 0))] ++ [([q, 3, 1], (1 / 4) * (1 - Ξ q 0))]))))))) := by
    refine isSets_loop _ _ _ fun q hq => ?_
    rw [mem_it1] at hq
    rw [h.get hq (by omega), h.get hq (by omega)]
    simp only [Res.ok_bind]
    iterate 7 refine isSets_seq (isSets_one _ _ _ _ fun _ _ => rfl) ?_ (fun _ _ => rfl)
    exact isSets_one _ _ _ _ fun _ _ => rfl
  obtain ⟨t, h1, h2, h3, -⟩ := H.spec
    (fun p => D4 Ξ (p.getD 0 0) (p.getD 1 0) (p.getD 2 0)) (by
    simp only [List.mem_flatMap, mem_it1, List.mem_append, List.mem_singleton]
    rintro st ⟨q, hq, rfl | rfl | rfl | rfl | rfl | rfl | rfl | rfl⟩ <;>
    · refine ⟨by simp [hq], ?_⟩
      simp [D4, part2, N4, corner4]; ring) (Ten.empty [nip, 4, 2]) rfl
  refine ⟨t, h1, h2, fun q m i hq hm hi => ?_⟩
  rw [h3 [q, m, i] ?_]
  · rfl
  · refine covered (mem_it1.2 hq) ?_
    interval_cases m <;> interval_cases i <;> simp

/-- Jacobian matrix, from the local gradients -/
def Jf (D : Nat → Nat → Nat → α) (X : Nat → Nat → Nat → α) (e q i j : Nat) : α :=
  ∑ m ∈ range 4, D q m i * X e m j

/-- Jacobian determinant, from the local gradients -/
def detf (J : Nat → Nat → α) : α := J 0 0 * J 1 1 - J 0 1 * J 1 0

theorem jacobian_ok {dNxi x : Ten α} {nip ne : Nat} {D X} (hd : Is3 dNxi nip 4 2 D) (hx : Is3 x ne 4 2 X)
    {e q : Nat} (he : e < ne) (hq : q < nip) :
    ∃ J, jacobian dNxi x e q = .ok J ∧ Is2 J 2 2 (Jf D X e q) := by
  rw [jacobian]
  rw [dot4_ok (fun m hm => hd.get hq hm (by omega)) (fun m hm => hx.get he hm (by omega)), Res.ok_bind,
    set_put (by simp [Ten.empty]), Res.ok_bind,
    dot4_ok (fun m hm => hd.get hq hm (by omega)) (fun m hm => hx.get he hm (by omega)), Res.ok_bind,
    set_put (by simp [Ten.empty]), Res.ok_bind,
    dot4_ok (fun m hm => hd.get hq hm (by omega)) (fun m hm => hx.get he hm (by omega)), Res.ok_bind,
    set_put (by simp [Ten.empty]), Res.ok_bind,
    dot4_ok (fun m hm => hd.get hq hm (by omega)) (fun m hm => hx.get he hm (by omega)), Res.ok_bind,
    set_put (by simp [Ten.empty])]
  refine ⟨_, rfl, by simp [Ten.empty], fun i j hi hj => ?_⟩
  interval_cases i <;> interval_cases j <;> simp [Ten.put_v, Jf]

/-- global gradient of the shape functions -/
def Gf (D : Nat → Nat → Nat → α) (X : Nat → Nat → Nat → α) (e q m i : Nat) : α :=
  ∑ j ∈ range 2, inv2f (Jf D X e q) i j * D q m j

/-- assignments to the gradients of one integration point -/
def gradSt (D : Nat → Nat → Nat → α) (X : Nat → Nat → Nat → α) (p : Nat × Nat) : List (List Nat × α) :=
  (it1 4).flatMap fun m =>
    [([p.1, p.2, m, 0], Gf D X p.1 p.2 m 0)] ++ [([p.1, p.2, m, 1], Gf D X p.1 p.2 m 1)]

theorem point_ok {Q : Quadrature α} {ne nip : Nat} {D X W} (hd : Is3 Q.dNxi nip 4 2 D)
    (hx : Is3 Q.x ne 4 2 X) (hw : Is1 Q.w nip W) (thick : α) {e q : Nat} (he : e < ne) (hq : q < nip)
    (a b : Ten α) :
    compute_dN_point Q thick (a, b) e q = (sets (gradSt D X (e, q)) a).bind fun a' =>
      (sets [([e, q], W q * detf (Jf D X e q) * thick)] b).bind fun b' => .ok (a', b') := by
  obtain ⟨J, hJ, hJ'⟩ := jacobian_ok hd hx he hq
  obtain ⟨t, ht, ht'⟩ := inv2_ok hJ' (Ainv := Ten.empty [2, 2]) rfl
  rw [compute_dN_point, hJ, Res.ok_bind, ht, Res.ok_bind]
  dsimp only
  have H : IsSets a.shape (fun a => forEach (it1 4) (fun s m => do
      let j00 ← t.get [0, 0]
      let j01 ← t.get [0, 1]
      let j10 ← t.get [1, 0]
      let j11 ← t.get [1, 1]
      let d0 ← Q.dNxi.get [q, m, 0]
      let d1 ← Q.dNxi.get [q, m, 1]
      let s ← s.set [e, q, m, 0] (j00 * d0 + j01 * d1)
      s.set [e, q, m, 1] (j10 * d0 + j11 * d1)) a) (gradSt D X (e, q)) := by
    refine isSets_loop _ _ _ fun m hm => ?_
    rw [mem_it1] at hm
    rw [ht'.get (by omega) (by omega), ht'.get (by omega) (by omega), ht'.get (by omega) (by omega),
      ht'.get (by omega) (by omega), hd.get hq hm (by omega), hd.get hq hm (by omega)]
    simp only [Res.ok_bind]
    refine isSets_seq (isSets_one _ _ _ _ fun _ _ => rfl) (isSets_one _ _ _ _ fun _ _ => rfl)
      fun s _ => ?_
    have hG : ∀ i, Gf D X e q m i = inv2f (Jf D X e q) i 0 * D q m 0 + inv2f (Jf D X e q) i 1 * D q m 1 := by
      intro i; simp only [Gf, Finset.sum_range_succ, Finset.sum_range_zero, zero_add]
    rw [hG, hG]
    rfl
  have Ha := H a rfl
  beta_reduce at Ha
  rw [Ha, hw.get hq]
  change (sets (gradSt D X (e, q)) a).bind _ = _
  congr 1
  funext a'
  simp only [sets, forEach_cons, forEach_nil]
  change (b.set [e, q] (W q * detf (Jf D X e q) * thick)).bind _ = _
  cases b.set [e, q] (W q * detf (Jf D X e q) * thick) <;> rfl

theorem mem_pairs {σ : Sched} {ne nip : Nat} {p : Nat × Nat} :
    p ∈ ((σ.run (it1 ne)).flatMap fun e => (it1 nip).map fun q => (e, q)) ↔ p.1 < ne ∧ p.2 < nip := by
  obtain ⟨e, q⟩ := p
  simp only [List.mem_flatMap, List.mem_map, mem_run, mem_it1, Prod.mk.injEq]
  exact ⟨fun ⟨a, ha, b, hb, h1, h2⟩ => by subst h1 h2; exact ⟨ha, hb⟩, fun h => ⟨e, h.1, q, h.2, rfl, rfl⟩⟩

theorem compute_dN_ok {Q : Quadrature α} {ne nip : Nat} {D X W} (hne : Q.nelem = ne) (hnip : Q.nip = nip)
    (hd : Is3 Q.dNxi nip 4 2 D) (hx : Is3 Q.x ne 4 2 X) (hw : Is1 Q.w nip W) (thick : α)
    (hs : Q.dNx.shape = [ne, nip, 4, 2]) (hv : Q.vol.shape = [ne, nip]) (σ : Sched) :
    ∃ g v, compute_dN_impl Q thick σ = .ok { Q with dNx := g, vol := v } ∧
      Is4 g ne nip 4 2 (Gf D X) ∧ Is2 v ne nip (fun e q => W q * detf (Jf D X e q) * thick) := by
  set L := (σ.run (it1 ne)).flatMap fun e => (it1 nip).map fun q => (e, q) with hL
  obtain ⟨g, hg1, hg2, hg3, -⟩ := (isSets_loop (sh := [ne, nip, 4, 2]) L
    (fun a p => sets (gradSt D X p) a) (gradSt D X) (fun p _ s _ => rfl)).spec
    (fun p => Gf D X (p.getD 0 0) (p.getD 1 0) (p.getD 2 0) (p.getD 3 0)) (by
      simp only [List.mem_flatMap, gradSt, List.mem_append, List.mem_singleton]
      rintro st ⟨p, hp, m, hm, rfl | rfl⟩ <;>
      · have := mem_pairs.1 hp
        rw [mem_it1] at hm
        exact ⟨by simp [this.1, this.2, hm], rfl⟩) Q.dNx hs
  obtain ⟨v, hv1, hv2, hv3, -⟩ := (isSets_loop (sh := [ne, nip]) L
    (fun a p => sets [([p.1, p.2], W p.2 * detf (Jf D X p.1 p.2) * thick)] a) _ (fun p _ s _ => rfl)).spec
    (fun p => W (p.getD 1 0) * detf (Jf D X (p.getD 0 0) (p.getD 1 0)) * thick) (by
      simp only [List.mem_flatMap, List.mem_singleton]
      rintro st ⟨p, hp, rfl⟩
      have := mem_pairs.1 hp
      exact ⟨by simp [this.1, this.2], rfl⟩) Q.vol hv
  refine ⟨g, v, ?_, ⟨hg2, fun e q m i he hq hm hi => ?_⟩, hv2, fun e q he hq => ?_⟩
  · have hn := forEach_nest (σ.run (it1 ne)) (it1 nip)
      (fun s p => compute_dN_point Q thick s p.1 p.2) (Q.dNx, Q.vol)
    have hp := forEach_pair L (fun s p => compute_dN_point Q thick s p.1 p.2)
      (fun a p => sets (gradSt D X p) a)
      (fun a p => sets [([p.1, p.2], W p.2 * detf (Jf D X p.1 p.2) * thick)] a) Q.dNx Q.vol g v
      (fun p hp a b => point_ok hd hx hw thick (mem_pairs.1 hp).1 (mem_pairs.1 hp).2 a b) hg1 hv1
    rw [compute_dN_impl, hne, hnip]
    rw [show forEach (σ.run (it1 ne)) (fun s e => forEach (it1 nip)
      (fun s q => compute_dN_point Q thick s e q) s) (Q.dNx, Q.vol) = .ok (g, v) from hn.trans hp]
    rfl
  · rw [hg3 [e, q, m, i]]
    · rfl
    · refine covered (i := (e, q)) (mem_pairs.2 ⟨he, hq⟩) ?_
      simp only [gradSt, List.mem_map, List.mem_flatMap, List.mem_append, List.mem_singleton, mem_it1]
      have : i = 0 ∨ i = 1 := by omega
      rcases this with rfl | rfl
      · exact ⟨_, ⟨m, hm, Or.inl rfl⟩, rfl⟩
      · exact ⟨_, ⟨m, hm, Or.inr rfl⟩, rfl⟩
  · rw [hv3 [e, q]]
    · rfl
    · exact covered (i := (e, q)) (mem_pairs.2 ⟨he, hq⟩) (by simp)

theorem construct_ok [CharZero α] {x xi w : Ten α} {ne nip : Nat} {X Ξ W} (hx : Is3 x ne 4 2 X)
    (hxi : Is2 xi nip 2 Ξ) (hw : Is1 w nip W) (tdim : Nat) (thick : α) (σ : Sched) :
    ∃ Q, construct tdim thick σ x xi w = .ok Q ∧
      Holds Q 4 2 tdim ne nip (fun q m => N4 m (Ξ q 0) (Ξ q 1)) (Gf (D4 Ξ) X)
        (fun e q => W q * detf (Jf (D4 Ξ) X e q) * thick) ∧ Is3 Q.dNxi nip 4 2 (D4 Ξ) ∧
      Q.x = x ∧ Q.w = w ∧ Q.xi = xi := by
  obtain ⟨N, hN, hN'⟩ := shapeN_ok hxi
  obtain ⟨D, hD, hD'⟩ := shapeDN_ok hxi
  obtain ⟨g, v, h1, h2, h3⟩ := compute_dN_ok (Q := ⟨4, 2, tdim, ne, nip, x, w, xi, N, D,
    Ten.empty [ne, nip, 4, 2], Ten.empty [ne, nip]⟩) rfl rfl hD' hx hw thick rfl rfl σ
  refine ⟨⟨4, 2, tdim, ne, nip, x, w, xi, N, D, g, v⟩, ?_, ⟨rfl, rfl, rfl, rfl, rfl, hN', h2, h3⟩, hD',
    rfl, rfl, rfl⟩
  rw [construct, hw.1, hx.1]
  dsimp only
  rw [hN, Res.ok_bind, hD, Res.ok_bind, h1]

end Quad4
end

namespace Quad4
variable {α : Type} [AddCommMonoid α] [Mul α] [One α] [Sub α] [Div α] [Neg α] [NatCast α]
variable {Q : Quadrature α} {td ne nip : Nat} {N : Nat → Nat → α}
  {G : Nat → Nat → Nat → Nat → α} {V : Nat → Nat → α}

/-- loop over all integration points of assignments to cells `[e, q, ..]` -/
theorem pointLoop_ok (hne : Q.nelem = ne) (hnip : Q.nip = nip) (σ : Sched)
    (body : Nat → Nat → Ten α → Res (Ten α)) (sh : List Nat) (St : Nat × Nat → List (List Nat × α))
    (val : List Nat → α)
    (hb : ∀ e q, e < ne → q < nip → IsSets sh (body e q) (St (e, q)))
    (hv : ∀ e q, e < ne → q < nip → ∀ st ∈ St (e, q), inb sh st.1 = true ∧ st.2 = val st.1)
    (t : Ten α) (ht : t.shape = sh) :
    ∃ t', pointLoop Q σ body t = .ok t' ∧ t'.shape = sh ∧
      (∀ e q p, e < ne → q < nip → p ∈ (St (e, q)).map Prod.fst → t'.v p = some (val p)) ∧
      ∀ p, (∀ e q, e < ne → q < nip → p ∉ (St (e, q)).map Prod.fst) → t'.v p = t.v p := by
  obtain ⟨g, hg1, hg2, hg3, hg4⟩ := (isSets_loop (sh := sh)
    ((σ.run (it1 ne)).flatMap fun e => (it1 nip).map fun q => (e, q))
    (fun a p => body p.1 p.2 a) St
    (fun p hp => hb p.1 p.2 (mem_pairs.1 hp).1 (mem_pairs.1 hp).2)).spec val (by
      simp only [List.mem_flatMap]
      rintro st ⟨p, hp, hst⟩
      have := mem_pairs.1 (List.mem_flatMap.2 hp)
      exact hv p.1 p.2 this.1 this.2 st hst) t ht
  refine ⟨g, ?_, hg2, fun e q p he hq hp => hg3 p (covered (mem_pairs.2 ⟨he, hq⟩) hp), fun p hp => ?_⟩
  · rw [pointLoop, hne, hnip]
    exact (forEach_nest (σ.run (it1 ne)) (it1 nip) (fun s p => body p.1 p.2 s) t).trans hg1
  · refine hg4 p ?_
    intro st hst h
    obtain ⟨p', hp', hst'⟩ := List.mem_flatMap.1 hst
    have := mem_pairs.1 hp'
    exact hp p'.1 p'.2 this.1 this.2 (List.mem_map.2 ⟨st, hst', h⟩)

/-- discrete gradient -/
def grad (nne : Nat) (G : Nat → Nat → Nat → Nat → α) (U : Nat → Nat → Nat → α) (e q i j : Nat) : α :=
  ∑ m ∈ range nne, G e q m i * U e m j

theorem gradN_isSets (h : Holds Q 4 2 td ne nip N G V) {u : Ten α} {U} (hu : Is3 u ne 4 2 U)
    {e q : Nat} (he : e < ne) (hq : q < nip) (sh : List Nat) :
    IsSets sh (gradN_point Q u e q) ([([e, q, 0, 0], grad 4 G U e q 0 0)] ++
      ([([e, q, 0, 1], grad 4 G U e q 0 1)] ++ ([([e, q, 1, 0], grad 4 G U e q 1 0)] ++
        [([e, q, 1, 1], grad 4 G U e q 1 1)]))) := by
  have hd : ∀ i j, i < 2 → j < 2 →
      dot4 (fun m => Q.dNx.get [e, q, m, i]) (fun m => u.get [e, m, j]) = .ok (grad 4 G U e q i j) :=
    fun i j hi hj => dot4_ok (fun m hm => h.G_is.get he hq hm hi) (fun m hm => hu.get he hm hj)
  unfold gradN_point
  rw [hd 0 0 (by omega) (by omega), hd 0 1 (by omega) (by omega), hd 1 0 (by omega) (by omega),
    hd 1 1 (by omega) (by omega)]
  simp only [Res.ok_bind]
  iterate 3 refine isSets_seq (isSets_one _ _ _ _ fun _ _ => rfl) ?_ (fun _ _ => rfl)
  exact isSets_one _ _ _ _ fun _ _ => rfl

theorem gradN_T_isSets (h : Holds Q 4 2 td ne nip N G V) {u : Ten α} {U} (hu : Is3 u ne 4 2 U)
    {e q : Nat} (he : e < ne) (hq : q < nip) (sh : List Nat) :
    IsSets sh (gradN_T_point Q u e q) ([([e, q, 0, 0], grad 4 G U e q 0 0)] ++
      ([([e, q, 1, 0], grad 4 G U e q 0 1)] ++ ([([e, q, 0, 1], grad 4 G U e q 1 0)] ++
        [([e, q, 1, 1], grad 4 G U e q 1 1)]))) := by
  have hd : ∀ i j, i < 2 → j < 2 →
      dot4 (fun m => Q.dNx.get [e, q, m, i]) (fun m => u.get [e, m, j]) = .ok (grad 4 G U e q i j) :=
    fun i j hi hj => dot4_ok (fun m hm => h.G_is.get he hq hm hi) (fun m hm => hu.get he hm hj)
  unfold gradN_T_point
  rw [hd 0 0 (by omega) (by omega), hd 0 1 (by omega) (by omega), hd 1 0 (by omega) (by omega),
    hd 1 1 (by omega) (by omega)]
  simp only [Res.ok_bind]
  iterate 3 refine isSets_seq (isSets_one _ _ _ _ fun _ _ => rfl) ?_ (fun _ _ => rfl)
  exact isSets_one _ _ _ _ fun _ _ => rfl

theorem set_get_set {sh : List Nat} {p p' : List Nat} (hp : inb sh p = true) (a : α)
    (s : Ten α) (hs : s.shape = sh) :
    (do let s ← s.set p a; let v ← s.get p; s.set p' v) = (do let s ← s.set p a; s.set p' a) := by
  rw [set_put (by rw [hs, hp])]
  simp only [Res.ok_bind]
  have : (s.put p a).get p = .ok a := by simp [Ten.get, hs, hp, Ten.put_v]
  rw [this, Res.ok_bind]

theorem symGradN_isSets (h : Holds Q 4 2 td ne nip N G V) {u : Ten α} {U} (hu : Is3 u ne 4 2 U)
    {e q : Nat} (he : e < ne) (hq : q < nip) (htd : 2 ≤ td) :
    IsSets [ne, nip, td, td] (symGradN_point Q u e q) ([([e, q, 0, 0], grad 4 G U e q 0 0)] ++
      ([([e, q, 1, 1], grad 4 G U e q 1 1)] ++
        ([([e, q, 0, 1], 1 / 2 * (grad 4 G U e q 0 1 + grad 4 G U e q 1 0))] ++
        [([e, q, 1, 0], 1 / 2 * (grad 4 G U e q 0 1 + grad 4 G U e q 1 0))]))) := by
  have hd : ∀ i j, i < 2 → j < 2 →
      dot4 (fun m => Q.dNx.get [e, q, m, i]) (fun m => u.get [e, m, j]) = .ok (grad 4 G U e q i j) :=
    fun i j hi hj => dot4_ok (fun m hm => h.G_is.get he hq hm hi) (fun m hm => hu.get he hm hj)
  unfold symGradN_point
  rw [hd 0 0 (by omega) (by omega), hd 0 1 (by omega) (by omega), hd 1 0 (by omega) (by omega),
    hd 1 1 (by omega) (by omega)]
  simp only [Res.ok_bind]
  iterate 2 refine isSets_seq (isSets_one _ _ _ _ fun _ _ => rfl) ?_ (fun _ _ => rfl)
  refine isSets_seq (isSets_one _ _ _ _ fun _ _ => rfl) (isSets_one _ _ _ _ fun _ _ => rfl) fun s hs => ?_
  exact set_get_set (by simp [he, hq]; omega) _ s hs

/-- symmetric part -/
def symf (g : Nat → Nat → α) (i j : Nat) : α :=
  if i = j then g i j else 1 / 2 * (g 0 1 + g 1 0)

/-- the three gradient operators on an output with tensor dimension `td ≥ 2` -/
theorem grads_ok (h : Holds Q 4 2 td ne nip N G V) (htd : 2 ≤ td) (σ : Sched) {u : Ten α} {U}
    (hu : Is3 u ne 4 2 U) (t : Ten α) (ht : t.shape = [ne, nip, td, td]) :
    (∃ t', pointLoop Q σ (gradN_point Q u) t = .ok t' ∧ t'.shape = [ne, nip, td, td] ∧
      (∀ e q i j, e < ne → q < nip → i < 2 → j < 2 → t'.v [e, q, i, j] = some (grad 4 G U e q i j)) ∧
      ∀ e q i j, ¬ (i < 2 ∧ j < 2) → t'.v [e, q, i, j] = t.v [e, q, i, j]) ∧
    (∃ t', pointLoop Q σ (gradN_T_point Q u) t = .ok t' ∧ t'.shape = [ne, nip, td, td] ∧
      (∀ e q i j, e < ne → q < nip → i < 2 → j < 2 → t'.v [e, q, i, j] = some (grad 4 G U e q j i)) ∧
      ∀ e q i j, ¬ (i < 2 ∧ j < 2) → t'.v [e, q, i, j] = t.v [e, q, i, j]) ∧
    (∃ t', pointLoop Q σ (symGradN_point Q u) t = .ok t' ∧ t'.shape = [ne, nip, td, td] ∧
      (∀ e q i j, e < ne → q < nip → i < 2 → j < 2 →
        t'.v [e, q, i, j] = some (symf (grad 4 G U e q) i j)) ∧
      ∀ e q i j, ¬ (i < 2 ∧ j < 2) → t'.v [e, q, i, j] = t.v [e, q, i, j]) := by
  have hin : ∀ e q i j, e < ne → q < nip → i < 2 → j < 2 →
      inb [ne, nip, td, td] [e, q, i, j] = true := by
    intro e q i j he hq hi hj
    simp [he, hq]; omega
  refine ⟨?_, ?_, ?_⟩
  · obtain ⟨t', h1, h2, h3, h4⟩ := pointLoop_ok h.ne_eq h.nip_eq σ (gradN_point Q u) [ne, nip, td, td]
      (fun p => [([p.1, p.2, 0, 0], grad 4 G U p.1 p.2 0 0)] ++ ([([p.1, p.2, 0, 1], grad 4 G U p.1 p.2 0 1)] ++ ([([p.1, p.2, 1, 0], grad 4 G U p.1 p.2 1 0)] ++ ([([p.1, p.2, 1, 1], grad 4 G U p.1 p.2 1 1)]))))
      (fun p => grad 4 G U (p.getD 0 0) (p.getD 1 0) (p.getD 2 0) (p.getD 3 0))
      (fun e q he hq => gradN_isSets h hu he hq _) (by
        intro e q he hq st hst
        simp only [List.mem_append, List.mem_singleton] at hst
        rcases hst with rfl | rfl | rfl | rfl <;>
        exact ⟨hin _ _ _ _ he hq (by omega) (by omega), rfl⟩) t ht
    refine ⟨t', h1, h2, fun e q i j he hq hi hj => ?_, fun e q i j hij => h4 _ ?_⟩
    · rw [h3 e q [e, q, i, j] he hq (by
        interval_cases i <;> interval_cases j <;> simp)]
      rfl
    · intro e' q' _ _ hm
      simp at hm
      omega
  · obtain ⟨t', h1, h2, h3, h4⟩ := pointLoop_ok h.ne_eq h.nip_eq σ (gradN_T_point Q u) [ne, nip, td, td]
      (fun p => [([p.1, p.2, 0, 0], grad 4 G U p.1 p.2 0 0)] ++ ([([p.1, p.2, 1, 0], grad 4 G U p.1 p.2 0 1)] ++ ([([p.1, p.2, 0, 1], grad 4 G U p.1 p.2 1 0)] ++ ([([p.1, p.2, 1, 1], grad 4 G U p.1 p.2 1 1)]))))
      (fun p => grad 4 G U (p.getD 0 0) (p.getD 1 0) (p.getD 3 0) (p.getD 2 0))
      (fun e q he hq => gradN_T_isSets h hu he hq _) (by
        intro e q he hq st hst
        simp only [List.mem_append, List.mem_singleton] at hst
        rcases hst with rfl | rfl | rfl | rfl <;>
        exact ⟨hin _ _ _ _ he hq (by omega) (by omega), rfl⟩) t ht
    refine ⟨t', h1, h2, fun e q i j he hq hi hj => ?_, fun e q i j hij => h4 _ ?_⟩
    · rw [h3 e q [e, q, i, j] he hq (by
        interval_cases i <;> interval_cases j <;> simp)]
      rfl
    · intro e' q' _ _ hm
      simp at hm
      omega
  · obtain ⟨t', h1, h2, h3, h4⟩ := pointLoop_ok h.ne_eq h.nip_eq σ (symGradN_point Q u) [ne, nip, td, td]
      (fun p => [([p.1, p.2, 0, 0], grad 4 G U p.1 p.2 0 0)] ++ ([([p.1, p.2, 1, 1], grad 4 G U p.1 p.2 1 1)] ++ ([([p.1, p.2, 0, 1], 1 / 2 * (grad 4 G U p.1 p.2 0 1 + grad 4 G U p.1 p.2 1 0))] ++ ([([p.1, p.2, 1, 0], 1 / 2 * (grad 4 G U p.1 p.2 0 1 + grad 4 G U p.1 p.2 1 0))]))))
      (fun p => symf (grad 4 G U (p.getD 0 0) (p.getD 1 0)) (p.getD 2 0) (p.getD 3 0))
      (fun e q he hq => symGradN_isSets h hu he hq htd) (by
        intro e q he hq st hst
        simp only [List.mem_append, List.mem_singleton] at hst
        rcases hst with rfl | rfl | rfl | rfl <;>
        refine ⟨hin _ _ _ _ he hq (by omega) (by omega), ?_⟩ <;> simp [symf]) t ht
    refine ⟨t', h1, h2, fun e q i j he hq hi hj => ?_, fun e q i j hij => h4 _ ?_⟩
    · rw [h3 e q [e, q, i, j] he hq (by
        interval_cases i <;> interval_cases j <;> simp)]
      rfl
    · intro e' q' _ _ hm
      simp at hm
      omega

theorem force_ok (h : Holds Q 4 2 td ne nip N G V) (htd : 2 ≤ td) (σ : Sched) {c : Ten α} {S}
    (hc : Is4 c ne nip td td S) (t0 : Ten α) (ht : t0.shape = [ne, 4, 2]) :
    ∃ t, int_gradN_dot_tensor2_dV_impl Q σ c t0 = .ok t ∧
      Is3 t ne 4 2 fun e m j => ∑ q ∈ range nip, (∑ i ∈ range 2, G e q m i * S e q i j) * V e q := by
  have H : IsAdds [ne, 4, 2] (fun t : Ten α => forEach (σ.run (it1 Q.nelem)) (fun t e =>
      forEach (it1 Q.nip) (fun t q =>
        forEach (it1 4) (fun t m => do
          let v ← Q.vol.get [e, q]
          let d0 ← Q.dNx.get [e, q, m, 0]
          let d1 ← Q.dNx.get [e, q, m, 1]
          let s00 ← c.get [e, q, 0, 0]
          let s10 ← c.get [e, q, 1, 0]
          let t ← t.addAt [e, m, 0] ((d0 * s00 + d1 * s10) * v)
          let s01 ← c.get [e, q, 0, 1]
          let s11 ← c.get [e, q, 1, 1]
          t.addAt [e, m, 1] ((d0 * s01 + d1 * s11) * v)) t) t) t)
      ((σ.run (it1 ne)).flatMap fun e => (it1 nip).flatMap fun q => (it1 4).flatMap fun m =>
          [([e, m, 0], (G e q m 0 * S e q 0 0 + G e q m 1 * S e q 1 0) * V e q)] ++
          [([e, m, 1], (G e q m 0 * S e q 0 1 + G e q m 1 * S e q 1 1) * V e q)]) := by
    rw [h.ne_eq, h.nip_eq]
    refine isAdds_loop _ _ _ fun e he => isAdds_loop _ _ _ fun q hq => isAdds_loop _ _ _ fun m hm => ?_
    rw [mem_run] at he
    rw [mem_it1] at hq hm
    rw [h.V_is.get he hq, h.G_is.get he hq hm (by omega), h.G_is.get he hq hm (by omega),
      hc.get he hq (by omega) (by omega), hc.get he hq (by omega) (by omega),
      hc.get he hq (by omega) (by omega), hc.get he hq (by omega) (by omega)]
    simp only [Res.ok_bind]
    exact isAdds_seq (isAdds_one _ _ _ _ fun _ _ => rfl) (isAdds_one _ _ _ _ fun _ _ => rfl) fun _ _ => rfl
  obtain ⟨t, h1, h2, h3⟩ := H.spec (by
    simp only [List.mem_flatMap, mem_run, mem_it1, List.mem_append, List.mem_singleton]
    rintro st ⟨e, he, q, hq, m, hm, rfl | rfl⟩ <;> simp [he, hm])
  refine ⟨t, by rw [← h1, int_gradN_dot_tensor2_dV_impl, ht], h2, fun e m j he hm hj => ?_⟩
  rw [h3 _ (by simp [he, hm, hj])]
  congr 1
  beta_reduce
  rw [sum_map_flatMap, sum_sched, sum_pick he _ (by
    intro e' he'
    simp only [sum_map_flatMap, List.map_cons, List.map_nil, List.map_append, List.sum_append,
      List.sum_singleton]
    simp [he'])]
  rw [sum_map_flatMap, sum_it1]
  refine sum_congr rfl fun q _ => ?_
  simp only [sum_map_flatMap, sum_it1, List.map_cons, List.map_nil, List.map_append, List.sum_append,
    List.sum_singleton]
  rw [sum_pick hm _ (by intro i' hi'; simp [hi'])]
  simp only [Finset.sum_range_succ, Finset.sum_range_zero, zero_add]
  have : j = 0 ∨ j = 1 := by omega
  rcases this with rfl | rfl <;> simp

theorem mass_ok {Nt vt : Ten α} (hN : Is2 Nt nip 4 N) (hV : Is2 vt ne nip V) (σ : Sched) {r : Ten α} {R}
    (hr : Is2 r ne nip R) (t0 : Ten α) (ht : t0.shape = [ne, 8, 8]) :
    ∃ t, int_N_scalar_NT_dV_impl ne nip Nt vt σ r t0 = .ok t ∧ t.shape = [ne, 8, 8] ∧
      ∀ e m n i j, e < ne → m < 4 → n < 4 → i < 2 → j < 2 → t.v [e, m * 2 + i, n * 2 + j] =
        some (if i = j then ∑ q ∈ range nip, N q m * R e q * N q n * V e q else 0) := by
  have H : IsAdds [ne, 8, 8] (fun t : Ten α => forEach (σ.run (it1 ne)) (fun t e =>
      forEach (it1 nip) (fun t q =>
        forEach (it2 4 4) (fun t mn => do
          let v ← vt.get [e, q]
          let r ← r.get [e, q]
          let a ← Nt.get [q, mn.1]
          let b ← Nt.get [q, mn.2]
          let t ← t.addAt [e, mn.1 * 2 + 0, mn.2 * 2 + 0] (a * r * b * v)
          t.addAt [e, mn.1 * 2 + 1, mn.2 * 2 + 1] (a * r * b * v)) t) t) t)
      ((σ.run (it1 ne)).flatMap fun e => (it1 nip).flatMap fun q => (it2 4 4).flatMap fun mn =>
          [([e, mn.1 * 2 + 0, mn.2 * 2 + 0], N q mn.1 * R e q * N q mn.2 * V e q)] ++
          [([e, mn.1 * 2 + 1, mn.2 * 2 + 1], N q mn.1 * R e q * N q mn.2 * V e q)]) := by
    refine isAdds_loop _ _ _ fun e he => isAdds_loop _ _ _ fun q hq => isAdds_loop _ _ _ fun m hm => ?_
    rw [mem_run] at he
    rw [mem_it1] at hq
    rw [mem_it2] at hm
    rw [hV.get he hq, hr.get he hq, hN.get hq hm.1, hN.get hq hm.2]
    simp only [Res.ok_bind]
    exact isAdds_seq (isAdds_one _ _ _ _ fun _ _ => rfl) (isAdds_one _ _ _ _ fun _ _ => rfl) fun _ _ => rfl
  obtain ⟨t, h1, h2, h3⟩ := H.spec (by
    simp only [List.mem_flatMap, mem_run, mem_it1, List.mem_append, List.mem_singleton]
    rintro st ⟨e, he, q, hq, ⟨m, n⟩, hm, rfl | rfl⟩ <;>
    · rw [mem_it2] at hm
      simp [he]; omega)
  refine ⟨t, by rw [← h1, int_N_scalar_NT_dV_impl, ht], h2, fun e m n i j he hm hn hi hj => ?_⟩
  rw [h3 _ (by simp [he]; omega)]
  congr 1
  rw [sum_map_flatMap, sum_sched, sum_pick he _ (by
    intro e' he'
    simp only [sum_map_flatMap, List.map_cons, List.map_nil, List.map_append, List.sum_append,
      List.sum_singleton]
    simp [he'])]
  rw [sum_map_flatMap, sum_it1]
  rw [show (if i = j then ∑ q ∈ range nip, N q m * R e q * N q n * V e q else 0) =
    ∑ q ∈ range nip, if i = j then N q m * R e q * N q n * V e q else 0 by
      split <;> simp]
  refine sum_congr rfl fun q _ => ?_
  simp only [sum_map_flatMap, sum_it2, List.map_cons, List.map_nil, List.map_append, List.sum_append,
    List.sum_singleton, List.cons.injEq, true_and, and_true]
  have e1 : ∀ m' n' k, (m' * 2 + k = m * 2 + i ∧ n' * 2 + k = n * 2 + j) ↔
      (m' * 2 + k = m * 2 + i ∧ n' * 2 + k = n * 2 + j) := fun _ _ _ => Iff.rfl
  rw [sum_pick hm _ (by
    intro m' hm'
    refine Finset.sum_eq_zero fun n' _ => ?_
    rw [if_neg (by omega), if_neg (by omega), add_zero]), sum_pick hn _ (by
    intro n' hn'
    rw [if_neg (by omega), if_neg (by omega), add_zero])]
  have h2' : (i = 0 ∨ i = 1) ∧ (j = 0 ∨ j = 1) := by omega
  rcases h2' with ⟨rfl | rfl, rfl | rfl⟩ <;> simp

/-- interpolation with the hard-coded two components -/
theorem interp_ok (h : Holds Q 4 2 td ne nip N G V) (σ : Sched) {u : Ten α} {U} (hu : Is3 u ne 4 2 U)
    (t0 : Ten α) (ht : t0.shape = [ne, nip, 2]) :
    ∃ t, interpQuad_vector_impl Q σ u t0 = .ok t ∧
      Is3 t ne nip 2 fun e q i => ∑ m ∈ range 4, N q m * U e m i := by
  obtain ⟨t', h1, h2, h3, -⟩ := pointLoop_ok h.ne_eq h.nip_eq σ (fun e q t => do
      let v ← dot4 (fun m => Q.N.get [q, m]) (fun m => u.getP [e, 0, 0] (m * 2 + 0))
      let t ← t.setP [e, q, 0] 0 v
      let v ← dot4 (fun m => Q.N.get [q, m]) (fun m => u.getP [e, 0, 0] (m * 2 + 1))
      t.setP [e, q, 0] 1 v) [ne, nip, 2]
    (fun p => [([p.1, p.2, 0], ∑ m ∈ range 4, N p.2 m * U p.1 m 0)] ++
      [([p.1, p.2, 1], ∑ m ∈ range 4, N p.2 m * U p.1 m 1)])
    (fun p => ∑ m ∈ range 4, N (p.getD 1 0) m * U (p.getD 0 0) m (p.getD 2 0)) (by
      intro e q he hq
      rw [dot4_ok (fun m hm => h.N_is.get hq hm) (fun m hm => getP3 hu he hm (by omega)),
        dot4_ok (fun m hm => h.N_is.get hq hm) (fun m hm => getP3 hu he hm (by omega))]
      simp only [Res.ok_bind]
      refine isSets_seq (isSets_one _ _ _ _ fun s hs => ?_) (isSets_one _ _ _ _ fun s hs => ?_)
        fun s hs => rfl
      · rw [Ten.setP, hs, unravel3' hq (by omega)]
      · rw [Ten.setP, hs, unravel3' hq (by omega)]) (by
      intro e q he hq st hst
      simp only [List.mem_append, List.mem_singleton] at hst
      rcases hst with rfl | rfl <;> exact ⟨by simp [he, hq], rfl⟩) (Ten.full t0.shape 0) ht
  refine ⟨t', h1, h2, fun e q i he hq hi => ?_⟩
  rw [h3 e q [e, q, i] he hq (by interval_cases i <;> simp)]
  rfl

end Quad4
end GF.Element
