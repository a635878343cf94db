import Verif.Lemmas.ElementQuad4Geo
import Verif.Model.ElementHex8

/-! Lemmas on the Hex8 element code. -/

namespace GF.Element.Hex8
open Finset ElemSpec Quad4

variable {α : Type} [Field α]

/-- local gradients of the shape functions -/
def D8 (Ξ : Nat → Nat → α) (q m i : Nat) : α := part3 (N8 m) i (Ξ q 0) (Ξ q 1) (Ξ q 2)

theorem shapeN_ok [CharZero α] {xi : Ten α} {nip : Nat} {Ξ} (h : Is2 xi nip 3 Ξ) :
    ∃ t, shapeN nip xi = .ok t ∧ Is2 t nip 8 (fun q m => N8 m (Ξ q 0) (Ξ q 1) (Ξ q 2)) := by
  have H : IsSets [nip, 8] (fun t : Ten α => shapeNLoop nip xi t)
      ((it1 nip).flatMap fun q =>
        [([q, 0], 1 / 8 * (1 - Ξ q 0) * (1 - Ξ q 1) * (1 - Ξ q 2))] ++
        ([([q, 1], 1 / 8 * (1 + Ξ q 0) * (1 - Ξ q 1) * (1 - Ξ q 2))] ++
        ([([q, 2], 1 / 8 * (1 + Ξ q 0) * (1 + Ξ q 1) * (1 - Ξ q 2))] ++
        ([([q, 3], 1 / 8 * (1 - Ξ q 0) * (1 + Ξ q 1) * (1 - Ξ q 2))] ++
        ([([q, 4], 1 / 8 * (1 - Ξ q 0) * (1 - Ξ q 1) * (1 + Ξ q 2))] ++
        ([([q, 5], 1 / 8 * (1 + Ξ q 0) * (1 - Ξ q 1) * (1 + Ξ q 2))] ++
        ([([q, 6], 1 / 8 * (1 + Ξ q 0) * (1 + Ξ q 1) * (1 + Ξ q 2))] ++
        ([([q, 7], 1 / 8 * (1 - Ξ q 0) * (1 + Ξ q 1) * (1 + Ξ q 2))])))))))) := by
    unfold shapeNLoop
    refine isSets_loop _ _ _ fun q hq => ?_
    rw [mem_it1] at hq
    rw [h.get hq (by omega), h.get hq (by omega), h.get hq (by omega)]
    simp only [Res.ok_bind]
    iterate 7 refine isSets_seq (isSets_one _ _ _ _ fun _ _ => rfl) ?_ (fun _ _ => rfl)
    exact isSets_one _ _ _ _ fun _ _ => rfl
  obtain ⟨t, h1, h2, h3, -⟩ := H.spec
    (fun p => N8 (p.getD 1 0) (Ξ (p.getD 0 0) 0) (Ξ (p.getD 0 0) 1) (Ξ (p.getD 0 0) 2)) (by
    simp only [List.mem_flatMap, mem_it1, List.mem_append, List.mem_singleton]
    rintro st ⟨q, hq, rfl | rfl | rfl | rfl | rfl | rfl | rfl | rfl⟩ <;>
    · refine ⟨by simp [hq], ?_⟩
      simp [N8, corner8, corner4]; ring) (Ten.empty [nip, 8]) rfl
  refine ⟨t, h1, h2, fun q m hq hm => ?_⟩
  rw [h3 [q, m] ?_]
  · rfl
  · refine covered (mem_it1.2 hq) ?_
    interval_cases m <;> simp

theorem shapeDN_ok [CharZero α] {xi : Ten α} {nip : Nat} {Ξ} (h : Is2 xi nip 3 Ξ) :
    ∃ t, shapeDN nip xi = .ok t ∧ Is3 t nip 8 3 (D8 Ξ) := by
  have H : IsSets [nip, 8, 3] (fun t : Ten α => shapeDNLoop nip xi t)
      ((it1 nip).flatMap fun q =>
        [([q, 0, 0], -(1 / 8) * (1 - Ξ q 1) * (1 - Ξ q 2))] ++
        ([([q, 1, 0], (1 / 8) * (1 - Ξ q 1) * (1 - Ξ q 2))] ++
        ([([q, 2, 0], (1 / 8) * (1 + Ξ q 1) * (1 - Ξ q 2))] ++
        ([([q, 3, 0], -(1 / 8) * (1 + Ξ q 1) * (1 - Ξ q 2))] ++
        ([([q, 4, 0], -(1 / 8) * (1 - Ξ q 1) * (1 + Ξ q 2))] ++
        ([([q, 5, 0], (1 / 8) * (1 - Ξ q 1) * (1 + Ξ q 2))] ++
        ([([q, 6, 0], (1 / 8) * (1 + Ξ q 1) * (1 + Ξ q 2))] ++
        ([([q, 7, 0], -(1 / 8) * (1 + Ξ q 1) * (1 + Ξ q 2))] ++
        ([([q, 0, 1], -(1 / 8) * (1 - Ξ q 0) * (1 - Ξ q 2))] ++
        ([([q, 1, 1], -(1 / 8) * (1 + Ξ q 0) * (1 - Ξ q 2))] ++
        ([([q, 2, 1], (1 / 8) * (1 + Ξ q 0) * (1 - Ξ q 2))] ++
        ([([q, 3, 1], (1 / 8) * (1 - Ξ q 0) * (1 - Ξ q 2))] ++
        ([([q, 4, 1], -(1 / 8) * (1 - Ξ q 0) * (1 + Ξ q 2))] ++
        ([([q, 5, 1], -(1 / 8) * (1 + Ξ q 0) * (1 + Ξ q 2))] ++
        ([([q, 6, 1], (1 / 8) * (1 + Ξ q 0) * (1 + Ξ q 2))] ++
        ([([q, 7, 1], (1 / 8) * (1 - Ξ q 0) * (1 + Ξ q 2))] ++
        ([([q, 0, 2], -(1 / 8) * (1 - Ξ q 0) * (1 - Ξ q 1))] ++
        ([([q, 1, 2], -(1 / 8) * (1 + Ξ q 0) * (1 - Ξ q 1))] ++
        ([([q, 2, 2], -(1 / 8) * (1 + Ξ q 0) * (1 + Ξ q 1))] ++
        ([([q, 3, 2], -(1 / 8) * (1 - Ξ q 0) * (1 + Ξ q 1))] ++
        ([([q, 4, 2], (1 / 8) * (1 - Ξ q 0) * (1 - Ξ q 1))] ++
        ([([q, 5, 2], (1 / 8) * (1 + Ξ q 0) * (1 - Ξ q 1))] ++
        ([([q, 6, 2], (1 / 8) * (1 + Ξ q 0) * (1 + Ξ q 1))] ++
        ([([q, 7, 2], (1 / 8) * (1 - Ξ q 0) * (1 + Ξ q 1))])))))))))))))))))))))))) := by
    unfold shapeDNLoop
    refine isSets_loop _ _ _ fun q hq => ?_
    rw [mem_it1] at hq
    rw [h.get hq (by omega), h.get hq (by omega), h.get hq (by omega)]
    simp only [Res.ok_bind]
    iterate 23 refine isSets_seq (isSets_one _ _ _ _ fun _ _ => rfl) ?_ (fun _ _ => rfl)
    exact isSets_one _ _ _ _ fun _ _ => rfl
  obtain ⟨t, h1, h2, h3, -⟩ := H.spec
    (fun p => D8 Ξ (p.getD 0 0) (p.getD 1 0) (p.getD 2 0)) (by
    simp only [List.mem_flatMap, mem_it1, List.mem_append, List.mem_singleton]
    rintro st ⟨q, hq, rfl | rfl | rfl | rfl | rfl | rfl | rfl | rfl | rfl | rfl | rfl | rfl | rfl | rfl | rfl | rfl | rfl | rfl | rfl | rfl | rfl | rfl | rfl | rfl⟩ <;>
    · refine ⟨by simp [hq], ?_⟩
      simp [D8, part3, N8, corner8, corner4]; ring) (Ten.empty [nip, 8, 3]) rfl
  refine ⟨t, h1, h2, fun q m i hq hm hi => ?_⟩
  rw [h3 [q, m, i] ?_]
  · rfl
  · refine covered (mem_it1.2 hq) ?_
    interval_cases m <;> interval_cases i <;> simp

/-- Jacobian matrix, from the local gradients -/
def J8 (D : Nat → Nat → Nat → α) (X : Nat → Nat → Nat → α) (e q i j : Nat) : α :=
  ∑ m ∈ range 8, D q m i * X e m j

/-- determinant of a 3 x 3 matrix -/
def dt3 (J : Nat → Nat → α) : α :=
  det3 (J 0 0) (J 0 1) (J 0 2) (J 1 0) (J 1 1) (J 1 2) (J 2 0) (J 2 1) (J 2 2)

/-- gradients as computed: with the index of the local gradient that of the result -/
def G8 (D : Nat → Nat → Nat → α) (X : Nat → Nat → Nat → α) (e q m i : Nat) : α :=
  ∑ j ∈ range 3, inv3f (J8 D X e q) i j * D q m i

theorem jacobian_ok {dNxi x : Ten α} {ne nip : Nat} {D X} (hd : Is3 dNxi nip 8 3 D) (hx : Is3 x ne 8 3 X)
    {e q : Nat} (he : e < ne) (hq : q < nip) :
    ∃ J, forEach (it3 8 3 3) (fun (J : Ten α) k => do
        let a ← dNxi.get [q, k.1, k.2.1]
        let b ← x.get [e, k.1, k.2.2]
        J.addAt [k.2.1, k.2.2] (a * b)) (Ten.full [3, 3] 0) = .ok J ∧ Is2 J 3 3 (J8 D X e q) := by
  have H : IsAdds [3, 3] (fun J : Ten α => forEach (it3 8 3 3) (fun (J : Ten α) k => do
        let a ← dNxi.get [q, k.1, k.2.1]
        let b ← x.get [e, k.1, k.2.2]
        J.addAt [k.2.1, k.2.2] (a * b)) J)
      ((it3 8 3 3).flatMap fun k => [([k.2.1, k.2.2], D q k.1 k.2.1 * X e k.1 k.2.2)]) := by
    refine isAdds_loop _ _ _ fun k hk => isAdds_one _ _ _ _ fun s hs => ?_
    rw [mem_it3] at hk
    rw [hd.get hq hk.1 hk.2.1, Res.ok_bind, hx.get he hk.1 hk.2.2, Res.ok_bind]
  obtain ⟨t, h1, h2, h3⟩ := H.spec (by
    simp only [List.mem_flatMap, List.mem_singleton, Prod.exists]
    rintro st ⟨m, i, j, hk, rfl⟩
    rw [mem_it3] at hk
    simp [hk.2.1, hk.2.2])
  refine ⟨t, h1, h2, fun i j hi hj => ?_⟩
  rw [h3 _ (by simp [hi, hj])]
  congr 1
  rw [sum_map_flatMap, sum_it3, J8]
  refine sum_congr rfl fun m _ => ?_
  simp only [List.map_cons, List.map_nil, List.sum_singleton, List.cons.injEq, and_true]
  rw [sum_pick hi _ (by intro i' hi'; simp [hi']), sum_pick hj _ (by intro j' hj'; simp [hj'])]
  simp

/-- contributions of one integration point -/
def addSt (D : Nat → Nat → Nat → α) (X : Nat → Nat → Nat → α) (p : Nat × Nat) : List (List Nat × α) :=
  (it3 8 3 3).flatMap fun k => [([p.1, p.2, k.1, k.2.1], inv3f (J8 D X p.1 p.2) k.2.1 k.2.2 * D p.2 k.1 k.2.1)]

theorem point_ok {Q : Quadrature α} {ne nip : Nat} {D X W} (hnne : Q.nne = 8) (hnd : Q.ndim = 3)
    (hd : Is3 Q.dNxi nip 8 3 D) (hx : Is3 Q.x ne 8 3 X) (hw : Is1 Q.w nip W) {e q : Nat} (he : e < ne) (hq : q < nip)
    (a b : Ten α) :
    Q.compute_dN_point (a, b) e q = (adds (addSt D X (e, q)) a).bind fun a' =>
      (sets [([e, q], W q * dt3 (J8 D X e q))] b).bind fun b' => .ok (a', b') := by
  obtain ⟨J, hJ, hJ'⟩ := jacobian_ok hd hx he hq
  obtain ⟨t, ht, ht'⟩ := inv3_ok hJ' (Ainv := Ten.empty [3, 3]) rfl
  rw [Quadrature.compute_dN_point, hnne, hnd, hJ, Res.ok_bind, show invNd 3 J (Ten.empty [3, 3]) = _ from ht, Res.ok_bind]
  dsimp only
  have H : IsAdds a.shape (fun a => forEach (it3 8 3 3) (fun (s : Ten α) k => do
      let x ← t.get [k.2.1, k.2.2]
      let b ← Q.dNxi.get [q, k.1, k.2.1]
      s.addAt [e, q, k.1, k.2.1] (x * b)) a) (addSt D X (e, q)) := by
    refine isAdds_loop _ _ _ fun k hk => isAdds_one _ _ _ _ fun s hs => ?_
    rw [mem_it3] at hk
    rw [ht'.get hk.2.1 hk.2.2, Res.ok_bind, hd.get hq hk.1 hk.2.1, Res.ok_bind]
  have Ha := H a rfl
  beta_reduce at Ha
  rw [Ha, hw.get hq]
  change Res.bind _ _ = _
  congr 1
  funext a'
  simp only [sets, forEach_cons, forEach_nil]
  change (b.set [e, q] (W q * dt3 (J8 D X e q))).bind _ = _
  cases b.set [e, q] (W q * dt3 (J8 D X e q)) <;> rfl

theorem compute_dN_ok {Q : Quadrature α} {ne nip : Nat} {D X W} (hnne : Q.nne = 8) (hnd : Q.ndim = 3)
    (hne : Q.nelem = ne) (hnip : Q.nip = nip)
    (hd : Is3 Q.dNxi nip 8 3 D) (hx : Is3 Q.x ne 8 3 X) (hw : Is1 Q.w nip W)
    (hs : Q.dNx.shape = [ne, nip, 8, 3]) (hv : Q.vol.shape = [ne, nip]) (σ : Sched) :
    ∃ g v, Q.compute_dN_impl σ = .ok { Q with dNx := g, vol := v } ∧
      Is4 g ne nip 8 3 (G8 D X) ∧ Is2 v ne nip (fun e q => W q * dt3 (J8 D X e q)) := by
  set L := (σ.run (it1 ne)).flatMap fun e => (it1 nip).map fun q => (e, q) with hL
  obtain ⟨g, hg1, hg2, hg3⟩ := (isAdds_loop (sh := [ne, nip, 8, 3]) L
    (fun a p => adds (addSt D X p) a) (addSt D X) (fun p _ s _ => rfl)).spec (by
      simp only [List.mem_flatMap, addSt, List.mem_singleton]
      rintro st ⟨p, hp, k, hk, rfl⟩
      have := mem_pairs.1 hp
      rw [mem_it3] at hk
      simp [this.1, this.2, hk.1, hk.2.1])
  obtain ⟨v, hv1, hv2, hv3, -⟩ := (isSets_loop (sh := [ne, nip]) L
    (fun a p => sets [([p.1, p.2], W p.2 * dt3 (J8 D X p.1 p.2))] a) _ (fun p _ s _ => rfl)).spec
    (fun p => W (p.getD 1 0) * dt3 (J8 D X (p.getD 0 0) (p.getD 1 0))) (by
      simp only [List.mem_flatMap, List.mem_singleton]
      rintro st ⟨p, hp, rfl⟩
      have := mem_pairs.1 hp
      exact ⟨by simp [this.1, this.2], rfl⟩) Q.vol hv
  refine ⟨g, v, ?_, ⟨hg2, fun e q m i he hq hm hi => ?_⟩, hv2, fun e q he hq => ?_⟩
  · have hn := forEach_nest (σ.run (it1 ne)) (it1 nip)
      (fun s p => Q.compute_dN_point s p.1 p.2) (Ten.full Q.dNx.shape 0, Q.vol)
    have hp := forEach_pair L (fun s p => Q.compute_dN_point s p.1 p.2)
      (fun a p => adds (addSt D X p) a)
      (fun a p => sets [([p.1, p.2], W p.2 * dt3 (J8 D X p.1 p.2))] a) (Ten.full Q.dNx.shape 0) Q.vol g v
      (fun p hp a b => point_ok hnne hnd hd hx hw (mem_pairs.1 hp).1 (mem_pairs.1 hp).2 a b) (by rw [hs]; exact hg1) hv1
    rw [Quadrature.compute_dN_impl, hne, hnip]
    rw [show forEach (σ.run (it1 ne)) (fun s e => forEach (it1 nip)
      (fun s q => Q.compute_dN_point s e q) s) (Ten.full Q.dNx.shape 0, Q.vol) = .ok (g, v) from hn.trans hp]
    rfl
  · rw [hg3 [e, q, m, i] (by simp [he, hq, hm, hi])]
    congr 1
    rw [hL, sum_map_flatMap, sum_map_flatMap, sum_sched, sum_pick he _ (by
      intro e' he'
      rw [List.map_map]
      refine List.sum_eq_zero fun x hx => ?_
      simp only [List.mem_map, Function.comp] at hx
      obtain ⟨q', -, rfl⟩ := hx
      refine List.sum_eq_zero fun x hx => ?_
      simp only [List.mem_map, addSt, List.mem_flatMap, List.mem_singleton] at hx
      obtain ⟨st, ⟨k, -, rfl⟩, rfl⟩ := hx
      simp [he'])]
    rw [List.map_map, sum_it1, sum_pick hq _ (by
      intro q' hq'
      refine List.sum_eq_zero fun x hx => ?_
      simp only [List.mem_map, addSt, List.mem_flatMap, List.mem_singleton] at hx
      obtain ⟨st, ⟨k, -, rfl⟩, rfl⟩ := hx
      simp [hq'])]
    simp only [Function.comp, addSt]
    rw [sum_map_flatMap, sum_it3]
    simp only [List.map_cons, List.map_nil, List.sum_singleton, List.cons.injEq, and_true, true_and]
    rw [sum_pick hm _ (by intro m' hm'; simp [hm']), sum_pick hi _ (by intro i' hi'; simp [hi']), G8]
    simp
  · rw [hv3 [e, q]]
    · rfl
    · exact covered (i := (e, q)) (mem_pairs.2 ⟨he, hq⟩) (by simp)

end GF.Element.Hex8
