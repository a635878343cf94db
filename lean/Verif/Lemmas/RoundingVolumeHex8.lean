import Verif.Lemmas.RoundingVolume

/-! The geometry of Hex8 in any arithmetic (the same proofs as in `Lemmas/ElementHex8.lean`, which assume a field), and
the two runs of the constructor in lockstep. -/

namespace GF.Element.AnyArith.Hex8
open Finset Quad4

section
variable {α : Type} [AddCommMonoid α] [Mul α] [One α] [Sub α] [Div α] [Neg α] [NatCast α]

/-- the 3x3 inverse as a function of the entries -/
def inv3f (J : Nat → Nat → α) (i j : Nat) : α :=
  (match i, j with
  | 0, 0 => J 1 1 * J 2 2 - J 1 2 * J 2 1
  | 0, 1 => J 0 2 * J 2 1 - J 0 1 * J 2 2
  | 0, _ => J 0 1 * J 1 2 - J 0 2 * J 1 1
  | 1, 0 => J 1 2 * J 2 0 - J 1 0 * J 2 2
  | 1, 1 => J 0 0 * J 2 2 - J 0 2 * J 2 0
  | 1, _ => J 0 2 * J 1 0 - J 0 0 * J 1 2
  | _, 0 => J 1 0 * J 2 1 - J 1 1 * J 2 0
  | _, 1 => J 0 1 * J 2 0 - J 0 0 * J 2 1
  | _, _ => J 0 0 * J 1 1 - J 0 1 * J 1 0) /
    det3 (J 0 0) (J 0 1) (J 0 2) (J 1 0) (J 1 1) (J 1 2) (J 2 0) (J 2 1) (J 2 2)

theorem inv3_ok {A Ainv : Ten α} {J : Nat → Nat → α} (hA : Is2 A 3 3 J) (hs : Ainv.shape = [3, 3]) :
    ∃ t, inv3 A Ainv =
      .ok (det3 (J 0 0) (J 0 1) (J 0 2) (J 1 0) (J 1 1) (J 1 2) (J 2 0) (J 2 1) (J 2 2), t) ∧
      Is2 t 3 3 (inv3f J) := by
  rw [inv3, hA.get (by omega) (by omega), Res.ok_bind, hA.get (by omega) (by omega), Res.ok_bind,
    hA.get (by omega) (by omega), Res.ok_bind, hA.get (by omega) (by omega), Res.ok_bind,
    hA.get (by omega) (by omega), Res.ok_bind, hA.get (by omega) (by omega), Res.ok_bind,
    hA.get (by omega) (by omega), Res.ok_bind, hA.get (by omega) (by omega), Res.ok_bind,
    hA.get (by omega) (by omega), Res.ok_bind]
  rw [set_put (by simp [hs]), Res.ok_bind, set_put (by simp [hs]), Res.ok_bind,
    set_put (by simp [hs]), Res.ok_bind, set_put (by simp [hs]), Res.ok_bind,
    set_put (by simp [hs]), Res.ok_bind, set_put (by simp [hs]), Res.ok_bind,
    set_put (by simp [hs]), Res.ok_bind, set_put (by simp [hs]), Res.ok_bind,
    set_put (by simp [hs]), Res.ok_bind]
  refine ⟨_, rfl, by simp [hs], fun i j hi hj => ?_⟩
  interval_cases i <;> interval_cases j <;> simp [Ten.put_v, inv3f]

/-- Jacobian matrix, from the local gradients -/
def J8 (D : Nat → Nat → Nat → α) (X : Nat → Nat → Nat → α) (e q i j : Nat) : α :=
  ∑ m ∈ range 8, D q m i * X e m j

/-- determinant of a 3 x 3 matrix -/
def dt3 (J : Nat → Nat → α) : α :=
  det3 (J 0 0) (J 0 1) (J 0 2) (J 1 0) (J 1 1) (J 1 2) (J 2 0) (J 2 1) (J 2 2)

/-- gradients as computed: with the index of the local gradient that of the result -/
def G8 (D : Nat → Nat → Nat → α) (X : Nat → Nat → Nat → α) (e q m i : Nat) : α :=
  ∑ j ∈ range 3, inv3f (J8 D X e q) i j * D q m i

theorem jacobian_ok {dNxi x : Ten α} {ne nip : Nat} {D X} (hd : Is3 dNxi nip 8 3 D) (hx : Is3 x ne 8 3 X)
    {e q : Nat} (he : e < ne) (hq : q < nip) :
    ∃ J, forEach (it3 8 3 3) (fun (J : Ten α) k => do
        let a ← dNxi.get [q, k.1, k.2.1]
        let b ← x.get [e, k.1, k.2.2]
        J.addAt [k.2.1, k.2.2] (a * b)) (Ten.full [3, 3] 0) = .ok J ∧ Is2 J 3 3 (J8 D X e q) := by
  have H : IsAdds [3, 3] (fun J : Ten α => forEach (it3 8 3 3) (fun (J : Ten α) k => do
        let a ← dNxi.get [q, k.1, k.2.1]
        let b ← x.get [e, k.1, k.2.2]
        J.addAt [k.2.1, k.2.2] (a * b)) J)
      ((it3 8 3 3).flatMap fun k => [([k.2.1, k.2.2], D q k.1 k.2.1 * X e k.1 k.2.2)]) := by
    refine isAdds_loop _ _ _ fun k hk => isAdds_one _ _ _ _ fun s hs => ?_
    rw [mem_it3] at hk
    rw [hd.get hq hk.1 hk.2.1, Res.ok_bind, hx.get he hk.1 hk.2.2, Res.ok_bind]
  obtain ⟨t, h1, h2, h3⟩ := H.spec (by
    simp only [List.mem_flatMap, List.mem_singleton, Prod.exists]
    rintro st ⟨m, i, j, hk, rfl⟩
    rw [mem_it3] at hk
    simp [hk.2.1, hk.2.2])
  refine ⟨t, h1, h2, fun i j hi hj => ?_⟩
  rw [h3 _ (by simp [hi, hj])]
  congr 1
  rw [sum_map_flatMap, sum_it3, J8]
  refine sum_congr rfl fun m _ => ?_
  simp only [List.map_cons, List.map_nil, List.sum_singleton, List.cons.injEq, and_true]
  rw [sum_pick hi _ (by intro i' hi'; simp [hi']), sum_pick hj _ (by intro j' hj'; simp [hj'])]
  simp

/-- contributions of one integration point -/
def addSt (D : Nat → Nat → Nat → α) (X : Nat → Nat → Nat → α) (p : Nat × Nat) : List (List Nat × α) :=
  (it3 8 3 3).flatMap fun k => [([p.1, p.2, k.1, k.2.1], inv3f (J8 D X p.1 p.2) k.2.1 k.2.2 * D p.2 k.1 k.2.1)]

theorem point_ok {Q : Quadrature α} {ne nip : Nat} {D X W} (hnne : Q.nne = 8) (hnd : Q.ndim = 3)
    (hd : Is3 Q.dNxi nip 8 3 D) (hx : Is3 Q.x ne 8 3 X) (hw : Is1 Q.w nip W) {e q : Nat} (he : e < ne) (hq : q < nip)
    (a b : Ten α) :
    Q.compute_dN_point (a, b) e q = (adds (addSt D X (e, q)) a).bind fun a' =>
      (sets [([e, q], W q * dt3 (J8 D X e q))] b).bind fun b' => .ok (a', b') := by
  obtain ⟨J, hJ, hJ'⟩ := jacobian_ok hd hx he hq
  obtain ⟨t, ht, ht'⟩ := inv3_ok hJ' (Ainv := Ten.empty [3, 3]) rfl
  rw [Quadrature.compute_dN_point, hnne, hnd, hJ, Res.ok_bind, show invNd 3 J (Ten.empty [3, 3]) = _ from ht, Res.ok_bind]
  dsimp only
  have H : IsAdds a.shape (fun a => forEach (it3 8 3 3) (fun (s : Ten α) k => do
      let x ← t.get [k.2.1, k.2.2]
      let b ← Q.dNxi.get [q, k.1, k.2.1]
      s.addAt [e, q, k.1, k.2.1] (x * b)) a) (addSt D X (e, q)) := by
    refine isAdds_loop _ _ _ fun k hk => isAdds_one _ _ _ _ fun s hs => ?_
    rw [mem_it3] at hk
    rw [ht'.get hk.2.1 hk.2.2, Res.ok_bind, hd.get hq hk.1 hk.2.1, Res.ok_bind]
  have Ha := H a rfl
  beta_reduce at Ha
  rw [Ha, hw.get hq]
  change Res.bind _ _ = _
  congr 1
  funext a'
  simp only [sets, forEach_cons, forEach_nil]
  change (b.set [e, q] (W q * dt3 (J8 D X e q))).bind _ = _
  cases b.set [e, q] (W q * dt3 (J8 D X e q)) <;> rfl

theorem compute_dN_ok {Q : Quadrature α} {ne nip : Nat} {D X W} (hnne : Q.nne = 8) (hnd : Q.ndim = 3)
    (hne : Q.nelem = ne) (hnip : Q.nip = nip)
    (hd : Is3 Q.dNxi nip 8 3 D) (hx : Is3 Q.x ne 8 3 X) (hw : Is1 Q.w nip W)
    (hs : Q.dNx.shape = [ne, nip, 8, 3]) (hv : Q.vol.shape = [ne, nip]) (σ : Sched) :
    ∃ g v, Q.compute_dN_impl σ = .ok { Q with dNx := g, vol := v } ∧
      Is4 g ne nip 8 3 (G8 D X) ∧ Is2 v ne nip (fun e q => W q * dt3 (J8 D X e q)) := by
  set L := (σ.run (it1 ne)).flatMap fun e => (it1 nip).map fun q => (e, q) with hL
  obtain ⟨g, hg1, hg2, hg3⟩ := (isAdds_loop (sh := [ne, nip, 8, 3]) L
    (fun a p => adds (addSt D X p) a) (addSt D X) (fun p _ s _ => rfl)).spec (by
      simp only [List.mem_flatMap, addSt, List.mem_singleton]
      rintro st ⟨p, hp, k, hk, rfl⟩
      have := mem_pairs.1 hp
      rw [mem_it3] at hk
      simp [this.1, this.2, hk.1, hk.2.1])
  obtain ⟨v, hv1, hv2, hv3, -⟩ := (isSets_loop (sh := [ne, nip]) L
    (fun a p => sets [([p.1, p.2], W p.2 * dt3 (J8 D X p.1 p.2))] a) _ (fun p _ s _ => rfl)).spec
    (fun p => W (p.getD 1 0) * dt3 (J8 D X (p.getD 0 0) (p.getD 1 0))) (by
      simp only [List.mem_flatMap, List.mem_singleton]
      rintro st ⟨p, hp, rfl⟩
      have := mem_pairs.1 hp
      exact ⟨by simp [this.1, this.2], rfl⟩) Q.vol hv
  refine ⟨g, v, ?_, ⟨hg2, fun e q m i he hq hm hi => ?_⟩, hv2, fun e q he hq => ?_⟩
  · have hn := forEach_nest (σ.run (it1 ne)) (it1 nip)
      (fun s p => Q.compute_dN_point s p.1 p.2) (Ten.full Q.dNx.shape 0, Q.vol)
    have hp := forEach_pair L (fun s p => Q.compute_dN_point s p.1 p.2)
      (fun a p => adds (addSt D X p) a)
      (fun a p => sets [([p.1, p.2], W p.2 * dt3 (J8 D X p.1 p.2))] a) (Ten.full Q.dNx.shape 0) Q.vol g v
      (fun p hp a b => point_ok hnne hnd hd hx hw (mem_pairs.1 hp).1 (mem_pairs.1 hp).2 a b) (by rw [hs]; exact hg1) hv1
    rw [Quadrature.compute_dN_impl, hne, hnip]
    rw [show forEach (σ.run (it1 ne)) (fun s e => forEach (it1 nip)
      (fun s q => Q.compute_dN_point s e q) s) (Ten.full Q.dNx.shape 0, Q.vol) = .ok (g, v) from hn.trans hp]
    rfl
  · rw [hg3 [e, q, m, i] (by simp [he, hq, hm, hi])]
    congr 1
    rw [hL, sum_map_flatMap, sum_map_flatMap, sum_sched, sum_pick he _ (by
      intro e' he'
      rw [List.map_map]
      refine List.sum_eq_zero fun x hx => ?_
      simp only [List.mem_map, Function.comp] at hx
      obtain ⟨q', -, rfl⟩ := hx
      refine List.sum_eq_zero fun x hx => ?_
      simp only [List.mem_map, addSt, List.mem_flatMap, List.mem_singleton] at hx
      obtain ⟨st, ⟨k, -, rfl⟩, rfl⟩ := hx
      simp [he'])]
    rw [List.map_map, sum_it1, sum_pick hq _ (by
      intro q' hq'
      refine List.sum_eq_zero fun x hx => ?_
      simp only [List.mem_map, addSt, List.mem_flatMap, List.mem_singleton] at hx
      obtain ⟨st, ⟨k, -, rfl⟩, rfl⟩ := hx
      simp [hq'])]
    simp only [Function.comp, addSt]
    rw [sum_map_flatMap, sum_it3]
    simp only [List.map_cons, List.map_nil, List.sum_singleton, List.cons.injEq, and_true, true_and]
    rw [sum_pick hm _ (by intro m' hm'; simp [hm']), sum_pick hi _ (by intro i' hi'; simp [hi']), G8]
    simp
  · rw [hv3 [e, q]]
    · rfl
    · exact covered (i := (e, q)) (mem_pairs.2 ⟨he, hq⟩) (by simp)

end

section
variable {A B : Type}
variable [Zero A] [One A] [Add A] [Sub A] [Mul A] [Div A] [Neg A] [NatCast A]
variable [Zero B] [One B] [Add B] [Sub B] [Mul B] [Div B] [Neg B] [NatCast B]
variable {R : A → B → Prop} {a s : Ten A} {b t : Ten B}

theorem inv3_sim (H : ArithSim R) (hsub : ∀ {x y x' y'}, R x y → R x' y' → R (x - x') (y - y')) (h : TenSim R a b)
    (h' : TenSim (Any A B) s t) :
    Sim (fun p q => R p.1 q.1 ∧ TenSim (Any A B) p.2 q.2) (inv3 a s) (inv3 b t) := by
  unfold inv3
  refine Sim.bind (h.get _) fun _ _ h1 => Sim.bind (h.get _) fun _ _ h2 => Sim.bind (h.get _) fun _ _ h3 =>
    Sim.bind (h.get _) fun _ _ h4 => Sim.bind (h.get _) fun _ _ h5 => Sim.bind (h.get _) fun _ _ h6 =>
    Sim.bind (h.get _) fun _ _ h7 => Sim.bind (h.get _) fun _ _ h8 => Sim.bind (h.get _) fun _ _ h9 => ?_
  refine Sim.bind (h'.set _ (R := Any A B) trivial) fun _ _ g1 => Sim.bind (g1.set _ (R := Any A B) trivial) fun _ _ g2 =>
    Sim.bind (g2.set _ (R := Any A B) trivial) fun _ _ g3 => Sim.bind (g3.set _ (R := Any A B) trivial) fun _ _ g4 =>
    Sim.bind (g4.set _ (R := Any A B) trivial) fun _ _ g5 => Sim.bind (g5.set _ (R := Any A B) trivial) fun _ _ g6 =>
    Sim.bind (g6.set _ (R := Any A B) trivial) fun _ _ g7 => Sim.bind (g7.set _ (R := Any A B) trivial) fun _ _ g8 =>
    Sim.bind (g8.set _ (R := Any A B) trivial) fun _ _ g9 => ?_
  refine Sim.ok ⟨?_, g9⟩
  exact hsub
    (H.add _ _ _ _ (H.add _ _ _ _ (H.mul (H.mul h1 h5) h9) (H.mul (H.mul h2 h6) h7)) (H.mul (H.mul h3 h4) h8))
    (H.add _ _ _ _ (H.add _ _ _ _ (H.mul (H.mul h3 h5) h7) (H.mul (H.mul h2 h4) h9)) (H.mul (H.mul h1 h6) h8))

/-- the volumes of the two runs are related, the gradients are filled alike -/
theorem compute_dN_sim (H : ArithSim R) (hsub : ∀ {x y x' y'}, R x y → R x' y' → R (x - x') (y - y')) {P : Quadrature A}
    {Q : Quadrature B} (hnne : P.nne = Q.nne) (hn1 : P.ndim = 3) (hn2 : Q.ndim = 3) (hne : P.nelem = Q.nelem) (hnip : P.nip = Q.nip)
    (hg : P.dNx.shape = Q.dNx.shape) (h1 : TenSim R P.dNxi Q.dNxi) (h2 : TenSim R P.x Q.x) (h3 : TenSim R P.w Q.w)
    (hv : TenSim R P.vol Q.vol) (σ : Sched) :
    Sim (fun P' Q' => ∃ g v, P' = { P with dNx := g, vol := v } ∧ TenSim R v Q'.vol) (P.compute_dN_impl σ)
      (Q.compute_dN_impl σ) := by
  unfold Quadrature.compute_dN_impl
  rw [hne, hnip, hg]
  refine Sim.bind (P := VolRel R) ?_ fun s t hst =>
    Sim.ok ⟨_, _, rfl, hst.2⟩
  refine Sim.forEach (P := VolRel R) (fun e _ _ _ _ =>
    Sim.forEach (P := VolRel R) (fun q _ s t hst => ?_) (by assumption))
    ⟨TenSim.full _ trivial, hv⟩
  unfold Quadrature.compute_dN_point
  rw [hnne, hn1, hn2]
  obtain ⟨h4, h5⟩ := hst
  have hJ : Sim (TenSim R) (forEach (it3 Q.nne 3 3) (fun (J : Ten A) k => do
        let a ← P.dNxi.get [q, k.1, k.2.1]
        let b ← P.x.get [e, k.1, k.2.2]
        J.addAt [k.2.1, k.2.2] (a * b)) (Ten.full [3, 3] 0))
      (forEach (it3 Q.nne 3 3) (fun (J : Ten B) k => do
        let a ← Q.dNxi.get [q, k.1, k.2.1]
        let b ← Q.x.get [e, k.1, k.2.2]
        J.addAt [k.2.1, k.2.2] (a * b)) (Ten.full [3, 3] 0)) := by
    refine Sim.forEach (P := TenSim R) (fun k _ _ _ h => ?_) (TenSim.full _ H.zero)
    refine Sim.bind (h1.get _) fun _ _ g1 => ?_
    refine Sim.bind (h2.get _) fun _ _ g2 => ?_
    exact TenSim.addAt H.add h _ (H.mul g1 g2)
  refine Sim.bind hJ fun _ _ h6 =>
    Sim.bind (inv3_sim H hsub h6 (TenSim.empty _)) fun _ _ h7 => ?_
  obtain ⟨h7, h8⟩ := h7
  have h9 := TenSim.any h1
  refine Sim.bind (P := TenSim (Any A B)) (by lockstep_any) fun _ _ h10 => ?_
  exact Sim.bind (h3.get _) fun _ _ hw => Sim.bind (h5.set _ (H.mul hw h7)) fun _ _ h11 => Sim.ok ⟨h10, h11⟩

end
end GF.Element.AnyArith.Hex8
