import Verif.Lemmas.RoundingNew

/-! The geometry of Quad4 in any arithmetic (the same proofs as in `Lemmas/ElementQuad4.lean`, which assume a field), and
the two runs of the constructor in lockstep. -/

namespace GF.Element.AnyArith
open Finset Quad4

section
variable {α : Type} [AddCommMonoid α] [Mul α] [One α] [Sub α] [Div α] [Neg α] [NatCast α]

/-- the 2x2 inverse as a function of the entries -/
def inv2f (J : Nat → Nat → α) (i j : Nat) : α :=
  (match i, j with
  | 0, 0 => J 1 1
  | 0, _ => -1 * J 0 1
  | _, 0 => -1 * J 1 0
  | _, _ => J 0 0) / (J 0 0 * J 1 1 - J 0 1 * J 1 0)

theorem inv2_ok {A Ainv : Ten α} {J : Nat → Nat → α} (hA : Is2 A 2 2 J) (hs : Ainv.shape = [2, 2]) :
    ∃ t, inv2 A Ainv = .ok (J 0 0 * J 1 1 - J 0 1 * J 1 0, t) ∧ Is2 t 2 2 (inv2f J) := by
  rw [inv2, hA.get (by omega) (by omega), hA.get (by omega) (by omega), hA.get (by omega) (by omega),
    hA.get (by omega) (by omega)]
  simp only [Res.ok_bind]
  rw [set_put (by simp [hs]), Res.ok_bind, set_put (by simp [hs]), Res.ok_bind,
    set_put (by simp [hs]), Res.ok_bind, set_put (by simp [hs]), Res.ok_bind]
  refine ⟨_, rfl, by simp [hs], fun i j hi hj => ?_⟩
  interval_cases i <;> interval_cases j <;> simp [Ten.put_v, inv2f]

/-- Jacobian matrix, from the local gradients -/
def Jf (D : Nat → Nat → Nat → α) (X : Nat → Nat → Nat → α) (e q i j : Nat) : α :=
  ∑ m ∈ range 4, D q m i * X e m j

/-- Jacobian determinant, from the local gradients -/
def detf (J : Nat → Nat → α) : α := J 0 0 * J 1 1 - J 0 1 * J 1 0

theorem jacobian_ok {dNxi x : Ten α} {nip ne : Nat} {D X} (hd : Is3 dNxi nip 4 2 D) (hx : Is3 x ne 4 2 X)
    {e q : Nat} (he : e < ne) (hq : q < nip) :
    ∃ J, jacobian dNxi x e q = .ok J ∧ Is2 J 2 2 (Jf D X e q) := by
  rw [jacobian]
  rw [dot4_ok (fun m hm => hd.get hq hm (by omega)) (fun m hm => hx.get he hm (by omega)), Res.ok_bind,
    set_put (by simp [Ten.empty]), Res.ok_bind,
    dot4_ok (fun m hm => hd.get hq hm (by omega)) (fun m hm => hx.get he hm (by omega)), Res.ok_bind,
    set_put (by simp [Ten.empty]), Res.ok_bind,
    dot4_ok (fun m hm => hd.get hq hm (by omega)) (fun m hm => hx.get he hm (by omega)), Res.ok_bind,
    set_put (by simp [Ten.empty]), Res.ok_bind,
    dot4_ok (fun m hm => hd.get hq hm (by omega)) (fun m hm => hx.get he hm (by omega)), Res.ok_bind,
    set_put (by simp [Ten.empty])]
  refine ⟨_, rfl, by simp [Ten.empty], fun i j hi hj => ?_⟩
  interval_cases i <;> interval_cases j <;> simp [Ten.put_v, Jf]

/-- global gradient of the shape functions -/
def Gf (D : Nat → Nat → Nat → α) (X : Nat → Nat → Nat → α) (e q m i : Nat) : α :=
  ∑ j ∈ range 2, inv2f (Jf D X e q) i j * D q m j

/-- assignments to the gradients of one integration point -/
def gradSt (D : Nat → Nat → Nat → α) (X : Nat → Nat → Nat → α) (p : Nat × Nat) : List (List Nat × α) :=
  (it1 4).flatMap fun m =>
    [([p.1, p.2, m, 0], Gf D X p.1 p.2 m 0)] ++ [([p.1, p.2, m, 1], Gf D X p.1 p.2 m 1)]

theorem point_ok {Q : Quadrature α} {ne nip : Nat} {D X W} (hd : Is3 Q.dNxi nip 4 2 D)
    (hx : Is3 Q.x ne 4 2 X) (hw : Is1 Q.w nip W) (thick : α) {e q : Nat} (he : e < ne) (hq : q < nip)
    (a b : Ten α) :
    compute_dN_point Q thick (a, b) e q = (sets (gradSt D X (e, q)) a).bind fun a' =>
      (sets [([e, q], W q * detf (Jf D X e q) * thick)] b).bind fun b' => .ok (a', b') := by
  obtain ⟨J, hJ, hJ'⟩ := jacobian_ok hd hx he hq
  obtain ⟨t, ht, ht'⟩ := inv2_ok hJ' (Ainv := Ten.empty [2, 2]) rfl
  rw [compute_dN_point, hJ, Res.ok_bind, ht, Res.ok_bind]
  dsimp only
  have H : IsSets a.shape (fun a => forEach (it1 4) (fun s m => do
      let j00 ← t.get [0, 0]
      let j01 ← t.get [0, 1]
      let j10 ← t.get [1, 0]
      let j11 ← t.get [1, 1]
      let d0 ← Q.dNxi.get [q, m, 0]
      let d1 ← Q.dNxi.get [q, m, 1]
      let s ← s.set [e, q, m, 0] (j00 * d0 + j01 * d1)
      s.set [e, q, m, 1] (j10 * d0 + j11 * d1)) a) (gradSt D X (e, q)) := by
    refine isSets_loop _ _ _ fun m hm => ?_
    rw [mem_it1] at hm
    rw [ht'.get (by omega) (by omega), ht'.get (by omega) (by omega), ht'.get (by omega) (by omega),
      ht'.get (by omega) (by omega), hd.get hq hm (by omega), hd.get hq hm (by omega)]
    simp only [Res.ok_bind]
    refine isSets_seq (isSets_one _ _ _ _ fun _ _ => rfl) (isSets_one _ _ _ _ fun _ _ => rfl)
      fun s _ => ?_
    have hG : ∀ i, Gf D X e q m i = inv2f (Jf D X e q) i 0 * D q m 0 + inv2f (Jf D X e q) i 1 * D q m 1 := by
      intro i; simp only [Gf, Finset.sum_range_succ, Finset.sum_range_zero, zero_add]
    rw [hG, hG]
    rfl
  have Ha := H a rfl
  beta_reduce at Ha
  rw [Ha, hw.get hq]
  change (sets (gradSt D X (e, q)) a).bind _ = _
  congr 1
  funext a'
  simp only [sets, forEach_cons, forEach_nil]
  change (b.set [e, q] (W q * detf (Jf D X e q) * thick)).bind _ = _
  cases b.set [e, q] (W q * detf (Jf D X e q) * thick) <;> rfl

theorem compute_dN_ok {Q : Quadrature α} {ne nip : Nat} {D X W} (hne : Q.nelem = ne) (hnip : Q.nip = nip)
    (hd : Is3 Q.dNxi nip 4 2 D) (hx : Is3 Q.x ne 4 2 X) (hw : Is1 Q.w nip W) (thick : α)
    (hs : Q.dNx.shape = [ne, nip, 4, 2]) (hv : Q.vol.shape = [ne, nip]) (σ : Sched) :
    ∃ g v, compute_dN_impl Q thick σ = .ok { Q with dNx := g, vol := v } ∧
      Is4 g ne nip 4 2 (Gf D X) ∧ Is2 v ne nip (fun e q => W q * detf (Jf D X e q) * thick) := by
  set L := (σ.run (it1 ne)).flatMap fun e => (it1 nip).map fun q => (e, q) with hL
  obtain ⟨g, hg1, hg2, hg3, -⟩ := (isSets_loop (sh := [ne, nip, 4, 2]) L
    (fun a p => sets (gradSt D X p) a) (gradSt D X) (fun p _ s _ => rfl)).spec
    (fun p => Gf D X (p.getD 0 0) (p.getD 1 0) (p.getD 2 0) (p.getD 3 0)) (by
      simp only [List.mem_flatMap, gradSt, List.mem_append, List.mem_singleton]
      rintro st ⟨p, hp, m, hm, rfl | rfl⟩ <;>
      · have := mem_pairs.1 hp
        rw [mem_it1] at hm
        exact ⟨by simp [this.1, this.2, hm], rfl⟩) Q.dNx hs
  obtain ⟨v, hv1, hv2, hv3, -⟩ := (isSets_loop (sh := [ne, nip]) L
    (fun a p => sets [([p.1, p.2], W p.2 * detf (Jf D X p.1 p.2) * thick)] a) _ (fun p _ s _ => rfl)).spec
    (fun p => W (p.getD 1 0) * detf (Jf D X (p.getD 0 0) (p.getD 1 0)) * thick) (by
      simp only [List.mem_flatMap, List.mem_singleton]
      rintro st ⟨p, hp, rfl⟩
      have := mem_pairs.1 hp
      exact ⟨by simp [this.1, this.2], rfl⟩) Q.vol hv
  refine ⟨g, v, ?_, ⟨hg2, fun e q m i he hq hm hi => ?_⟩, hv2, fun e q he hq => ?_⟩
  · have hn := forEach_nest (σ.run (it1 ne)) (it1 nip)
      (fun s p => compute_dN_point Q thick s p.1 p.2) (Q.dNx, Q.vol)
    have hp := forEach_pair L (fun s p => compute_dN_point Q thick s p.1 p.2)
      (fun a p => sets (gradSt D X p) a)
      (fun a p => sets [([p.1, p.2], W p.2 * detf (Jf D X p.1 p.2) * thick)] a) Q.dNx Q.vol g v
      (fun p hp a b => point_ok hd hx hw thick (mem_pairs.1 hp).1 (mem_pairs.1 hp).2 a b) hg1 hv1
    rw [compute_dN_impl, hne, hnip]
    rw [show forEach (σ.run (it1 ne)) (fun s e => forEach (it1 nip)
      (fun s q => compute_dN_point Q thick s e q) s) (Q.dNx, Q.vol) = .ok (g, v) from hn.trans hp]
    rfl
  · rw [hg3 [e, q, m, i]]
    · rfl
    · refine covered (i := (e, q)) (mem_pairs.2 ⟨he, hq⟩) ?_
      simp only [gradSt, List.mem_map, List.mem_flatMap, List.mem_append, List.mem_singleton, mem_it1]
      have : i = 0 ∨ i = 1 := by omega
      rcases this with rfl | rfl
      · exact ⟨_, ⟨m, hm, Or.inl rfl⟩, rfl⟩
      · exact ⟨_, ⟨m, hm, Or.inr rfl⟩, rfl⟩
  · rw [hv3 [e, q]]
    · rfl
    · exact covered (i := (e, q)) (mem_pairs.2 ⟨he, hq⟩) (by simp)

end

section
variable {A B : Type}
variable [Zero A] [One A] [Add A] [Sub A] [Mul A] [Div A] [Neg A] [NatCast A]
variable [Zero B] [One B] [Add B] [Sub B] [Mul B] [Div B] [Neg B] [NatCast B]
variable {R : A → B → Prop} {a s : Ten A} {b t : Ten B}

theorem jacobian_sim (H : ArithSim R) (h : TenSim R a b) (h' : TenSim R s t) (e q : Nat) :
    Sim (TenSim R) (jacobian a s e q) (jacobian b t e q) := by
  unfold jacobian
  refine Sim.bind (dot4_sim H (fun _ => h.get _) fun _ => h'.get _) fun _ _ g =>
    Sim.bind (TenSim.set (TenSim.empty _) _ g) fun _ _ h1 => ?_
  refine Sim.bind (dot4_sim H (fun _ => h.get _) fun _ => h'.get _) fun _ _ g =>
    Sim.bind (TenSim.set h1 _ g) fun _ _ h2 => ?_
  refine Sim.bind (dot4_sim H (fun _ => h.get _) fun _ => h'.get _) fun _ _ g =>
    Sim.bind (TenSim.set h2 _ g) fun _ _ h3 => ?_
  exact Sim.bind (dot4_sim H (fun _ => h.get _) fun _ => h'.get _) fun _ _ g => TenSim.set h3 _ g

theorem TenSim.any (h : TenSim R a b) : TenSim (Any A B) a b :=
  ⟨h.1, fun p x hx => by obtain ⟨y, h1, -⟩ := h.2 p x hx; exact ⟨y, h1, trivial⟩⟩

theorem inv2_sim (H : ArithSim R) (hsub : ∀ {x y x' y'}, R x y → R x' y' → R (x - x') (y - y')) (h : TenSim R a b)
    (h' : TenSim (Any A B) s t) :
    Sim (fun p q => R p.1 q.1 ∧ TenSim (Any A B) p.2 q.2) (inv2 a s) (inv2 b t) := by
  unfold inv2
  refine Sim.bind (h.get _) fun _ _ h1 => Sim.bind (h.get _) fun _ _ h2 => Sim.bind (h.get _) fun _ _ h3 =>
    Sim.bind (h.get _) fun _ _ h4 => ?_
  refine Sim.bind (h'.set _ (R := Any A B) trivial) fun _ _ g1 => Sim.bind (g1.set _ (R := Any A B) trivial) fun _ _ g2 =>
    Sim.bind (g2.set _ (R := Any A B) trivial) fun _ _ g3 => Sim.bind (g3.set _ (R := Any A B) trivial) fun _ _ g4 => ?_
  exact Sim.ok ⟨hsub (H.mul h1 h4) (H.mul h2 h3), g4⟩

/-- gradients filled alike, volumes related -/
def VolRel (R : A → B → Prop) (s : Ten A × Ten A) (t : Ten B × Ten B) : Prop :=
  TenSim (Any A B) s.1 t.1 ∧ TenSim R s.2 t.2

/-- the volumes of the two runs are related, the gradients are filled alike -/
theorem compute_dN_sim (H : ArithSim R) (hsub : ∀ {x y x' y'}, R x y → R x' y' → R (x - x') (y - y')) {P : Quadrature A}
    {Q : Quadrature B} (hne : P.nelem = Q.nelem) (hnip : P.nip = Q.nip) (hg : TenSim (Any A B) P.dNx Q.dNx)
    (h1 : TenSim R P.dNxi Q.dNxi) (h2 : TenSim R P.x Q.x) (h3 : TenSim R P.w Q.w) (hv : TenSim R P.vol Q.vol) {c : A} {d : B}
    (hc : R c d) (σ : Sched) :
    Sim (fun P' Q' => ∃ g v, P' = { P with dNx := g, vol := v } ∧ TenSim R v Q'.vol) (compute_dN_impl P c σ)
      (compute_dN_impl Q d σ) := by
  unfold compute_dN_impl
  rw [hne, hnip]
  refine Sim.bind (P := VolRel R) ?_ fun s t hst =>
    Sim.ok ⟨_, _, rfl, hst.2⟩
  refine Sim.forEach (P := VolRel R) (fun e _ _ _ _ =>
    Sim.forEach (P := VolRel R) (fun q _ s t hst => ?_) (by assumption))
    ⟨hg, hv⟩
  unfold compute_dN_point
  obtain ⟨h4, h5⟩ := hst
  refine Sim.bind (jacobian_sim H h1 h2 e q) fun _ _ h6 => Sim.bind (inv2_sim H hsub h6 (TenSim.empty _)) fun _ _ h7 => ?_
  obtain ⟨h7, h8⟩ := h7
  have h9 := TenSim.any h1
  refine Sim.bind (P := TenSim (Any A B)) (by lockstep_any) fun _ _ h10 => ?_
  exact Sim.bind (h3.get _) fun _ _ hw => Sim.bind (h5.set _ (H.mul (H.mul hw h7) hc)) fun _ _ h11 => Sim.ok ⟨h10, h11⟩

end
end GF.Element.AnyArith
