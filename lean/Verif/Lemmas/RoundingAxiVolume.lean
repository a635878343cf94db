import Verif.Lemmas.RoundingVolume
import Verif.Lemmas.RoundingAxi

/-! The geometry of the axisymmetric element in any arithmetic (the same proofs as in `Lemmas/ElementAxi.lean`, which assume a
field), and the two runs of the constructor in lockstep. -/

namespace GF.Element.AnyArith.Axi
open Finset Quad4 GF.Element.Axi

section
variable {α : Type} [AddCommMonoid α] [Mul α] [One α] [Sub α] [Div α] [Neg α] [NatCast α]

/-- coefficients: `G` global gradients in the (z, r) plane, `T` shape function over radius -/
def bv (G : Nat → Nat → Nat → Nat → α) (T : Nat → Nat → Nat → α) (a e q m : Nat) : α :=
  match a with
  | 0 => G e q m 1
  | 1 => T e q m
  | 2 => G e q m 0
  | 3 => G e q m 1
  | _ => G e q m 0

/-- radius of an integration point -/
def Rf (N : Nat → Nat → α) (X : Nat → Nat → Nat → α) (e q : Nat) : α := ∑ m ∈ range 4, N q m * X e m 1

/-- the gradient coefficients for given coordinates -/
def bX (N : Nat → Nat → α) (D : Nat → Nat → Nat → α) (X : Nat → Nat → Nat → α) : Nat → Nat → Nat → Nat → α :=
  bv (Gf D X) (fun e q m => 1 / Rf N X e q * N q m)

/-- assignments of one integration point -/
def St (N : Nat → Nat → α) (D : Nat → Nat → Nat → α) (X : Nat → Nat → Nat → α) (p : Nat × Nat) :
    List (List Nat × α) :=
  (it1 4).flatMap fun m => [([p.1, p.2, m] ++ bI 0, bX N D X 0 p.1 p.2 m)] ++
    ([([p.1, p.2, m] ++ bI 3, bX N D X 3 p.1 p.2 m)] ++ ([([p.1, p.2, m] ++ bI 1, bX N D X 1 p.1 p.2 m)] ++
      ([([p.1, p.2, m] ++ bI 4, bX N D X 4 p.1 p.2 m)] ++ [([p.1, p.2, m] ++ bI 2, bX N D X 2 p.1 p.2 m)])))

/-- volume of an integration point -/
def Vf (pi : α) (W : Nat → α) (N : Nat → Nat → α) (D : Nat → Nat → Nat → α) (X : Nat → Nat → Nat → α) (e q : Nat) : α :=
  W q * detf (Jf D X e q) * 2 * pi * Rf N X e q

theorem point_ok {Q : Quadrature α} {ne nip : Nat} {N D X W} (hN : Is2 Q.N nip 4 N) (hd : Is3 Q.dNxi nip 4 2 D)
    (hx : Is3 Q.x ne 4 2 X) (hw : Is1 Q.w nip W) (pi : α) {e q : Nat} (he : e < ne) (hq : q < nip)
    (a b : Ten α) :
    Axi.compute_dN_point pi Q (a, b) e q = (sets (St N D X (e, q)) a).bind fun a' =>
      (sets [([e, q], Vf pi W N D X e q)] b).bind fun b' => .ok (a', b') := by
  obtain ⟨J, hJ, hJ'⟩ := jacobian_ok hd hx he hq
  obtain ⟨t, ht, ht'⟩ := inv2_ok hJ' (Ainv := Ten.empty [2, 2]) rfl
  rw [Axi.compute_dN_point, hJ, Res.ok_bind, ht, Res.ok_bind,
    dot4_ok (fun m hm => hN.get hq hm) (fun m hm => hx.get he hm (by omega)), Res.ok_bind]
  dsimp only
  have H : IsSets a.shape (fun a => forEach (it1 4) (fun s m => do
      let j00 ← t.get [0, 0]
      let j01 ← t.get [0, 1]
      let j10 ← t.get [1, 0]
      let j11 ← t.get [1, 1]
      let d0 ← Q.dNxi.get [q, m, 0]
      let d1 ← Q.dNxi.get [q, m, 1]
      let n ← Q.N.get [q, m]
      let s ← s.set [e, q, m, 0, 0, 0] (j10 * d0 + j11 * d1)
      let s ← s.set [e, q, m, 0, 2, 2] (j10 * d0 + j11 * d1)
      let s ← s.set [e, q, m, 1, 1, 0] (1 / Rf N X e q * n)
      let s ← s.set [e, q, m, 2, 0, 0] (j00 * d0 + j01 * d1)
      s.set [e, q, m, 2, 2, 2] (j00 * d0 + j01 * d1)) a) (St N D X (e, q)) := by
    refine isSets_loop _ _ _ fun m hm => ?_
    rw [mem_it1] at hm
    rw [ht'.get (by omega) (by omega), ht'.get (by omega) (by omega), ht'.get (by omega) (by omega),
      ht'.get (by omega) (by omega), hd.get hq hm (by omega), hd.get hq hm (by omega), hN.get hq hm]
    simp only [Res.ok_bind]
    have hG : ∀ i, Gf D X e q m i = inv2f (Jf D X e q) i 0 * D q m 0 + inv2f (Jf D X e q) i 1 * D q m 1 := by
      intro i; simp only [Gf, Finset.sum_range_succ, Finset.sum_range_zero, zero_add]
    rw [← hG, ← hG]
    iterate 3 refine isSets_seq (isSets_one _ _ _ _ fun _ _ => rfl) ?_ (fun _ _ => rfl)
    exact isSets_seq (isSets_one _ _ _ _ fun _ _ => rfl) (isSets_one _ _ _ _ fun _ _ => rfl)
      fun s _ => rfl
  have Ha := H a rfl
  beta_reduce at Ha
  change (Res.bind (forEach (it1 4) _ a) _) = _
  rw [show ∑ m ∈ range 4, N q m * X e m 1 = Rf N X e q from rfl]
  rw [Ha, hw.get hq]
  congr 1
  funext a'
  simp only [sets, forEach_cons, forEach_nil]
  change (b.set [e, q] (Vf pi W N D X e q)).bind _ = _
  cases b.set [e, q] (Vf pi W N D X e q) <;> rfl

/-- value by position -/
def bPos (b : Nat → Nat → Nat → Nat → α) (p : List Nat) : α :=
  b (if p.drop 3 = bI 0 then 0 else if p.drop 3 = bI 1 then 1 else if p.drop 3 = bI 2 then 2
    else if p.drop 3 = bI 3 then 3 else 4) (p.getD 0 0) (p.getD 1 0) (p.getD 2 0)

theorem bPos_eq (b : Nat → Nat → Nat → Nat → α) {a : Nat} (ha : a < 5) (e q m : Nat) :
    bPos b ([e, q, m] ++ bI a) = b a e q m := by
  interval_cases a <;> simp [bPos, bI]

theorem mem_St {N : Nat → Nat → α} {D X} {p : Nat × Nat} {st : List Nat × α} :
    st ∈ St N D X p ↔ ∃ m a, m < 4 ∧ a < 5 ∧ st = ([p.1, p.2, m] ++ bI a, bX N D X a p.1 p.2 m) := by
  simp only [St, List.mem_flatMap, mem_it1, List.mem_append, List.mem_singleton]
  constructor
  · rintro ⟨m, hm, h | h | h | h | h⟩
    · exact ⟨m, 0, hm, by omega, h⟩
    · exact ⟨m, 3, hm, by omega, h⟩
    · exact ⟨m, 1, hm, by omega, h⟩
    · exact ⟨m, 4, hm, by omega, h⟩
    · exact ⟨m, 2, hm, by omega, h⟩
  · rintro ⟨m, a, hm, ha, h⟩
    refine ⟨m, hm, ?_⟩
    interval_cases a
    · exact Or.inl h
    · exact Or.inr (Or.inr (Or.inl h))
    · exact Or.inr (Or.inr (Or.inr (Or.inr h)))
    · exact Or.inr (Or.inl h)
    · exact Or.inr (Or.inr (Or.inr (Or.inl h)))

theorem compute_dN_ok {A : QuadratureAxi α} {ne nip : Nat} {N D X W} (hne : A.nelem = ne) (hnip : A.nip = nip)
    (hN : Is2 A.N nip 4 N) (hd : Is3 A.dNxi nip 4 2 D) (hx : Is3 A.x ne 4 2 X) (hw : Is1 A.w nip W) (pi : α)
    (hs : A.B.shape = [ne, nip, 4, 3, 3, 3]) (hv : A.vol.shape = [ne, nip]) (σ : Sched) :
    ∃ g v, Axi.compute_dN_impl pi A σ = .ok { A with B := g, vol := v } ∧
      g.shape = [ne, nip, 4, 3, 3, 3] ∧
      (∀ a e q m, a < 5 → e < ne → q < nip → m < 4 → g.get ([e, q, m] ++ bI a) = .ok (bX N D X a e q m)) ∧
      Is2 v ne nip (Vf pi W N D X) := by
  set L := (σ.run (it1 ne)).flatMap fun e => (it1 nip).map fun q => (e, q) with hL
  obtain ⟨g, hg1, hg2, hg3, -⟩ := (isSets_loop (sh := [ne, nip, 4, 3, 3, 3]) L
    (fun a p => sets (St N D X p) a) (St N D X) (fun p _ s _ => rfl)).spec
    (bPos (bX N D X)) (by
      simp only [List.mem_flatMap]
      rintro st ⟨p, hp, hst⟩
      have := mem_pairs.1 hp
      obtain ⟨m, a, hm, ha, rfl⟩ := mem_St.1 hst
      exact ⟨bI_inb this.1 this.2 hm ha, (bPos_eq (bX N D X) ha p.1 p.2 m).symm⟩) (Ten.full A.B.shape 0) hs
  obtain ⟨v, hv1, hv2, hv3, -⟩ := (isSets_loop (sh := [ne, nip]) L
    (fun a p => sets [([p.1, p.2], Vf pi W N D X p.1 p.2)] a) _ (fun p _ s _ => rfl)).spec
    (fun p => Vf pi W N D X (p.getD 0 0) (p.getD 1 0)) (by
      simp only [List.mem_flatMap, List.mem_singleton]
      rintro st ⟨p, hp, rfl⟩
      have := mem_pairs.1 hp
      exact ⟨by simp [this.1, this.2], rfl⟩) A.vol hv
  refine ⟨g, v, ?_, hg2, fun a e q m ha he hq hm => ?_, hv2, fun e q he hq => ?_⟩
  · have hn := forEach_nest (σ.run (it1 ne)) (it1 nip)
      (fun s p => Axi.compute_dN_point pi A.toQuadrature s p.1 p.2) (Ten.full A.B.shape 0, A.vol)
    have hp := forEach_pair L (fun s p => Axi.compute_dN_point pi A.toQuadrature s p.1 p.2)
      (fun a p => sets (St N D X p) a)
      (fun a p => sets [([p.1, p.2], Vf pi W N D X p.1 p.2)] a) (Ten.full A.B.shape 0) A.vol g v
      (fun p hp a b => point_ok hN hd hx hw pi (mem_pairs.1 hp).1 (mem_pairs.1 hp).2 a b) hg1 hv1
    rw [Axi.compute_dN_impl, hne, hnip]
    rw [show forEach (σ.run (it1 ne)) (fun s e => forEach (it1 nip)
      (fun s q => Axi.compute_dN_point pi A.toQuadrature s e q) s) (Ten.full A.B.shape 0, A.vol) = .ok (g, v)
      from hn.trans hp]
    rfl
  · have hin := bI_inb he hq hm ha
    have h := hg3 ([e, q, m] ++ bI a) (covered (i := (e, q)) (mem_pairs.2 ⟨he, hq⟩)
      (List.mem_map.2 ⟨_, mem_St.2 ⟨m, a, hm, ha, rfl⟩, rfl⟩))
    rw [Ten.get, hg2, if_pos hin, h, bPos_eq _ ha]
  · rw [hv3 [e, q]]
    · rfl
    · exact covered (i := (e, q)) (mem_pairs.2 ⟨he, hq⟩) (by simp)

end

section
variable {A B : Type}
variable [Zero A] [One A] [Add A] [Sub A] [Mul A] [Div A] [Neg A] [NatCast A]
variable [Zero B] [One B] [Add B] [Sub B] [Mul B] [Div B] [Neg B] [NatCast B]
variable {R : A → B → Prop}

/-- the volumes of the two runs are related, the gradients are filled alike -/
theorem compute_dN_sim (H : ArithSim R) (hsub : ∀ {x y x' y'}, R x y → R x' y' → R (x - x') (y - y')) (h22 : R 2 2)
    {P : QuadratureAxi A} {Q : QuadratureAxi B} (hne : P.nelem = Q.nelem) (hnip : P.nip = Q.nip) (hg : TenSim (Any A B) P.B Q.B)
    (h0 : TenSim R P.N Q.N) (h1 : TenSim R P.dNxi Q.dNxi) (h2 : TenSim R P.x Q.x) (h3 : TenSim R P.w Q.w)
    (hv : TenSim R P.vol Q.vol) {c : A} {d : B} (hc : R c d) (σ : Sched) :
    Sim (fun P' Q' => ∃ g v, P' = { P with B := g, vol := v } ∧ TenSim R v Q'.vol) (Axi.compute_dN_impl c P σ)
      (Axi.compute_dN_impl d Q σ) := by
  unfold Axi.compute_dN_impl
  rw [hne, hnip, hg.1]
  refine Sim.bind (P := VolRel R) ?_ fun s t hst =>
    Sim.ok ⟨_, _, rfl, hst.2⟩
  refine Sim.forEach (P := VolRel R) (fun e _ _ _ _ =>
    Sim.forEach (P := VolRel R) (fun q _ s t hst => ?_) (by assumption))
    ⟨TenSim.full _ trivial, hv⟩
  unfold Axi.compute_dN_point
  obtain ⟨h4, h5⟩ := hst
  refine Sim.bind (jacobian_sim H h1 h2 e q) fun _ _ h6 => Sim.bind (inv2_sim H hsub h6 (TenSim.empty _)) fun _ _ h7 => ?_
  obtain ⟨h7, h8⟩ := h7
  have h9 := TenSim.any h1
  have h9' := TenSim.any h0
  refine Sim.bind (dot4_sim H (fun _ => h0.get _) fun _ => h2.get _) fun _ _ hr => ?_
  refine Sim.bind (P := TenSim (Any A B)) (by lockstep_any) fun _ _ h10 => ?_
  exact Sim.bind (h3.get _) fun _ _ hw => Sim.bind (h5.set _ (H.mul (H.mul (H.mul (H.mul hw h7) h22) hc) hr)) fun _ _ h11 =>
    Sim.ok ⟨h10, h11⟩

end
end GF.Element.AnyArith.Axi
