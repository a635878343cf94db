import Verif.Lemmas.ElementQuad4Geo
import Verif.Model.ElementAxi

/-! The axisymmetric element: the five non-zero gradient components `a = 0 .. 4`, which are `(r,r), (θ,θ), (z,z), (r,z),
(z,r)`, each driven by one displacement component. -/

namespace GF.Element.Axi
open Finset ElemSpec Quad4

variable {α : Type}

/-- nodal component driving gradient component `a` (0: axial, 1: radial) -/
def dof (a : Nat) : Nat := [1, 1, 0, 0, 1].getD a 0
/-- derivative index -/
def ci (a : Nat) : Nat := [0, 1, 2, 0, 2].getD a 0
/-- component index -/
def cj (a : Nat) : Nat := [0, 1, 2, 2, 0].getD a 0
/-- index in the stored array `B` -/
def bI (a : Nat) : List Nat := [[0, 0, 0], [1, 1, 0], [2, 2, 2], [0, 2, 2], [2, 0, 0]].getD a []

/-- what the arrays hold -/
structure AHolds (A : QuadratureAxi α) (ne nip : Nat) (N : Nat → Nat → α) (b : Nat → Nat → Nat → Nat → α)
    (V : Nat → Nat → α) : Prop where
  nne_eq : A.nne = 4
  nd_eq : A.ndim = 2
  td_eq : A.tdim = 3
  ne_eq : A.nelem = ne
  nip_eq : A.nip = nip
  N_is : Is2 A.N nip 4 N
  B_shape : A.B.shape = [ne, nip, 4, 3, 3, 3]
  B_is : ∀ a e q m, a < 5 → e < ne → q < nip → m < 4 → A.B.get ([e, q, m] ++ bI a) = .ok (b a e q m)
  V_is : Is2 A.vol ne nip V

section field
variable [Field α]

/-- coefficients: `G` global gradients in the (z, r) plane, `T` shape function over radius -/
def bv (G : Nat → Nat → Nat → Nat → α) (T : Nat → Nat → Nat → α) (a e q m : Nat) : α :=
  match a with
  | 0 => G e q m 1
  | 1 => T e q m
  | 2 => G e q m 0
  | 3 => G e q m 1
  | _ => G e q m 0

/-- radius of an integration point -/
def Rf (N : Nat → Nat → α) (X : Nat → Nat → Nat → α) (e q : Nat) : α := ∑ m ∈ range 4, N q m * X e m 1

/-- the gradient coefficients for given coordinates -/
def bX (N : Nat → Nat → α) (D : Nat → Nat → Nat → α) (X : Nat → Nat → Nat → α) : Nat → Nat → Nat → Nat → α :=
  bv (Gf D X) (fun e q m => 1 / Rf N X e q * N q m)

/-- assignments of one integration point -/
def St (N : Nat → Nat → α) (D : Nat → Nat → Nat → α) (X : Nat → Nat → Nat → α) (p : Nat × Nat) :
    List (List Nat × α) :=
  (it1 4).flatMap fun m => [([p.1, p.2, m] ++ bI 0, bX N D X 0 p.1 p.2 m)] ++
    ([([p.1, p.2, m] ++ bI 3, bX N D X 3 p.1 p.2 m)] ++ ([([p.1, p.2, m] ++ bI 1, bX N D X 1 p.1 p.2 m)] ++
      ([([p.1, p.2, m] ++ bI 4, bX N D X 4 p.1 p.2 m)] ++ [([p.1, p.2, m] ++ bI 2, bX N D X 2 p.1 p.2 m)])))

/-- volume of an integration point -/
def Vf (pi : α) (W : Nat → α) (N : Nat → Nat → α) (D : Nat → Nat → Nat → α) (X : Nat → Nat → Nat → α) (e q : Nat) : α :=
  W q * detf (Jf D X e q) * 2 * pi * Rf N X e q

theorem point_ok {Q : Quadrature α} {ne nip : Nat} {N D X W} (hN : Is2 Q.N nip 4 N) (hd : Is3 Q.dNxi nip 4 2 D)
    (hx : Is3 Q.x ne 4 2 X) (hw : Is1 Q.w nip W) (pi : α) {e q : Nat} (he : e < ne) (hq : q < nip)
    (a b : Ten α) :
    Axi.compute_dN_point pi Q (a, b) e q = (sets (St N D X (e, q)) a).bind fun a' =>
      (sets [([e, q], Vf pi W N D X e q)] b).bind fun b' => .ok (a', b') := by
  obtain ⟨J, hJ, hJ'⟩ := jacobian_ok hd hx he hq
  obtain ⟨t, ht, ht'⟩ := inv2_ok hJ' (Ainv := Ten.empty [2, 2]) rfl
  rw [Axi.compute_dN_point, hJ, Res.ok_bind, ht, Res.ok_bind,
    dot4_ok (fun m hm => hN.get hq hm) (fun m hm => hx.get he hm (by omega)), Res.ok_bind]
  dsimp only
  have H : IsSets a.shape (fun a => forEach (it1 4) (fun s m => do
      let j00 ← t.get [0, 0]
      let j01 ← t.get [0, 1]
      let j10 ← t.get [1, 0]
      let j11 ← t.get [1, 1]
      let d0 ← Q.dNxi.get [q, m, 0]
      let d1 ← Q.dNxi.get [q, m, 1]
      let n ← Q.N.get [q, m]
      let s ← s.set [e, q, m, 0, 0, 0] (j10 * d0 + j11 * d1)
      let s ← s.set [e, q, m, 0, 2, 2] (j10 * d0 + j11 * d1)
      let s ← s.set [e, q, m, 1, 1, 0] (1 / Rf N X e q * n)
      let s ← s.set [e, q, m, 2, 0, 0] (j00 * d0 + j01 * d1)
      s.set [e, q, m, 2, 2, 2] (j00 * d0 + j01 * d1)) a) (St N D X (e, q)) := by
    refine isSets_loop _ _ _ fun m hm => ?_
    rw [mem_it1] at hm
    rw [ht'.get (by omega) (by omega), ht'.get (by omega) (by omega), ht'.get (by omega) (by omega),
      ht'.get (by omega) (by omega), hd.get hq hm (by omega), hd.get hq hm (by omega), hN.get hq hm]
    simp only [Res.ok_bind]
    have hG : ∀ i, Gf D X e q m i = inv2f (Jf D X e q) i 0 * D q m 0 + inv2f (Jf D X e q) i 1 * D q m 1 := by
      intro i; simp only [Gf, Finset.sum_range_succ, Finset.sum_range_zero, zero_add]
    rw [← hG, ← hG]
    iterate 3 refine isSets_seq (isSets_one _ _ _ _ fun _ _ => rfl) ?_ (fun _ _ => rfl)
    exact isSets_seq (isSets_one _ _ _ _ fun _ _ => rfl) (isSets_one _ _ _ _ fun _ _ => rfl)
      fun s _ => rfl
  have Ha := H a rfl
  beta_reduce at Ha
  change (Res.bind (forEach (it1 4) _ a) _) = _
  rw [show ∑ m ∈ range 4, N q m * X e m 1 = Rf N X e q from rfl]
  rw [Ha, hw.get hq]
  congr 1
  funext a'
  simp only [sets, forEach_cons, forEach_nil]
  change (b.set [e, q] (Vf pi W N D X e q)).bind _ = _
  cases b.set [e, q] (Vf pi W N D X e q) <;> rfl

theorem bI_inb {ne nip e q m a : Nat} (he : e < ne) (hq : q < nip) (hm : m < 4) (ha : a < 5) :
    inb [ne, nip, 4, 3, 3, 3] ([e, q, m] ++ bI a) = true := by
  interval_cases a <;> simp [bI, he, hq, hm]

/-- value by position -/
def bPos (b : Nat → Nat → Nat → Nat → α) (p : List Nat) : α :=
  b (if p.drop 3 = bI 0 then 0 else if p.drop 3 = bI 1 then 1 else if p.drop 3 = bI 2 then 2
    else if p.drop 3 = bI 3 then 3 else 4) (p.getD 0 0) (p.getD 1 0) (p.getD 2 0)

theorem bPos_eq (b : Nat → Nat → Nat → Nat → α) {a : Nat} (ha : a < 5) (e q m : Nat) :
    bPos b ([e, q, m] ++ bI a) = b a e q m := by
  interval_cases a <;> simp [bPos, bI]

theorem mem_St {N : Nat → Nat → α} {D X} {p : Nat × Nat} {st : List Nat × α} :
    st ∈ St N D X p ↔ ∃ m a, m < 4 ∧ a < 5 ∧ st = ([p.1, p.2, m] ++ bI a, bX N D X a p.1 p.2 m) := by
  simp only [St, List.mem_flatMap, mem_it1, List.mem_append, List.mem_singleton]
  constructor
  · rintro ⟨m, hm, h | h | h | h | h⟩
    · exact ⟨m, 0, hm, by omega, h⟩
    · exact ⟨m, 3, hm, by omega, h⟩
    · exact ⟨m, 1, hm, by omega, h⟩
    · exact ⟨m, 4, hm, by omega, h⟩
    · exact ⟨m, 2, hm, by omega, h⟩
  · rintro ⟨m, a, hm, ha, h⟩
    refine ⟨m, hm, ?_⟩
    interval_cases a
    · exact Or.inl h
    · exact Or.inr (Or.inr (Or.inl h))
    · exact Or.inr (Or.inr (Or.inr (Or.inr h)))
    · exact Or.inr (Or.inl h)
    · exact Or.inr (Or.inr (Or.inr (Or.inl h)))

theorem compute_dN_ok {A : QuadratureAxi α} {ne nip : Nat} {N D X W} (hne : A.nelem = ne) (hnip : A.nip = nip)
    (hN : Is2 A.N nip 4 N) (hd : Is3 A.dNxi nip 4 2 D) (hx : Is3 A.x ne 4 2 X) (hw : Is1 A.w nip W) (pi : α)
    (hs : A.B.shape = [ne, nip, 4, 3, 3, 3]) (hv : A.vol.shape = [ne, nip]) (σ : Sched) :
    ∃ g v, Axi.compute_dN_impl pi A σ = .ok { A with B := g, vol := v } ∧
      g.shape = [ne, nip, 4, 3, 3, 3] ∧
      (∀ a e q m, a < 5 → e < ne → q < nip → m < 4 → g.get ([e, q, m] ++ bI a) = .ok (bX N D X a e q m)) ∧
      Is2 v ne nip (Vf pi W N D X) := by
  set L := (σ.run (it1 ne)).flatMap fun e => (it1 nip).map fun q => (e, q) with hL
  obtain ⟨g, hg1, hg2, hg3, -⟩ := (isSets_loop (sh := [ne, nip, 4, 3, 3, 3]) L
    (fun a p => sets (St N D X p) a) (St N D X) (fun p _ s _ => rfl)).spec
    (bPos (bX N D X)) (by
      simp only [List.mem_flatMap]
      rintro st ⟨p, hp, hst⟩
      have := mem_pairs.1 hp
      obtain ⟨m, a, hm, ha, rfl⟩ := mem_St.1 hst
      exact ⟨bI_inb this.1 this.2 hm ha, (bPos_eq (bX N D X) ha p.1 p.2 m).symm⟩) (Ten.full A.B.shape 0) hs
  obtain ⟨v, hv1, hv2, hv3, -⟩ := (isSets_loop (sh := [ne, nip]) L
    (fun a p => sets [([p.1, p.2], Vf pi W N D X p.1 p.2)] a) _ (fun p _ s _ => rfl)).spec
    (fun p => Vf pi W N D X (p.getD 0 0) (p.getD 1 0)) (by
      simp only [List.mem_flatMap, List.mem_singleton]
      rintro st ⟨p, hp, rfl⟩
      have := mem_pairs.1 hp
      exact ⟨by simp [this.1, this.2], rfl⟩) A.vol hv
  refine ⟨g, v, ?_, hg2, fun a e q m ha he hq hm => ?_, hv2, fun e q he hq => ?_⟩
  · have hn := forEach_nest (σ.run (it1 ne)) (it1 nip)
      (fun s p => Axi.compute_dN_point pi A.toQuadrature s p.1 p.2) (Ten.full A.B.shape 0, A.vol)
    have hp := forEach_pair L (fun s p => Axi.compute_dN_point pi A.toQuadrature s p.1 p.2)
      (fun a p => sets (St N D X p) a)
      (fun a p => sets [([p.1, p.2], Vf pi W N D X p.1 p.2)] a) (Ten.full A.B.shape 0) A.vol g v
      (fun p hp a b => point_ok hN hd hx hw pi (mem_pairs.1 hp).1 (mem_pairs.1 hp).2 a b) hg1 hv1
    rw [Axi.compute_dN_impl, hne, hnip]
    rw [show forEach (σ.run (it1 ne)) (fun s e => forEach (it1 nip)
      (fun s q => Axi.compute_dN_point pi A.toQuadrature s e q) s) (Ten.full A.B.shape 0, A.vol) = .ok (g, v)
      from hn.trans hp]
    rfl
  · have hin := bI_inb he hq hm ha
    have h := hg3 ([e, q, m] ++ bI a) (covered (i := (e, q)) (mem_pairs.2 ⟨he, hq⟩)
      (List.mem_map.2 ⟨_, mem_St.2 ⟨m, a, hm, ha, rfl⟩, rfl⟩))
    rw [Ten.get, hg2, if_pos hin, h, bPos_eq _ ha]
  · rw [hv3 [e, q]]
    · rfl
    · exact covered (i := (e, q)) (mem_pairs.2 ⟨he, hq⟩) (by simp)

theorem new_ok [CharZero α] {x xi w : Ten α} {ne nip : Nat} {X Ξ W} (hx : Is3 x ne 4 2 X)
    (hxi : Is2 xi nip 2 Ξ) (hw : Is1 w nip W) (pi : α) (σ : Sched) :
    ∃ A, Axi.new pi σ x xi w = .ok A ∧
      AHolds A ne nip (fun q m => N4 m (Ξ q 0) (Ξ q 1)) (bX (fun q m => N4 m (Ξ q 0) (Ξ q 1)) (D4 Ξ) X)
        (Vf pi W (fun q m => N4 m (Ξ q 0) (Ξ q 1)) (D4 Ξ) X) ∧ Is3 A.dNxi nip 4 2 (D4 Ξ) ∧
      A.x = x ∧ A.w = w := by
  obtain ⟨N, hN, hN'⟩ := shapeN_ok hxi
  obtain ⟨D, hD, hD'⟩ := shapeDN_ok hxi
  obtain ⟨g, v, h1, h2, h3, h4⟩ := compute_dN_ok (A := ⟨⟨4, 2, 3, ne, nip, x, w, xi, N, D,
    Ten.empty [], Ten.empty [ne, nip]⟩, Ten.empty [ne, nip, 4, 3, 3, 3]⟩) rfl rfl hN' hD' hx hw pi rfl rfl σ
  refine ⟨⟨⟨4, 2, 3, ne, nip, x, w, xi, N, D, Ten.empty [], v⟩, g⟩, ?_, ⟨rfl, rfl, rfl, rfl, rfl, hN', h2, h3, h4⟩,
    hD', rfl, rfl⟩
  rw [Axi.new, hw.1, hx.1]
  dsimp only
  rw [hN, Res.ok_bind, hD, Res.ok_bind, h1]

end field

/-! ### operators -/

section weak
variable [AddCommMonoid α] [Mul α] [One α] [Sub α] [Div α] [Neg α] [NatCast α]

variable {A : QuadratureAxi α} {ne nip : Nat} {N : Nat → Nat → α} {b : Nat → Nat → Nat → Nat → α} {V : Nat → Nat → α}

/-- gradient component `a` -/
def ga (b : Nat → Nat → Nat → Nat → α) (U : Nat → Nat → Nat → α) (e q a : Nat) : α :=
  ∑ m ∈ range 4, b a e q m * U e m (dof a)

/-- the 3 x 3 gradient, `(i, j)`: derivative in direction `i` of component `j`; order (r, θ, z) -/
def gA (b : Nat → Nat → Nat → Nat → α) (U : Nat → Nat → Nat → α) (e q i j : Nat) : α :=
  ∑ a ∈ range 5, if ci a = i ∧ cj a = j then ga b U e q a else 0

theorem gA_of (b : Nat → Nat → Nat → Nat → α) (U : Nat → Nat → Nat → α) (e q : Nat) {a : Nat} (ha : a < 5) :
    gA b U e q (ci a) (cj a) = ga b U e q a := by
  interval_cases a <;> simp [gA, sum_range_succ, ci, cj]

theorem grad_cell (h : AHolds A ne nip N b V) {u : Ten α} {U} (hu : Is3 u ne 4 2 U) {e q : Nat} (he : e < ne)
    (hq : q < nip) {a : Nat} (ha : a < 5) :
    dot4 (fun m => A.B.get ([e, q, m] ++ bI a)) (fun m => u.get [e, m, dof a]) = .ok (ga b U e q a) :=
  dot4_ok (fun m hm => h.B_is a e q m ha he hq hm) (fun m hm => hu.get he hm (by
    interval_cases a <;> simp [dof]))

/-- symmetric part as stored: the components of the pattern, zero elsewhere -/
def symA (g : Nat → Nat → α) (i j : Nat) : α :=
  if i = j then g i j else if i + j = 2 then 1 / 2 * (g i j + g j i) else 0

theorem gA_off (b : Nat → Nat → Nat → Nat → α) (U : Nat → Nat → Nat → α) (e q : Nat) {i j : Nat}
    (h : ∀ a, a < 5 → ¬ (ci a = i ∧ cj a = j)) : gA b U e q i j = 0 :=
  sum_eq_zero fun a ha => if_neg (h a (mem_range.1 ha))

/-- the programs for the gradients, in any arithmetic -/
theorem grads_raw (h : AHolds A ne nip N b V) (σ : Sched) {u : Ten α} {U} (hu : Is3 u ne 4 2 U) :
    IsOk (GradN_vector A σ u) (fun t => Is4 t ne nip 3 3 fun e q i j => gA b U e q i j) ∧
    IsOk (GradN_vector_T A σ u) (fun t => Is4 t ne nip 3 3 fun e q i j => gA b U e q j i) ∧
    IsOk (SymGradN_vector A σ u) (fun t => Is4 t ne nip 3 3 fun e q i j => symA (gA b U e q) i j) := by
  have hs : (Ten.full (A.shape_qtensor 2) (0 : α)).shape = [ne, nip, 3, 3] := by
    simp [Ten.full, Quadrature.shape_qtensor, h.ne_eq, h.nip_eq, h.td_eq]
  have hin : ∀ e q i j, e < ne → q < nip → i < 3 → j < 3 →
      inb [ne, nip, 3, 3] [e, q, i, j] = true := by
    intro e q i j he hq hi hj
    simp [he, hq, hi, hj]
  refine ⟨?_, ?_, ?_⟩
  · obtain ⟨t', h1, h2, h3, h4⟩ := pointLoop_ok h.ne_eq h.nip_eq σ (gradN_point A u) [ne, nip, 3, 3]
      (fun p => [([p.1, p.2, 0, 0], ga b U p.1 p.2 0)] ++ ([([p.1, p.2, 1, 1], ga b U p.1 p.2 1)] ++
        ([([p.1, p.2, 2, 2], ga b U p.1 p.2 2)] ++ ([([p.1, p.2, 0, 2], ga b U p.1 p.2 3)] ++
          [([p.1, p.2, 2, 0], ga b U p.1 p.2 4)]))))
      (fun p => gA b U (p.getD 0 0) (p.getD 1 0) (p.getD 2 0) (p.getD 3 0))
      (fun e q he hq => by
        unfold gradN_point
        have hc := fun a ha => grad_cell h hu he hq (a := a) ha
        have h0 := hc 0 (by omega); have h1 := hc 1 (by omega); have h2 := hc 2 (by omega)
        have h3 := hc 3 (by omega); have h4 := hc 4 (by omega)
        simp only [bI, dof, List.getD_cons_zero, List.getD_cons_succ, List.cons_append, List.nil_append] at h0 h1 h2 h3 h4
        rw [h0, h1, h2, h3, h4]
        simp only [Res.ok_bind]
        iterate 4 refine isSets_seq (isSets_one _ _ _ _ fun _ _ => rfl) ?_ (fun _ _ => rfl)
        exact isSets_one _ _ _ _ fun _ _ => rfl) (by
        intro e q he hq st hst
        simp only [List.mem_append, List.mem_singleton] at hst
        rcases hst with rfl | rfl | rfl | rfl | rfl <;>
        refine ⟨hin _ _ _ _ he hq (by omega) (by omega), ?_⟩
        · exact (gA_of b U e q (a := 0) (by omega)).symm
        · exact (gA_of b U e q (a := 1) (by omega)).symm
        · exact (gA_of b U e q (a := 2) (by omega)).symm
        · exact (gA_of b U e q (a := 3) (by omega)).symm
        · exact (gA_of b U e q (a := 4) (by omega)).symm) _ hs
    refine ⟨t', h1, h2, fun e q i j he hq hi hj => ?_⟩
    by_cases hij : (i = 0 ∧ j = 0) ∨ (i = 1 ∧ j = 1) ∨ (i = 2 ∧ j = 2) ∨ (i = 0 ∧ j = 2) ∨ (i = 2 ∧ j = 0)
    · rw [h3 e q [e, q, i, j] he hq (by
        rcases hij with ⟨rfl, rfl⟩ | ⟨rfl, rfl⟩ | ⟨rfl, rfl⟩ | ⟨rfl, rfl⟩ | ⟨rfl, rfl⟩ <;> simp)]
      rfl
    · rw [h4 _ (by
        intro e' q' _ _ hm
        simp at hm
        omega)]
      beta_reduce
      rw [gA_off]
      · rfl
      · intro a ha
        interval_cases a <;> simp [ci, cj] <;> omega
  · obtain ⟨t', h1, h2, h3, h4⟩ := pointLoop_ok h.ne_eq h.nip_eq σ (gradN_T_point A u) [ne, nip, 3, 3]
      (fun p => [([p.1, p.2, 0, 0], ga b U p.1 p.2 0)] ++ ([([p.1, p.2, 1, 1], ga b U p.1 p.2 1)] ++
        ([([p.1, p.2, 2, 2], ga b U p.1 p.2 2)] ++ ([([p.1, p.2, 2, 0], ga b U p.1 p.2 3)] ++
          [([p.1, p.2, 0, 2], ga b U p.1 p.2 4)]))))
      (fun p => gA b U (p.getD 0 0) (p.getD 1 0) (p.getD 3 0) (p.getD 2 0))
      (fun e q he hq => by
        unfold gradN_T_point
        have hc := fun a ha => grad_cell h hu he hq (a := a) ha
        have h0 := hc 0 (by omega); have h1 := hc 1 (by omega); have h2 := hc 2 (by omega)
        have h3 := hc 3 (by omega); have h4 := hc 4 (by omega)
        simp only [bI, dof, List.getD_cons_zero, List.getD_cons_succ, List.cons_append, List.nil_append] at h0 h1 h2 h3 h4
        rw [h0, h1, h2, h3, h4]
        simp only [Res.ok_bind]
        iterate 4 refine isSets_seq (isSets_one _ _ _ _ fun _ _ => rfl) ?_ (fun _ _ => rfl)
        exact isSets_one _ _ _ _ fun _ _ => rfl) (by
        intro e q he hq st hst
        simp only [List.mem_append, List.mem_singleton] at hst
        rcases hst with rfl | rfl | rfl | rfl | rfl <;>
        refine ⟨hin _ _ _ _ he hq (by omega) (by omega), ?_⟩
        · exact (gA_of b U e q (a := 0) (by omega)).symm
        · exact (gA_of b U e q (a := 1) (by omega)).symm
        · exact (gA_of b U e q (a := 2) (by omega)).symm
        · exact (gA_of b U e q (a := 3) (by omega)).symm
        · exact (gA_of b U e q (a := 4) (by omega)).symm) _ hs
    refine ⟨t', h1, h2, fun e q i j he hq hi hj => ?_⟩
    by_cases hij : (i = 0 ∧ j = 0) ∨ (i = 1 ∧ j = 1) ∨ (i = 2 ∧ j = 2) ∨ (i = 0 ∧ j = 2) ∨ (i = 2 ∧ j = 0)
    · rw [h3 e q [e, q, i, j] he hq (by
        rcases hij with ⟨rfl, rfl⟩ | ⟨rfl, rfl⟩ | ⟨rfl, rfl⟩ | ⟨rfl, rfl⟩ | ⟨rfl, rfl⟩ <;> simp)]
      rfl
    · rw [h4 _ (by
        intro e' q' _ _ hm
        simp at hm
        omega)]
      beta_reduce
      rw [gA_off]
      · rfl
      · intro a ha
        interval_cases a <;> simp [ci, cj] <;> omega
  · obtain ⟨t', h1, h2, h3, h4⟩ := pointLoop_ok h.ne_eq h.nip_eq σ (symGradN_point A u) [ne, nip, 3, 3]
      (fun p => [([p.1, p.2, 0, 0], ga b U p.1 p.2 0)] ++ ([([p.1, p.2, 1, 1], ga b U p.1 p.2 1)] ++
        ([([p.1, p.2, 2, 2], ga b U p.1 p.2 2)] ++
          ([([p.1, p.2, 2, 0], 1 / 2 * (ga b U p.1 p.2 3 + ga b U p.1 p.2 4))] ++
          [([p.1, p.2, 0, 2], 1 / 2 * (ga b U p.1 p.2 3 + ga b U p.1 p.2 4))]))))
      (fun p => symA (gA b U (p.getD 0 0) (p.getD 1 0)) (p.getD 2 0) (p.getD 3 0))
      (fun e q he hq => by
        unfold symGradN_point
        have hc := fun a ha => grad_cell h hu he hq (a := a) ha
        have h0 := hc 0 (by omega); have h1 := hc 1 (by omega); have h2 := hc 2 (by omega)
        have h3 := hc 3 (by omega); have h4 := hc 4 (by omega)
        simp only [bI, dof, List.getD_cons_zero, List.getD_cons_succ, List.cons_append, List.nil_append] at h0 h1 h2 h3 h4
        rw [h0, h1, h2, h3, h4]
        simp only [Res.ok_bind]
        iterate 3 refine isSets_seq (isSets_one _ _ _ _ fun _ _ => rfl) ?_ (fun _ _ => rfl)
        refine isSets_seq (isSets_one _ _ _ _ fun _ _ => rfl) (isSets_one _ _ _ _ fun _ _ => rfl) fun s hs => ?_
        exact set_get_set (by simp [he, hq]) _ s hs) (by
        intro e q he hq st hst
        have g0 := gA_of b U e q (a := 0) (by omega)
        have g1 := gA_of b U e q (a := 1) (by omega)
        have g2 := gA_of b U e q (a := 2) (by omega)
        have g3 := gA_of b U e q (a := 3) (by omega)
        have g4 := gA_of b U e q (a := 4) (by omega)
        simp only [ci, cj, List.getD_cons_zero, List.getD_cons_succ] at g0 g1 g2 g3 g4
        simp only [List.mem_append, List.mem_singleton] at hst
        rcases hst with rfl | rfl | rfl | rfl | rfl <;>
        refine ⟨hin _ _ _ _ he hq (by omega) (by omega), ?_⟩ <;>
        simp only [List.getD_cons_zero, List.getD_cons_succ, symA]
        · rw [if_pos trivial, g0]
        · rw [if_pos trivial, g1]
        · rw [if_pos trivial, g2]
        · rw [if_neg (by omega), if_pos trivial, g3, g4, add_comm]
        · rw [if_neg (by omega), if_pos trivial, g3, g4]) _ hs
    refine ⟨t', h1, h2, fun e q i j he hq hi hj => ?_⟩
    by_cases hij : (i = 0 ∧ j = 0) ∨ (i = 1 ∧ j = 1) ∨ (i = 2 ∧ j = 2) ∨ (i = 0 ∧ j = 2) ∨ (i = 2 ∧ j = 0)
    · rw [h3 e q [e, q, i, j] he hq (by
        rcases hij with ⟨rfl, rfl⟩ | ⟨rfl, rfl⟩ | ⟨rfl, rfl⟩ | ⟨rfl, rfl⟩ | ⟨rfl, rfl⟩ <;> simp)]
      rfl
    · rw [h4 _ (by
        intro e' q' _ _ hm
        simp at hm
        omega)]
      beta_reduce
      rw [symA, if_neg (by omega), if_neg (by omega)]
      rfl

/-- the program for the nodal force, in any arithmetic -/
theorem force_raw (h : AHolds A ne nip N b V) (σ : Sched) {c : Ten α} {S} (hc : Is4 c ne nip 3 3 S) :
    IsOk (Int_gradN_dot_tensor2_dV A σ c) fun t => Is3 t ne 4 2 fun e m j => ∑ q ∈ range nip,
      if j = 0 then V e q * (b 2 e q m * S e q 2 2 + b 3 e q m * S e q 0 2)
      else V e q * (b 0 e q m * S e q 0 0 + b 1 e q m * S e q 1 1 + b 4 e q m * S e q 2 0) := by
  have H : IsAdds [ne, 4, 2] (fun t : Ten α => forEach (σ.run (it1 A.nelem)) (fun t e =>
    forEach (it1 A.nip) (fun t q =>
      forEach (it1 4) (fun t m => do
        let v ← A.vol.get [e, q]
        let b222 ← A.B.get [e, q, m, 2, 2, 2]
        let s22 ← c.get [e, q, 2, 2]
        let b022 ← A.B.get [e, q, m, 0, 2, 2]
        let s02 ← c.get [e, q, 0, 2]
        let t ← t.addAt [e, m, 0] (v * (b222 * s22 + b022 * s02))
        let b000 ← A.B.get [e, q, m, 0, 0, 0]
        let s00 ← c.get [e, q, 0, 0]
        let b110 ← A.B.get [e, q, m, 1, 1, 0]
        let s11 ← c.get [e, q, 1, 1]
        let b200 ← A.B.get [e, q, m, 2, 0, 0]
        let s20 ← c.get [e, q, 2, 0]
        t.addAt [e, m, 1] (v * (b000 * s00 + b110 * s11 + b200 * s20))) t) t) t)
      ((σ.run (it1 ne)).flatMap fun e => (it1 nip).flatMap fun q => (it1 4).flatMap fun m =>
          [([e, m, 0], V e q * (b 2 e q m * S e q 2 2 + b 3 e q m * S e q 0 2))] ++
          [([e, m, 1], V e q * (b 0 e q m * S e q 0 0 + b 1 e q m * S e q 1 1 + b 4 e q m * S e q 2 0))]) := by
    rw [h.ne_eq, h.nip_eq]
    refine isAdds_loop _ _ _ fun e he => isAdds_loop _ _ _ fun q hq => isAdds_loop _ _ _ fun m hm => ?_
    rw [mem_run] at he
    rw [mem_it1] at hq hm
    have hB := fun a ha => h.B_is a e q m ha he hq hm
    have h0 := hB 0 (by omega); have h1 := hB 1 (by omega); have h2 := hB 2 (by omega)
    have h3 := hB 3 (by omega); have h4 := hB 4 (by omega)
    simp only [bI, List.getD_cons_zero, List.getD_cons_succ, List.cons_append, List.nil_append] at h0 h1 h2 h3 h4
    rw [h.V_is.get he hq, h0, h1, h2, h3, h4,
      hc.get he hq (by omega) (by omega), hc.get he hq (by omega) (by omega), hc.get he hq (by omega) (by omega),
      hc.get he hq (by omega) (by omega), hc.get he hq (by omega) (by omega)]
    simp only [Res.ok_bind]
    exact isAdds_seq (isAdds_one _ _ _ _ fun _ _ => rfl) (isAdds_one _ _ _ _ fun _ _ => rfl) fun _ _ => rfl
  obtain ⟨t, h1, h2, h3⟩ := H.spec (by
    simp only [List.mem_flatMap, mem_run, mem_it1, List.mem_append, List.mem_singleton]
    rintro st ⟨e, he, q, hq, m, hm, rfl | rfl⟩ <;> simp [he, hm])
  refine ⟨t, by
    rw [← h1, Int_gradN_dot_tensor2_dV, int_gradN_dot_tensor2_dV_impl]
    simp only [Ten.empty, Quadrature.shape_elemvec, h.ne_eq, h.nne_eq, h.nd_eq], h2, fun e m j he hm hj => ?_⟩
  rw [h3 _ (by simp [he, hm, hj])]
  congr 1
  beta_reduce
  rw [sum_map_flatMap, sum_sched, sum_pick he _ (by
    intro e' he'
    simp only [sum_map_flatMap, List.map_cons, List.map_nil, List.map_append, List.sum_append,
      List.sum_singleton]
    simp [he'])]
  rw [sum_map_flatMap, sum_it1]
  refine sum_congr rfl fun q _ => ?_
  simp only [sum_map_flatMap, sum_it1, List.map_cons, List.map_nil, List.map_append, List.sum_append,
    List.sum_singleton]
  rw [sum_pick hm _ (by intro i' hi'; simp [hi'])]
  have : j = 0 ∨ j = 1 := by omega
  rcases this with rfl | rfl <;> simp

/-- one of the 25 contributions -/
theorem kTerm_isAdds (h : AHolds A ne nip N b V) {c : Ten α} {C} (hc : Is6 c ne nip 3 3 3 3 C) {e q m n : Nat}
    (he : e < ne) (hq : q < nip) (hm : m < 4) (hn : n < 4) (v : α) (sh : List Nat) {r s : Nat} {bb cc dd : List Nat}
    (a a' : Nat) (ha : a < 5) (ha' : a' < 5) (hr : r = dof a) (hs : s = dof a') (hb : bb = bI a) (hd : dd = bI a')
    (hcc : cc = [ci a, cj a, cj a', ci a']) :
    IsAdds sh (fun t => kTerm A.B c e q m n v t r s bb cc dd)
      [([e, m * 2 + dof a, n * 2 + dof a'],
        b a e q m * C e q (ci a) (cj a) (cj a') (ci a') * b a' e q n * v)] := by
  subst hr hs hb hd hcc
  refine isAdds_one _ _ _ _ fun t _ => ?_
  have hci : ∀ a, a < 5 → ci a < 3 ∧ cj a < 3 := by
    intro a ha; interval_cases a <;> simp [ci, cj]
  rw [kTerm, h.B_is a e q m ha he hq hm, h.B_is a' e q n ha' he hq hn, List.cons_append, List.cons_append,
    List.nil_append, hc.get he hq (hci a ha).1 (hci a ha).2 (hci a' ha').2 (hci a' ha').1]
  rfl

theorem dof_lt {a : Nat} (ha : a < 5) : dof a < 2 := by
  interval_cases a <;> simp [dof]

/-- stiffness -/
theorem stiff_ok (h : AHolds A ne nip N b V) (σ : Sched) {c : Ten α} {C} (hc : Is6 c ne nip 3 3 3 3 C) :
    IsOk (Int_gradN_dot_tensor4_dot_gradNT_dV A σ c) fun t => t.shape = [ne, 8, 8] ∧
      ∀ e m n j k, e < ne → m < 4 → n < 4 → j < 2 → k < 2 → t.v [e, m * 2 + j, n * 2 + k] =
        some (∑ q ∈ range nip, ∑ a ∈ range 5, ∑ a' ∈ range 5, if dof a = j ∧ dof a' = k then
          b a e q m * C e q (ci a) (cj a) (cj a') (ci a') * b a' e q n * V e q else 0) := by
  have H : IsAdds [ne, 8, 8] (fun t : Ten α => int_gradN_dot_tensor4_dot_gradNT_dV_impl.loop A σ c t)
      ((σ.run (it1 ne)).flatMap fun e => (it1 nip).flatMap fun q => (it2 4 4).flatMap fun mn =>
        (it2 5 5).flatMap fun a => [([e, mn.1 * 2 + dof a.1, mn.2 * 2 + dof a.2],
          b a.1 e q mn.1 * C e q (ci a.1) (cj a.1) (cj a.2) (ci a.2) * b a.2 e q mn.2 * V e q)]) := by
    unfold int_gradN_dot_tensor4_dot_gradNT_dV_impl.loop
    rw [h.ne_eq, h.nip_eq]
    refine isAdds_loop _ _ _ fun e he => isAdds_loop _ _ _ fun q hq => isAdds_loop _ _ _ fun mn hmn => ?_
    rw [mem_run] at he
    rw [mem_it1] at hq
    rw [mem_it2] at hmn
    rw [h.V_is.get he hq]
    simp only [Res.ok_bind]
    have K := fun a a' ha ha' => kTerm_isAdds h hc (e := e) (q := q) (m := mn.1) (n := mn.2) he hq hmn.1 hmn.2 (V e q)
      [ne, 8, 8] a a' ha ha' rfl rfl rfl rfl rfl
    have hl : (it2 5 5) = [(0,0),(0,1),(0,2),(0,3),(0,4),(1,0),(1,1),(1,2),(1,3),(1,4),(2,0),(2,1),(2,2),(2,3),(2,4),
      (3,0),(3,1),(3,2),(3,3),(3,4),(4,0),(4,1),(4,2),(4,3),(4,4)] := by decide
    rw [hl]
    simp only [List.flatMap_cons, List.flatMap_nil, List.append_nil]
    refine isAdds_seq (K 0 0 (by omega) (by omega)) ?_ (fun _ _ => rfl)
    refine isAdds_seq (K 0 1 (by omega) (by omega)) ?_ (fun _ _ => rfl)
    refine isAdds_seq (K 0 2 (by omega) (by omega)) ?_ (fun _ _ => rfl)
    refine isAdds_seq (K 0 3 (by omega) (by omega)) ?_ (fun _ _ => rfl)
    refine isAdds_seq (K 0 4 (by omega) (by omega)) ?_ (fun _ _ => rfl)
    refine isAdds_seq (K 1 0 (by omega) (by omega)) ?_ (fun _ _ => rfl)
    refine isAdds_seq (K 1 1 (by omega) (by omega)) ?_ (fun _ _ => rfl)
    refine isAdds_seq (K 1 2 (by omega) (by omega)) ?_ (fun _ _ => rfl)
    refine isAdds_seq (K 1 3 (by omega) (by omega)) ?_ (fun _ _ => rfl)
    refine isAdds_seq (K 1 4 (by omega) (by omega)) ?_ (fun _ _ => rfl)
    refine isAdds_seq (K 2 0 (by omega) (by omega)) ?_ (fun _ _ => rfl)
    refine isAdds_seq (K 2 1 (by omega) (by omega)) ?_ (fun _ _ => rfl)
    refine isAdds_seq (K 2 2 (by omega) (by omega)) ?_ (fun _ _ => rfl)
    refine isAdds_seq (K 2 3 (by omega) (by omega)) ?_ (fun _ _ => rfl)
    refine isAdds_seq (K 2 4 (by omega) (by omega)) ?_ (fun _ _ => rfl)
    refine isAdds_seq (K 3 0 (by omega) (by omega)) ?_ (fun _ _ => rfl)
    refine isAdds_seq (K 3 1 (by omega) (by omega)) ?_ (fun _ _ => rfl)
    refine isAdds_seq (K 3 2 (by omega) (by omega)) ?_ (fun _ _ => rfl)
    refine isAdds_seq (K 3 3 (by omega) (by omega)) ?_ (fun _ _ => rfl)
    refine isAdds_seq (K 3 4 (by omega) (by omega)) ?_ (fun _ _ => rfl)
    refine isAdds_seq (K 4 0 (by omega) (by omega)) ?_ (fun _ _ => rfl)
    refine isAdds_seq (K 4 1 (by omega) (by omega)) ?_ (fun _ _ => rfl)
    refine isAdds_seq (K 4 2 (by omega) (by omega)) ?_ (fun _ _ => rfl)
    refine isAdds_seq (K 4 3 (by omega) (by omega)) ?_ (fun _ _ => rfl)
    exact K 4 4 (by omega) (by omega)
  obtain ⟨t, h1, h2, h3⟩ := H.spec (by
    simp only [List.mem_flatMap, mem_run, mem_it1, List.mem_singleton]
    rintro st ⟨e, he, q, hq, ⟨m, n⟩, hm, ⟨a, a'⟩, ha, rfl⟩
    rw [mem_it2] at hm ha
    have d1 := dof_lt ha.1
    have d2 := dof_lt ha.2
    dsimp only at d1 d2 ⊢
    simp only [inb_cons, inb_nil, he, decide_true, Bool.true_and, Bool.and_true, Bool.and_eq_true, decide_eq_true_eq]
    omega)
  refine ⟨t, by
    rw [← h1, Int_gradN_dot_tensor4_dot_gradNT_dV, int_gradN_dot_tensor4_dot_gradNT_dV_impl]
    simp only [Ten.empty, Quadrature.shape_elemmat, h.ne_eq, h.nne_eq, h.nd_eq], h2, fun e m n j k he hm hn hj hk => ?_⟩
  rw [h3 _ (by simp [he]; omega)]
  congr 1
  rw [sum_map_flatMap, sum_sched, sum_pick he _ (by
    intro e' he'
    simp only [sum_map_flatMap, List.map_cons, List.map_nil, List.sum_singleton]
    simp [he'])]
  rw [sum_map_flatMap, sum_it1]
  refine sum_congr rfl fun q _ => ?_
  simp only [sum_map_flatMap, sum_it2, List.map_cons, List.map_nil, List.sum_singleton, List.cons.injEq, true_and,
    and_true]
  rw [sum_pick hm _ (by
    intro m' hm'
    refine Finset.sum_eq_zero fun n' _ => Finset.sum_eq_zero fun a ha => Finset.sum_eq_zero fun a' ha' => ?_
    have := dof_lt (mem_range.1 ha)
    rw [if_neg (by omega)]), sum_pick hn _ (by
    intro n' hn'
    refine Finset.sum_eq_zero fun a ha => Finset.sum_eq_zero fun a' ha' => ?_
    have := dof_lt (mem_range.1 ha')
    rw [if_neg (by omega)])]
  refine sum_congr rfl fun a ha => sum_congr rfl fun a' ha' => ?_
  have := dof_lt (mem_range.1 ha)
  have := dof_lt (mem_range.1 ha')
  simp only [Nat.add_left_cancel_iff]

end weak

variable [Field α]

variable {A : QuadratureAxi α} {ne nip : Nat} {N : Nat → Nat → α} {b : Nat → Nat → Nat → Nat → α} {V : Nat → Nat → α}

/-- symmetric part of a 3 x 3 tensor -/
def sym3 (g : Nat → Nat → α) (i j : Nat) : α := if i = j then g i j else 1 / 2 * (g i j + g j i)

theorem grads_ok (h : AHolds A ne nip N b V) (σ : Sched) {u : Ten α} {U} (hu : Is3 u ne 4 2 U) :
    IsOk (GradN_vector A σ u) (fun t => Is4 t ne nip 3 3 fun e q i j => gA b U e q i j) ∧
    IsOk (GradN_vector_T A σ u) (fun t => Is4 t ne nip 3 3 fun e q i j => gA b U e q j i) ∧
    IsOk (SymGradN_vector A σ u) (fun t => Is4 t ne nip 3 3 fun e q i j => sym3 (gA b U e q) i j) := by
  obtain ⟨h1, h2, t, h3, h4⟩ := grads_raw h σ hu
  refine ⟨h1, h2, t, h3, h4.congr fun e q i j he hq hi hj => ?_⟩
  unfold symA sym3
  by_cases hij : i = j
  · rw [if_pos hij, if_pos hij]
  rw [if_neg hij, if_neg hij]
  split
  · rfl
  · rw [gA_off, gA_off, add_zero, mul_zero]
    · intro a ha
      interval_cases a <;> simp [ci, cj] <;> omega
    · intro a ha
      interval_cases a <;> simp [ci, cj] <;> omega

/-- nodal force: component `j` collects the gradient components driven by it -/
theorem force_ok (h : AHolds A ne nip N b V) (σ : Sched) {c : Ten α} {S} (hc : Is4 c ne nip 3 3 S) :
    IsOk (Int_gradN_dot_tensor2_dV A σ c) fun t => Is3 t ne 4 2 fun e m j => ∑ q ∈ range nip,
      (∑ a ∈ range 5, if dof a = j then b a e q m * S e q (ci a) (cj a) else 0) * V e q := by
  obtain ⟨t, h1, h2⟩ := force_raw h σ hc
  refine ⟨t, h1, h2.congr fun e m j he hm hj => sum_congr rfl fun q _ => ?_⟩
  simp only [Finset.sum_range_succ, Finset.sum_range_zero, zero_add, ci, cj, dof]
  have : j = 0 ∨ j = 1 := by omega
  rcases this with rfl | rfl <;> simp <;> ring

end GF.Element.Axi
