import Verif.Props.ElementQuad4Mech

/-!
# Property C50 (planar part): `Element::Quad4::QuadraturePlanar`

A plane-strain class: nodes in 2-d, tensors 3 x 3, volumes multiplied by a thickness.  `Live 3 thick ..`
ranges over all histories of construction and `update_x`.
-/

namespace GF.Element.Quad4
open Finset ElemSpec

variable {α : Type} [Field α] [CharZero α]
variable {ne nip : Nat} {thick : α} {Ξ : Nat → Nat → α} {W : Nat → α} {Q : Quadrature α} {X : Nat → Nat → Nat → α}

/-- **C50** (planar, constructor and updates): construction and `update_x` never fail on arrays of the right shape. -/
theorem C50_planar_life (σ τ : Sched) {x xi w x' : Ten α} {X'} (hx : Is3 x ne 4 2 X)
    (hxi : Is2 xi nip 2 Ξ) (hw : Is1 w nip W) (hx' : Is3 x' ne 4 2 X') :
    IsOk (newPlanar σ x xi w thick) fun Q => Live 3 thick ne nip Ξ W Q X ∧
      IsOk (update_x thick τ Q x') fun Q' => Live 3 thick ne nip Ξ W Q' X' := by
  obtain ⟨Q, h1, -⟩ := construct_ok hx hxi hw 3 thick σ
  have h2 : Live 3 thick ne nip Ξ W Q X := .new hx hxi hw h1
  obtain ⟨Q', h3⟩ := update_ok h2 τ hx'
  exact ⟨Q, h1, h2, Q', h3, .update h2 hx' h3⟩

/-- **C50** (planar, volumes): the volumes are the thickness times those of the 2-d class for the same coordinates and
rule; with the Gauss rule they add up to thickness times area. -/
theorem C50_planar_volume (hQ : Live 3 thick ne nip Ξ W Q X) {Q₂ : Quadrature α} (h₂ : Live 2 1 ne nip Ξ W Q₂ X) :
    ∃ V V₂, Is2 Q.vol ne nip V ∧ Is2 Q₂.vol ne nip V₂ ∧
      ∀ e q, e < ne → q < nip → V e q = thick * V₂ e q :=
  ⟨_, _, vol_ok hQ, C46_volume h₂, fun _ _ _ _ => mul_comm _ _⟩

theorem C50_planar_area (s thick : α) (σ : Sched) {x : Ten α} (hx : Is3 x ne 4 2 X) :
    IsOk (newPlanarGauss s σ x thick) fun Q => ∃ V, Is2 Q.vol ne 4 V ∧
      ∀ e, e < ne → ∑ q ∈ range 4, V e q = thick * area4 (X e) := by
  obtain ⟨xi, h1, h2⟩ := rule_ok s
  obtain ⟨w, h3, h4⟩ := (weights_ok (α := α)).1
  obtain ⟨Q, h5, -⟩ := construct_ok hx h2 h4 3 thick σ
  refine ⟨Q, by simp only [newPlanarGauss, newPlanar, h1, h3, h5, Res.ok_bind], _, vol_ok (.new hx h2 h4 h5), fun e _ => ?_⟩
  rw [← sum_mul]
  simp only [one_mul]
  rw [det4_sum (X e) s, mul_comm]

/-- 3 x 3 tensor with the given in-plane part -/
def embed (g : Nat → Nat → α) (i j : Nat) : α := if i < 2 ∧ j < 2 then g i j else 0

theorem planar_grads (hQ : Live 3 thick ne nip Ξ W Q X) (σ : Sched) {u : Ten α} {U} (hu : Is3 u ne 4 2 U) :
    IsOk (PlanarGradN_vector Q σ u) (fun t => Is4 t ne nip 3 3 fun e q => embed (grad 4 (Gf (D4 Ξ) X) U e q)) ∧
    IsOk (PlanarGradN_vector_T Q σ u)
      (fun t => Is4 t ne nip 3 3 fun e q i j => embed (grad 4 (Gf (D4 Ξ) X) U e q) j i) ∧
    IsOk (PlanarSymGradN_vector Q σ u)
      (fun t => Is4 t ne nip 3 3 fun e q => embed (symf (grad 4 (Gf (D4 Ξ) X) U e q))) := by
  have h := (live_holds hQ).1
  obtain ⟨⟨t, h1, h2, h3, h4⟩, ⟨t', h1', h2', h3', h4'⟩, ⟨t'', h1'', h2'', h3'', h4''⟩⟩ :=
    grads_ok h (show 2 ≤ 3 by omega) σ hu (Ten.full (Ten.empty (Q.shape_qtensor 2) : Ten α).shape 0) (by
      simp [Ten.full, Ten.empty, Quadrature.shape_qtensor, h.ne_eq, h.nip_eq, h.td_eq])
  refine ⟨⟨t, h1, h2, fun e q i j he hq hi hj => ?_⟩, ⟨t', h1', h2', fun e q i j he hq hi hj => ?_⟩,
    ⟨t'', h1'', h2'', fun e q i j he hq hi hj => ?_⟩⟩
  · beta_reduce
    by_cases hij : i < 2 ∧ j < 2
    · rw [h3 e q i j he hq hij.1 hij.2, embed, if_pos hij]
    · rw [h4 e q i j hij, embed, if_neg hij]; rfl
  · beta_reduce
    by_cases hij : i < 2 ∧ j < 2
    · rw [h3' e q i j he hq hij.1 hij.2, embed, if_pos ⟨hij.2, hij.1⟩]
    · rw [h4' e q i j hij, embed, if_neg (fun h => hij ⟨h.2, h.1⟩)]; rfl
  · beta_reduce
    by_cases hij : i < 2 ∧ j < 2
    · rw [h3'' e q i j he hq hij.1 hij.2, embed, if_pos hij]
    · rw [h4'' e q i j hij, embed, if_neg hij]; rfl

/-- **C50** (planar, gradients): for affine displacements the in-plane block of the 3 x 3 gradients is exact and all
out-of-plane components are zero (plane strain), for the plain, transposed and symmetric versions. -/
theorem C50_planar_gradient (hQ : Live 3 thick ne nip Ξ W Q X)
    (hdet : ∀ e q, e < ne → q < nip → det4 (X e) (Ξ q 0) (Ξ q 1) ≠ 0)
    {u : Ten α} {U A b} (hu : Is3 u ne 4 2 U) (hA : AffineField 2 4 ne X U A b) (σ : Sched) :
    IsOk (PlanarGradN_vector Q σ u)
      (fun t => Is4 t ne nip 3 3 fun _ _ i j => if i < 2 ∧ j < 2 then A j i else 0) ∧
    IsOk (PlanarGradN_vector_T Q σ u)
      (fun t => Is4 t ne nip 3 3 fun _ _ i j => if i < 2 ∧ j < 2 then A i j else 0) ∧
    IsOk (PlanarSymGradN_vector Q σ u)
      (fun t => Is4 t ne nip 3 3 fun _ _ i j => if i < 2 ∧ j < 2 then (A i j + A j i) / 2 else 0) := by
  have hg : ∀ e q i j, e < ne → q < nip → i < 2 → j < 2 → grad 4 (Gf (D4 Ξ) X) U e q i j = A j i :=
    fun e q i j he hq hi hj => grad_affine hA he (hdet e q he hq) hi hj
  obtain ⟨⟨t, h1, h2⟩, ⟨t', h1', h2'⟩, ⟨t'', h1'', h2''⟩⟩ := planar_grads hQ σ hu
  refine ⟨⟨t, h1, h2.congr ?_⟩, ⟨t', h1', h2'.congr ?_⟩, ⟨t'', h1'', h2''.congr ?_⟩⟩
  · intro e q i j he hq _ _
    rw [embed]
    split
    · next h => rw [hg e q i j he hq h.1 h.2]
    · rfl
  · intro e q i j he hq _ _
    rw [embed]
    by_cases h : i < 2 ∧ j < 2
    · rw [if_pos ⟨h.2, h.1⟩, if_pos h, hg e q j i he hq h.2 h.1]
    · rw [if_neg (fun h' => h ⟨h'.2, h'.1⟩), if_neg h]
  · intro e q i j he hq _ _
    rw [embed]
    split
    · next h =>
      rw [symf]
      split
      · next hij => subst hij; rw [hg e q i i he hq h.1 h.1]; field_simp; ring
      · next hij =>
        rw [hg e q 0 1 he hq (by omega) (by omega), hg e q 1 0 he hq (by omega) (by omega)]
        have : (i = 0 ∧ j = 1) ∨ (i = 1 ∧ j = 0) := by omega
        rcases this with ⟨rfl, rfl⟩ | ⟨rfl, rfl⟩ <;> ring
    · rfl

theorem sum_embed (S g : Nat → Nat → α) :
    ∑ i ∈ range 3, ∑ j ∈ range 3, S i j * embed g i j = ∑ i ∈ range 2, ∑ j ∈ range 2, S i j * g i j := by
  simp [sum_range_succ, embed]

/-- **C50** (planar, internal force): for every 3 x 3 stress field the nodal forces add up to zero and do the virtual
work of the full 3 x 3 contraction with the planar gradient. -/
theorem C50_planar_force (hQ : Live 3 thick ne nip Ξ W Q X) (σ τ : Sched) {s v : Ten α} {S v'}
    (hs : Is4 s ne nip 3 3 S) (hv : Is3 v ne 4 2 v') :
    ∃ V F g, Is2 Q.vol ne nip V ∧
      IsOk (Int_gradN_dot_tensor2_dV Q σ s) (fun t => Is3 t ne 4 2 F) ∧
      IsOk (PlanarGradN_vector Q τ v) (fun t => Is4 t ne nip 3 3 g) ∧
      (∀ e j, e < ne → j < 2 → ∑ m ∈ range 4, F e m j = 0) ∧
      ∀ e, e < ne → ∑ m ∈ range 4, ∑ j ∈ range 2, F e m j * v' e m j =
        ∑ q ∈ range nip, power 3 (S e q) (g e q) * V e q := by
  refine ⟨_, _, _, (live_holds hQ).1.V_is, force_live hQ (by omega) σ hs (live_holds hQ).1.V_is,
    (planar_grads hQ τ hv).1, ?_, ?_⟩
  · intro e j _ _
    exact equilibrium (nne := 4) (nd := 2) (nip := nip) (G := Gf (D4 Ξ) X) (S := S) (e := e)
      (V := fun e q => W q * detf (Jf (D4 Ξ) X e q) * thick) (fun q i _ _ => G_sum Ξ X e q i) j
  · intro e _
    rw [virtual_work (nne := 4) (nd := 2) (nip := nip) (G := Gf (D4 Ξ) X) (S := S)
      (V := fun e q => W q * detf (Jf (D4 Ξ) X e q) * thick) (U := v') e]
    refine sum_congr rfl fun q _ => ?_
    rw [power, sum_embed]

/-- **C50** (planar, stiffness): the stiffness of a 3 x 3 x 3 x 3 tangent is the linearisation of the internal
force: applied to nodal displacements it gives the force of the stress `C : grad u`. -/
theorem C50_planar_stiffness (hQ : Live 3 thick ne nip Ξ W Q X) (σ τ ρ : Sched) {c u s : Ten α} {C U}
    (hc : Is6 c ne nip 3 3 3 3 C) (hu : Is3 u ne 4 2 U) {g S}
    (hg : IsOk (PlanarGradN_vector Q τ u) fun t => Is4 t ne nip 3 3 g)
    (hs : Is4 s ne nip 3 3 S)
    (hS : ∀ e q i j, e < ne → q < nip → i < 3 → j < 3 → S e q i j = ddot 3 (C e q) (g e q) i j) :
    ∃ K F, IsOk (Q.Int_gradN_dot_tensor4_dot_gradNT_dV σ c) (fun t => Is3 t ne 8 8 K) ∧
      IsOk (Int_gradN_dot_tensor2_dV Q ρ s) (fun t => Is3 t ne 4 2 F) ∧
      (∀ e m j, e < ne → m < 4 → j < 2 →
        ∑ n ∈ range 4, ∑ k ∈ range 2, K e (m * 2 + j) (n * 2 + k) * U e n k = F e m j) ∧
      StiffLaws 4 2 ne nip C K := by
  have hV := (live_holds hQ).1.V_is
  obtain ⟨t, h1, K, h2, h3⟩ := stiff_live hQ (by omega) σ hc hV
  refine ⟨K, _, ⟨t, h1, h2⟩, force_live hQ (by omega) ρ hs hV, ?_,
    stiffLaws h3 fun e q i _ _ _ => G_sum _ _ _ _ _⟩
  intro e m j he hm hj
  obtain ⟨tg, hg1, hg2⟩ := hg
  obtain ⟨tg', hg1', hg2'⟩ := (planar_grads hQ τ hu).1
  rw [hg1] at hg1'
  cases hg1'
  have hgg : ∀ e q i j, e < ne → q < nip → i < 3 → j < 3 →
      g e q i j = embed (grad 4 (Gf (D4 Ξ) X) U e q) i j :=
    fun e q i j he hq hi hj => hg2.unique hg2' he hq hi hj
  rw [sum_congr rfl fun n hn => sum_congr rfl fun k hk => by
    rw [h3 e m j n k he hm (mem_range.1 hn) hj (mem_range.1 hk)], ← stiff_linear]
  refine sum_congr rfl fun q hq => ?_
  rw [mem_range] at hq
  congr 1
  refine sum_congr rfl fun i hi => ?_
  rw [mem_range] at hi
  have hd : ddot 3 (C e q) (g e q) i j = ddot 3 (C e q) (embed (grad 4 (Gf (D4 Ξ) X) U e q)) i j :=
    sum_congr rfl fun k hk => sum_congr rfl fun l hl => by
      rw [hgg e q l k he hq (mem_range.1 hl) (mem_range.1 hk)]
  rw [hS e q i j he hq (by omega) (by omega), hd]
  congr 1
  simp [sum_range_succ, embed, ddot]

/-- **C50** (planar, interpolation): the generic interpolation works for every number of components. -/
theorem C50_planar_interpolation (hQ : Live 3 thick ne nip Ξ W Q X) (σ : Sched) {u : Ten α} {n : Nat} {U}
    (hu : Is3 u ne 4 n U) :
    IsOk (Q.InterpQuad_vector σ u) fun t =>
      Is3 t ne nip n fun e q j => map4 (U e) j (Ξ q 0) (Ξ q 1) := by
  have h := (live_holds hQ).1
  obtain ⟨t, h1, h2⟩ := interpQuad_generic h σ hu (Ten.empty (Q.shape_qvector_n n)) (by
    simp [Ten.empty, Quadrature.shape_qvector_n, h.ne_eq, h.nip_eq])
  exact ⟨t, by rw [Quadrature.InterpQuad_vector, hu.1]; exact h1, h2⟩

/-- a concrete planar object (thickness 3) -/
theorem exPlanar : ∃ Q, Live 3 3 2 4 exΞ (fun _ => (1 : ℚ)) Q exX := by
  obtain ⟨Q, -, h, -⟩ := C50_planar_life Sched.rev Sched.seq
    (is3_of 2 4 2 fun ix => exX (ix.getD 0 0) (ix.getD 1 0) (ix.getD 2 0))
    (is2_of 4 2 fun ix => exΞ (ix.getD 0 0) (ix.getD 1 0)) (is1_of 4 fun _ => (1 : ℚ)) (thick := 3)
    (is3_of 2 4 2 fun ix => exX (ix.getD 0 0) (ix.getD 1 0) (ix.getD 2 0))
  exact ⟨Q, h⟩

end GF.Element.Quad4
