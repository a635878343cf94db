import Verif.Lemmas.RoundingNew
import Verif.Lemmas.RoundingSim
import Verif.Lemmas.ElementAxi

/-! The axisymmetric element, run on related inputs. -/

namespace GF.Element.Axi
open Quad4
variable {A B : Type}

section
variable [Zero A] [One A] [Add A] [Sub A] [Mul A] [Div A] [Neg A] [NatCast A]
variable [Zero B] [One B] [Add B] [Sub B] [Mul B] [Div B] [Neg B] [NatCast B]
variable {R : A → B → Prop} {P : QuadratureAxi A} {Q : QuadratureAxi B} {s s0 : Ten A} {t t0 : Ten B}

/-- quadrature objects with the same sizes and related arrays -/
structure ASim (R : A → B → Prop) (P : QuadratureAxi A) (Q : QuadratureAxi B) : Prop where
  q : QSim R P.toQuadrature Q.toQuadrature
  B : TenSim R P.B Q.B

theorem shape_qtensor_sim (h : QSim R P.toQuadrature Q.toQuadrature) (k : Nat) :
    P.shape_qtensor k = Q.shape_qtensor k := by
  simp only [Quadrature.shape_qtensor, h.nelem, h.nip, h.tdim]

theorem GradN_vector_sim (H : ArithSim R) (h : ASim R P Q) (σ : Sched) (hs : TenSim R s t) :
    Sim (TenSim R) (GradN_vector P σ s) (GradN_vector Q σ t) := by
  have h1 := h.B
  unfold GradN_vector pointLoop gradN_point
  rw [shape_qtensor_sim h.q, h.q.nelem, h.q.nip]
  refine Sim.forEach (P := TenSim _) (fun _ _ _ _ _ => Sim.forEach (P := TenSim _) (fun _ _ _ _ _ => ?_) (by assumption))
    (TenSim.full _ H.zero)
  refine Sim.bind (dot4_sim H (fun _ => h1.get _) fun _ => hs.get _) fun _ _ _ =>
    Sim.bind (TenSim.set (by assumption) _ (by assumption)) fun _ _ _ => ?_
  refine Sim.bind (dot4_sim H (fun _ => h1.get _) fun _ => hs.get _) fun _ _ _ =>
    Sim.bind (TenSim.set (by assumption) _ (by assumption)) fun _ _ _ => ?_
  refine Sim.bind (dot4_sim H (fun _ => h1.get _) fun _ => hs.get _) fun _ _ _ =>
    Sim.bind (TenSim.set (by assumption) _ (by assumption)) fun _ _ _ => ?_
  refine Sim.bind (dot4_sim H (fun _ => h1.get _) fun _ => hs.get _) fun _ _ _ =>
    Sim.bind (TenSim.set (by assumption) _ (by assumption)) fun _ _ _ => ?_
  exact Sim.bind (dot4_sim H (fun _ => h1.get _) fun _ => hs.get _) fun _ _ _ =>
    TenSim.set (by assumption) _ (by assumption)

theorem SymGradN_vector_sim (H : ArithSim R) (h : ASim R P Q) (σ : Sched) (hs : TenSim R s t) :
    Sim (TenSim R) (SymGradN_vector P σ s) (SymGradN_vector Q σ t) := by
  have h1 := h.B
  unfold SymGradN_vector pointLoop symGradN_point
  rw [shape_qtensor_sim h.q, h.q.nelem, h.q.nip]
  refine Sim.forEach (P := TenSim _) (fun _ _ _ _ _ => Sim.forEach (P := TenSim _) (fun _ _ _ _ _ => ?_) (by assumption))
    (TenSim.full _ H.zero)
  refine Sim.bind (dot4_sim H (fun _ => h1.get _) fun _ => hs.get _) fun _ _ _ =>
    Sim.bind (TenSim.set (by assumption) _ (by assumption)) fun _ _ _ => ?_
  refine Sim.bind (dot4_sim H (fun _ => h1.get _) fun _ => hs.get _) fun _ _ _ =>
    Sim.bind (TenSim.set (by assumption) _ (by assumption)) fun _ _ _ => ?_
  refine Sim.bind (dot4_sim H (fun _ => h1.get _) fun _ => hs.get _) fun _ _ _ =>
    Sim.bind (TenSim.set (by assumption) _ (by assumption)) fun _ _ _ => ?_
  refine Sim.bind (dot4_sim H (fun _ => h1.get _) fun _ => hs.get _) fun _ _ _ => ?_
  refine Sim.bind (dot4_sim H (fun _ => h1.get _) fun _ => hs.get _) fun _ _ _ => ?_
  lockstep H

theorem Int_gradN_dot_tensor2_dV_sim (H : ArithSim R) (h : ASim R P Q) (σ : Sched) (hs : TenSim R s t) :
    Sim (TenSim R) (Int_gradN_dot_tensor2_dV P σ s) (Int_gradN_dot_tensor2_dV Q σ t) := by
  have h1 := h.B
  have h2 := h.q.vol
  unfold Int_gradN_dot_tensor2_dV int_gradN_dot_tensor2_dV_impl
  rw [show P.shape_elemvec = Q.shape_elemvec by simp only [Quadrature.shape_elemvec, h.q.nelem, h.q.nne, h.q.ndim],
    h.q.nelem, h.q.nip]
  lockstep H

theorem kTerm_sim (H : ArithSim R) {a c : Ten A} {a' c' : Ten B} {x : A} {y : B} (ha : TenSim R a a') (hc : TenSim R c c')
    (hx : R x y) (e q m n : Nat) (hs : TenSim R s t) (i j : Nat) (b cc d : List Nat) :
    Sim (TenSim R) (kTerm a c e q m n x s i j b cc d) (kTerm a' c' e q m n y t i j b cc d) := by
  unfold kTerm
  lockstep H

theorem Int_gradN_dot_tensor4_dot_gradNT_dV_sim (H : ArithSim R) (h : ASim R P Q) (σ : Sched) (hs : TenSim R s t) :
    Sim (TenSim R) (Int_gradN_dot_tensor4_dot_gradNT_dV P σ s) (Int_gradN_dot_tensor4_dot_gradNT_dV Q σ t) := by
  have h1 := h.B
  have h2 := h.q.vol
  unfold Int_gradN_dot_tensor4_dot_gradNT_dV int_gradN_dot_tensor4_dot_gradNT_dV_impl
    int_gradN_dot_tensor4_dot_gradNT_dV_impl.loop
  rw [show P.shape_elemmat = Q.shape_elemmat by simp only [Quadrature.shape_elemmat, h.q.nelem, h.q.nne, h.q.ndim],
    h.q.nelem, h.q.nip]
  refine Sim.forEach (P := TenSim _) (fun _ _ _ _ _ => Sim.forEach (P := TenSim _) (fun _ _ _ _ _ =>
    Sim.forEach (P := TenSim _) (fun _ _ _ _ _ => ?_) (by assumption)) (by assumption)) (TenSim.full _ H.zero)
  refine Sim.bind (h2.get _) fun _ _ hv => ?_
  iterate 24 refine Sim.bind (kTerm_sim H h1 hs hv _ _ _ _ (by assumption) _ _ _ _ _) fun _ _ _ => ?_
  exact kTerm_sim H h1 hs hv _ _ _ _ (by assumption) _ _ _ _ _

theorem compute_dN_any {P : QuadratureAxi A} {Q : QuadratureAxi B} (h : QAny P.toQuadrature Q.toQuadrature)
    (hB : TenSim (Any A B) P.B Q.B) (c : A) (d : B) (σ : Sched) :
    Sim (fun P Q => QAny P.toQuadrature Q.toQuadrature ∧ TenSim (Any A B) P.B Q.B) (compute_dN_impl c P σ)
      (compute_dN_impl d Q σ) := by
  have h1 := h.dNxi
  have h2 := h.x
  have h3 := h.w
  have h0 := h.N
  unfold compute_dN_impl
  rw [h.nelem, h.nip, hB.1]
  refine Sim.bind (P := Both A B) ?_ fun s t hst => Sim.ok ?_
  · refine Sim.forEach (P := Both A B) (fun e _ _ _ _ => Sim.forEach (P := Both A B) (fun q _ s t hst => ?_) (by assumption))
      ⟨TenSim.full _ trivial, h.vol⟩
    unfold compute_dN_point
    obtain ⟨h4, h5⟩ := hst
    refine Sim.bind (jacobian_any h1 h2 e q) fun _ _ h6 => Sim.bind (inv2_any h6 (TenSim.empty _)) fun _ _ h7 => ?_
    have h7 : TenSim (Any A B) _ _ := h7
    refine Sim.bind (dot4_any (fun _ => h0.get _) fun _ => h2.get _) fun _ _ _ => ?_
    refine Sim.bind (P := TenSim (Any A B)) (by lockstep_any) fun _ _ h8 => ?_
    refine Sim.bind (h3.get _) fun _ _ _ => Sim.bind (h5.set _ (R := Any A B) trivial) fun _ _ h9 => Sim.ok ⟨h8, h9⟩
  · exact ⟨⟨⟨h.nne, h.ndim, h.tdim, rfl, rfl, h.N, h.dNx, hst.2⟩, h.x, h.w, h.dNxi⟩, hst.1⟩

theorem new_any {x xi w : Ten A} {x' xi' w' : Ten B} (hx : TenSim (Any A B) x x') (hxi : TenSim (Any A B) xi xi')
    (hw : TenSim (Any A B) w w') (c : A) (d : B) (σ : Sched) :
    Sim (fun P Q => QAny P.toQuadrature Q.toQuadrature ∧ TenSim (Any A B) P.B Q.B) (new c σ x xi w) (new d σ x' xi' w') := by
  unfold new
  rw [hw.1, hx.1]
  split
  · refine Sim.bind (shapeN_any _ hxi) fun _ _ h1 => Sim.bind (shapeDN_any _ hxi) fun _ _ h2 => compute_dN_any ?_ ?_ _ _ _
    · exact ⟨⟨rfl, rfl, rfl, rfl, rfl, h1, TenSim.empty _, TenSim.empty _⟩, hx, hw, h2⟩
    · exact TenSim.empty _
  · exact Sim.ub

end
end GF.Element.Axi
