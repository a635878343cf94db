import Verif.Lemmas.Rounding
import Verif.Lemmas.ElementQuad4
import Verif.Lemmas.ElementHex8Ops
import Verif.Model.Vector
import Verif.Model.MatrixDiagonal
import Verif.Model.ElementHex8

/-! The programs of the library, run on related inputs, give related outputs. -/

namespace GF
variable {A B : Type}

section
variable [Zero A] [One A] [Add A] [Sub A] [Mul A] [Div A] [Neg A] [NatCast A]
variable [Zero B] [One B] [Add B] [Sub B] [Mul B] [Div B] [Neg B] [NatCast B]

/-- a relation that is respected by sums and products -/
structure ArithSim (R : A → B → Prop) : Prop where
  zero : R 0 0
  add : ∀ a b a' b', R a b → R a' b' → R (a + a') (b + b')
  mul : ∀ {a b a' b'}, R a b → R a' b' → R (a * a') (b * b')
  half : R (1 / 2) (1 / 2)
end

theorem Rounds.arith {α : Type} [Field α] [LinearOrder α] [IsStrictOrderedRing α] (r : Rounding α) :
    ArithSim (Rounds r) :=
  ⟨Rounds.zero, fun _ _ _ _ h h' => h.add h', fun h h' => h.mul h', Rounds.half⟩

/-- follow the two runs of a program in lockstep -/
macro "lockstep " H:term : tactic => `(tactic| repeat' first
  | assumption
  | exact Sim.ok (by assumption)
  | exact TenSim.empty _
  | exact TenSim.full _ (ArithSim.zero $H)
  | exact ArithSim.half $H
  | apply ArithSim.mul $H
  | apply ArithSim.add $H
  | refine Sim.forEach (P := TenSim _) (fun _ _ _ _ _ => ?_) ?_
  | refine Sim.bind (TenSim.get (by assumption) _) fun _ _ _ => ?_
  | refine Sim.bind (TenSim.addAt (ArithSim.add $H) (by assumption) _ ?_) fun _ _ _ => ?_
  | refine Sim.bind (TenSim.set (by assumption) _ ?_) fun _ _ _ => ?_
  | refine TenSim.addAt (ArithSim.add $H) (by assumption) _ ?_
  | refine TenSim.set (by assumption) _ ?_
  | refine Sim.same fun _ => ?_)

section
variable [Zero A] [One A] [Add A] [Sub A] [Mul A] [Div A] [Neg A] [NatCast A]
variable [Zero B] [One B] [Add B] [Sub B] [Mul B] [Div B] [Neg B] [NatCast B]
variable {R : A → B → Prop}

namespace Vector
variable {V : Vector} {s : Ten A} {t : Ten B} {s0 : Ten A} {t0 : Ten B}

theorem assembleDofs_nodevec_sim (H : ArithSim R) (h : TenSim R s t) (h0 : s0.shape = t0.shape) :
    Sim (TenSim R) (V.assembleDofs_nodevec s s0) (V.assembleDofs_nodevec t t0) := by
  unfold Vector.assembleDofs_nodevec
  rw [h0]
  lockstep H

theorem assembleDofs_elemvec_sim (H : ArithSim R) (h : TenSim R s t) (h0 : s0.shape = t0.shape) :
    Sim (TenSim R) (V.assembleDofs_elemvec s s0) (V.assembleDofs_elemvec t t0) := by
  unfold Vector.assembleDofs_elemvec
  rw [h0]
  lockstep H

theorem asNode_dofval_sim (σ : Sched) (h : TenSim R s t) (h0 : TenSim R s0 t0) :
    Sim (TenSim R) (V.asNode_dofval σ s s0) (V.asNode_dofval σ t t0) := by
  unfold Vector.asNode_dofval
  refine Sim.forEach (P := TenSim _) (fun _ _ _ _ _ => ?_) h0
  refine Sim.same fun _ => Sim.bind (h.get _) fun _ _ _ => TenSim.set (by assumption) _ (by assumption)

theorem asElement_nodevec_sim (σ : Sched) (h : TenSim R s t) (h0 : TenSim R s0 t0) :
    Sim (TenSim R) (V.asElement_nodevec σ s s0) (V.asElement_nodevec σ t t0) := by
  unfold Vector.asElement_nodevec
  refine Sim.forEach (P := TenSim _) (fun _ _ _ _ _ => ?_) h0
  refine Sim.same fun _ => Sim.bind (h.get _) fun _ _ _ => TenSim.set (by assumption) _ (by assumption)

end Vector

namespace Element
variable {P : Quadrature A} {Q : Quadrature B} {s s0 : Ten A} {t t0 : Ten B}

/-- quadrature objects with the same sizes and related arrays -/
structure QSim (R : A → B → Prop) (P : Quadrature A) (Q : Quadrature B) : Prop where
  nne : P.nne = Q.nne
  ndim : P.ndim = Q.ndim
  tdim : P.tdim = Q.tdim
  nelem : P.nelem = Q.nelem
  nip : P.nip = Q.nip
  N : TenSim R P.N Q.N
  dNx : TenSim R P.dNx Q.dNx
  vol : TenSim R P.vol Q.vol

namespace Quadrature

theorem gradN_vector_impl_sim (H : ArithSim R) (h : QSim R P Q) (σ : Sched) (hs : TenSim R s t) (h0 : s0.shape = t0.shape) :
    Sim (TenSim R) (P.gradN_vector_impl σ s s0) (Q.gradN_vector_impl σ t t0) := by
  have h1 := h.dNx
  unfold Quadrature.gradN_vector_impl
  rw [h0, h.nelem, h.nip, h.nne, h.ndim]
  lockstep H

theorem gradN_vector_T_impl_sim (H : ArithSim R) (h : QSim R P Q) (σ : Sched) (hs : TenSim R s t) (h0 : s0.shape = t0.shape) :
    Sim (TenSim R) (P.gradN_vector_T_impl σ s s0) (Q.gradN_vector_T_impl σ t t0) := by
  have h1 := h.dNx
  unfold Quadrature.gradN_vector_T_impl
  rw [h0, h.nelem, h.nip, h.nne, h.ndim]
  lockstep H

theorem symGradN_vector_impl_sim (H : ArithSim R) (h : QSim R P Q) (σ : Sched) (hs : TenSim R s t) (h0 : s0.shape = t0.shape) :
    Sim (TenSim R) (P.symGradN_vector_impl σ s s0) (Q.symGradN_vector_impl σ t t0) := by
  have h1 := h.dNx
  unfold Quadrature.symGradN_vector_impl
  rw [h0, h.nelem, h.nip, h.nne, h.ndim]
  lockstep H

theorem int_gradN_dot_tensor4_dot_gradNT_dV_impl_sim (H : ArithSim R) (h : QSim R P Q) (σ : Sched) (hs : TenSim R s t)
    (h0 : s0.shape = t0.shape) : Sim (TenSim R) (P.int_gradN_dot_tensor4_dot_gradNT_dV_impl σ s s0)
      (Q.int_gradN_dot_tensor4_dot_gradNT_dV_impl σ t t0) := by
  have h1 := h.dNx
  have h2 := h.vol
  unfold Quadrature.int_gradN_dot_tensor4_dot_gradNT_dV_impl
  rw [h0, h.nelem, h.nip, h.nne, h.ndim]
  lockstep H

end Quadrature

namespace Quad4

theorem dot4_sim (H : ArithSim R) {a b : Nat → Res A} {a' b' : Nat → Res B} (ha : ∀ m, Sim R (a m) (a' m))
    (hb : ∀ m, Sim R (b m) (b' m)) : Sim R (dot4 a b) (dot4 a' b') := by
  unfold dot4
  refine Sim.bind (ha 0) fun _ _ h1 => Sim.bind (hb 0) fun _ _ h2 => Sim.bind (ha 1) fun _ _ h3 =>
    Sim.bind (hb 1) fun _ _ h4 => Sim.bind (ha 2) fun _ _ h5 => Sim.bind (hb 2) fun _ _ h6 =>
    Sim.bind (ha 3) fun _ _ h7 => Sim.bind (hb 3) fun _ _ h8 => Sim.ok ?_
  lockstep H

theorem gradN_vector_impl_sim (H : ArithSim R) (h : QSim R P Q) (σ : Sched) (hs : TenSim R s t) (h0 : TenSim R s0 t0) :
    Sim (TenSim R) (gradN_vector_impl P σ s s0) (gradN_vector_impl Q σ t t0) := by
  have h1 := h.dNx
  unfold gradN_vector_impl pointLoop gradN_point
  rw [h.nelem, h.nip]
  refine Sim.forEach (P := TenSim _) (fun _ _ _ _ _ => Sim.forEach (P := TenSim _) (fun _ _ _ _ _ => ?_) (by assumption)) h0
  refine Sim.bind (dot4_sim H (fun _ => h1.get _) fun _ => hs.get _) fun _ _ _ =>
    Sim.bind (TenSim.set (by assumption) _ (by assumption)) fun _ _ _ => ?_
  refine Sim.bind (dot4_sim H (fun _ => h1.get _) fun _ => hs.get _) fun _ _ _ =>
    Sim.bind (TenSim.set (by assumption) _ (by assumption)) fun _ _ _ => ?_
  refine Sim.bind (dot4_sim H (fun _ => h1.get _) fun _ => hs.get _) fun _ _ _ =>
    Sim.bind (TenSim.set (by assumption) _ (by assumption)) fun _ _ _ => ?_
  exact Sim.bind (dot4_sim H (fun _ => h1.get _) fun _ => hs.get _) fun _ _ _ =>
    TenSim.set (by assumption) _ (by assumption)

theorem gradN_vector_T_impl_sim (H : ArithSim R) (h : QSim R P Q) (σ : Sched) (hs : TenSim R s t) (h0 : TenSim R s0 t0) :
    Sim (TenSim R) (gradN_vector_T_impl P σ s s0) (gradN_vector_T_impl Q σ t t0) := by
  have h1 := h.dNx
  unfold gradN_vector_T_impl pointLoop gradN_T_point
  rw [h.nelem, h.nip]
  refine Sim.forEach (P := TenSim _) (fun _ _ _ _ _ => Sim.forEach (P := TenSim _) (fun _ _ _ _ _ => ?_) (by assumption)) h0
  refine Sim.bind (dot4_sim H (fun _ => h1.get _) fun _ => hs.get _) fun _ _ _ =>
    Sim.bind (TenSim.set (by assumption) _ (by assumption)) fun _ _ _ => ?_
  refine Sim.bind (dot4_sim H (fun _ => h1.get _) fun _ => hs.get _) fun _ _ _ =>
    Sim.bind (TenSim.set (by assumption) _ (by assumption)) fun _ _ _ => ?_
  refine Sim.bind (dot4_sim H (fun _ => h1.get _) fun _ => hs.get _) fun _ _ _ =>
    Sim.bind (TenSim.set (by assumption) _ (by assumption)) fun _ _ _ => ?_
  exact Sim.bind (dot4_sim H (fun _ => h1.get _) fun _ => hs.get _) fun _ _ _ =>
    TenSim.set (by assumption) _ (by assumption)

theorem symGradN_vector_impl_sim (H : ArithSim R) (h : QSim R P Q) (σ : Sched) (hs : TenSim R s t) (h0 : TenSim R s0 t0) :
    Sim (TenSim R) (symGradN_vector_impl P σ s s0) (symGradN_vector_impl Q σ t t0) := by
  have h1 := h.dNx
  unfold symGradN_vector_impl pointLoop symGradN_point
  rw [h.nelem, h.nip]
  refine Sim.forEach (P := TenSim _) (fun _ _ _ _ _ => Sim.forEach (P := TenSim _) (fun _ _ _ _ _ => ?_) (by assumption)) h0
  refine Sim.bind (dot4_sim H (fun _ => h1.get _) fun _ => hs.get _) fun _ _ _ =>
    Sim.bind (TenSim.set (by assumption) _ (by assumption)) fun _ _ _ => ?_
  refine Sim.bind (dot4_sim H (fun _ => h1.get _) fun _ => hs.get _) fun _ _ _ =>
    Sim.bind (TenSim.set (by assumption) _ (by assumption)) fun _ _ _ => ?_
  refine Sim.bind (dot4_sim H (fun _ => h1.get _) fun _ => hs.get _) fun _ _ _ => ?_
  refine Sim.bind (dot4_sim H (fun _ => h1.get _) fun _ => hs.get _) fun _ _ _ => ?_
  lockstep H

theorem int_N_scalar_NT_dV_impl_sim (H : ArithSim R) {N vol : Ten A} {N' vol' : Ten B} (hN : TenSim R N N')
    (hv : TenSim R vol vol') (σ : Sched) (ne nip : Nat) (hs : TenSim R s t) (h0 : s0.shape = t0.shape) :
    Sim (TenSim R) (int_N_scalar_NT_dV_impl ne nip N vol σ s s0) (int_N_scalar_NT_dV_impl ne nip N' vol' σ t t0) := by
  unfold int_N_scalar_NT_dV_impl
  rw [h0]
  lockstep H

theorem int_gradN_dot_tensor2_dV_impl_sim (H : ArithSim R) (h : QSim R P Q) (σ : Sched) (hs : TenSim R s t)
    (h0 : s0.shape = t0.shape) :
    Sim (TenSim R) (int_gradN_dot_tensor2_dV_impl P σ s s0) (int_gradN_dot_tensor2_dV_impl Q σ t t0) := by
  have h1 := h.dNx
  have h2 := h.vol
  unfold int_gradN_dot_tensor2_dV_impl
  rw [h0, h.nelem, h.nip]
  lockstep H

end Quad4

namespace Hex8

theorem int_N_scalar_NT_dV_impl_sim (H : ArithSim R) (h : QSim R P Q) (σ : Sched) (hs : TenSim R s t)
    (h0 : s0.shape = t0.shape) :
    Sim (TenSim R) (int_N_scalar_NT_dV_impl P σ s s0) (int_N_scalar_NT_dV_impl Q σ t t0) := by
  have h1 := h.N
  have h2 := h.vol
  unfold int_N_scalar_NT_dV_impl
  rw [h0, h.nelem, h.nip]
  lockstep H

theorem int_gradN_dot_tensor2_dV_impl_sim (H : ArithSim R) (h : QSim R P Q) (σ : Sched) (hs : TenSim R s t)
    (h0 : s0.shape = t0.shape) :
    Sim (TenSim R) (int_gradN_dot_tensor2_dV_impl P σ s s0) (int_gradN_dot_tensor2_dV_impl Q σ t t0) := by
  have h1 := h.dNx
  have h2 := h.vol
  unfold int_gradN_dot_tensor2_dV_impl
  rw [h0, h.nelem, h.nip]
  lockstep H

end Hex8
end Element
end
end GF
