import Verif.Lemmas.Reorder
import Verif.Props.ParallelElement

/-! C88: the element kernels do not depend on the number of threads, bit for bit. -/

namespace GF
variable {α : Type}
open Prog

/-- `gradN_vector` of the generic class -/
theorem C88_gradN_vector [Zero α] [One α] [Add α] [Sub α] [Mul α] [Div α] [Neg α] [NatCast α] {Q : Element.Quadrature α} {elemvec ret : Ten α} : Indep fun σ => Q.gradN_vector_impl σ elemvec ret := by
  unfold Element.Quadrature.gradN_vector_impl
  exact indep_head (P := Par.gradN_vector Q elemvec) (t0 := Ten.full ret.shape 0) (by unfold Par.gradN_vector; sim) (by unfold Par.gradN_vector; within)

/-- `gradN_vector_T` of the generic class -/
theorem C88_gradN_vector_T [Zero α] [One α] [Add α] [Sub α] [Mul α] [Div α] [Neg α] [NatCast α] {Q : Element.Quadrature α} {elemvec ret : Ten α} : Indep fun σ => Q.gradN_vector_T_impl σ elemvec ret := by
  unfold Element.Quadrature.gradN_vector_T_impl
  exact indep_head (P := Par.gradN_vector_T Q elemvec) (t0 := Ten.full ret.shape 0) (by unfold Par.gradN_vector_T; sim) (by unfold Par.gradN_vector_T; within)

/-- `symGradN_vector` of the generic class -/
theorem C88_symGradN_vector [Zero α] [One α] [Add α] [Sub α] [Mul α] [Div α] [Neg α] [NatCast α] {Q : Element.Quadrature α} {elemvec ret : Ten α} : Indep fun σ => Q.symGradN_vector_impl σ elemvec ret := by
  unfold Element.Quadrature.symGradN_vector_impl
  exact indep_head (P := Par.symGradN_vector Q elemvec) (t0 := Ten.full ret.shape 0) (by unfold Par.symGradN_vector; sim) (by unfold Par.symGradN_vector; within)

/-- `int_N_scalar_NT_dV` of the generic class -/
theorem C88_int_N_scalar_NT_dV [Zero α] [One α] [Add α] [Sub α] [Mul α] [Div α] [Neg α] [NatCast α] {Q : Element.Quadrature α} {qscalar ret : Ten α} : Indep fun σ => Q.int_N_scalar_NT_dV_impl σ qscalar ret := by
  unfold Element.Quadrature.int_N_scalar_NT_dV_impl
  exact indep_head (P := Par.int_N_scalar_NT_dV Q qscalar) (t0 := Ten.full ret.shape 0) (by unfold Par.int_N_scalar_NT_dV; sim) (by unfold Par.int_N_scalar_NT_dV; within)

/-- `int_gradN_dot_tensor4_dot_gradNT_dV` of the generic class -/
theorem C88_int_gradN_dot_tensor4_dot_gradNT_dV [Zero α] [One α] [Add α] [Sub α] [Mul α] [Div α] [Neg α] [NatCast α] {Q : Element.Quadrature α} {qtensor ret : Ten α} : Indep fun σ => Q.int_gradN_dot_tensor4_dot_gradNT_dV_impl σ qtensor ret := by
  unfold Element.Quadrature.int_gradN_dot_tensor4_dot_gradNT_dV_impl
  exact indep_head (P := Par.int_gradN_dot_tensor4_dot_gradNT_dV Q qtensor) (t0 := Ten.full ret.shape 0) (by unfold Par.int_gradN_dot_tensor4_dot_gradNT_dV; sim) (by unfold Par.int_gradN_dot_tensor4_dot_gradNT_dV; within)

/-- `gradN_vector` of `Quad4::Quadrature` -/
theorem C88_quad4_gradN_vector [Zero α] [One α] [Add α] [Sub α] [Mul α] [Div α] [Neg α] [NatCast α] {Q : Element.Quadrature α} {elemvec ret : Ten α} : Indep fun σ => Element.Quad4.gradN_vector_impl Q σ elemvec ret := by
  unfold Element.Quad4.gradN_vector_impl Element.Quad4.pointLoop Element.Quad4.gradN_point
  exact indep_head (P := Par.Quad4.gradN_vector Q elemvec) (t0 := _) (by unfold Par.Quad4.gradN_vector; sim) (by unfold Par.Quad4.gradN_vector; within)

/-- `gradN_vector` of `Quad4::QuadraturePlanar` -/
theorem C88_planar_gradN_vector [Zero α] [One α] [Add α] [Sub α] [Mul α] [Div α] [Neg α] [NatCast α] {Q : Element.Quadrature α} {elemvec ret : Ten α} : Indep fun σ => Element.Quad4.planar_gradN_vector_impl Q σ elemvec ret := by
  unfold Element.Quad4.planar_gradN_vector_impl Element.Quad4.pointLoop Element.Quad4.gradN_point
  exact indep_head (P := Par.Quad4.gradN_vector Q elemvec) (t0 := Ten.full ret.shape 0) (by unfold Par.Quad4.gradN_vector; sim) (by unfold Par.Quad4.gradN_vector; within)

/-- `gradN_vector` of `Quad4::QuadratureAxisymmetric` -/
theorem C88_axi_gradN_vector [Zero α] [One α] [Add α] [Sub α] [Mul α] [Div α] [Neg α] [NatCast α] {A : Element.QuadratureAxi α} {elemvec : Ten α} : Indep fun σ => Element.Axi.GradN_vector A σ elemvec := by
  unfold Element.Axi.GradN_vector Element.Quad4.pointLoop Element.Axi.gradN_point
  exact indep_head (P := Par.Axi.gradN_vector A elemvec) (t0 := Ten.full (A.shape_qtensor 2) 0) (by unfold Par.Axi.gradN_vector; sim) (by unfold Par.Axi.gradN_vector; within)

/-- `gradN_vector_T` of `Quad4::Quadrature` -/
theorem C88_quad4_gradN_vector_T [Zero α] [One α] [Add α] [Sub α] [Mul α] [Div α] [Neg α] [NatCast α] {Q : Element.Quadrature α} {elemvec ret : Ten α} : Indep fun σ => Element.Quad4.gradN_vector_T_impl Q σ elemvec ret := by
  unfold Element.Quad4.gradN_vector_T_impl Element.Quad4.pointLoop Element.Quad4.gradN_T_point
  exact indep_head (P := Par.Quad4.gradN_vector_T Q elemvec) (t0 := _) (by unfold Par.Quad4.gradN_vector_T; sim) (by unfold Par.Quad4.gradN_vector_T; within)

/-- `gradN_vector_T` of `Quad4::QuadraturePlanar` -/
theorem C88_planar_gradN_vector_T [Zero α] [One α] [Add α] [Sub α] [Mul α] [Div α] [Neg α] [NatCast α] {Q : Element.Quadrature α} {elemvec ret : Ten α} : Indep fun σ => Element.Quad4.planar_gradN_vector_T_impl Q σ elemvec ret := by
  unfold Element.Quad4.planar_gradN_vector_T_impl Element.Quad4.pointLoop Element.Quad4.gradN_T_point
  exact indep_head (P := Par.Quad4.gradN_vector_T Q elemvec) (t0 := Ten.full ret.shape 0) (by unfold Par.Quad4.gradN_vector_T; sim) (by unfold Par.Quad4.gradN_vector_T; within)

/-- `gradN_vector_T` of `Quad4::QuadratureAxisymmetric` -/
theorem C88_axi_gradN_vector_T [Zero α] [One α] [Add α] [Sub α] [Mul α] [Div α] [Neg α] [NatCast α] {A : Element.QuadratureAxi α} {elemvec : Ten α} : Indep fun σ => Element.Axi.GradN_vector_T A σ elemvec := by
  unfold Element.Axi.GradN_vector_T Element.Quad4.pointLoop Element.Axi.gradN_T_point
  exact indep_head (P := Par.Axi.gradN_vector_T A elemvec) (t0 := Ten.full (A.shape_qtensor 2) 0) (by unfold Par.Axi.gradN_vector_T; sim) (by unfold Par.Axi.gradN_vector_T; within)

/-- `symGradN_vector` of `Quad4::Quadrature` -/
theorem C88_quad4_symGradN_vector [Zero α] [One α] [Add α] [Sub α] [Mul α] [Div α] [Neg α] [NatCast α] {Q : Element.Quadrature α} {elemvec ret : Ten α} : Indep fun σ => Element.Quad4.symGradN_vector_impl Q σ elemvec ret := by
  unfold Element.Quad4.symGradN_vector_impl Element.Quad4.pointLoop Element.Quad4.symGradN_point
  exact indep_head (P := Par.Quad4.symGradN_vector Q elemvec) (t0 := _) (by unfold Par.Quad4.symGradN_vector; sim) (by unfold Par.Quad4.symGradN_vector; within)

/-- `symGradN_vector` of `Quad4::QuadraturePlanar` -/
theorem C88_planar_symGradN_vector [Zero α] [One α] [Add α] [Sub α] [Mul α] [Div α] [Neg α] [NatCast α] {Q : Element.Quadrature α} {elemvec ret : Ten α} : Indep fun σ => Element.Quad4.planar_symGradN_vector_impl Q σ elemvec ret := by
  unfold Element.Quad4.planar_symGradN_vector_impl Element.Quad4.pointLoop Element.Quad4.symGradN_point
  exact indep_head (P := Par.Quad4.symGradN_vector Q elemvec) (t0 := Ten.full ret.shape 0) (by unfold Par.Quad4.symGradN_vector; sim) (by unfold Par.Quad4.symGradN_vector; within)

/-- `symGradN_vector` of `Quad4::QuadratureAxisymmetric` -/
theorem C88_axi_symGradN_vector [Zero α] [One α] [Add α] [Sub α] [Mul α] [Div α] [Neg α] [NatCast α] {A : Element.QuadratureAxi α} {elemvec : Ten α} : Indep fun σ => Element.Axi.SymGradN_vector A σ elemvec := by
  unfold Element.Axi.SymGradN_vector Element.Quad4.pointLoop Element.Axi.symGradN_point
  exact indep_head (P := Par.Axi.symGradN_vector A elemvec) (t0 := Ten.full (A.shape_qtensor 2) 0) (by unfold Par.Axi.symGradN_vector; sim) (by unfold Par.Axi.symGradN_vector; within)

/-- `int_N_scalar_NT_dV` of the three `Quad4` classes -/
theorem C88_quad4_int_N_scalar_NT_dV [Zero α] [One α] [Add α] [Sub α] [Mul α] [Div α] [Neg α] [NatCast α] {nelem nip : Nat} {N vol qscalar ret : Ten α} : Indep fun σ => Element.Quad4.int_N_scalar_NT_dV_impl nelem nip N vol σ qscalar ret := by
  unfold Element.Quad4.int_N_scalar_NT_dV_impl
  exact indep_head (P := Par.Quad4.int_N_scalar_NT_dV nip N vol qscalar) (t0 := Ten.full ret.shape 0) (by unfold Par.Quad4.int_N_scalar_NT_dV; sim) (by unfold Par.Quad4.int_N_scalar_NT_dV; within)

/-- `int_gradN_dot_tensor2_dV` of `Quad4::Quadrature` and `QuadraturePlanar` -/
theorem C88_quad4_int_gradN_dot_tensor2_dV [Zero α] [One α] [Add α] [Sub α] [Mul α] [Div α] [Neg α] [NatCast α] {Q : Element.Quadrature α} {qtensor ret : Ten α} : Indep fun σ => Element.Quad4.int_gradN_dot_tensor2_dV_impl Q σ qtensor ret := by
  unfold Element.Quad4.int_gradN_dot_tensor2_dV_impl
  exact indep_head (P := Par.Quad4.int_gradN_dot_tensor2_dV Q qtensor) (t0 := Ten.full ret.shape 0) (by unfold Par.Quad4.int_gradN_dot_tensor2_dV; sim) (by unfold Par.Quad4.int_gradN_dot_tensor2_dV; within)

/-- `int_gradN_dot_tensor2_dV` of `Quad4::QuadratureAxisymmetric` -/
theorem C88_axi_int_gradN_dot_tensor2_dV [Zero α] [One α] [Add α] [Sub α] [Mul α] [Div α] [Neg α] [NatCast α] {A : Element.QuadratureAxi α} {qtensor ret : Ten α} : Indep fun σ => Element.Axi.int_gradN_dot_tensor2_dV_impl A σ qtensor ret := by
  unfold Element.Axi.int_gradN_dot_tensor2_dV_impl
  exact indep_head (P := Par.Axi.int_gradN_dot_tensor2_dV A qtensor) (t0 := Ten.full ret.shape 0) (by unfold Par.Axi.int_gradN_dot_tensor2_dV; sim) (by unfold Par.Axi.int_gradN_dot_tensor2_dV; within)

/-- `int_N_scalar_NT_dV` of `Hex8::Quadrature` -/
theorem C88_hex8_int_N_scalar_NT_dV [Zero α] [One α] [Add α] [Sub α] [Mul α] [Div α] [Neg α] [NatCast α] {Q : Element.Quadrature α} {qscalar ret : Ten α} : Indep fun σ => Element.Hex8.int_N_scalar_NT_dV_impl Q σ qscalar ret := by
  unfold Element.Hex8.int_N_scalar_NT_dV_impl
  exact indep_head (P := Par.Hex8.int_N_scalar_NT_dV Q qscalar) (t0 := Ten.full ret.shape 0) (by unfold Par.Hex8.int_N_scalar_NT_dV; sim) (by unfold Par.Hex8.int_N_scalar_NT_dV; within)

/-- `int_gradN_dot_tensor2_dV` of `Hex8::Quadrature` -/
theorem C88_hex8_int_gradN_dot_tensor2_dV [Zero α] [One α] [Add α] [Sub α] [Mul α] [Div α] [Neg α] [NatCast α] {Q : Element.Quadrature α} {qtensor ret : Ten α} : Indep fun σ => Element.Hex8.int_gradN_dot_tensor2_dV_impl Q σ qtensor ret := by
  unfold Element.Hex8.int_gradN_dot_tensor2_dV_impl
  exact indep_head (P := Par.Hex8.int_gradN_dot_tensor2_dV Q qtensor) (t0 := Ten.full ret.shape 0) (by unfold Par.Hex8.int_gradN_dot_tensor2_dV; sim) (by unfold Par.Hex8.int_gradN_dot_tensor2_dV; within)

/-- `asElementVector` -/
theorem C88_asElementVector {conn : Ten Nat} {nodevec : Ten α} : Indep fun σ => Element.asElementVector σ conn nodevec := by
  unfold Element.asElementVector
  split
  · exact indep_head (P := Par.asElementVector _ _ conn nodevec) (t0 := Ten.empty _) (by unfold Par.asElementVector; sim) (by unfold Par.asElementVector; within)
  · exact Indep.const _

/-- `int_gradN_dot_tensor4_dot_gradNT_dV` of `Quad4::QuadratureAxisymmetric` -/
theorem C88_axi_int_gradN_dot_tensor4_dot_gradNT_dV [Zero α] [One α] [Add α] [Sub α] [Mul α] [Div α] [Neg α] [NatCast α] {A : Element.QuadratureAxi α} {qtensor ret : Ten α} :
    Indep fun σ => Element.Axi.int_gradN_dot_tensor4_dot_gradNT_dV_impl A σ qtensor ret := by
  unfold Element.Axi.int_gradN_dot_tensor4_dot_gradNT_dV_impl Element.Axi.int_gradN_dot_tensor4_dot_gradNT_dV_impl.loop
  refine indep_head (P := Par.Axi.int_gradN_dot_tensor4_dot_gradNT_dV A qtensor) (t0 := Ten.full ret.shape 0) (fun e _ => ?_) (fun e _ => ?_)
  · unfold Par.Axi.int_gradN_dot_tensor4_dot_gradNT_dV
    refine Sim.loop fun q _ => Sim.loop fun mn _ => Sim.lift fun v => ?_
    repeat' first | exact kTerm_sim _ _ _ _ _ _ _ _ _ _ _ _ _ | refine Sim.seq (kTerm_sim _ _ _ _ _ _ _ _ _ _ _ _ _) ?_
  · unfold Par.Axi.int_gradN_dot_tensor4_dot_gradNT_dV
    refine within_loop fun q _ => within_loop fun mn _ => Within.lift fun v _ => ?_
    repeat' first | exact kTerm_within _ _ _ _ _ _ _ _ _ _ _ _ | refine Within.seq (kTerm_within _ _ _ _ _ _ _ _ _ _ _ _) ?_

/-- `interpQuad_vector` of the generic class (raw pointers) -/
theorem C88_interpQuad_vector [Zero α] [One α] [Add α] [Sub α] [Mul α] [Div α] [Neg α] [NatCast α] {Q : Element.Quadrature α} {elemvec ret : Ten α} {a b n : Nat} (hs : elemvec.shape = [a, b, n])
    (hr : ret.shape = Q.shape_qvector_n n) : Indep fun σ => Q.interpQuad_vector_impl σ elemvec ret := by
  unfold Element.Quadrature.interpQuad_vector_impl
  simp only [hs]
  refine indep_head (P := Par.interpQuad_vector Q ret.shape n elemvec) (t0 := Ten.full ret.shape 0) (by unfold Par.interpQuad_vector; sim) (fun e he => ?_)
  unfold Par.interpQuad_vector
  refine within_loop fun k hk => ?_
  simp only [mem_it3] at hk
  refine Within.lift fun _ _ => Within.lift fun _ _ => Within.add ?_
  rw [hr]
  unfold Element.Quadrature.shape_qvector_n
  refine head_unravel ?_ ?_
  · simp only [ravel, sizeOf', Nat.mul_one, Nat.zero_mul, Nat.add_zero]
    omega
  · simp only [ravel, sizeOf', Nat.mul_one, Nat.add_mul, Nat.one_mul, Nat.zero_add]
    have : k.1 * n + n ≤ Q.nip * n := by rw [← Nat.succ_mul]; exact Nat.mul_le_mul_right n hk.1
    omega

/-- `int_N_vector_dV` of the generic class (raw pointers) -/
theorem C88_int_N_vector_dV [Zero α] [One α] [Add α] [Sub α] [Mul α] [Div α] [Neg α] [NatCast α] {Q : Element.Quadrature α} {qvector ret : Ten α} {a b n : Nat} (hs : qvector.shape = [a, b, n])
    (hr : ret.shape = Q.shape_elemvec_n n) : Indep fun σ => Q.int_N_vector_dV_impl σ qvector ret := by
  unfold Element.Quadrature.int_N_vector_dV_impl
  simp only [hs]
  refine indep_head (P := Par.int_N_vector_dV Q ret.shape n qvector) (t0 := Ten.full ret.shape 0) (by unfold Par.int_N_vector_dV; sim) (fun e he => ?_)
  unfold Par.int_N_vector_dV
  refine within_loop fun k hk => ?_
  simp only [mem_it3] at hk
  refine Within.lift fun _ _ => Within.lift fun _ _ => Within.lift fun _ _ => Within.add ?_
  rw [hr]
  unfold Element.Quadrature.shape_elemvec_n
  refine head_unravel ?_ ?_
  · simp only [ravel, sizeOf', Nat.mul_one, Nat.zero_mul, Nat.add_zero]
    omega
  · simp only [ravel, sizeOf', Nat.mul_one, Nat.add_mul, Nat.one_mul, Nat.zero_add, Nat.zero_mul, Nat.add_zero]
    have : k.2.1 * n + n ≤ Q.nne * n := by rw [← Nat.succ_mul]; exact Nat.mul_le_mul_right n hk.2.1
    omega

/-- `interpQuad_vector` of `Quad4::Quadrature` (raw pointers) -/
theorem C88_quad4_interpQuad_vector [Zero α] [One α] [Add α] [Sub α] [Mul α] [Div α] [Neg α] [NatCast α] {Q : Element.Quadrature α} {elemvec ret : Ten α} (hr : ret.shape = Q.shape_qvector_n 2) :
    Indep fun σ => Element.Quad4.interpQuad_vector_impl Q σ elemvec ret := by
  unfold Element.Quad4.interpQuad_vector_impl
  refine indep_head (P := Par.Quad4.interpQuad_vector Q ret.shape elemvec) (t0 := Ten.full ret.shape 0) (by unfold Par.Quad4.interpQuad_vector; sim) (fun e he => ?_)
  unfold Par.Quad4.interpQuad_vector
  refine within_loop fun q hq => ?_
  simp only [mem_it1] at hq
  have key : ∀ k < 2, (unravel ret.shape (ravel ret.shape [e, q, 0] + k)).head? = some e := fun k hk => by
    rw [hr]
    unfold Element.Quadrature.shape_qvector_n
    refine head_unravel ?_ ?_
    · simp only [ravel, sizeOf', Nat.mul_one, Nat.zero_mul, Nat.add_zero]
      omega
    · simp only [ravel, sizeOf', Nat.mul_one, Nat.add_mul, Nat.one_mul, Nat.zero_add]
      omega
  exact Within.lift fun _ _ => Within.seq (Within.put (key 0 (by omega))) (Within.lift fun _ _ => Within.put (key 1 (by omega)))

/-- `compute_dN` of the generic class: gradients and volumes -/
theorem C88_compute_dN [Zero α] [One α] [Add α] [Sub α] [Mul α] [Div α] [Neg α] [NatCast α] {Q : Element.Quadrature α} : Indep fun σ => Q.compute_dN_impl σ := by
  unfold Element.Quadrature.compute_dN_impl
  refine Indep.bind ?_ fun s => Indep.const _
  refine indep_two (P := Par.compute_dN Q) (a := Ten.full Q.dNx.shape 0) ?_ ?_
  · intro e _
    unfold Par.compute_dN
    refine Sim.loop fun q _ => ?_
    unfold Element.Quadrature.compute_dN_point
    refine Sim.lift fun J => Sim.lift fun r => Sim.pair ?_
    exact SimF.loop fun k _ => SimF.lift fun _ => SimF.lift fun _ => SimF.add _ _ _ _
  · unfold Par.compute_dN
    within

/-- `compute_dN` of `Quad4::Quadrature` (`thick = 1`) and `Quad4::QuadraturePlanar` -/
theorem C88_quad4_compute_dN [Zero α] [One α] [Add α] [Sub α] [Mul α] [Div α] [Neg α] [NatCast α] {Q : Element.Quadrature α} {thick : α} : Indep fun σ => Element.Quad4.compute_dN_impl Q thick σ := by
  unfold Element.Quad4.compute_dN_impl
  refine Indep.bind ?_ fun s => Indep.const _
  refine indep_two (P := Par.Quad4.compute_dN Q thick) ?_ ?_
  · intro e _
    unfold Par.Quad4.compute_dN
    refine Sim.loop fun q _ => ?_
    unfold Element.Quad4.compute_dN_point
    refine Sim.lift fun J => Sim.lift fun r => Sim.pair ?_
    exact SimF.loop fun k _ => SimF.lift fun _ => SimF.lift fun _ => SimF.lift fun _ => SimF.lift fun _ => SimF.lift fun _ => SimF.lift fun _ =>
          SimF.seq (SimF.put _ _ _ _) (SimF.put _ _ _ _)
  · unfold Par.Quad4.compute_dN
    within

/-- `compute_dN` of `Quad4::QuadratureAxisymmetric` -/
theorem C88_axi_compute_dN [Zero α] [One α] [Add α] [Sub α] [Mul α] [Div α] [Neg α] [NatCast α] {A : Element.QuadratureAxi α} {pi : α} : Indep fun σ => Element.Axi.compute_dN_impl pi A σ := by
  unfold Element.Axi.compute_dN_impl
  refine Indep.bind ?_ fun s => Indep.const _
  refine indep_two (P := Par.Axi.compute_dN pi A.toQuadrature) (a := Ten.full A.B.shape 0) ?_ ?_
  · intro e _
    unfold Par.Axi.compute_dN
    refine Sim.loop fun q _ => ?_
    unfold Element.Axi.compute_dN_point
    refine Sim.lift fun J => Sim.lift fun r => Sim.lift fun rq => Sim.pair ?_
    exact SimF.loop fun k _ => SimF.lift fun _ => SimF.lift fun _ => SimF.lift fun _ => SimF.lift fun _ => SimF.lift fun _ => SimF.lift fun _ =>
          SimF.lift fun _ => SimF.seq (SimF.put _ _ _ _) (SimF.seq (SimF.put _ _ _ _) (SimF.seq (SimF.put _ _ _ _) (SimF.seq (SimF.put _ _ _ _) (SimF.put _ _ _ _))))
  · unfold Par.Axi.compute_dN
    within

end GF
