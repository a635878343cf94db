import Verif.Lemmas.ParallelRace
import Verif.Lemmas.MatrixDiagonal
import Verif.Lemmas.MatrixPartitionedTyings

/-! C86: the parallel loops of the library have no data races, and give the result of the sequential code. -/

namespace GF
variable {α : Type}
open Prog

/-! ### element kernels -/

/-- `asElementVector` -/
theorem C86_asElementVector {conn : Ten Nat} {nodevec t : Ten α} {nelem nne nnode ndim : Nat} (hc : conn.shape = [nelem, nne]) (hv : nodevec.shape = [nnode, ndim])
    (h : Element.asElementVector Sched.seq conn nodevec = .ok t) :
    RaceFree (inb [nelem, nne, ndim]) (fun _ => none) ((it1 nelem).map (Par.asElementVector nne ndim conn nodevec)) t.v := by
  unfold Element.asElementVector at h
  simp only [hc, hv, Sched.seq] at h
  unfold Par.asElementVector
  exact race_free_head (t0 := Ten.empty _) (by sim) (by within) h

/-- `gradN_vector` of the generic class -/
theorem C86_gradN_vector [Zero α] [One α] [Add α] [Sub α] [Mul α] [Div α] [Neg α] [NatCast α] {Q : Element.Quadrature α} {elemvec ret t : Ten α} (h : Q.gradN_vector_impl Sched.seq elemvec ret = .ok t) :
    RaceFree (inb ret.shape) (fun _ => some 0) ((it1 Q.nelem).map (Par.gradN_vector Q elemvec)) t.v := by
  unfold Element.Quadrature.gradN_vector_impl at h
  simp only [Sched.seq] at h
  unfold Par.gradN_vector
  exact race_free_head (t0 := Ten.full ret.shape 0) (by sim) (by within) h

/-- `gradN_vector_T` of the generic class -/
theorem C86_gradN_vector_T [Zero α] [One α] [Add α] [Sub α] [Mul α] [Div α] [Neg α] [NatCast α] {Q : Element.Quadrature α} {elemvec ret t : Ten α} (h : Q.gradN_vector_T_impl Sched.seq elemvec ret = .ok t) :
    RaceFree (inb ret.shape) (fun _ => some 0) ((it1 Q.nelem).map (Par.gradN_vector_T Q elemvec)) t.v := by
  unfold Element.Quadrature.gradN_vector_T_impl at h
  simp only [Sched.seq] at h
  unfold Par.gradN_vector_T
  exact race_free_head (t0 := Ten.full ret.shape 0) (by sim) (by within) h

/-- `symGradN_vector` of the generic class -/
theorem C86_symGradN_vector [Zero α] [One α] [Add α] [Sub α] [Mul α] [Div α] [Neg α] [NatCast α] {Q : Element.Quadrature α} {elemvec ret t : Ten α} (h : Q.symGradN_vector_impl Sched.seq elemvec ret = .ok t) :
    RaceFree (inb ret.shape) (fun _ => some 0) ((it1 Q.nelem).map (Par.symGradN_vector Q elemvec)) t.v := by
  unfold Element.Quadrature.symGradN_vector_impl at h
  simp only [Sched.seq] at h
  unfold Par.symGradN_vector
  exact race_free_head (t0 := Ten.full ret.shape 0) (by sim) (by within) h

/-- `int_N_scalar_NT_dV` of the generic class -/
theorem C86_int_N_scalar_NT_dV [Zero α] [One α] [Add α] [Sub α] [Mul α] [Div α] [Neg α] [NatCast α] {Q : Element.Quadrature α} {qscalar ret t : Ten α} (h : Q.int_N_scalar_NT_dV_impl Sched.seq qscalar ret = .ok t) :
    RaceFree (inb ret.shape) (fun _ => some 0) ((it1 Q.nelem).map (Par.int_N_scalar_NT_dV Q qscalar)) t.v := by
  unfold Element.Quadrature.int_N_scalar_NT_dV_impl at h
  simp only [Sched.seq] at h
  unfold Par.int_N_scalar_NT_dV
  exact race_free_head (t0 := Ten.full ret.shape 0) (by sim) (by within) h

/-- `int_gradN_dot_tensor4_dot_gradNT_dV` of the generic class -/
theorem C86_int_gradN_dot_tensor4_dot_gradNT_dV [Zero α] [One α] [Add α] [Sub α] [Mul α] [Div α] [Neg α] [NatCast α] {Q : Element.Quadrature α} {qtensor ret t : Ten α} (h : Q.int_gradN_dot_tensor4_dot_gradNT_dV_impl Sched.seq qtensor ret = .ok t) :
    RaceFree (inb ret.shape) (fun _ => some 0) ((it1 Q.nelem).map (Par.int_gradN_dot_tensor4_dot_gradNT_dV Q qtensor)) t.v := by
  unfold Element.Quadrature.int_gradN_dot_tensor4_dot_gradNT_dV_impl at h
  simp only [Sched.seq] at h
  unfold Par.int_gradN_dot_tensor4_dot_gradNT_dV
  exact race_free_head (t0 := Ten.full ret.shape 0) (by sim) (by within) h

/-- `gradN_vector` of `Quad4::Quadrature` -/
theorem C86_quad4_gradN_vector [Zero α] [One α] [Add α] [Sub α] [Mul α] [Div α] [Neg α] [NatCast α] {Q : Element.Quadrature α} {elemvec ret t : Ten α} (h : Element.Quad4.gradN_vector_impl Q Sched.seq elemvec ret = .ok t) :
    RaceFree (inb ret.shape) ret.v ((it1 Q.nelem).map (Par.Quad4.gradN_vector Q elemvec)) t.v := by
  unfold Element.Quad4.gradN_vector_impl Element.Quad4.pointLoop Element.Quad4.gradN_point at h
  simp only [Sched.seq] at h
  unfold Par.Quad4.gradN_vector
  exact race_free_head (t0 := _) (by sim) (by within) h

/-- `gradN_vector` of `Quad4::QuadraturePlanar` -/
theorem C86_planar_gradN_vector [Zero α] [One α] [Add α] [Sub α] [Mul α] [Div α] [Neg α] [NatCast α] {Q : Element.Quadrature α} {elemvec ret t : Ten α} (h : Element.Quad4.planar_gradN_vector_impl Q Sched.seq elemvec ret = .ok t) :
    RaceFree (inb ret.shape) (fun _ => some 0) ((it1 Q.nelem).map (Par.Quad4.gradN_vector Q elemvec)) t.v := by
  unfold Element.Quad4.planar_gradN_vector_impl Element.Quad4.pointLoop Element.Quad4.gradN_point at h
  simp only [Sched.seq] at h
  unfold Par.Quad4.gradN_vector
  exact race_free_head (t0 := Ten.full ret.shape 0) (by sim) (by within) h

/-- `gradN_vector` of `Quad4::QuadratureAxisymmetric` -/
theorem C86_axi_gradN_vector [Zero α] [One α] [Add α] [Sub α] [Mul α] [Div α] [Neg α] [NatCast α] {A : Element.QuadratureAxi α} {elemvec t : Ten α} (h : Element.Axi.GradN_vector A Sched.seq elemvec = .ok t) :
    RaceFree (inb (A.shape_qtensor 2)) (fun _ => some 0) ((it1 A.nelem).map (Par.Axi.gradN_vector A elemvec)) t.v := by
  unfold Element.Axi.GradN_vector Element.Quad4.pointLoop Element.Axi.gradN_point at h
  simp only [Sched.seq] at h
  unfold Par.Axi.gradN_vector
  exact race_free_head (t0 := Ten.full (A.shape_qtensor 2) 0) (by sim) (by within) h

/-- `gradN_vector_T` of `Quad4::Quadrature` -/
theorem C86_quad4_gradN_vector_T [Zero α] [One α] [Add α] [Sub α] [Mul α] [Div α] [Neg α] [NatCast α] {Q : Element.Quadrature α} {elemvec ret t : Ten α} (h : Element.Quad4.gradN_vector_T_impl Q Sched.seq elemvec ret = .ok t) :
    RaceFree (inb ret.shape) ret.v ((it1 Q.nelem).map (Par.Quad4.gradN_vector_T Q elemvec)) t.v := by
  unfold Element.Quad4.gradN_vector_T_impl Element.Quad4.pointLoop Element.Quad4.gradN_T_point at h
  simp only [Sched.seq] at h
  unfold Par.Quad4.gradN_vector_T
  exact race_free_head (t0 := _) (by sim) (by within) h

/-- `gradN_vector_T` of `Quad4::QuadraturePlanar` -/
theorem C86_planar_gradN_vector_T [Zero α] [One α] [Add α] [Sub α] [Mul α] [Div α] [Neg α] [NatCast α] {Q : Element.Quadrature α} {elemvec ret t : Ten α} (h : Element.Quad4.planar_gradN_vector_T_impl Q Sched.seq elemvec ret = .ok t) :
    RaceFree (inb ret.shape) (fun _ => some 0) ((it1 Q.nelem).map (Par.Quad4.gradN_vector_T Q elemvec)) t.v := by
  unfold Element.Quad4.planar_gradN_vector_T_impl Element.Quad4.pointLoop Element.Quad4.gradN_T_point at h
  simp only [Sched.seq] at h
  unfold Par.Quad4.gradN_vector_T
  exact race_free_head (t0 := Ten.full ret.shape 0) (by sim) (by within) h

/-- `gradN_vector_T` of `Quad4::QuadratureAxisymmetric` -/
theorem C86_axi_gradN_vector_T [Zero α] [One α] [Add α] [Sub α] [Mul α] [Div α] [Neg α] [NatCast α] {A : Element.QuadratureAxi α} {elemvec t : Ten α} (h : Element.Axi.GradN_vector_T A Sched.seq elemvec = .ok t) :
    RaceFree (inb (A.shape_qtensor 2)) (fun _ => some 0) ((it1 A.nelem).map (Par.Axi.gradN_vector_T A elemvec)) t.v := by
  unfold Element.Axi.GradN_vector_T Element.Quad4.pointLoop Element.Axi.gradN_T_point at h
  simp only [Sched.seq] at h
  unfold Par.Axi.gradN_vector_T
  exact race_free_head (t0 := Ten.full (A.shape_qtensor 2) 0) (by sim) (by within) h

/-- `symGradN_vector` of `Quad4::Quadrature` -/
theorem C86_quad4_symGradN_vector [Zero α] [One α] [Add α] [Sub α] [Mul α] [Div α] [Neg α] [NatCast α] {Q : Element.Quadrature α} {elemvec ret t : Ten α} (h : Element.Quad4.symGradN_vector_impl Q Sched.seq elemvec ret = .ok t) :
    RaceFree (inb ret.shape) ret.v ((it1 Q.nelem).map (Par.Quad4.symGradN_vector Q elemvec)) t.v := by
  unfold Element.Quad4.symGradN_vector_impl Element.Quad4.pointLoop Element.Quad4.symGradN_point at h
  simp only [Sched.seq] at h
  unfold Par.Quad4.symGradN_vector
  exact race_free_head (t0 := _) (by sim) (by within) h

/-- `symGradN_vector` of `Quad4::QuadraturePlanar` -/
theorem C86_planar_symGradN_vector [Zero α] [One α] [Add α] [Sub α] [Mul α] [Div α] [Neg α] [NatCast α] {Q : Element.Quadrature α} {elemvec ret t : Ten α} (h : Element.Quad4.planar_symGradN_vector_impl Q Sched.seq elemvec ret = .ok t) :
    RaceFree (inb ret.shape) (fun _ => some 0) ((it1 Q.nelem).map (Par.Quad4.symGradN_vector Q elemvec)) t.v := by
  unfold Element.Quad4.planar_symGradN_vector_impl Element.Quad4.pointLoop Element.Quad4.symGradN_point at h
  simp only [Sched.seq] at h
  unfold Par.Quad4.symGradN_vector
  exact race_free_head (t0 := Ten.full ret.shape 0) (by sim) (by within) h

/-- `symGradN_vector` of `Quad4::QuadratureAxisymmetric` -/
theorem C86_axi_symGradN_vector [Zero α] [One α] [Add α] [Sub α] [Mul α] [Div α] [Neg α] [NatCast α] {A : Element.QuadratureAxi α} {elemvec t : Ten α} (h : Element.Axi.SymGradN_vector A Sched.seq elemvec = .ok t) :
    RaceFree (inb (A.shape_qtensor 2)) (fun _ => some 0) ((it1 A.nelem).map (Par.Axi.symGradN_vector A elemvec)) t.v := by
  unfold Element.Axi.SymGradN_vector Element.Quad4.pointLoop Element.Axi.symGradN_point at h
  simp only [Sched.seq] at h
  unfold Par.Axi.symGradN_vector
  exact race_free_head (t0 := Ten.full (A.shape_qtensor 2) 0) (by sim) (by within) h

/-- `int_N_scalar_NT_dV` of the three `Quad4` classes -/
theorem C86_quad4_int_N_scalar_NT_dV [Zero α] [One α] [Add α] [Sub α] [Mul α] [Div α] [Neg α] [NatCast α] {nelem nip : Nat} {N vol qscalar ret t : Ten α} (h : Element.Quad4.int_N_scalar_NT_dV_impl nelem nip N vol Sched.seq qscalar ret = .ok t) :
    RaceFree (inb ret.shape) (fun _ => some 0) ((it1 nelem).map (Par.Quad4.int_N_scalar_NT_dV nip N vol qscalar)) t.v := by
  unfold Element.Quad4.int_N_scalar_NT_dV_impl at h
  simp only [Sched.seq] at h
  unfold Par.Quad4.int_N_scalar_NT_dV
  exact race_free_head (t0 := Ten.full ret.shape 0) (by sim) (by within) h

/-- `int_gradN_dot_tensor2_dV` of `Quad4::Quadrature` and `QuadraturePlanar` -/
theorem C86_quad4_int_gradN_dot_tensor2_dV [Zero α] [One α] [Add α] [Sub α] [Mul α] [Div α] [Neg α] [NatCast α] {Q : Element.Quadrature α} {qtensor ret t : Ten α} (h : Element.Quad4.int_gradN_dot_tensor2_dV_impl Q Sched.seq qtensor ret = .ok t) :
    RaceFree (inb ret.shape) (fun _ => some 0) ((it1 Q.nelem).map (Par.Quad4.int_gradN_dot_tensor2_dV Q qtensor)) t.v := by
  unfold Element.Quad4.int_gradN_dot_tensor2_dV_impl at h
  simp only [Sched.seq] at h
  unfold Par.Quad4.int_gradN_dot_tensor2_dV
  exact race_free_head (t0 := Ten.full ret.shape 0) (by sim) (by within) h

/-- `int_gradN_dot_tensor2_dV` of `Quad4::QuadratureAxisymmetric` -/
theorem C86_axi_int_gradN_dot_tensor2_dV [Zero α] [One α] [Add α] [Sub α] [Mul α] [Div α] [Neg α] [NatCast α] {A : Element.QuadratureAxi α} {qtensor ret t : Ten α} (h : Element.Axi.int_gradN_dot_tensor2_dV_impl A Sched.seq qtensor ret = .ok t) :
    RaceFree (inb ret.shape) (fun _ => some 0) ((it1 A.nelem).map (Par.Axi.int_gradN_dot_tensor2_dV A qtensor)) t.v := by
  unfold Element.Axi.int_gradN_dot_tensor2_dV_impl at h
  simp only [Sched.seq] at h
  unfold Par.Axi.int_gradN_dot_tensor2_dV
  exact race_free_head (t0 := Ten.full ret.shape 0) (by sim) (by within) h

theorem kTerm_sim [Zero α] [One α] [Add α] [Sub α] [Mul α] [Div α] [Neg α] [NatCast α] (B C : Ten α) (sh : List Nat) (e q m n : Nat) (v : α) (r c : Nat) (b cc d : List Nat) :
    SimT sh (Par.Axi.kTerm B C e q m n v r c b cc d) fun t => Element.Axi.kTerm B C e q m n v t r c b cc d := by
  unfold Par.Axi.kTerm Element.Axi.kTerm
  sim

theorem kTerm_within [Zero α] [One α] [Add α] [Sub α] [Mul α] [Div α] [Neg α] [NatCast α] (B C : Ten α) (e q m n : Nat) (v : α) (r c : Nat) (b cc d : List Nat) :
    (Par.Axi.kTerm B C e q m n v r c b cc d).Within fun ix => ix.head? = some e := by
  unfold Par.Axi.kTerm
  within

/-- `int_gradN_dot_tensor4_dot_gradNT_dV` of `Quad4::QuadratureAxisymmetric` -/
theorem C86_axi_int_gradN_dot_tensor4_dot_gradNT_dV [Zero α] [One α] [Add α] [Sub α] [Mul α] [Div α] [Neg α] [NatCast α] {A : Element.QuadratureAxi α} {qtensor ret t : Ten α}
    (h : Element.Axi.int_gradN_dot_tensor4_dot_gradNT_dV_impl A Sched.seq qtensor ret = .ok t) :
    RaceFree (inb ret.shape) (fun _ => some 0) ((it1 A.nelem).map (Par.Axi.int_gradN_dot_tensor4_dot_gradNT_dV A qtensor)) t.v := by
  unfold Element.Axi.int_gradN_dot_tensor4_dot_gradNT_dV_impl Element.Axi.int_gradN_dot_tensor4_dot_gradNT_dV_impl.loop at h
  simp only [Sched.seq] at h
  unfold Par.Axi.int_gradN_dot_tensor4_dot_gradNT_dV
  refine race_free_head (t0 := Ten.full ret.shape 0) (fun e _ => ?_) (fun e _ => ?_) h
  · refine Sim.loop fun q _ => Sim.loop fun mn _ => Sim.lift fun v => ?_
    repeat' first | exact kTerm_sim _ _ _ _ _ _ _ _ _ _ _ _ _ | refine Sim.seq (kTerm_sim _ _ _ _ _ _ _ _ _ _ _ _ _) ?_
  · refine within_loop fun q _ => within_loop fun mn _ => Within.lift fun v _ => ?_
    repeat' first | exact kTerm_within _ _ _ _ _ _ _ _ _ _ _ _ | refine Within.seq (kTerm_within _ _ _ _ _ _ _ _ _ _ _ _) ?_

/-- `int_N_scalar_NT_dV` of `Hex8::Quadrature` -/
theorem C86_hex8_int_N_scalar_NT_dV [Zero α] [One α] [Add α] [Sub α] [Mul α] [Div α] [Neg α] [NatCast α] {Q : Element.Quadrature α} {qscalar ret t : Ten α} (h : Element.Hex8.int_N_scalar_NT_dV_impl Q Sched.seq qscalar ret = .ok t) :
    RaceFree (inb ret.shape) (fun _ => some 0) ((it1 Q.nelem).map (Par.Hex8.int_N_scalar_NT_dV Q qscalar)) t.v := by
  unfold Element.Hex8.int_N_scalar_NT_dV_impl at h
  simp only [Sched.seq] at h
  unfold Par.Hex8.int_N_scalar_NT_dV
  exact race_free_head (t0 := Ten.full ret.shape 0) (by sim) (by within) h

/-- `int_gradN_dot_tensor2_dV` of `Hex8::Quadrature` -/
theorem C86_hex8_int_gradN_dot_tensor2_dV [Zero α] [One α] [Add α] [Sub α] [Mul α] [Div α] [Neg α] [NatCast α] {Q : Element.Quadrature α} {qtensor ret t : Ten α} (h : Element.Hex8.int_gradN_dot_tensor2_dV_impl Q Sched.seq qtensor ret = .ok t) :
    RaceFree (inb ret.shape) (fun _ => some 0) ((it1 Q.nelem).map (Par.Hex8.int_gradN_dot_tensor2_dV Q qtensor)) t.v := by
  unfold Element.Hex8.int_gradN_dot_tensor2_dV_impl at h
  simp only [Sched.seq] at h
  unfold Par.Hex8.int_gradN_dot_tensor2_dV
  exact race_free_head (t0 := Ten.full ret.shape 0) (by sim) (by within) h

/-- `interpQuad_vector` of the generic class (raw pointers) -/
theorem C86_interpQuad_vector [Zero α] [One α] [Add α] [Sub α] [Mul α] [Div α] [Neg α] [NatCast α] {Q : Element.Quadrature α} {elemvec ret t : Ten α} {a b n : Nat} (hs : elemvec.shape = [a, b, n])
    (hr : ret.shape = Q.shape_qvector_n n) (h : Q.interpQuad_vector_impl Sched.seq elemvec ret = .ok t) :
    RaceFree (inb ret.shape) (fun _ => some 0) ((it1 Q.nelem).map (Par.interpQuad_vector Q ret.shape n elemvec)) t.v := by
  unfold Element.Quadrature.interpQuad_vector_impl at h
  simp only [hs, Sched.seq] at h
  unfold Par.interpQuad_vector
  refine race_free_head (t0 := Ten.full ret.shape 0) (by sim) (fun e he => ?_) h
  refine within_loop fun k hk => ?_
  simp only [mem_it3] at hk
  refine Within.lift fun _ _ => Within.lift fun _ _ => Within.add ?_
  rw [hr]
  unfold Element.Quadrature.shape_qvector_n
  refine head_unravel ?_ ?_
  · simp only [ravel, sizeOf', Nat.mul_one, Nat.zero_mul, Nat.add_zero]
    omega
  · simp only [ravel, sizeOf', Nat.mul_one, Nat.add_mul, Nat.one_mul, Nat.zero_add]
    have : k.1 * n + n ≤ Q.nip * n := by rw [← Nat.succ_mul]; exact Nat.mul_le_mul_right n hk.1
    omega

/-- `int_N_vector_dV` of the generic class (raw pointers) -/
theorem C86_int_N_vector_dV [Zero α] [One α] [Add α] [Sub α] [Mul α] [Div α] [Neg α] [NatCast α] {Q : Element.Quadrature α} {qvector ret t : Ten α} {a b n : Nat} (hs : qvector.shape = [a, b, n])
    (hr : ret.shape = Q.shape_elemvec_n n) (h : Q.int_N_vector_dV_impl Sched.seq qvector ret = .ok t) :
    RaceFree (inb ret.shape) (fun _ => some 0) ((it1 Q.nelem).map (Par.int_N_vector_dV Q ret.shape n qvector)) t.v := by
  unfold Element.Quadrature.int_N_vector_dV_impl at h
  simp only [hs, Sched.seq] at h
  unfold Par.int_N_vector_dV
  refine race_free_head (t0 := Ten.full ret.shape 0) (by sim) (fun e he => ?_) h
  refine within_loop fun k hk => ?_
  simp only [mem_it3] at hk
  refine Within.lift fun _ _ => Within.lift fun _ _ => Within.lift fun _ _ => Within.add ?_
  rw [hr]
  unfold Element.Quadrature.shape_elemvec_n
  refine head_unravel ?_ ?_
  · simp only [ravel, sizeOf', Nat.mul_one, Nat.zero_mul, Nat.add_zero]
    omega
  · simp only [ravel, sizeOf', Nat.mul_one, Nat.add_mul, Nat.one_mul, Nat.zero_add, Nat.zero_mul, Nat.add_zero]
    have : k.2.1 * n + n ≤ Q.nne * n := by rw [← Nat.succ_mul]; exact Nat.mul_le_mul_right n hk.2.1
    omega

/-- `interpQuad_vector` of `Quad4::Quadrature` (raw pointers) -/
theorem C86_quad4_interpQuad_vector [Zero α] [One α] [Add α] [Sub α] [Mul α] [Div α] [Neg α] [NatCast α] {Q : Element.Quadrature α} {elemvec ret t : Ten α} (hr : ret.shape = Q.shape_qvector_n 2)
    (h : Element.Quad4.interpQuad_vector_impl Q Sched.seq elemvec ret = .ok t) :
    RaceFree (inb ret.shape) (fun _ => some 0) ((it1 Q.nelem).map (Par.Quad4.interpQuad_vector Q ret.shape elemvec)) t.v := by
  unfold Element.Quad4.interpQuad_vector_impl at h
  simp only [Sched.seq] at h
  unfold Par.Quad4.interpQuad_vector
  refine race_free_head (t0 := Ten.full ret.shape 0) (by sim) (fun e he => ?_) h
  refine within_loop fun q hq => ?_
  simp only [mem_it1] at hq
  have key : ∀ k < 2, (unravel ret.shape (ravel ret.shape [e, q, 0] + k)).head? = some e := fun k hk => by
    rw [hr]
    unfold Element.Quadrature.shape_qvector_n
    refine head_unravel ?_ ?_
    · simp only [ravel, sizeOf', Nat.mul_one, Nat.zero_mul, Nat.add_zero]
      omega
    · simp only [ravel, sizeOf', Nat.mul_one, Nat.add_mul, Nat.one_mul, Nat.zero_add]
      omega
  exact Within.lift fun _ _ => Within.seq (Within.put (key 0 (by omega))) (Within.lift fun _ _ => Within.put (key 1 (by omega)))

/-- `compute_dN` of the generic class: gradients and volumes -/
theorem C86_compute_dN [Zero α] [One α] [Add α] [Sub α] [Mul α] [Div α] [Neg α] [NatCast α] {Q Q' : Element.Quadrature α} (h : Q.compute_dN_impl Sched.seq = .ok Q') :
    RaceFree (inBoth Q.dNx.shape Q.vol.shape) (both (Ten.full Q.dNx.shape 0) Q.vol) ((it1 Q.nelem).map (Par.compute_dN Q)) (both Q'.dNx Q'.vol) := by
  unfold Element.Quadrature.compute_dN_impl at h
  simp only [Sched.seq] at h
  cases hs : forEach (it1 Q.nelem) (fun s e => forEach (it1 Q.nip) (fun s q => Q.compute_dN_point s e q) s) (Ten.full Q.dNx.shape 0, Q.vol) with
  | ok s =>
    rw [hs] at h
    injection h with h
    subst h
    refine race_free_two (a := Ten.full Q.dNx.shape 0) ?_ ?_ hs
    · intro e _
      refine Sim.loop fun q _ => ?_
      unfold Element.Quadrature.compute_dN_point
      refine Sim.lift fun J => Sim.lift fun r => Sim.pair ?_
      exact SimF.loop fun k _ => SimF.lift fun _ => SimF.lift fun _ => SimF.add _ _ _ _
    · unfold Par.compute_dN
      within
  | throws => rw [hs] at h; cases h
  | ub => rw [hs] at h; cases h

/-- `compute_dN` of `Quad4::Quadrature` (`thick = 1`) and `Quad4::QuadraturePlanar` -/
theorem C86_quad4_compute_dN [Zero α] [One α] [Add α] [Sub α] [Mul α] [Div α] [Neg α] [NatCast α] {Q Q' : Element.Quadrature α} {thick : α} (h : Element.Quad4.compute_dN_impl Q thick Sched.seq = .ok Q') :
    RaceFree (inBoth Q.dNx.shape Q.vol.shape) (both Q.dNx Q.vol) ((it1 Q.nelem).map (Par.Quad4.compute_dN Q thick)) (both Q'.dNx Q'.vol) := by
  unfold Element.Quad4.compute_dN_impl at h
  simp only [Sched.seq] at h
  cases hs : forEach (it1 Q.nelem) (fun s e => forEach (it1 Q.nip) (fun s q => Element.Quad4.compute_dN_point Q thick s e q) s) (Q.dNx, Q.vol) with
  | ok s =>
    rw [hs] at h
    injection h with h
    subst h
    refine race_free_two ?_ ?_ hs
    · intro e _
      refine Sim.loop fun q _ => ?_
      unfold Element.Quad4.compute_dN_point
      refine Sim.lift fun J => Sim.lift fun r => Sim.pair ?_
      exact SimF.loop fun k _ => SimF.lift fun _ => SimF.lift fun _ => SimF.lift fun _ => SimF.lift fun _ => SimF.lift fun _ => SimF.lift fun _ =>
          SimF.seq (SimF.put _ _ _ _) (SimF.put _ _ _ _)
    · unfold Par.Quad4.compute_dN
      within
  | throws => rw [hs] at h; cases h
  | ub => rw [hs] at h; cases h

/-- `compute_dN` of `Quad4::QuadratureAxisymmetric` -/
theorem C86_axi_compute_dN [Zero α] [One α] [Add α] [Sub α] [Mul α] [Div α] [Neg α] [NatCast α] {A A' : Element.QuadratureAxi α} {pi : α} (h : Element.Axi.compute_dN_impl pi A Sched.seq = .ok A') :
    RaceFree (inBoth A.B.shape A.vol.shape) (both (Ten.full A.B.shape 0) A.vol) ((it1 A.nelem).map (Par.Axi.compute_dN pi A.toQuadrature)) (both A'.B A'.vol) := by
  unfold Element.Axi.compute_dN_impl at h
  simp only [Sched.seq] at h
  cases hs : forEach (it1 A.nelem) (fun s e => forEach (it1 A.nip) (fun s q => Element.Axi.compute_dN_point pi A.toQuadrature s e q) s) (Ten.full A.B.shape 0, A.vol) with
  | ok s =>
    rw [hs] at h
    injection h with h
    subst h
    refine race_free_two (a := Ten.full A.B.shape 0) ?_ ?_ hs
    · intro e _
      refine Sim.loop fun q _ => ?_
      unfold Element.Axi.compute_dN_point
      refine Sim.lift fun J => Sim.lift fun r => Sim.lift fun rq => Sim.pair ?_
      exact SimF.loop fun k _ => SimF.lift fun _ => SimF.lift fun _ => SimF.lift fun _ => SimF.lift fun _ => SimF.lift fun _ => SimF.lift fun _ =>
          SimF.lift fun _ => SimF.seq (SimF.put _ _ _ _) (SimF.seq (SimF.put _ _ _ _) (SimF.seq (SimF.put _ _ _ _) (SimF.seq (SimF.put _ _ _ _) (SimF.put _ _ _ _))))
    · unfold Par.Axi.compute_dN
      within
  | throws => rw [hs] at h; cases h
  | ub => rw [hs] at h; cases h

end GF
