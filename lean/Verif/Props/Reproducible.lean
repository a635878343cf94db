import Verif.Lemmas.Own
import Verif.Props.ReproducibleElement
import Verif.Model.MeshMeasures
import Verif.Spec.Dynamics
import Verif.Props.Vector
import Verif.Props.Parallel

/-! C88: everything else with a parallel loop that is not in the list of C87. -/

namespace GF
variable {α : Type}
open Prog

/-! ### `Vector` -/

/-- `asNode` of DOF values -/
theorem C88_asNode_dofval  {V : Vector} {arg ret : Ten α} : Indep fun σ => V.asNode_dofval σ arg ret := by
  unfold Vector.asNode_dofval
  exact indep_own2 (by own)

/-- `asElement` of DOF values -/
theorem C88_asElement_dofval  {V : Vector} {arg ret : Ten α} : Indep fun σ => V.asElement_dofval σ arg ret := by
  unfold Vector.asElement_dofval
  exact indep_own3 (by own)

/-- `asElement` of a node vector -/
theorem C88_asElement_nodevec  {V : Vector} {arg ret : Ten α} : Indep fun σ => V.asElement_nodevec σ arg ret := by
  unfold Vector.asElement_nodevec
  exact indep_own3 (by own)

/-- `AsElement` -/
theorem C88_AsElement {V : Vector} {arg : Ten α} : Indep fun σ => V.AsElement σ arg := by
  unfold Vector.AsElement Vector.asElement
  exact Indep.ite (fun _ => C88_asElement_dofval) fun _ => Indep.ite (fun _ => C88_asElement_nodevec) fun _ => Indep.const _

theorem addAt_shape [Add α] {t t' : Ten α} {ix : List Nat} {a : α} (h : t.addAt ix a = .ok t') : t'.shape = t.shape := by
  unfold Ten.addAt at h
  cases hg : t.get ix with
  | ok b =>
    rw [hg] at h
    simp only [Res.ok_bind] at h
    unfold Ten.set at h
    split at h
    · cases h; rfl
    · cases h
  | throws => rw [hg] at h; cases h
  | ub => rw [hg] at h; cases h

theorem forEach_shape {ι : Type} {f : Ten α → ι → Res (Ten α)} (hf : ∀ t i t', f t i = .ok t' → t'.shape = t.shape) :
    ∀ {l : List ι} {t t' : Ten α}, forEach l f t = .ok t' → t'.shape = t.shape
  | [], t, t', h => by cases h; rfl
  | i :: l, t, t', h => by
    unfold forEach at h
    cases hi : f t i with
    | ok s => rw [hi] at h; exact (forEach_shape hf h).trans (hf _ _ _ hi)
    | throws => rw [hi] at h; cases h
    | ub => rw [hi] at h; cases h

/-- the result of `AssembleDofs` has one entry per DOF -/
theorem AssembleDofs_shape [Zero α] [Add α] {V : Vector} {arg t : Ten α} (h : V.AssembleDofs arg = .ok t) : t.shape = [V.ndof] := by
  unfold Vector.AssembleDofs Vector.assembleDofs at h
  split at h
  · unfold Vector.assembleDofs_nodevec at h
    refine (forEach_shape ?_ h).trans rfl
    intro t i t' h
    obtain ⟨d, -, h⟩ := Res.bind_ok h
    obtain ⟨a, -, h⟩ := Res.bind_ok h
    exact addAt_shape h
  split at h
  · unfold Vector.assembleDofs_elemvec at h
    refine (forEach_shape ?_ h).trans rfl
    intro t i t' h
    obtain ⟨n, -, h⟩ := Res.bind_ok h
    obtain ⟨d, -, h⟩ := Res.bind_ok h
    obtain ⟨a, -, h⟩ := Res.bind_ok h
    exact addAt_shape h
  · cases h

/-- `AssembleNode`: the sum is a loop that is not parallel, in the order of the elements -/
theorem C88_AssembleNode [Zero α] [Add α] {V : Vector} {arg : Ten α} : Indep fun σ => V.AssembleNode σ arg := by
  unfold Vector.AssembleNode Vector.assembleNode Vector.assembleNode_elemvec
  refine Indep.ite (fun _ => ?_) fun _ => Indep.const _
  intro σ τ t h
  dsimp only at h ⊢
  cases hd : V.AssembleDofs arg with
  | throws => rw [hd] at h; cases h
  | ub => rw [hd] at h; cases h
  | ok b =>
    have hs := AssembleDofs_shape hd
    rw [hd] at h
    simp only [Res.ok_bind] at h ⊢
    unfold Vector.asNode at h ⊢
    have hr : b.rank = 1 := by rw [Ten.rank, hs]; rfl
    rw [if_pos hr] at h ⊢
    exact C88_asNode_dofval σ τ t h

/-! ### `VectorPartitioned` -/

/-- `dofs_is_u` -/
theorem C88_partitioned_dofs_is_u  {P : VectorPartitioned} : Indep fun σ => P.dofs_is_u σ := by
  unfold VectorPartitioned.dofs_is_u
  exact indep_own2 (by own)

/-- `dofs_is_p` -/
theorem C88_partitioned_dofs_is_p  {P : VectorPartitioned} : Indep fun σ => P.dofs_is_p σ := by
  unfold VectorPartitioned.dofs_is_p
  exact indep_own2 (by own)

/-- `copy_u` -/
theorem C88_partitioned_copy_u  {P : VectorPartitioned} {src dest : Ten α} : Indep fun σ => P.copy_u σ src dest := by
  unfold VectorPartitioned.copy_u
  exact indep_own2 (by own)

/-- `copy_p` -/
theorem C88_partitioned_copy_p  {P : VectorPartitioned} {src dest : Ten α} : Indep fun σ => P.copy_p σ src dest := by
  unfold VectorPartitioned.copy_p
  exact indep_own2 (by own)

/-- `NodeFromPartitioned` -/
theorem C88_partitioned_NodeFromPartitioned  {P : VectorPartitioned} {u p : Ten α} : Indep fun σ => P.NodeFromPartitioned σ u p := by
  unfold VectorPartitioned.NodeFromPartitioned
  exact indep_own2 (by own)

/-- `ElementFromPartitioned` -/
theorem C88_partitioned_ElementFromPartitioned  {P : VectorPartitioned} {u p : Ten α} : Indep fun σ => P.ElementFromPartitioned σ u p := by
  unfold VectorPartitioned.ElementFromPartitioned
  exact indep_own3 (by own)

/-- `AsDofs_u_dofval` -/
theorem C88_partitioned_AsDofs_u_dofval  {P : VectorPartitioned} {x : Ten α} : Indep fun σ => P.AsDofs_u_dofval σ x := by
  unfold VectorPartitioned.AsDofs_u_dofval
  exact indep_own1 (by own)

/-- `AsDofs_p_dofval` -/
theorem C88_partitioned_AsDofs_p_dofval  {P : VectorPartitioned} {x : Ten α} : Indep fun σ => P.AsDofs_p_dofval σ x := by
  unfold VectorPartitioned.AsDofs_p_dofval
  exact indep_own1 (by own)

/-- `DofsFromParitioned`, for lists of DOFs without repetition (`VectorPartitioned.new` makes `iiu` such a list) -/
theorem C88_partitioned_DofsFromParitioned [Zero α] {P : VectorPartitioned} {u p : Ten α} (hu : P.iiu.Nodup) (hp : P.iip.Nodup) :
    Indep fun σ => P.DofsFromParitioned σ u p := by
  unfold VectorPartitioned.DofsFromParitioned
  exact Indep.bind (indep_list hu (by own)) fun _ => indep_list hp (by own)

/-! ### `VectorPartitionedTyings` -/

/-- `copy_p` -/
theorem C88_tyings_copy_p {P : VectorPartitionedTyings α} {src dest : Ten α} : Indep fun σ => P.copy_p σ src dest := by
  unfold VectorPartitionedTyings.copy_p
  refine indep_own (fun d ix => ix = [d]) ((List.nodup_map_iff fun a b h => by simpa using h).2 List.nodup_range) (by own) ?_
  rintro i - j - l rfl h
  simpa using h

/-! ### matrices -/

/-- the loop that inverts a diagonal matrix -/
theorem C88_diagonal_inverse [One α] [Div α] {n : Nat} {A inv : Ten α} : Indep fun σ => invLoop σ n A inv := by
  unfold invLoop
  exact indep_own1 (by own)

/-- `MatrixDiagonal::Todense` -/
theorem C88_diagonal_todense [Zero α] {M : MatrixDiagonal α} : Indep fun σ => M.todense σ := by
  unfold MatrixDiagonal.todense
  exact indep_own1 (by own)

/-- `MatrixDiagonal::Dot` on node vectors -/
theorem C88_diagonal_dot_nodevec [Mul α] {M : MatrixDiagonal α} {x : Ten α} : Indep fun σ => M.dot_nodevec σ x := by
  unfold MatrixDiagonal.dot_nodevec
  exact indep_own2 (by own)

/-- factorisation of a diagonal matrix -/
theorem C88_diagonal_factorize [One α] [Div α] {M : MatrixDiagonal α} : Indep fun σ => M.factorize σ := by
  unfold MatrixDiagonal.factorize
  exact Indep.ite (fun _ => Indep.const _) fun _ => Indep.bind C88_diagonal_inverse fun _ => Indep.const _

/-- `MatrixDiagonal::Solve` on node vectors -/
theorem C88_diagonal_solve_nodevec [Zero α] [One α] [Mul α] [Div α] {M : MatrixDiagonal α} {b : Ten α} : Indep fun σ => M.solve_nodevec σ b := by
  unfold MatrixDiagonal.solve_nodevec
  exact Indep.bind (C88_diagonal_factorize.comp fun σ : Nat → Sched => σ 0) fun _ => Indep.bind ((indep_own2 (by own)).comp fun σ : Nat → Sched => σ 1) fun _ => Indep.const _

/-- `MatrixDiagonal::Solve` on DOF values -/
theorem C88_diagonal_solve_dofval [Zero α] [One α] [Mul α] [Div α] {M : MatrixDiagonal α} {b : Ten α} : Indep fun σ => M.solve_dofval σ b := by
  unfold MatrixDiagonal.solve_dofval
  exact Indep.bind C88_diagonal_factorize fun _ => Indep.const _

/-- the loops over a list of DOFs of the partitioned matrices -/
theorem C88_putDofs {ii : List Nat} {n : Nat} {val ret : Ten α} (hii : ii.Nodup) : Indep fun σ => MatrixPartitioned.putDofs σ ii n val ret := by
  unfold MatrixPartitioned.putDofs
  exact indep_list hii (by own)

theorem C88_putDiag {ii : List Nat} {n : Nat} {val ret : Ten α} (hii : ii.Nodup) : Indep fun σ => MatrixDiagonalPartitioned.putDiag σ ii n val ret := by
  unfold MatrixDiagonalPartitioned.putDiag
  exact indep_list hii (by own)

theorem C88_mulDofs [Mul α] {ii : List Nat} {n : Nat} {A x b : Ten α} (hii : ii.Nodup) : Indep fun σ => MatrixDiagonalPartitioned.mulDofs σ ii n A x b := by
  unfold MatrixDiagonalPartitioned.mulDofs
  exact indep_list hii (by own)

/-- the loop `A(d) = a(ii(d))` -/
theorem C88_takeDofs  {ii : List Nat} {n : Nat} {a ret : Ten α} : Indep fun σ => MatrixDiagonalPartitioned.takeDofs σ ii n a ret := by
  unfold MatrixDiagonalPartitioned.takeDofs
  exact indep_own1 (by own)

/-- the loop `b(d) = A(d) * x(d)` -/
theorem C88_mulLoop [Mul α] {n : Nat} {A x b : Ten α} : Indep fun σ => MatrixDiagonalPartitioned.mulLoop σ n A x b := by
  unfold MatrixDiagonalPartitioned.mulLoop
  exact indep_own1 (by own)

/-- `MatrixDiagonalPartitioned::Dot` on node vectors -/
theorem C88_diagonalPartitioned_dot_nodevec [Mul α] {M : MatrixDiagonalPartitioned α} {x : Ten α} : Indep fun σ => M.dot_nodevec σ x := by
  unfold MatrixDiagonalPartitioned.dot_nodevec
  exact indep_own2 (by own)

/-- `Reaction` on node vectors -/
theorem C88_diagonalPartitioned_reaction_nodevec [Mul α] {M : MatrixDiagonalPartitioned α} {x b : Ten α} : Indep fun σ => M.reaction_nodevec σ x b := by
  unfold MatrixDiagonalPartitioned.reaction_nodevec
  exact indep_own2 (by own)

/-- `Todense` of the partitioned diagonal matrix -/
theorem C88_diagonalPartitioned_todense [Zero α] {M : MatrixDiagonalPartitioned α} (hu : M.P.iiu.Nodup) (hp : M.P.iip.Nodup) : Indep fun σ => M.todense σ := by
  unfold MatrixDiagonalPartitioned.todense
  exact Indep.bind ((C88_putDiag hu).comp fun σ : Nat → Sched => σ 0) fun _ => (C88_putDiag hp).comp fun σ : Nat → Sched => σ 1

/-- `data` -/
theorem C88_diagonalPartitioned_data [Zero α] {M : MatrixDiagonalPartitioned α} (hu : M.P.iiu.Nodup) (hp : M.P.iip.Nodup) : Indep fun σ => M.data σ := by
  unfold MatrixDiagonalPartitioned.data
  exact Indep.bind ((C88_putDofs hu).comp fun σ : Nat → Sched => σ 0) fun _ => (C88_putDofs hp).comp fun σ : Nat → Sched => σ 1

/-- `set` -/
theorem C88_diagonalPartitioned_set {M : MatrixDiagonalPartitioned α} {a : Ten α} : Indep fun σ => M.set σ a := by
  unfold MatrixDiagonalPartitioned.set
  exact Indep.bind (C88_takeDofs.comp fun σ : Nat → Sched => σ 0) fun _ => Indep.bind (C88_takeDofs.comp fun σ : Nat → Sched => σ 1) fun _ => Indep.const _

/-- `Dot` on DOF values -/
theorem C88_diagonalPartitioned_dot_dofval [Mul α] {M : MatrixDiagonalPartitioned α} {x : Ten α} (hu : M.P.iiu.Nodup) (hp : M.P.iip.Nodup) :
    Indep fun σ => M.dot_dofval σ x := by
  unfold MatrixDiagonalPartitioned.dot_dofval
  exact Indep.bind ((C88_mulDofs hu).comp fun σ : Nat → Sched => σ 0) fun _ => (C88_mulDofs hp).comp fun σ : Nat → Sched => σ 1

/-- factorisation -/
theorem C88_diagonalPartitioned_factorize [One α] [Div α] {M : MatrixDiagonalPartitioned α} : Indep fun σ => M.factorize σ := by
  unfold MatrixDiagonalPartitioned.factorize
  exact Indep.ite (fun _ => Indep.const _) fun _ => Indep.bind C88_diagonal_inverse fun _ => Indep.const _

/-- `solve` on node vectors -/
theorem C88_diagonalPartitioned_solve_nodevec [Zero α] [One α] [Mul α] [Div α] {M : MatrixDiagonalPartitioned α} {b x : Ten α} :
    Indep fun σ => M.solve_nodevec σ b x := by
  unfold MatrixDiagonalPartitioned.solve_nodevec
  exact Indep.bind (C88_diagonalPartitioned_factorize.comp fun σ : Nat → Sched => σ 0) fun _ => Indep.bind ((indep_own2 (by own)).comp fun σ : Nat → Sched => σ 1) fun _ => Indep.const _

/-- `Solve_u` -/
theorem C88_diagonalPartitioned_solve_u [Zero α] [One α] [Mul α] [Div α] {M : MatrixDiagonalPartitioned α} {bu xp : Ten α} :
    Indep fun σ => M.solve_u σ bu xp := by
  unfold MatrixDiagonalPartitioned.solve_u
  exact Indep.bind (C88_diagonalPartitioned_factorize.comp fun σ : Nat → Sched => σ 0) fun _ => Indep.bind (C88_mulLoop.comp fun σ : Nat → Sched => σ 1) fun _ => Indep.const _

/-! ### element classes: construction and update -/

/-- the constructors of the `Quad4` classes -/
theorem C88_quad4_construct [Zero α] [One α] [Add α] [Sub α] [Mul α] [Div α] [Neg α] [NatCast α] {tdim : Nat} {thick : α} {x xi w : Ten α} : Indep fun σ => Element.Quad4.construct tdim thick σ x xi w := by
  unfold Element.Quad4.construct
  split
  · exact Indep.bind (Indep.const _) fun _ => Indep.bind (Indep.const _) fun _ => C88_quad4_compute_dN
  · exact Indep.const _

/-- `Quad4::Quadrature(x, xi, w)` -/
theorem C88_quad4_new [Zero α] [One α] [Add α] [Sub α] [Mul α] [Div α] [Neg α] [NatCast α] {x xi w : Ten α} : Indep fun σ => Element.Quad4.new σ x xi w := C88_quad4_construct

/-- `Quad4::QuadraturePlanar(x, xi, w, thick)` -/
theorem C88_planar_new [Zero α] [One α] [Add α] [Sub α] [Mul α] [Div α] [Neg α] [NatCast α] {x xi w : Ten α} {thick : α} : Indep fun σ => Element.Quad4.newPlanar σ x xi w thick := C88_quad4_construct

/-- `Quad4::Quadrature(x)` -/
theorem C88_quad4_newGauss [Zero α] [One α] [Add α] [Sub α] [Mul α] [Div α] [Neg α] [NatCast α] {s : α} {x : Ten α} : Indep fun σ => Element.Quad4.newGauss s σ x := by
  unfold Element.Quad4.newGauss
  exact Indep.bind (Indep.const _) fun _ => Indep.bind (Indep.const _) fun _ => C88_quad4_new

/-- `Quad4::QuadraturePlanar(x, thick)` -/
theorem C88_planar_newGauss [Zero α] [One α] [Add α] [Sub α] [Mul α] [Div α] [Neg α] [NatCast α] {s : α} {x : Ten α} {thick : α} : Indep fun σ => Element.Quad4.newPlanarGauss s σ x thick := by
  unfold Element.Quad4.newPlanarGauss
  exact Indep.bind (Indep.const _) fun _ => Indep.bind (Indep.const _) fun _ => C88_planar_new

/-- `Quad4::Quadrature::update_x`, `Quad4::QuadraturePlanar::update_x` -/
theorem C88_quad4_update_x [Zero α] [One α] [Add α] [Sub α] [Mul α] [Div α] [Neg α] [NatCast α] {thick : α} {Q : Element.Quadrature α} {x : Ten α} : Indep fun σ => Element.Quad4.update_x thick σ Q x := by
  unfold Element.Quad4.update_x
  exact C88_quad4_compute_dN

/-- `Quad4::QuadratureAxisymmetric(x, xi, w)` -/
theorem C88_axi_new [Zero α] [One α] [Add α] [Sub α] [Mul α] [Div α] [Neg α] [NatCast α] {pi : α} {x xi w : Ten α} : Indep fun σ => Element.Axi.new pi σ x xi w := by
  unfold Element.Axi.new
  split
  · exact Indep.bind (Indep.const _) fun _ => Indep.bind (Indep.const _) fun _ => C88_axi_compute_dN
  · exact Indep.const _

/-- `Quad4::QuadratureAxisymmetric(x)` -/
theorem C88_axi_newGauss [Zero α] [One α] [Add α] [Sub α] [Mul α] [Div α] [Neg α] [NatCast α] {s pi : α} {x : Ten α} : Indep fun σ => Element.Axi.newGauss s pi σ x := by
  unfold Element.Axi.newGauss
  exact Indep.bind (Indep.const _) fun _ => Indep.bind (Indep.const _) fun _ => C88_axi_new

/-- `Quad4::QuadratureAxisymmetric::update_x` -/
theorem C88_axi_update_x [Zero α] [One α] [Add α] [Sub α] [Mul α] [Div α] [Neg α] [NatCast α] {pi : α} {A : Element.QuadratureAxi α} {x : Ten α} : Indep fun σ => Element.Axi.update_x pi σ A x := by
  unfold Element.Axi.update_x
  exact C88_axi_compute_dN

/-- `Hex8::Quadrature(x, xi, w)` -/
theorem C88_hex8_new [Zero α] [One α] [Add α] [Sub α] [Mul α] [Div α] [Neg α] [NatCast α] {x xi w : Ten α} : Indep fun σ => Element.Hex8.new σ x xi w := by
  unfold Element.Hex8.new
  split
  · exact Indep.bind (Indep.const _) fun _ => Indep.bind (Indep.const _) fun _ => C88_compute_dN
  · exact Indep.const _

/-- `Hex8::Quadrature(x)` -/
theorem C88_hex8_newGauss [Zero α] [One α] [Add α] [Sub α] [Mul α] [Div α] [Neg α] [NatCast α] {s : α} {x : Ten α} : Indep fun σ => Element.Hex8.newGauss s σ x := by
  unfold Element.Hex8.newGauss
  exact Indep.bind (Indep.const _) fun _ => Indep.bind (Indep.const _) fun _ => C88_hex8_new

/-- `Hex8::Quadrature::update_x` -/
theorem C88_hex8_update_x [Zero α] [One α] [Add α] [Sub α] [Mul α] [Div α] [Neg α] [NatCast α] {Q : Element.Quadrature α} {x : Ten α} : Indep fun σ => Element.Hex8.update_x σ Q x := by
  unfold Element.Hex8.update_x
  exact C88_compute_dN

/-! ### `Mesh::nodal_mass`, `Mesh::center_of_gravity` -/

/-- the DOF values are one-dimensional: the assembly keeps the shape -/
theorem assemble_shape [Zero α] [Add α] {M M' : MatrixDiagonal α} {K : Ten α} (h : M.assemble K = .ok M') : M'.A.shape = M.A.shape := by
  unfold MatrixDiagonal.assemble at h
  obtain ⟨A, hA, h⟩ := Res.bind_ok h
  cases h
  refine (forEach_shape ?_ hA).trans rfl
  intro t i t' h
  obtain ⟨n, -, h⟩ := Res.bind_ok h
  obtain ⟨d, -, h⟩ := Res.bind_ok h
  obtain ⟨a, -, h⟩ := Res.bind_ok h
  exact addAt_shape h

/-- `nodal_mass` -/
theorem C88_nodal_mass [Zero α] [One α] [Add α] [Sub α] [Mul α] [Div α] [Neg α] [NatCast α] {coor : Ten α} {conn : Ten Nat} {type : ElementType} : Indep fun σ => nodal_mass σ coor conn type := by
  unfold nodal_mass
  split
  swap
  · exact Indep.const _
  intro σ τ t h
  dsimp only at h ⊢
  obtain ⟨M, hM, h⟩ := Res.bind_ok h
  obtain ⟨V, hV, h⟩ := Res.bind_ok h
  rw [hM, Res.ok_bind, hV, Res.ok_bind]
  split at h
  swap
  · cases h
  rename_i ht
  rw [if_pos ht]
  obtain ⟨x, hx, h⟩ := Res.bind_ok h
  obtain ⟨xi, hxi, h⟩ := Res.bind_ok h
  obtain ⟨w, hw, h⟩ := Res.bind_ok h
  obtain ⟨Q, hQ, h⟩ := Res.bind_ok h
  obtain ⟨K, hK, h⟩ := Res.bind_ok h
  obtain ⟨M', hM', h⟩ := Res.bind_ok h
  have hx' : V.AsElement (τ 0) coor = .ok x := C88_AsElement _ (τ 0) _ hx
  have hQ' : Element.Quad4.new (τ 1) x xi w = .ok Q := C88_quad4_new _ (τ 1) _ hQ
  rw [hx', Res.ok_bind, hxi, Res.ok_bind, hw, Res.ok_bind, hQ', Res.ok_bind]
  have hK' : Element.Quad4.Int_N_scalar_NT_dV Q (τ 2) (Ten.full conn.shape 1) = .ok K := by
    unfold Element.Quad4.Int_N_scalar_NT_dV at hK ⊢
    exact C88_quad4_int_N_scalar_NT_dV _ (τ 2) _ hK
  rw [hK', Res.ok_bind, hM', Res.ok_bind]
  have hs : M'.A.rank = 1 := by
    rw [Ten.rank, assemble_shape hM']
    unfold MatrixDiagonal.new at hM
    obtain ⟨V', -, hM⟩ := Res.bind_ok hM
    cases hM
    rfl
  unfold Vector.AsNode Vector.asNode at h ⊢
  rw [if_pos hs] at h ⊢
  exact C88_asNode_dofval _ (τ 3) _ h

/-- `center_of_gravity` -/
theorem C88_center_of_gravity [Zero α] [One α] [Add α] [Sub α] [Mul α] [Div α] [Neg α] [NatCast α] {coor : Ten α} {conn : Ten Nat} {type : ElementType} : Indep fun σ => center_of_gravity σ coor conn type := by
  unfold center_of_gravity
  exact Indep.bind C88_nodal_mass fun _ => Indep.const _

/-! ### a complete simulation -/

/-- one increment of an explicit simulation -/
theorem C88_step [Zero α] [One α] [Add α] [Sub α] [Mul α] [Div α] [Neg α] [NatCast α] {D : Dynamics α} {nu nv : α → α → α → α} {material : List (Ten α) → Res (Ten α)} {fext : Ten α} {S : Motion α} :
    Indep fun σ => D.stepWith nu nv material fext σ S := by
  unfold Dynamics.stepWith Dynamics.strain
  refine Indep.bind (Indep.const _) fun u => Indep.bind (Indep.bind (C88_AsElement.comp fun σ : Nat → Sched => σ 0) fun ue => ?_) fun eps =>
    Indep.bind (Indep.const _) fun sig => Indep.bind ?_ fun fe => Indep.bind (C88_AssembleNode.comp fun σ : Nat → Sched => σ 3) fun fi =>
    Indep.bind (Indep.const _) fun fr => Indep.bind (C88_diagonal_solve_nodevec.comp fun (σ : Nat → Sched) i => σ (4 + i)) fun r =>
    Indep.bind (Indep.const _) fun v => Indep.const _
  · unfold Element.Quad4.SymGradN_vector
    exact C88_quad4_symGradN_vector.comp fun σ : Nat → Sched => σ 1
  · unfold Element.Quad4.Int_gradN_dot_tensor2_dV
    exact C88_quad4_int_gradN_dot_tensor2_dV.comp fun σ : Nat → Sched => σ 2

/-- the start-up of an explicit simulation -/
theorem C88_startup [Zero α] [One α] [Add α] [Sub α] [Mul α] [Div α] [Neg α] [NatCast α] {s : α} {conn dofs : Ten Nat} {coor rho : Ten α} :
    Indep fun σ => Dynamics.new s σ conn dofs coor rho := by
  unfold Dynamics.new setup
  refine Indep.bind (Indep.bind (Indep.const _) fun V => Indep.bind (C88_AsElement.comp fun σ : Nat → Sched => σ 0) fun xe =>
    Indep.bind (C88_quad4_newGauss.comp fun σ : Nat → Sched => σ 1) fun Q => Indep.const _) fun r =>
    Indep.bind (C88_AsElement.comp fun σ : Nat → Sched => σ 2) fun xe => Indep.bind (Indep.const _) fun xi =>
    Indep.bind (Indep.const _) fun w => Indep.bind (C88_quad4_new.comp fun σ : Nat → Sched => σ 3) fun nodal =>
    Indep.bind (Indep.const _) fun M => Indep.bind ?_ fun me => Indep.bind (Indep.const _) fun M => Indep.const _
  unfold Element.Quad4.Int_N_scalar_NT_dV
  exact C88_quad4_int_N_scalar_NT_dV.comp fun σ : Nat → Sched => σ 4

/-- a complete explicit simulation: start-up and any number of increments, from any initial motion `init` (a function of what the start-up made),
with any material -/
theorem C88_simulation [Zero α] [One α] [Add α] [Sub α] [Mul α] [Div α] [Neg α] [NatCast α] {s : α} {conn dofs : Ten Nat} {coor rho : Ten α} {nu nv : α → α → α → α} {material : List (Ten α) → Res (Ten α)} {fext : Ten α}
    {init : Dynamics α → MatrixDiagonal α → Motion α} {n : Nat} :
    Indep fun σ : (Nat → Sched) × (Nat → Nat → Sched) => (do
      let (D, M) ← Dynamics.new s σ.1 conn dofs coor rho
      D.runWith nu nv material fext σ.2 n (init D M) : Res (Motion α)) := by
  refine Indep.bind (C88_startup.comp fun σ : (Nat → Sched) × (Nat → Nat → Sched) => σ.1) fun r => ?_
  generalize init r.1 r.2 = S
  induction n with
  | zero => exact Indep.const _
  | succ n ih => exact Indep.bind ih fun S => C88_step.comp fun σ : (Nat → Sched) × (Nat → Nat → Sched) => σ.2 n

/-! ### arithmetic with rounding -/

/-- numbers whose sum is rounded down to a multiple of four -/
structure Coarse where
  n : Nat
deriving DecidableEq

instance : Zero Coarse := ⟨⟨0⟩⟩
instance : Add Coarse := ⟨fun a b => ⟨(a.n + b.n) / 4 * 4⟩⟩

example : (⟨1⟩ + ⟨1⟩ : Coarse) + ⟨3⟩ ≠ ⟨1⟩ + (⟨1⟩ + ⟨3⟩) := by decide

example : ∃ V t, Vector.new exConn exDofs = .ok V ∧ V.AssembleNode Sched.rev (Ten.full [2, 4, 2] (⟨7⟩ : Coarse)) = .ok t ∧ t.get [1, 0] = .ok ⟨8⟩ ∧
    ∀ τ, V.AssembleNode τ (Ten.full [2, 4, 2] (⟨7⟩ : Coarse)) = .ok t := by
  have h : Vector.new exConn exDofs = .ok ⟨exConn, exDofs, 2, 4, 6, 2, 8⟩ := rfl
  refine ⟨_, _, h, rfl, by decide, fun τ => C88_AssembleNode Sched.rev τ _ rfl⟩

end GF
