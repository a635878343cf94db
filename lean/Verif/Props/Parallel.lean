import Verif.Lemmas.ParallelBenign
import Verif.Lemmas.MatrixDiagonal
import Verif.Lemmas.MatrixPartitionedTyings

/-! C86, C87: the parallel loops of the vector and matrix classes. -/

namespace GF
variable {α : Type}
open Prog

theorem Res.bind_ok {β γ : Type} {x : Res β} {f : β → Res γ} {c : γ} (h : (x >>= f) = .ok c) : ∃ b, x = .ok b ∧ f b = .ok c := by
  cases x with
  | ok b => exact ⟨b, rfl, h⟩
  | throws => cases h
  | ub => cases h

/-! ### C86: loops in which iteration `m` writes row `m` -/

/-- `Vector::asNode(dofval)` -/
theorem C86_asNode_dofval {V : Vector} {arg ret t : Ten α} (h : V.asNode_dofval Sched.seq arg ret = .ok t) :
    RaceFree (inb ret.shape) ret.v ((it1 V.nnode).map (Par.asNode_dofval V arg)) t.v := by
  unfold Vector.asNode_dofval at h
  simp only [Sched.seq, forEach_it2] at h
  unfold Par.asNode_dofval
  exact race_free_head (t0 := _) (by sim) (by within) h

/-- `Vector::asElement(dofval)` -/
theorem C86_asElement_dofval {V : Vector} {arg ret t : Ten α} (h : V.asElement_dofval Sched.seq arg ret = .ok t) :
    RaceFree (inb ret.shape) ret.v ((it1 V.nelem).map (Par.asElement_dofval V arg)) t.v := by
  unfold Vector.asElement_dofval at h
  simp only [Sched.seq, forEach_it3] at h
  unfold Par.asElement_dofval
  exact race_free_head (t0 := _) (by sim) (by within) h

/-- `Vector::asElement(nodevec)` -/
theorem C86_asElement_nodevec {V : Vector} {arg ret t : Ten α} (h : V.asElement_nodevec Sched.seq arg ret = .ok t) :
    RaceFree (inb ret.shape) ret.v ((it1 V.nelem).map (Par.asElement_nodevec V arg)) t.v := by
  unfold Vector.asElement_nodevec at h
  simp only [Sched.seq, forEach_it3] at h
  unfold Par.asElement_nodevec
  exact race_free_head (t0 := _) (by sim) (by within) h

/-- `VectorPartitioned::dofs_is_u` -/
theorem C86_dofs_is_u {P : VectorPartitioned} {t : Ten Bool} (h : P.dofs_is_u Sched.seq = .ok t) :
    RaceFree (inb P.V.shape_nodevec) (fun _ => some false) ((it1 P.V.nnode).map (Par.dofs_is_u P)) t.v := by
  unfold VectorPartitioned.dofs_is_u at h
  simp only [Sched.seq, forEach_it2] at h
  unfold Par.dofs_is_u
  exact race_free_head (t0 := Ten.full _ false) (by sim) (by within) h

/-- `VectorPartitioned::copy_u` -/
theorem C86_copy_u {P : VectorPartitioned} {src dest t : Ten α} (h : P.copy_u Sched.seq src dest = .ok t) :
    RaceFree (inb dest.shape) dest.v ((it1 P.V.nnode).map (Par.copy_u P src)) t.v := by
  unfold VectorPartitioned.copy_u at h
  simp only [Sched.seq, forEach_it2] at h
  unfold Par.copy_u
  exact race_free_head (t0 := _) (by sim) (by within) h

/-- `AsDofs_u(dofval)` of `VectorPartitioned` and `MatrixPartitioned` -/
theorem C86_AsDofs_u_dofval {P : VectorPartitioned} {x t : Ten α} (h : P.AsDofs_u_dofval Sched.seq x = .ok t) :
    RaceFree (inb [P.nnu]) (fun _ => none) ((it1 P.nnu).map (Par.takeDofs P.iiu x)) t.v := by
  unfold VectorPartitioned.AsDofs_u_dofval at h
  simp only [Sched.seq] at h
  unfold Par.takeDofs
  exact race_free_head (t0 := Ten.empty _) (by sim) (by within) h

/-- `VectorPartitioned::dofs_is_p` -/
theorem C86_dofs_is_p {P : VectorPartitioned} {t : Ten Bool} (h : P.dofs_is_p Sched.seq = .ok t) :
    RaceFree (inb P.V.shape_nodevec) (fun _ => some false) ((it1 P.V.nnode).map (Par.dofs_is_p P)) t.v := by
  unfold VectorPartitioned.dofs_is_p at h
  simp only [Sched.seq, forEach_it2] at h
  unfold Par.dofs_is_p
  exact race_free_head (t0 := Ten.full _ false) (by sim) (by within) h

/-- `VectorPartitioned::copy_p` -/
theorem C86_copy_p {P : VectorPartitioned} {src dest t : Ten α} (h : P.copy_p Sched.seq src dest = .ok t) :
    RaceFree (inb dest.shape) dest.v ((it1 P.V.nnode).map (Par.copy_p P src)) t.v := by
  unfold VectorPartitioned.copy_p at h
  simp only [Sched.seq, forEach_it2] at h
  unfold Par.copy_p
  exact race_free_head (t0 := _) (by sim) (by within) h

/-- `AsDofs_p(dofval)` of `VectorPartitioned` and `MatrixPartitioned` -/
theorem C86_AsDofs_p_dofval {P : VectorPartitioned} {x t : Ten α} (h : P.AsDofs_p_dofval Sched.seq x = .ok t) :
    RaceFree (inb [P.nnp]) (fun _ => none) ((it1 P.nnp).map (Par.takeDofs P.iip x)) t.v := by
  unfold VectorPartitioned.AsDofs_p_dofval at h
  simp only [Sched.seq] at h
  unfold Par.takeDofs
  exact race_free_head (t0 := Ten.empty _) (by sim) (by within) h

/-- `VectorPartitioned::NodeFromPartitioned`; the same loop in `MatrixPartitioned::dot(nodevec)` -/
theorem C86_NodeFromPartitioned {P : VectorPartitioned} {u p t : Ten α} (h : P.NodeFromPartitioned Sched.seq u p = .ok t) :
    RaceFree (inb P.V.shape_nodevec) (fun _ => none) ((it1 P.V.nnode).map (Par.NodeFromPartitioned P u p)) t.v := by
  unfold VectorPartitioned.NodeFromPartitioned at h
  simp only [Sched.seq, forEach_it2] at h
  unfold Par.NodeFromPartitioned
  exact race_free_head (t0 := Ten.empty _) (by sim) (by within) h

/-- `VectorPartitioned::ElementFromPartitioned` -/
theorem C86_ElementFromPartitioned {P : VectorPartitioned} {u p t : Ten α} (h : P.ElementFromPartitioned Sched.seq u p = .ok t) :
    RaceFree (inb P.V.shape_elemvec) (fun _ => none) ((it1 P.V.nelem).map (Par.ElementFromPartitioned P u p)) t.v := by
  unfold VectorPartitioned.ElementFromPartitioned at h
  simp only [Sched.seq, forEach_it3] at h
  unfold Par.ElementFromPartitioned
  exact race_free_head (t0 := Ten.empty _) (by sim) (by within) h

/-- both loops of `MatrixDiagonalPartitioned::set` -/
theorem C86_takeDofs {ii : List Nat} {n : Nat} {a ret t : Ten α} (h : MatrixDiagonalPartitioned.takeDofs Sched.seq ii n a ret = .ok t) :
    RaceFree (inb ret.shape) ret.v ((it1 n).map (Par.takeDofs ii a)) t.v := by
  unfold MatrixDiagonalPartitioned.takeDofs at h
  simp only [Sched.seq] at h
  unfold Par.takeDofs
  exact race_free_head (t0 := _) (by sim) (by within) h

/-- `AsDofs_u`, `AsDofs_p`, `AsDofs_d` on DOF vectors of `MatrixPartitionedTyings` -/
theorem C86_takeLoop {ii : List Nat} {n : Nat} {x t : Ten α} (h : MatrixPartitionedTyings.takeLoop Sched.seq ii n x = .ok t) :
    RaceFree (inb [n]) (fun _ => none) ((it1 n).map (Par.takeDofs ii x)) t.v := by
  unfold MatrixPartitionedTyings.takeLoop at h
  simp only [Sched.seq] at h
  unfold Par.takeDofs
  exact race_free_head (t0 := Ten.empty _) (by sim) (by within) h

/-- `factorize` of both diagonal matrices -/
theorem C86_invLoop [One α] [Div α] {n : Nat} {A inv t : Ten α} (h : GF.invLoop Sched.seq n A inv = .ok t) :
    RaceFree (inb inv.shape) inv.v ((it1 n).map (Par.invLoop A)) t.v := by
  unfold GF.invLoop at h
  simp only [Sched.seq] at h
  unfold Par.invLoop
  exact race_free_head (t0 := _) (by sim) (by within) h

/-- `MatrixDiagonal::todense` -/
theorem C86_todense [Zero α] {M : MatrixDiagonal α} {t : Ten α} (h : M.todense Sched.seq = .ok t) :
    RaceFree (inb [M.V.ndof, M.V.ndof]) (fun _ => some 0) ((it1 M.V.ndof).map (Par.todense M.A)) t.v := by
  unfold MatrixDiagonal.todense at h
  simp only [Sched.seq] at h
  unfold Par.todense
  exact race_free_head (t0 := Ten.full _ 0) (by sim) (by within) h

/-- `MatrixDiagonal::dot(nodevec)` -/
theorem C86_diagonal_dot_nodevec [Mul α] {M : MatrixDiagonal α} {x t : Ten α} (h : M.dot_nodevec Sched.seq x = .ok t) :
    RaceFree (inb x.shape) (fun _ => none) ((it1 M.V.nnode).map (Par.mulNode M.V M.A x)) t.v := by
  unfold MatrixDiagonal.dot_nodevec at h
  simp only [Sched.seq, forEach_it2] at h
  unfold Par.mulNode
  exact race_free_head (t0 := Ten.empty _) (by sim) (by within) h

/-- `dot_u`, `dot_p`, `solve_u`, `reaction_p` of `MatrixDiagonalPartitioned` -/
theorem C86_mulLoop [Mul α] {n : Nat} {A x b t : Ten α} (h : MatrixDiagonalPartitioned.mulLoop Sched.seq n A x b = .ok t) :
    RaceFree (inb b.shape) b.v ((it1 n).map (Par.mulLoop A x)) t.v := by
  unfold MatrixDiagonalPartitioned.mulLoop at h
  simp only [Sched.seq] at h
  unfold Par.mulLoop
  exact race_free_head (t0 := _) (by sim) (by within) h

/-- `MatrixDiagonalPartitioned::dot(nodevec)` -/
theorem C86_diagonalPartitioned_dot_nodevec [Mul α] {M : MatrixDiagonalPartitioned α} {x t : Ten α} (h : M.dot_nodevec Sched.seq x = .ok t) :
    RaceFree (inb x.shape) (fun _ => none) ((it1 M.P.V.nnode).map (Par.diag_dot_nodevec M x)) t.v := by
  unfold MatrixDiagonalPartitioned.dot_nodevec at h
  simp only [Sched.seq, forEach_it2] at h
  unfold Par.diag_dot_nodevec
  exact race_free_head (t0 := Ten.empty _) (by sim) (by within) h

/-- `MatrixDiagonalPartitioned::reaction(nodevec)` -/
theorem C86_diagonalPartitioned_reaction_nodevec [Mul α] {M : MatrixDiagonalPartitioned α} {x b t : Ten α} (h : M.reaction_nodevec Sched.seq x b = .ok t) :
    RaceFree (inb b.shape) b.v ((it1 M.P.V.nnode).map (Par.diag_reaction_nodevec M x)) t.v := by
  unfold MatrixDiagonalPartitioned.reaction_nodevec at h
  simp only [Sched.seq, forEach_it2] at h
  unfold Par.diag_reaction_nodevec
  exact race_free_head (t0 := _) (by sim) (by within) h

/-- `MatrixDiagonal::solve(nodevec)` (after `factorize`, `C86_invLoop`) -/
theorem C86_diagonal_solve_nodevec [Zero α] [One α] [Mul α] [Div α] {M M' : MatrixDiagonal α} {b x : Ten α} (h : M.solve_nodevec (fun _ => Sched.seq) b = .ok (M', x)) :
    RaceFree (inb b.shape) (fun _ => none) ((it1 M'.V.nnode).map (Par.mulNode M'.V M'.inv b)) x.v := by
  unfold MatrixDiagonal.solve_nodevec at h
  obtain ⟨M1, -, h⟩ := Res.bind_ok h
  obtain ⟨r, hr, h⟩ := Res.bind_ok h
  injection h with h
  obtain ⟨rfl, rfl⟩ := Prod.mk.inj h
  simp only [Sched.seq, forEach_it2] at hr
  unfold Par.mulNode
  exact race_free_head (t0 := Ten.empty _) (by sim) (by within) hr

/-- `MatrixDiagonalPartitioned::solve(nodevec)` (after `factorize`, `C86_invLoop`) -/
theorem C86_diagonalPartitioned_solve_nodevec [Zero α] [One α] [Mul α] [Div α] {M M' : MatrixDiagonalPartitioned α} {b x0 x : Ten α}
    (h : M.solve_nodevec (fun _ => Sched.seq) b x0 = .ok (M', x)) :
    RaceFree (inb x0.shape) x0.v ((it1 M'.P.V.nnode).map (Par.diag_solve_nodevec M' b)) x.v := by
  unfold MatrixDiagonalPartitioned.solve_nodevec at h
  obtain ⟨M1, -, h⟩ := Res.bind_ok h
  obtain ⟨r, hr, h⟩ := Res.bind_ok h
  injection h with h
  obtain ⟨rfl, rfl⟩ := Prod.mk.inj h
  simp only [Sched.seq, forEach_it2] at hr
  unfold Par.diag_solve_nodevec
  exact race_free_head (t0 := _) (by sim) (by within) hr

/-- `MatrixPartitioned::reaction(nodevec)`; `b_p` is the product with the lower blocks -/
theorem C86_partitioned_reaction_nodevec [NonUnitalNonAssocSemiring α] {M : MatrixPartitioned α} {x b t : Ten α}
    (h : M.reaction_nodevec (fun _ => Sched.seq) x b = .ok t) : ∃ xu xp bp, M.P.AsDofs_u_nodevec Sched.seq x = .ok xu ∧ M.P.AsDofs_p_nodevec Sched.seq x = .ok xp ∧
      M.rowP xu xp = .ok bp ∧ RaceFree (inb b.shape) b.v ((it1 M.P.V.nnode).map (Par.reaction_nodevec M.P bp)) t.v := by
  unfold MatrixPartitioned.reaction_nodevec at h
  obtain ⟨xu, h1, h⟩ := Res.bind_ok h
  obtain ⟨xp, h2, h⟩ := Res.bind_ok h
  obtain ⟨bp, h3, h⟩ := Res.bind_ok h
  refine ⟨xu, xp, bp, h1, h2, h3, ?_⟩
  simp only [Sched.seq, forEach_it2] at h
  unfold Par.reaction_nodevec
  exact race_free_head (t0 := _) (by sim) (by within) h

/-- `MatrixPartitionedSolver::solve(nodevec)`; `x_u` is the solution of the linear system -/
theorem C86_partitioned_solve_nodevec [NonUnitalNonAssocRing α] {S : LinSolver α} {s s' : SolverState α} {M M' : MatrixPartitioned α} {b x t : Ten α}
    (h : M.solve_nodevec S s (fun _ => Sched.seq) b x = .ok (s', M', t)) : ∃ bu xp xu, M.P.AsDofs_u_nodevec Sched.seq b = .ok bu ∧
      M.P.AsDofs_p_nodevec Sched.seq x = .ok xp ∧ M.solveRhs S s' bu xp = .ok xu ∧
      RaceFree (inb x.shape) x.v ((it1 M.P.V.nnode).map (Par.solve_nodevec M.P xu)) t.v := by
  unfold MatrixPartitioned.solve_nodevec at h
  generalize s.factorize M.changed M.A.uu = q at h
  obtain ⟨s1, ch⟩ := q
  obtain ⟨bu, h1, h⟩ := Res.bind_ok h
  obtain ⟨xp, h2, h⟩ := Res.bind_ok h
  obtain ⟨xu, h3, h⟩ := Res.bind_ok h
  obtain ⟨r, hr, h⟩ := Res.bind_ok h
  simp only [Res.ok.injEq, Prod.mk.injEq] at h
  obtain ⟨rfl, -, rfl⟩ := h
  refine ⟨bu, xp, xu, h1, h2, h3, ?_⟩
  simp only [Sched.seq, forEach_it2] at hr
  unfold Par.solve_nodevec
  exact race_free_head (t0 := _) (by sim) (by within) hr

/-- `MatrixPartitionedTyingsSolver::solve(nodevec)`; `x_u` is the solution of the condensed system, `x_d` the dependent DOFs -/
theorem C86_tyings_solve_nodevec [NonUnitalNonAssocRing α] {S : LinSolver α} {s s' : SolverState α} {M M' : MatrixPartitionedTyings α} {b x t : Ten α}
    (h : M.solve_nodevec S s (fun _ => Sched.seq) b x = .ok (s', M', t)) : ∃ xu xp xd, M'.AsDofs_p_nodevec Sched.seq x = .ok xp ∧ M'.dependent xu xp = .ok xd ∧
      RaceFree (inb x.shape) x.v ((it1 M'.V.nnode).map (Par.tyings_solve_nodevec M' xu xd)) t.v := by
  unfold MatrixPartitionedTyings.solve_nodevec at h
  obtain ⟨⟨s1, M1⟩, h0, h⟩ := Res.bind_ok h
  dsimp only at h
  obtain ⟨bu, h1, h⟩ := Res.bind_ok h
  obtain ⟨bd, h2, h⟩ := Res.bind_ok h
  obtain ⟨xp, h3, h⟩ := Res.bind_ok h
  obtain ⟨w, h4, h⟩ := Res.bind_ok h
  obtain ⟨bu', h5, h⟩ := Res.bind_ok h
  obtain ⟨xu, h6, h⟩ := Res.bind_ok h
  obtain ⟨xd, h7, h⟩ := Res.bind_ok h
  obtain ⟨r, hr, h⟩ := Res.bind_ok h
  simp only [Res.ok.injEq, Prod.mk.injEq] at h
  obtain ⟨rfl, rfl, rfl⟩ := h
  refine ⟨xu, xp, xd, h3, h7, ?_⟩
  simp only [Sched.seq, forEach_it2] at hr
  unfold Par.tyings_solve_nodevec
  exact race_free_head (t0 := _) (by sim) (by within) hr

/-- `VectorPartitionedTyings::copy_p` -/
theorem C86_tyings_copy_p {P : VectorPartitionedTyings α} {src dest t : Ten α} (h : P.copy_p Sched.seq src dest = .ok t) :
    RaceFree (inb dest.shape) dest.v (((List.range (P.nni - P.nnu)).map (P.nnu + ·)).map (Par.copyDofs src)) t.v := by
  unfold VectorPartitionedTyings.copy_p at h
  simp only [Sched.seq] at h
  unfold Par.copyDofs
  refine (race_free (t0 := dest) (fun i ix => ix = [i]) ?_ (by sim) (by within) ?_ h).1
  · exact (List.nodup_map_iff fun a b hab => by simpa using hab).2 List.nodup_range
  · rintro i _ j _ l rfl h
    simpa using h

/-- the last loop of `VectorPartitionedTyings::asDofs_i`: `r` are the independent DOFs, `d_i` the contribution of the dependent ones -/
theorem C86_tyings_asDofs_i [NonUnitalNonAssocSemiring α] {P : VectorPartitionedTyings α} {x ret t : Ten α} (h : P.asDofs_i (fun _ => Sched.seq) x ret true = .ok t) :
    ∃ r dd di, windowLoop P.V Sched.seq (fun k => decide (k < P.nni)) 0 x (Ten.full ret.shape 0) = .ok r ∧ P.asDofs_d Sched.seq x = .ok dd ∧
      P.Cid.mulVec dd = .ok di ∧ RaceFree (inb r.shape) r.v ((it1 P.nni).map (Par.addDofs di)) t.v := by
  unfold VectorPartitionedTyings.asDofs_i at h
  obtain ⟨r, h1, h⟩ := Res.bind_ok h
  rw [if_pos rfl] at h
  obtain ⟨dd, h2, h⟩ := Res.bind_ok h
  obtain ⟨di, h3, h⟩ := Res.bind_ok h
  refine ⟨r, dd, di, h1, h2, h3, ?_⟩
  simp only [Sched.seq] at h
  unfold Par.addDofs
  exact race_free_head (t0 := _) (by sim) (by within) h

/-! ### C86: loops that write the cells listed in `ii`, without duplicates -/

theorem lget_inj {ii : List Nat} (hn : ii.Nodup) {a b k : Nat} (ha : lget ii a = .ok k) (hb : lget ii b = .ok k) : a = b := by
  unfold lget at ha hb
  cases h1 : ii[a]? with
  | none => rw [h1] at ha; cases ha
  | some x =>
    cases h2 : ii[b]? with
    | none => rw [h2] at hb; cases hb
    | some y =>
      rw [h1] at ha
      rw [h2] at hb
      injection ha with ha
      injection hb with hb
      subst ha
      subst hb
      obtain ⟨l1, e1⟩ := List.getElem?_eq_some_iff.1 h1
      obtain ⟨l2, e2⟩ := List.getElem?_eq_some_iff.1 h2
      exact (hn.getElem_inj_iff).1 (e1.trans e2.symm)

/-- one loop of `DofsFromParitioned`, of `data` and of the assignments of the matrices and solvers -/
theorem C86_putDofs {ii : List Nat} (hii : ii.Nodup) {n : Nat} {val ret t : Ten α} (h : MatrixPartitioned.putDofs Sched.seq ii n val ret = .ok t) :
    RaceFree (inb ret.shape) ret.v ((it1 n).map (Par.putDofs ii val)) t.v := by
  unfold MatrixPartitioned.putDofs at h
  simp only [Sched.seq] at h
  unfold Par.putDofs
  refine (race_free (t0 := ret) (fun d ix => ∃ k, lget ii d = .ok k ∧ ix = [k]) (nodup_it1 n) (by sim) ?_ ?_ h).1
  · exact fun d _ => Within.lift fun k hk => Within.lift fun _ _ => Within.put ⟨k, hk, rfl⟩
  · rintro i _ j _ l ⟨k, hk, rfl⟩ ⟨k', hk', e⟩
    injection e with e
    subst e
    exact lget_inj hii hk hk'

/-- `VectorPartitioned::DofsFromParitioned`: both loops -/
theorem C86_DofsFromParitioned [Zero α] {P : VectorPartitioned} (hu : P.iiu.Nodup) (hp : P.iip.Nodup) {u p t : Ten α} (h : P.DofsFromParitioned Sched.seq u p = .ok t) :
    ∃ r : Ten α, RaceFree (inb [P.V.ndof]) (fun _ => some 0) ((it1 P.nnu).map (Par.putDofs P.iiu u)) r.v ∧
      RaceFree (inb r.shape) r.v ((it1 P.nnp).map (Par.putDofs P.iip p)) t.v := by
  unfold VectorPartitioned.DofsFromParitioned at h
  obtain ⟨r, h1, h2⟩ := Res.bind_ok h
  exact ⟨r, C86_putDofs hu (ret := Ten.full [P.V.ndof] 0) h1, C86_putDofs hp h2⟩

/-- one loop of `MatrixDiagonalPartitioned::todense` -/
theorem C86_putDiag {ii : List Nat} (hii : ii.Nodup) {n : Nat} {val ret t : Ten α} (h : MatrixDiagonalPartitioned.putDiag Sched.seq ii n val ret = .ok t) :
    RaceFree (inb ret.shape) ret.v ((it1 n).map (Par.putDiag ii val)) t.v := by
  unfold MatrixDiagonalPartitioned.putDiag at h
  simp only [Sched.seq] at h
  unfold Par.putDiag
  refine (race_free (t0 := ret) (fun d ix => ∃ k, lget ii d = .ok k ∧ ix = [k, k]) (nodup_it1 n) (by sim) ?_ ?_ h).1
  · exact fun d _ => Within.lift fun k hk => Within.lift fun _ _ => Within.put ⟨k, hk, rfl⟩
  · rintro i _ j _ l ⟨k, hk, rfl⟩ ⟨k', hk', e⟩
    injection e with e
    subst e
    exact lget_inj hii hk hk'

/-- `dot(dofval)` (one loop), `solve(dofval)` and `reaction(dofval)` of `MatrixDiagonalPartitioned` -/
theorem C86_mulDofs [Mul α] {ii : List Nat} (hii : ii.Nodup) {n : Nat} {A x b t : Ten α} (h : MatrixDiagonalPartitioned.mulDofs Sched.seq ii n A x b = .ok t) :
    RaceFree (inb b.shape) b.v ((it1 n).map (Par.mulDofs ii A x)) t.v := by
  unfold MatrixDiagonalPartitioned.mulDofs at h
  simp only [Sched.seq] at h
  unfold Par.mulDofs
  refine (race_free (t0 := b) (fun d ix => ∃ k, lget ii d = .ok k ∧ ix = [k]) (nodup_it1 n) (by sim) ?_ ?_ h).1
  · exact fun d _ => Within.lift fun k hk => Within.lift fun _ _ => Within.lift fun _ _ => Within.put ⟨k, hk, rfl⟩
  · rintro i _ j _ l ⟨k, hk, rfl⟩ ⟨k', hk', e⟩
    injection e with e
    subst e
    exact lget_inj hii hk hk'

/-! ### C87: loops that write to a cell given by a DOF number or a node number -/

/-- every number -/
abbrev Any : Nat → Prop := fun _ => True

/-- `Vector::asDofs(nodevec)` (the same loop is in `Matrix`): no race when no two nodes share a DOF -/
theorem C87_asDofs_nodevec [Zero α] {V : Vector} {arg ret t : Ten α} (hd : ∀ a < V.nnode, ∀ b < V.nnode, a ≠ b → ¬ RowsShare V.dofs Any V.ndim a b)
    (h : V.asDofs_nodevec Sched.seq arg ret = .ok t) : RaceFree (inb ret.shape) (fun _ => some 0) ((it1 V.nnode).map (Par.asDofs_nodevec V arg)) t.v := by
  unfold Vector.asDofs_nodevec at h
  simp only [Sched.seq, forEach_it2] at h
  unfold Par.asDofs_nodevec
  refine (race_free (t0 := Ten.full ret.shape 0) (fun m ix => ∃ i k, i < V.ndim ∧ V.dofs.get [m, i] = .ok k ∧ True ∧ ix = [k]) (nodup_it1 _) (by sim) ?_ ?_ h).1
  · intro m _
    refine within_loop fun i hi => ?_
    simp only [mem_it1] at hi
    exact Within.lift fun k hk => Within.lift fun _ _ => Within.put ⟨i, k, hi, hk, trivial, rfl⟩
  · rintro a ha b hb l ⟨i, k, hi, hk, hc, rfl⟩ ⟨i', k', hi', hk', hc', e⟩
    simp only [mem_it1] at ha hb
    by_contra hab
    have : k = k' := by
      simp only [List.cons.injEq, and_true] at e
      omega
    subst this
    exact hd a ha b hb hab ⟨i, i', k, hc, hi, hi', hk, hk'⟩

/-- `Vector::asDofs(nodevec)` (the same loop is in `Matrix`): a race when two nodes share a DOF (a periodic mesh) -/
theorem C87_asDofs_nodevec_race [Zero α] {V : Vector} {arg ret t : Ten α} (h : V.asDofs_nodevec Sched.seq arg ret = .ok t) {a b : Nat} (ha : a < V.nnode) (hb : b < V.nnode)
    (hab : a ≠ b) (hs : RowsShare V.dofs Any V.ndim a b) : HasRace (inb ret.shape) (fun _ => some 0) ((it1 V.nnode).map (Par.asDofs_nodevec V arg)) := by
  unfold Vector.asDofs_nodevec at h
  simp only [Sched.seq, forEach_it2] at h
  have w := writers (P := Par.asDofs_nodevec V arg) (sh := ret.shape) (s := Ten.full ret.shape 0) (by unfold Par.asDofs_nodevec; sim) (by unfold Par.asDofs_nodevec; noread) rfl h
  have hit : ∀ a < V.nnode, ∀ i < V.ndim, ∀ k, Any k → V.dofs.get [a, i] = .ok k → (Par.asDofs_nodevec V arg a).Hits [k] := by
    intro a ha i hi k hc hk
    obtain ⟨-, s', t', e, hf⟩ := w a (by simpa using ha)
    have w' := writers (sh := ret.shape) (P := fun i => do
      let k ← V.dofs.get [a, i]
      let v ← arg.get [a, i]
      put [k] v) (by sim) (by noread) e hf
    obtain ⟨-, s'', t'', -, hf'⟩ := w' i (by simpa using hi)
    unfold Par.asDofs_nodevec
    refine Hits.loop (valid := inb ret.shape) (i := i) (fun j hj => (w' j hj).1) (by simpa using hi) ?_
    obtain ⟨d, h1, hf'⟩ := Res.bind_ok hf'
    rw [hk] at h1
    injection h1 with h1
    subst h1
    obtain ⟨v, h2, hf'⟩ := Res.bind_ok hf'
    rw [hk, h2]
    exact Or.inl rfl
  obtain ⟨i, j, k, hk, hi, hj, h1, h2⟩ := hs
  refine Writer.race (l := [k]) hab (p := Par.asDofs_nodevec V arg a) (q := Par.asDofs_nodevec V arg b) ?_ ?_ (w a (by simpa using ha)).1 (w b (by simpa using hb)).1
    (hit a ha i hi k hk h1) (hit b hb j hj k hk h2)
  · simp [it1, ha]
  · simp [it1, hb]

/-- `Vector::asDofs(nodevec)` (the same loop is in `Matrix`): the values at nodes that share a DOF agree, so every order of the accesses gives the same result -/
theorem C87_asDofs_nodevec_agree [Zero α] {V : Vector} {arg ret t : Ten α}
    (hv : ∀ m i m' i' k v v', V.dofs.get [m, i] = .ok k → V.dofs.get [m', i'] = .ok k → arg.get [m, i] = .ok v → arg.get [m', i'] = .ok v' → v = v')
    (h : V.asDofs_nodevec Sched.seq arg ret = .ok t) : SameResult (inb ret.shape) (fun _ => some 0) ((it1 V.nnode).map (Par.asDofs_nodevec V arg)) t.v := by
  unfold Vector.asDofs_nodevec at h
  simp only [Sched.seq, forEach_it2] at h
  unfold Par.asDofs_nodevec
  refine same_result (t0 := Ten.full ret.shape 0) (fun l v => ∃ m i k, True ∧ V.dofs.get [m, i] = .ok k ∧ arg.get [m, i] = .ok v ∧ l = [k]) (by sim) ?_ ?_ h
  · rintro l v v' ⟨m, i, k, hc, hk, h1, rfl⟩ ⟨m', i', k', hc', hk', h2, e⟩
    have : k = k' := by
      simp only [List.cons.injEq, and_true] at e
      omega
    subst this
    exact hv m i m' i' k v v' hk hk' h1 h2
  · intro m _
    refine Puts.loop fun i _ => ?_
    exact Puts.lift fun k hk => Puts.lift fun v hv => Puts.put ⟨m, i, k, trivial, hk, hv, rfl⟩

/-- `AsDofs_u(nodevec)` of `VectorPartitioned` and `MatrixPartitioned`: no race when no two nodes share a DOF that is written -/
theorem C87_AsDofs_u_nodevec [Zero α] {P : VectorPartitioned} {x t : Ten α} (hd : ∀ a < P.V.nnode, ∀ b < P.V.nnode, a ≠ b → ¬ RowsShare P.part (fun k => k < P.nnu) P.V.ndim a b)
    (h : P.AsDofs_u_nodevec Sched.seq x = .ok t) : RaceFree (inb [P.nnu]) (fun _ => some 0) ((it1 P.V.nnode).map (Par.AsDofs_u_nodevec P x)) t.v := by
  unfold VectorPartitioned.AsDofs_u_nodevec at h
  simp only [Sched.seq, forEach_it2] at h
  unfold Par.AsDofs_u_nodevec
  refine (race_free (t0 := Ten.full _ 0) (fun m ix => ∃ i k, i < P.V.ndim ∧ P.part.get [m, i] = .ok k ∧ k < P.nnu ∧ ix = [k]) (nodup_it1 _) (by sim) ?_ ?_ h).1
  · intro m _
    refine within_loop fun i hi => ?_
    simp only [mem_it1] at hi
    exact Within.lift fun k hk => Within.ite (fun hc => Within.lift fun _ _ => Within.put ⟨i, k, hi, hk, hc, rfl⟩) fun _ => Within.done
  · rintro a ha b hb l ⟨i, k, hi, hk, hc, rfl⟩ ⟨i', k', hi', hk', hc', e⟩
    simp only [mem_it1] at ha hb
    by_contra hab
    have : k = k' := by
      simp only [List.cons.injEq, and_true] at e
      omega
    subst this
    exact hd a ha b hb hab ⟨i, i', k, hc, hi, hi', hk, hk'⟩

/-- `AsDofs_u(nodevec)` of `VectorPartitioned` and `MatrixPartitioned`: a race when two nodes share a DOF that is written (a periodic mesh) -/
theorem C87_AsDofs_u_nodevec_race [Zero α] {P : VectorPartitioned} {x t : Ten α} (h : P.AsDofs_u_nodevec Sched.seq x = .ok t) {a b : Nat} (ha : a < P.V.nnode) (hb : b < P.V.nnode)
    (hab : a ≠ b) (hs : RowsShare P.part (fun k => k < P.nnu) P.V.ndim a b) : HasRace (inb [P.nnu]) (fun _ => some 0) ((it1 P.V.nnode).map (Par.AsDofs_u_nodevec P x)) := by
  unfold VectorPartitioned.AsDofs_u_nodevec at h
  simp only [Sched.seq, forEach_it2] at h
  have w := writers (P := Par.AsDofs_u_nodevec P x) (sh := [P.nnu]) (s := Ten.full _ 0) (by unfold Par.AsDofs_u_nodevec; sim) (by unfold Par.AsDofs_u_nodevec; noread) rfl h
  have hit : ∀ a < P.V.nnode, ∀ i < P.V.ndim, ∀ k, k < P.nnu → P.part.get [a, i] = .ok k → (Par.AsDofs_u_nodevec P x a).Hits [k] := by
    intro a ha i hi k hc hk
    obtain ⟨-, s', t', e, hf⟩ := w a (by simpa using ha)
    have w' := writers (sh := [P.nnu]) (P := fun i => do
      let k ← P.part.get [a, i]
      if k < P.nnu then
        let v ← x.get [a, i]
        put [k] v
      else pure ()) (by sim) (by noread) e hf
    obtain ⟨-, s'', t'', -, hf'⟩ := w' i (by simpa using hi)
    unfold Par.AsDofs_u_nodevec
    refine Hits.loop (valid := inb [P.nnu]) (i := i) (fun j hj => (w' j hj).1) (by simpa using hi) ?_
    obtain ⟨d, h1, hf'⟩ := Res.bind_ok hf'
    rw [hk] at h1
    injection h1 with h1
    subst h1
    rw [if_pos hc] at hf'
    obtain ⟨v, h2, hf'⟩ := Res.bind_ok hf'
    rw [hk]
    show (if k < P.nnu then _ else _ : Prog (List Nat) α Unit).Hits [k]
    rw [if_pos hc, h2]
    exact Or.inl rfl
  obtain ⟨i, j, k, hk, hi, hj, h1, h2⟩ := hs
  refine Writer.race (l := [k]) hab (p := Par.AsDofs_u_nodevec P x a) (q := Par.AsDofs_u_nodevec P x b) ?_ ?_ (w a (by simpa using ha)).1 (w b (by simpa using hb)).1
    (hit a ha i hi k hk h1) (hit b hb j hj k hk h2)
  · simp [it1, ha]
  · simp [it1, hb]

/-- `AsDofs_u(nodevec)` of `VectorPartitioned` and `MatrixPartitioned`: the values at nodes that share a DOF agree, so every order of the accesses gives the same result -/
theorem C87_AsDofs_u_nodevec_agree [Zero α] {P : VectorPartitioned} {x t : Ten α}
    (hv : ∀ m i m' i' k v v', P.part.get [m, i] = .ok k → P.part.get [m', i'] = .ok k → x.get [m, i] = .ok v → x.get [m', i'] = .ok v' → v = v')
    (h : P.AsDofs_u_nodevec Sched.seq x = .ok t) : SameResult (inb [P.nnu]) (fun _ => some 0) ((it1 P.V.nnode).map (Par.AsDofs_u_nodevec P x)) t.v := by
  unfold VectorPartitioned.AsDofs_u_nodevec at h
  simp only [Sched.seq, forEach_it2] at h
  unfold Par.AsDofs_u_nodevec
  refine same_result (t0 := Ten.full _ 0) (fun l v => ∃ m i k, k < P.nnu ∧ P.part.get [m, i] = .ok k ∧ x.get [m, i] = .ok v ∧ l = [k]) (by sim) ?_ ?_ h
  · rintro l v v' ⟨m, i, k, hc, hk, h1, rfl⟩ ⟨m', i', k', hc', hk', h2, e⟩
    have : k = k' := by
      simp only [List.cons.injEq, and_true] at e
      omega
    subst this
    exact hv m i m' i' k v v' hk hk' h1 h2
  · intro m _
    refine Puts.loop fun i _ => ?_
    exact Puts.lift fun k hk => Puts.ite (fun hc => Puts.lift fun v hv => Puts.put ⟨m, i, k, hc, hk, hv, rfl⟩) fun _ => Puts.done

/-- `AsDofs_p(nodevec)` of `VectorPartitioned` and `MatrixPartitioned`: no race when no two nodes share a DOF that is written -/
theorem C87_AsDofs_p_nodevec [Zero α] {P : VectorPartitioned} {x t : Ten α} (hd : ∀ a < P.V.nnode, ∀ b < P.V.nnode, a ≠ b → ¬ RowsShare P.part (fun k => P.nnu ≤ k) P.V.ndim a b)
    (h : P.AsDofs_p_nodevec Sched.seq x = .ok t) : RaceFree (inb [P.nnp]) (fun _ => some 0) ((it1 P.V.nnode).map (Par.AsDofs_p_nodevec P x)) t.v := by
  unfold VectorPartitioned.AsDofs_p_nodevec at h
  simp only [Sched.seq, forEach_it2] at h
  unfold Par.AsDofs_p_nodevec
  refine (race_free (t0 := Ten.full _ 0) (fun m ix => ∃ i k, i < P.V.ndim ∧ P.part.get [m, i] = .ok k ∧ P.nnu ≤ k ∧ ix = [k - P.nnu]) (nodup_it1 _) (by sim) ?_ ?_ h).1
  · intro m _
    refine within_loop fun i hi => ?_
    simp only [mem_it1] at hi
    exact Within.lift fun k hk => Within.ite (fun hc => Within.lift fun _ _ => Within.put ⟨i, k, hi, hk, hc, rfl⟩) fun _ => Within.done
  · rintro a ha b hb l ⟨i, k, hi, hk, hc, rfl⟩ ⟨i', k', hi', hk', hc', e⟩
    simp only [mem_it1] at ha hb
    by_contra hab
    have : k = k' := by
      simp only [List.cons.injEq, and_true] at e
      omega
    subst this
    exact hd a ha b hb hab ⟨i, i', k, hc, hi, hi', hk, hk'⟩

/-- `AsDofs_p(nodevec)` of `VectorPartitioned` and `MatrixPartitioned`: a race when two nodes share a DOF that is written (a periodic mesh) -/
theorem C87_AsDofs_p_nodevec_race [Zero α] {P : VectorPartitioned} {x t : Ten α} (h : P.AsDofs_p_nodevec Sched.seq x = .ok t) {a b : Nat} (ha : a < P.V.nnode) (hb : b < P.V.nnode)
    (hab : a ≠ b) (hs : RowsShare P.part (fun k => P.nnu ≤ k) P.V.ndim a b) : HasRace (inb [P.nnp]) (fun _ => some 0) ((it1 P.V.nnode).map (Par.AsDofs_p_nodevec P x)) := by
  unfold VectorPartitioned.AsDofs_p_nodevec at h
  simp only [Sched.seq, forEach_it2] at h
  have w := writers (P := Par.AsDofs_p_nodevec P x) (sh := [P.nnp]) (s := Ten.full _ 0) (by unfold Par.AsDofs_p_nodevec; sim) (by unfold Par.AsDofs_p_nodevec; noread) rfl h
  have hit : ∀ a < P.V.nnode, ∀ i < P.V.ndim, ∀ k, P.nnu ≤ k → P.part.get [a, i] = .ok k → (Par.AsDofs_p_nodevec P x a).Hits [k - P.nnu] := by
    intro a ha i hi k hc hk
    obtain ⟨-, s', t', e, hf⟩ := w a (by simpa using ha)
    have w' := writers (sh := [P.nnp]) (P := fun i => do
      let k ← P.part.get [a, i]
      if P.nnu ≤ k then
        let v ← x.get [a, i]
        put [k - P.nnu] v
      else pure ()) (by sim) (by noread) e hf
    obtain ⟨-, s'', t'', -, hf'⟩ := w' i (by simpa using hi)
    unfold Par.AsDofs_p_nodevec
    refine Hits.loop (valid := inb [P.nnp]) (i := i) (fun j hj => (w' j hj).1) (by simpa using hi) ?_
    obtain ⟨d, h1, hf'⟩ := Res.bind_ok hf'
    rw [hk] at h1
    injection h1 with h1
    subst h1
    rw [if_pos hc] at hf'
    obtain ⟨v, h2, hf'⟩ := Res.bind_ok hf'
    rw [hk]
    show (if P.nnu ≤ k then _ else _ : Prog (List Nat) α Unit).Hits [k - P.nnu]
    rw [if_pos hc, h2]
    exact Or.inl rfl
  obtain ⟨i, j, k, hk, hi, hj, h1, h2⟩ := hs
  refine Writer.race (l := [k - P.nnu]) hab (p := Par.AsDofs_p_nodevec P x a) (q := Par.AsDofs_p_nodevec P x b) ?_ ?_ (w a (by simpa using ha)).1 (w b (by simpa using hb)).1
    (hit a ha i hi k hk h1) (hit b hb j hj k hk h2)
  · simp [it1, ha]
  · simp [it1, hb]

/-- `AsDofs_p(nodevec)` of `VectorPartitioned` and `MatrixPartitioned`: the values at nodes that share a DOF agree, so every order of the accesses gives the same result -/
theorem C87_AsDofs_p_nodevec_agree [Zero α] {P : VectorPartitioned} {x t : Ten α}
    (hv : ∀ m i m' i' k v v', P.part.get [m, i] = .ok k → P.part.get [m', i'] = .ok k → x.get [m, i] = .ok v → x.get [m', i'] = .ok v' → v = v')
    (h : P.AsDofs_p_nodevec Sched.seq x = .ok t) : SameResult (inb [P.nnp]) (fun _ => some 0) ((it1 P.V.nnode).map (Par.AsDofs_p_nodevec P x)) t.v := by
  unfold VectorPartitioned.AsDofs_p_nodevec at h
  simp only [Sched.seq, forEach_it2] at h
  unfold Par.AsDofs_p_nodevec
  refine same_result (t0 := Ten.full _ 0) (fun l v => ∃ m i k, P.nnu ≤ k ∧ P.part.get [m, i] = .ok k ∧ x.get [m, i] = .ok v ∧ l = [k - P.nnu]) (by sim) ?_ ?_ h
  · rintro l v v' ⟨m, i, k, hc, hk, h1, rfl⟩ ⟨m', i', k', hc', hk', h2, e⟩
    have : k = k' := by
      simp only [List.cons.injEq, and_true] at e
      omega
    subst this
    exact hv m i m' i' k v v' hk hk' h1 h2
  · intro m _
    refine Puts.loop fun i _ => ?_
    exact Puts.lift fun k hk => Puts.ite (fun hc => Puts.lift fun v hv => Puts.put ⟨m, i, k, hc, hk, hv, rfl⟩) fun _ => Puts.done

/-- the loops of `AsDofs_u`, `AsDofs_p`, `AsDofs_d` and `asDofs_i` on node vectors of the two classes with tyings (`lo` is the lowest DOF that is kept): no race when no two nodes share a DOF that is written -/
theorem C87_windowLoop {V : Vector} {keep : Nat → Bool} {lo : Nat} {x ret t : Ten α} (hkeep : ∀ k, keep k = true → lo ≤ k) (hd : ∀ a < V.nnode, ∀ b < V.nnode, a ≠ b → ¬ RowsShare V.dofs (fun k => keep k = true) V.ndim a b)
    (h : windowLoop V Sched.seq keep lo x ret = .ok t) : RaceFree (inb ret.shape) ret.v ((it1 V.nnode).map (Par.windowLoop V keep lo x)) t.v := by
  unfold windowLoop at h
  simp only [Sched.seq, forEach_it2] at h
  unfold Par.windowLoop
  refine (race_free (t0 := ret) (fun m ix => ∃ i k, i < V.ndim ∧ V.dofs.get [m, i] = .ok k ∧ keep k = true ∧ ix = [k - lo]) (nodup_it1 _) (by sim) ?_ ?_ h).1
  · intro m _
    refine within_loop fun i hi => ?_
    simp only [mem_it1] at hi
    exact Within.lift fun k hk => Within.ite (fun hc => Within.lift fun _ _ => Within.put ⟨i, k, hi, hk, hc, rfl⟩) fun _ => Within.done
  · rintro a ha b hb l ⟨i, k, hi, hk, hc, rfl⟩ ⟨i', k', hi', hk', hc', e⟩
    simp only [mem_it1] at ha hb
    by_contra hab
    have h1' := hkeep k hc
    have h2' := hkeep k' hc'
    have : k = k' := by
      simp only [List.cons.injEq, and_true] at e
      omega
    subst this
    exact hd a ha b hb hab ⟨i, i', k, hc, hi, hi', hk, hk'⟩

/-- the loops of `AsDofs_u`, `AsDofs_p`, `AsDofs_d` and `asDofs_i` on node vectors of the two classes with tyings (`lo` is the lowest DOF that is kept): a race when two nodes share a DOF that is written (a periodic mesh) -/
theorem C87_windowLoop_race {V : Vector} {keep : Nat → Bool} {lo : Nat} {x ret t : Ten α} (h : windowLoop V Sched.seq keep lo x ret = .ok t) {a b : Nat} (ha : a < V.nnode) (hb : b < V.nnode)
    (hab : a ≠ b) (hs : RowsShare V.dofs (fun k => keep k = true) V.ndim a b) : HasRace (inb ret.shape) ret.v ((it1 V.nnode).map (Par.windowLoop V keep lo x)) := by
  unfold windowLoop at h
  simp only [Sched.seq, forEach_it2] at h
  have w := writers (P := Par.windowLoop V keep lo x) (sh := ret.shape) (s := ret) (by unfold Par.windowLoop; sim) (by unfold Par.windowLoop; noread) rfl h
  have hit : ∀ a < V.nnode, ∀ i < V.ndim, ∀ k, keep k = true → V.dofs.get [a, i] = .ok k → (Par.windowLoop V keep lo x a).Hits [k - lo] := by
    intro a ha i hi k hc hk
    obtain ⟨-, s', t', e, hf⟩ := w a (by simpa using ha)
    have w' := writers (sh := ret.shape) (P := fun i => do
      let k ← V.dofs.get [a, i]
      if keep k then
        let v ← x.get [a, i]
        put [k - lo] v
      else pure ()) (by sim) (by noread) e hf
    obtain ⟨-, s'', t'', -, hf'⟩ := w' i (by simpa using hi)
    unfold Par.windowLoop
    refine Hits.loop (valid := inb ret.shape) (i := i) (fun j hj => (w' j hj).1) (by simpa using hi) ?_
    obtain ⟨d, h1, hf'⟩ := Res.bind_ok hf'
    rw [hk] at h1
    injection h1 with h1
    subst h1
    rw [if_pos hc] at hf'
    obtain ⟨v, h2, hf'⟩ := Res.bind_ok hf'
    rw [hk]
    show (if keep k then _ else _ : Prog (List Nat) α Unit).Hits [k - lo]
    rw [if_pos hc, h2]
    exact Or.inl rfl
  obtain ⟨i, j, k, hk, hi, hj, h1, h2⟩ := hs
  refine Writer.race (l := [k - lo]) hab (p := Par.windowLoop V keep lo x a) (q := Par.windowLoop V keep lo x b) ?_ ?_ (w a (by simpa using ha)).1 (w b (by simpa using hb)).1
    (hit a ha i hi k hk h1) (hit b hb j hj k hk h2)
  · simp [it1, ha]
  · simp [it1, hb]

/-- the loops of `AsDofs_u`, `AsDofs_p`, `AsDofs_d` and `asDofs_i` on node vectors of the two classes with tyings (`lo` is the lowest DOF that is kept): the values at nodes that share a DOF agree, so every order of the accesses gives the same result -/
theorem C87_windowLoop_agree {V : Vector} {keep : Nat → Bool} {lo : Nat} {x ret t : Ten α} (hkeep : ∀ k, keep k = true → lo ≤ k)
    (hv : ∀ m i m' i' k v v', V.dofs.get [m, i] = .ok k → V.dofs.get [m', i'] = .ok k → x.get [m, i] = .ok v → x.get [m', i'] = .ok v' → v = v')
    (h : windowLoop V Sched.seq keep lo x ret = .ok t) : SameResult (inb ret.shape) ret.v ((it1 V.nnode).map (Par.windowLoop V keep lo x)) t.v := by
  unfold windowLoop at h
  simp only [Sched.seq, forEach_it2] at h
  unfold Par.windowLoop
  refine same_result (t0 := ret) (fun l v => ∃ m i k, keep k = true ∧ V.dofs.get [m, i] = .ok k ∧ x.get [m, i] = .ok v ∧ l = [k - lo]) (by sim) ?_ ?_ h
  · rintro l v v' ⟨m, i, k, hc, hk, h1, rfl⟩ ⟨m', i', k', hc', hk', h2, e⟩
    have h1' := hkeep k hc
    have h2' := hkeep k' hc'
    have : k = k' := by
      simp only [List.cons.injEq, and_true] at e
      omega
    subst this
    exact hv m i m' i' k v v' hk hk' h1 h2
  · intro m _
    refine Puts.loop fun i _ => ?_
    exact Puts.lift fun k hk => Puts.ite (fun hc => Puts.lift fun v hv => Puts.put ⟨m, i, k, hc, hk, hv, rfl⟩) fun _ => Puts.done

/-- `Vector::asDofs(elemvec)`: no race when no two elements share a DOF -/
theorem C87_asDofs_elemvec [Zero α] {V : Vector} {arg ret t : Ten α} (hd : ∀ a < V.nelem, ∀ b < V.nelem, a ≠ b → ¬ ElemsShare V.conn V.dofs Any V.nne V.ndim a b)
    (h : V.asDofs_elemvec Sched.seq arg ret = .ok t) : RaceFree (inb ret.shape) (fun _ => some 0) ((it1 V.nelem).map (Par.asDofs_elemvec V arg)) t.v := by
  unfold Vector.asDofs_elemvec at h
  simp only [Sched.seq, forEach_it3] at h
  unfold Par.asDofs_elemvec
  refine (race_free (t0 := Ten.full ret.shape 0) (fun e ix => ∃ i n x' k, i < V.nne ∧ x' < V.ndim ∧ V.conn.get [e, i] = .ok n ∧ V.dofs.get [n, x'] = .ok k ∧ True ∧ ix = [k])
    (nodup_it1 _) (by sim) ?_ ?_ h).1
  · intro e _
    refine within_loop fun k hk => ?_
    simp only [mem_it2] at hk
    exact Within.lift fun n hn => Within.lift fun d hd => Within.lift fun _ _ => Within.put ⟨k.1, n, k.2, d, hk.1, hk.2, hn, hd, trivial, rfl⟩
  · rintro a ha b hb l ⟨i, n, x', k, hi, hx, hn, hk, hc, rfl⟩ ⟨i', n', y', k', hi', hx', hn', hk', hc', e⟩
    simp only [mem_it1] at ha hb
    by_contra hab
    have : k = k' := by
      simp only [List.cons.injEq, and_true] at e
      omega
    subst this
    exact hd a ha b hb hab ⟨i, i', n, n', x', y', k, hc, hi, hi', hx, hx', hn, hn', hk, hk'⟩

/-- `Vector::asDofs(elemvec)`: a race when two elements share a DOF, which is so in every mesh with neighbouring elements -/
theorem C87_asDofs_elemvec_race [Zero α] {V : Vector} {arg ret t : Ten α} (h : V.asDofs_elemvec Sched.seq arg ret = .ok t) {a b : Nat} (ha : a < V.nelem) (hb : b < V.nelem)
    (hab : a ≠ b) (hs : ElemsShare V.conn V.dofs Any V.nne V.ndim a b) : HasRace (inb ret.shape) (fun _ => some 0) ((it1 V.nelem).map (Par.asDofs_elemvec V arg)) := by
  unfold Vector.asDofs_elemvec at h
  simp only [Sched.seq, forEach_it3] at h
  have w := writers (P := Par.asDofs_elemvec V arg) (sh := ret.shape) (s := Ten.full ret.shape 0) (by unfold Par.asDofs_elemvec; sim) (by unfold Par.asDofs_elemvec; noread) rfl h
  have hit : ∀ a < V.nelem, ∀ i < V.nne, ∀ x' < V.ndim, ∀ n k, Any k → V.conn.get [a, i] = .ok n → V.dofs.get [n, x'] = .ok k →
      (Par.asDofs_elemvec V arg a).Hits [k] := by
    intro a ha i hi x' hx n k hc hn hk
    obtain ⟨-, s', t', e, hf⟩ := w a (by simpa using ha)
    have w' := writers (sh := ret.shape) (P := fun mi => do
      let n ← V.conn.get [a, mi.1]
      let k ← V.dofs.get [n, mi.2]
      let v ← arg.get [a, mi.1, mi.2]
      put [k] v) (by sim) (by noread) e hf
    have hm : (i, x') ∈ it2 V.nne V.ndim := by simp [hi, hx]
    obtain ⟨-, s'', t'', -, hf'⟩ := w' (i, x') hm
    unfold Par.asDofs_elemvec
    refine Hits.loop (valid := inb ret.shape) (i := (i, x')) (fun j hj => (w' j hj).1) hm ?_
    obtain ⟨n', h1, hf'⟩ := Res.bind_ok hf'
    obtain ⟨d, h2, hf'⟩ := Res.bind_ok hf'
    dsimp only at h1 h2 ⊢
    rw [hn] at h1
    injection h1 with h1
    subst h1
    rw [hk] at h2
    injection h2 with h2
    subst h2
    obtain ⟨v, h3, hf'⟩ := Res.bind_ok hf'
    dsimp only at h3
    rw [hn]
    show (liftM (V.dofs.get [n, x']) >>= _ : Prog (List Nat) α Unit).Hits [k]
    rw [hk]
    show (liftM (arg.get [a, i, x']) >>= _ : Prog (List Nat) α Unit).Hits [k]
    rw [h3]
    exact Or.inl rfl
  obtain ⟨i, j, n, n', x', y', k, hk, hi, hj, hx, hy, h1, h2, h3, h4⟩ := hs
  refine Writer.race (l := [k]) hab (p := Par.asDofs_elemvec V arg a) (q := Par.asDofs_elemvec V arg b) ?_ ?_ (w a (by simpa using ha)).1 (w b (by simpa using hb)).1
    (hit a ha i hi x' hx n k hk h1 h3) (hit b hb j hj y' hy n' k hk h2 h4)
  · simp [it1, ha]
  · simp [it1, hb]

/-- `Vector::asDofs(elemvec)`: the values of elements that share a DOF agree, so every order of the accesses gives the same result -/
theorem C87_asDofs_elemvec_agree [Zero α] {V : Vector} {arg ret t : Ten α}
    (hv : ∀ e i n c e' i' n' c' k v v', V.conn.get [e, i] = .ok n → V.conn.get [e', i'] = .ok n' → V.dofs.get [n, c] = .ok k → V.dofs.get [n', c'] = .ok k →
      arg.get [e, i, c] = .ok v → arg.get [e', i', c'] = .ok v' → v = v')
    (h : V.asDofs_elemvec Sched.seq arg ret = .ok t) : SameResult (inb ret.shape) (fun _ => some 0) ((it1 V.nelem).map (Par.asDofs_elemvec V arg)) t.v := by
  unfold Vector.asDofs_elemvec at h
  simp only [Sched.seq, forEach_it3] at h
  unfold Par.asDofs_elemvec
  refine same_result (t0 := Ten.full ret.shape 0) (fun l v => ∃ e i n c k, True ∧ V.conn.get [e, i] = .ok n ∧ V.dofs.get [n, c] = .ok k ∧ arg.get [e, i, c] = .ok v ∧ l = [k])
    (by sim) ?_ ?_ h
  · rintro l v v' ⟨e, i, n, c, k, hc, hn, hk, h1, rfl⟩ ⟨e', i', n', c', k', hc', hn', hk', h2, eq⟩
    have : k = k' := by
      simp only [List.cons.injEq, and_true] at eq
      omega
    subst this
    exact hv e i n c e' i' n' c' k v v' hn hn' hk hk' h1 h2
  · intro e _
    refine Puts.loop fun i _ => ?_
    exact Puts.lift fun n hn => Puts.lift fun k hk => Puts.lift fun v hv => Puts.put ⟨e, i.1, n, i.2, k, trivial, hn, hk, hv, rfl⟩

/-- `VectorPartitioned::AsDofs_u(elemvec)`: no race when no two elements share a DOF that is written -/
theorem C87_AsDofs_u_elemvec [Zero α] {P : VectorPartitioned} {x t : Ten α} (hd : ∀ a < P.V.nelem, ∀ b < P.V.nelem, a ≠ b → ¬ ElemsShare P.V.conn P.part (fun k => k < P.nnu) P.V.nne P.V.ndim a b)
    (h : P.AsDofs_u_elemvec Sched.seq x = .ok t) : RaceFree (inb [P.nnu]) (fun _ => some 0) ((it1 P.V.nelem).map (Par.AsDofs_u_elemvec P x)) t.v := by
  unfold VectorPartitioned.AsDofs_u_elemvec at h
  simp only [Sched.seq, forEach_it3] at h
  unfold Par.AsDofs_u_elemvec
  refine (race_free (t0 := Ten.full _ 0) (fun e ix => ∃ i n x' k, i < P.V.nne ∧ x' < P.V.ndim ∧ P.V.conn.get [e, i] = .ok n ∧ P.part.get [n, x'] = .ok k ∧ k < P.nnu ∧ ix = [k])
    (nodup_it1 _) (by sim) ?_ ?_ h).1
  · intro e _
    refine within_loop fun k hk => ?_
    simp only [mem_it2] at hk
    exact Within.lift fun n hn => Within.lift fun d hd => Within.ite (fun hc => Within.lift fun _ _ => Within.put ⟨k.1, n, k.2, d, hk.1, hk.2, hn, hd, hc, rfl⟩) fun _ => Within.done
  · rintro a ha b hb l ⟨i, n, x', k, hi, hx, hn, hk, hc, rfl⟩ ⟨i', n', y', k', hi', hx', hn', hk', hc', e⟩
    simp only [mem_it1] at ha hb
    by_contra hab
    have : k = k' := by
      simp only [List.cons.injEq, and_true] at e
      omega
    subst this
    exact hd a ha b hb hab ⟨i, i', n, n', x', y', k, hc, hi, hi', hx, hx', hn, hn', hk, hk'⟩

/-- `VectorPartitioned::AsDofs_u(elemvec)`: a race when two elements share a DOF that is written, which is so in every mesh with neighbouring elements -/
theorem C87_AsDofs_u_elemvec_race [Zero α] {P : VectorPartitioned} {x t : Ten α} (h : P.AsDofs_u_elemvec Sched.seq x = .ok t) {a b : Nat} (ha : a < P.V.nelem) (hb : b < P.V.nelem)
    (hab : a ≠ b) (hs : ElemsShare P.V.conn P.part (fun k => k < P.nnu) P.V.nne P.V.ndim a b) : HasRace (inb [P.nnu]) (fun _ => some 0) ((it1 P.V.nelem).map (Par.AsDofs_u_elemvec P x)) := by
  unfold VectorPartitioned.AsDofs_u_elemvec at h
  simp only [Sched.seq, forEach_it3] at h
  have w := writers (P := Par.AsDofs_u_elemvec P x) (sh := [P.nnu]) (s := Ten.full _ 0) (by unfold Par.AsDofs_u_elemvec; sim) (by unfold Par.AsDofs_u_elemvec; noread) rfl h
  have hit : ∀ a < P.V.nelem, ∀ i < P.V.nne, ∀ x' < P.V.ndim, ∀ n k, k < P.nnu → P.V.conn.get [a, i] = .ok n → P.part.get [n, x'] = .ok k →
      (Par.AsDofs_u_elemvec P x a).Hits [k] := by
    intro a ha i hi x' hx n k hc hn hk
    obtain ⟨-, s', t', e, hf⟩ := w a (by simpa using ha)
    have w' := writers (sh := [P.nnu]) (P := fun mi => do
      let n ← P.V.conn.get [a, mi.1]
      let k ← P.part.get [n, mi.2]
      if k < P.nnu then
        let v ← x.get [a, mi.1, mi.2]
        put [k] v
      else pure ()) (by sim) (by noread) e hf
    have hm : (i, x') ∈ it2 P.V.nne P.V.ndim := by simp [hi, hx]
    obtain ⟨-, s'', t'', -, hf'⟩ := w' (i, x') hm
    unfold Par.AsDofs_u_elemvec
    refine Hits.loop (valid := inb [P.nnu]) (i := (i, x')) (fun j hj => (w' j hj).1) hm ?_
    obtain ⟨n', h1, hf'⟩ := Res.bind_ok hf'
    obtain ⟨d, h2, hf'⟩ := Res.bind_ok hf'
    dsimp only at h1 h2 ⊢
    rw [hn] at h1
    injection h1 with h1
    subst h1
    rw [hk] at h2
    injection h2 with h2
    subst h2
    rw [if_pos hc] at hf'
    obtain ⟨v, h3, hf'⟩ := Res.bind_ok hf'
    dsimp only at h3
    rw [hn]
    show (liftM (P.part.get [n, x']) >>= _ : Prog (List Nat) α Unit).Hits [k]
    rw [hk]
    show (if k < P.nnu then _ else _ : Prog (List Nat) α Unit).Hits [k]
    rw [if_pos hc, h3]
    exact Or.inl rfl
  obtain ⟨i, j, n, n', x', y', k, hk, hi, hj, hx, hy, h1, h2, h3, h4⟩ := hs
  refine Writer.race (l := [k]) hab (p := Par.AsDofs_u_elemvec P x a) (q := Par.AsDofs_u_elemvec P x b) ?_ ?_ (w a (by simpa using ha)).1 (w b (by simpa using hb)).1
    (hit a ha i hi x' hx n k hk h1 h3) (hit b hb j hj y' hy n' k hk h2 h4)
  · simp [it1, ha]
  · simp [it1, hb]

/-- `VectorPartitioned::AsDofs_u(elemvec)`: the values of elements that share a DOF agree, so every order of the accesses gives the same result -/
theorem C87_AsDofs_u_elemvec_agree [Zero α] {P : VectorPartitioned} {x t : Ten α}
    (hv : ∀ e i n c e' i' n' c' k v v', P.V.conn.get [e, i] = .ok n → P.V.conn.get [e', i'] = .ok n' → P.part.get [n, c] = .ok k → P.part.get [n', c'] = .ok k →
      x.get [e, i, c] = .ok v → x.get [e', i', c'] = .ok v' → v = v')
    (h : P.AsDofs_u_elemvec Sched.seq x = .ok t) : SameResult (inb [P.nnu]) (fun _ => some 0) ((it1 P.V.nelem).map (Par.AsDofs_u_elemvec P x)) t.v := by
  unfold VectorPartitioned.AsDofs_u_elemvec at h
  simp only [Sched.seq, forEach_it3] at h
  unfold Par.AsDofs_u_elemvec
  refine same_result (t0 := Ten.full _ 0) (fun l v => ∃ e i n c k, k < P.nnu ∧ P.V.conn.get [e, i] = .ok n ∧ P.part.get [n, c] = .ok k ∧ x.get [e, i, c] = .ok v ∧ l = [k])
    (by sim) ?_ ?_ h
  · rintro l v v' ⟨e, i, n, c, k, hc, hn, hk, h1, rfl⟩ ⟨e', i', n', c', k', hc', hn', hk', h2, eq⟩
    have : k = k' := by
      simp only [List.cons.injEq, and_true] at eq
      omega
    subst this
    exact hv e i n c e' i' n' c' k v v' hn hn' hk hk' h1 h2
  · intro e _
    refine Puts.loop fun i _ => ?_
    exact Puts.lift fun n hn => Puts.lift fun k hk => Puts.ite (fun hc => Puts.lift fun v hv => Puts.put ⟨e, i.1, n, i.2, k, hc, hn, hk, hv, rfl⟩) fun _ => Puts.done

/-- `VectorPartitioned::AsDofs_p(elemvec)`: no race when no two elements share a DOF that is written -/
theorem C87_AsDofs_p_elemvec [Zero α] {P : VectorPartitioned} {x t : Ten α} (hd : ∀ a < P.V.nelem, ∀ b < P.V.nelem, a ≠ b → ¬ ElemsShare P.V.conn P.part (fun k => P.nnu ≤ k) P.V.nne P.V.ndim a b)
    (h : P.AsDofs_p_elemvec Sched.seq x = .ok t) : RaceFree (inb [P.nnp]) (fun _ => some 0) ((it1 P.V.nelem).map (Par.AsDofs_p_elemvec P x)) t.v := by
  unfold VectorPartitioned.AsDofs_p_elemvec at h
  simp only [Sched.seq, forEach_it3] at h
  unfold Par.AsDofs_p_elemvec
  refine (race_free (t0 := Ten.full _ 0) (fun e ix => ∃ i n x' k, i < P.V.nne ∧ x' < P.V.ndim ∧ P.V.conn.get [e, i] = .ok n ∧ P.part.get [n, x'] = .ok k ∧ P.nnu ≤ k ∧ ix = [k - P.nnu])
    (nodup_it1 _) (by sim) ?_ ?_ h).1
  · intro e _
    refine within_loop fun k hk => ?_
    simp only [mem_it2] at hk
    exact Within.lift fun n hn => Within.lift fun d hd => Within.ite (fun hc => Within.lift fun _ _ => Within.put ⟨k.1, n, k.2, d, hk.1, hk.2, hn, hd, hc, rfl⟩) fun _ => Within.done
  · rintro a ha b hb l ⟨i, n, x', k, hi, hx, hn, hk, hc, rfl⟩ ⟨i', n', y', k', hi', hx', hn', hk', hc', e⟩
    simp only [mem_it1] at ha hb
    by_contra hab
    have : k = k' := by
      simp only [List.cons.injEq, and_true] at e
      omega
    subst this
    exact hd a ha b hb hab ⟨i, i', n, n', x', y', k, hc, hi, hi', hx, hx', hn, hn', hk, hk'⟩

/-- `VectorPartitioned::AsDofs_p(elemvec)`: a race when two elements share a DOF that is written, which is so in every mesh with neighbouring elements -/
theorem C87_AsDofs_p_elemvec_race [Zero α] {P : VectorPartitioned} {x t : Ten α} (h : P.AsDofs_p_elemvec Sched.seq x = .ok t) {a b : Nat} (ha : a < P.V.nelem) (hb : b < P.V.nelem)
    (hab : a ≠ b) (hs : ElemsShare P.V.conn P.part (fun k => P.nnu ≤ k) P.V.nne P.V.ndim a b) : HasRace (inb [P.nnp]) (fun _ => some 0) ((it1 P.V.nelem).map (Par.AsDofs_p_elemvec P x)) := by
  unfold VectorPartitioned.AsDofs_p_elemvec at h
  simp only [Sched.seq, forEach_it3] at h
  have w := writers (P := Par.AsDofs_p_elemvec P x) (sh := [P.nnp]) (s := Ten.full _ 0) (by unfold Par.AsDofs_p_elemvec; sim) (by unfold Par.AsDofs_p_elemvec; noread) rfl h
  have hit : ∀ a < P.V.nelem, ∀ i < P.V.nne, ∀ x' < P.V.ndim, ∀ n k, P.nnu ≤ k → P.V.conn.get [a, i] = .ok n → P.part.get [n, x'] = .ok k →
      (Par.AsDofs_p_elemvec P x a).Hits [k - P.nnu] := by
    intro a ha i hi x' hx n k hc hn hk
    obtain ⟨-, s', t', e, hf⟩ := w a (by simpa using ha)
    have w' := writers (sh := [P.nnp]) (P := fun mi => do
      let n ← P.V.conn.get [a, mi.1]
      let k ← P.part.get [n, mi.2]
      if P.nnu ≤ k then
        let v ← x.get [a, mi.1, mi.2]
        put [k - P.nnu] v
      else pure ()) (by sim) (by noread) e hf
    have hm : (i, x') ∈ it2 P.V.nne P.V.ndim := by simp [hi, hx]
    obtain ⟨-, s'', t'', -, hf'⟩ := w' (i, x') hm
    unfold Par.AsDofs_p_elemvec
    refine Hits.loop (valid := inb [P.nnp]) (i := (i, x')) (fun j hj => (w' j hj).1) hm ?_
    obtain ⟨n', h1, hf'⟩ := Res.bind_ok hf'
    obtain ⟨d, h2, hf'⟩ := Res.bind_ok hf'
    dsimp only at h1 h2 ⊢
    rw [hn] at h1
    injection h1 with h1
    subst h1
    rw [hk] at h2
    injection h2 with h2
    subst h2
    rw [if_pos hc] at hf'
    obtain ⟨v, h3, hf'⟩ := Res.bind_ok hf'
    dsimp only at h3
    rw [hn]
    show (liftM (P.part.get [n, x']) >>= _ : Prog (List Nat) α Unit).Hits [k - P.nnu]
    rw [hk]
    show (if P.nnu ≤ k then _ else _ : Prog (List Nat) α Unit).Hits [k - P.nnu]
    rw [if_pos hc, h3]
    exact Or.inl rfl
  obtain ⟨i, j, n, n', x', y', k, hk, hi, hj, hx, hy, h1, h2, h3, h4⟩ := hs
  refine Writer.race (l := [k - P.nnu]) hab (p := Par.AsDofs_p_elemvec P x a) (q := Par.AsDofs_p_elemvec P x b) ?_ ?_ (w a (by simpa using ha)).1 (w b (by simpa using hb)).1
    (hit a ha i hi x' hx n k hk h1 h3) (hit b hb j hj y' hy n' k hk h2 h4)
  · simp [it1, ha]
  · simp [it1, hb]

/-- `VectorPartitioned::AsDofs_p(elemvec)`: the values of elements that share a DOF agree, so every order of the accesses gives the same result -/
theorem C87_AsDofs_p_elemvec_agree [Zero α] {P : VectorPartitioned} {x t : Ten α}
    (hv : ∀ e i n c e' i' n' c' k v v', P.V.conn.get [e, i] = .ok n → P.V.conn.get [e', i'] = .ok n' → P.part.get [n, c] = .ok k → P.part.get [n', c'] = .ok k →
      x.get [e, i, c] = .ok v → x.get [e', i', c'] = .ok v' → v = v')
    (h : P.AsDofs_p_elemvec Sched.seq x = .ok t) : SameResult (inb [P.nnp]) (fun _ => some 0) ((it1 P.V.nelem).map (Par.AsDofs_p_elemvec P x)) t.v := by
  unfold VectorPartitioned.AsDofs_p_elemvec at h
  simp only [Sched.seq, forEach_it3] at h
  unfold Par.AsDofs_p_elemvec
  refine same_result (t0 := Ten.full _ 0) (fun l v => ∃ e i n c k, P.nnu ≤ k ∧ P.V.conn.get [e, i] = .ok n ∧ P.part.get [n, c] = .ok k ∧ x.get [e, i, c] = .ok v ∧ l = [k - P.nnu])
    (by sim) ?_ ?_ h
  · rintro l v v' ⟨e, i, n, c, k, hc, hn, hk, h1, rfl⟩ ⟨e', i', n', c', k', hc', hn', hk', h2, eq⟩
    have : k = k' := by
      simp only [List.cons.injEq, and_true] at eq
      omega
    subst this
    exact hv e i n c e' i' n' c' k v v' hn hn' hk hk' h1 h2
  · intro e _
    refine Puts.loop fun i _ => ?_
    exact Puts.lift fun n hn => Puts.lift fun k hk => Puts.ite (fun hc => Puts.lift fun v hv => Puts.put ⟨e, i.1, n, i.2, k, hc, hn, hk, hv, rfl⟩) fun _ => Puts.done

/-- `Vector::asNode(elemvec)`: no race when no two elements share a node -/
theorem C87_asNode_elemvec [Zero α] {V : Vector} {arg ret t : Ten α} (hd : ∀ a < V.nelem, ∀ b < V.nelem, a ≠ b → ¬ RowsShare V.conn Any V.nne a b)
    (h : V.asNode_elemvec Sched.seq arg ret = .ok t) : RaceFree (inb ret.shape) (fun _ => some 0) ((it1 V.nelem).map (Par.asNode_elemvec V arg)) t.v := by
  unfold Vector.asNode_elemvec at h
  simp only [Sched.seq, forEach_it3] at h
  unfold Par.asNode_elemvec
  refine (race_free (t0 := Ten.full ret.shape 0) (fun e ix => ∃ i n x, i < V.nne ∧ V.conn.get [e, i] = .ok n ∧ ix = [n, x]) (nodup_it1 _) (by sim) ?_ ?_ h).1
  · intro e _
    refine within_loop fun k hk => ?_
    simp only [mem_it2] at hk
    exact Within.lift fun n hn => Within.lift fun _ _ => Within.put ⟨k.1, n, k.2, hk.1, hn, rfl⟩
  · rintro a ha b hb l ⟨i, n, x, hi, hn, rfl⟩ ⟨i', n', x', hi', hn', e⟩
    simp only [mem_it1] at ha hb
    by_contra hab
    injection e with e
    subst e
    exact hd a ha b hb hab ⟨i, i', n, trivial, hi, hi', hn, hn'⟩

/-- `Vector::asNode(elemvec)`: a race when two elements share a node, which is so in every mesh with neighbouring elements -/
theorem C87_asNode_elemvec_race [Zero α] {V : Vector} {arg ret t : Ten α} (h : V.asNode_elemvec Sched.seq arg ret = .ok t) {a b : Nat} (ha : a < V.nelem) (hb : b < V.nelem)
    (hab : a ≠ b) (hs : RowsShare V.conn Any V.nne a b) (hdim : 0 < V.ndim) :
    HasRace (inb ret.shape) (fun _ => some 0) ((it1 V.nelem).map (Par.asNode_elemvec V arg)) := by
  unfold Vector.asNode_elemvec at h
  simp only [Sched.seq, forEach_it3] at h
  have w := writers (P := Par.asNode_elemvec V arg) (sh := ret.shape) (s := Ten.full ret.shape 0) (by unfold Par.asNode_elemvec; sim) (by unfold Par.asNode_elemvec; noread) rfl h
  have hit : ∀ a < V.nelem, ∀ i < V.nne, ∀ k, V.conn.get [a, i] = .ok k → (Par.asNode_elemvec V arg a).Hits [k, 0] := by
    intro a ha i hi k hk
    obtain ⟨-, s', t', e, hf⟩ := w a (by simpa using ha)
    have w' := writers (sh := ret.shape) (P := fun mi => do
      let n ← V.conn.get [a, mi.1]
      let v ← arg.get [a, mi.1, mi.2]
      put [n, mi.2] v) (by sim) (by noread) e hf
    have hm : (i, 0) ∈ it2 V.nne V.ndim := by simp [hi, hdim]
    obtain ⟨-, s'', t'', -, hf'⟩ := w' (i, 0) hm
    unfold Par.asNode_elemvec
    refine Hits.loop (valid := inb ret.shape) (i := (i, 0)) (fun j hj => (w' j hj).1) hm ?_
    obtain ⟨d, h1, hf'⟩ := Res.bind_ok hf'
    obtain ⟨v, h2, hf'⟩ := Res.bind_ok hf'
    dsimp only at h2 ⊢
    rw [hk, h2]
    exact Or.inl rfl
  obtain ⟨i, j, k, -, hi, hj, h1, h2⟩ := hs
  refine Writer.race (l := [k, 0]) hab (p := Par.asNode_elemvec V arg a) (q := Par.asNode_elemvec V arg b) ?_ ?_ (w a (by simpa using ha)).1 (w b (by simpa using hb)).1
    (hit a ha i hi k h1) (hit b hb j hj k h2)
  · simp [it1, ha]
  · simp [it1, hb]

/-- `Vector::asNode(elemvec)`: the values of elements that share a node agree, so every order of the accesses gives the same result -/
theorem C87_asNode_elemvec_agree [Zero α] {V : Vector} {arg ret t : Ten α}
    (hv : ∀ e i e' i' n c v v', V.conn.get [e, i] = .ok n → V.conn.get [e', i'] = .ok n → arg.get [e, i, c] = .ok v → arg.get [e', i', c] = .ok v' → v = v')
    (h : V.asNode_elemvec Sched.seq arg ret = .ok t) : SameResult (inb ret.shape) (fun _ => some 0) ((it1 V.nelem).map (Par.asNode_elemvec V arg)) t.v := by
  unfold Vector.asNode_elemvec at h
  simp only [Sched.seq, forEach_it3] at h
  unfold Par.asNode_elemvec
  refine same_result (t0 := Ten.full ret.shape 0) (fun l v => ∃ e i n c, V.conn.get [e, i] = .ok n ∧ arg.get [e, i, c] = .ok v ∧ l = [n, c]) (by sim) ?_ ?_ h
  · rintro l v v' ⟨e, i, n, c, hn, h1, rfl⟩ ⟨e', i', n', c', hn', h2, eq⟩
    simp only [List.cons.injEq, and_true] at eq
    obtain ⟨rfl, rfl⟩ := eq
    exact hv e i e' i' n c v v' hn hn' h1 h2
  · intro e _
    refine Puts.loop fun i _ => ?_
    exact Puts.lift fun n hn => Puts.lift fun v hv => Puts.put ⟨e, i.1, n, i.2, hn, hv, rfl⟩

end GF
