import Verif.Props.Debug
import Verif.Props.Matrix
import Verif.Props.MatrixPartitioned
import Verif.Props.MatrixDiagonal
import Verif.Props.ElementBasic

/-! **C108** for the matrices and their solvers: the build with assertions (`GOOSEFEM_ENABLE_ASSERT`) throws exactly on the invalid
arguments; on the valid ones it does the same as the build without assertions, which then completes without undefined behaviour.
The one exception, `MatrixPartitioned::MatrixPartitioned`, is `MatrixPartitioned.C108_new`. -/

namespace GF
variable {α : Type}
open Finset

/-- three assertions, then the same code -/
theorem Checked.of3 {β : Type} {p q r : Prop} [Decidable p] [Decidable q] [Decidable r] {x : Res β} {good : β → Prop}
    (h : p → q → r → IsOk x good) :
    Checked (gassert p >>= fun _ => gassert q >>= fun _ => gassert r >>= fun _ => x) x (p ∧ q ∧ r) good := by
  simp only [gassert_bind]
  refine ⟨fun hp => ⟨by rw [if_pos hp.1, if_pos hp.2.1, if_pos hp.2.2], h hp.1 hp.2.1 hp.2.2⟩, fun hp => ?_⟩
  by_cases h1 : p
  · rw [if_pos h1]
    by_cases h2 : q
    · rw [if_pos h2, if_neg fun h3 => hp ⟨h1, h2, h3⟩]
    · exact if_neg h2
  · exact if_neg h1

theorem foldl_max_lt {l : List Nat} {n : Nat} (hn : 0 < n) : l.foldl max 0 < n ↔ ∀ k ∈ l, k < n := by
  constructor
  · intro h k hk
    have := (le_foldl_max l 0).2 k hk
    omega
  · intro h
    rcases foldl_max_mem l 0 with h' | h'
    · omega
    · exact h _ h'

namespace SMatrix
variable {M : SMatrix α} {c d : Nat → Nat → Nat} {D : Nat → Nat → α}

/-- **C108** (constructor of `Matrix`). -/
theorem C108_new [Zero α] {conn dofs : Ten Nat} {nelem nne nnode ndim : Nat} (hc : Is2 conn nelem nne c)
    (hd : Is2 dofs nnode ndim d) :
    Checked (SMatrix.new_checked (α := α) conn dofs) (SMatrix.new conn dofs)
      (0 < nnode ∧ 0 < ndim ∧ (∀ e m, e < nelem → m < nne → c e m < nnode) ∧
        ∀ m i, m < nnode → i < ndim → d m i < nnode * ndim) fun M => M.Holds c d fun _ _ => 0 := by
  have h := Vector.C108_new hc hd
  have e : SMatrix.new_checked (α := α) conn dofs = (do
      let V ← Vector.new_checked conn dofs
      .ok ⟨V, Mat.zero V.ndof V.ndof, true⟩) := by
    unfold SMatrix.new_checked SMatrix.new Vector.new_checked
    cases Vector.new conn dofs with
    | ok V =>
      simp only [Res.ok_bind]
      cases amax conn with
      | ok a =>
        simp only [Res.ok_bind, gassert_bind]
        split
        · split <;> rfl
        · rfl
      | throws => rfl
      | ub => rfl
    | throws => rfl
    | ub => rfl
  rw [e]
  refine ⟨fun hv => ?_, fun hv => by rw [h.2 hv]; rfl⟩
  obtain ⟨e1, V, e2, hV, -⟩ := h.1 hv
  rw [e1, SMatrix.new]
  refine ⟨rfl, _, by rw [e2]; rfl, hV, rfl, rfl, fun _ _ => rfl⟩

/-- **C108** (`Matrix::assemble`). -/
theorem C108_assemble [Zero α] [Add α] (hM : M.Holds c d D) {K : Ten α} (hK : Complete K) :
    Checked (M.assemble_checked K) (M.assemble K) (K.shape = [M.V.nelem, M.V.nne * M.V.ndim, M.V.nne * M.V.ndim])
      fun M' => M'.V = M.V ∧ ∃ D', M'.Holds c d D' := by
  refine Checked.of1 fun h => ?_
  obtain ⟨k, hk⟩ := hK.is3 h
  have hV := hM.base
  rw [assemble, triplets_spec hV hk]
  simp only [Res.ok_bind]
  rw [Mat.setFromTriplets_ok]
  · exact ⟨_, rfl, rfl, _, hV, rfl, rfl, fun _ _ => rfl⟩
  · intro t ht
    obtain ⟨⟨e, m, i, n, j⟩, hx, rfl⟩ := List.mem_map.1 ht
    simp only [mem_it5] at hx
    obtain ⟨he, hm, hi, hn, hj⟩ := hx
    exact ⟨hV.dofs_lt _ _ (hV.conn_lt _ _ he hm) hi, hV.dofs_lt _ _ (hV.conn_lt _ _ he hn) hj⟩

/-- **C108** (`Matrix::set`, `Matrix::add`): the shape of the block, and the DOF numbers exist. -/
theorem C108_set_add [Zero α] [Add α] (hM : M.Holds c d D) (hn : 0 < M.V.ndof) (rows cols : List Nat) {B : Ten α}
    (hB : Complete B) :
    Checked (M.set_checked rows cols B) (M.set rows cols B)
      (B.shape = [rows.length, cols.length] ∧ (∀ s ∈ cols, s < M.V.ndof) ∧ ∀ r ∈ rows, r < M.V.ndof)
      (fun M' => M'.V = M.V ∧ ∃ D', M'.Holds c d D') ∧
    Checked (M.add_checked rows cols B) (M.add rows cols B)
      (B.shape = [rows.length, cols.length] ∧ (∀ s ∈ cols, s < M.V.ndof) ∧ ∀ r ∈ rows, r < M.V.ndof)
      fun M' => M'.V = M.V ∧ ∃ D', M'.Holds c d D' := by
  have key : B.shape = [rows.length, cols.length] → (∀ s ∈ cols, s < M.V.ndof) → (∀ r ∈ rows, r < M.V.ndof) →
      ∃ T e, blockTriplets rows cols B = .ok T ∧ Mat.setFromTriplets M.V.ndof M.V.ndof T = .ok ⟨M.V.ndof, M.V.ndof, e⟩ := by
    intro h1 h2 h3
    obtain ⟨b, hb⟩ := hB.is2 h1
    refine ⟨_, _, blockTriplets_spec hb, Mat.setFromTriplets_ok fun t ht => ?_⟩
    obtain ⟨⟨i, j⟩, hx, rfl⟩ := List.mem_map.1 ht
    rw [mem_it2] at hx
    exact ⟨h3 _ (getD_mem hx.1), h2 _ (getD_mem hx.2)⟩
  constructor
  · refine (Checked.of3 fun h1 h2 h3 => ?_).congr
      (and_congr_right' (and_congr (foldl_max_lt hn) (foldl_max_lt hn)))
    obtain ⟨T, e, e1, e2⟩ := key h1 ((foldl_max_lt hn).1 h2) ((foldl_max_lt hn).1 h3)
    exact ⟨⟨M.V, ⟨M.V.ndof, M.V.ndof, e⟩, true⟩, by rw [set, e1, Res.ok_bind, e2]; rfl, rfl, _, hM.base, rfl, rfl, fun _ _ => rfl⟩
  · refine (Checked.of3 fun h1 h2 h3 => ?_).congr
      (and_congr_right' (and_congr (foldl_max_lt hn) (foldl_max_lt hn)))
    obtain ⟨T, e, e1, e2⟩ := key h1 ((foldl_max_lt hn).1 h2) ((foldl_max_lt hn).1 h3)
    exact ⟨⟨M.V, M.A.add ⟨M.V.ndof, M.V.ndof, e⟩, true⟩, by rw [add, e1, Res.ok_bind, e2]; rfl, rfl, _, hM.base, hM.nr, hM.nc,
      fun _ _ => rfl⟩

/-- **C108** (`Matrix::Dot`): also for a node vector that gives different values to the same DOF. -/
theorem C108_dot [NonUnitalNonAssocSemiring α] (hM : M.Holds c d D) (σ τ : Sched) {x : Ten α} (hx : Complete x) :
    Checked (M.dot_dofval_checked x) (M.dot_dofval x) (x.shape = [M.V.ndof]) (CompleteOf [M.V.ndof]) ∧
    Checked (M.dot_nodevec_checked σ τ x) (M.dot_nodevec σ τ x) (x.shape = [M.V.nnode, M.V.ndim])
      (CompleteOf [M.V.nnode, M.V.ndim]) := by
  refine ⟨Checked.of1 fun h => ?_, Checked.of1 fun h => ?_⟩
  · obtain ⟨f, hf⟩ := hx.is1 h
    obtain ⟨b, e, hb⟩ := C17_dot_dofval hM hf
    exact ⟨b, e, hb.complete⟩
  · obtain ⟨f, hf⟩ := hx.is2 h
    obtain ⟨u, e1, g, hu, -⟩ := Vector.asDofs_nodevec_spec hM.base σ (ret := Ten.empty [M.V.ndof]) rfl hf
    obtain ⟨b, e2, hb⟩ := C17_dot_dofval hM hu
    obtain ⟨y, e3, hy⟩ := Vector.asNode_dofval_spec hM.base τ (ret := Ten.empty x.shape) h hb
    exact ⟨y, by
      rw [dot_nodevec, eigenAsDofs, e1, Res.ok_bind]
      change (M.dot_dofval u >>= _) = _
      rw [e2, Res.ok_bind]
      exact e3, hy.complete⟩

end SMatrix

/-- `m_solver.solve(b)` with the factors of the current matrix completes -/
theorem SolverState.solve_ok [Zero α] (S : LinSolver α) {s : SolverState α} {A : Mat α} (hs : s.fact = some A) {b : Ten α}
    {f : Nat → α} (hb : Is1 b A.nr f) : ∃ x g, s.solve S b = .ok x ∧ Is1 x A.nc g := by
  refine ⟨_, _, by rw [SolverState.solve, hs]; simp only [hb.1, if_true, hb.flat, Res.ok_bind]; rfl, rfl, fun i _ => rfl⟩

/-- **C108** (`MatrixSolver::Solve`). -/
theorem SolverState.C108_solve [Zero α] {M : SMatrix α} {c d : Nat → Nat → Nat} {D : Nat → Nat → α} (S : LinSolver α)
    (s : SolverState α) (hM : M.Holds c d D) (hs : s.Fresh M.changed M.A) (σ τ : Sched) {b : Ten α} (hb : Complete b) :
    Checked (s.solve_dofval_checked S M b) (s.solve_dofval S M b) (b.shape = [M.V.ndof])
      (fun r => r.2.1.V = M.V ∧ r.2.1.A = M.A ∧ CompleteOf [M.V.ndof] r.2.2) ∧
    Checked (s.solve_nodevec_checked S M σ τ b) (s.solve_nodevec S M σ τ b) (b.shape = [M.V.nnode, M.V.ndim])
      fun r => r.2.1.V = M.V ∧ r.2.1.A = M.A ∧ CompleteOf [M.V.nnode, M.V.ndim] r.2.2 := by
  have hf := SolverState.factorize_spec s hs
  refine ⟨Checked.of1 fun h => ?_, Checked.of1 fun h => ?_⟩
  · obtain ⟨f, hb⟩ := hb.is1 h
    obtain ⟨x, g, e1, hx⟩ := SolverState.solve_ok S hf (by rw [hM.nr]; exact hb)
    rw [hM.nc] at hx
    exact ⟨_, by rw [SolverState.solve_dofval]; dsimp only; rw [e1]; rfl, rfl, rfl, hx.complete⟩
  · obtain ⟨f, hb⟩ := hb.is2 h
    obtain ⟨u, e0, g, hu, -⟩ := Vector.asDofs_nodevec_spec hM.base σ (ret := Ten.empty [M.V.ndof]) rfl hb
    obtain ⟨x, g, e1, hx⟩ := SolverState.solve_ok S hf (by rw [hM.nr]; exact hu)
    rw [hM.nc] at hx
    obtain ⟨y, e2, hy⟩ := Vector.asNode_dofval_spec hM.base τ (ret := Ten.empty b.shape) h hx
    refine ⟨_, by
      rw [SolverState.solve_nodevec]
      dsimp only [SMatrix.eigenAsDofs, SMatrix.eigenAsNode]
      rw [e0]
      simp only [Res.ok_bind]
      rw [e1]
      simp only [Res.ok_bind]
      rw [e2]
      rfl, rfl, rfl, hy.complete⟩

namespace MatrixPartitioned
variable {M : MatrixPartitioned α} {c d q : Nat → Nat → Nat} {D : Nat → Nat → α}

/-- **C108** (constructor of `MatrixPartitioned`): the assertions are those of `VectorPartitioned`; they throw on the same arguments,
but they miss a DOF number that does not occur: if a number below the largest DOF is neither in `dofs` nor in `iip`, the constructor
reads an index that was never written (`xt::empty`), in the build with assertions too. -/
theorem C108_new [Zero α] {conn dofs : Ten Nat} {nelem nne nnode ndim : Nat} (hc : Is2 conn nelem nne c)
    (hd : Is2 dofs nnode ndim d) (iip : List Nat) :
    let valid := (0 < nnode ∧ 0 < ndim ∧ (∀ e m, e < nelem → m < nne → c e m < nnode) ∧
        ∀ m i, m < nnode → i < ndim → d m i < nnode * ndim) ∧ iip.Nodup ∧
        ∀ k ∈ iip, ∃ m i, m < nnode ∧ i < ndim ∧ k ≤ d m i
    (¬ valid → MatrixPartitioned.new_checked (α := α) conn dofs iip = .throws) ∧
    (valid → MatrixPartitioned.new_checked (α := α) conn dofs iip = MatrixPartitioned.new conn dofs iip ∧
      ((∀ m i, m < nnode → i < ndim → ∀ k, k ≤ d m i → ∃ n j, n < nnode ∧ j < ndim ∧ d n j = k) →
        IsOk (MatrixPartitioned.new (α := α) conn dofs iip) fun M => ∃ q, M.Holds c d q fun _ _ => 0) ∧
      ((∃ m i k, m < nnode ∧ i < ndim ∧ k ≤ d m i ∧ k ∉ iip ∧ ∀ n j, n < nnode → j < ndim → d n j ≠ k) →
        MatrixPartitioned.new (α := α) conn dofs iip = .ub)) := by
  intro valid
  have h := VectorPartitioned.C108_new hc hd iip
  refine ⟨fun hv => by rw [new_checked, h.2 hv]; rfl, fun hv => ⟨?_, fun hs => ?_, ?_⟩⟩
  · obtain ⟨e, P, e', -⟩ := h.1 hv
    rw [new_checked, e, e']
    rfl
  · obtain ⟨M, q, e, -, -, -, hM⟩ := C18_constructor (α := α) hc hd hv.1.2.2.1 hv.2.1 hv.2.2 hs ⟨hv.1.1, hv.1.2.1⟩
    exact ⟨M, e, q, hM⟩
  · rintro ⟨m, i, k, hm, hi, hle, hk, hne⟩
    exact C18_constructor_gap hc hd hv.1.2.2.1 hv.2.1 hv.2.2 hk hne
      ⟨m, i, hm, hi, lt_of_le_of_ne hle fun e => hne m i hm hi e.symm⟩

/-- **C108** (`assemble`, `set`, `add`). -/
theorem C108_assemble [AddCommMonoid α] (hM : M.Holds c d q D) (hn : 0 < M.P.V.ndof) {K : Ten α} (hK : Complete K)
    (rows cols : List Nat) :
    Checked (M.assemble_checked K) (M.assemble K)
      (K.shape = [M.P.V.nelem, M.P.V.nne * M.P.V.ndim, M.P.V.nne * M.P.V.ndim])
      (fun M' => M'.P = M.P ∧ ∃ D', M'.Holds c d q D') ∧
    Checked (M.set_checked rows cols K) (M.set rows cols K)
      (K.shape = [rows.length, cols.length] ∧ (∀ s ∈ cols, s < M.P.V.ndof) ∧ ∀ r ∈ rows, r < M.P.V.ndof)
      (fun M' => M'.P = M.P ∧ ∃ D', M'.Holds c d q D') ∧
    Checked (M.add_checked rows cols K) (M.add rows cols K)
      (K.shape = [rows.length, cols.length] ∧ (∀ s ∈ cols, s < M.P.V.ndof) ∧ ∀ r ∈ rows, r < M.P.V.ndof)
      fun M' => M'.P = M.P ∧ ∃ D', M'.Holds c d q D' := by
  refine ⟨Checked.of1 fun h => ?_, (Checked.of3 fun h1 h2 h3 => ?_).congr
      (and_congr_right' (and_congr (foldl_max_lt hn) (foldl_max_lt hn))), (Checked.of3 fun h1 h2 h3 => ?_).congr
      (and_congr_right' (and_congr (foldl_max_lt hn) (foldl_max_lt hn)))⟩
  · obtain ⟨k, hk⟩ := hK.is3 h
    obtain ⟨A, e, hA⟩ := assemble_spec hM hk
    exact ⟨_, e, rfl, _, hM.base, hM.surj, hM.part1d_shape, hM.part1d, hA⟩
  · obtain ⟨b, hb⟩ := hK.is2 h1
    obtain ⟨A, e, hA⟩ := set_spec hM hb ((foldl_max_lt hn).1 h3) ((foldl_max_lt hn).1 h2)
    exact ⟨_, e, rfl, _, hM.base, hM.surj, hM.part1d_shape, hM.part1d, hA⟩
  · obtain ⟨b, hb⟩ := hK.is2 h1
    obtain ⟨A, e, hA⟩ := add_spec hM hb ((foldl_max_lt hn).1 h3) ((foldl_max_lt hn).1 h2)
    exact ⟨_, e, rfl, _, hM.base, hM.surj, hM.part1d_shape, hM.part1d, hA⟩

/-- any two vectors are the two parts of a vector on all DOFs -/
theorem join_parts {P : VectorPartitioned} (hn : (P.iiu ++ P.iip).Nodup) (fu fp : Nat → α) :
    ∃ f : Nat → α, (∀ a, a < P.iiu.length → f (P.iiu.getD a 0) = fu a) ∧ ∀ a, a < P.iip.length → f (P.iip.getD a 0) = fp a := by
  obtain ⟨h1, h2, h3⟩ := List.nodup_append.1 hn
  refine ⟨fun k => if k ∈ P.iip then fp (P.iip.idxOf k) else fu (P.iiu.idxOf k), fun a ha => ?_, fun a ha => ?_⟩
  · have hm : P.iiu.getD a 0 ∈ P.iiu := SMatrix.getD_mem ha
    dsimp only
    rw [if_neg fun h => h3 _ hm _ h rfl]
    congr 1
    have : P.iiu.getD a 0 = P.iiu[a] := by simp [List.getD, ha]
    rw [this]
    exact h1.idxOf_getElem a ha
  · have hm : P.iip.getD a 0 ∈ P.iip := SMatrix.getD_mem ha
    dsimp only
    rw [if_pos hm]
    congr 1
    have : P.iip.getD a 0 = P.iip[a] := by simp [List.getD, ha]
    rw [this]
    exact h2.idxOf_getElem a ha

theorem rows_ok [NonUnitalNonAssocSemiring α] (hM : M.Holds c d q D) {xu xp : Ten α} {fu fp : Nat → α}
    (hu : Is1 xu M.P.nnu fu) (hp : Is1 xp M.P.nnp fp) :
    (∃ y g, M.rowU xu xp = .ok y ∧ Is1 y M.P.nnu g) ∧ ∃ y g, M.rowP xu xp = .ok y ∧ Is1 y M.P.nnp g := by
  obtain ⟨f, h1, h2⟩ := join_parts (P := M.P) hM.base.nodup fu fp
  have hu' := hu.congr (g := fun a => f (M.P.iiu.getD a 0)) fun a ha => (h1 a (by rw [← hM.base.nnu]; exact ha)).symm
  have hp' := hp.congr (g := fun a => f (M.P.iip.getD a 0)) fun a ha => (h2 a (by rw [← hM.base.nnp]; exact ha)).symm
  obtain ⟨y, e, hy⟩ := rowU_spec hM hu' hp'
  obtain ⟨z, e', hz⟩ := rowP_spec hM hu' hp'
  exact ⟨⟨y, _, e, hy⟩, z, _, e', hz⟩

/-- **C108** (`Dot`). -/
theorem C108_dot [NonUnitalNonAssocSemiring α] (hM : M.Holds c d q D) (σ : Nat → Sched) {x : Ten α} (hx : Complete x) :
    Checked (M.dot_dofval_checked σ x) (M.dot_dofval σ x) (x.shape = [M.P.V.ndof]) (CompleteOf [M.P.V.ndof]) ∧
    Checked (M.dot_nodevec_checked σ x) (M.dot_nodevec σ x) (x.shape = [M.P.V.nnode, M.P.V.ndim])
      (CompleteOf [M.P.V.nnode, M.P.V.ndim]) := by
  refine ⟨Checked.of1 fun h => ?_, Checked.of1 fun h => ?_⟩
  · obtain ⟨f, hf⟩ := hx.is1 h
    obtain ⟨b, e, hb⟩ := C18_dot_dofval hM σ hf
    exact ⟨b, e, hb.complete⟩
  · obtain ⟨f, hf⟩ := hx.is2 h
    obtain ⟨xu, gu, e1, hu, -⟩ := VectorPartitioned.AsDofs_u_nodevec_spec hM.base (σ 0) hf
    obtain ⟨xp, gp, e2, hp, -⟩ := VectorPartitioned.AsDofs_p_nodevec_spec hM.base (σ 1) hf
    obtain ⟨⟨bu, ku, e3, hbu⟩, bp, kp, e4, hbp⟩ := rows_ok hM hu hp
    obtain ⟨y, e5, hy⟩ := VectorPartitioned.NodeFromPartitioned_spec hM.base (σ 2) hbu hbp
    exact ⟨y, by simp only [dot_nodevec, e1, e2, e3, e4, e5, Res.ok_bind], hy.complete⟩

/-- writing the values of some DOFs into a complete vector -/
theorem putDofs_complete (σ : Sched) {ii : List Nat} (hn : ii.Nodup) {N : Nat} (hlt : ∀ k ∈ ii, k < N) {val ret : Ten α}
    {f : Nat → α} (hv : Is1 val ii.length f) (hret : CompleteOf [N] ret) :
    ∃ y, putDofs σ ii ii.length val ret = .ok y ∧ CompleteOf [N] y := by
  obtain ⟨y, e, h1, h2, h3⟩ := putDofs_spec σ hn hlt hv hret.1
  refine ⟨y, e, h1, fun ix hix => ?_⟩
  rw [h1] at hix
  obtain ⟨k, rfl, hk⟩ := inb1.1 hix
  by_cases hm : k ∈ ii
  · obtain ⟨a, ha⟩ := List.mem_iff_getElem?.1 hm
    exact ⟨_, h2 a k ha⟩
  · rw [h3 k hm]
    exact hret.2 [k] (by rw [hret.1]; exact hix)

/-- a loop over the components of a node vector that overwrites some of them -/
theorem forEach_cond_complete {n m : Nat} (l : List (Nat × Nat)) (p : Nat → Nat → Prop) [∀ i j, Decidable (p i j)] (g : Nat → Nat → α)
    (body : Ten α → Nat × Nat → Res (Ten α)) (hl : ∀ x ∈ l, x.1 < n ∧ x.2 < m)
    (hb : ∀ i j, i < n → j < m → ∀ r : Ten α, body r (i, j) = if p i j then r.set [i, j] (g i j) else .ok r)
    {ret : Ten α} (hret : CompleteOf [n, m] ret) : ∃ y, forEach l body ret = .ok y ∧ CompleteOf [n, m] y := by
  induction l generalizing ret with
  | nil => exact ⟨ret, rfl, hret⟩
  | cons x l ih =>
    obtain ⟨i, j⟩ := x
    obtain ⟨hi, hj⟩ := hl (i, j) (by simp)
    have hl' : ∀ x ∈ l, x.1 < n ∧ x.2 < m := fun x hx => hl x (by simp [hx])
    simp only [forEach_cons]
    rw [hb i j hi hj]
    by_cases hp : p i j
    · have hs : ret.set [i, j] (g i j) = .ok ⟨ret.shape, Function.update ret.v [i, j] (some (g i j))⟩ := by
        simp [Ten.set, hret.1, inb, hi, hj]
      rw [if_pos hp, hs]
      refine ih hl' ⟨hret.1, fun ix hix => ?_⟩
      by_cases hx : ix = [i, j]
      · subst hx
        exact ⟨g i j, Function.update_self ..⟩
      · obtain ⟨a, ha⟩ := hret.2 ix hix
        exact ⟨a, (Function.update_of_ne hx ..).trans ha⟩
    · rw [if_neg hp]
      exact ih hl' hret

/-- **C108** (`Reaction`, `Reaction_p`). -/
theorem C108_reaction [NonUnitalNonAssocSemiring α] (hM : M.Holds c d q D) (σ : Nat → Sched) {x b : Ten α} (hx : Complete x)
    (hb : Complete b) :
    Checked (M.reaction_dofval_checked σ x b) (M.reaction_dofval σ x b) (x.shape = [M.P.V.ndof] ∧ b.shape = [M.P.V.ndof])
      (CompleteOf [M.P.V.ndof]) ∧
    Checked (M.reaction_nodevec_checked σ x b) (M.reaction_nodevec σ x b)
      (x.shape = [M.P.V.nnode, M.P.V.ndim] ∧ b.shape = [M.P.V.nnode, M.P.V.ndim]) (CompleteOf [M.P.V.nnode, M.P.V.ndim]) ∧
    Checked (M.reaction_p_checked x b) (M.reaction_p x b) (x.shape = [M.P.nnu] ∧ b.shape = [M.P.nnp]) (CompleteOf [M.P.nnp]) := by
  have hP := hM.base
  refine ⟨Checked.of2 fun h1 h2 => ?_, Checked.of2 fun h1 h2 => ?_, Checked.of2 fun h1 h2 => ?_⟩
  · obtain ⟨f, hf⟩ := hx.is1 h1
    obtain ⟨g, hg⟩ := hb.is1 h2
    obtain ⟨y, e, hy⟩ := C20_reaction_dofval hM σ hf hg
    exact ⟨y, e, hy.complete⟩
  · obtain ⟨f, hf⟩ := hx.is2 h1
    obtain ⟨xu, gu, e1, hu, -⟩ := VectorPartitioned.AsDofs_u_nodevec_spec hP (σ 0) hf
    obtain ⟨xp, gp, e2, hp, -⟩ := VectorPartitioned.AsDofs_p_nodevec_spec hP (σ 1) hf
    obtain ⟨-, bp, kp, e4, hbp⟩ := rows_ok hM hu hp
    obtain ⟨y, e5, hy⟩ := forEach_cond_complete (n := M.P.V.nnode) (m := M.P.V.ndim) ((σ 2).run (it2 M.P.V.nnode M.P.V.ndim))
      (fun m i => M.P.nnu ≤ q m i) (fun m i => kp (q m i - M.P.nnu)) (fun ret mi => do
        let k ← M.P.part.get [mi.1, mi.2]
        if M.P.nnu ≤ k then
          let a ← bp.get [k - M.P.nnu]
          ret.set [mi.1, mi.2] a
        else .ok ret) (fun x hx => by simpa [mem_it2] using hx) (by
        intro m i hm hi r
        simp only [hP.part.get hm hi, Res.ok_bind]
        split
        · next hge =>
          rw [hbp.get (hP.p_lt hm hi hge), Res.ok_bind]
        · rfl) ⟨h2, hb⟩
    exact ⟨y, by simp only [reaction_nodevec, e1, e2, e4, e5, Res.ok_bind], hy⟩
  · obtain ⟨f, hf⟩ := hx.is1 h1
    obtain ⟨g, hg⟩ := hb.is1 h2
    obtain ⟨-, y, k, e, hy⟩ := rows_ok hM hf hg
    exact ⟨y, e, hy.complete⟩

theorem solveRhs_ok [NonUnitalNonAssocRing α] (S : LinSolver α) {s : SolverState α} (hM : M.Holds c d q D)
    (hs : s.fact = some M.A.uu) {bu xp : Ten α} {g f : Nat → α} (hb : Is1 bu M.P.nnu g) (hp : Is1 xp M.P.nnp f) :
    ∃ y w, M.solveRhs S s bu xp = .ok y ∧ Is1 y M.P.nnu w := by
  have hP := hM.base
  have hA := hM.blocks
  obtain ⟨w, e1, hw⟩ := M.A.up.mulVec_spec (x := xp) (f := f) (by rw [hA.up_dim.2, ← hP.nnp]; exact hp)
  rw [hA.up_dim.1, ← hP.nnu] at hw
  obtain ⟨r, e2, hr⟩ := vzip_spec (· - ·) hb hw
  obtain ⟨y, k, e3, hy⟩ := SolverState.solve_ok S hs (b := r) (by rw [hA.uu_dim.1, ← hP.nnu]; exact hr)
  rw [hA.uu_dim.2, ← hP.nnu] at hy
  exact ⟨y, k, by simp only [solveRhs, e1, e2, e3, Res.ok_bind], hy⟩

/-- **C108** (`MatrixPartitionedSolver::Solve`, `Solve_u`). -/
theorem C108_solve [NonUnitalNonAssocRing α] (S : LinSolver α) (s : SolverState α) (hM : M.Holds c d q D)
    (hs : s.Fresh M.changed M.A.uu) (σ : Nat → Sched) {b x : Ten α} (hb : Complete b) (hx : Complete x) :
    Checked (M.solve_dofval_checked S s σ b x) (M.solve_dofval S s σ b x) (b.shape = [M.P.V.ndof] ∧ x.shape = [M.P.V.ndof])
      (fun r => r.2.1.P = M.P ∧ r.2.1.A = M.A ∧ CompleteOf [M.P.V.ndof] r.2.2) ∧
    Checked (M.solve_nodevec_checked S s σ b x) (M.solve_nodevec S s σ b x)
      (b.shape = [M.P.V.nnode, M.P.V.ndim] ∧ x.shape = [M.P.V.nnode, M.P.V.ndim])
      (fun r => r.2.1.P = M.P ∧ r.2.1.A = M.A ∧ CompleteOf [M.P.V.nnode, M.P.V.ndim] r.2.2) ∧
    Checked (M.solve_u_checked S s b x) (M.solve_u S s b x) (b.shape = [M.P.nnu] ∧ x.shape = [M.P.nnp])
      fun r => r.2.1.P = M.P ∧ r.2.1.A = M.A ∧ CompleteOf [M.P.nnu] r.2.2 := by
  have hP := hM.base
  have hf := SolverState.factorize_spec s hs
  refine ⟨Checked.of2 fun h1 h2 => ?_, Checked.of2 fun h1 h2 => ?_, Checked.of2 fun h1 h2 => ?_⟩
  · obtain ⟨gb, hb⟩ := hb.is1 h1
    obtain ⟨gx, hx'⟩ := hx.is1 h2
    obtain ⟨bu, e1, hbu⟩ := VectorPartitioned.AsDofs_u_dofval_spec hP (σ 0) hb
    obtain ⟨xp, e2, hxp⟩ := VectorPartitioned.AsDofs_p_dofval_spec hP (σ 1) hx'
    obtain ⟨xu, w, e3, hxu⟩ := solveRhs_ok S hM hf hbu hxp
    obtain ⟨y, e4, hy⟩ := putDofs_complete (σ 2) hP.iiu_nodup (N := M.P.V.ndof) (fun k hk => hP.iiu_lt hk)
      (by rw [← hP.nnu]; exact hxu) ⟨h2, hx⟩
    rw [← hP.nnu] at e4
    exact ⟨((s.factorize M.changed M.A.uu).1, { M with changed := (s.factorize M.changed M.A.uu).2 }, y), by
      simp only [solve_dofval, e1, e2, e3, e4, Res.ok_bind], rfl, rfl, hy⟩
  · obtain ⟨gb, hb⟩ := hb.is2 h1
    obtain ⟨gx, hx'⟩ := hx.is2 h2
    obtain ⟨bu, kb, e1, hbu, -⟩ := VectorPartitioned.AsDofs_u_nodevec_spec hP (σ 0) hb
    obtain ⟨xp, kx, e2, hxp, -⟩ := VectorPartitioned.AsDofs_p_nodevec_spec hP (σ 1) hx'
    obtain ⟨xu, w, e3, hxu⟩ := solveRhs_ok S hM hf hbu hxp
    obtain ⟨y, e5, hy⟩ := forEach_cond_complete (n := M.P.V.nnode) (m := M.P.V.ndim) ((σ 2).run (it2 M.P.V.nnode M.P.V.ndim))
      (fun m i => q m i < M.P.nnu) (fun m i => w (q m i)) (fun ret mi => do
        let k ← M.P.part.get [mi.1, mi.2]
        if k < M.P.nnu then
          let a ← xu.get [k]
          ret.set [mi.1, mi.2] a
        else .ok ret) (fun x hx => by simpa [mem_it2] using hx) (by
        intro m i hm hi r
        simp only [hP.part.get hm hi, Res.ok_bind]
        split
        · next hlt => rw [hxu.get hlt, Res.ok_bind]
        · rfl) ⟨h2, hx⟩
    exact ⟨((s.factorize M.changed M.A.uu).1, { M with changed := (s.factorize M.changed M.A.uu).2 }, y), by
      simp only [solve_nodevec, e1, e2, e3, e5, Res.ok_bind], rfl, rfl, hy⟩
  · obtain ⟨gb, hb⟩ := hb.is1 h1
    obtain ⟨gx, hx⟩ := hx.is1 h2
    obtain ⟨xu, w, e3, hxu⟩ := solveRhs_ok S hM hf hb hx
    exact ⟨((s.factorize M.changed M.A.uu).1, { M with changed := (s.factorize M.changed M.A.uu).2 }, xu), by
      simp only [solve_u, e3, Res.ok_bind], rfl, rfl, hxu.complete⟩

end MatrixPartitioned

namespace MatrixDiagonal
variable {M : MatrixDiagonal α} {c d : Nat → Nat → Nat} {o : Option (Nat → α)}

/-- **C108** (`MatrixDiagonal::assemble`): also throws if an off-diagonal entry is larger than the machine epsilon `eps` (in absolute
value, not relative to the diagonal). -/
theorem C108_assemble [Field α] [LinearOrder α] (eps : α) (hM : M.Holds c d o) {K : Ten α} (hK : Complete K) :
    Checked (M.assemble_checked eps K) (M.assemble K)
      (K.shape = [M.V.nelem, M.V.nne * M.V.ndim, M.V.nne * M.V.ndim] ∧
        ∀ e i j v, i ≠ j → K.v [e, i, j] = some v → inb K.shape [e, i, j] = true → |v| ≤ eps)
      fun M' => M'.V = M.V ∧ ∃ a, M'.Holds c d (some a) := by
  unfold assemble_checked
  simp only [gassert_bind]
  by_cases h : K.shape = [M.V.nelem, M.V.nne * M.V.ndim, M.V.nne * M.V.ndim]
  · obtain ⟨k, hk⟩ := hK.is3 h
    obtain ⟨b, e1, e2⟩ := Element.C51_isDiagonal (eps := eps) hk
    have key : b = true ↔ ∀ e i j v, i ≠ j → K.v [e, i, j] = some v → inb K.shape [e, i, j] = true → |v| ≤ eps := by
      rw [e2]
      constructor
      · intro h' e i j v hij hv hin
        rw [h] at hin
        obtain ⟨e', i', j', he, h3, h4, h5⟩ := inb3.1 hin
        obtain ⟨rfl, rfl, rfl⟩ : e = e' ∧ i = i' ∧ j = j' := by simpa using he
        rw [hk.2 e i j h3 h4 h5] at hv
        rw [← Option.some.inj hv]
        exact h' e i j h3 h4 h5 hij
      · intro h' e i j h3 h4 h5 hij
        exact h' e i j _ hij (hk.2 e i j h3 h4 h5) (by rw [h]; simp [inb, h3, h4, h5])
    rw [if_pos h, e1, Res.ok_bind]
    refine ⟨fun hv => ⟨if_pos (key.2 hv.2), ?_⟩, fun hv => if_neg fun hb => hv ⟨h, key.1 hb⟩⟩
    obtain ⟨M', e3, e4, e5, -⟩ := C23_assemble hM hk
    exact ⟨M', e3, e4, _, e5⟩
  · rw [if_neg h]
    exact ⟨fun hv => absurd hv.1 h, fun _ => rfl⟩

/-- **C108** (`MatrixDiagonal::set`). -/
theorem C108_set [Field α] (hM : M.Holds c d o) {a : Ten α} (ha : Complete a) :
    Checked (M.set_checked a) (M.set a) (a.shape = [M.V.ndof]) fun M' => M'.V = M.V ∧ ∃ a', M'.Holds c d (some a') := by
  refine Checked.of1 fun h => ?_
  obtain ⟨f, hf⟩ := ha.is1 h
  obtain ⟨M', e1, e2, e3, -⟩ := C23_set hM hf
  exact ⟨M', e1, e2, f, e3⟩

/-- **C108** (`MatrixDiagonal::Dot`): once the matrix holds a diagonal. -/
theorem C108_dot [Field α] {a : Nat → α} (hM : M.Holds c d (some a)) (σ : Sched) {x : Ten α} (hx : Complete x) :
    Checked (M.dot_dofval_checked x) (M.dot_dofval x) (x.shape = [M.V.ndof]) (CompleteOf [M.V.ndof]) ∧
    Checked (M.dot_nodevec_checked σ x) (M.dot_nodevec σ x) (x.shape = [M.V.nnode, M.V.ndim])
      (CompleteOf [M.V.nnode, M.V.ndim]) := by
  refine ⟨Checked.of1 fun h => ?_, Checked.of1 fun h => ?_⟩
  · obtain ⟨f, hf⟩ := hx.is1 h
    obtain ⟨b, e, hb⟩ := C23_dot_dofval hM hf
    exact ⟨b, e, hb.complete⟩
  · obtain ⟨f, hf⟩ := hx.is2 h
    obtain ⟨b, e, hb⟩ := C23_dot_nodevec hM σ hf
    exact ⟨b, e, hb.complete⟩

/-- **C108** (`MatrixDiagonal::Solve`): once the matrix holds a diagonal. -/
theorem C108_solve [Field α] {a : Nat → α} (hM : M.Holds c d (some a)) (σ : Nat → Sched) {b : Ten α} (hb : Complete b) :
    Checked (M.solve_dofval_checked (σ 0) b) (M.solve_dofval (σ 0) b) (b.shape = [M.V.ndof])
      (fun r => r.1.Holds c d (some a) ∧ CompleteOf [M.V.ndof] r.2) ∧
    Checked (M.solve_nodevec_checked σ b) (M.solve_nodevec σ b) (b.shape = [M.V.nnode, M.V.ndim])
      fun r => r.1.Holds c d (some a) ∧ CompleteOf [M.V.nnode, M.V.ndim] r.2 := by
  refine ⟨Checked.of1 fun h => ?_, Checked.of1 fun h => ?_⟩
  · obtain ⟨f, hf⟩ := hb.is1 h
    obtain ⟨M2, x, e, -, -, hM2, hx⟩ := MatrixDiagonal.solve_dofval_spec hM (σ 0) hf
    exact ⟨(M2, x), e, hM2, hx.complete⟩
  · obtain ⟨f, hf⟩ := hb.is2 h
    obtain ⟨M2, x, e, -, -, hM2, hx⟩ := MatrixDiagonal.solve_nodevec_spec hM σ hf
    exact ⟨(M2, x), e, hM2, hx.complete⟩

end MatrixDiagonal

namespace MatrixDiagonalPartitioned
variable {M : MatrixDiagonalPartitioned α} {c d q : Nat → Nat → Nat} {o : Option (Nat → α)}

/-- **C108** (constructor of `MatrixDiagonalPartitioned`), for DOFs that leave no number out. -/
theorem C108_new [Field α] {conn dofs : Ten Nat} {nelem nne nnode ndim : Nat} (hc : Is2 conn nelem nne c)
    (hd : Is2 dofs nnode ndim d) (iip : List Nat)
    (hs : ∀ m i, m < nnode → i < ndim → ∀ k, k ≤ d m i → ∃ n j, n < nnode ∧ j < ndim ∧ d n j = k) :
    Checked (MatrixDiagonalPartitioned.new_checked (α := α) conn dofs iip) (MatrixDiagonalPartitioned.new conn dofs iip)
      ((0 < nnode ∧ 0 < ndim ∧ (∀ e m, e < nelem → m < nne → c e m < nnode) ∧
        ∀ m i, m < nnode → i < ndim → d m i < nnode * ndim) ∧ iip.Nodup ∧
        ∀ k ∈ iip, ∃ m i, m < nnode ∧ i < ndim ∧ k ≤ d m i)
      fun M => ∃ q, VectorPartitioned.new conn dofs iip = .ok M.P ∧ M.Holds c d q none := by
  have h := VectorPartitioned.C108_new hc hd iip
  refine ⟨fun hv => ⟨?_, ?_⟩, fun hv => by rw [new_checked, h.2 hv]; rfl⟩
  · obtain ⟨e, P, e', -⟩ := h.1 hv
    rw [new_checked, e, e']
    rfl
  · obtain ⟨M, q, e, e', -, hM, -⟩ := C24_constructor (α := α) hc hd hv.1.2.2.1 hv.2.1 hv.2.2 hs ⟨hv.1.1, hv.1.2.1⟩
    exact ⟨M, e, q, e', hM⟩

/-- **C108** (`MatrixDiagonalPartitioned::assemble`), as for `MatrixDiagonal`. -/
theorem C108_assemble [Field α] [LinearOrder α] (eps : α) (hM : M.Holds c d q o) {K : Ten α} (hK : Complete K) :
    Checked (M.assemble_checked eps K) (M.assemble K)
      (K.shape = [M.P.V.nelem, M.P.V.nne * M.P.V.ndim, M.P.V.nne * M.P.V.ndim] ∧
        ∀ e i j v, i ≠ j → K.v [e, i, j] = some v → inb K.shape [e, i, j] = true → |v| ≤ eps)
      fun M' => M'.P = M.P ∧ ∃ a, M'.Holds c d q (some a) := by
  unfold assemble_checked
  simp only [gassert_bind]
  by_cases h : K.shape = [M.P.V.nelem, M.P.V.nne * M.P.V.ndim, M.P.V.nne * M.P.V.ndim]
  · obtain ⟨k, hk⟩ := hK.is3 h
    obtain ⟨b, e1, e2⟩ := Element.C51_isDiagonal (eps := eps) hk
    have key : b = true ↔ ∀ e i j v, i ≠ j → K.v [e, i, j] = some v → inb K.shape [e, i, j] = true → |v| ≤ eps := by
      rw [e2]
      constructor
      · intro h' e i j v hij hv hin
        rw [h] at hin
        obtain ⟨e', i', j', he, h3, h4, h5⟩ := inb3.1 hin
        obtain ⟨rfl, rfl, rfl⟩ : e = e' ∧ i = i' ∧ j = j' := by simpa using he
        rw [hk.2 e i j h3 h4 h5] at hv
        rw [← Option.some.inj hv]
        exact h' e i j h3 h4 h5 hij
      · intro h' e i j h3 h4 h5 hij
        exact h' e i j _ hij (hk.2 e i j h3 h4 h5) (by rw [h]; simp [inb, h3, h4, h5])
    rw [if_pos h, e1, Res.ok_bind]
    refine ⟨fun hv => ⟨if_pos (key.2 hv.2), ?_⟩, fun hv => if_neg fun hb => hv ⟨h, key.1 hb⟩⟩
    obtain ⟨M', e3, e4, e5⟩ := C24_assemble hM hk
    exact ⟨M', e3, e4, _, e5⟩
  · rw [if_neg h]
    exact ⟨fun hv => absurd hv.1 h, fun _ => rfl⟩

/-- **C108** (`MatrixDiagonalPartitioned::set`). -/
theorem C108_set [Field α] (hM : M.Holds c d q o) (σ : Nat → Sched) {a : Ten α} (ha : Complete a) :
    Checked (M.set_checked σ a) (M.set σ a) (a.shape = [M.P.V.ndof]) fun M' => M'.P = M.P ∧ ∃ a', M'.Holds c d q (some a') := by
  refine Checked.of1 fun h => ?_
  obtain ⟨f, hf⟩ := ha.is1 h
  obtain ⟨M', e1, e2, e3⟩ := set_spec hM σ hf
  exact ⟨M', e1, e2, f, e3⟩

/-- **C108** (`MatrixDiagonalPartitioned`, products): once the matrix holds a diagonal. -/
theorem C108_dot [Field α] {a : Nat → α} (hM : M.Holds c d q (some a)) (σ : Nat → Sched) (τ : Sched) {x y : Ten α}
    (hx : Complete x) (hy : Complete y) :
    Checked (M.dot_dofval_checked σ x) (M.dot_dofval σ x) (x.shape = [M.P.V.ndof]) (CompleteOf [M.P.V.ndof]) ∧
    Checked (M.dot_nodevec_checked τ x) (M.dot_nodevec τ x) (x.shape = [M.P.V.nnode, M.P.V.ndim])
      (CompleteOf [M.P.V.nnode, M.P.V.ndim]) ∧
    Checked (M.dot_u_checked τ x y) (M.dot_u τ x y) (x.shape = [M.P.nnu] ∧ y.shape = [M.P.nnp]) (CompleteOf [M.P.nnu]) ∧
    Checked (M.dot_p_checked τ x y) (M.dot_p τ x y) (x.shape = [M.P.nnu] ∧ y.shape = [M.P.nnp]) (CompleteOf [M.P.nnp]) := by
  refine ⟨Checked.of1 fun h => ?_, Checked.of1 fun h => ?_, Checked.of2 fun h h' => ?_, Checked.of2 fun h h' => ?_⟩
  · obtain ⟨f, hf⟩ := hx.is1 h
    obtain ⟨b, e, hb⟩ := C24_dot_dofval hM σ hf
    exact ⟨b, e, hb.complete⟩
  · obtain ⟨f, hf⟩ := hx.is2 h
    obtain ⟨b, e, hb⟩ := C24_dot_nodevec hM τ hf
    exact ⟨b, e, hb.complete⟩
  · obtain ⟨f, hf⟩ := hx.is1 h
    obtain ⟨g, hg⟩ := hy.is1 h'
    obtain ⟨⟨b, e, hb⟩, -⟩ := C24_dot_up hM τ hf hg
    exact ⟨b, e, hb.complete⟩
  · obtain ⟨f, hf⟩ := hx.is1 h
    obtain ⟨g, hg⟩ := hy.is1 h'
    obtain ⟨-, b, e, hb⟩ := C24_dot_up hM τ hf hg
    exact ⟨b, e, hb.complete⟩

/-- **C108** (`MatrixDiagonalPartitioned`, reactions): once the matrix holds a diagonal. -/
theorem C108_reaction [Field α] {a : Nat → α} (hM : M.Holds c d q (some a)) (σ : Sched) {x y z : Ten α}
    (hx : Complete x) (hy : Complete y) :
    Checked (M.reaction_dofval_checked σ x y) (M.reaction_dofval σ x y) (x.shape = [M.P.V.ndof] ∧ y.shape = [M.P.V.ndof])
      (CompleteOf [M.P.V.ndof]) ∧
    Checked (M.reaction_nodevec_checked σ x y) (M.reaction_nodevec σ x y)
      (x.shape = [M.P.V.nnode, M.P.V.ndim] ∧ y.shape = [M.P.V.nnode, M.P.V.ndim]) (CompleteOf [M.P.V.nnode, M.P.V.ndim]) ∧
    Checked (M.reaction_p_checked σ x y z) (M.reaction_p σ x y z)
      (x.shape = [M.P.nnu] ∧ y.shape = [M.P.nnp] ∧ z.shape = [M.P.nnp]) (CompleteOf [M.P.nnp]) := by
  refine ⟨Checked.of2 fun h h' => ?_, Checked.of2 fun h h' => ?_, Checked.of3 fun h h' h'' => ?_⟩
  · obtain ⟨f, hf⟩ := hx.is1 h
    obtain ⟨g, hg⟩ := hy.is1 h'
    obtain ⟨b, e, hb⟩ := C24_reaction_dofval hM σ hf hg
    exact ⟨b, e, hb.complete⟩
  · obtain ⟨f, hf⟩ := hx.is2 h
    obtain ⟨g, hg⟩ := hy.is2 h'
    obtain ⟨b, e, hb⟩ := C24_reaction_nodevec hM σ hf hg
    exact ⟨b, e, hb.complete⟩
  · obtain ⟨g, hg⟩ := hy.is1 h'
    obtain ⟨⟨b, e, hb⟩, -⟩ := C24_reaction_p hM σ (xu := x) hg h''
    exact ⟨b, e, hb.complete⟩

/-- **C108** (`MatrixDiagonalPartitioned`, solving): once the matrix holds a diagonal. -/
theorem C108_solve [Field α] {a : Nat → α} (hM : M.Holds c d q (some a)) (σ : Nat → Sched) {b x : Ten α} (hb : Complete b)
    (hx : Complete x) :
    Checked (M.solve_dofval_checked σ b x) (M.solve_dofval σ b x) (b.shape = [M.P.V.ndof] ∧ x.shape = [M.P.V.ndof])
      (fun r => r.1.Holds c d q (some a) ∧ CompleteOf [M.P.V.ndof] r.2) ∧
    Checked (M.solve_nodevec_checked σ b x) (M.solve_nodevec σ b x)
      (b.shape = [M.P.V.nnode, M.P.V.ndim] ∧ x.shape = [M.P.V.nnode, M.P.V.ndim])
      (fun r => r.1.Holds c d q (some a) ∧ CompleteOf [M.P.V.nnode, M.P.V.ndim] r.2) ∧
    Checked (M.solve_u_checked σ b x) (M.solve_u σ b x) (b.shape = [M.P.nnu] ∧ x.shape = [M.P.nnp])
      fun r => r.1.Holds c d q (some a) ∧ CompleteOf [M.P.nnu] r.2 := by
  refine ⟨Checked.of2 fun h h' => ?_, Checked.of2 fun h h' => ?_, Checked.of2 fun h h' => ?_⟩
  · obtain ⟨f, hf⟩ := hb.is1 h
    obtain ⟨M2, y, e, -, hM2, hs, hu, hp⟩ := solve_dofval_spec hM σ hf h'
    refine ⟨(M2, y), e, hM2, hs, fun ix hix => ?_⟩
    rw [hs] at hix
    obtain ⟨k, rfl, hk⟩ := inb1.1 hix
    rcases hM.mem hk with hk' | hk'
    · exact ⟨_, hu k hk'⟩
    · obtain ⟨v, hv⟩ := hx [k] (by rw [h']; simp [inb, hk])
      exact ⟨v, by rw [hp k hk', hv]⟩
  · obtain ⟨f, hf⟩ := hb.is2 h
    obtain ⟨M2, y, e, -, hM2, hs, hu, hp⟩ := solve_nodevec_spec hM σ hf h'
    refine ⟨(M2, y), e, hM2, hs, fun ix hix => ?_⟩
    rw [hs] at hix
    obtain ⟨m, i, rfl, hm, hi⟩ := inb2.1 hix
    by_cases hk : d m i ∈ M.P.iip
    · obtain ⟨v, hv⟩ := hx [m, i] (by rw [h']; simp [inb, hm, hi])
      exact ⟨v, by rw [hp m i hm hi hk, hv]⟩
    · exact ⟨_, hu m i hm hi hk⟩
  · obtain ⟨f, hf⟩ := hb.is1 h
    obtain ⟨M2, y, e, hM2, hy⟩ := C24_solve_u hM σ (xp := x) hf
    exact ⟨(M2, y), e, hM2, hy.complete⟩

end MatrixDiagonalPartitioned
end GF
