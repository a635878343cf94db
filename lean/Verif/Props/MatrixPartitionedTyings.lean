import Verif.Lemmas.MatrixPartitionedTyings

/-! C28, C29: `MatrixPartitionedTyings` and its solver. -/

namespace GF
open Finset
variable {α : Type}

namespace MatrixPartitionedTyings
variable {M : MatrixPartitionedTyings α} {c d : Nat → Nat → Nat} {D : Nat → Nat → α}

/-- **C28** The constructor: an empty (zero) matrix on the given DOFs. -/
theorem C28_constructor [Zero α] {conn dofs : Ten Nat} {nelem nne nnode ndim : Nat}
    (hc : Is2 conn nelem nne c) (hd : Is2 dofs nnode ndim d)
    (hlt : ∀ e m, e < nelem → m < nne → c e m < nnode)
    {Cdu Cdp : Mat α} (h1 : Cdu.nr = Cdp.nr)
    (hr : ∀ m i, m < nnode → i < ndim → d m i < Cdu.nc + Cdp.nc + Cdp.nr)
    (hs : ∀ k, k < Cdu.nc + Cdp.nc + Cdp.nr → ∃ m i, m < nnode ∧ i < ndim ∧ d m i = k) :
    ∃ M, MatrixPartitionedTyings.new conn dofs Cdu Cdp = .ok M ∧ M.Holds c d (fun _ _ => (0 : α)) ∧
      M.V.nelem = nelem ∧ M.V.nne = nne ∧ M.V.nnode = nnode ∧ M.V.ndim = ndim ∧
      M.nnu = Cdu.nc ∧ M.nnp = Cdp.nc ∧ M.nnd = Cdp.nr ∧ M.Cdu = Cdu ∧ M.Cdp = Cdp ∧
      M.changed = true := by
  refine ⟨_, by simp only [MatrixPartitionedTyings.new, hc.1, hd.1]; rfl,
    ⟨⟨hc, hd, hlt, hr⟩, rfl, rfl, rfl, rfl, rfl, hs, ⟨h1, rfl⟩, ⟨rfl, rfl⟩, rfl, ?_⟩,
    rfl, rfl, rfl, rfl, rfl, rfl, rfl, rfl, rfl, rfl⟩
  constructor <;> exact ⟨rfl, rfl, fun _ _ _ _ => rfl⟩

/-- **C28** Assembly: whatever was stored before, the nine blocks hold the assembled matrix
(`SMatrix.assembled`, the dense matrix of `GooseFEM::Matrix`). -/
theorem C28_assemble [AddCommMonoid α] (hM : M.Holds c d D) {K : Ten α} {k : Nat → Nat → Nat → α}
    (hK : Is3 K M.V.nelem (M.V.nne * M.V.ndim) (M.V.nne * M.V.ndim) k) :
    ∃ M', M.assemble K = .ok M' ∧ M'.Holds c d (SMatrix.assembled M.V c d k) ∧ M'.changed = true ∧
      M'.V = M.V ∧ M'.Cdu = M.Cdu ∧ M'.Cdp = M.Cdp := by
  obtain ⟨A, h1, h2⟩ := assemble_spec hM hK
  exact ⟨_, h1, ⟨hM.base, hM.nni, hM.ndof, hM.iiu, hM.iip, hM.iid, hM.surj, hM.Cdu, hM.Cdp, hM.Cud,
    h2⟩, rfl, rfl, rfl, rfl⟩

/-- **C28** `Todense` returns the dense matrix. -/
theorem C28_todense [Zero α] (hM : M.Holds c d D) :
    ∃ y, M.todense = .ok y ∧ Is2 y M.V.ndof M.V.ndof D := todense_spec hM

/-- **C28** `Todense` after `assemble` is the same as for `GooseFEM::Matrix`. -/
theorem C28_todense_matrix [AddCommMonoid α] (hM : M.Holds c d D) {N : SMatrix α} (hN : N.V = M.V)
    {K : Ten α} {k : Nat → Nat → Nat → α}
    (hK : Is3 K M.V.nelem (M.V.nne * M.V.ndim) (M.V.nne * M.V.ndim) k) :
    ∃ M' N' y z, M.assemble K = .ok M' ∧ N.assemble K = .ok N' ∧ M'.todense = .ok y ∧
      N'.todense = .ok z ∧ ∃ E, Is2 y M.V.ndof M.V.ndof E ∧ Is2 z M.V.ndof M.V.ndof E := by
  obtain ⟨M', h1, h2, -, h3, -⟩ := C28_assemble hM hK
  obtain ⟨y, h4, h5⟩ := todense_spec h2
  rw [h3] at h5
  have h6 := SMatrix.assemble_spec (M := N) (c := c) (d := d) (K := K) (k := k)
    (by rw [hN]; exact hM.base) (by rw [hN]; exact hK)
  obtain ⟨z, h7, h8⟩ := SMatrix.todense_spec
    (M := ⟨N.V, ⟨N.V.ndof, N.V.ndof, SMatrix.assembled N.V c d k⟩, true⟩) rfl rfl
  refine ⟨M', _, y, z, h1, h6, h4, h7, _, h5, ?_⟩
  rw [← hN]; exact h8

/-- **C28** `Dot` and `Reaction` are not implemented: they throw for every argument. -/
theorem C28_not_implemented (M : MatrixPartitionedTyings α) (x b : Ten α) :
    M.dot x = .throws ∧ M.reaction x b = .throws := ⟨rfl, rfl⟩

/-- the value of every DOF after a solve -/
private def solution (M : MatrixPartitionedTyings α) (w f v : Nat → α) (k : Nat) : α :=
  if k < M.nnu then w k else if k < M.nni then f k else v (k - M.nni)

private theorem sol_sum [Ring α] (hM : M.Holds c d D) (w f v : Nat → α) (F : Nat → α) :
    ∑ k ∈ range M.V.ndof, F k * solution M w f v k =
      ∑ k ∈ range M.nnu, F k * w k + ∑ k ∈ range M.nnp, F (M.nnu + k) * f (M.nnu + k) +
      ∑ k ∈ range M.nnd, F (M.nni + k) * v k := by
  have hni := hM.nni
  rw [sum3 hM]
  congr 1
  · congr 1
    · refine Finset.sum_congr rfl fun k hk => ?_
      simp only [mem_range] at hk
      simp [solution, hk]
    · refine Finset.sum_congr rfl fun k hk => ?_
      simp only [mem_range] at hk
      have h1 : M.nnu + k < M.nni := by omega
      simp [solution, h1]
  · refine Finset.sum_congr rfl fun k hk => ?_
    have h1 : ¬ M.nni + k < M.nnu := by omega
    simp [solution, h1]

/-- **C28** `Solve` on node vectors, with any linear solver, exact or not: the result has one value `f' k` per DOF; prescribed DOFs
keep their value and dependent DOFs satisfy the tyings. If the linear solver is exact on the condensed matrix, then the
condensed residual vanishes for every unknown DOF. -/
theorem C28_solve_any [Ring α] (S : LinSolver α) (s : SolverState α)
    (hM : M.Holds c d D) (hs : Fresh s M)
    (σ : Nat → Sched) {b x : Ten α} {gb gx : Nat → Nat → α} {g f : Nat → α}
    (hb : Is2 b M.V.nnode M.V.ndim gb) (hx : Is2 x M.V.nnode M.V.ndim gx)
    (hgb : ∀ m i, m < M.V.nnode → i < M.V.ndim → gb m i = g (d m i))
    (hgx : ∀ m i, m < M.V.nnode → i < M.V.ndim → d m i ∈ M.iip → gx m i = f (d m i)) :
    ∃ (s' : SolverState α) (M' : MatrixPartitionedTyings α) (y : Ten α) (f' : Nat → α),
      solve_nodevec S s M σ b x = .ok (s', M', y) ∧
      Is2 y M.V.nnode M.V.ndim (fun m i => f' (d m i)) ∧
      (∀ k ∈ M.iip, f' k = f k) ∧
      (∀ r, r < M.nnd → f' (M.nni + r) = ∑ k ∈ range M.nnu, M.Cdu.e r k * f' k +
        ∑ k ∈ range M.nnp, M.Cdp.e r k * f' (M.nnu + k)) ∧
      M' = { M with ACuu := M'.ACuu, ACup := M'.ACup, changed := M'.changed } ∧
      ((∀ A, condense M.A.uu M.A.ud M.Cdu M.Cud M.A.du M.A.dd = .ok A → S.ExactOn A) →
        ∀ a, a < M.nnu → M.condResidual D f' g a = 0) := by
  have hni := hM.nni
  have hnd := hM.ndof
  obtain ⟨Auu, Aup, s', M', u1, p1, f1, f2, f3, a1, a2, a3, a4, hM', alg⟩ := factorize_ok hM hs
  have eV : M'.V = M.V := by rw [hM']
  have e1 : M'.nnu = M.nnu := by rw [hM']
  have e2 : M'.nnp = M.nnp := by rw [hM']
  have e3 : M'.nnd = M.nnd := by rw [hM']
  have e4 : M'.nni = M.nni := by rw [hM']
  have e5 : M'.Cud = M.Cud := by rw [hM']
  have e6 : M'.Cdu = M.Cdu := by rw [hM']
  have e7 : M'.Cdp = M.Cdp := by rw [hM']
  obtain ⟨bu, bu1, bu2, bu3⟩ := windowLoop_spec hM.base (σ 0) (fun k => decide (k < M.nnu)) 0 M.nnu
    (by intro k _; simp) hb (fun m i hm hi _ => hgb m i hm hi) (ret := Ten.full [M.nnu] 0) rfl
  obtain ⟨bd, bd1, bd2, bd3⟩ := windowLoop_spec hM.base (σ 1) (fun k => decide (M.nni ≤ k)) M.nni M.nnd
    (by intro k _; simp; omega) hb (fun m i hm hi _ => hgb m i hm hi) (ret := Ten.full [M.nnd] 0) rfl
  obtain ⟨xp, xp1, xp2, xp3⟩ := windowLoop_spec hM.base (σ 2)
    (fun k => decide (M.nnu ≤ k) && decide (k < M.nni)) M.nnu M.nnp
    (by intro k _; simp; omega) hx (f := f) (fun m i hm hi hk => hgx m i hm hi (by
      rw [hM.iip, List.mem_map]
      simp only [Bool.and_eq_true, decide_eq_true_eq] at hk
      exact ⟨d m i - M.nnu, by simp; omega, by omega⟩)) (ret := Ten.full [M.nnp] 0) rfl
  have hbu : Is1 bu M.nnu g := ⟨bu2, fun a ha => by
    obtain ⟨m, i, hm, hi, e⟩ := hM.surj a (by omega)
    simpa using bu3 a ha ⟨m, i, hm, hi, by omega⟩⟩
  have hbd : Is1 bd M.nnd (fun r => g (M.nni + r)) := ⟨bd2, fun a ha => by
    obtain ⟨m, i, hm, hi, e⟩ := hM.surj (M.nni + a) (by omega)
    exact bd3 a ha ⟨m, i, hm, hi, e⟩⟩
  have hxp : Is1 xp M.nnp (fun k => f (M.nnu + k)) := ⟨xp2, fun a ha => by
    obtain ⟨m, i, hm, hi, e⟩ := hM.surj (M.nnu + a) (by omega)
    exact xp3 a ha ⟨m, i, hm, hi, e⟩⟩
  have hCud : M.Cud.nr = M.nnu ∧ M.Cud.nc = M.nnd := by rw [hM.Cud]; exact ⟨hM.Cdu.2, hM.Cdu.1⟩
  obtain ⟨w1, w1e, w1s⟩ := M.Cud.mulVec_spec (x := bd) (f := fun r => g (M.nni + r))
    (by rw [hCud.2]; exact hbd)
  rw [hCud.1, hCud.2] at w1s
  obtain ⟨bu', b1, b2⟩ := vzip_spec (· + ·) hbu w1s
  obtain ⟨xu, w, x1, x2, x3⟩ := solveRhs_any (M := M') S f2 (by rw [e1]; exact ⟨a1, a2⟩)
    (by rw [f3, e1, e2]; exact ⟨a3, a4⟩) (bu := bu') (xp := xp)
    (by rw [e1]; exact b2) (by rw [e2]; exact hxp)
  rw [e1] at x2
  rw [e1, e2, f3] at x3
  obtain ⟨y1, y1e, y1s⟩ := M.Cdu.mulVec_spec (x := xu) (f := w) (by rw [hM.Cdu.2]; exact x2)
  obtain ⟨y2, y2e, y2s⟩ := M.Cdp.mulVec_spec (x := xp) (f := fun k => f (M.nnu + k))
    (by rw [hM.Cdp.2]; exact hxp)
  rw [hM.Cdu.1, hM.Cdu.2] at y1s
  rw [hM.Cdp.1, hM.Cdp.2] at y2s
  obtain ⟨xd, d1, d2⟩ := vzip_spec (· + ·) y1s y2s
  set v : Nat → α := fun r => ∑ k ∈ range M.nnu, M.Cdu.e r k * w k +
    ∑ k ∈ range M.nnp, M.Cdp.e r k * f (M.nnu + k) with hv
  have hsol0 : ∀ k, k < M.nnu → solution M w f v k = w k := fun k hk => by simp [solution, hk]
  have hsol1 : ∀ k, M.nnu ≤ k → k < M.nni → solution M w f v k = f k := fun k hk hk' => by
    have : ¬ k < M.nnu := by omega
    simp [solution, this, hk']
  have hsol2 : ∀ k, M.nni ≤ k → solution M w f v k = v (k - M.nni) := fun k hk => by
    have h1 : ¬ k < M.nnu := by omega
    have h2 : ¬ k < M.nni := by omega
    simp [solution, h1, h2]
  -- the final loop
  obtain ⟨y, z1, z2, z3, z4⟩ := forEach_set
    (((σ 3).run (it2 M.V.nnode M.V.ndim)).filter
      (fun mi => decide (d mi.1 mi.2 < M.nnu) || decide (M.nni ≤ d mi.1 mi.2)))
    (fun (ret : Ten α) mi => do
      let k ← M.V.dofs.get [mi.1, mi.2]
      if k < M.nnu then
        let a ← xu.get [k]
        ret.set [mi.1, mi.2] a
      else
        let a ← xd.get [k - M.nni]
        ret.set [mi.1, mi.2] a) (fun mi => [mi.1, mi.2])
    (fun mi => solution M w f v (d mi.1 mi.2)) x
    (by
      rintro ⟨m, i⟩ hmi
      simp only [List.mem_filter, mem_sched, mem_it2] at hmi
      simp [hx.1, hmi.1.1, hmi.1.2])
    (by
      rintro ⟨m, i⟩ hmi t _
      simp only [List.mem_filter, mem_sched, mem_it2] at hmi
      obtain ⟨⟨hm, hi⟩, hk⟩ := hmi
      simp only [hM.base.dofs.get hm hi, Res.ok_bind]
      split
      · rename_i hlt
        rw [x2.get hlt, hsol0 _ hlt]; rfl
      · rename_i hlt
        simp only [hlt, decide_false, Bool.false_or, decide_eq_true_eq] at hk
        have := hM.base.dofs_lt m i hm hi
        rw [d2.get (by omega), hsol2 _ hk]; rfl)
  refine ⟨s', M', y, solution M w f v, ?_, ⟨by rw [z2, hx.1], fun m i hm hi => ?_⟩, ?_, ?_, hM', ?_⟩
  · rw [solve_nodevec, f1]
    simp only [Res.ok_bind, AsDofs_u_nodevec, AsDofs_d_nodevec, AsDofs_p_nodevec, e1, e2, e3, e4, e5,
      eV, bu1, bd1, xp1, w1e, b1, x1, dependent, e6, e7, y1e, y2e, d1]
    rw [forEach_filter _ (fun mi => decide (d mi.1 mi.2 < M.nnu) || decide (M.nni ≤ d mi.1 mi.2)) _
      (fun (ret : Ten α) mi => do
      let k ← M.V.dofs.get [mi.1, mi.2]
      if k < M.nnu then
        let a ← xu.get [k]
        ret.set [mi.1, mi.2] a
      else
        let a ← xd.get [k - M.nni]
        ret.set [mi.1, mi.2] a), z1]
    · rfl
    · rintro ⟨m, i⟩ hmi t
      simp only [mem_sched, mem_it2] at hmi
      simp only [hM.base.dofs.get hmi.1 hmi.2, Res.ok_bind]
      by_cases h1 : d m i < M.nnu
      · simp [h1]
      · by_cases h2 : M.nni ≤ d m i <;> simp [h1, h2]
  · by_cases hk : d m i < M.nnu ∨ M.nni ≤ d m i
    · obtain ⟨⟨m', i'⟩, h4, h5, h6⟩ := z3 [m, i] ⟨(m, i), by simp [hm, hi, hk], rfl⟩
      simp only [List.cons.injEq, and_true] at h5
      rw [h6]; simp only [h5.1, h5.2]
    · show _ = some (solution M w f v (d m i))
      rw [z4, hx.2 m i hm hi, hgx m i hm hi, hsol1 (d m i) (by omega) (by omega)]
      · rw [hM.iip, List.mem_map]
        exact ⟨d m i - M.nnu, by simp; omega, by omega⟩
      · rintro ⟨m', i'⟩ h4 h5
        simp only [List.mem_filter, mem_sched, mem_it2] at h4
        simp only [List.cons.injEq, and_true] at h5
        rw [h5.1, h5.2] at h4
        simp at h4
        exact hk h4.2
  · intro k hk
    rw [hM.iip, List.mem_map] at hk
    obtain ⟨a, ha, rfl⟩ := hk
    simp only [List.mem_range] at ha
    exact hsol1 _ (by omega) (by omega)
  · intro r hr
    rw [hsol2 _ (by omega), Nat.add_sub_cancel_left]
    simp only [hv]
    congr 1
    · exact Finset.sum_congr rfl fun k hk => by rw [hsol0 k (mem_range.1 hk)]
    · exact Finset.sum_congr rfl fun k hk => by
        have := mem_range.1 hk
        rw [hsol1 _ (by omega) (by omega)]
  · intro hS a ha
    have key := x3 (hS Auu u1) a ha
    rw [alg w (fun k => f (M.nnu + k)) a ha] at key
    rw [condResidual]
    simp only [mul_sub, Finset.sum_sub_distrib, sol_sum hM]
    have hc : ∑ r ∈ range M.nnd, M.Cud.e a r * g (M.nni + r) =
        ∑ r ∈ range M.nnd, M.Cdu.e r a * g (M.nni + r) := by rw [hM.Cud]; rfl
    rw [hc] at key
    rw [show ∀ p q r s : α, p - q + (r - s) = p + r - (q + s) by intros; abel, ← key]
    simp only [hv, sub_self]

/-- **C28** (main): `Solve` on node vectors.  If the linear solver is exact on the condensed matrix and
the solver is not stale, the result has one value `f' k` per DOF; prescribed DOFs keep their value,
dependent DOFs satisfy the tyings, and the condensed residual vanishes for every unknown DOF.
Only the prescribed components of `x` are read; `b` and those must be consistent. -/
theorem C28_solve_nodevec [Ring α] (S : LinSolver α) (s : SolverState α)
    (hM : M.Holds c d D) (hs : Fresh s M)
    (hS : ∀ A, condense M.A.uu M.A.ud M.Cdu M.Cud M.A.du M.A.dd = .ok A → S.ExactOn A)
    (σ : Nat → Sched) {b x : Ten α} {gb gx : Nat → Nat → α} {g f : Nat → α}
    (hb : Is2 b M.V.nnode M.V.ndim gb) (hx : Is2 x M.V.nnode M.V.ndim gx)
    (hgb : ∀ m i, m < M.V.nnode → i < M.V.ndim → gb m i = g (d m i))
    (hgx : ∀ m i, m < M.V.nnode → i < M.V.ndim → d m i ∈ M.iip → gx m i = f (d m i)) :
    ∃ (s' : SolverState α) (M' : MatrixPartitionedTyings α) (y : Ten α) (f' : Nat → α),
      solve_nodevec S s M σ b x = .ok (s', M', y) ∧
      Is2 y M.V.nnode M.V.ndim (fun m i => f' (d m i)) ∧
      (∀ k ∈ M.iip, f' k = f k) ∧
      (∀ r, r < M.nnd → f' (M.nni + r) = ∑ k ∈ range M.nnu, M.Cdu.e r k * f' k +
        ∑ k ∈ range M.nnp, M.Cdp.e r k * f' (M.nnu + k)) ∧
      (∀ a, a < M.nnu → M.condResidual D f' g a = 0) := by
  obtain ⟨s', M', y, f', h1, h2, h3, h4, -, h5⟩ := C28_solve_any S s hM hs σ hb hx hgb hgx
  exact ⟨s', M', y, f', h1, h2, h3, h4, h5 hS⟩

/-- **C28** Virtual work: after the solve the residual does no work on any DOF field that satisfies the
homogeneous constraints (tied dependent values, zero on prescribed DOFs). -/
theorem C28_virtual_work [CommRing α] (hM : M.Holds c d D) {f' g v : Nat → α}
    (h : ∀ a, a < M.nnu → M.condResidual D f' g a = 0)
    (hv0 : ∀ k ∈ M.iip, v k = 0)
    (hvd : ∀ r, r < M.nnd → v (M.nni + r) = ∑ k ∈ range M.nnu, M.Cdu.e r k * v k) :
    ∑ k ∈ range M.V.ndof, v k * (∑ l ∈ range M.V.ndof, D k l * f' l - g k) = 0 := by
  set R : Nat → α := fun k => ∑ l ∈ range M.V.ndof, D k l * f' l - g k with hR
  rw [sum3 hM]
  have h0 : ∑ k ∈ range M.nnp, v (M.nnu + k) * R (M.nnu + k) = 0 := by
    refine Finset.sum_eq_zero fun k hk => ?_
    rw [hv0 (M.nnu + k) (by
      rw [hM.iip, List.mem_map]; exact ⟨k, by simpa using hk, rfl⟩), zero_mul]
  rw [h0, add_zero, Finset.sum_congr (s₁ := range M.nnd) rfl fun r hr => by
    rw [hvd r (mem_range.1 hr), Finset.sum_mul]]
  rw [Finset.sum_comm, ← Finset.sum_add_distrib]
  refine Finset.sum_eq_zero fun a ha => ?_
  have := h a (mem_range.1 ha)
  rw [condResidual] at this
  calc v a * R a + ∑ r ∈ range M.nnd, M.Cdu.e r a * v a * R (M.nni + r)
      = v a * (R a + ∑ r ∈ range M.nnd, M.Cdu.e r a * R (M.nni + r)) := by
        rw [mul_add, Finset.mul_sum]
        congr 1
        refine Finset.sum_congr rfl fun r _ => ?_
        ring
    _ = 0 := by rw [this, mul_zero]

/-! ### C29 -/

/-- **C29** `Solve` on DOF vectors reads outside an array whenever there are more dependent than
prescribed DOFs (it looks up the dependent loads through the list of prescribed DOFs). -/
theorem C29_solve_dofval_out_of_bounds [Ring α] (S : LinSolver α) (s : SolverState α)
    (hM : M.Holds c d D) (hs : Fresh s M) (σ : Nat → Sched) {b x : Ten α} {g : Nat → α}
    (hb : Is1 b M.V.ndof g) (hn : M.nnp < M.nnd) :
    solve_dofval S s M σ b x = .ub := by
  have hni := hM.nni
  have hnd := hM.ndof
  obtain ⟨Auu, Aup, s', M', -, -, f1, -, -, -, -, -, -, hM', -⟩ := factorize_ok hM hs
  have e1 : M'.nnu = M.nnu := by rw [hM']
  have e3 : M'.nnd = M.nnd := by rw [hM']
  have e4 : M'.iiu = M.iiu := by rw [hM']
  have e5 : M'.iip = M.iip := by rw [hM']
  obtain ⟨bu, b1, -⟩ := gather1 ((σ 0).run (it1 M.nnu)) (fun (ret : Ten α) d => do
    let k ← lget M.iiu d
    let a ← b.get [k]
    ret.set [d] a) M.nnu (Ten.empty [M.nnu]) rfl g (by intro p; simp [mem_it1])
    (by
      intro a ha t
      rw [hM.iiu, lget_ok (by simpa using ha)]
      simp only [List.getElem_range, Res.ok_bind, hb.get (show a < M.V.ndof by omega)])
  have hub : takeLoop (σ 1) M.iip M.nnd b = .ub := by
    refine forEach_eq_ub _ _ (fun t => t.shape = [M.nnd]) _ rfl ?_ ⟨M.nnp, by simp [mem_it1, hn], ?_⟩
    · intro a ha t ht
      simp only [mem_sched, mem_it1] at ha
      by_cases h : a < M.nnp
      · right
        rw [hM.iip, lget_ok (by simpa using h)]
        simp only [List.getElem_map, List.getElem_range, Res.ok_bind,
          hb.get (show M.nnu + a < M.V.ndof by omega), Ten.set, ht, inb_cons, ha, decide_true, inb_nil,
          Bool.and_self, if_true]
        exact ⟨_, rfl, rfl⟩
      · left
        have : lget M.iip a = .ub := by
          rw [hM.iip, lget, List.getElem?_eq_none (by simp; omega)]
        rw [this]; rfl
    · intro t _
      have : lget M.iip M.nnp = .ub := by
        rw [hM.iip, lget, List.getElem?_eq_none (by simp)]
      rw [this]; rfl
  rw [solve_dofval, f1]
  simp only [Res.ok_bind, AsDofs_u_dofval, AsDofs_d_dofval, takeLoop, e1, e3, e4, e5]
  rw [b1]
  simp only [Res.ok_bind]
  rw [takeLoop] at hub
  rw [hub]
  rfl

/-- **C29** `Solve_u` drops the load on the dependent DOFs: it returns the `x_u` for which the condensed
residual vanishes with the dependent load *replaced by zero*.  So the residual with the given
load is `- Cdu^T b_d`, and vanishes only if that term does. -/
theorem C29_solve_u [Ring α] (S : LinSolver α) (s : SolverState α)
    (hM : M.Holds c d D) (hs : Fresh s M)
    (hS : ∀ A, condense M.A.uu M.A.ud M.Cdu M.Cud M.A.du M.A.dd = .ok A → S.ExactOn A)
    {bu bd xp : Ten α} {gu gd fp : Nat → α}
    (hb : Is1 bu M.nnu gu) (hp : Is1 xp M.nnp fp) :
    ∃ (s' : SolverState α) (M' : MatrixPartitionedTyings α) (y : Ten α) (w f' : Nat → α),
      solve_u S s M bu bd xp = .ok (s', M', y) ∧ Is1 y M.nnu w ∧
      -- `f'` is `w` completed with the prescribed and the tied values
      (∀ k, k < M.nnu → f' k = w k) ∧ (∀ k, k < M.nnp → f' (M.nnu + k) = fp k) ∧
      (∀ r, r < M.nnd → f' (M.nni + r) = ∑ k ∈ range M.nnu, M.Cdu.e r k * f' k +
        ∑ k ∈ range M.nnp, M.Cdp.e r k * f' (M.nnu + k)) ∧
      (∀ a, a < M.nnu → M.condResidual D f' (fun k => if k < M.nnu then gu k else gd (k - M.nni)) a =
        - ∑ r ∈ range M.nnd, M.Cdu.e r a * gd r) := by
  have hni := hM.nni
  obtain ⟨Auu, Aup, s', M', u1, p1, f1, f2, f3, a1, a2, a3, a4, hM', alg⟩ := factorize_ok hM hs
  have e1 : M'.nnu = M.nnu := by rw [hM']
  have e2 : M'.nnp = M.nnp := by rw [hM']
  clear hM'
  obtain ⟨xu, w, x1, x2, x3⟩ := solveRhs_spec (M := M') S f2 (by rw [e1]; exact ⟨a1, a2⟩)
    (by rw [f3, e1, e2]; exact ⟨a3, a4⟩) (hS Auu u1) (bu := bu) (xp := xp)
    (by rw [e1]; exact hb) (by rw [e2]; exact hp)
  rw [e1] at x2
  rw [e1, e2, f3] at x3
  set v : Nat → α := fun r => ∑ k ∈ range M.nnu, M.Cdu.e r k * w k +
    ∑ k ∈ range M.nnp, M.Cdp.e r k * fp k with hv
  have hsol0 : ∀ k, k < M.nnu → solution M w (fun k => fp (k - M.nnu)) v k = w k :=
    fun k hk => by simp [solution, hk]
  have hsol1 : ∀ k, k < M.nnp → solution M w (fun k => fp (k - M.nnu)) v (M.nnu + k) = fp k :=
    fun k hk => by
      have h2 : M.nnu + k < M.nni := by omega
      simp [solution, h2]
  refine ⟨s', M', xu, w, solution M w (fun k => fp (k - M.nnu)) v, by
    rw [solve_u, f1]; simp only [Res.ok_bind, x1], x2, hsol0, hsol1, ?_, ?_⟩
  · intro r hr
    have h1 : ¬ M.nni + r < M.nnu := by omega
    have : solution M w (fun k => fp (k - M.nnu)) v (M.nni + r) = v r := by simp [solution, h1]
    rw [this]
    simp only [hv]
    congr 1
    · exact Finset.sum_congr rfl fun k hk => by rw [hsol0 k (mem_range.1 hk)]
    · exact Finset.sum_congr rfl fun k hk => by rw [hsol1 k (mem_range.1 hk)]
  · intro a ha
    have key := x3 a ha
    rw [alg w fp a ha] at key
    rw [condResidual]
    have h1 : ∀ r, ¬ M.nni + r < M.nnu := by intro r; omega
    simp only [mul_sub, Finset.sum_sub_distrib, sol_sum hM, ha, h1, if_true, if_false,
      Nat.add_sub_cancel_left]
    rw [show ∀ p q r s : α, p - q + (r - s) = p + r - q - s by intros; abel, ← key]
    simp only [hv, sub_self, zero_sub]

/-- **C29** the loads that `Solve_u` gets right: its result satisfies the condensed equations, as that of `Solve` on node vectors
(C28), if and only if the dependent part of the load is in the kernel of the transposed tying matrix -/
theorem C29_agree_iff [Ring α] (S : LinSolver α) (s : SolverState α) (hM : M.Holds c d D) (hs : Fresh s M)
    (hS : ∀ A, condense M.A.uu M.A.ud M.Cdu M.Cud M.A.du M.A.dd = .ok A → S.ExactOn A) {bu bd xp : Ten α} {gu gd fp : Nat → α}
    (hb : Is1 bu M.nnu gu) (hp : Is1 xp M.nnp fp) :
    ∃ (s' : SolverState α) (M' : MatrixPartitionedTyings α) (y : Ten α) (w f' : Nat → α),
      solve_u S s M bu bd xp = .ok (s', M', y) ∧ Is1 y M.nnu w ∧
      (∀ k, k < M.nnu → f' k = w k) ∧ (∀ k, k < M.nnp → f' (M.nnu + k) = fp k) ∧
      (∀ r, r < M.nnd → f' (M.nni + r) = ∑ k ∈ range M.nnu, M.Cdu.e r k * f' k + ∑ k ∈ range M.nnp, M.Cdp.e r k * f' (M.nnu + k)) ∧
      ((∀ a, a < M.nnu → M.condResidual D f' (fun k => if k < M.nnu then gu k else gd (k - M.nni)) a = 0) ↔
        ∀ a, a < M.nnu → ∑ r ∈ range M.nnd, M.Cdu.e r a * gd r = 0) := by
  obtain ⟨s', M', y, w, f', h1, h2, h3, h4, h5, h6⟩ := C29_solve_u S s hM hs hS (bd := bd) (gd := gd) hb hp
  refine ⟨s', M', y, w, f', h1, h2, h3, h4, h5, ?_⟩
  constructor
  · intro h a ha
    have := h6 a ha
    rw [h a ha] at this
    exact neg_eq_zero.1 this.symm
  · intro h a ha
    rw [h6 a ha, h a ha, neg_zero]

/-- **C29** `Solve` on DOF vectors when it does not read out of bounds (`nnd ≤ nnp`): same as `Solve_u`,
the dependent load is ignored. -/
theorem C29_solve_dofval [Ring α] (S : LinSolver α) (s : SolverState α)
    (hM : M.Holds c d D) (hs : Fresh s M)
    (hS : ∀ A, condense M.A.uu M.A.ud M.Cdu M.Cud M.A.du M.A.dd = .ok A → S.ExactOn A)
    (σ : Nat → Sched) (hn : M.nnd ≤ M.nnp) {b x : Ten α} {g f : Nat → α}
    (hb : Is1 b M.V.ndof g) (hx : Is1 x M.V.ndof f) :
    ∃ (s' : SolverState α) (M' : MatrixPartitionedTyings α) (y : Ten α) (f' : Nat → α),
      solve_dofval S s M σ b x = .ok (s', M', y) ∧ Is1 y M.V.ndof f' ∧
      (∀ k ∈ M.iip, f' k = f k) ∧
      (∀ r, r < M.nnd → f' (M.nni + r) = ∑ k ∈ range M.nnu, M.Cdu.e r k * f' k +
        ∑ k ∈ range M.nnp, M.Cdp.e r k * f' (M.nnu + k)) ∧
      (∀ a, a < M.nnu → M.condResidual D f' g a =
        - ∑ r ∈ range M.nnd, M.Cdu.e r a * g (M.nni + r)) := by
  have hni := hM.nni
  have hnd := hM.ndof
  obtain ⟨Auu, Aup, s', M', u1, p1, f1, f2, f3, a1, a2, a3, a4, hM', alg⟩ := factorize_ok hM hs
  have e1 : M'.nnu = M.nnu := by rw [hM']
  have e2 : M'.nnp = M.nnp := by rw [hM']
  have e3 : M'.nnd = M.nnd := by rw [hM']
  have e4 : M'.iiu = M.iiu := by rw [hM']
  have e5 : M'.iip = M.iip := by rw [hM']
  have e8 : M'.iid = M.iid := by rw [hM']
  have e6 : M'.Cdu = M.Cdu := by rw [hM']
  have e7 : M'.Cdp = M.Cdp := by rw [hM']
  clear hM'
  have take : ∀ (τ : Sched) (ii : List Nat) (n lo : Nat) (z : Ten α) (h : Nat → α),
      Is1 z M.V.ndof h → n ≤ ii.length → (∀ a, a < n → ii[a]? = some (lo + a)) →
      lo + n ≤ M.V.ndof →
      ∃ t, takeLoop τ ii n z = .ok t ∧ Is1 t n (fun a => h (lo + a)) := by
    intro τ ii n lo z h hz h1 h2 h3
    refine gather1 (τ.run (it1 n)) _ n (Ten.empty [n]) rfl _ (by intro p; simp [mem_it1]) ?_
    intro a ha t
    rw [lget, h2 a ha]
    simp only [Res.ok_bind, hz.get (show lo + a < M.V.ndof by omega)]
  obtain ⟨bu, bu1, bu2⟩ := take (σ 0) M.iiu M.nnu 0 b g hb (by rw [hM.iiu]; simp)
    (by intro a ha; rw [hM.iiu]; simp [ha]) (by omega)
  obtain ⟨bd, bd1, -⟩ := take (σ 1) M.iip M.nnd M.nnu b g hb (by rw [hM.iip]; simpa using hn)
    (by intro a ha; have : a < M.nnp := by omega
        rw [hM.iip]; simp [this]) (by omega)
  obtain ⟨xp, xp1, xp2⟩ := take (σ 2) M.iip M.nnp M.nnu x f hx (by rw [hM.iip]; simp)
    (by intro a ha; rw [hM.iip]; simp [ha]) (by omega)
  simp only [Nat.zero_add] at bu2
  obtain ⟨xu, w, x1, x2, x3⟩ := solveRhs_spec (M := M') S f2 (by rw [e1]; exact ⟨a1, a2⟩)
    (by rw [f3, e1, e2]; exact ⟨a3, a4⟩) (hS Auu u1) (bu := bu) (xp := xp)
    (by rw [e1]; exact bu2) (by rw [e2]; exact xp2)
  rw [e1] at x2
  rw [e1, e2, f3] at x3
  obtain ⟨y1, y1e, y1s⟩ := M.Cdu.mulVec_spec (x := xu) (f := w) (by rw [hM.Cdu.2]; exact x2)
  obtain ⟨y2, y2e, y2s⟩ := M.Cdp.mulVec_spec (x := xp) (f := fun k => f (M.nnu + k))
    (by rw [hM.Cdp.2]; exact xp2)
  rw [hM.Cdu.1, hM.Cdu.2] at y1s
  rw [hM.Cdp.1, hM.Cdp.2] at y2s
  obtain ⟨xd, d1, d2⟩ := vzip_spec (· + ·) y1s y2s
  set v : Nat → α := fun r => ∑ k ∈ range M.nnu, M.Cdu.e r k * w k +
    ∑ k ∈ range M.nnp, M.Cdp.e r k * f (M.nnu + k) with hv
  have lu : M.iiu.length = M.nnu := by rw [hM.iiu]; simp
  have ld : M.iid.length = M.nnd := by rw [hM.iid]; simp
  obtain ⟨r1, z1, z2, z3, z4⟩ := MatrixPartitioned.putDofs_spec (σ 3) (ii := M.iiu) (N := M.V.ndof)
    (by rw [hM.iiu]; exact List.nodup_range)
    (by intro k hk; rw [hM.iiu, List.mem_range] at hk; omega)
    (val := xu) (f := w) (by rw [lu]; exact x2) hx.1
  obtain ⟨r2, t1, t2, t3, t4⟩ := MatrixPartitioned.putDofs_spec (σ 4) (ii := M.iid) (N := M.V.ndof)
    (by rw [hM.iid]; exact List.nodup_range.map (fun a b h => by simpa using h))
    (by
      intro k hk
      rw [hM.iid, List.mem_map] at hk
      obtain ⟨a, ha, rfl⟩ := hk
      simp only [List.mem_range] at ha; omega)
    (val := xd) (f := v) (by rw [ld]; exact d2) z2
  rw [lu] at z1
  rw [ld] at t1
  refine ⟨s', M', r2, solution M w f v, ?_, ⟨t2, ?_⟩, ?_, ?_, ?_⟩
  · rw [solve_dofval, f1]
    simp only [Res.ok_bind, AsDofs_u_dofval, AsDofs_d_dofval, AsDofs_p_dofval, e1, e2, e3, e4, e5, e8,
      bu1, bd1, xp1, x1, dependent, e6, e7, y1e, y2e, d1, z1, t1]
  · intro k hk
    by_cases h2 : M.nni ≤ k
    · have h1 : ¬ k < M.nnu := by omega
      have h3 : ¬ k < M.nni := by omega
      rw [t3 (k - M.nni) k (by
        rw [hM.iid, List.getElem?_map, List.getElem?_range (by omega)]; simp; omega)]
      simp [solution, h1, h3]
    · rw [t4 k (by
        rw [hM.iid, List.mem_map]
        rintro ⟨a, -, rfl⟩; omega)]
      by_cases h1 : k < M.nnu
      · rw [z3 k k (by rw [hM.iiu, List.getElem?_range h1])]
        simp [solution, h1]
      · rw [z4 k (by rw [hM.iiu, List.mem_range]; exact h1), hx.2 k hk]
        have h3 : k < M.nni := by omega
        simp [solution, h1, h3]
  · intro k hk
    rw [hM.iip, List.mem_map] at hk
    obtain ⟨a, ha, rfl⟩ := hk
    simp only [List.mem_range] at ha
    have h3 : M.nnu + a < M.nni := by omega
    simp [solution, h3]
  · intro r hr
    have h1 : ¬ M.nni + r < M.nnu := by omega
    have : solution M w f v (M.nni + r) = v r := by simp [solution, h1]
    rw [this]
    simp only [hv]
    congr 1
    · exact Finset.sum_congr rfl fun k hk => by
        have := mem_range.1 hk
        simp [solution, this]
    · exact Finset.sum_congr rfl fun k hk => by
        have := mem_range.1 hk
        have h3 : M.nnu + k < M.nni := by omega
        simp [solution, h3]
  · intro a ha
    have key := x3 a ha
    rw [alg w (fun k => f (M.nnu + k)) a ha] at key
    rw [condResidual]
    simp only [mul_sub, Finset.sum_sub_distrib, sol_sum hM]
    rw [show ∀ p q r s : α, p - q + (r - s) = p + r - q - s by intros; abel, ← key]
    simp only [hv, sub_self, zero_sub]

/-- The hypotheses of C28 and C29 are met: two bars, the last node tied to the first; the condensed
matrix is the `1 × 1` identity and the solver returns its right-hand side. -/
theorem exTyings : ∃ (M : MatrixPartitionedTyings Int) (c d : Nat → Nat → Nat) (D : Nat → Nat → Int)
    (S : LinSolver Int), M.Holds c d D ∧ Fresh SolverState.init M ∧
    (∀ A, condense M.A.uu M.A.ud M.Cdu M.Cud M.A.du M.A.dd = .ok A → S.ExactOn A) ∧
    M.nnu = 1 ∧ M.nnp = 1 ∧ M.nnd = 1 ∧ M.Cdu.e 0 0 = 1 ∧ M.V.nnode = 3 := by
  obtain ⟨M, -, h2, n1, n2, n3, n4, h3, h4, h5, h6, h7, h8⟩ := C28_constructor (α := Int)
    (c := fun e m => e + m)
    (d := fun m _ => m) (conn := lit2 2 [[0, 1], [1, 2]])
    (dofs := lit2 1 [[0], [1], [2]]) (nelem := 2) (nne := 2) (nnode := 3) (ndim := 1)
    ⟨rfl, ball2 (by decide)⟩ ⟨rfl, ball2 (by decide)⟩ (by intros; omega)
    (Cdu := ⟨1, 1, fun _ _ => 1⟩) (Cdp := ⟨1, 1, fun _ _ => 0⟩) rfl (by intro m i hm _; exact hm)
    (by intro k hk; exact ⟨k, 0, hk, by decide, rfl⟩)
  let B : Mat Int := ⟨1, 1, fun _ _ => 1⟩
  let Z : Mat Int := ⟨1, 1, fun _ _ => 0⟩
  have hMn : M.nnu = 1 ∧ M.nnp = 1 ∧ M.nnd = 1 := ⟨h3, h4, h5⟩
  refine ⟨{ M with A := ⟨B, Z, Z, Z, Z, Z, Z, Z, Z⟩ }, fun e m => e + m, fun m _ => m,
    fun r k => if r = 0 ∧ k = 0 then 1 else 0, ⟨fun _ b => b⟩,
    ⟨h2.base, h2.nni, h2.ndof, h2.iiu, h2.iip, h2.iid, h2.surj, h2.Cdu, h2.Cdp, h2.Cud, ?_⟩,
    Or.inl h8, ?_, h3, h4, h5, by rw [h6], n3⟩
  · simp only [hMn.1, hMn.2.1, hMn.2.2]
    constructor <;> refine ⟨rfl, rfl, fun a b ha hb => ?_⟩ <;>
      obtain rfl : a = 0 := by omega
    all_goals obtain rfl : b = 0 := by omega
    all_goals rfl
  · intro A hA
    rw [h2.Cud, h6] at hA
    simp only [condense, Mat.mul, Mat.transpose, B, Z, if_true, Res.ok_bind, Finset.sum_range_one,
      Mat.add, mul_zero, zero_mul, add_zero] at hA
    cases hA
    intro b r hr
    obtain rfl : r = 0 := by simpa using hr
    simp

/-- **C29** (witness): there are a matrix, a load and a solver (exact on the condensed matrix) for which
`Solve_u` returns values whose condensed residual is not zero. -/
theorem C29_solve_u_wrong : ∃ (M : MatrixPartitionedTyings Int) (c d : Nat → Nat → Nat)
    (D : Nat → Nat → Int) (S : LinSolver Int) (s' : SolverState Int) (M' : MatrixPartitionedTyings Int) (y : Ten Int) (f' : Nat → Int),
    M.Holds c d D ∧ Fresh SolverState.init M ∧ M.nnu = 1 ∧ M.nnp = 1 ∧ M.nnd = 1 ∧
    (∀ A, condense M.A.uu M.A.ud M.Cdu M.Cud M.A.du M.A.dd = .ok A → S.ExactOn A) ∧
    solve_u S SolverState.init M (lit1 [0]) (lit1 [1]) (lit1 [0]) = .ok (s', M', y) ∧ Is1 y 1 f' ∧ f' 1 = 0 ∧
    f' 2 = M.Cdu.e 0 0 * f' 0 + M.Cdp.e 0 0 * f' 1 ∧
    M.condResidual D f' (fun k => if k = 2 then 1 else 0) 0 ≠ 0 := by
  obtain ⟨M, c, d, D, S, h1, h2, h3, h4, h5, h6, h7, -⟩ := exTyings
  have hb : Is1 (lit1 [(0 : Int)]) M.nnu (fun _ => 0) := by
    rw [h4]; exact ⟨rfl, fun i hi => by obtain rfl : i = 0 := by omega
                                        rfl⟩
  have hp : Is1 (lit1 [(0 : Int)]) M.nnp (fun _ => 0) := by
    rw [h5]; exact ⟨rfl, fun i hi => by obtain rfl : i = 0 := by omega
                                        rfl⟩
  obtain ⟨s', M', y, w, f', e1, e2, e3, e4, e5, e6⟩ := C29_solve_u S SolverState.init h1 h2 h3 (bd := lit1 [1])
    (gd := fun _ => 1) hb hp
  have hn : M.nni = 2 := by rw [h1.nni, h4, h5]
  rw [h4] at e2 e3 e4 e5 e6
  rw [h5] at e4 e5
  rw [h6] at e5 e6
  rw [hn] at e5
  refine ⟨M, c, d, D, S, s', M', y, f', h1, h2, h4, h5, h6, h3, e1, e2.congr fun k hk => (e3 k hk).symm, e4 0 (by omega), ?_, ?_⟩
  · simpa using e5 0 (by omega)
  · have e7 := e6 0 (by omega)
    have hc : M.condResidual D f' (fun k => if k = 2 then 1 else 0) 0 =
        M.condResidual D f' (fun k => if k < 1 then 0 else 1) 0 := by
      unfold condResidual
      simp [h6, hn]
    rw [hc, e7]
    simp [h7]

end MatrixPartitionedTyings
end GF
