import Verif.Lemmas.MatrixPartitioned
import Verif.Props.Matrix
import Verif.Props.VectorPartitioned

/-! # Properties C18 - C21: `GooseFEM::MatrixPartitioned` and its solver -/

namespace GF
open Finset
variable {α : Type} {M : MatrixPartitioned α} {c d q : Nat → Nat → Nat} {D : Nat → Nat → α}

/-- **C18** (constructor): if every number `0 .. ndof-1` occurs in the DOF table, the constructor
yields the zero matrix on a valid partition. -/
theorem C18_constructor [Zero α] {conn dofs : Ten Nat} {nelem nne nnode ndim : Nat}
    {iip : List Nat} (hc : Is2 conn nelem nne c) (hd : Is2 dofs nnode ndim d)
    (hlt : ∀ e m, e < nelem → m < nne → c e m < nnode) (hip : iip.Nodup)
    (hipd : ∀ k ∈ iip, ∃ m i, m < nnode ∧ i < ndim ∧ k ≤ d m i)
    (hs : ∀ m i, m < nnode → i < ndim → ∀ k, k ≤ d m i →
      ∃ n j, n < nnode ∧ j < ndim ∧ d n j = k) (hpos : 0 < nnode ∧ 0 < ndim) :
    ∃ (M : MatrixPartitioned α) (q : Nat → Nat → Nat), MatrixPartitioned.new conn dofs iip = .ok M ∧
      VectorPartitioned.new conn dofs iip = .ok M.P ∧ Vector.new conn dofs = .ok M.P.V ∧
      M.P.iip = iip ∧ M.Holds c d q (fun _ _ => 0) := by
  obtain ⟨P, q, h1, h2, h3, h4, h5, h6, h7, h8⟩ := C12_constructor hc hd hlt hip hipd
  obtain ⟨V, v1, v2, v3, v4, v5, -, v6⟩ := Vector.new_spec hc hd hlt
  rw [h3] at v1; cases v1
  obtain ⟨m0, i0, hm0, hi0, hnd⟩ := v6 hpos.1 hpos.2
  have hsurj : ∀ k, k < P.V.ndof → ∃ m i, m < P.V.nnode ∧ i < P.V.ndim ∧ d m i = k := by
    intro k hk
    rw [h6, h7]
    exact hs m0 i0 hm0 hi0 k (by omega)
  obtain ⟨idx, n, g1, g2, g3, -⟩ := Reorder.index_spec (args := [P.iiu, P.iip])
    (by simpa using h8.nodup)
  simp only [List.flatten_cons, List.flatten_nil, List.append_nil] at g3
  have hall : ∀ k, k < P.V.ndof → k ∈ P.iiu ++ P.iip := by
    intro k hk
    obtain ⟨m, i, hm, hi, rfl⟩ := hsurj k hk
    rw [List.mem_append]
    exact (C12_partition h8).2.2.2.2.1 m i hm hi
  obtain ⟨r, r1, r2, r3⟩ := renum_spec (arg := Ten.of [P.V.ndof] fun ix => ix.getD 0 0)
    (mapping := idx) (f := fun ix => ix.getD 0 0) (g := fun k => (P.iiu ++ P.iip).idxOf k)
    (fun _ _ => rfl) (by
      intro ix hix
      obtain ⟨k, rfl, hk⟩ := inb1.1 hix
      have := g3 k (hall k hk)
      simp [Ten.get, g2, this.1, this.2])
  refine ⟨⟨P, r, ⟨Mat.zero P.nnu P.nnu, Mat.zero P.nnu P.nnp, Mat.zero P.nnp P.nnu,
    Mat.zero P.nnp P.nnp⟩, true⟩, q, ?_, h1, h3, h2, h8, hsurj, r2, ?_, ?_⟩
  · simp only [MatrixPartitioned.new, h1, Reorder.apply, g1, r1, Res.ok_bind]
  · intro k hk
    refine ⟨_, r3 [k] (by simp [Ten.of, hk]), ?_⟩
    have := List.idxOf_lt_length_of_mem (hall k hk)
    rw [List.getElem?_eq_getElem (by simpa using this)]
    simp
  · refine ⟨?_, ?_, ?_, ?_, fun _ _ _ _ _ _ => rfl, fun _ _ _ _ _ _ => rfl, fun _ _ _ _ _ _ => rfl,
      fun _ _ _ _ _ _ => rfl⟩ <;> simp [Mat.zero, h8.nnu, h8.nnp]

/-- **C18** (gap): if some number below `ndof` is in neither `iiu()` nor `iip()`, the constructor
reads storage that was never written. -/
theorem C18_constructor_gap [Zero α] {conn dofs : Ten Nat} {nelem nne nnode ndim : Nat}
    {iip : List Nat} (hc : Is2 conn nelem nne c) (hd : Is2 dofs nnode ndim d)
    (hlt : ∀ e m, e < nelem → m < nne → c e m < nnode) (hip : iip.Nodup)
    (hipd : ∀ k ∈ iip, ∃ m i, m < nnode ∧ i < ndim ∧ k ≤ d m i) {k : Nat} (hkp : k ∉ iip)
    (hk : ∀ m i, m < nnode → i < ndim → d m i ≠ k)
    (hlt' : ∃ m i, m < nnode ∧ i < ndim ∧ k < d m i) :
    MatrixPartitioned.new (α := α) conn dofs iip = .ub := by
  obtain ⟨P, q, h1, h2, h3, h4, h5, h6, h7, h8⟩ := C12_constructor hc hd hlt hip hipd
  obtain ⟨idx, n, g1, g2, g3, g4⟩ := Reorder.index_spec (args := [P.iiu, P.iip])
    (by simpa using h8.nodup)
  simp only [List.flatten_cons, List.flatten_nil, List.append_nil] at g3 g4
  have hnd : k < P.V.ndof := by
    obtain ⟨m, i, hm, hi, hh⟩ := hlt'
    have := h8.base.dofs_lt m i (by omega) (by omega)
    omega
  have hkn : k ∉ P.iiu ++ P.iip := by
    rw [List.mem_append]
    rintro (h | h)
    · obtain ⟨⟨m, i, hm, hi, e⟩, -⟩ := (h8.iiu_mem k).1 h
      exact hk m i (by omega) (by omega) e
    · exact hkp (h2 ▸ h)
  have : renum (Ten.of [P.V.ndof] fun ix => ix.getD 0 0) idx = .ub := by
    apply forEach_eq_ub _ _ (fun s => s.shape = [P.V.ndof]) _ rfl
    · intro ix hix s hs
      obtain ⟨a, rfl, ha⟩ := inb1.1 (mem_indices.1 hix)
      by_cases hm : a ∈ P.iiu ++ P.iip
      · right
        have := g3 a hm
        refine ⟨⟨s.shape, Function.update s.v [a] (some ((P.iiu ++ P.iip).idxOf a))⟩, ?_, hs⟩
        · simp [Ten.get, Ten.of, ha, g2, this.1, this.2, Ten.set, hs]
      · left
        simp [Ten.get, Ten.of, ha, g2, g4 a hm]
    · refine ⟨[k], mem_indices.2 (by simp [Ten.of, hnd]), fun s hs => ?_⟩
      simp [Ten.get, Ten.of, hnd, g2, g4 k hkn]
  simp only [MatrixPartitioned.new, h1, Reorder.apply, g1, this, Res.ok_bind, Res.ub_bind]

/-- **C18** (`assemble`, `Todense`): for the same element matrices, `Todense()` of `Matrix` and of
`MatrixPartitioned` have the same entries. -/
theorem C18_assemble_todense [AddCommMonoid α] (hM : M.Holds c d q D) {M0 : SMatrix α}
    {D0 : Nat → Nat → α} (h0 : M0.Holds c d D0) (hV : M0.V = M.P.V) {K : Ten α}
    {k : Nat → Nat → Nat → α}
    (hK : Is3 K M.P.V.nelem (M.P.V.nne * M.P.V.ndim) (M.P.V.nne * M.P.V.ndim) k) :
    ∃ M' M0' y y0 E, M.assemble K = .ok M' ∧ M0.assemble K = .ok M0' ∧
      M'.Holds c d q E ∧ M0'.Holds c d E ∧ M'.todense = .ok y ∧ M0'.todense = .ok y0 ∧
      Is2 y M.P.V.ndof M.P.V.ndof E ∧ Is2 y0 M.P.V.ndof M.P.V.ndof E := by
  obtain ⟨A, h1, h2⟩ := MatrixPartitioned.assemble_spec hM hK
  have hM' : MatrixPartitioned.Holds { M with A := A, changed := true } c d q
    (SMatrix.assembled M.P.V c d k) := ⟨hM.base, hM.surj, hM.part1d_shape, hM.part1d, h2⟩
  obtain ⟨y, h3, h4⟩ := MatrixPartitioned.todense_spec hM'
  rw [← hV] at hK
  have h5 := SMatrix.assemble_spec h0.base hK
  have h0' : SMatrix.Holds
    (⟨M0.V, ⟨M0.V.ndof, M0.V.ndof, SMatrix.assembled M0.V c d k⟩, true⟩ : SMatrix α)
    c d (SMatrix.assembled M0.V c d k) := ⟨h0.base, rfl, rfl, fun _ _ => rfl⟩
  obtain ⟨y0, h6, h7⟩ := SMatrix.todense_spec h0'.nr h0'.nc
  rw [hV] at h0' h7
  exact ⟨_, _, y, y0, _, h1, h5, hM', by rw [hV]; exact h0', h3, h6, h4, h7⟩

/-- **C18** (`Dot` on DOF vectors): the product with the dense matrix, for all schedules. -/
theorem C18_dot_dofval [NonUnitalNonAssocSemiring α] (hM : M.Holds c d q D) (σ : Nat → Sched)
    {x : Ten α} {f : Nat → α} (hx : Is1 x M.P.V.ndof f) :
    ∃ b, M.dot_dofval σ x = .ok b ∧
      Is1 b M.P.V.ndof (fun r => ∑ s ∈ range M.P.V.ndof, D r s * f s) := by
  have hP := hM.base
  obtain ⟨xu, h1, h2⟩ := VectorPartitioned.AsDofs_u_dofval_spec hP (σ 0) hx
  obtain ⟨xp, h3, h4⟩ := VectorPartitioned.AsDofs_p_dofval_spec hP (σ 1) hx
  obtain ⟨bu, h5, h6⟩ := MatrixPartitioned.rowU_spec hM h2 h4
  obtain ⟨bp, h7, h8⟩ := MatrixPartitioned.rowP_spec hM h2 h4
  rw [hP.nnu] at h6
  rw [hP.nnp] at h8
  obtain ⟨y, h9, h10, h11, h12⟩ := MatrixPartitioned.putDofs_spec (σ 2) hP.iiu_nodup
    (fun k hk => hP.iiu_lt hk) h6 (ret := Ten.empty [M.P.V.ndof]) rfl
  obtain ⟨z, h13, h14, h15, h16⟩ := MatrixPartitioned.putDofs_spec (σ 3) hP.iip_nodup
    (fun k hk => hP.iip_lt k hk) h8 h10
  rw [← hP.nnu] at h9
  rw [← hP.nnp] at h13
  refine ⟨z, by simp only [MatrixPartitioned.dot_dofval, h1, h3, h5, h7, h9, h13, Res.ok_bind],
    h14, fun k hk => ?_⟩
  rcases hM.mem hk with ⟨a, ha⟩ | ⟨a, ha⟩
  · have hn : k ∉ M.P.iip := ((hP.iiu_mem k).1 (List.mem_of_getElem? ha)).2
    rw [h16 k hn, h11 a k ha]
    simp [List.getD, ha]
  · rw [h15 a k ha]
    simp [List.getD, ha]

/-- **C18** (`Dot` on node vectors with one value per DOF). -/
theorem C18_dot_nodevec [NonUnitalNonAssocSemiring α] (hM : M.Holds c d q D) (σ : Nat → Sched)
    {x : Ten α} {f : Nat → α} (hx : Is2 x M.P.V.nnode M.P.V.ndim (fun m i => f (d m i))) :
    ∃ b, M.dot_nodevec σ x = .ok b ∧
      Is2 b M.P.V.nnode M.P.V.ndim (fun m i => ∑ s ∈ range M.P.V.ndof, D (d m i) s * f s) := by
  have hP := hM.base
  obtain ⟨xu, h1, h2⟩ := MatrixPartitioned.asDofs_u_node hM (σ 0) hx (f := f) (fun _ _ _ _ _ => rfl)
  obtain ⟨xp, h3, h4⟩ := MatrixPartitioned.asDofs_p_node hM (σ 1) hx (f := f) (fun _ _ _ _ _ => rfl)
  obtain ⟨bu, h5, h6⟩ := MatrixPartitioned.rowU_spec hM h2 h4
  obtain ⟨bp, h7, h8⟩ := MatrixPartitioned.rowP_spec hM h2 h4
  obtain ⟨y, h9, h10⟩ := VectorPartitioned.NodeFromPartitioned_spec hP (σ 2) h6 h8
  refine ⟨y, by simp only [MatrixPartitioned.dot_nodevec, h1, h3, h5, h7, h9, Res.ok_bind],
    h10.congr fun m i hm hi => ?_⟩
  split
  next h => have := hP.u_get hm hi h; simp [List.getD, this]
  next h => have := hP.p_get hm hi (by omega); simp [List.getD, this]

/-- a concrete partitioned matrix: the periodic 2 x 1 mesh with DOFs 5 and 0 prescribed, holding a
matrix with non-zero entries -/
theorem exMatrixPartitioned : ∃ (M0 M : MatrixPartitioned Int) (c d q : Nat → Nat → Nat)
    (D : Nat → Nat → Int), MatrixPartitioned.new exConn exDofs [5, 0] = .ok M0 ∧
    M0.set [0, 3] [1] (lit2 1 [[5], [6]]) = .ok M ∧ M.Holds c d q D ∧ D 3 1 = 6 ∧ M.P.nnu = 6 ∧
    M.P.nnp = 2 := by
  obtain ⟨P, c', d', q', p1, p2, p3, p4, p5⟩ := exVectorPartitioned
  obtain ⟨M, q, h1, h2, h3, h4, h5⟩ := C18_constructor (α := Int) (conn := exConn) (dofs := exDofs)
    (iip := [5, 0]) (is2_of 2 4 _) (is2_of 6 2 _) (ball2 (by decide)) (by decide) (by
      intro k hk
      have : k ≤ 7 := by simp at hk; omega
      exact ⟨4, 1, by decide, by decide, this⟩) (by
      intro m i hm hi k hk
      have hb : ∀ m, m < 6 → ∀ i, i < 2 → exDofs.v [m, i] ∈ (List.range 8).map some := by decide
      have h7 : k ≤ 7 := by
        have := hb m hm i hi
        simp only [List.mem_map, List.mem_range] at this
        obtain ⟨a, ha, e⟩ := this
        have e' := Option.some.inj e
        exact le_trans hk (le_trans (le_of_eq e'.symm) (by omega))
      have : ∀ k, k ≤ 7 → ∃ n, n < 6 ∧ ∃ j, j < 2 ∧ exDofs.v [n, j] = some k := by decide
      obtain ⟨n, hn, j, hj, e⟩ := this k h7
      exact ⟨n, j, hn, hj, Option.some.inj e⟩) (by decide)
  rw [p1] at h2; cases h2
  obtain ⟨V, c2, d2, a1, -, -, -, -, a4, -⟩ := exVector
  rw [h3] at a1; cases a1
  obtain ⟨A, s1, s2⟩ := MatrixPartitioned.set_spec h5 (rows := [0, 3]) (cols := [1])
    (B := lit2 1 [[5], [6]]) (is2_of 2 1 _) (by rw [a4]; decide) (by rw [a4]; decide)
  exact ⟨M, _, _, _, _, _, h1, s1, ⟨h5.base, h5.surj, h5.part1d_shape, h5.part1d, s2⟩, by decide, p4, p5⟩

/-! ### C19 -/

/-- **C19**: any history of `assemble`, `set` and `add` calls has the same effect on `Todense()` of a
`MatrixPartitioned` as on that of a `Matrix`, and equals the dense operations. -/
theorem C19_history [AddCommMonoid α] (ops : List (SMatrix.Op α)) {D' : Nat → Nat → α}
    (hM : M.Holds c d q D) (h : SMatrix.RunSpec M.P.V c d ops D D') :
    ∃ M' y, M.run ops = .ok M' ∧ M'.P = M.P ∧ M'.Holds c d q D' ∧ M'.todense = .ok y ∧
      Is2 y M.P.V.ndof M.P.V.ndof D' := by
  suffices H : ∃ M', M.run ops = .ok M' ∧ M'.P = M.P ∧ M'.Holds c d q D' by
    obtain ⟨M', h1, h2, h3⟩ := H
    obtain ⟨y, h4, h5⟩ := MatrixPartitioned.todense_spec h3
    rw [h2] at h5
    exact ⟨M', y, h1, h2, h3, h4, h5⟩
  induction ops generalizing M D with
  | nil => cases h; exact ⟨M, rfl, rfl, hM⟩
  | cons op ops ih =>
    cases h with
    | cons h1 h2 =>
      have : ∃ M1, M.step op = .ok M1 ∧ M1.P = M.P ∧ M1.Holds c d q (by assumption) := by
        cases h1 with
        | assemble hK =>
          obtain ⟨A, e1, e2⟩ := MatrixPartitioned.assemble_spec hM hK
          exact ⟨_, e1, rfl, hM.base, hM.surj, hM.part1d_shape, hM.part1d, e2⟩
        | set hB hr hc =>
          obtain ⟨A, e1, e2⟩ := MatrixPartitioned.set_spec hM hB hr hc
          exact ⟨_, e1, rfl, hM.base, hM.surj, hM.part1d_shape, hM.part1d, e2⟩
        | add hB hr hc =>
          obtain ⟨A, e1, e2⟩ := MatrixPartitioned.add_spec hM hB hr hc
          exact ⟨_, e1, rfl, hM.base, hM.surj, hM.part1d_shape, hM.part1d, e2⟩
      obtain ⟨M1, h3, h4, h5⟩ := this
      rw [← h4] at h2
      obtain ⟨M', h6, h7, h8⟩ := ih h5 h2
      refine ⟨M', ?_, h7.trans h4, h8⟩
      simp only [MatrixPartitioned.run, forEach_cons, h3]
      exact h6

/-- **C19** (agreement): the same history run on a `Matrix` and a `MatrixPartitioned` that hold the
same dense matrix gives the same `Todense()`. -/
theorem C19_agrees [AddCommMonoid α] (ops : List (SMatrix.Op α)) {D' : Nat → Nat → α}
    (hM : M.Holds c d q D) {M0 : SMatrix α} (h0 : M0.Holds c d D) (hV : M0.V = M.P.V)
    (h : SMatrix.RunSpec M.P.V c d ops D D') :
    ∃ M' M0' y y0, M.run ops = .ok M' ∧ M0.run ops = .ok M0' ∧ M'.todense = .ok y ∧
      M0'.todense = .ok y0 ∧ Is2 y M.P.V.ndof M.P.V.ndof D' ∧
      Is2 y0 M.P.V.ndof M.P.V.ndof D' := by
  obtain ⟨M', y, h1, -, -, h2, h3⟩ := C19_history ops hM h
  rw [← hV] at h
  obtain ⟨M0', y0, h4, -, -, h5, h6⟩ := C16_history ops h0 h
  rw [hV] at h6
  exact ⟨M', M0', y, y0, h1, h4, h2, h5, h3, h6⟩

example : ∃ (M : MatrixPartitioned Int) (c d q : Nat → Nat → Nat) (D D' : Nat → Nat → Int),
    M.Holds c d q D ∧ SMatrix.RunSpec M.P.V c d [.add [3] [1, 2] (lit2 2 [[1, 2]])] D D' ∧
    D' 3 1 = 7 := by
  obtain ⟨M0, M, c, d, q, D, h1, h2, h3, h4, h5, h6⟩ := exMatrixPartitioned
  have hn : M.P.V.ndof = 8 := by
    have := h3.perm.length_eq
    rw [List.length_append, ← h3.base.nnu, ← h3.base.nnp, h5, h6, List.length_range] at this
    omega
  refine ⟨M, c, d, q, D, _, h3, .cons (.add (is2_of 1 2 _) (by rw [hn]; decide)
    (by rw [hn]; decide)) .nil, ?_⟩
  simp only [h4]; decide

/-! ### C20 -/

/-- **C20** (DOF vectors): `Reaction(x, b)` keeps `b` on the unknown DOFs and stores row `r` of the
product `A x` on every prescribed DOF `r`. -/
theorem C20_reaction_dofval [NonUnitalNonAssocSemiring α] (hM : M.Holds c d q D) (σ : Nat → Sched)
    {x b : Ten α} {f g : Nat → α} (hx : Is1 x M.P.V.ndof f) (hb : Is1 b M.P.V.ndof g) :
    ∃ y, M.reaction_dofval σ x b = .ok y ∧ Is1 y M.P.V.ndof (fun r =>
      if r ∈ M.P.iip then ∑ s ∈ range M.P.V.ndof, D r s * f s else g r) := by
  have hP := hM.base
  obtain ⟨xu, h1, h2⟩ := VectorPartitioned.AsDofs_u_dofval_spec hP (σ 0) hx
  obtain ⟨xp, h3, h4⟩ := VectorPartitioned.AsDofs_p_dofval_spec hP (σ 1) hx
  obtain ⟨bp, h7, h8⟩ := MatrixPartitioned.rowP_spec hM h2 h4
  rw [hP.nnp] at h8
  obtain ⟨z, h13, h14, h15, h16⟩ := MatrixPartitioned.putDofs_spec (σ 2) hP.iip_nodup
    (fun k hk => hP.iip_lt k hk) h8 hb.1
  rw [← hP.nnp] at h13
  refine ⟨z, by simp only [MatrixPartitioned.reaction_dofval, h1, h3, h7, h13, Res.ok_bind],
    h14, fun k hk => ?_⟩
  by_cases h : k ∈ M.P.iip
  · obtain ⟨a, ha⟩ := List.mem_iff_getElem?.1 h
    rw [h15 a k ha]
    simp [List.getD, ha, h]
  · rw [h16 k h, hb.2 k hk]
    simp [h]

/-- **C20** (node vectors). -/
theorem C20_reaction_nodevec [NonUnitalNonAssocSemiring α] (hM : M.Holds c d q D) (σ : Nat → Sched)
    {x b : Ten α} {f : Nat → α} {g : Nat → Nat → α}
    (hx : Is2 x M.P.V.nnode M.P.V.ndim (fun m i => f (d m i)))
    (hb : Is2 b M.P.V.nnode M.P.V.ndim g) :
    ∃ y, M.reaction_nodevec σ x b = .ok y ∧ Is2 y M.P.V.nnode M.P.V.ndim (fun m i =>
      if d m i ∈ M.P.iip then ∑ s ∈ range M.P.V.ndof, D (d m i) s * f s else g m i) := by
  have hP := hM.base
  obtain ⟨xu, h1, h2⟩ := MatrixPartitioned.asDofs_u_node hM (σ 0) hx (f := f) (fun _ _ _ _ _ => rfl)
  obtain ⟨xp, h3, h4⟩ := MatrixPartitioned.asDofs_p_node hM (σ 1) hx (f := f) (fun _ _ _ _ _ => rfl)
  obtain ⟨bp, h7, h8⟩ := MatrixPartitioned.rowP_spec hM h2 h4
  obtain ⟨y, h9, h10⟩ := VectorPartitioned.masked_spec (σ 2) M.P.V.nnode M.P.V.ndim
    (fun m i => decide (M.P.nnu ≤ q m i)) (fun ret mi => do
      let k ← M.P.part.get [mi.1, mi.2]
      if M.P.nnu ≤ k then
        let a ← bp.get [k - M.P.nnu]
        ret.set [mi.1, mi.2] a
      else .ok ret)
    (g := fun m i => ∑ s ∈ range M.P.V.ndof, D (d m i) s * f s) hb (by
      intro m i hm hi s
      simp only [hP.part.get hm hi, Res.ok_bind, decide_eq_true_eq]
      split
      next h =>
        have := hP.p_get hm hi h
        simp [h8.get (hP.p_lt hm hi h), List.getD, this]
      next h => rfl)
  refine ⟨y, by simp only [MatrixPartitioned.reaction_nodevec, h1, h3, h7, h9, Res.ok_bind],
    h10.congr fun m i hm hi => ?_⟩
  have := hP.u_iff hm hi
  rw [← not_le] at this
  by_cases hh : d m i ∈ M.P.iip <;> simp_all

/-- **C20** (`Reaction_p`): for the parts `x_u`, `x_p` of a DOF vector `x`, it returns `A x` at the
prescribed DOFs, in the order of `iip()`. -/
theorem C20_reaction_p [NonUnitalNonAssocSemiring α] (hM : M.Holds c d q D)
    {xu xp : Ten α} {f : Nat → α}
    (hu : Is1 xu M.P.nnu (fun a => f (M.P.iiu.getD a 0)))
    (hp : Is1 xp M.P.nnp (fun a => f (M.P.iip.getD a 0))) :
    ∃ y, M.reaction_p xu xp = .ok y ∧ Is1 y M.P.nnp (fun a =>
      ∑ s ∈ range M.P.V.ndof, D (M.P.iip.getD a 0) s * f s) :=
  MatrixPartitioned.rowP_spec hM hu hp

example : ∃ (M : MatrixPartitioned Int) (c d q : Nat → Nat → Nat) (D : Nat → Nat → Int)
    (x b : Ten Int) (f g : Nat → Int), M.Holds c d q D ∧ Is1 x M.P.V.ndof f ∧ Is1 b M.P.V.ndof g ∧
    D 3 1 * f 1 ≠ 0 ∧ g 2 ≠ 0 := by
  obtain ⟨M0, M, c, d, q, D, h1, h2, h3, h4, -⟩ := exMatrixPartitioned
  exact ⟨M, c, d, q, D, Ten.of _ (fun ix => (ix.getD 0 0 : Int) + 1),
    Ten.of _ (fun ix => (ix.getD 0 0 : Int) + 3), _, _, h3, is1_of _ _, is1_of _ _,
    by rw [h4]; decide, by decide⟩

/-! ### C21 -/

/-- the solver is up to date: it will factorise, or its factorisation is the current block -/
def SolverState.Fresh (s : SolverState α) (changed : Bool) (A : Mat α) : Prop :=
  changed = true ∨ s.factor = true ∨ s.fact = some A

theorem SolverState.factorize_spec (s : SolverState α) {ch : Bool} {A : Mat α} (h : s.Fresh ch A) :
    (s.factorize ch A).1.fact = some A := by
  unfold SolverState.factorize
  split
  next hh =>
    simp only [Bool.and_eq_true, Bool.not_eq_true'] at hh
    rcases h with h | h | h
    · simp [h] at hh
    · simp [h] at hh
    · exact h
  next => rfl

theorem solveRhs_spec [NonUnitalNonAssocRing α] (S : LinSolver α) {s : SolverState α}
    (hM : M.Holds c d q D) (hs : s.fact = some M.A.uu) (hS : S.ExactOn M.A.uu) {bu xp : Ten α}
    {g f : Nat → α} (hb : Is1 bu M.P.nnu (fun a => g (M.P.iiu.getD a 0)))
    (hp : Is1 xp M.P.nnp (fun a => f (M.P.iip.getD a 0))) :
    ∃ y w, M.solveRhs S s bu xp = .ok y ∧ Is1 y M.P.nnu w ∧ ∀ a, a < M.P.nnu →
      ∑ b ∈ range M.P.nnu, D (M.P.iiu.getD a 0) (M.P.iiu.getD b 0) * w b +
      ∑ b ∈ range M.P.nnp, D (M.P.iiu.getD a 0) (M.P.iip.getD b 0) * f (M.P.iip.getD b 0) =
        g (M.P.iiu.getD a 0) := by
  have hP := hM.base
  have hA := hM.blocks
  obtain ⟨y2, h3, h4⟩ := M.A.up.mulVec_spec (x := xp) (f := fun a => f (M.P.iip.getD a 0))
    (by rw [hA.up_dim.2, ← hP.nnp]; exact hp)
  rw [hA.up_dim.1, hA.up_dim.2, ← hP.nnu, ← hP.nnp] at h4
  obtain ⟨z, h5, h6⟩ := vzip_spec (· - ·) hb h4
  obtain ⟨y, v, h7, h8, h9⟩ := MatrixPartitioned.solve_ok S hs (b := z)
    (by rw [hA.uu_dim.1, ← hP.nnu]; exact h6)
  rw [hA.uu_dim.2, ← hP.nnu] at h8
  rw [hA.uu_dim.1, ← hP.nnu] at h9
  refine ⟨y, _, by simp only [MatrixPartitioned.solveRhs, h3, h5, h7, Res.ok_bind], h8,
    fun a ha => ?_⟩
  have hex := hS v a (by rw [hA.uu_dim.1, ← hP.nnu]; exact ha)
  rw [hA.uu_dim.2, ← hP.nnu, h9 a ha] at hex
  have ha' := ha
  rw [hP.nnu] at ha'
  have e1 : ∑ b ∈ range M.P.nnu, D (M.P.iiu.getD a 0) (M.P.iiu.getD b 0) * S.run M.A.uu v b =
      ∑ b ∈ range M.P.nnu, M.A.uu.e a b * S.run M.A.uu v b := by
    refine Finset.sum_congr rfl fun b hb => ?_
    simp only [mem_range, hP.nnu] at hb
    rw [hA.uu a b _ _ (MatrixPartitioned.getElem?_getD ha') (MatrixPartitioned.getElem?_getD hb)]
  have e2 : ∑ b ∈ range M.P.nnp, D (M.P.iiu.getD a 0) (M.P.iip.getD b 0) * f (M.P.iip.getD b 0) =
      ∑ b ∈ range M.P.nnp, M.A.up.e a b * f (M.P.iip.getD b 0) := by
    refine Finset.sum_congr rfl fun b hb => ?_
    simp only [mem_range, hP.nnp] at hb
    rw [hA.up a b _ _ (MatrixPartitioned.getElem?_getD ha') (MatrixPartitioned.getElem?_getD hb)]
  rw [e1, e2, hex, sub_add_cancel]

/-- **C21** (DOF vectors): with a solver that is exact for the unknown block and up to date,
`Solve(A, b, x)` returns `x'` that equals `x` on every prescribed DOF and satisfies
`(A x')(r) = b(r)` on every unknown DOF. -/
theorem C21_solve_dofval [NonUnitalNonAssocRing α] (S : LinSolver α) (s : SolverState α)
    (hM : M.Holds c d q D) (hs : s.Fresh M.changed M.A.uu) (hS : S.ExactOn M.A.uu) (σ : Nat → Sched)
    {b x : Ten α} {g f : Nat → α} (hb : Is1 b M.P.V.ndof g) (hx : Is1 x M.P.V.ndof f) :
    ∃ s' M' y f', M.solve_dofval S s σ b x = .ok (s', M', y) ∧ Is1 y M.P.V.ndof f' ∧
      (∀ k ∈ M.P.iip, f' k = f k) ∧
      (∀ r, r < M.P.V.ndof → r ∉ M.P.iip → ∑ k ∈ range M.P.V.ndof, D r k * f' k = g r) := by
  have hP := hM.base
  obtain ⟨bu, h1, h2⟩ := VectorPartitioned.AsDofs_u_dofval_spec hP (σ 0) hb
  obtain ⟨xp, h3, h4⟩ := VectorPartitioned.AsDofs_p_dofval_spec hP (σ 1) hx
  obtain ⟨xu, w, h5, h6, h7⟩ := solveRhs_spec S hM (SolverState.factorize_spec s hs) hS h2 h4
  have h6' := h6
  rw [hP.nnu] at h6'
  obtain ⟨z, h13, h14, h15, h16⟩ := MatrixPartitioned.putDofs_spec (σ 2) hP.iiu_nodup
    (fun k hk => hP.iiu_lt hk) h6' hx.1
  rw [← hP.nnu] at h13
  set f' : Nat → α := fun k => if k ∈ M.P.iip then f k else w (M.P.iiu.idxOf k) with hf'
  have hu : ∀ a, a < M.P.nnu → f' (M.P.iiu.getD a 0) = w a := by
    intro a ha
    rw [hP.nnu] at ha
    have hn := ((hP.iiu_mem _).1 (SMatrix.getD_mem ha)).2
    simp only [hf', hn, if_false]
    congr 1
    simp [List.getD, ha, hP.iiu_nodup.idxOf_getElem]
  have hp : ∀ k ∈ M.P.iip, f' k = f k := fun k hk => by simp [hf', hk]
  refine ⟨_, _, z, f', by
    simp only [MatrixPartitioned.solve_dofval, h1, h3, h5, h13, Res.ok_bind]; rfl, ⟨h14, ?_⟩, hp, ?_⟩
  · intro k hk
    rcases hM.mem hk with ⟨a, ha⟩ | ⟨a, ha⟩
    · rw [h15 a k ha, ← hu a (by rw [hP.nnu]; exact app_len ha)]
      simp [List.getD, ha]
    · have hkp := List.mem_of_getElem? ha
      rw [h16 k (fun h => ((hP.iiu_mem k).1 h).2 hkp), hx.2 k hk, hp k hkp]
  · intro r hr hrp
    rcases hM.mem hr with ⟨a, ha⟩ | ⟨a, ha⟩
    · have ha' : a < M.P.nnu := by rw [hP.nnu]; exact app_len ha
      have h8 := h7 a ha'
      have e : M.P.iiu.getD a 0 = r := by simp [List.getD, ha]
      rw [e] at h8
      rw [hM.sum_split, ← h8]
      congr 1
      · exact Finset.sum_congr rfl fun b hb => by rw [hu b (mem_range.1 hb)]
      · refine Finset.sum_congr rfl fun b hb => ?_
        simp only [mem_range, hP.nnp] at hb
        rw [hp _ (SMatrix.getD_mem hb)]
    · exact absurd (List.mem_of_getElem? ha) hrp

/-- **C21** (node vectors): the same for node vectors; only the prescribed components of `x` and the
unknown components of `b` matter, and they must be consistent (one value per DOF). -/
theorem C21_solve_nodevec [NonUnitalNonAssocRing α] (S : LinSolver α) (s : SolverState α)
    (hM : M.Holds c d q D) (hs : s.Fresh M.changed M.A.uu) (hS : S.ExactOn M.A.uu) (σ : Nat → Sched)
    {b x : Ten α} {gb gx : Nat → Nat → α} {g f : Nat → α}
    (hb : Is2 b M.P.V.nnode M.P.V.ndim gb) (hx : Is2 x M.P.V.nnode M.P.V.ndim gx)
    (hgb : ∀ m i, m < M.P.V.nnode → i < M.P.V.ndim → d m i ∉ M.P.iip → gb m i = g (d m i))
    (hgx : ∀ m i, m < M.P.V.nnode → i < M.P.V.ndim → d m i ∈ M.P.iip → gx m i = f (d m i)) :
    ∃ (s' : SolverState α) (M' : MatrixPartitioned α) (y : Ten α) (f' : Nat → α),
      M.solve_nodevec S s σ b x = .ok (s', M', y) ∧
      Is2 y M.P.V.nnode M.P.V.ndim (fun m i => f' (d m i)) ∧
      (∀ k ∈ M.P.iip, f' k = f k) ∧
      (∀ r, r < M.P.V.ndof → r ∉ M.P.iip → ∑ k ∈ range M.P.V.ndof, D r k * f' k = g r) := by
  have hP := hM.base
  obtain ⟨bu, h1, h2⟩ := MatrixPartitioned.asDofs_u_node hM (σ 0) hb hgb
  obtain ⟨xp, h3, h4⟩ := MatrixPartitioned.asDofs_p_node hM (σ 1) hx hgx
  obtain ⟨xu, w, h5, h6, h7⟩ := solveRhs_spec S hM (SolverState.factorize_spec s hs) hS h2 h4
  set f' : Nat → α := fun k => if k ∈ M.P.iip then f k else w (M.P.iiu.idxOf k) with hf'
  have hu : ∀ a, a < M.P.nnu → f' (M.P.iiu.getD a 0) = w a := by
    intro a ha
    rw [hP.nnu] at ha
    have hn := ((hP.iiu_mem _).1 (SMatrix.getD_mem ha)).2
    simp only [hf', hn, if_false]
    congr 1
    simp [List.getD, ha, hP.iiu_nodup.idxOf_getElem]
  have hp : ∀ k ∈ M.P.iip, f' k = f k := fun k hk => by simp [hf', hk]
  obtain ⟨y, h9, h10⟩ := VectorPartitioned.masked_spec (σ 2) M.P.V.nnode M.P.V.ndim
    (fun m i => decide (q m i < M.P.nnu)) (fun ret mi => do
      let k ← M.P.part.get [mi.1, mi.2]
      if k < M.P.nnu then
        let a ← xu.get [k]
        ret.set [mi.1, mi.2] a
      else .ok ret)
    (g := fun m i => f' (d m i)) hx (by
      intro m i hm hi t
      simp only [hP.part.get hm hi, Res.ok_bind, decide_eq_true_eq]
      split
      next h =>
        have e := hP.u_get hm hi h
        rw [h6.get h, ← hu _ h]
        simp [List.getD, e]
      next h => rfl)
  refine ⟨_, _, y, f', by
    simp only [MatrixPartitioned.solve_nodevec, h1, h3, h5, h9, Res.ok_bind]; rfl,
    h10.congr fun m i hm hi => ?_, hp, ?_⟩
  · by_cases hh : d m i ∈ M.P.iip
    · rw [if_neg]
      · rw [hgx m i hm hi hh, hp _ hh]
      · simpa using not_lt.1 (mt (hP.u_iff hm hi).1 (not_not.2 hh))
    · rw [if_pos]
      simpa using (hP.u_iff hm hi).2 hh
  · intro r hr hrp
    rcases hM.mem hr with ⟨a, ha⟩ | ⟨a, ha⟩
    · have ha' : a < M.P.nnu := by rw [hP.nnu]; exact app_len ha
      have h8 := h7 a ha'
      have e : M.P.iiu.getD a 0 = r := by simp [List.getD, ha]
      rw [e] at h8
      rw [hM.sum_split, ← h8]
      congr 1
      · exact Finset.sum_congr rfl fun b hb => by rw [hu b (mem_range.1 hb)]
      · refine Finset.sum_congr rfl fun b hb => ?_
        simp only [mem_range, hP.nnp] at hb
        rw [hp _ (SMatrix.getD_mem hb)]
    · exact absurd (List.mem_of_getElem? ha) hrp

/-- **C21** (`Solve_u`): for the parts `b_u` and `x_p`, it returns `x_u` with
`A_uu x_u + A_up x_p = b_u`. -/
theorem C21_solve_u [NonUnitalNonAssocRing α] (S : LinSolver α) (s : SolverState α)
    (hM : M.Holds c d q D) (hs : s.Fresh M.changed M.A.uu) (hS : S.ExactOn M.A.uu)
    {bu xp : Ten α} {g f : Nat → α} (hb : Is1 bu M.P.nnu (fun a => g (M.P.iiu.getD a 0)))
    (hp : Is1 xp M.P.nnp (fun a => f (M.P.iip.getD a 0))) :
    ∃ s' M' y w, M.solve_u S s bu xp = .ok (s', M', y) ∧ Is1 y M.P.nnu w ∧ ∀ a, a < M.P.nnu →
      ∑ b ∈ range M.P.nnu, D (M.P.iiu.getD a 0) (M.P.iiu.getD b 0) * w b +
      ∑ b ∈ range M.P.nnp, D (M.P.iiu.getD a 0) (M.P.iip.getD b 0) * f (M.P.iip.getD b 0) =
        g (M.P.iiu.getD a 0) := by
  obtain ⟨xu, w, h5, h6, h7⟩ := solveRhs_spec S hM (SolverState.factorize_spec s hs) hS hb hp
  exact ⟨_, _, xu, w, by simp only [MatrixPartitioned.solve_u, h5, Res.ok_bind]; rfl, h6, h7⟩

/-- **C21** (equilibrium): after `Solve` and `Reaction` the residual vanishes on every DOF. -/
theorem C21_residual [NonUnitalNonAssocRing α] (S : LinSolver α) (s : SolverState α)
    (hM : M.Holds c d q D) (hs : s.Fresh M.changed M.A.uu) (hS : S.ExactOn M.A.uu)
    (σ τ : Nat → Sched)
    {b x : Ten α} {g f : Nat → α} (hb : Is1 b M.P.V.ndof g) (hx : Is1 x M.P.V.ndof f) :
    ∃ s' M' y b' f' g', M.solve_dofval S s σ b x = .ok (s', M', y) ∧
      M'.reaction_dofval τ y b = .ok b' ∧ Is1 y M.P.V.ndof f' ∧ Is1 b' M.P.V.ndof g' ∧
      (∀ k ∈ M.P.iip, f' k = f k) ∧
      (∀ r, r < M.P.V.ndof → r ∉ M.P.iip → g' r = g r) ∧
      (∀ r, r < M.P.V.ndof → ∑ k ∈ range M.P.V.ndof, D r k * f' k = g' r) := by
  obtain ⟨s', M', y, f', h1, h2, h3, h4⟩ := C21_solve_dofval S s hM hs hS σ hb hx
  have hM' : M'.Holds c d q D ∧ M'.P = M.P := by
    simp only [MatrixPartitioned.solve_dofval] at h1
    revert h1
    cases M.P.AsDofs_u_dofval (σ 0) b <;> try (intro h; cases h)
    cases M.P.AsDofs_p_dofval (σ 1) x <;> try (intro h; cases h)
    rename_i bu xp
    simp only [Res.ok_bind]
    cases M.solveRhs S (s.factorize M.changed M.A.uu).1 bu xp <;> try (intro h; cases h)
    rename_i xu
    simp only [Res.ok_bind]
    cases MatrixPartitioned.putDofs (σ 2) M.P.iiu M.P.nnu xu x <;> (intro h; cases h)
    exact ⟨⟨hM.base, hM.surj, hM.part1d_shape, hM.part1d, hM.blocks⟩, rfl⟩
  obtain ⟨hM', hPe⟩ := hM'
  obtain ⟨b', h5, h6⟩ := C20_reaction_dofval hM' τ (by rw [hPe]; exact h2) (by rw [hPe]; exact hb)
  rw [hPe] at h6
  refine ⟨s', M', y, b', f', _, h1, h5, h2, h6, h3, fun r _ hr => by simp [hr], fun r hr => ?_⟩
  by_cases h : r ∈ M.P.iip
  · simp [h]
  · simp [h, h4 r hr h]

/-- hypotheses of C21 are met by a matrix whose unknown block is the identity and the solver that
returns the right-hand side -/
example : ∃ (M : MatrixPartitioned Int) (c d q : Nat → Nat → Nat) (D : Nat → Nat → Int)
    (S : LinSolver Int), M.Holds c d q D ∧ SolverState.init.Fresh M.changed M.A.uu ∧
    S.ExactOn M.A.uu ∧ M.A.uu.nr = 6 := by
  obtain ⟨M0, M, c, d, q, D, h1, h2, h3, h4, h5, h6⟩ := exMatrixPartitioned
  have hn : M.P.V.ndof = 8 := by
    have := h3.perm.length_eq
    rw [List.length_append, ← h3.base.nnu, ← h3.base.nnp, h5, h6, List.length_range] at this
    omega
  obtain ⟨A, s1, s2⟩ := MatrixPartitioned.set_spec h3 (rows := List.range 8) (cols := List.range 8)
    (B := Ten.of [8, 8] fun ix => if ix.getD 0 0 = ix.getD 1 0 then 1 else 0)
    (b := fun i j => if i = j then 1 else 0) (is2_of 8 8 _) (by rw [hn]; simp) (by rw [hn]; simp)
  refine ⟨{ M with A := A, changed := true }, c, d, q, _, ⟨fun _ b => b⟩,
    ⟨h3.base, h3.surj, h3.part1d_shape, h3.part1d, s2⟩, Or.inl rfl, ?_, ?_⟩
  · intro b r hr
    simp only [s2.uu_dim.1] at hr
    simp only [s2.uu_dim.2]
    have key : ∀ a, a < 8 → ∀ b, b < 8 → SMatrix.blockEntries (α := Int) (List.range 8)
      (List.range 8) (fun i j => if i = j then 1 else 0) a b = if a = b then 1 else 0 := by decide
    rw [Finset.sum_eq_single r]
    · rw [s2.uu r r _ _ (List.getElem?_eq_getElem hr) (List.getElem?_eq_getElem hr), key]
      · simp
      · rw [← hn]; exact h3.base.iiu_lt (List.getElem_mem hr)
      · rw [← hn]; exact h3.base.iiu_lt (List.getElem_mem hr)
    · intro a ha hne
      rw [mem_range] at ha
      rw [s2.uu r a _ _ (List.getElem?_eq_getElem hr) (List.getElem?_eq_getElem ha), key]
      · rw [if_neg]
        · simp
        · intro e; exact hne ((h3.base.iiu_nodup.getElem_inj_iff).1 e).symm
      · rw [← hn]; exact h3.base.iiu_lt (List.getElem_mem hr)
      · rw [← hn]; exact h3.base.iiu_lt (List.getElem_mem ha)
    · intro h; exact absurd (mem_range.2 hr) h
  · rw [s2.uu_dim.1, ← h3.base.nnu, h5]

end GF
