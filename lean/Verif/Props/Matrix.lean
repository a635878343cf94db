import Verif.Lemmas.Matrix
import Verif.Props.Vector

/-! # Properties C15 - C17: `GooseFEM::Matrix` -/

namespace GF
open Finset
variable {α : Type} {M : SMatrix α} {c d : Nat → Nat → Nat}

/-- The state of a `Matrix` object: valid tables and an `ndof x ndof` matrix with entries `D`. -/
structure SMatrix.Holds (M : SMatrix α) (c d : Nat → Nat → Nat) (D : Nat → Nat → α) : Prop where
  base : M.V.Holds c d
  nr : M.A.nr = M.V.ndof
  nc : M.A.nc = M.V.ndof
  e : ∀ r s, M.A.e r s = D r s

/-- **C15** (constructor): a new matrix holds the zero matrix. -/
theorem C15_constructor [Zero α] {conn dofs : Ten Nat} {nelem nne nnode ndim : Nat}
    (hc : Is2 conn nelem nne c) (hd : Is2 dofs nnode ndim d)
    (hlt : ∀ e m, e < nelem → m < nne → c e m < nnode) :
    ∃ M : SMatrix α, SMatrix.new conn dofs = .ok M ∧ Vector.new conn dofs = .ok M.V ∧
      M.Holds c d (fun _ _ => 0) := by
  obtain ⟨V, h1, h2, h3, h4, h5, h6, -⟩ := Vector.new_spec hc hd hlt
  exact ⟨⟨V, Mat.zero V.ndof V.ndof, true⟩, by simp [SMatrix.new, h1], h1, h6, rfl, rfl,
    fun _ _ => rfl⟩

/-- **C15**: whatever the matrix held before, after `assemble(K)` the entry `(r, s)` of `Todense()`
is the sum of all element-matrix entries whose row DOF is `r` and column DOF is `s`. -/
theorem C15_assemble [AddCommMonoid α] {D : Nat → Nat → α} (hM : M.Holds c d D) {K : Ten α}
    {k : Nat → Nat → Nat → α} (hK : Is3 K M.V.nelem (M.V.nne * M.V.ndim) (M.V.nne * M.V.ndim) k) :
    ∃ M' y, M.assemble K = .ok M' ∧ M'.V = M.V ∧ M'.todense = .ok y ∧
      Is2 y M.V.ndof M.V.ndof (fun r s =>
        ∑ e ∈ range M.V.nelem, ∑ m ∈ range M.V.nne, ∑ i ∈ range M.V.ndim,
          ∑ n ∈ range M.V.nne, ∑ j ∈ range M.V.ndim,
            if d (c e m) i = r ∧ d (c e n) j = s then
              k e (m * M.V.ndim + i) (n * M.V.ndim + j) else 0) := by
  obtain ⟨y, h1, h2⟩ := SMatrix.todense_spec
    (M := ⟨M.V, ⟨M.V.ndof, M.V.ndof, SMatrix.assembled M.V c d k⟩, true⟩) rfl rfl
  exact ⟨_, y, SMatrix.assemble_spec hM.base hK, rfl, h1, h2⟩

/-- **C15** (total): the sum of all entries of the assembled matrix is the sum of all
element-matrix entries. -/
theorem C15_total [AddCommMonoid α] {D : Nat → Nat → α} (hM : M.Holds c d D) {K : Ten α}
    {k : Nat → Nat → Nat → α} (hK : Is3 K M.V.nelem (M.V.nne * M.V.ndim) (M.V.nne * M.V.ndim) k) :
    ∃ M' y D', M.assemble K = .ok M' ∧ M'.todense = .ok y ∧ Is2 y M.V.ndof M.V.ndof D' ∧
      ∑ r ∈ range M.V.ndof, ∑ s ∈ range M.V.ndof, D' r s =
        ∑ e ∈ range M.V.nelem, ∑ m ∈ range M.V.nne, ∑ i ∈ range M.V.ndim,
          ∑ n ∈ range M.V.nne, ∑ j ∈ range M.V.ndim, k e (m * M.V.ndim + i) (n * M.V.ndim + j) := by
  obtain ⟨M', y, h1, h2, h3, h4⟩ := C15_assemble hM hK
  refine ⟨M', y, _, h1, h3, h4, ?_⟩
  have hV := hM.base
  rw [Finset.sum_congr rfl fun r _ => Finset.sum_comm, Finset.sum_comm]
  refine Finset.sum_congr rfl fun e he => ?_
  rw [Finset.sum_congr rfl fun r _ => Finset.sum_comm, Finset.sum_comm]
  refine Finset.sum_congr rfl fun m hm => ?_
  rw [Finset.sum_congr rfl fun r _ => Finset.sum_comm, Finset.sum_comm]
  refine Finset.sum_congr rfl fun i hi => ?_
  rw [Finset.sum_congr rfl fun r _ => Finset.sum_comm, Finset.sum_comm]
  refine Finset.sum_congr rfl fun n hn => ?_
  rw [Finset.sum_congr rfl fun r _ => Finset.sum_comm, Finset.sum_comm]
  refine Finset.sum_congr rfl fun j hj => ?_
  simp only [mem_range] at he hm hi hn hj
  have a1 := hV.dofs_lt _ _ (hV.conn_lt e m he hm) hi
  have a2 := hV.dofs_lt _ _ (hV.conn_lt e n he hn) hj
  rw [Finset.sum_eq_single (d (c e m) i), Finset.sum_eq_single (d (c e n) j)]
  · simp
  · intro b _ hb; simp [Ne.symm hb]
  · intro h; exact absurd (mem_range.2 a2) h
  · intro b _ hb
    apply Finset.sum_eq_zero; intro x _; simp [Ne.symm hb]
  · intro h; exact absurd (mem_range.2 a1) h

/-- concrete instance for C15: the periodic mesh with an 8 x 8 element matrix per element -/
example : ∃ (M : SMatrix Int) (c d : Nat → Nat → Nat) (K : Ten Int) (k : Nat → Nat → Nat → Int),
    SMatrix.new exConn exDofs = .ok M ∧ M.Holds c d (fun _ _ => 0) ∧
    Is3 K M.V.nelem (M.V.nne * M.V.ndim) (M.V.nne * M.V.ndim) k ∧ k 1 2 3 ≠ 0 := by
  obtain ⟨M, h1, -, h2⟩ := C15_constructor (α := Int) (conn := exConn) (dofs := exDofs)
    (is2_of 2 4 _) (is2_of 6 2 _) (ball2 (by decide))
  exact ⟨M, _, _, Ten.of _ (fun ix => (ix.getD 2 0 : Int)), _, h1, h2, is3_of _ _ _ _, by decide⟩

/-! ### C16 -/

/-- **C16**: along any history of `assemble`, `set` and `add` calls (with arguments of documented
shape) the matrix equals the dense matrix obtained by the dense operations; no call throws or
accesses out of bounds. -/
theorem C16_history [AddCommMonoid α] (ops : List (SMatrix.Op α)) {D D' : Nat → Nat → α}
    (hM : M.Holds c d D) (h : SMatrix.RunSpec M.V c d ops D D') :
    ∃ M' y, M.run ops = .ok M' ∧ M'.V = M.V ∧ M'.Holds c d D' ∧ M'.todense = .ok y ∧
      Is2 y M.V.ndof M.V.ndof D' := by
  suffices H : ∃ M', M.run ops = .ok M' ∧ M'.V = M.V ∧ M'.Holds c d D' by
    obtain ⟨M', h1, h2, h3⟩ := H
    obtain ⟨y, h4, h5⟩ := SMatrix.todense_spec h3.nr h3.nc
    refine ⟨M', y, h1, h2, h3, h4, ?_⟩
    rw [h2] at h5
    exact h5.congr fun r s _ _ => h3.e r s
  induction ops generalizing M D with
  | nil => cases h; exact ⟨M, rfl, rfl, hM⟩
  | cons op ops ih =>
    cases h with
    | cons h1 h2 =>
      have : ∃ M1, M.step op = .ok M1 ∧ M1.V = M.V ∧ M1.Holds c d (by assumption) := by
        cases h1 with
        | assemble hK =>
          exact ⟨_, SMatrix.assemble_spec hM.base hK, rfl, hM.base, rfl, rfl, fun _ _ => rfl⟩
        | set hB hr hc =>
          exact ⟨_, SMatrix.set_spec hB hr hc, rfl, hM.base, rfl, rfl, fun _ _ => rfl⟩
        | add hB hr hc =>
          exact ⟨_, SMatrix.add_spec hB hr hc, rfl, hM.base, hM.nr, hM.nc, fun r s => by simp [hM.e]⟩
      obtain ⟨M1, h3, h4, h5⟩ := this
      rw [← h4] at h2
      obtain ⟨M', h6, h7, h8⟩ := ih h5 h2
      refine ⟨M', ?_, h7.trans h4, h8⟩
      simp only [SMatrix.run, forEach_cons, h3]
      exact h6

/-- **C16** (`set`): entries that are not addressed become zero; with duplicate-free index lists the
addressed entry `(rows(i), cols(j))` becomes `B(i, j)`. -/
theorem C16_set_entries [AddCommMonoid α] {D : Nat → Nat → α} (hM : M.Holds c d D)
    {rows cols : List Nat} {B : Ten α} {b : Nat → Nat → α}
    (hB : Is2 B rows.length cols.length b) (hr : ∀ r ∈ rows, r < M.V.ndof)
    (hc : ∀ s ∈ cols, s < M.V.ndof) (hrn : rows.Nodup) (hcn : cols.Nodup) :
    ∃ M' D', M.set rows cols B = .ok M' ∧ M'.Holds c d D' ∧
      (∀ i j (hi : i < rows.length) (hj : j < cols.length), D' rows[i] cols[j] = b i j) ∧
      (∀ r s, r ∉ rows ∨ s ∉ cols → D' r s = 0) := by
  refine ⟨_, SMatrix.blockEntries rows cols b, SMatrix.set_spec hB hr hc,
    ⟨hM.base, rfl, rfl, fun _ _ => rfl⟩, ?_, ?_⟩
  · intro i j hi hj
    simp only [SMatrix.blockEntries]
    rw [Finset.sum_eq_single i, Finset.sum_eq_single j]
    · simp [List.getD, hi, hj]
    · intro j' hj' hne
      simp only [mem_range] at hj'
      rw [if_neg]
      rintro ⟨-, h⟩
      simp only [List.getD, hj', List.getElem?_eq_getElem, Option.getD_some] at h
      exact hne ((hcn.getElem_inj_iff).1 h)
    · intro h; exact absurd (mem_range.2 hj) h
    · intro i' hi' hne
      simp only [mem_range] at hi'
      apply Finset.sum_eq_zero
      intro j' _
      rw [if_neg]
      rintro ⟨h, -⟩
      simp only [List.getD, hi', List.getElem?_eq_getElem, Option.getD_some] at h
      exact hne ((hrn.getElem_inj_iff).1 h)
    · intro h; exact absurd (mem_range.2 hi) h
  · intro r s h
    apply Finset.sum_eq_zero
    intro i hi
    apply Finset.sum_eq_zero
    intro j hj
    simp only [mem_range] at hi hj
    rw [if_neg]
    rintro ⟨rfl, rfl⟩
    rcases h with h | h
    · exact h (SMatrix.getD_mem hi)
    · exact h (SMatrix.getD_mem hj)

/-- **C16** (`add`): entries that are not addressed are unchanged, with duplicate-free lists the
addressed entry increases by `B(i, j)`. -/
theorem C16_add_entries [AddCommMonoid α] {D : Nat → Nat → α} (hM : M.Holds c d D)
    {rows cols : List Nat} {B : Ten α} {b : Nat → Nat → α}
    (hB : Is2 B rows.length cols.length b) (hr : ∀ r ∈ rows, r < M.V.ndof)
    (hc : ∀ s ∈ cols, s < M.V.ndof) (hrn : rows.Nodup) (hcn : cols.Nodup) :
    ∃ M' D', M.add rows cols B = .ok M' ∧ M'.Holds c d D' ∧
      (∀ i j (hi : i < rows.length) (hj : j < cols.length),
        D' rows[i] cols[j] = D rows[i] cols[j] + b i j) ∧
      (∀ r s, r ∉ rows ∨ s ∉ cols → D' r s = D r s) := by
  obtain ⟨M1, D1, h1, h2, h3, h4⟩ := C16_set_entries hM hB hr hc hrn hcn
  have e1 := SMatrix.set_spec (M := M) hB hr hc
  rw [h1] at e1
  cases e1
  refine ⟨_, fun r s => D r s + D1 r s, SMatrix.add_spec hB hr hc,
    ⟨hM.base, hM.nr, hM.nc, fun r s => ?_⟩, ?_, ?_⟩
  · have := h2.e r s
    simp only at this
    simp [hM.e, this]
  · intro i j hi hj; simp only [h3 i j hi hj]
  · intro r s h; simp only [h4 r s h, add_zero]

/-- a history that meets the hypotheses: set a block, then add an overlapping block -/
example : ∃ (M : SMatrix Int) (c d : Nat → Nat → Nat) (D' : Nat → Nat → Int),
    SMatrix.new exConn exDofs = .ok M ∧ M.Holds c d (fun _ _ => 0) ∧
    SMatrix.RunSpec M.V c d [.set [0, 3] [1] (lit2 1 [[5], [6]]), .add [3] [1, 2] (lit2 2 [[1, 2]])]
      (fun _ _ => 0) D' ∧ D' 3 1 = 7 := by
  obtain ⟨M, h1, h2, h3⟩ := C15_constructor (α := Int) (conn := exConn) (dofs := exDofs)
    (is2_of 2 4 _) (is2_of 6 2 _) (ball2 (by decide))
  obtain ⟨V, c, d, a1, -, -, -, -, a4, -⟩ := exVector
  rw [h2] at a1; cases a1
  exact ⟨M, _, _, _, h1, h3, .cons (.set (is2_of 2 1 _) (by rw [a4]; decide) (by rw [a4]; decide))
    (.cons (.add (is2_of 1 2 _) (by rw [a4]; decide) (by rw [a4]; decide)) .nil), by decide⟩

/-! ### C17 -/

/-- **C17** (DOF vectors): `Dot` is the matrix-vector product. -/
theorem C17_dot_dofval [NonUnitalNonAssocSemiring α] {D : Nat → Nat → α} (hM : M.Holds c d D)
    {x : Ten α} {f : Nat → α} (hx : Is1 x M.V.ndof f) :
    ∃ b, M.dot_dofval x = .ok b ∧
      Is1 b M.V.ndof (fun r => ∑ s ∈ range M.V.ndof, D r s * f s) := by
  obtain ⟨b, h1, h2⟩ := M.A.mulVec_spec (x := x) (f := f) (by rw [hM.nc]; exact hx)
  refine ⟨b, h1, ?_⟩
  rw [hM.nr, hM.nc] at h2
  exact h2.congr fun r _ => by simp [hM.e]

/-- **C17** (node vectors): for a node vector that has one value per DOF, `Dot` on node vectors is
`AsNode(Dot(AsDofs(x)))`: the value at component `i` of node `m` is row `d m i` of the product. -/
theorem C17_dot_nodevec [NonUnitalNonAssocSemiring α] {D : Nat → Nat → α} (hM : M.Holds c d D)
    (hs : Surj M.V d) (σ τ : Sched) {x : Ten α} {f : Nat → α}
    (hx : Is2 x M.V.nnode M.V.ndim (fun m i => f (d m i))) :
    ∃ b, M.dot_nodevec σ τ x = .ok b ∧
      Is2 b M.V.nnode M.V.ndim (fun m i => ∑ s ∈ range M.V.ndof, D (d m i) s * f s) := by
  obtain ⟨u, h1, g, h2, h3⟩ := Vector.asDofs_nodevec_spec hM.base σ (ret := Ten.empty [M.V.ndof])
    rfl hx
  have h4 : Is1 u M.V.ndof f := h2.congr fun k hk => by
    obtain ⟨m, i, hm, hi, hd⟩ := hs k hk
    obtain ⟨m', i', _, _, hd', h6⟩ := (h3 k hk).1 ⟨m, i, hm, hi, hd⟩
    rw [h6, hd']
  obtain ⟨b, h5, h6⟩ := C17_dot_dofval hM h4
  obtain ⟨y, h7, h8⟩ := Vector.asNode_dofval_spec hM.base τ (ret := Ten.empty x.shape) hx.1 h6
  refine ⟨y, ?_, h8⟩
  simp only [SMatrix.dot_nodevec, SMatrix.eigenAsDofs, h1, Res.ok_bind]
  have : M.A.mulVec u = .ok b := h5
  rw [this]
  simpa [SMatrix.eigenAsNode] using h7

/-- **C17** (assembled): the product with the assembled matrix is the assembly of the element
products `K_e u_e`. -/
theorem C17_dot_assembled [CommSemiring α] {D : Nat → Nat → α} (hM : M.Holds c d D) {K x : Ten α}
    {k : Nat → Nat → Nat → α} (hK : Is3 K M.V.nelem (M.V.nne * M.V.ndim) (M.V.nne * M.V.ndim) k)
    {f : Nat → α} (hx : Is1 x M.V.ndof f) :
    ∃ M' b, M.assemble K = .ok M' ∧ M'.dot_dofval x = .ok b ∧
      Is1 b M.V.ndof (fun r => ∑ e ∈ range M.V.nelem, ∑ m ∈ range M.V.nne, ∑ i ∈ range M.V.ndim,
        if d (c e m) i = r then
          ∑ n ∈ range M.V.nne, ∑ j ∈ range M.V.ndim,
            k e (m * M.V.ndim + i) (n * M.V.ndim + j) * f (d (c e n) j)
        else 0) := by
  have e1 := SMatrix.assemble_spec hM.base hK
  have hM' : SMatrix.Holds (⟨M.V, ⟨M.V.ndof, M.V.ndof, SMatrix.assembled M.V c d k⟩, true⟩ : SMatrix α)
    c d (SMatrix.assembled M.V c d k) := ⟨hM.base, rfl, rfl, fun _ _ => rfl⟩
  obtain ⟨b, h1, h2⟩ := C17_dot_dofval hM' (x := x) hx
  refine ⟨_, b, e1, h1, h2.congr fun r _ => ?_⟩
  have hV := hM.base
  simp only [SMatrix.assembled, Finset.sum_mul]
  rw [Finset.sum_comm]
  refine Finset.sum_congr rfl fun e he => ?_
  rw [Finset.sum_comm]
  refine Finset.sum_congr rfl fun m hm => ?_
  rw [Finset.sum_comm]
  refine Finset.sum_congr rfl fun i hi => ?_
  by_cases h : d (c e m) i = r
  · simp only [h, true_and, if_true]
    rw [Finset.sum_comm]
    refine Finset.sum_congr rfl fun n hn => ?_
    rw [Finset.sum_comm]
    refine Finset.sum_congr rfl fun j hj => ?_
    simp only [mem_range] at he hn hj
    exact sum_fibre _ _ _ (hV.dofs_lt _ _ (hV.conn_lt e n he hn) hj) _
  · simp [h]

example : ∃ (M : SMatrix Int) (c d : Nat → Nat → Nat),
    SMatrix.new exConn exDofs = .ok M ∧ M.Holds c d (fun _ _ => 0) ∧ Surj M.V d := by
  obtain ⟨V, c, d, h1, h2, h3, -⟩ := exVector
  exact ⟨⟨V, Mat.zero V.ndof V.ndof, true⟩, c, d, by simp [SMatrix.new, h1], ⟨h2, rfl, rfl,
    fun _ _ => rfl⟩, h3⟩

end GF
