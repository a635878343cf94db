import Verif.Lemmas.Vector
import Mathlib.Algebra.BigOperators.Ring.Finset

/-!
# Properties C01 - C08: `GooseFEM::Vector`

`V.Holds c d` says that `V` stores the connectivity `c` and the DOF table `d` with all numbers in
range; `C08_constructor` shows that the constructor establishes it.  `σ`, `τ` are arbitrary OpenMP
schedules.
-/

namespace GF
open Finset

variable {α : Type} {V : Vector} {c d : Nat → Nat → Nat}

/-- The DOF table uses every DOF number. -/
def Surj (V : Vector) (d : Nat → Nat → Nat) : Prop :=
  ∀ k, k < V.ndof → ∃ m i, m < V.nnode ∧ i < V.ndim ∧ d m i = k

/-- The node field `x` has one value per DOF. -/
def Consistent (V : Vector) (d : Nat → Nat → Nat) (x : Nat → Nat → α) : Prop :=
  ∀ m i n j, m < V.nnode → i < V.ndim → n < V.nnode → j < V.ndim → d m i = d n j → x m i = x n j

/-- **C08** (constructor): for a connectivity that only refers to existing nodes the constructor
succeeds and the object holds the given tables, with `ndof` one more than the largest DOF number. -/
theorem C08_constructor {conn dofs : Ten Nat} {nelem nne nnode ndim : Nat}
    (hc : Is2 conn nelem nne c) (hd : Is2 dofs nnode ndim d) (hn : 0 < nnode) (hi : 0 < ndim)
    (hlt : ∀ e m, e < nelem → m < nne → c e m < nnode) :
    ∃ V, Vector.new conn dofs = .ok V ∧ V.nelem = nelem ∧ V.nne = nne ∧ V.nnode = nnode ∧
      V.ndim = ndim ∧ V.Holds c d ∧ ∃ m i, m < nnode ∧ i < ndim ∧ V.ndof = d m i + 1 := by
  obtain ⟨V, h1, h2, h3, h4, h5, h6, h7⟩ := Vector.new_spec hc hd hlt
  exact ⟨V, h1, h2, h3, h4, h5, h6, h7 hn hi⟩

/-! ### a concrete mesh that meets the hypotheses: two quadrilaterals, left and right edge tied -/

/-- connectivity of a 2 x 1 mesh -/
def exConn : Ten Nat := lit2 4 [[0, 1, 4, 3], [1, 2, 5, 4]]
/-- periodic DOF table (nodes 2, 5 tied to 0, 3) -/
def exDofs : Ten Nat := lit2 2 [[0, 1], [2, 3], [0, 1], [4, 5], [6, 7], [4, 5]]

theorem exVector : ∃ V c d, Vector.new exConn exDofs = .ok V ∧ V.Holds c d ∧ Surj V d ∧
    V.nelem = 2 ∧ V.nnode = 6 ∧ V.ndof = 8 ∧ d 0 0 = d 2 0 ∧ c 0 1 = c 1 0 := by
  obtain ⟨V, h1, h2, h3, h4, h5, h6, -⟩ := C08_constructor (conn := exConn) (dofs := exDofs)
    (is2_of 2 4 _) (is2_of 6 2 _) (by decide) (by decide) (ball2 (by decide))
  have h7 : V.ndof = 8 := by
    have : Vector.new exConn exDofs = .ok ⟨exConn, exDofs, 2, 4, 6, 2, 8⟩ := rfl
    rw [this] at h1; cases h1; rfl
  refine ⟨V, _, _, h1, h6, ?_, h2, h4, h7, by decide, by decide⟩
  intro k hk
  rw [h7] at hk
  rw [h4, h5]
  have : ∀ k < 8, ∃ m < 6, ∃ i < 2, (fun i j => ([[0, 1], [2, 3], [0, 1], [4, 5], [6, 7],
    [4, 5]].getD ([i, j].getD 0 0) []).getD ([i, j].getD 1 0) default) m i = k := by decide
  obtain ⟨m, hm, i, hi, h⟩ := this k hk
  exact ⟨m, i, hm, hi, h⟩

/-! ### C01 -/

/-- **C01**: `AsNode` stores at component `i` of node `m` the value of DOF `d m i`, and `AsDofs`
recovers the DOF values, for all schedules of both parallel loops. -/
theorem C01_dofs_node_dofs [Zero α] (hV : V.Holds c d) (hs : Surj V d) (σ τ : Sched)
    {u : Ten α} {f : Nat → α} (hu : Is1 u V.ndof f) :
    ∃ x y, V.AsNode σ u = .ok x ∧ Is2 x V.nnode V.ndim (fun m i => f (d m i)) ∧
      V.AsDofs τ x = .ok y ∧ Is1 y V.ndof f := by
  obtain ⟨x, h1, h2⟩ := Vector.asNode_dofval_spec hV σ (ret := Ten.empty V.shape_nodevec) rfl hu
  obtain ⟨y, h3, g, h4, h5⟩ := Vector.asDofs_nodevec_spec hV τ (ret := Ten.empty V.shape_dofval)
    rfl h2
  refine ⟨x, y, ?_, h2, ?_, h4.congr fun k hk => ?_⟩
  · simp [Vector.AsNode, Vector.asNode, Ten.rank, hu.1, h1]
  · simp [Vector.AsDofs, Vector.asDofs, Ten.rank, h2.1, h3]
  · obtain ⟨m, i, hm, hi, hd⟩ := hs k hk
    obtain ⟨m', i', _, _, hd', h6⟩ := (h5 k hk).1 ⟨m, i, hm, hi, hd⟩
    rw [h6, hd']

example : ∃ V c d, Vector.new exConn exDofs = .ok V ∧ V.Holds c d ∧ Surj V d ∧
    Is1 (Ten.of [V.ndof] fun ix => (ix.getD 0 0 : Int) + 1) V.ndof (fun k => (k : Int) + 1) := by
  obtain ⟨V, c, d, h1, h2, h3, -⟩ := exVector
  exact ⟨V, c, d, h1, h2, h3, is1_of _ _⟩

/-! ### C02 -/

/-- **C02** (consistent fields): `AsNode(AsDofs(x)) = x`, for all schedules. -/
theorem C02_node_dofs_node [Zero α] (hV : V.Holds c d) (σ τ : Sched) {x : Ten α}
    {g : Nat → Nat → α} (hx : Is2 x V.nnode V.ndim g) (hg : Consistent V d g) :
    ∃ u y, V.AsDofs σ x = .ok u ∧ V.AsNode τ u = .ok y ∧ Is2 y V.nnode V.ndim g := by
  obtain ⟨u, h3, f, h4, h5⟩ := Vector.asDofs_nodevec_spec hV σ (ret := Ten.empty V.shape_dofval)
    rfl hx
  obtain ⟨y, h1, h2⟩ := Vector.asNode_dofval_spec hV τ (ret := Ten.empty V.shape_nodevec) rfl h4
  refine ⟨u, y, ?_, ?_, h2.congr fun m i hm hi => ?_⟩
  · simp [Vector.AsDofs, Vector.asDofs, Ten.rank, hx.1, h3]
  · simp [Vector.AsNode, Vector.asNode, Ten.rank, h4.1, h1]
  · obtain ⟨m', i', hm', hi', hd', h6⟩ := (h5 _ (hV.dofs_lt m i hm hi)).1 ⟨m, i, hm, hi, rfl⟩
    rw [h6]; exact hg _ _ _ _ hm' hi' hm hi hd'

/-- **C02** (schedule independence): for consistent fields any two schedules of `AsDofs` give the
same DOF values. -/
theorem C02_schedule_independent [Zero α] (hV : V.Holds c d) (σ τ : Sched) {x : Ten α}
    {g : Nat → Nat → α} (hx : Is2 x V.nnode V.ndim g) (hg : Consistent V d g) :
    ∃ u u' f, V.AsDofs σ x = .ok u ∧ V.AsDofs τ x = .ok u' ∧ Is1 u V.ndof f ∧ Is1 u' V.ndof f := by
  obtain ⟨u, h3, f, h4, h5⟩ := Vector.asDofs_nodevec_spec hV σ (ret := Ten.empty V.shape_dofval)
    rfl hx
  obtain ⟨u', h3', f', h4', h5'⟩ := Vector.asDofs_nodevec_spec hV τ
    (ret := Ten.empty V.shape_dofval) rfl hx
  refine ⟨u, u', f, ?_, ?_, h4, h4'.congr fun k hk => ?_⟩
  · simp [Vector.AsDofs, Vector.asDofs, Ten.rank, hx.1, h3]
  · simp [Vector.AsDofs, Vector.asDofs, Ten.rank, hx.1, h3']
  · by_cases h : ∃ m i, m < V.nnode ∧ i < V.ndim ∧ d m i = k
    · obtain ⟨m, i, hm, hi, hd, e⟩ := (h5 k hk).1 h
      obtain ⟨m', i', hm', hi', hd', e'⟩ := (h5' k hk).1 h
      rw [e, e']; exact hg _ _ _ _ hm' hi' hm hi (by rw [hd, hd'])
    · push Not at h
      rw [(h5 k hk).2 h, (h5' k hk).2 h]

/-- **C02** (inconsistent fields): whatever the schedule, each DOF receives the value of one of the
node components that own it; DOFs that own none are zero. -/
theorem C02_some_owner [Zero α] (hV : V.Holds c d) (σ : Sched) {x : Ten α}
    {g : Nat → Nat → α} (hx : Is2 x V.nnode V.ndim g) :
    ∃ u f, V.AsDofs σ x = .ok u ∧ Is1 u V.ndof f ∧ ∀ k, k < V.ndof →
      ((∃ m i, m < V.nnode ∧ i < V.ndim ∧ d m i = k) →
          ∃ m i, m < V.nnode ∧ i < V.ndim ∧ d m i = k ∧ f k = g m i) ∧
        ((∀ m i, m < V.nnode → i < V.ndim → d m i ≠ k) → f k = 0) := by
  obtain ⟨u, h3, f, h4, h5⟩ := Vector.asDofs_nodevec_spec hV σ (ret := Ten.empty V.shape_dofval)
    rfl hx
  exact ⟨u, f, by simp [Vector.AsDofs, Vector.asDofs, Ten.rank, hx.1, h3], h4, h5⟩

/-- On inconsistent fields the result does depend on the schedule (witness): two nodes share one
DOF and carry the values 1 and 2. -/
theorem C02_schedule_matters :
    ∃ (V : Vector) (c d : Nat → Nat → Nat) (x u u' : Ten Int), V.Holds c d ∧
      (∃ g, Is2 x V.nnode V.ndim g) ∧ V.AsDofs Sched.seq x = .ok u ∧
      V.AsDofs Sched.rev x = .ok u' ∧ u.get [0] = .ok 2 ∧ u'.get [0] = .ok 1 := by
  refine ⟨⟨lit2 1 [[0]], lit2 1 [[0], [0]], 1, 1, 2, 1, 1⟩, _, _, lit2 1 [[1], [2]], _, _,
    ⟨is2_of 1 1 _, is2_of 2 1 _, ball2 (by decide), ball2 (by decide)⟩, ⟨_, is2_of 2 1 _⟩, rfl, rfl, rfl, rfl⟩

example : ∃ V c d, Vector.new exConn exDofs = .ok V ∧ V.Holds c d ∧
    Consistent V d (fun m i => (d m i : Int)) ∧
    ¬ Consistent V d (fun m _ => (m : Int)) := by
  obtain ⟨V, c, d, h1, h2, h3, h4, h5, h6, h7, -⟩ := exVector
  refine ⟨V, c, d, h1, h2, fun m i n j _ _ _ _ h => by simp [h], fun h => ?_⟩
  have h8 : V.ndim = 2 := by
    have : Vector.new exConn exDofs = .ok ⟨exConn, exDofs, 2, 4, 6, 2, 8⟩ := rfl
    rw [this] at h1; cases h1; rfl
  have := h 0 0 2 0 (by omega) (by omega) (by omega) (by omega) h7
  simp at this

/-! ### C03 -/

/-- **C03** (DOF values to elements). -/
theorem C03_element_of_dofs (hV : V.Holds c d) (σ : Sched) {u : Ten α} {f : Nat → α}
    (hu : Is1 u V.ndof f) :
    ∃ x, V.AsElement σ u = .ok x ∧
      Is3 x V.nelem V.nne V.ndim (fun e m i => f (d (c e m) i)) := by
  obtain ⟨x, h1, h2⟩ := Vector.asElement_dofval_spec hV σ (ret := Ten.empty V.shape_elemvec) rfl hu
  exact ⟨x, by simp [Vector.AsElement, Vector.asElement, Ten.rank, hu.1, h1], h2⟩

/-- **C03** (node values to elements). -/
theorem C03_element_of_node (hV : V.Holds c d) (σ : Sched) {x : Ten α} {g : Nat → Nat → α}
    (hx : Is2 x V.nnode V.ndim g) :
    ∃ y, V.AsElement σ x = .ok y ∧ Is3 y V.nelem V.nne V.ndim (fun e m i => g (c e m) i) := by
  obtain ⟨y, h1, h2⟩ := Vector.asElement_nodevec_spec hV σ (ret := Ten.empty V.shape_elemvec) rfl hx
  exact ⟨y, by simp [Vector.AsElement, Vector.asElement, Ten.rank, hx.1, h1], h2⟩

/-- **C03** (node -> element -> node): every node of some element gets its value back. -/
theorem C03_node_element_node [Zero α] (hV : V.Holds c d) (σ τ : Sched) {x : Ten α}
    {g : Nat → Nat → α} (hx : Is2 x V.nnode V.ndim g) :
    ∃ y z h, V.AsElement σ x = .ok y ∧ V.AsNode τ y = .ok z ∧ Is2 z V.nnode V.ndim h ∧
      ∀ n i, n < V.nnode → i < V.ndim →
        ((∃ e m, e < V.nelem ∧ m < V.nne ∧ c e m = n) → h n i = g n i) ∧
        ((∀ e m, e < V.nelem → m < V.nne → c e m ≠ n) → h n i = 0) := by
  obtain ⟨y, h1, h2⟩ := C03_element_of_node hV σ hx
  obtain ⟨z, h3, h, h4, h5⟩ := Vector.asNode_elemvec_spec hV τ (ret := Ten.empty V.shape_nodevec)
    rfl h2
  refine ⟨y, z, h, h1, by simp [Vector.AsNode, Vector.asNode, Ten.rank, h2.1, h3], h4,
    fun n i hn hi => ⟨fun hex => ?_, (h5 n i hn hi).2⟩⟩
  obtain ⟨e, m, _, _, hc, he⟩ := (h5 n i hn hi).1 hex
  rw [he, hc]

/-- **C03** (DOF -> element -> DOF): every DOF reached by some element gets its value back. -/
theorem C03_dofs_element_dofs [Zero α] (hV : V.Holds c d) (σ τ : Sched) {u : Ten α}
    {f : Nat → α} (hu : Is1 u V.ndof f) :
    ∃ y z h, V.AsElement σ u = .ok y ∧ V.AsDofs τ y = .ok z ∧ Is1 z V.ndof h ∧
      ∀ k, k < V.ndof →
        ((∃ e m i, e < V.nelem ∧ m < V.nne ∧ i < V.ndim ∧ d (c e m) i = k) → h k = f k) ∧
        ((∀ e m i, e < V.nelem → m < V.nne → i < V.ndim → d (c e m) i ≠ k) → h k = 0) := by
  obtain ⟨y, h1, h2⟩ := C03_element_of_dofs hV σ hu
  obtain ⟨z, h3, h, h4, h5⟩ := Vector.asDofs_elemvec_spec hV τ (ret := Ten.empty V.shape_dofval)
    rfl h2
  refine ⟨y, z, h, h1, by simp [Vector.AsDofs, Vector.asDofs, Ten.rank, h2.1, h3], h4,
    fun k hk => ⟨fun hex => ?_, (h5 k hk).2⟩⟩
  obtain ⟨e, m, i, _, _, _, hc, he⟩ := (h5 k hk).1 hex
  rw [he, hc]

example : ∃ V c d, Vector.new exConn exDofs = .ok V ∧ V.Holds c d ∧
    (∃ e m, e < V.nelem ∧ m < V.nne ∧ c e m = 5) := by
  obtain ⟨V, h1, h2, h3, h4, h5, h6, -⟩ := C08_constructor (conn := exConn) (dofs := exDofs)
    (is2_of 2 4 _) (is2_of 6 2 _) (by decide) (by decide) (ball2 (by decide))
  exact ⟨V, _, _, h1, h6, 1, 2, by omega, by omega, rfl⟩

/-! ### C04 -/

/-- **C04** (element vectors): the assembled value of a DOF is the sum of all contributions. -/
theorem C04_assemble_element [AddCommMonoid α] (hV : V.Holds c d) {x : Ten α}
    {g : Nat → Nat → Nat → α} (hx : Is3 x V.nelem V.nne V.ndim g) :
    ∃ y, V.AssembleDofs x = .ok y ∧ Is1 y V.ndof (fun k =>
      ∑ e ∈ range V.nelem, ∑ m ∈ range V.nne, ∑ i ∈ range V.ndim,
        if d (c e m) i = k then g e m i else 0) := by
  obtain ⟨y, h1, h2⟩ := Vector.assembleDofs_elemvec_spec hV (ret := Ten.empty V.shape_dofval) rfl hx
  exact ⟨y, by simp [Vector.AssembleDofs, Vector.assembleDofs, Ten.rank, hx.1, h1], h2⟩

/-- **C04** (node vectors). -/
theorem C04_assemble_node [AddCommMonoid α] (hV : V.Holds c d) {x : Ten α}
    {g : Nat → Nat → α} (hx : Is2 x V.nnode V.ndim g) :
    ∃ y, V.AssembleDofs x = .ok y ∧ Is1 y V.ndof (fun k =>
      ∑ m ∈ range V.nnode, ∑ i ∈ range V.ndim, if d m i = k then g m i else 0) := by
  obtain ⟨y, h1, h2⟩ := Vector.assembleDofs_nodevec_spec hV (ret := Ten.empty V.shape_dofval) rfl hx
  exact ⟨y, by simp [Vector.AssembleDofs, Vector.assembleDofs, Ten.rank, hx.1, h1], h2⟩

/-! ### C05 -/

/-- sum over a fibre, exchanged -/
theorem sum_fibre [CommSemiring α] (N : Nat) (u : Nat → α) (k : Nat) (hk : k < N) (a : α) :
    ∑ j ∈ range N, (if k = j then a else 0) * u j = a * u k := by
  rw [Finset.sum_eq_single k]
  · simp
  · intro b _ hb; simp [Ne.symm hb]
  · intro h; exact absurd (mem_range.2 hk) h

/-- **C05**: assembly is the adjoint of the element gather (virtual work is preserved). -/
theorem C05_adjoint [CommSemiring α] (hV : V.Holds c d) (σ : Sched) {x u : Ten α}
    {g : Nat → Nat → Nat → α} {f : Nat → α} (hx : Is3 x V.nelem V.nne V.ndim g)
    (hu : Is1 u V.ndof f) :
    ∃ F U FF UU, V.AssembleDofs x = .ok F ∧ Is1 F V.ndof FF ∧ V.AsElement σ u = .ok U ∧
      Is3 U V.nelem V.nne V.ndim UU ∧
      ∑ k ∈ range V.ndof, FF k * f k =
        ∑ e ∈ range V.nelem, ∑ m ∈ range V.nne, ∑ i ∈ range V.ndim, g e m i * UU e m i := by
  obtain ⟨F, h1, h2⟩ := C04_assemble_element hV hx
  obtain ⟨U, h3, h4⟩ := C03_element_of_dofs hV σ hu
  refine ⟨F, U, _, _, h1, h2, h3, h4, ?_⟩
  simp only [Finset.sum_mul]
  rw [Finset.sum_comm]
  refine Finset.sum_congr rfl fun e he => ?_
  rw [Finset.sum_comm]
  refine Finset.sum_congr rfl fun m hm => ?_
  rw [Finset.sum_comm]
  refine Finset.sum_congr rfl fun i hi => ?_
  simp only [mem_range] at he hm hi
  exact sum_fibre _ _ _ (hV.dofs_lt _ _ (hV.conn_lt _ _ he hm) hi) _

/-- **C05** (conservation): the total of the assembled vector is the total of the element vector. -/
theorem C05_total [CommSemiring α] (hV : V.Holds c d) {x : Ten α}
    {g : Nat → Nat → Nat → α} (hx : Is3 x V.nelem V.nne V.ndim g) :
    ∃ F FF, V.AssembleDofs x = .ok F ∧ Is1 F V.ndof FF ∧
      ∑ k ∈ range V.ndof, FF k =
        ∑ e ∈ range V.nelem, ∑ m ∈ range V.nne, ∑ i ∈ range V.ndim, g e m i := by
  obtain ⟨F, U, FF, UU, h1, h2, h3, h4, h5⟩ := C05_adjoint hV Sched.seq hx
    (u := Ten.full [V.ndof] 1) (f := fun _ => 1) ⟨rfl, fun _ _ => rfl⟩
  refine ⟨F, FF, h1, h2, ?_⟩
  obtain ⟨U', h6, h7⟩ := C03_element_of_dofs hV Sched.seq (u := Ten.full [V.ndof] (1 : α))
    (f := fun _ => 1) ⟨rfl, fun _ _ => rfl⟩
  rw [h3] at h6; cases h6
  simp only [mul_one] at h5
  rw [h5]
  refine Finset.sum_congr rfl fun e he => Finset.sum_congr rfl fun m hm =>
    Finset.sum_congr rfl fun i hi => ?_
  simp only [mem_range] at he hm hi
  have := h4.2 e m i he hm hi
  rw [h7.2 e m i he hm hi] at this
  rw [← Option.some.inj this, mul_one]

/-! ### C06 -/

/-- **C06**: `AssembleNode` returns at every node component the sum of all contributions to its
DOF. -/
theorem C06_assembleNode [AddCommMonoid α] (hV : V.Holds c d) (σ : Sched) {x : Ten α}
    {g : Nat → Nat → Nat → α} (hx : Is3 x V.nelem V.nne V.ndim g) :
    ∃ y, V.AssembleNode σ x = .ok y ∧ Is2 y V.nnode V.ndim (fun n j =>
      ∑ e ∈ range V.nelem, ∑ m ∈ range V.nne, ∑ i ∈ range V.ndim,
        if d (c e m) i = d n j then g e m i else 0) := by
  obtain ⟨F, h1, h2⟩ := C04_assemble_element hV hx
  obtain ⟨y, h3, h4⟩ := Vector.asNode_dofval_spec hV σ (ret := Ten.empty V.shape_nodevec) rfl h2
  refine ⟨y, ?_, h4⟩
  have : (V.AssembleNode σ x) = (V.AssembleDofs x >>= fun dofval =>
      V.asNode σ dofval (Ten.empty V.shape_nodevec)) := by
    simp [Vector.AssembleNode, Vector.assembleNode, Ten.rank, hx.1, Vector.assembleNode_elemvec]
  rw [this, h1]
  simp [Vector.asNode, Ten.rank, h2.1, h3]

/-- **C06** (linearity): `AssembleNode(a x + y) = a AssembleNode(x) + AssembleNode(y)`. -/
theorem C06_linear [CommSemiring α] (hV : V.Holds c d) (σ τ υ : Sched) (a : α) {x y z : Ten α}
    {g h : Nat → Nat → Nat → α} (hx : Is3 x V.nelem V.nne V.ndim g)
    (hy : Is3 y V.nelem V.nne V.ndim h)
    (hz : Is3 z V.nelem V.nne V.ndim (fun e m i => a * g e m i + h e m i)) :
    ∃ X Y Z fx fy, V.AssembleNode σ x = .ok X ∧ V.AssembleNode τ y = .ok Y ∧
      V.AssembleNode υ z = .ok Z ∧ Is2 X V.nnode V.ndim fx ∧ Is2 Y V.nnode V.ndim fy ∧
      Is2 Z V.nnode V.ndim (fun n j => a * fx n j + fy n j) := by
  obtain ⟨X, h1, h2⟩ := C06_assembleNode hV σ hx
  obtain ⟨Y, h3, h4⟩ := C06_assembleNode hV τ hy
  obtain ⟨Z, h5, h6⟩ := C06_assembleNode hV υ hz
  refine ⟨X, Y, Z, _, _, h1, h3, h5, h2, h4, h6.congr fun n j _ _ => ?_⟩
  simp only [Finset.mul_sum, ← Finset.sum_add_distrib]
  refine Finset.sum_congr rfl fun e _ => Finset.sum_congr rfl fun m _ =>
    Finset.sum_congr rfl fun i _ => ?_
  split <;> simp

/-! ### C07 -/

/-- **C07**: for run-time ranks other than the documented ones every conversion throws (whatever
the contents and sizes of the argument). -/
theorem C07_rank_dispatch [AddCommMonoid α] (V : Vector) (σ : Sched) (x : Ten α) :
    (x.rank ≠ 2 → x.rank ≠ 3 → V.AsDofs σ x = .throws ∧ V.AssembleDofs x = .throws) ∧
    (x.rank ≠ 1 → x.rank ≠ 3 → V.AsNode σ x = .throws) ∧
    (x.rank ≠ 1 → x.rank ≠ 2 → V.AsElement σ x = .throws) ∧
    (x.rank ≠ 3 → V.AssembleNode σ x = .throws) := by
  refine ⟨fun h1 h2 => ⟨?_, ?_⟩, fun h1 h2 => ?_, fun h1 h2 => ?_, fun h1 => ?_⟩
  · simp [Vector.AsDofs, Vector.asDofs, h1, h2]
  · simp [Vector.AssembleDofs, Vector.assembleDofs, h1, h2]
  · simp [Vector.AsNode, Vector.asNode, h1, h2]
  · simp [Vector.AsElement, Vector.asElement, h1, h2]
  · simp [Vector.AssembleNode, Vector.assembleNode, h1]

/-- **C07** (accepted ranks): on arguments of a documented shape no conversion throws or reads out
of bounds; see also C08. -/
theorem C07_documented_accepted [AddCommMonoid α] (hV : V.Holds c d) (σ : Sched)
    {u x y : Ten α} {f : Nat → α} {g : Nat → Nat → α} {h : Nat → Nat → Nat → α}
    (hu : Is1 u V.ndof f) (hx : Is2 x V.nnode V.ndim g) (hy : Is3 y V.nelem V.nne V.ndim h) :
    (∃ r f', V.AsDofs σ x = .ok r ∧ Is1 r V.ndof f') ∧
    (∃ r f', V.AsDofs σ y = .ok r ∧ Is1 r V.ndof f') ∧
    (∃ r f', V.AsNode σ u = .ok r ∧ Is2 r V.nnode V.ndim f') ∧
    (∃ r f', V.AsNode σ y = .ok r ∧ Is2 r V.nnode V.ndim f') ∧
    (∃ r f', V.AsElement σ u = .ok r ∧ Is3 r V.nelem V.nne V.ndim f') ∧
    (∃ r f', V.AsElement σ x = .ok r ∧ Is3 r V.nelem V.nne V.ndim f') ∧
    (∃ r f', V.AssembleDofs x = .ok r ∧ Is1 r V.ndof f') ∧
    (∃ r f', V.AssembleDofs y = .ok r ∧ Is1 r V.ndof f') ∧
    (∃ r f', V.AssembleNode σ y = .ok r ∧ Is2 r V.nnode V.ndim f') := by
  refine ⟨?_, ?_, ?_, ?_, ?_, ?_, ?_, ?_, ?_⟩
  · obtain ⟨r, h1, f, h2, -⟩ := Vector.asDofs_nodevec_spec hV σ (ret := Ten.empty V.shape_dofval) rfl hx
    exact ⟨r, f, by simp [Vector.AsDofs, Vector.asDofs, Ten.rank, hx.1, h1], h2⟩
  · obtain ⟨r, h1, f, h2, -⟩ := Vector.asDofs_elemvec_spec hV σ (ret := Ten.empty V.shape_dofval) rfl hy
    exact ⟨r, f, by simp [Vector.AsDofs, Vector.asDofs, Ten.rank, hy.1, h1], h2⟩
  · obtain ⟨r, h1, h2⟩ := Vector.asNode_dofval_spec hV σ (ret := Ten.empty V.shape_nodevec) rfl hu
    exact ⟨r, _, by simp [Vector.AsNode, Vector.asNode, Ten.rank, hu.1, h1], h2⟩
  · obtain ⟨r, h1, f, h2, -⟩ := Vector.asNode_elemvec_spec hV σ (ret := Ten.empty V.shape_nodevec) rfl hy
    exact ⟨r, f, by simp [Vector.AsNode, Vector.asNode, Ten.rank, hy.1, h1], h2⟩
  · obtain ⟨r, h1, h2⟩ := C03_element_of_dofs hV σ hu; exact ⟨r, _, h1, h2⟩
  · obtain ⟨r, h1, h2⟩ := C03_element_of_node hV σ hx; exact ⟨r, _, h1, h2⟩
  · obtain ⟨r, h1, h2⟩ := C04_assemble_node hV hx; exact ⟨r, _, h1, h2⟩
  · obtain ⟨r, h1, h2⟩ := C04_assemble_element hV hy; exact ⟨r, _, h1, h2⟩
  · obtain ⟨r, h1, h2⟩ := C06_assembleNode hV σ hy; exact ⟨r, _, h1, h2⟩

/-- **C08**: the hypothesis on the connectivity is needed: with assertions disabled an entry that is
not a node number makes the gather read outside the DOF table. -/
theorem C08_bad_connectivity_ub :
    ∃ (conn dofs : Ten Nat) (V : Vector) (u : Ten Int), Vector.new conn dofs = .ok V ∧
      (∃ f, Is1 u V.ndof f) ∧ V.AsElement Sched.seq u = .ub :=
  ⟨lit2 1 [[7]], lit2 1 [[0], [1]], _, lit1 [1, 2], rfl, ⟨_, is1_of 2 _⟩, rfl⟩

/-- **C08** (memory safety from the constructor): for a connectivity that only refers to existing
nodes, every conversion of the constructed object on arguments of documented shape returns a fully
initialised array without any out-of-bounds access, for every schedule. -/
theorem C08_safe [AddCommMonoid α] {conn dofs : Ten Nat} {nelem nne nnode ndim : Nat}
    (hc : Is2 conn nelem nne c) (hd : Is2 dofs nnode ndim d) (hn : 0 < nnode) (hi : 0 < ndim)
    (hlt : ∀ e m, e < nelem → m < nne → c e m < nnode) (σ : Sched) :
    ∃ V, Vector.new conn dofs = .ok V ∧
      ∀ (u x y : Ten α) (f : Nat → α) (g : Nat → Nat → α) (h : Nat → Nat → Nat → α),
      Is1 u V.ndof f → Is2 x nnode ndim g → Is3 y nelem nne ndim h →
      (∃ r f', V.AsDofs σ x = .ok r ∧ Is1 r V.ndof f') ∧
      (∃ r f', V.AsDofs σ y = .ok r ∧ Is1 r V.ndof f') ∧
      (∃ r f', V.AsNode σ u = .ok r ∧ Is2 r nnode ndim f') ∧
      (∃ r f', V.AsNode σ y = .ok r ∧ Is2 r nnode ndim f') ∧
      (∃ r f', V.AsElement σ u = .ok r ∧ Is3 r nelem nne ndim f') ∧
      (∃ r f', V.AsElement σ x = .ok r ∧ Is3 r nelem nne ndim f') ∧
      (∃ r f', V.AssembleDofs x = .ok r ∧ Is1 r V.ndof f') ∧
      (∃ r f', V.AssembleDofs y = .ok r ∧ Is1 r V.ndof f') ∧
      (∃ r f', V.AssembleNode σ y = .ok r ∧ Is2 r nnode ndim f') := by
  obtain ⟨V, h1, rfl, rfl, rfl, rfl, h6, -⟩ := C08_constructor hc hd hn hi hlt
  exact ⟨V, h1, fun u x y f g h hu hx hy => C07_documented_accepted h6 σ hu hx hy⟩

example : ∃ c d, Is2 exConn 2 4 c ∧ Is2 exDofs 6 2 d := ⟨_, _, is2_of 2 4 _, is2_of 6 2 _⟩

end GF
