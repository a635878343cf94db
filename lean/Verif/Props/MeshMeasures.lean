import Verif.Lemmas.MeshMeasures
import Verif.Props.ElementQuad4Mech
import Verif.Props.MatrixDiagonal
import Verif.Props.Vector
import Verif.Props.MeshRegular2d
import Mathlib.Tactic.LinearCombination
import Mathlib.Tactic.Linarith

/-! C41: measures of a mesh. -/

namespace GF
open Finset ElemSpec
variable {α : Type}

/-- **C41** (default element type) the overloads without element type use the shapes of the arrays: 2-d coordinates and
three/four nodes per element, or 3-d coordinates and eight nodes; everything else is refused by an exception. -/
theorem C41_default_type {coor : Ten α} {conn : Ten Nat} {nnode nd ne nne : Nat} {x C}
    (hx : Is2 coor nnode nd x) (hc : Is2 conn ne nne C) :
    (defaultElementType coor conn = .ok .Tri3 ↔ nd = 2 ∧ nne = 3) ∧
    (defaultElementType coor conn = .ok .Quad4 ↔ nd = 2 ∧ nne = 4) ∧
    (defaultElementType coor conn = .ok .Hex8 ↔ nd = 3 ∧ nne = 8) ∧
    (defaultElementType coor conn = .throws ↔
      ¬ (nd = 2 ∧ nne = 3) ∧ ¬ (nd = 2 ∧ nne = 4) ∧ ¬ (nd = 3 ∧ nne = 8)) := by
  simp only [defaultElementType, hx.1, hc.1]
  by_cases h1 : nd = 2 ∧ nne = 3
  · obtain ⟨rfl, rfl⟩ := h1; simp
  by_cases h2 : nd = 2 ∧ nne = 4
  · obtain ⟨rfl, rfl⟩ := h2; simp
  by_cases h3 : nd = 3 ∧ nne = 8
  · obtain ⟨rfl, rfl⟩ := h3; simp
  simp only [h1, h2, h3, if_false]
  simp

theorem default_quad4 {coor : Ten α} {conn : Ten Nat} {nnode ne : Nat} {x C}
    (hx : Is2 coor nnode 2 x) (hc : Is2 conn ne 4 C) : defaultElementType coor conn = .ok .Quad4 :=
  (C41_default_type hx hc).2.1.2 ⟨rfl, rfl⟩

/-- **C41** (other element types) all measures refuse any element type but `Quad4` by an exception -/
theorem C41_unsupported [Field α] (sqrt : α → α) (σ : Nat → Sched) {coor : Ten α} {conn elem_map : Ten Nat}
    {nnode nd ne nne : Nat} {x C} (hx : Is2 coor nnode nd x) (hc : Is2 conn ne nne C)
    (hlt : ∀ e m, e < ne → m < nne → C e m < nnode) {type : ElementType}
    (ht : type ≠ .Quad4) :
    edgesize sqrt coor conn type = .throws ∧ centers coor conn type = .throws ∧
    elemmap2nodemap elem_map coor conn type = .throws ∧ nodal_mass σ coor conn type = .throws ∧
    center_of_gravity σ coor conn type = .throws := by
  have hd : Is2 (meshDofs nnode nd) nnode nd fun n i => n * nd + i := ⟨rfl, fun _ _ _ _ => rfl⟩
  obtain ⟨V, v1, -⟩ := Vector.new_spec hc hd hlt
  have hm : nodal_mass σ coor conn type = .throws := by
    simp only [nodal_mass, hx.1, MatrixDiagonal.new, v1, Res.ok_bind, if_neg ht]
  refine ⟨if_neg ht, ?_, ?_, hm, ?_⟩
  · simp only [centers, hx.1, hc.1, if_neg ht]
  · simp only [elemmap2nodemap, hx.1, hc.1, if_neg ht]
  · simp only [center_of_gravity, hm]; rfl

/-- **C41** `edgesize(coor, conn)`: entry `(e, m)` is the length of the side of element `e` from its node `m` to its
next node (cyclically): it is non-negative, and its square is the squared distance. -/
theorem C41_edgesize [Field α] [LinearOrder α] [IsStrictOrderedRing α] {sqrt : α → α} (hs : IsSqrt sqrt)
    {coor : Ten α} {conn : Ten Nat} {ne nnode : Nat} {C x} (hc : Is2 conn ne 4 C) (hx : Is2 coor nnode 2 x)
    (hlt : ∀ e m, e < ne → m < 4 → C e m < nnode) :
    IsOk (edgesizeDefault sqrt coor conn) fun y => ∃ L, Is2 y ne 4 L ∧ ∀ e m, e < ne → m < 4 →
      0 ≤ L e m ∧ L e m * L e m = (x (C e ((m + 1) % 4)) 0 - x (C e m) 0) ^ 2 +
        (x (C e ((m + 1) % 4)) 1 - x (C e m) 1) ^ 2 := by
  obtain ⟨y, h1, h2⟩ := edgesize_ok sqrt hc hx hlt
  refine ⟨y, by rw [edgesizeDefault, default_quad4 hx hc]; exact h1, _, h2, fun e m he hm => ?_⟩
  exact hs _ (add_nonneg (sq_nonneg _) (sq_nonneg _))

/-- **C41** `centers(coor, conn)`: the mean of the positions of the four nodes. -/
theorem C41_centers [Field α] {coor : Ten α} {conn : Ten Nat} {ne nnode : Nat} {C x}
    (hc : Is2 conn ne 4 C) (hx : Is2 coor nnode 2 x) (hlt : ∀ e m, e < ne → m < 4 → C e m < nnode) :
    IsOk (centersDefault coor conn) fun y => Is2 y ne 2 fun e j => (∑ m ∈ range 4, x (C e m) j) / 4 := by
  obtain ⟨y, h1, h2⟩ := centers_ok hc hx (le_refl 4) hlt
  exact ⟨y, by rw [centersDefault, default_quad4 hx hc]; exact h1, h2⟩

/-- **C41** `elemmap2nodemap(elem_map, coor, conn)`, for any element map: a node of the mesh is mapped to the node at the
same local position in the image of an element, namely the first local position at which the node occurs, and the last
element that has it there; a node that belongs to no element is mapped to `nnode`. -/
theorem C41_nodemap {coor : Ten α} {conn elem_map : Ten Nat} {ne N : Nat} {C E x}
    (hc : Is2 conn ne 4 C) (hx : Is2 coor N 2 x) (hlt : ∀ e m, e < ne → m < 4 → C e m < N)
    (hE : Is1 elem_map ne E) (hEl : ∀ e, e < ne → E e < ne) :
    IsOk (elemmap2nodemapDefault elem_map coor conn) fun t => ∃ r, Is1 t N r ∧ ∀ n, n < N →
      ((∀ e i, e < ne → i < 4 → C e i ≠ n) → r n = N) ∧
      ((∃ e i, e < ne ∧ i < 4 ∧ C e i = n) → ∃ e i, e < ne ∧ i < 4 ∧ C e i = n ∧
        (∀ i' e', i' < i → e' < ne → C e' i' ≠ n) ∧ (∀ e', e < e' → e' < ne → C e' i ≠ n) ∧ r n = C (E e) i) := by
  obtain ⟨t, r, h1, h2, h3⟩ := elemmap2nodemap_ok hc (le_refl 4) hE hEl hx hlt
  refine ⟨t, by rw [elemmap2nodemapDefault, default_quad4 hx hc]; exact h1, r, h2, fun n hn => ⟨(h3 n hn).1, fun h => ?_⟩⟩
  obtain ⟨e, i, hf⟩ := exists_firstLast h
  exact ⟨e, i, hf.lt, hf.col, hf.eq, hf.first, hf.last, (h3 n hn).2 e i hf⟩

/-- **C41** `elemmap2nodemap`, if the element map comes from a map `π` of the nodes (node `i` of the image of `e` is the
image of node `i` of `e`): `π` is found for every node of an element. -/
theorem C41_nodemap_consistent {coor : Ten α} {conn elem_map : Ten Nat} {ne N : Nat} {C E x}
    (hc : Is2 conn ne 4 C) (hx : Is2 coor N 2 x) (hlt : ∀ e m, e < ne → m < 4 → C e m < N)
    (hE : Is1 elem_map ne E) (hEl : ∀ e, e < ne → E e < ne) (π : Nat → Nat)
    (hπ : ∀ e i, e < ne → i < 4 → C (E e) i = π (C e i)) :
    IsOk (elemmap2nodemapDefault elem_map coor conn) fun t => ∃ r, Is1 t N r ∧
      ∀ e i, e < ne → i < 4 → r (C e i) = π (C e i) := by
  obtain ⟨t, h1, r, h2, h3⟩ := C41_nodemap hc hx hlt hE hEl
  refine ⟨t, h1, r, h2, fun e i he hi => ?_⟩
  obtain ⟨e', i', he', hi', hC, -, -, hr⟩ := (h3 _ (hlt e i he hi)).2 ⟨e, i, he, hi, rfl⟩
  rw [hr, hπ e' i' he' hi', hC]

/-! ### nodal mass -/

section mass
variable [Field α] [CharZero α]

theorem cornerShare_det (X : Nat → Nat → α) {m : Nat} (hm : m < 4) :
    det4 X (1 * corner4 m 0) (1 * corner4 m 1) = cornerShare X m := by
  have : m = 0 ∨ m = 1 ∨ m = 2 ∨ m = 3 := by omega
  rcases this with rfl | rfl | rfl | rfl <;>
  · simp [det4, jac4, part2, map4, N4, corner4, cornerShare, sum_range_succ]
    ring

/-- the shares of the four corners add up to the area -/
theorem cornerShare_sum (X : Nat → Nat → α) : ∑ m ∈ range 4, cornerShare X m = area4 X := by
  simp only [sum_range_succ, range_zero, sum_empty, cornerShare, area4]
  ring

theorem nodal_mass_ok (σ : Nat → Sched) {coor : Ten α} {conn : Ten Nat} {ne nnode : Nat} {C x}
    (hc : Is2 conn ne 4 C) (hx : Is2 coor nnode 2 x) (hlt : ∀ e m, e < ne → m < 4 → C e m < nnode) :
    ∃ t, nodal_mass σ coor conn .Quad4 = .ok t ∧ Is2 t nnode 2 fun n _ =>
      ∑ e ∈ range ne, ∑ m ∈ range 4, if C e m = n then cornerShare (fun m => x (C e m)) m else 0 := by
  have hd : Is2 (meshDofs nnode 2) nnode 2 fun n i => n * 2 + i := ⟨rfl, fun _ _ _ _ => rfl⟩
  obtain ⟨V, v1, v2, v3, v4, v5, hV, -⟩ := Vector.new_spec hc hd hlt
  obtain ⟨M, m1, m2, m3⟩ := C23_constructor (α := α) hc hd hlt
  obtain rfl : M.V = V := by rw [v1] at m2; exact (Res.ok.inj m2).symm
  obtain ⟨X, x1, x2⟩ := C03_element_of_node hV (σ 0) (by rw [v4, v5]; exact hx)
  rw [v2, v3, v5] at x2
  obtain ⟨xi, a1, a2⟩ := Element.Quad4.nodal_ok (α := α)
  obtain ⟨w, a3, a4⟩ := (Element.Quad4.weights_ok (α := α)).2
  have hr : Is2 (Ten.full conn.shape (1 : α)) ne 4 fun _ _ => 1 := ⟨hc.1, fun _ _ _ _ => rfl⟩
  obtain ⟨vol, Q, b1, b2, K, b3, k, b4, b5, b6⟩ := Element.Quad4.C47_mass_nodal (σ 1) (σ 2) x2 hr
  obtain ⟨Q', c1, c2⟩ := Element.Quad4.C53_constructor (σ 1) x2 a2 a4
  have hQ : Q' = Q := by
    simp only [a1, a3, c1, Res.ok_bind] at b1
    exact Res.ok.inj b1
  subst hQ
  have hvol := fun e m he hm => (Element.Quad4.C46_volume c2).unique b2 (i := e) (j := m) he hm
  obtain ⟨M', d1, d2, d3, d4⟩ := C23_assemble m3 (K := K) (k := k) (by rw [v2, v3, v5]; exact b4)
  obtain ⟨t, e1, e2⟩ := Vector.asNode_dofval_spec hV (σ 3) (ret := Ten.empty M.V.shape_nodevec) rfl d4
  refine ⟨t, ?_, ?_⟩
  · simp only [nodal_mass, hx.1, m1, v1, Res.ok_bind, if_true, x1, a1, a3, c1, b3, d1]
    simp [Vector.AsNode, Vector.asNode, Ten.rank, d4.1, e1]
  · rw [v4, v5] at e2
    refine e2.congr fun n i hn hi => ?_
    rw [diagAssembled, v2, v3, v5]
    refine sum_congr rfl fun e he => sum_congr rfl fun m hm => ?_
    rw [mem_range] at he hm
    have hk : ∀ i', i' < 2 → k e (m * 2 + i') (m * 2 + i') = cornerShare (fun m => x (C e m)) m := by
      intro i' hi'
      rw [b6 e m i' he hm hi', one_mul, ← hvol e m he hm, one_mul, cornerShare_det _ hm]
    rw [sum_range_succ, sum_range_succ, sum_range_zero, zero_add, hk 0 (by omega), hk 1 (by omega)]
    by_cases h : C e m = n
    · subst h
      rw [if_pos rfl]
      have : i = 0 ∨ i = 1 := by omega
      rcases this with rfl | rfl
      · rw [if_pos rfl, if_neg (by omega), add_zero]
      · rw [if_neg (by omega), if_pos rfl, zero_add]
    · rw [if_neg h, if_neg (by omega), if_neg (by omega), add_zero]

/-- **C41** `nodal_mass(coor, conn)`: for both components, the mass of a node is the sum, over the elements that contain it,
of the share of its corner in the area of the element.  In particular a node that belongs to no element has mass
zero. -/
theorem C41_nodal_mass (σ : Nat → Sched) {coor : Ten α} {conn : Ten Nat} {ne nnode : Nat} {C x}
    (hc : Is2 conn ne 4 C) (hx : Is2 coor nnode 2 x) (hlt : ∀ e m, e < ne → m < 4 → C e m < nnode) :
    IsOk (nodal_massDefault σ coor conn) fun t => ∃ M, Is2 t nnode 2 M ∧
      (∀ n i, n < nnode → i < 2 → M n i =
        ∑ e ∈ range ne, ∑ m ∈ range 4, if C e m = n then cornerShare (fun m => x (C e m)) m else 0) ∧
      (∀ n i, n < nnode → i < 2 → (∀ e m, e < ne → m < 4 → C e m ≠ n) → M n i = 0) := by
  obtain ⟨t, h1, h2⟩ := nodal_mass_ok σ hc hx hlt
  refine ⟨t, by rw [nodal_massDefault, default_quad4 hx hc]; exact h1, _, h2, fun _ _ _ _ => rfl, ?_⟩
  intro n i _ _ hn
  refine sum_eq_zero fun e he => sum_eq_zero fun m hm => ?_
  rw [if_neg (hn e m (mem_range.1 he) (mem_range.1 hm))]

/-- a sum over the nodes of values collected from the elements is the sum over the elements -/
theorem sum_nodes {ne nnode : Nat} {C : Nat → Nat → Nat} (hlt : ∀ e m, e < ne → m < 4 → C e m < nnode)
    (f : Nat → Nat → α) (g : Nat → α) :
    ∑ n ∈ range nnode, g n * ∑ e ∈ range ne, ∑ m ∈ range 4, (if C e m = n then f e m else 0) =
      ∑ e ∈ range ne, ∑ m ∈ range 4, g (C e m) * f e m := by
  simp only [mul_sum]
  rw [sum_comm]
  refine sum_congr rfl fun e he => ?_
  rw [sum_comm]
  refine sum_congr rfl fun m hm => ?_
  rw [sum_eq_single (C e m)]
  · rw [if_pos rfl]
  · intro n _ hn; rw [if_neg (Ne.symm hn), mul_zero]
  · intro h; exact absurd (mem_range.2 (hlt e m (mem_range.1 he) (mem_range.1 hm))) h

/-- **C41** (conservation of mass) the nodal masses add up, per component, to the total area of the elements. -/
theorem C41_total_mass (σ : Nat → Sched) {coor : Ten α} {conn : Ten Nat} {ne nnode : Nat} {C x}
    (hc : Is2 conn ne 4 C) (hx : Is2 coor nnode 2 x) (hlt : ∀ e m, e < ne → m < 4 → C e m < nnode) :
    IsOk (nodal_massDefault σ coor conn) fun t => ∃ M, Is2 t nnode 2 M ∧
      ∀ i, i < 2 → ∑ n ∈ range nnode, M n i = ∑ e ∈ range ne, area4 fun m => x (C e m) := by
  obtain ⟨t, h1, h2⟩ := nodal_mass_ok σ hc hx hlt
  refine ⟨t, by rw [nodal_massDefault, default_quad4 hx hc]; exact h1, _, h2, fun i _ => ?_⟩
  have := sum_nodes hlt (fun e m => cornerShare (fun m => x (C e m)) m) fun _ => 1
  simp only [one_mul] at this
  rw [this]
  exact sum_congr rfl fun e _ => cornerShare_sum _

/-- **C41** `average_axis_0` -/
theorem C41_average {data weights : Ten α} {n m : Nat} {d w} (hd : Is2 data n m d) (hw : Is2 weights n m w) :
    IsOk (average_axis_0 data weights) fun y =>
      Is1 y m fun j => (∑ i ∈ range n, d i j * w i j) / ∑ i ∈ range n, w i j := average_ok hd hw

/-- **C41** `center_of_gravity(coor, conn)`: the mean of the positions of the corners of the elements, weighted by the
shares of the corners. -/
theorem C41_center_of_gravity (σ : Nat → Sched) {coor : Ten α} {conn : Ten Nat} {ne nnode : Nat} {C x}
    (hc : Is2 conn ne 4 C) (hx : Is2 coor nnode 2 x) (hlt : ∀ e m, e < ne → m < 4 → C e m < nnode) :
    IsOk (center_of_gravityDefault σ coor conn) fun y => Is1 y 2 fun j =>
      (∑ e ∈ range ne, ∑ m ∈ range 4, x (C e m) j * cornerShare (fun m => x (C e m)) m) /
        ∑ e ∈ range ne, area4 fun m => x (C e m) := by
  obtain ⟨t, h1, h2⟩ := nodal_mass_ok σ hc hx hlt
  obtain ⟨y, h3, h4⟩ := average_ok hx h2
  refine ⟨y, ?_, h4.congr fun j hj => ?_⟩
  · rw [center_of_gravityDefault, default_quad4 hx hc]
    simp only [Res.ok_bind, h1]
    exact h3
  · have e1 := sum_nodes hlt (fun e m => cornerShare (fun m => x (C e m)) m) fun n => x n j
    have e2 := sum_nodes hlt (fun e m => cornerShare (fun m => x (C e m)) m) fun _ => 1
    simp only [one_mul] at e2
    rw [e1, e2]
    congr 1
    exact sum_congr rfl fun e _ => cornerShare_sum _

/-- **C41** (exactness) if every element is a parallelogram, `center_of_gravity` is the centroid of the mesh: the mean of
the centres of the elements, weighted by their areas. -/
theorem C41_centroid (σ : Nat → Sched) {coor : Ten α} {conn : Ten Nat} {ne nnode : Nat} {C x}
    (hc : Is2 conn ne 4 C) (hx : Is2 coor nnode 2 x) (hlt : ∀ e m, e < ne → m < 4 → C e m < nnode)
    (hp : ∀ e, e < ne → Parallelogram fun m => x (C e m)) :
    IsOk (center_of_gravityDefault σ coor conn) fun y => Is1 y 2 fun j =>
      (∑ e ∈ range ne, (area4 fun m => x (C e m)) * ((∑ m ∈ range 4, x (C e m) j) / 4)) /
        ∑ e ∈ range ne, area4 fun m => x (C e m) := by
  obtain ⟨y, h1, h2⟩ := C41_center_of_gravity σ hc hx hlt
  refine ⟨y, h1, h2.congr fun j hj => ?_⟩
  congr 1
  refine sum_congr rfl fun e he => ?_
  have p0 := hp e (mem_range.1 he) 0 (by omega)
  have p1 := hp e (mem_range.1 he) 1 (by omega)
  have q0 : x (C e 3) 0 = x (C e 0) 0 + x (C e 2) 0 - x (C e 1) 0 := by linear_combination -p0
  have q1 : x (C e 3) 1 = x (C e 0) 1 + x (C e 2) 1 - x (C e 1) 1 := by linear_combination -p1
  have : j = 0 ∨ j = 1 := by omega
  rcases this with rfl | rfl <;>
  · simp only [sum_range_succ, range_zero, sum_empty, cornerShare, area4]
    norm_num
    rw [q0, q1]
    ring

end mass

/-- coordinates of a trapezium with one element -/
def exTrap : Nat → Nat → ℚ := fun n i => ([[0, 0], [4, 0], [1, 1], [0, 1]].getD n []).getD i 0

/-- **C41** (limitation) for an element that is not a parallelogram the result is in general not the centroid: for the
trapezium `(0,0), (4,0), (1,1), (0,1)` (area 5/2) `center_of_gravity` has first coordinate 17/10, the centroid has 7/5. -/
theorem C41_centroid_inexact :
    ∃ (coor : Ten ℚ) (conn : Ten Nat), Is2 coor 4 2 exTrap ∧ Is2 conn 1 4 (fun _ m => m) ∧
      IsOk (center_of_gravityDefault (fun _ => Sched.seq) coor conn) fun y => ∃ g, Is1 y 2 g ∧ g 0 = 17 / 10 := by
  have hx := is2_of 4 2 fun ix => exTrap (ix.getD 0 0) (ix.getD 1 0)
  have hc := is2_of 1 4 fun ix => ix.getD 1 0
  refine ⟨_, _, hx, hc, ?_⟩
  obtain ⟨y, h1, h2⟩ := C41_center_of_gravity (fun _ => Sched.seq) hc hx (fun e m _ hm => hm)
  refine ⟨y, h1, _, h2, ?_⟩
  simp [sum_range_succ, cornerShare, area4, exTrap]
  norm_num

section positive
variable [Field α] [LinearOrder α] [IsStrictOrderedRing α]

/-- **C41** (positive masses) if all elements are strictly convex and oriented counter-clockwise, the mass of every node
that belongs to an element is positive. -/
theorem C41_positive (σ : Nat → Sched) {coor : Ten α} {conn : Ten Nat} {ne nnode : Nat} {C x}
    (hc : Is2 conn ne 4 C) (hx : Is2 coor nnode 2 x) (hlt : ∀ e m, e < ne → m < 4 → C e m < nnode)
    (hcv : ∀ e, e < ne → ElemSpec.Convex4 fun m => x (C e m)) :
    IsOk (nodal_massDefault σ coor conn) fun t => ∃ M, Is2 t nnode 2 M ∧
      ∀ e m i, e < ne → m < 4 → i < 2 → 0 < M (C e m) i := by
  obtain ⟨t, h1, h2⟩ := nodal_mass_ok σ hc hx hlt
  refine ⟨t, by rw [nodal_massDefault, default_quad4 hx hc]; exact h1, _, h2, fun e m i he hm _ => ?_⟩
  have hpos : ∀ e m, e < ne → m < 4 → 0 < cornerShare (fun m => x (C e m)) m := by
    intro e m he hm
    obtain ⟨c0, c1, c2, c3⟩ := hcv e he
    rw [← cornerShare_det _ hm, one_mul, one_mul]
    obtain ⟨h0, h1, h2, h3⟩ := Element.Quad4.corner_det fun m => x (C e m)
    have : m = 0 ∨ m = 1 ∨ m = 2 ∨ m = 3 := by omega
    rcases this with rfl | rfl | rfl | rfl
    · rw [h0]; exact div_pos c0 (by norm_num)
    · rw [h1]; exact div_pos c1 (by norm_num)
    · rw [h2]; exact div_pos c2 (by norm_num)
    · rw [h3]; exact div_pos c3 (by norm_num)
  have hnn : ∀ e' m', e' < ne → m' < 4 →
      0 ≤ if C e' m' = C e m then cornerShare (fun m => x (C e' m)) m' else 0 := by
    intro e' m' he' hm'
    split_ifs
    · exact (hpos e' m' he' hm').le
    · exact le_refl _
  refine sum_pos' (fun e' he' => sum_nonneg fun m' hm' => hnn e' m' (mem_range.1 he') (mem_range.1 hm'))
    ⟨e, mem_range.2 he, sum_pos' (fun m' hm' => hnn e m' he (mem_range.1 hm')) ⟨m, mem_range.2 hm, ?_⟩⟩
  rw [if_pos rfl]
  exact hpos e m he hm

/-- **C41** (regular mesh) for the regular mesh of `nelx` by `nely` elements of size `h`: every edge has length `h`, and
the total nodal mass is the area of the rectangle `h nelx` by `h nely`. -/
theorem C41_regular (nelx nely : Nat) {h : α} (hh : 0 < h) {sqrt : α → α} (hs : IsSqrt sqrt) (σ : Nat → Sched) :
    ∃ c t L y M y', (Quad4.Regular.new nelx nely h).coor = .ok c ∧
      Quad4.Regular.conn (Quad4.Regular.new nelx nely h) = .ok t ∧
      edgesizeDefault sqrt c t = .ok y ∧ Is2 y (nelx * nely) 4 L ∧
      (∀ e m, e < nelx * nely → m < 4 → L e m = h) ∧
      nodal_massDefault σ c t = .ok y' ∧ Is2 y' ((nelx + 1) * (nely + 1)) 2 M ∧
      ∀ i, i < 2 → ∑ n ∈ range ((nelx + 1) * (nely + 1)), M n i = (h * nelx) * (h * nely) := by
  obtain ⟨c, x, t, C, g, eg, h1, h2, h3, h4, h5, h6, h7, h8, h9, h10⟩ := C31_conn nelx nely h
  have hX : ∀ e, e < nelx * nely → ∃ a b : α,
      (x (C e 0) 0 = h * a ∧ x (C e 0) 1 = h * b) ∧ (x (C e 1) 0 = h * (a + 1) ∧ x (C e 1) 1 = h * b) ∧
      (x (C e 2) 0 = h * (a + 1) ∧ x (C e 2) 1 = h * (b + 1)) ∧
      (x (C e 3) 0 = h * a ∧ x (C e 3) 1 = h * (b + 1)) := by
    intro e he
    obtain ⟨iy, ix, hy, hx, rfl⟩ := h7 e he
    obtain ⟨-, q0, q1, q2, q3⟩ := h10 iy ix hy hx
    rw [Nat.cast_succ] at q1 q3
    rw [Nat.cast_succ, Nat.cast_succ] at q2
    exact ⟨ix, iy, q0, q1, q2, q3⟩
  obtain ⟨y, a1, L, a2, a3⟩ := C41_edgesize hs h4 h2 h9
  obtain ⟨y', b1, M, b2, b3⟩ := C41_total_mass σ h4 h2 h9
  refine ⟨c, t, L, y, M, y', h1, h3, a1, a2, fun e m he hm => ?_, b1, b2, fun i hi => ?_⟩
  · obtain ⟨l1, l2⟩ := a3 e m he hm
    obtain ⟨a, b, ⟨q0, q0'⟩, ⟨q1, q1'⟩, ⟨q2, q2'⟩, q3, q3'⟩ := hX e he
    have hsq : L e m * L e m = h * h := by
      rw [l2]
      have : m = 0 ∨ m = 1 ∨ m = 2 ∨ m = 3 := by omega
      rcases this with rfl | rfl | rfl | rfl <;>
      · simp only [Nat.reduceAdd, Nat.reduceMod, q0, q1, q2, q3, q0', q1', q2', q3']
        ring
    nlinarith [mul_self_eq_mul_self_iff.1 hsq |>.resolve_right fun hn => by
      rw [hn] at l1
      exact absurd l1 (by simpa using hh)]
  · rw [b3 i hi, sum_congr rfl fun e he => show area4 (fun m => x (C e m)) = h * h from ?_, sum_const, card_range,
      nsmul_eq_mul, Nat.cast_mul]
    · ring
    · obtain ⟨a, b, ⟨q0, q0'⟩, ⟨q1, q1'⟩, ⟨q2, q2'⟩, q3, q3'⟩ := hX e (mem_range.1 he)
      simp only [area4, q0, q1, q2, q3, q0', q1', q2', q3']
      ring

end positive

/-- C41: two separate elements, exchanged by the element map; nine nodes, of which one belongs to no element -/
example : Is2 (lit2 4 [[0, 1, 2, 3], [4, 5, 6, 7]]) 2 4 (fun e m => e * 4 + m) := by
  refine ⟨rfl, fun e m he hm => ?_⟩
  interval_cases e <;> interval_cases m <;> rfl
example : (∀ e i, e < 2 → i < 4 → (1 - e) * 4 + i = (fun n => (n + 4) % 8) (e * 4 + i)) ∧
    (∀ e i : Nat, e < 2 → i < 4 → e * 4 + i < 9) ∧ ∀ e : Nat, e < 2 → 1 - e < 2 := by
  refine ⟨fun e i he hi => ?_, fun e i he hi => by omega, fun e he => by omega⟩
  interval_cases e <;> interval_cases i <;> rfl

end GF
