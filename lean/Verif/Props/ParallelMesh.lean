import Verif.Props.Parallel
import Verif.Props.ParallelElement
import Verif.Props.RectMesh
import Verif.Props.Patch
import Verif.Props.Vector

/-! C86, C87 on the meshes of the library, and concrete cases. -/

namespace GF
variable {α : Type}
open Prog

/-- **C87** on `Mesh::Quad4::Regular` with two or more columns of elements and its own DOF table: `AsNode(elemvec)` and
`AsDofs(elemvec)` have a data race for all element vectors, `AsDofs(nodevec)` has none for any node vector -/
theorem C87_quad4_regular [Field α] [LinearOrder α] [IsStrictOrderedRing α] (nelx nely : Nat) (hx : 2 ≤ nelx) (hy : 0 < nely) {h : α} (hh : 0 < h) :
    let M := Quad4.Regular.new nelx nely h
    ∃ conn V, Quad4.Regular.conn M = .ok conn ∧ Vector.new conn (meshDofs M.nnode 2) = .ok V ∧ V.nnode = M.nnode ∧ V.nelem = M.nelem ∧ V.nne = 4 ∧ V.ndim = 2 ∧
      (∀ (arg : Ten α) g, Is3 arg V.nelem V.nne V.ndim g →
        HasRace (inb [V.nnode, V.ndim]) (fun _ => some 0) ((it1 V.nelem).map (Par.asNode_elemvec V arg)) ∧
        HasRace (inb [V.ndof]) (fun _ => some 0) ((it1 V.nelem).map (Par.asDofs_elemvec V arg))) ∧
      (∀ (arg : Ten α) g, Is2 arg V.nnode V.ndim g → ∃ t, V.AsDofs Sched.seq arg = .ok t ∧
        RaceFree (inb [V.ndof]) (fun _ => some 0) ((it1 V.nnode).map (Par.asDofs_nodevec V arg)) t.v) := by
  intro M
  obtain ⟨c, x, O, hA, hM⟩ := C73_quad4_regular nelx nely hh
  obtain ⟨⟨conn, e1, hc⟩, -⟩ := Quad4.Regular.sides nelx nely h
  have hlt : ∀ e m, e < M.nelem → m < 4 → gridQuad nelx e m < M.nnode := by
    obtain ⟨⟨conn', e1', hc'⟩, -⟩ := hA
    intro e m he hm
    have := hM.valid e m he hm
    rw [e1] at e1'
    injection e1' with e1'
    subst e1'
    have e2 := (hc.get he hm).symm.trans (hc'.get he hm)
    injection e2 with e2
    rw [e2]
    exact this
  obtain ⟨V, v1, v2, v3, v4, v5, hV, -⟩ := C08_constructor hc (meshDofs_ok M.nnode) hM.nodes (by omega) hlt
  refine ⟨conn, V, e1, v1, v4, v2, v3, v5, fun arg g hg => ?_, fun arg g hg => ?_⟩
  · have n2 : 2 ≤ V.nelem := by
      rw [v2]
      show 2 ≤ nelx * nely
      nlinarith
    have c0 : gridQuad nelx 0 1 = 1 := by simp [gridQuad]
    have c1 : gridQuad nelx 1 0 = 1 := by
      have h1 : 1 / nelx = 0 := Nat.div_eq_of_lt (by omega)
      have h2 : 1 % nelx = 1 := Nat.mod_eq_of_lt (by omega)
      simp [gridQuad, h1, h2]
    have g0 := hV.conn.get (show 0 < V.nelem by omega) (show 1 < V.nne by omega)
    have g1 := hV.conn.get (show 1 < V.nelem by omega) (show 0 < V.nne by omega)
    have d0 := hV.dofs.get (show 1 < V.nnode by
      have := hlt 0 1 (by rw [← v2]; omega) (by omega)
      rw [c0] at this
      omega) (show 0 < V.ndim by omega)
    rw [c0] at g0
    rw [c1] at g1
    constructor
    · obtain ⟨y, h1, -⟩ := Vector.asNode_elemvec_spec hV Sched.seq (ret := Ten.empty V.shape_nodevec) rfl hg
      exact C87_asNode_elemvec_race h1 (a := 0) (b := 1) (by omega) (by omega) (by omega) ⟨1, 0, 1, trivial, by omega, by omega, g0, g1⟩ (by omega)
    · obtain ⟨y, h1, -⟩ := Vector.asDofs_elemvec_spec hV Sched.seq (ret := Ten.empty V.shape_dofval) rfl hg
      exact C87_asDofs_elemvec_race h1 (a := 0) (b := 1) (by omega) (by omega) (by omega)
        ⟨1, 0, 1, 1, 0, 0, _, trivial, by omega, by omega, by omega, by omega, g0, g1, d0, d0⟩
  · obtain ⟨y, h1, -⟩ := Vector.asDofs_nodevec_spec hV Sched.seq (ret := Ten.empty V.shape_dofval) rfl hg
    refine ⟨y, by simp [Vector.AsDofs, Vector.asDofs, Ten.rank, hg.1, h1], C87_asDofs_nodevec (fun a ha b hb hab => ?_) h1⟩
    rintro ⟨i, j, k, -, hi, hj, h2, h3⟩
    rw [hV.dofs.get ha hi] at h2
    rw [hV.dofs.get hb hj] at h3
    injection h2 with h2
    injection h3 with h3
    omega

/-- **C87** with the periodic DOF table of `Mesh::Quad4::Regular`: `AsDofs(nodevec)` has a data race for all node vectors -/
theorem C87_quad4_periodic [Field α] [LinearOrder α] [IsStrictOrderedRing α] (nelx nely : Nat) (hx : 0 < nelx) (hy : 0 < nely) {h : α} (hh : 0 < h) :
    let M := Quad4.Regular.new nelx nely h
    ∃ conn dofs V, Quad4.Regular.conn M = .ok conn ∧ Quad4.Regular.dofsPeriodic M = .ok dofs ∧ Vector.new conn dofs = .ok V ∧ V.nnode = M.nnode ∧ V.ndim = 2 ∧
      ∀ (arg : Ten α) g, Is2 arg V.nnode V.ndim g → HasRace (inb [V.ndof]) (fun _ => some 0) ((it1 V.nnode).map (Par.asDofs_nodevec V arg)) := by
  intro M
  obtain ⟨c, x, O, ⟨⟨conn, e1, hc⟩, -⟩, hM⟩ := C73_quad4_regular nelx nely hh
  obtain ⟨co, x', dofs, d, p1, p2, e2, hd, same, -⟩ := C33_quad4_dofsPeriodic nelx nely hx hy hh
  obtain ⟨V, v1, v2, v3, v4, v5, hV, -⟩ := C08_constructor hc hd hM.nodes (by omega) fun e m he hm => hM.valid e m he hm
  refine ⟨conn, dofs, V, e1, e2, v1, v4, v5, fun arg g hg => ?_⟩
  obtain ⟨co', x'', q1, q2, ⟨b1, b2, b3⟩, ⟨b4, b5, b6⟩, -⟩ := C32_quad4_corners nelx nely h
  rw [p1] at q1
  injection q1 with q1
  subst q1
  have ex : ∀ m, m < M.nnode → ∀ i, i < 2 → x' m i = x'' m i := by
    intro m hm i hi
    have := (p2.get hm hi).symm.trans (q2.get hm hi)
    injection this
  generalize Quad4.Regular.nodesBottomLeftCorner M = A at *
  generalize Quad4.Regular.nodesBottomRightCorner M = B at *
  have hAB : A ≠ B := by
    rintro rfl
    rw [b2] at b5
    have : (0 : α) < h * (nelx : α) := mul_pos hh (by exact_mod_cast hx)
    linarith
  have ds : d A 0 = d B 0 := by
    refine (same A 0 B 0 b1 (by omega) b4 (by omega)).2 ⟨⟨1, 0, ?_, ?_⟩, rfl⟩
    · rw [ex B b4 0 (by omega), ex A b1 0 (by omega), b5, b2]
      simp
    · rw [ex B b4 1 (by omega), ex A b1 1 (by omega), b6, b3]
      simp
  obtain ⟨y, h1, -⟩ := Vector.asDofs_nodevec_spec hV Sched.seq (ret := Ten.empty V.shape_dofval) rfl hg
  refine C87_asDofs_nodevec_race h1 (a := A) (b := B) (by omega) (by omega) hAB ⟨0, 0, d A 0, trivial, by omega, by omega, ?_, ?_⟩
  · exact hV.dofs.get (by omega) (by omega)
  · rw [ds]
    exact hV.dofs.get (by omega) (by omega)

/-- **C87** (use inside the library: values that come from one node vector) `AsNode(AsElement(nodevec))` gives the same result in
every order of the accesses, although it has a data race -/
theorem C87_node_element_node [Zero α] {V : Vector} {c d : Nat → Nat → Nat} (hV : V.Holds c d) {x : Ten α} {g : Nat → Nat → α} (hx : Is2 x V.nnode V.ndim g) :
    ∃ y t, V.AsElement Sched.seq x = .ok y ∧ V.AsNode Sched.seq y = .ok t ∧
      SameResult (inb [V.nnode, V.ndim]) (fun _ => some 0) ((it1 V.nelem).map (Par.asNode_elemvec V y)) t.v := by
  obtain ⟨y, h1, h2⟩ := Vector.asElement_nodevec_spec hV Sched.seq (ret := Ten.empty V.shape_elemvec) rfl hx
  obtain ⟨t, h3, -⟩ := Vector.asNode_elemvec_spec hV Sched.seq (ret := Ten.empty V.shape_nodevec) rfl h2
  refine ⟨y, t, by simp [Vector.AsElement, Vector.asElement, Ten.rank, hx.1, h1], by simp [Vector.AsNode, Vector.asNode, Ten.rank, h2.1, h3],
    C87_asNode_elemvec_agree ?_ h3⟩
  intro e i e' i' n k v v' c1 c2 a1 a2
  have key : ∀ e i w, V.conn.get [e, i] = .ok n → y.get [e, i, k] = .ok w → w = g n k := by
    intro e i w c1 a1
    have hb : e < V.nelem ∧ i < V.nne ∧ k < V.ndim := by
      unfold Ten.get at a1
      rw [h2.1] at a1
      split at a1
      · rename_i hi
        simpa [inb] using hi
      · cases a1
    rw [hV.conn.get hb.1 hb.2.1] at c1
    rw [h2.get hb.1 hb.2.1 hb.2.2] at a1
    injection c1 with c1
    injection a1 with a1
    rw [← a1, c1]
  rw [key e i v c1 a1, key e' i' v' c2 a2]

/-! ### concrete cases -/

/-- two separate two-node elements: the hypothesis of `C87_asNode_elemvec` and `C87_asDofs_elemvec` holds -/
example : ∃ V c d, Vector.new (lit2 2 [[0, 1], [2, 3]]) (meshDofs 4 2) = .ok V ∧ V.Holds c d ∧ V.nelem = 2 ∧
    (∀ a < V.nelem, ∀ b < V.nelem, a ≠ b → ¬ RowsShare V.conn Any V.nne a b) ∧
    ∀ a < V.nelem, ∀ b < V.nelem, a ≠ b → ¬ ElemsShare V.conn V.dofs Any V.nne V.ndim a b := by
  obtain ⟨V, v1, v2, v3, v4, v5, hV, -⟩ := C08_constructor (conn := lit2 2 [[0, 1], [2, 3]]) (is2_of 2 2 _) (meshDofs_ok 4) (by decide) (by decide) (ball2 (by decide))
  refine ⟨V, _, _, v1, hV, v2, ?_, ?_⟩
  · rintro a ha b hb hab ⟨i, j, k, -, hi, hj, h1, h2⟩
    rw [hV.conn.get ha hi] at h1
    rw [hV.conn.get hb hj] at h2
    injection h1 with h1
    injection h2 with h2
    rw [v2] at ha hb
    rw [v3] at hi hj
    have key : ∀ a < 2, ∀ b < 2, a ≠ b → ∀ i < 2, ∀ j < 2, ([[0, 1], [2, 3]].getD ([a, i].getD 0 0) []).getD ([a, i].getD 1 0) (default : Nat) ≠
      ([[0, 1], [2, 3]].getD ([b, j].getD 0 0) []).getD ([b, j].getD 1 0) default := by decide
    exact key a ha b hb hab i hi j hj (h1.trans h2.symm)
  · rintro a ha b hb hab ⟨i, j, n, n', x, y, k, -, hi, hj, hx, hy, h1, h2, h3, h4⟩
    have l1 := hV.conn_lt a i ha hi
    have l2 := hV.conn_lt b j hb hj
    rw [hV.conn.get ha hi] at h1
    rw [hV.conn.get hb hj] at h2
    injection h1 with h1
    injection h2 with h2
    rw [h1] at l1
    rw [h2] at l2
    rw [hV.dofs.get l1 hx] at h3
    rw [hV.dofs.get l2 hy] at h4
    injection h3 with h3
    injection h4 with h4
    rw [v5] at hx hy
    have e : n = n' := by omega
    subst e
    rw [v2] at ha hb
    rw [v3] at hi hj
    have key : ∀ a < 2, ∀ b < 2, a ≠ b → ∀ i < 2, ∀ j < 2, ([[0, 1], [2, 3]].getD ([a, i].getD 0 0) []).getD ([a, i].getD 1 0) (default : Nat) ≠
      ([[0, 1], [2, 3]].getD ([b, j].getD 0 0) []).getD ([b, j].getD 1 0) default := by decide
    exact key a ha b hb hab i hi j hj (h1.trans h2.symm)

/-- the two-element periodic mesh: all of the loops of C86 that take a vector run in the model, so they are race free -/
example : ∃ V c d, Vector.new exConn exDofs = .ok V ∧ V.Holds c d ∧ ∀ u : Ten Int, u.shape = [V.ndof] → (∀ k, u.v [k] = some (k : Int)) →
    ∃ x y, V.AsNode Sched.seq u = .ok x ∧ RaceFree (inb [V.nnode, V.ndim]) (Ten.empty V.shape_nodevec).v ((it1 V.nnode).map (Par.asNode_dofval V u)) x.v ∧
      V.AsElement Sched.seq x = .ok y ∧ RaceFree (inb [V.nelem, V.nne, V.ndim]) (Ten.empty V.shape_elemvec).v ((it1 V.nelem).map (Par.asElement_nodevec V x)) y.v := by
  obtain ⟨V, c, d, h1, hV, -⟩ := exVector
  refine ⟨V, c, d, h1, hV, fun u hs hu => ?_⟩
  have hu' : Is1 u V.ndof fun k => (k : Int) := ⟨hs, fun k _ => hu k⟩
  obtain ⟨x, h2, h3⟩ := Vector.asNode_dofval_spec hV Sched.seq (ret := Ten.empty V.shape_nodevec) rfl hu'
  obtain ⟨y, h4, h5⟩ := Vector.asElement_nodevec_spec hV Sched.seq (ret := Ten.empty V.shape_elemvec) rfl h3
  exact ⟨x, y, by simp [Vector.AsNode, Vector.asNode, Ten.rank, hs, h2], C86_asNode_dofval h2,
    by simp [Vector.AsElement, Vector.asElement, Ten.rank, h3.1, h4], C86_asElement_nodevec h4⟩

/-- the mesh theorems at a concrete size -/
example := C87_quad4_regular (α := ℚ) 2 1 (by decide) (by decide) (h := 1) (by norm_num)
example := C87_quad4_periodic (α := ℚ) 3 2 (by decide) (by decide) (h := 1) (by norm_num)

end GF
