import Verif.Props.StaticMeshes

/-! **C97** Partition by hand, and partition by the library. -/

namespace GF
open Finset ElemSpec Element Element.Quad4

section
variable {α : Type} {c d q : Nat → Nat → Nat} {D : Nat → Nat → α}

/-- arrays with the same entries cannot be told apart by reading -/
theorem get_eq_of_is2 {t t' : Ten α} {n m : Nat} {g : Nat → Nat → α} (h : Is2 t n m g) (h' : Is2 t' n m g) : t.get = t'.get := by
  funext ix
  rw [Ten.get, Ten.get, h.1, h'.1]
  split
  · rename_i hb
    match ix, hb with
    | [i, j], hb =>
      simp only [inb, Bool.and_true, Bool.and_eq_true, decide_eq_true_eq] at hb
      rw [h.2 i j hb.1 hb.2, h'.2 i j hb.1 hb.2]
    | [], hb => simp [inb] at hb
    | [_], hb => simp [inb] at hb
    | _ :: _ :: _ :: _, hb => simp [inb] at hb
  · rfl

theorem asElement_congr {V : Vector} (σ : Sched) {t t' : Ten α} {n m : Nat} {g : Nat → Nat → α} (h : Is2 t n m g) (h' : Is2 t' n m g) :
    V.AsElement σ t = V.AsElement σ t' := by
  rw [Vector.AsElement, Vector.asElement, Vector.AsElement, Vector.asElement, Ten.rank, Ten.rank, h.1, h'.1]
  simp only [Vector.asElement_nodevec, get_eq_of_is2 h h', List.length_cons, List.length_nil]
  rfl

theorem npPut_ok {idx : List Nat} (hn : idx.Nodup) {N : Nat} (hlt : ∀ k ∈ idx, k < N) {v t : Ten α} {f : Nat → α} (hv : Is1 v idx.length f)
    (ht : t.shape = [N]) :
    ∃ y, npPut idx v t = .ok y ∧ y.shape = [N] ∧ (∀ a k, idx[a]? = some k → y.v [k] = some (f a)) ∧ (∀ k, k ∉ idx → y.v [k] = t.v [k]) := by
  obtain ⟨y, h⟩ := MatrixPartitioned.putDofs_spec Sched.seq hn hlt hv ht
  exact ⟨y, by rw [npPut, if_pos hv.1]; exact h.1, h.2⟩

variable {M : MatrixPartitioned α}

/-- the solution depends on the entries of the arrays only -/
theorem solveRhs_congr [NonUnitalNonAssocRing α] (S : LinSolver α) (s : SolverState α) (M : MatrixPartitioned α) {bu bu' xp xp' : Ten α} {n m : Nat}
    {g f : Nat → α} (h1 : Is1 bu n g) (h1' : Is1 bu' n g) (h2 : Is1 xp m f) (h2' : Is1 xp' m f) : M.solveRhs S s bu xp = M.solveRhs S s bu' xp' := by
  have e : M.A.up.mulVec xp = M.A.up.mulVec xp' := by rw [Mat.mulVec, Mat.mulVec, h2.1, h2'.1, h2.flat, h2'.flat]
  have e' : ∀ w, vzip (· - ·) bu w = vzip (· - ·) bu' w := fun w => by rw [vzip, vzip, h1.1, h1'.1, h1.flat, h1'.flat]
  simp only [MatrixPartitioned.solveRhs, e, e']

theorem solveRhs_any [NonUnitalNonAssocRing α] (S : LinSolver α) {s : SolverState α} (hM : M.Holds c d q D) (hs : s.fact = some M.A.uu) {bu xp : Ten α}
    {g f : Nat → α} (hb : Is1 bu M.P.nnu g) (hp : Is1 xp M.P.nnp f) : ∃ y w, M.solveRhs S s bu xp = .ok y ∧ Is1 y M.P.nnu w := by
  have hP := hM.base
  have hA := hM.blocks
  obtain ⟨y2, h3, h4⟩ := M.A.up.mulVec_spec (x := xp) (f := f) (by rw [hA.up_dim.2, ← hP.nnp]; exact hp)
  rw [hA.up_dim.1, ← hP.nnu] at h4
  obtain ⟨z, h5, h6⟩ := vzip_spec (· - ·) hb h4
  obtain ⟨y, v, h7, h8, -⟩ := MatrixPartitioned.solve_ok S hs (b := z) (by rw [hA.uu_dim.1, ← hP.nnu]; exact h6)
  rw [hA.uu_dim.2, ← hP.nnu] at h8
  exact ⟨y, _, by simp only [MatrixPartitioned.solveRhs, h3, h5, h7, Res.ok_bind], h8⟩

/-- **C97** (one solve) For every solver - exact or not - and every state of the matrix: solving for the unknown DOFs by `AsDofs_u` and
`Solve_u`, writing the two parts into one array of DOFs with the lists `iiu` and `iip`, and distributing it with `AsNode` gives at every
node exactly the displacement that `Solve(A, b, x)` gives for node vectors, whatever the order of the parallel loops. -/
theorem C97_same_solve [Field α] (S : LinSolver α) (hM : M.Holds c d q D) (σ τ : Nat → Sched) {b x u_p : Ten α} {gb gx : Nat → Nat → α} {g f : Nat → α}
    (hb : Is2 b M.P.V.nnode M.P.V.ndim gb) (hx : Is2 x M.P.V.nnode M.P.V.ndim gx)
    (hgb : ∀ m i, m < M.P.V.nnode → i < M.P.V.ndim → d m i ∉ M.P.iip → gb m i = g (d m i))
    (hgx : ∀ m i, m < M.P.V.nnode → i < M.P.V.ndim → d m i ∈ M.P.iip → gx m i = f (d m i))
    (hp : Is1 u_p M.P.nnp fun a => f (M.P.iip.getD a 0)) (hc : M.changed = true) :
    ∃ (s' : SolverState α) (M' : MatrixPartitioned α) (y y' : Ten α) (u : Nat → α),
      M.solve_nodevec S SolverState.init σ b x = .ok (s', M', y) ∧ manualSolve M.P M S τ b u_p = .ok y' ∧
      Is2 y M.P.V.nnode M.P.V.ndim (fun m i => u (d m i)) ∧ Is2 y' M.P.V.nnode M.P.V.ndim (fun m i => u (d m i)) ∧
      ∀ k ∈ M.P.iip, u k = f k := by
  have hP := hM.base
  have hA := hM.blocks
  have hs : (SolverState.init.factorize M.changed M.A.uu : SolverState α × Bool).1.fact = some M.A.uu :=
    SolverState.factorize_spec SolverState.init (Or.inl hc)
  -- the right-hand side has the same entries, hence the solution is the same
  obtain ⟨bu, b1, b2⟩ := MatrixPartitioned.asDofs_u_node hM (σ 0) hb hgb
  obtain ⟨bu', b1', b2'⟩ := MatrixPartitioned.asDofs_u_node hM (τ 0) hb hgb
  obtain ⟨xp, p1, p2⟩ := MatrixPartitioned.asDofs_p_node hM (σ 1) hx hgx
  obtain ⟨xu, w, w1, w2⟩ := solveRhs_any S hM hs b2 p2
  have w1' : M.solveRhs S (SolverState.init.factorize M.changed M.A.uu).1 bu' u_p = .ok xu := by
    rw [solveRhs_congr S _ M b2' b2 hp p2, w1]
  set u : Nat → α := fun k => if k ∈ M.P.iip then f k else w (M.P.iiu.idxOf k) with hu'
  have hu : ∀ a, a < M.P.nnu → u (M.P.iiu.getD a 0) = w a := by
    intro a ha
    rw [hP.nnu] at ha
    have hn := ((hP.iiu_mem _).1 (SMatrix.getD_mem ha)).2
    simp only [hu', hn, if_false]
    congr 1
    simp [List.getD, ha, hP.iiu_nodup.idxOf_getElem]
  have hpu : ∀ k ∈ M.P.iip, u k = f k := fun k hk => by simp [hu', hk]
  -- the library
  obtain ⟨y, h9, h10⟩ := VectorPartitioned.masked_spec (σ 2) M.P.V.nnode M.P.V.ndim
    (fun m i => decide (q m i < M.P.nnu)) (fun ret mi => do
      let k ← M.P.part.get [mi.1, mi.2]
      if k < M.P.nnu then
        let a ← xu.get [k]
        ret.set [mi.1, mi.2] a
      else .ok ret)
    (g := fun m i => u (d m i)) hx (by
      intro m i hm hi t
      simp only [hP.part.get hm hi, Res.ok_bind, decide_eq_true_eq]
      split
      next h =>
        have e := hP.u_get hm hi h
        rw [w2.get h, ← hu _ h]
        simp [List.getD, e]
      next h => rfl)
  -- by hand
  rw [hP.nnu] at w2
  rw [hP.nnp] at hp
  obtain ⟨v1, v2, v3, v4, -⟩ := npPut_ok (t := Ten.empty M.P.V.shape_dofval) hP.iiu_nodup (fun k hk => hP.iiu_lt hk) w2 rfl
  obtain ⟨v, z1, z2, z3, z4⟩ := npPut_ok (t := v1) hP.iip_nodup (fun k hk => hP.iip_lt k hk) hp v3
  have hv : Is1 v M.P.V.ndof u := ⟨z2, fun k hk => by
    rcases hM.mem hk with ⟨a, ha⟩ | ⟨a, ha⟩
    · rw [z4 k fun h => ((hP.iiu_mem k).1 (List.mem_of_getElem? ha)).2 h, v4 a k ha, ← hu a (by rw [hP.nnu]; exact app_len ha)]
      simp [List.getD, ha]
    · rw [z3 a k ha, hpu k (List.mem_of_getElem? ha)]
      simp [List.getD, ha]⟩
  obtain ⟨y', n1', n2⟩ := Vector.asNode_dofval_spec hP.base (τ 1) (ret := Ten.empty M.P.V.shape_nodevec) rfl hv
  have n1 : M.P.V.AsNode (τ 1) v = .ok y' := by simp [Vector.AsNode, Vector.asNode, Ten.rank, hv.1, n1']
  refine ⟨_, _, y, y', u, by
    simp only [MatrixPartitioned.solve_nodevec, b1, p1, w1, h9, Res.ok_bind]; rfl, ?_, h10.congr fun m i hm hi => ?_, n2, hpu⟩
  · simp only [manualSolve, b1', MatrixPartitioned.solve_u, w1', v2, z1, n1, Res.ok_bind]
  · by_cases hh : d m i ∈ M.P.iip
    · rw [if_neg]
      · rw [hgx m i hm hi hh, hpu _ hh]
      · simpa using not_lt.1 (mt (hP.u_iff hm hi).1 (not_not.2 hh))
    · rw [if_pos]
      simpa using (hP.u_iff hm hi).2 hh

end

variable {α : Type} [Field α] [LinearOrder α] [IsStrictOrderedRing α]
variable {nn ne : Nat} {c d : Nat → Nat → Nat} {x : Nat → Nat → α} {Lx Ly : α} {O : Outline}

/-- what every material does: from strains to stresses and tangents, of the right size (no linearity) -/
def AnyMaterial (ne : Nat) (material : Ten α → Res (Ten α × Ten α)) : Prop :=
  ∀ (t : Ten α) (E : Nat → Nat → Nat → Nat → α), Is4 t ne 4 3 3 E → IsOk (material t) fun r =>
    (∃ S, Is4 r.1 ne 4 3 3 S) ∧ ∃ C, Is6 r.2 ne 4 3 3 3 3 C

omit [LinearOrder α] [IsStrictOrderedRing α] in
theorem LinearMaterial.any {material : Ten α → Res (Ten α × Ten α)} {C} (h : LinearMaterial ne C material) : AnyMaterial ne material :=
  fun t E ht => (h t E ht).imp fun _ ⟨h0, h1, h2⟩ => ⟨h0, ⟨_, h1⟩, _, h2⟩

/-- **C97** (the programs) The example program with the partition by hand and the one with the partition by the library give the same
displacement at every node, and the very same arrays of external force, internal force and residual. Any material (also non-linear), any
solver (also inexact), any prescribed displacements: only these must be listed in the order of `iip`. -/
theorem C97_same_program (hM : RectMesh nn ne c x Lx Ly O) {s : α} {thick : α}
    (σ : Nat → Nat → Sched) {conn dofs : Ten Nat} {coor : Ten α} (hc : Is2 conn ne 4 c) (hx : Is2 coor nn 2 x)
    (hd : Is2 dofs nn 2 d) {n : Nat} (hn : NumDofs nn d n) (hgap : ∀ k, k < n → ∃ m i, m < nn ∧ i < 2 ∧ d m i = k)
    {material : Ten α → Res (Ten α × Ten α)} (hm : AnyMaterial ne material)
    {iip : List Nat} (hi : iip.Nodup) (hin : ∀ k ∈ iip, k < n)
    {fext disp0 disp1 u_p : Ten α} {w f : Nat → α} {g0 g1 : Nat → Nat → α} (hw : Is2 fext nn 2 fun m i => w (d m i)) (h0 : Is2 disp0 nn 2 g0)
    (h1 : Is2 disp1 nn 2 g1) (hg : ∀ m i, m < nn → i < 2 → d m i ∈ iip → g1 m i = f (d m i)) (hp : Is1 u_p iip.length fun a => f (iip.getD a 0))
    (S : LinSolver α) :
    ∃ (r r' : StaticResult α) (u : Nat → Nat → α),
      staticProgram s thick S σ conn dofs iip coor material fext disp0 disp1 = .ok r ∧
      manualProgram s thick S σ conn dofs iip coor material fext disp0 u_p = .ok r' ∧
      Is2 r.disp nn 2 u ∧ Is2 r'.disp nn 2 u ∧ r'.fext = r.fext ∧ r'.fint = r.fint ∧ r'.fres = r.fres := by
  obtain ⟨M, q, m1, m2, m3, m4, hMP⟩ := C18_constructor (α := α) (iip := iip) hc hd hM.valid hi (fun k hk => by
      obtain ⟨-, m, i, hm, hi', h⟩ := hn
      exact ⟨m, i, hm, hi', by have := hin k hk; omega⟩) (fun m i hm hi' k hk => by
      obtain ⟨a, b', ha, hb', h⟩ := hgap k (by have := hn.1 m i hm hi'; omega)
      exact ⟨a, b', ha, hb', h⟩) ⟨hM.nodes, by omega⟩
  obtain ⟨V, v1, e1, e2, e3, e4, hV, -⟩ := C08_constructor hc hd hM.nodes (by omega) hM.valid
  obtain rfl : M.P.V = V := by rw [m3] at v1; injection v1
  obtain ⟨xe, x1, x2⟩ := C03_element_of_node hV (σ 0 0) (by rw [e3, e4]; exact hx)
  rw [e1, e2, e4] at x2
  obtain ⟨Q, q1, hQ⟩ := newPlanarGauss_ok s thick (σ 0 1) x2
  -- the response to any displacement, with forces that agree at nodes that share a DOF
  have resp : ∀ (υ : Nat → Sched) (disp : Ten α) (g : Nat → Nat → α), Is2 disp nn 2 g →
      IsOk (staticResponse M.P Q material υ disp) fun r => (∃ F : Nat → α, Is2 r.1 nn 2 fun m i => F (d m i)) ∧ ∃ C, Is6 r.2 ne 4 3 3 3 3 C := by
    intro υ disp g hg
    obtain ⟨ue, u1, u2⟩ := C03_element_of_node hV (υ 0) (by rw [e3, e4]; exact hg)
    rw [e1, e2, e4] at u2
    obtain ⟨Eps, g1, g2⟩ := (planar_grads hQ (υ 1) u2).2.2
    obtain ⟨⟨Sig, Ct⟩, m1, ⟨T, m2⟩, m3⟩ := hm Eps _ g2
    obtain ⟨fe, f1, f2⟩ := force_live hQ (by omega) (υ 2) m2 (live_holds hQ).1.V_is
    obtain ⟨Fe, f2⟩ : ∃ Fe, Is3 fe ne 4 2 Fe := ⟨_, f2⟩
    obtain ⟨fint, i1, i2⟩ := C06_assembleNode hV (υ 3) (x := fe) (by rw [e1, e2, e4]; exact f2)
    rw [e3, e4] at i2
    exact ⟨(fint, Ct), by simp only [staticResponse, u1, g1, m1, f1, i1, Res.ok_bind]; rfl,
      ⟨fun r => ∑ e ∈ range M.P.V.nelem, ∑ m ∈ range M.P.V.nne, ∑ i ∈ range 2, if d (c e m) i = r then Fe e m i else 0, i2⟩, m3⟩
  obtain ⟨⟨fint0, Ct⟩, r1, ⟨F0, r2⟩, C, r3⟩ := resp (σ 1) disp0 _ h0
  obtain ⟨kt, k1, k, k2, -⟩ := stiff_live hQ (by omega) (σ 0 2) r3 (live_holds hQ).1.V_is
  obtain ⟨A, a1, a2⟩ := MatrixPartitioned.assemble_spec hMP (K := kt) (by rw [e1, e2, e4]; exact k2)
  have hM' : MatrixPartitioned.Holds { M with A := A, changed := true } c d q _ :=
    ⟨hMP.base, hMP.surj, hMP.part1d_shape, hMP.part1d, a2⟩
  obtain ⟨fres0, n1, n2⟩ := nodeExpr_ok (fun f g _ => f - g) hw r2 r2
  obtain ⟨s', M', y, y', u, y1, y2, y3, y4, -⟩ := C97_same_solve S hM' (σ 2) (σ 2) (b := fres0) (x := disp1) (u_p := u_p)
    (g := fun k => w k - F0 k) (f := f)
    (by change Is2 fres0 M.P.V.nnode M.P.V.ndim _; rw [e3, e4]; exact n2)
    (by change Is2 disp1 M.P.V.nnode M.P.V.ndim _; rw [e3, e4]; exact h1) (fun _ _ _ _ _ => rfl)
    (fun m i hm hi' hk => hg m i (by rw [← e3]; exact hm) (by rw [← e4]; exact hi') (by rw [← m4]; exact hk))
    (by change Is1 u_p M.P.nnp fun a => f (M.P.iip.getD a 0); rw [hMP.base.nnp, m4]; exact hp) rfl
  dsimp only at y2 y3 y4
  rw [e3, e4] at y3 y4
  obtain ⟨⟨fint, Ct'⟩, z1, ⟨F, z2⟩, -⟩ := resp (σ 3) y _ y3
  have z1' : staticResponse M.P Q material (σ 3) y' = .ok (fint, Ct') := by
    rw [← z1, staticResponse, staticResponse, asElement_congr (σ 3 0) y4 y3]
  obtain ⟨fe, p1, p2⟩ := (C14_copy hMP.base (σ 0 3) (src := fint) (dest := fext) (by rw [e3, e4]; exact z2) (by rw [e3, e4]; exact hw)).2
  rw [e3, e4] at p2
  obtain ⟨fr, o1, -⟩ := nodeExpr_ok (fun f g _ => f - g) p2 z2 z2
  refine ⟨⟨y, fe, fint, fr⟩, ⟨y', fe, fint, fr⟩, _, ?_, ?_, y3, y4, rfl, rfl, rfl⟩
  · simp only [staticProgram, m2, m1, x1, q1, r1, k1, a1, n1, y1, z1, p1, o1, Res.ok_bind]
    rfl
  · simp only [manualProgram, m2, m1, x1, q1, r1, k1, a1, n1, y2, z1', p1, o1, Res.ok_bind]
    rfl

omit [LinearOrder α] [IsStrictOrderedRing α] in
theorem npArray_map (l : List Nat) (f : Nat → α) : Is1 (npArray (l.map f)) l.length fun a => f (l.getD a 0) :=
  ⟨by simp [npArray, Ten.of], fun a ha => by simp [npArray, Ten.of, List.getD, ha]⟩

/-- the prescribed displacements, in the order of the DOFs -/
theorem side_values (hM : RectMesh nn ne c x Lx Ly O) (lx : 0 < Lx) (ly : 0 < Ly) (a b : α) :
    (sideDofs O).map (fun k => if k % 2 = 0 then a * x (k / 2) 0 / Lx else b * x (k / 2) 1 / Ly) =
      List.replicate O.nr a ++ List.replicate O.nt b ++ List.replicate O.nl 0 ++ List.replicate O.nb 0 := by
  have key : ∀ (n : Nat) (F : Nat → α) (v : α), (∀ k, k < n → F k = v) → (List.range n).map F = List.replicate n v := by
    intro n F v h
    refine List.ext_getElem (by simp) fun k h1 h2 => ?_
    simp only [List.length_map, List.length_range] at h1
    simp [h k h1]
  simp only [sideDofs, List.map_append, List.map_map]
  rw [key O.nr _ a, key O.nt _ b, key O.nl _ 0, key O.nb _ 0]
  · intro k hk
    have := (hM.bottom k hk).2
    simp only [Function.comp, show (O.bottom k * 2 + 1) % 2 = 1 by omega, show (O.bottom k * 2 + 1) / 2 = O.bottom k by omega, one_ne_zero, if_false, this]
    ring
  · intro k hk
    have := (hM.left k hk).2
    simp only [Function.comp, show (O.left k * 2 + 0) % 2 = 0 by omega, show (O.left k * 2 + 0) / 2 = O.left k by omega, if_true, this]
    ring
  · intro k hk
    have := (hM.top k hk).2.1
    simp only [Function.comp, show (O.top k * 2 + 1) % 2 = 1 by omega, show (O.top k * 2 + 1) / 2 = O.top k by omega, one_ne_zero, if_false, this]
    rw [mul_div_assoc, div_self ly.ne', mul_one]
  · intro k hk
    have := (hM.right k hk).2.1
    simp only [Function.comp, show (O.right k * 2 + 0) % 2 = 0 by omega, show (O.right k * 2 + 0) / 2 = O.right k by omega, if_true, this]
    rw [mul_div_assoc, div_self lx.ne', mul_one]

/-- **C97** (the two examples) For every mesh of a rectangle, every material and every solver the two example programs agree. -/
theorem C97_same_example (hM : RectMesh nn ne c x Lx Ly O) (lx : 0 < Lx) (ly : 0 < Ly) {s thick : α} (σ : Nat → Nat → Sched)
    {conn bt rt tt lt : Ten Nat} {coor : Ten α} (hc : Is2 conn ne 4 c) (hx : Is2 coor nn 2 x)
    (hB : Is1 bt O.nb O.bottom) (hR : Is1 rt O.nr O.right) (hT : Is1 tt O.nt O.top) (hL : Is1 lt O.nl O.left)
    {material : Ten α → Res (Ten α × Ten α)} (hm : AnyMaterial ne material) (a b : α) (S : LinSolver α) :
    ∃ (r r' : StaticResult α) (u : Nat → Nat → α),
      fixedDisplacement s thick S σ conn (meshDofs nn 2) coor bt rt tt lt material a b = .ok r ∧
      fixedDisplacementManual s thick S σ conn (meshDofs nn 2) coor bt rt tt lt material a b = .ok r' ∧
      Is2 r.disp nn 2 u ∧ Is2 r'.disp nn 2 u ∧ r'.fext = r.fext ∧ r'.fint = r.fint ∧ r'.fres = r.fres := by
  obtain ⟨disp1, g1, e1, e2, e3⟩ := fixed_bc hM lx ly s thick S σ (conn := conn) hx hB hR hT hL material a b
  have hd := meshDofs_ok nn
  have e4 : fixedDisplacementManual s thick S σ conn (meshDofs nn 2) coor bt rt tt lt material a b =
      manualProgram s thick S σ conn (meshDofs nn 2) (sideDofs O) coor material (Ten.full [nn, 2] 0) (Ten.full [nn, 2] 0)
        (npArray ((sideDofs O).map (fun k => if k % 2 = 0 then a * x (k / 2) 0 / Lx else b * x (k / 2) 1 / Ly))) := by
    simp only [fixedDisplacementManual, npColumn_ok hd hR (fun k hk => (hM.right k hk).1) (show 0 < 2 by omega),
      npColumn_ok hd hT (fun k hk => (hM.top k hk).1) (show 1 < 2 by omega), npColumn_ok hd hL (fun k hk => (hM.left k hk).1) (show 0 < 2 by omega),
      npColumn_ok hd hB (fun k hk => (hM.bottom k hk).1) (show 1 < 2 by omega), Res.ok_bind, hx.1, hB.1, hR.1, hT.1, hL.1, List.headD_cons]
    rw [side_values hM lx ly]
    rfl
  obtain ⟨r, r', u, p1, p2, p3⟩ := C97_same_program hM (s := s) (thick := thick) σ hc hx hd (plain_numDofs hM.nodes) plain_gap hm
    (sideDofs_nodup hM lx ly) (sideDofs_lt hM) (w := fun _ => 0) (f := fun k => if k % 2 = 0 then a * x (k / 2) 0 / Lx else b * x (k / 2) 1 / Ly)
    full_zero full_zero e2 (fun m i hm hi hk => by
      rw [e3 m i hm hi hk, show (m * 2 + i) / 2 = m by omega, show (m * 2 + i) % 2 = i by omega])
    (npArray_map (sideDofs O) fun k => if k % 2 = 0 then a * x (k / 2) 0 / Lx else b * x (k / 2) 1 / Ly) S
  exact ⟨r, r', u, by rw [e1]; exact p1, by rw [e4]; exact p2, p3⟩

/-- **C97** (equilibrium) Hence the example with the partition by hand ends with a residual of exactly zero for every elastic material,
and with the homogeneous deformation if that material is uniform and isotropic. -/
theorem C97_fixed_displacement (hM : RectMesh nn ne c x Lx Ly O) (lx : 0 < Lx) (ly : 0 < Ly) {s : α} (s0 : s ≠ 0) (s1 : -1 ≤ s) (s2 : s ≤ 1) {thick : α}
    (t0 : 0 < thick) (σ : Nat → Nat → Sched) {conn bt rt tt lt : Ten Nat} {coor : Ten α} (hc : Is2 conn ne 4 c) (hx : Is2 coor nn 2 x)
    (hB : Is1 bt O.nb O.bottom) (hR : Is1 rt O.nr O.right) (hT : Is1 tt O.nt O.top) (hL : Is1 lt O.nl O.left)
    {material : Ten α → Res (Ten α × Ten α)} {C} (hm : LinearMaterial ne C material) (hE : ∀ e q, e < ne → q < 4 → Elastic (C e q))
    (a b : α) {S : LinSolver α} (hSol : S.Suits (∀ e q, e < ne → q < 4 → Major 2 (C e q))) :
    IsOk (fixedDisplacementManual s thick S σ conn (meshDofs nn 2) coor bt rt tt lt material a b) fun r => ∃ u F : Nat → Nat → α,
      Is2 r.disp nn 2 u ∧ Is2 r.fint nn 2 F ∧ Is2 r.fext nn 2 F ∧ Is2 r.fres nn 2 (fun _ _ => 0) ∧
      (∀ k, k < O.nr → u (O.right k) 0 = a) ∧ (∀ k, k < O.nt → u (O.top k) 1 = b) ∧
      (∀ k, k < O.nl → u (O.left k) 0 = 0) ∧ (∀ k, k < O.nb → u (O.bottom k) 1 = 0) ∧
      (∀ m, m < nn → (x m 0 ≠ 0 → x m 0 ≠ Lx → F m 0 = 0) ∧ (x m 1 ≠ 0 → x m 1 ≠ Ly → F m 1 = 0)) ∧
      (∀ l μ : α, 0 < μ → 0 < l + μ → (∀ e q, C e q = isotropic l μ) →
        ∀ m, m < nn → u m 0 = a * x m 0 / Lx ∧ u m 1 = b * x m 1 / Ly) := by
  obtain ⟨r, r', u, p1, p2, p3, p4, p5, p6, p7⟩ := C97_same_example hM lx ly (s := s) (thick := thick) σ hc hx hB hR hT hL hm.any a b S
  obtain ⟨r0, q1, u0, F, q2, q3, q4, q5, q6, q7, q8, q9, q10⟩ := C93_fixed_displacement hM lx ly s0 s1 s2 t0 σ hc hx hB hR hT hL hm hE a b hSol
  obtain rfl : r = r0 := by rw [p1] at q1; injection q1
  refine ⟨r', p2, u0, F, ?_, by rw [p6]; exact q3, by rw [p5]; exact q4, by rw [p7]; exact q5, q6, q7, q8, q9, q10, ?_⟩
  · exact p4.congr fun m i hm hi => p3.unique q2 hm hi
  · intro l μ hμ hl hC m hm'
    obtain rfl : C = fun _ _ => isotropic l μ := funext fun e => funext fun q => hC e q
    obtain ⟨r1, w1, w2, -⟩ := C93_fixed_displacement_uniform hM lx ly s0 s1 s2 t0 σ hc hx hB hR hT hL hμ hl hm a b (hSol.elim (fun h => h.ldlt) fun h => h.1)
    obtain rfl : r = r1 := by rw [p1] at w1; injection w1
    exact ⟨by rw [q2.unique w2 hm' (by omega), if_pos rfl], by rw [q2.unique w2 hm' (by omega), if_neg one_ne_zero]⟩

/-- **C97** (on `Quad4::Regular`, as in the example) -/
theorem C97_quad4_regular {nelx nely : Nat} (hx : 0 < nelx) (hy : 0 < nely) {h : α} (hh : 0 < h) {s : α} (s0 : s ≠ 0) (s1 : -1 ≤ s) (s2 : s ≤ 1)
    {thick : α} (t0 : 0 < thick) (σ : Nat → Nat → Sched) {material : Ten α → Res (Ten α × Ten α)} {l μ : α} (hμ : 0 < μ) (hl : 0 < l + μ)
    (hm : LinearMaterial (nelx * nely) (fun _ _ => isotropic l μ) material) (a b : α) {S : LinSolver α} (hSol : S.Ldlt) :
    let M := Quad4.Regular.new nelx nely h
    IsOk (do
      let conn ← Quad4.Regular.conn M
      let coor ← M.coor
      let bottom ← Quad4.Regular.nodesBottomEdge M
      let right ← Quad4.Regular.nodesRightEdge M
      let top ← Quad4.Regular.nodesTopEdge M
      let left ← Quad4.Regular.nodesLeftEdge M
      fixedDisplacementManual s thick S σ conn (meshDofs M.nnode 2) coor bottom right top left material a b) fun r => ∃ u : Nat → Nat → α,
        Is2 r.disp M.nnode 2 u ∧ Is2 r.fres M.nnode 2 (fun _ _ => 0) ∧ ∀ iy ix, iy ≤ nely → ix ≤ nelx →
          u (iy * (nelx + 1) + ix) 0 = a * ix / nelx ∧ u (iy * (nelx + 1) + ix) 1 = b * iy / nely := by
  intro M
  obtain ⟨c, x, O, ct, xt, bt, rt, tt, lt, lo, ro, hM, a1, a2, b1, b2, c1, c2, d1, d2, e1, e2, f1, f2, -, -, -, -, pos, -⟩ :=
    Quad4.Regular.static nelx nely hh
  have nx : (nelx : α) ≠ 0 := by exact_mod_cast hx.ne'
  have ny : (nely : α) ≠ 0 := by exact_mod_cast hy.ne'
  have lx : 0 < h * (nelx : α) := mul_pos hh (by exact_mod_cast hx)
  have ly : 0 < h * (nely : α) := mul_pos hh (by exact_mod_cast hy)
  obtain ⟨r, r1, u, F, r2, -, -, r3, -, -, -, -, -, r4⟩ := C97_fixed_displacement hM lx ly s0 s1 s2 t0 σ a2 b2 c2 d2 e2 f2 hm
    (fun _ _ _ _ => isotropic_elastic hμ hl) a b (hSol.suits fun _ _ _ _ => isotropic_major 2 l μ)
  refine ⟨r, by simp only [M, a1, b1, c1, d1, e1, f1, Res.ok_bind]; exact r1, u, r2, r3, fun iy ix h1 h2 => ?_⟩
  obtain ⟨p, p0, p1⟩ := pos iy ix h1 h2
  have := hh.ne'
  have q := r4 l μ hμ hl (fun _ _ => rfl) _ p
  rw [q.1, q.2, p0, p1]
  constructor <;> field_simp

/-- the example of the documentation: 5 x 5 elements, +0.2 to the right, -0.2 at the top (with Gauss points in `1/2`): the node in the
middle of the right side moves to the right by 0.2 and down by 0.2 * 3 / 5 -/
example (σ : Nat → Nat → Sched) : ∃ S : LinSolver ℚ, IsOk (do
      let conn ← Quad4.Regular.conn (Quad4.Regular.new 5 5 (1 : ℚ))
      let coor ← (Quad4.Regular.new 5 5 (1 : ℚ)).coor
      let bottom ← Quad4.Regular.nodesBottomEdge (Quad4.Regular.new 5 5 (1 : ℚ))
      let right ← Quad4.Regular.nodesRightEdge (Quad4.Regular.new 5 5 (1 : ℚ))
      let top ← Quad4.Regular.nodesTopEdge (Quad4.Regular.new 5 5 (1 : ℚ))
      let left ← Quad4.Regular.nodesLeftEdge (Quad4.Regular.new 5 5 (1 : ℚ))
      fixedDisplacementManual (1 / 2) 1 S σ conn (meshDofs 36 2) coor bottom right top left (linearMaterial 25 fun _ _ => isotropic (1 - 2 / 3) 1)
        (1 / 5) (- 1 / 5)) fun r => r.disp.get [23, 0] = .ok (1 / 5) ∧ r.disp.get [23, 1] = .ok (- 3 / 25) := by
  obtain ⟨S, hS⟩ := exists_direct (α := ℚ)
  refine ⟨S, (C97_quad4_regular (nelx := 5) (nely := 5) (by omega) (by omega) (h := (1 : ℚ)) (by norm_num) (s := 1 / 2) (by norm_num) (by norm_num)
    (by norm_num) (thick := 1) (by norm_num) σ (l := 1 - 2 / 3) (μ := 1) (by norm_num) (by norm_num) (linearMaterial_ok _ _) (1 / 5) (- 1 / 5) hS.ldlt).imp
    fun r ⟨h0, u, h1, h2, h3⟩ => ⟨h0, ?_, ?_⟩⟩
  · rw [h1.get (show 23 < 36 by omega) (by omega), (h3 3 5 (by omega) (by omega)).1]; norm_num
  · rw [h1.get (show 23 < 36 by omega) (by omega), (h3 3 5 (by omega) (by omega)).2]; norm_num

/-- materials that are not linear are covered by `C97_same_program`: here the stress is the square of the strain -/
example : AnyMaterial (α := ℚ) 25 fun t => do
    let l ← t.flat
    return (Ten.of [25, 4, 3, 3] fun ix => l.getD (ix.getD 0 0) 0 * l.getD (ix.getD 0 0) 0, Ten.full [25, 4, 3, 3, 3, 3] 1) := by
  intro t E ht
  have : ∃ l, t.flat = .ok l := by
    refine ⟨_, mapRes_ok _ (fun ix => E (ix.getD 0 0) (ix.getD 1 0) (ix.getD 2 0) (ix.getD 3 0)) _ fun ix hix => ?_⟩
    rw [ht.1, mem_indices] at hix
    match ix, hix with
    | [e, q, i, j], hix =>
      simp only [inb, Bool.and_true, Bool.and_eq_true, decide_eq_true_eq] at hix
      exact ht.get hix.1 hix.2.1 hix.2.2.1 hix.2.2.2
    | [], hix => simp [inb] at hix
    | [_], hix => simp [inb] at hix
    | [_, _], hix => simp [inb] at hix
    | [_, _, _], hix => simp [inb] at hix
    | _ :: _ :: _ :: _ :: _ :: _, hix => simp [inb] at hix
  obtain ⟨l, hl⟩ := this
  exact ⟨_, by beta_reduce; rw [hl, Res.ok_bind]; rfl, ⟨fun e _ _ _ => l.getD e 0 * l.getD e 0, rfl, fun _ _ _ _ _ _ _ _ => rfl⟩, fun _ _ _ _ _ _ => 1, rfl,
    fun _ _ _ _ _ _ _ _ _ _ _ _ => rfl⟩

end GF
