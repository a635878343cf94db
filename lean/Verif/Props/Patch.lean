import Verif.Lemmas.Patch
import Verif.Props.RectMesh

/-! **C74** Patch test: a constant stress is in equilibrium with the tractions on the boundary. -/

namespace GF
open Finset ElemSpec Element Element.Quad4
variable {α : Type} [Field α] [LinearOrder α] [IsStrictOrderedRing α]

theorem NumDofs.plain {nn n : Nat} (h : NumDofs nn (fun m i => m * 2 + i) n) : n = 2 * nn := by
  obtain ⟨h1, m, i, hm, hi, h2⟩ := h
  have := h1 (nn - 1) 1 (by omega) (by omega)
  beta_reduce at this h2
  omega

theorem NumDofs.range {nn n N : Nat} {d : Nat → Nat → Nat} (h : NumDofs nn d n)
    (hv : ∀ v, (∃ m i, m < nn ∧ i < 2 ∧ d m i = v) ↔ v < N) : n = N := by
  obtain ⟨h1, m, i, hm, hi, h2⟩ := h
  have a := (hv (d m i)).1 ⟨m, i, hm, hi, rfl⟩
  obtain ⟨m', i', hm', hi', e⟩ := (hv (N - 1)).2 (by omega)
  have := h1 m' i' hm' hi'
  omega

theorem meshDofs_ok (nn : Nat) : Is2 (meshDofs nn 2) nn 2 (fun m i => m * 2 + i) :=
  ⟨rfl, fun m c _ _ => by simp [meshDofs, Ten.of]⟩

variable {nn ne : Nat} {c d : Nat → Nat → Nat} {x : Nat → Nat → α} {Lx Ly : α} {O : Outline}

/-- **C74** the assembled internal force of a constant stress is the force of the corresponding tractions on the boundary -/
theorem C74_constant_stress (hM : RectMesh nn ne c x Lx Ly O) {s : α} (s1 : -1 ≤ s) (s2 : s ≤ 1) (σ τ ρ : Sched)
    {conn dofs : Ten Nat} {coor : Ten α} (hc : Is2 conn ne 4 c) (hx : Is2 coor nn 2 x) (hd : Is2 dofs nn 2 d) {sig : Ten α}
    {S : Nat → Nat → α} (hs : Is4 sig ne 4 2 2 fun _ _ i j => S i j) :
    IsOk (do let (V, Q) ← setup s σ τ conn dofs coor; internalForce ρ V Q sig) fun f =>
      ∃ n F, Is1 f n F ∧ NumDofs nn d n ∧ ∀ k, F k = O.sum (tractionForce d x S k) := by
  obtain ⟨V, Q, h1, hV, e1, e2, e3, e4, e5, hQ, hp⟩ := hM.setup s1 s2 σ τ hc hx hd
  obtain ⟨fe, f1, f2⟩ := const_force hQ le_rfl (fun e q he hq => (hp e q he hq).ne') ρ hs
  rw [← e1, ← e2, ← e4] at f2
  rw [e2] at f2
  obtain ⟨y, y1, y2⟩ := C04_assemble_element hV (x := fe) (by rw [e2]; exact f2)
  refine ⟨y, ?_, V.ndof, _, y2, ⟨fun m i hm hi => hV.dofs_lt m i (by rw [e3]; exact hm) (by rw [e4]; exact hi), e5⟩, fun k => ?_⟩
  · simp only [h1, internalForce, f1, Res.ok_bind]; exact y1
  · rw [e1, e2, e4, const_edges, one_mul, Outline.sum]
    exact hM.perimeter.stokes _ fun p q => tractionForce_anti d x S k p q

omit [LinearOrder α] [IsStrictOrderedRing α] in
theorem pathSum_zero {l : Nat} {P : Nat → Nat} {f : Nat → Nat → α} (h : ∀ i, i + 1 < l → f (P i) (P (i + 1)) = 0) :
    pathSum l P f = 0 :=
  sum_eq_zero fun i hi => h i (by rw [mem_range] at hi; omega)

omit [LinearOrder α] [IsStrictOrderedRing α] in
theorem traction_zero {k p q : Nat} {S : Nat → Nat → α} (hp : ∀ i, i < 2 → d p i ≠ k) (hq : ∀ i, i < 2 → d q i ≠ k) :
    tractionForce d x S k p q = 0 :=
  sum_eq_zero fun j hj => by
    rw [mem_range] at hj
    rw [if_neg (hp j hj), if_neg (hq j hj), add_zero, mul_zero]

/-- no traction acts on the DOFs of nodes that are not on the boundary -/
theorem interior_zero (hM : RectMesh nn ne c x Lx Ly O) {k : Nat} {S : Nat → Nat → α}
    (hk : ∀ m i, m < nn → i < 2 → d m i = k → 0 < x m 0 ∧ x m 0 < Lx ∧ 0 < x m 1 ∧ x m 1 < Ly) :
    O.sum (tractionForce d x S k) = 0 := by
  have hb : ∀ i, i < O.nb → ∀ j, j < 2 → d (O.bottom i) j ≠ k := fun i hi j hj h =>
    (hk _ j (hM.bottom i hi).1 hj h).2.2.1.ne' (hM.bottom i hi).2
  have ht : ∀ i, i < O.nt → ∀ j, j < 2 → d (O.top i) j ≠ k := fun i hi j hj h =>
    (hk _ j (hM.top i hi).1 hj h).2.2.2.ne (hM.top i hi).2.1
  have hl : ∀ i, i < O.nl → ∀ j, j < 2 → d (O.left i) j ≠ k := fun i hi j hj h =>
    (hk _ j (hM.left i hi).1 hj h).1.ne' (hM.left i hi).2
  have hr : ∀ i, i < O.nr → ∀ j, j < 2 → d (O.right i) j ≠ k := fun i hi j hj h =>
    (hk _ j (hM.right i hi).1 hj h).2.1.ne (hM.right i hi).2.1
  rw [Outline.sum, pathSum_zero fun i hi => traction_zero (hb i (by omega)) (hb (i + 1) hi),
    pathSum_zero fun i hi => traction_zero (hr i (by omega)) (hr (i + 1) hi),
    pathSum_zero fun i hi => traction_zero (ht i (by omega)) (ht (i + 1) hi),
    pathSum_zero fun i hi => traction_zero (hl i (by omega)) (hl (i + 1) hi)]
  simp

/-- **C74** (interior) no force acts on a DOF if all nodes with that DOF are strictly inside the rectangle -/
theorem C74_interior (hM : RectMesh nn ne c x Lx Ly O) {s : α} (s1 : -1 ≤ s) (s2 : s ≤ 1) (σ τ ρ : Sched)
    {conn dofs : Ten Nat} {coor : Ten α} (hc : Is2 conn ne 4 c) (hx : Is2 coor nn 2 x) (hd : Is2 dofs nn 2 d) {sig : Ten α}
    {S : Nat → Nat → α} (hs : Is4 sig ne 4 2 2 fun _ _ i j => S i j) :
    IsOk (do let (V, Q) ← setup s σ τ conn dofs coor; internalForce ρ V Q sig) fun f =>
      ∃ n F, Is1 f n F ∧ NumDofs nn d n ∧
        ∀ k, (∀ m i, m < nn → i < 2 → d m i = k → 0 < x m 0 ∧ x m 0 < Lx ∧ 0 < x m 1 ∧ x m 1 < Ly) → F k = 0 := by
  obtain ⟨f, h1, n, F, h2, h3, h4⟩ := C74_constant_stress hM s1 s2 σ τ ρ hc hx hd hs
  exact ⟨f, h1, n, F, h2, h3, fun k hk => by rw [h4, interior_zero hM hk]⟩

omit [LinearOrder α] [IsStrictOrderedRing α] in
theorem traction_congr {k p q p' q' : Nat} {S : Nat → Nat → α} (hp : ∀ i, i < 2 → d p i = d p' i) (hq : ∀ i, i < 2 → d q i = d q' i)
    (h0 : x q 0 - x p 0 = x q' 0 - x p' 0) (h1 : x q 1 - x p 1 = x q' 1 - x p' 1) :
    tractionForce d x S k p q = tractionForce d x S k p' q' := by
  refine sum_congr rfl fun j hj => ?_
  rw [mem_range] at hj
  rw [hp j hj, hq j hj]
  congr 2
  refine sum_congr rfl fun i _ => ?_
  congr 1
  simp only [edgeNormal]
  split
  · exact h1
  · linear_combination -h0

/-- **C74** (periodic) if nodes at opposite positions on the boundary share their DOFs, a constant stress is in equilibrium: no
force acts on any DOF -/
theorem C74_periodic (hM : RectMesh nn ne c x Lx Ly O) {s : α} (s1 : -1 ≤ s) (s2 : s ≤ 1) (σ τ ρ : Sched)
    {conn dofs : Ten Nat} {coor : Ten α} (hc : Is2 conn ne 4 c) (hx : Is2 coor nn 2 x) (hd : Is2 dofs nn 2 d)
    (hper : ∀ m m' i, m < nn → m' < nn → i < 2 → LatticeEq2 Lx Ly (x m) (x m') → d m i = d m' i) {sig : Ten α}
    {S : Nat → Nat → α} (hs : Is4 sig ne 4 2 2 fun _ _ i j => S i j) :
    IsOk (do let (V, Q) ← setup s σ τ conn dofs coor; internalForce ρ V Q sig) fun f =>
      ∃ n, Is1 f n (fun _ => 0) ∧ NumDofs nn d n := by
  obtain ⟨f, h1, n, F, h2, h3, h4⟩ := C74_constant_stress hM s1 s2 σ τ ρ hc hx hd hs
  refine ⟨f, h1, n, h2.congr fun k _ => ?_, h3⟩
  obtain ⟨z1, z2, z3, z4⟩ := hM.sizes
  have hbt : ∀ i, i < O.nb → ∀ j, j < 2 → d (O.bottom i) j = d (O.top i) j := fun i hi j hj => by
    have b := hM.bottom i hi
    have t := hM.top i (by omega)
    exact hper _ _ j b.1 t.1 hj ⟨0, 1, by rw [t.2.2]; simp, by rw [t.2.1, b.2]; simp⟩
  have hlr : ∀ i, i < O.nl → ∀ j, j < 2 → d (O.left i) j = d (O.right i) j := fun i hi j hj => by
    have b := hM.left i hi
    have t := hM.right i (by omega)
    exact hper _ _ j b.1 t.1 hj ⟨1, 0, by rw [t.2.1, b.2]; simp, by rw [t.2.2]; simp⟩
  have e1 : pathSum O.nb O.bottom (tractionForce d x S k) = pathSum O.nt O.top (tractionForce d x S k) := by
    rw [pathSum, pathSum, z2]
    refine sum_congr rfl fun i hi => ?_
    rw [mem_range] at hi
    refine traction_congr (hbt i (by omega)) (hbt (i + 1) (by omega)) ?_ ?_
    · rw [(hM.top i (by omega)).2.2, (hM.top (i + 1) (by omega)).2.2]
    · rw [(hM.top i (by omega)).2.1, (hM.top (i + 1) (by omega)).2.1, (hM.bottom i (by omega)).2, (hM.bottom (i + 1) (by omega)).2]
      ring
  have e2 : pathSum O.nl O.left (tractionForce d x S k) = pathSum O.nr O.right (tractionForce d x S k) := by
    rw [pathSum, pathSum, z4]
    refine sum_congr rfl fun i hi => ?_
    rw [mem_range] at hi
    refine traction_congr (hlr i (by omega)) (hlr (i + 1) (by omega)) ?_ ?_
    · rw [(hM.right i (by omega)).2.1, (hM.right (i + 1) (by omega)).2.1, (hM.left i (by omega)).2, (hM.left (i + 1) (by omega)).2]
      ring
    · rw [(hM.right i (by omega)).2.2, (hM.right (i + 1) (by omega)).2.2]
  rw [h4, Outline.sum, e1, e2]
  ring

/-- **C74** (Quad4 `Regular`, `dofs()`) -/
theorem C74_quad4_regular (nelx nely : Nat) {h : α} (hh : 0 < h) {s : α} (s1 : -1 ≤ s) (s2 : s ≤ 1) (σ τ ρ : Sched)
    {sig : Ten α} {S : Nat → Nat → α} (hs : Is4 sig (nelx * nely) 4 2 2 fun _ _ i j => S i j) :
    let M := Quad4.Regular.new nelx nely h
    IsOk (do
      let conn ← Quad4.Regular.conn M
      let coor ← M.coor
      let (V, Q) ← setup s σ τ conn (meshDofs M.nnode M.ndim) coor
      internalForce ρ V Q sig) fun f =>
      ∃ F, Is1 f (2 * M.nnode) F ∧ ∀ iy ix j, 0 < iy → iy < nely → 0 < ix → ix < nelx → j < 2 →
        F ((iy * (nelx + 1) + ix) * 2 + j) = 0 := by
  intro M
  obtain ⟨c, x, O, hA, hM⟩ := C73_quad4_regular nelx nely hh
  obtain ⟨ct, a1, a2⟩ := hA.conn
  obtain ⟨xt, b1, b2⟩ := hA.coor
  obtain ⟨f, f1, n, F, f2, f3, f4⟩ := C74_interior hM s1 s2 σ τ ρ a2 b2 (meshDofs_ok _) hs
  obtain rfl := f3.plain
  refine ⟨f, ?_, F, f2, fun iy ix j h1 h2 h3 h4 hj => f4 _ fun m i hm hi e => ?_⟩
  · rw [a1, Res.ok_bind, b1, Res.ok_bind]; exact f1
  · obtain ⟨xt', g1, g2⟩ := M.coor_spec rfl rfl
    obtain rfl : xt = xt' := by rw [b1] at g1; injection g1
    obtain rfl : m = iy * (nelx + 1) + ix := by omega
    have p := gridCoor_node h (nelx := nelx) (i := iy) (j := ix) (by omega)
    rw [b2.unique g2 hm (show 0 < 2 by omega), b2.unique g2 hm (show 1 < 2 by omega)]
    change 0 < gridCoor h nelx _ 0 ∧ gridCoor h nelx _ 0 < _ ∧ 0 < gridCoor h nelx _ 1 ∧ gridCoor h nelx _ 1 < _
    rw [p.1, p.2]
    exact ⟨mul_pos hh (Nat.cast_pos.2 h3), mul_lt_mul_of_pos_left (Nat.cast_lt.2 h4) hh, mul_pos hh (Nat.cast_pos.2 h1),
      mul_lt_mul_of_pos_left (Nat.cast_lt.2 h2) hh⟩

/-- **C74** (Quad4 `Regular`, `dofsPeriodic()`) -/
theorem C74_quad4_regular_periodic (nelx nely : Nat) (hx : 0 < nelx) (hy : 0 < nely) {h : α} (hh : 0 < h) {s : α} (s1 : -1 ≤ s) (s2 : s ≤ 1)
    (σ τ ρ : Sched) {sig : Ten α} {S : Nat → Nat → α} (hs : Is4 sig (nelx * nely) 4 2 2 fun _ _ i j => S i j) :
    let M := Quad4.Regular.new nelx nely h
    IsOk (do
      let conn ← Quad4.Regular.conn M
      let coor ← M.coor
      let dofs ← Quad4.Regular.dofsPeriodic M
      let (V, Q) ← setup s σ τ conn dofs coor
      internalForce ρ V Q sig) fun f => Is1 f (nelx * nely * 2) (fun _ => 0) := by
  intro M
  obtain ⟨c, x, O, hA, hM⟩ := C73_quad4_regular nelx nely hh
  obtain ⟨ct, a1, a2⟩ := hA.conn
  obtain ⟨xt, b1, b2⟩ := hA.coor
  obtain ⟨xt', x', dt, d, g1, g2, g3, g4, g5, g6⟩ := C33_quad4_dofsPeriodic nelx nely hx hy hh
  obtain rfl : xt = xt' := by rw [b1] at g1; injection g1
  obtain ⟨f, f1, n, f2, f3⟩ := C74_periodic hM s1 s2 σ τ ρ a2 b2 g4 (fun m m' i hm hm' hi hl => (g5 m i m' i hm hi hm' hi).2 ⟨by
    obtain ⟨p, q, l1, l2⟩ := hl
    exact ⟨p, q, by rw [← b2.unique g2 hm' (by omega), ← b2.unique g2 hm (by omega)]; exact l1,
      by rw [← b2.unique g2 hm' (by omega), ← b2.unique g2 hm (by omega)]; exact l2⟩, rfl⟩) hs
  obtain rfl := f3.range g6
  refine ⟨f, ?_, f2⟩
  rw [a1, Res.ok_bind, b1, Res.ok_bind, g3, Res.ok_bind]; exact f1

/-- **C74** (Quad4 `FineLayer`, `dofs()`) -/
theorem C74_finelayer (nelx nely : Nat) (hy : 0 < nely) {h : α} (hh : 0 < h) (nfine : Nat) {s : α} (s1 : -1 ≤ s) (s2 : s ≤ 1)
    (σ τ ρ : Sched) {S : Nat → Nat → α} :
    ∃ M Ny ct x, FineLayer.new nelx nely h nfine = .ok M ∧ M.nely = .ok Ny ∧ M.coor = .ok ct ∧ Is2 ct M.nnode 2 x ∧
      ∀ sig, Is4 sig M.nelem 4 2 2 (fun _ _ i j => S i j) →
    IsOk (do
      let conn ← M.conn
      let coor ← M.coor
      let (V, Q) ← setup s σ τ conn (meshDofs M.nnode 2) coor
      internalForce ρ V Q sig) fun f =>
      ∃ F, Is1 f (2 * M.nnode) F ∧ ∀ m j, m < M.nnode → j < 2 → 0 < x m 0 → x m 0 < h * (nelx : α) → 0 < x m 1 → x m 1 < h * (Ny : α) →
        F (m * 2 + j) = 0 := by
  obtain ⟨M, Ny, c, x, O, h1, h2, hA, hM⟩ := C73_finelayer nelx nely hy hh nfine
  obtain ⟨ct, a1, a2⟩ := hA.conn
  obtain ⟨xt, b1, b2⟩ := hA.coor
  refine ⟨M, Ny, xt, x, h1, h2, b1, b2, fun sig hs => ?_⟩
  obtain ⟨f, f1, n, F, f2, f3, f4⟩ := C74_interior hM s1 s2 σ τ ρ a2 b2 (meshDofs_ok _) hs
  obtain rfl := f3.plain
  refine ⟨f, ?_, F, f2, fun m j hm hj p1 p2 p3 p4 => f4 _ fun m' i hm' hi e => ?_⟩
  · rw [a1, Res.ok_bind, b1, Res.ok_bind]; exact f1
  · obtain rfl : m' = m := by omega
    exact ⟨p1, p2, p3, p4⟩

/-- **C74** (Quad4 `FineLayer`, `dofsPeriodic()`) -/
theorem C74_finelayer_periodic (nelx nely : Nat) (hx : 0 < nelx) (hy : 0 < nely) {h : α} (hh : 0 < h) (nfine : Nat) {s : α}
    (s1 : -1 ≤ s) (s2 : s ≤ 1) (σ τ ρ : Sched) {S : Nat → Nat → α} :
    ∃ M, FineLayer.new nelx nely h nfine = .ok M ∧ ∀ sig, Is4 sig M.nelem 4 2 2 (fun _ _ i j => S i j) →
    IsOk (do
      let conn ← M.conn
      let coor ← M.coor
      let dofs ← M.dofsPeriodic
      let (V, Q) ← setup s σ τ conn dofs coor
      internalForce ρ V Q sig) fun f => ∃ t k P, M.nodesPeriodic = .ok t ∧ Is2 t k 2 P ∧ Is1 f ((M.nnode - k) * 2) (fun _ => 0) := by
  obtain ⟨M, Ny, c, x, O, h1, h2, hA, hM⟩ := C73_finelayer nelx nely hy hh nfine
  obtain ⟨ct, a1, a2⟩ := hA.conn
  obtain ⟨xt, b1, b2⟩ := hA.coor
  obtain ⟨M', Ny', xt', x', t, k, P, dt, d, g0, g0', g1, g2, t1, t2, g3, g4, g5, g6⟩ := C60_dofsPeriodic nelx nely hx hy hh nfine
  obtain rfl : M = M' := by rw [h1] at g0; injection g0
  obtain rfl : Ny = Ny' := by rw [h2] at g0'; injection g0'
  obtain rfl : xt = xt' := by rw [b1] at g1; injection g1
  refine ⟨M, h1, fun sig hs => ?_⟩
  obtain ⟨f, f1, n, f2, f3⟩ := C74_periodic hM s1 s2 σ τ ρ a2 b2 g4 (fun m m' i hm hm' hi hl => (g5 m i m' i hm hi hm' hi).2 ⟨by
    obtain ⟨p, q, l1, l2⟩ := hl
    exact ⟨p, q, by rw [← b2.unique g2 hm' (by omega), ← b2.unique g2 hm (by omega)]; exact l1,
      by rw [← b2.unique g2 hm' (by omega), ← b2.unique g2 hm (by omega)]; exact l2⟩, rfl⟩) hs
  obtain rfl := f3.range g6
  refine ⟨f, ?_, t, k, P, t1, t2, f2⟩
  rw [a1, Res.ok_bind, b1, Res.ok_bind, g3, Res.ok_bind]; exact f1

/-- non-vacuity: the hypotheses on the stress and the Gauss points can be met -/
example : ∃ (sig : Ten ℚ) (S : Nat → Nat → ℚ), Is4 sig (3 * 2) 4 2 2 (fun _ _ i j => S i j) ∧ S 0 1 ≠ 0 :=
  ⟨Ten.of [6, 4, 2, 2] fun ix => ((ix.getD 2 0 + 2 * ix.getD 3 0 : Nat) : ℚ), fun i j => ((i + 2 * j : Nat) : ℚ),
    ⟨rfl, fun e q i j _ _ _ _ => by simp [Ten.of]⟩, by norm_num⟩

end GF
