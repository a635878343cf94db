import Verif.Lemmas.FineLayerEdges
import Mathlib.Tactic.NormNum

/-! **C59**, **C60** the boundary and the periodicity of `Mesh::Quad4::FineLayer`. -/

namespace GF
open FineLayerSpec Finset FineLayer
/-- linear arithmetic over naturals that may contain quotients -/
local macro "om" : tactic => `(tactic| first | omega | exact Nat.zero_le _)

variable {α : Type} [Field α] [LinearOrder α] [IsStrictOrderedRing α]

/-- everything about the mesh that the boundary theorems use -/
theorem FineLayer.meshN (nelx nely : Nat) (hy : 0 < nely) (h : α) (nfine : Nat) :
    ∃ M n W G R Ny ct x, FineLayer.new nelx nely h nfine = .ok M ∧ Layers nelx n W G R ∧ IsFine M nelx n W G R ∧
      M.nely = .ok Ny ∧ Ny = height G (2 * n - 1) ∧ 0 < Ny ∧
      M.coor = .ok ct ∧ Is2 ct M.nnode 2 x ∧ M.nnode = height (blkN nelx n W R) (2 * n) ∧
      Placed h nelx n W G R x ∧ rowW n W (2 * n - 1) = rowW n W 0 := by
  obtain ⟨M, n, w, g, r, ct, x, t, c, h1, h2, h3, h4, e1, e2, e3, e4, e5, e6, e7⟩ := FineLayer.mesh nelx nely hy h nfine
  have hL := layers_of_half h3
  have hp := hL.npos
  have hpos : 0 < height (fun i => g (dist n i)) (2 * n - 1) := by
    have := height_lt (g := fun i => g (dist n i)) (N := 2 * n - 1) (i := 0) (j := 2 * n - 1) hL.gpos (by om) le_rfl
    omega
  refine ⟨M, n, _, _, _, height (fun i => g (dist n i)) (2 * n - 1), ct, x, h1, hL, h4, ?_, rfl, hpos, e1, e2, e5, e6, ?_⟩
  rotate_left
  · rw [rowW, rowW, if_neg (by omega), if_pos hp]
    congr 1
    simp only [FineLayerSpec.dist]
    split_ifs <;> omega
  unfold FineLayer.nely
  rw [h4.nhy.flat, Res.ok_bind]
  congr 1
  have : ∀ m a, ((List.range m).map fun i => g (dist n i)).foldl (· + ·) a = a + height (fun i => g (dist n i)) m := by
    intro m
    induction m with
    | zero => intro a; simp [height]
    | succ m ih => intro a; rw [List.range_succ, List.map_append, List.foldl_append, ih, height_succ]; simp; omega
  rw [this, Nat.zero_add]

/-- **C59** the eight boundary sets of a `FineLayer` mesh are exactly the nodes with the respective extreme
coordinate (and, for the open edges, away from the corners), listed in order of the other coordinate, without
duplicates: also where the rows have different numbers of nodes. -/
theorem C59_edges (nelx nely : Nat) (hx : 0 < nelx) (hy : 0 < nely) {h : α} (hh : 0 < h) (nfine : Nat) :
    ∃ M Ny ct x, FineLayer.new nelx nely h nfine = .ok M ∧ M.nely = .ok Ny ∧ M.coor = .ok ct ∧ Is2 ct M.nnode 2 x ∧
      EdgeSets M.nnode (h * (nelx : α)) (h * (Ny : α)) x M.nodesBottomEdge M.nodesTopEdge M.nodesLeftEdge
        M.nodesRightEdge M.nodesBottomOpenEdge M.nodesTopOpenEdge M.nodesLeftOpenEdge M.nodesRightOpenEdge := by
  obtain ⟨M, n, W, G, R, Ny, ct, x, h1, hL, hM, e1, rfl, -, e2, e3, e4, hP, hw⟩ := FineLayer.meshN nelx nely hy h nfine
  have hp := hL.npos
  refine ⟨M, _, ct, x, h1, e1, e2, e3, ?_⟩
  have T := edgeTable hM hp
  have rp := rowPos hL hh hP
  have bd := @boundary_row α nelx n W G R _ _ _ hL h hh x hP
  have lt := @rowS_lt nelx n W R
  rw [← e4] at bd
  rw [← e4] at lt
  have npos : ∀ i, i < 2 * n → 0 < nelx / rowW n W i := fun i hi =>
    Nat.div_pos (Nat.le_of_dvd hx (hL.rowW_dvd hi)) (hL.rowW_pos hi)
  refine ⟨?_, ?_, ?_, ?_, ?_, ?_, ?_, ?_⟩
  · obtain ⟨t, t1, t2⟩ := T.bottom
    refine ⟨t, _, _, t1, t2, fun i j hij hj => rp.xlt 0 i j (by om) (by om) (by om) hij, fun k => ?_⟩
    constructor
    · rintro ⟨a, ha, rfl⟩
      exact ⟨lt (by om) (by om), (rp.y0 0 a (by om) (by om)).2 rfl⟩
    · rintro ⟨hk, h0⟩
      obtain ⟨i, a, hi, ha, rfl⟩ := bd hk (by tauto)
      have := (rp.y0 i a hi ha).1 h0
      subst this
      exact ⟨a, by om, rfl⟩
  · obtain ⟨t, t1, t2⟩ := T.top
    refine ⟨t, _, _, t1, t2, fun i j hij hj => rp.xlt _ i j (by om) (by om) (by om) hij, fun k => ?_⟩
    constructor
    · rintro ⟨a, ha, rfl⟩
      exact ⟨lt (by om) (by om), (rp.y1 _ a (by om) (by om)).2 rfl⟩
    · rintro ⟨hk, h0⟩
      obtain ⟨i, a, hi, ha, rfl⟩ := bd hk (by tauto)
      have := (rp.y1 i a hi ha).1 h0
      subst this
      exact ⟨a, by om, rfl⟩
  · obtain ⟨t, t1, t2⟩ := T.left
    refine ⟨t, _, _, t1, t2, fun i j hij hj => rp.ylt i j 0 0 hij hj (by om) (by om), fun k => ?_⟩
    constructor
    · rintro ⟨i, hi, rfl⟩
      exact ⟨lt (a := 0) hi (by om), (rp.x0 i 0 hi (by om)).2 rfl⟩
    · rintro ⟨hk, h0⟩
      obtain ⟨i, a, hi, ha, rfl⟩ := bd hk (by tauto)
      have := (rp.x0 i a hi ha).1 h0
      subst this
      exact ⟨i, by om, rfl⟩
  · obtain ⟨t, t1, t2⟩ := T.right
    refine ⟨t, _, _, t1, t2, fun i j hij hj => rp.ylt i j _ _ hij hj le_rfl le_rfl, fun k => ?_⟩
    constructor
    · rintro ⟨i, hi, rfl⟩
      exact ⟨lt hi le_rfl, (rp.x1 i _ hi le_rfl).2 rfl⟩
    · rintro ⟨hk, h0⟩
      obtain ⟨i, a, hi, ha, rfl⟩ := bd hk (by tauto)
      have := (rp.x1 i a hi ha).1 h0
      subst this
      exact ⟨i, by om, rfl⟩
  · obtain ⟨t, t1, t2⟩ := T.bottomOpen
    refine ⟨t, _, _, t1, t2, fun i j hij hj => rp.xlt 0 _ _ (by om) (by om) (by om) (by om), fun k => ?_⟩
    constructor
    · rintro ⟨a, ha, rfl⟩
      exact ⟨lt (by om) (by om), (rp.y0 0 _ (by om) (by om)).2 rfl,
        (rp.x0' 0 _ (by om) (by om)).2 (by om), (rp.x1' 0 _ (by om) (by om)).2 (by om)⟩
    · rintro ⟨hk, h0, h1, h2⟩
      obtain ⟨i, a, hi, ha, rfl⟩ := bd hk (by tauto)
      have := (rp.y0 i a hi ha).1 h0
      subst this
      have h3 := (rp.x0' 0 a hi ha).1 h1
      have h4 := (rp.x1' 0 a hi ha).1 h2
      exact ⟨a - 1, by om, by beta_reduce; omega⟩
  · obtain ⟨t, t1, t2⟩ := T.topOpen
    refine ⟨t, _, _, t1, t2, fun i j hij hj => rp.xlt _ _ _ (by om) (by om) (by om) (by om), fun k => ?_⟩
    constructor
    · rintro ⟨a, ha, rfl⟩
      exact ⟨lt (by om) (by om), (rp.y1 _ _ (by om) (by om)).2 rfl,
        (rp.x0' _ _ (by om) (by om)).2 (by om), (rp.x1' _ _ (by om) (by om)).2 (by om)⟩
    · rintro ⟨hk, h0, h1, h2⟩
      obtain ⟨i, a, hi, ha, rfl⟩ := bd hk (by tauto)
      have := (rp.y1 i a hi ha).1 h0
      subst this
      have h3 := (rp.x0' _ a hi ha).1 h1
      have h4 := (rp.x1' _ a hi ha).1 h2
      exact ⟨a - 1, by om, by beta_reduce; omega⟩
  · obtain ⟨t, t1, t2⟩ := T.leftOpen
    refine ⟨t, _, _, t1, t2, fun i j hij hj => rp.ylt _ _ 0 0 (by om) (by om) (by om) (by om), fun k => ?_⟩
    constructor
    · rintro ⟨i, hi, rfl⟩
      exact ⟨lt (i := 1 + i) (a := 0) (by om) (by om), (rp.x0 (1 + i) 0 (by om) (by om)).2 rfl,
        (rp.y0' (1 + i) 0 (by om) (by om)).2 (by om), (rp.y1' (1 + i) 0 (by om) (by om)).2 (by om)⟩
    · rintro ⟨hk, h0, h1, h2⟩
      obtain ⟨i, a, hi, ha, rfl⟩ := bd hk (by tauto)
      have := (rp.x0 i a hi ha).1 h0
      subst this
      have h3 := (rp.y0' i 0 hi ha).1 h1
      have h4 := (rp.y1' i 0 hi ha).1 h2
      exact ⟨i - 1, by om, by beta_reduce; rw [show 1 + (i - 1) = i by om]; rfl⟩
  · obtain ⟨t, t1, t2⟩ := T.rightOpen
    refine ⟨t, _, _, t1, t2, fun i j hij hj => rp.ylt _ _ _ _ (by om) (by om) le_rfl le_rfl, fun k => ?_⟩
    constructor
    · rintro ⟨i, hi, rfl⟩
      exact ⟨lt (i := 1 + i) (by om) le_rfl, (rp.x1 (1 + i) _ (by om) le_rfl).2 rfl,
        (rp.y0' (1 + i) _ (by om) le_rfl).2 (by om), (rp.y1' (1 + i) _ (by om) le_rfl).2 (by om)⟩
    · rintro ⟨hk, h0, h1, h2⟩
      obtain ⟨i, a, hi, ha, rfl⟩ := bd hk (by tauto)
      have := (rp.x1 i a hi ha).1 h0
      subst this
      have h3 := (rp.y0' i _ hi ha).1 h1
      have h4 := (rp.y1' i _ hi ha).1 h2
      exact ⟨i - 1, by om, by beta_reduce; rw [show 1 + (i - 1) = i by om]⟩

/-- **C59** the four corner nodes -/
theorem C59_corners (nelx nely : Nat) (hy : 0 < nely) {h : α} (hh : 0 < h) (nfine : Nat) :
    ∃ M Ny ct x bl br tl tr, FineLayer.new nelx nely h nfine = .ok M ∧ M.nely = .ok Ny ∧ M.coor = .ok ct ∧
      Is2 ct M.nnode 2 x ∧ M.nodesBottomLeftCorner = .ok bl ∧ M.nodesBottomRightCorner = .ok br ∧
      M.nodesTopLeftCorner = .ok tl ∧ M.nodesTopRightCorner = .ok tr ∧
      CornerNodes M.nnode (h * (nelx : α)) (h * (Ny : α)) x bl br tl tr := by
  obtain ⟨M, n, W, G, R, Ny, ct, x, h1, hL, hM, e1, rfl, -, e2, e3, e4, hP, hw⟩ := FineLayer.meshN nelx nely hy h nfine
  have hp := hL.npos
  have T := edgeTable hM hp
  have rp := rowPos hL hh hP
  have lt := @rowS_lt nelx n W R
  rw [← e4] at lt
  refine ⟨M, _, ct, x, _, _, _, _, h1, e1, e2, e3, T.bl, T.br, T.tl, T.tr, ?_, ?_, ?_, ?_⟩
  · exact ⟨lt (a := 0) (by om) (by om), (rp.x0 0 0 (by om) (by om)).2 rfl, (rp.y0 0 0 (by om) (by om)).2 rfl⟩
  · exact ⟨lt (by om) le_rfl, (rp.x1 0 _ (by om) le_rfl).2 rfl, (rp.y0 0 _ (by om) le_rfl).2 rfl⟩
  · exact ⟨lt (a := 0) (by om) (by om), (rp.x0 _ 0 (by om) (by om)).2 rfl, (rp.y1 _ 0 (by om) (by om)).2 rfl⟩
  · exact ⟨lt (by om) le_rfl, (rp.x1 _ _ (by om) le_rfl).2 rfl, (rp.y1 _ _ (by om) le_rfl).2 rfl⟩

/-- the periodic table of a `FineLayer` mesh -/
theorem FineLayer.table (nelx nely : Nat) (hx : 0 < nelx) (hy : 0 < nely) {h : α} (hh : 0 < h) (nfine : Nat) :
    ∃ M Ny ct x bot lft nb nl t P, FineLayer.new nelx nely h nfine = .ok M ∧ M.nely = .ok Ny ∧ M.coor = .ok ct ∧
      Is2 ct M.nnode 2 x ∧ M.ndim = 2 ∧ InRect M.nnode (h * (nelx : α)) (h * (Ny : α)) x ∧
      M.nodesBottomOpenEdge = .ok bot ∧ bot.shape = [nb] ∧ M.nodesLeftOpenEdge = .ok lft ∧ lft.shape = [nl] ∧
      M.nodesPeriodic = .ok t ∧ Is2 t (nb + nl + 3) 2 P ∧
      PeriodicPairs M.nnode (h * (nelx : α)) (h * (Ny : α)) x (nb + nl + 3) P := by
  obtain ⟨M, n, W, G, R, Ny, ct, x, h1, hL, hM, e1, hNy, hNy0, e2, e3, e4, hP, hw⟩ := FineLayer.meshN nelx nely hy h nfine
  have hp := hL.npos
  have T := edgeTable hM hp
  have rp := rowPos hL hh hP
  have lt := @rowS_lt nelx n W R
  have bd := @boundary_row α nelx n W G R _ _ _ hL h hh x hP
  rw [← e4, ← hNy] at bd
  rw [← e4] at lt
  have npos : ∀ i, i < 2 * n → 0 < nelx / rowW n W i := fun i hi =>
    Nat.div_pos (Nat.le_of_dvd hx (hL.rowW_dvd hi)) (hL.rowW_pos hi)
  obtain ⟨t1, a1, b1⟩ := T.bottomOpen
  obtain ⟨t2, a2, b2⟩ := T.topOpen
  obtain ⟨t3, a3, b3⟩ := T.leftOpen
  obtain ⟨t4, a4, b4⟩ := T.rightOpen
  rw [hw] at b2
  have mono : ∀ a b : Nat, a ≤ b → h * ((a : Nat) : α) ≤ h * ((b : Nat) : α) := fun a b hab =>
    mul_le_mul_of_nonneg_left (Nat.cast_le.2 hab) hh.le
  have hR : InRect M.nnode (h * (nelx : α)) (h * (Ny : α)) x := by
    refine ⟨mul_pos hh (Nat.cast_pos.2 hx), mul_pos hh (Nat.cast_pos.2 hNy0), fun m hm => ?_, fun m m' hm hm' => ?_⟩
    · rw [e4] at hm
      have z : (0 : α) = h * ((0 : Nat) : α) := by simp
      rcases node_cases hL hP hm with ⟨i, a, hi, ha, rfl⟩ | ⟨X, Y, p0, p1, q1, q2, q3, q4⟩
      · obtain ⟨p0, p1⟩ := hP.row hi ha
        rw [p0, p1, z, hNy]
        refine ⟨mono _ _ (by om), mono _ _ ?_, mono _ _ (by om), mono _ _ (height_mono (by om))⟩
        calc a * rowW n W i ≤ nelx / rowW n W i * rowW n W i := Nat.mul_le_mul_right _ ha
          _ = nelx := Nat.div_mul_cancel (hL.rowW_dvd hi)
      · rw [p0, p1, z, hNy]
        exact ⟨mono _ _ (by om), mono _ _ (by om), mono _ _ (by om), mono _ _ (by om)⟩
    · rw [e4] at hm hm'
      exact node_inj hL hh.ne' hP hm hm'
  have hC : CornerNodes M.nnode (h * (nelx : α)) (h * (Ny : α)) x (rowS nelx n W R 0) (rowS nelx n W R 0 + nelx / rowW n W 0)
      (rowS nelx n W R (2 * n - 1)) (rowS nelx n W R (2 * n - 1) + nelx / rowW n W (2 * n - 1)) := by
    rw [hNy]
    refine ⟨?_, ?_, ?_, ?_⟩
    · exact ⟨lt (a := 0) (by om) (by om), (rp.x0 0 0 (by om) (by om)).2 rfl, (rp.y0 0 0 (by om) (by om)).2 rfl⟩
    · exact ⟨lt (by om) le_rfl, (rp.x1 0 _ (by om) le_rfl).2 rfl, (rp.y0 0 _ (by om) le_rfl).2 rfl⟩
    · exact ⟨lt (a := 0) (by om) (by om), (rp.x0 _ 0 (by om) (by om)).2 rfl, (rp.y1 _ 0 (by om) (by om)).2 rfl⟩
    · exact ⟨lt (by om) le_rfl, (rp.x1 _ _ (by om) le_rfl).2 rfl, (rp.y1 _ _ (by om) le_rfl).2 rfl⟩
  have hO : Opposite M.nnode (h * (nelx : α)) (h * (Ny : α)) x (nelx / rowW n W 0 - 1) (2 * n - 2)
      (fun a => rowS nelx n W R 0 + (1 + a)) (fun a => rowS nelx n W R (2 * n - 1) + (1 + a))
      (fun i => rowS nelx n W R (1 + i)) (fun i => rowS nelx n W R (1 + i) + nelx / rowW n W (1 + i)) := by
    refine ⟨?_, ?_, ?_, ?_, ?_, ?_, ?_, ?_⟩
    · intro a ha
      exact ⟨lt (by om) (by om), (rp.y0 0 _ (by om) (by om)).2 rfl,
        (rp.x0' 0 _ (by om) (by om)).2 (by om), (rp.x1' 0 _ (by om) (by om)).2 (by om)⟩
    · intro a ha
      refine ⟨lt (by om) (by rw [hw]; omega), ?_, ?_⟩
      · rw [hNy]; exact (rp.y1 _ _ (by om) (by rw [hw]; omega)).2 rfl
      · beta_reduce
        rw [(hP.row (by om) (show 1 + a ≤ nelx / rowW n W (2 * n - 1) by rw [hw]; omega)).1,
          (hP.row (by om) (show 1 + a ≤ nelx / rowW n W 0 by om)).1, hw]
    · intro i hi
      rw [hNy]
      exact ⟨lt (i := 1 + i) (a := 0) (by om) (by om), (rp.x0 (1 + i) 0 (by om) (by om)).2 rfl,
        (rp.y0' (1 + i) 0 (by om) (by om)).2 (by om), (rp.y1' (1 + i) 0 (by om) (by om)).2 (by om)⟩
    · intro i hi
      refine ⟨lt (i := 1 + i) (by om) le_rfl, (rp.x1 (1 + i) _ (by om) le_rfl).2 rfl, ?_⟩
      beta_reduce
      rw [(hP.row (i := 1 + i) (by om) le_rfl).2]
      exact (hP.row (i := 1 + i) (a := 0) (by om) (by om)).2.symm
    · intro m hm h0 h1 h2
      obtain ⟨i, a, hi, ha, rfl⟩ := bd hm (by tauto)
      rw [hNy] at h0
      have := (rp.y1 i a hi ha).1 h0
      subst this
      have h3 := (rp.x0' _ a hi ha).1 h1
      have h4 := (rp.x1' _ a hi ha).1 h2
      rw [hw] at h4
      exact ⟨a - 1, by om, by beta_reduce; omega⟩
    · intro m hm h0 h1 h2
      obtain ⟨i, a, hi, ha, rfl⟩ := bd hm (by tauto)
      have := (rp.x1 i a hi ha).1 h0
      subst this
      have h3 := (rp.y0' i _ hi ha).1 h1
      rw [hNy] at h2
      have h4 := (rp.y1' i _ hi ha).1 h2
      exact ⟨i - 1, by om, by beta_reduce; rw [show 1 + (i - 1) = i by om]⟩
    · intro i j _ _ e
      beta_reduce at e; omega
    · intro i j hi hj e
      beta_reduce at e
      rcases Nat.lt_trichotomy i j with h5 | h5 | h5
      · have := rp.ylt (1 + i) (1 + j) _ _ (by om) (by om) le_rfl le_rfl
        rw [e] at this
        exact absurd this (lt_irrefl _)
      · exact h5
      · have := rp.ylt (1 + j) (1 + i) _ _ (by om) (by om) le_rfl le_rfl
        rw [e] at this
        exact absurd this (lt_irrefl _)
  obtain ⟨t, c1, c2⟩ := nodesPeriodic2d_spec (E := Edges2d.mk M.nodesBottomOpenEdge M.nodesTopOpenEdge
      M.nodesLeftOpenEdge M.nodesRightOpenEdge (rowS nelx n W R 0) (rowS nelx n W R 0 + nelx / rowW n W 0)
      (rowS nelx n W R (2 * n - 1)) (rowS nelx n W R (2 * n - 1) + nelx / rowW n W (2 * n - 1)))
    a1 a2 a3 a4 b1 b2 b3 b4
  refine ⟨M, Ny, ct, x, t1, t3, _, _, t, _, h1, e1, e2, e3, hM.ndim, hR, a1, b1.1, a3, b3.1, ?_, c2, perTable_pairs hR hC hO⟩
  unfold FineLayer.nodesPeriodic
  rw [T.bl, Res.ok_bind, T.br, Res.ok_bind, T.tl, Res.ok_bind, T.tr, Res.ok_bind]
  exact c1

/-- **C60** `nodesPeriodic()`: the pairs (independent, dependent) consist of valid nodes, the dependent node is the
independent one shifted by the dimensions of the mesh; the dependent nodes are exactly the nodes of the right and
top edges, each listed once; no independent node is dependent. -/
theorem C60_nodesPeriodic (nelx nely : Nat) (hx : 0 < nelx) (hy : 0 < nely) {h : α} (hh : 0 < h) (nfine : Nat) :
    ∃ M Ny ct x t k P, FineLayer.new nelx nely h nfine = .ok M ∧ M.nely = .ok Ny ∧ M.coor = .ok ct ∧
      Is2 ct M.nnode 2 x ∧ M.nodesPeriodic = .ok t ∧ Is2 t k 2 P ∧
      PeriodicPairs M.nnode (h * (nelx : α)) (h * (Ny : α)) x k P := by
  obtain ⟨M, Ny, ct, x, bot, lft, nb, nl, t, P, h1, h2, h3, h4, -, -, -, -, -, -, h5, h6, h7⟩ :=
    FineLayer.table nelx nely hx hy hh nfine
  exact ⟨M, Ny, ct, x, t, _, P, h1, h2, h3, h4, h5, h6, h7⟩

/-- **C60** `dofsPeriodic()`: two DOFs coincide exactly when they are the same component of nodes whose positions
differ by a lattice vector of the periodic cell; the DOF numbers are contiguous: one per component per node that
is not dependent. -/
theorem C60_dofsPeriodic (nelx nely : Nat) (hx : 0 < nelx) (hy : 0 < nely) {h : α} (hh : 0 < h) (nfine : Nat) :
    ∃ M Ny ct x t k P y d, FineLayer.new nelx nely h nfine = .ok M ∧ M.nely = .ok Ny ∧ M.coor = .ok ct ∧
      Is2 ct M.nnode 2 x ∧ M.nodesPeriodic = .ok t ∧ Is2 t k 2 P ∧
      M.dofsPeriodic = .ok y ∧ Is2 y M.nnode 2 d ∧
      (∀ m i m' i', m < M.nnode → i < 2 → m' < M.nnode → i' < 2 →
        (d m i = d m' i' ↔ LatticeEq2 (h * (nelx : α)) (h * (Ny : α)) (x m) (x m') ∧ i = i')) ∧
      (∀ v, (∃ m i, m < M.nnode ∧ i < 2 ∧ d m i = v) ↔ v < (M.nnode - k) * 2) := by
  obtain ⟨M, Ny, ct, x, bot, lft, nb, nl, t, P, h1, h2, h3, h4, hd, hR, -, -, -, -, h5, h6, h7⟩ :=
    FineLayer.table nelx nely hx hy hh nfine
  obtain ⟨y, d, y1, y2, y3, y4⟩ := periodic_dofs h6 hR h7
  refine ⟨M, Ny, ct, x, t, _, P, y, d, h1, h2, h3, h4, h5, h6, ?_, y2, y3, y4⟩
  unfold FineLayer.dofsPeriodic
  rw [h5, Res.ok_bind, hd]
  exact y1

/-- non-vacuity: the periodic pairs of a mesh with a transition layer on either side -/
example : ((FineLayer.new 9 13 (1 : Nat) 1).bind fun M => M.nodesPeriodic.bind fun t =>
      .ok (M.nnode, t.shape, (List.range 13).map (fun i => t.v [i, 0]), (List.range 13).map (fun i => t.v [i, 1]))) =
    .ok (88, [13, 2], [0, 0, 0, 1, 2, 4, 14, 24, 34, 44, 54, 64, 80].map some,
      [3, 87, 84, 85, 86, 7, 23, 33, 43, 53, 63, 73, 83].map some) := by
  decide +kernel

end GF
