import Verif.Model.FineLayer3Sets
import Verif.Lemmas.FineLayer3NodeSets

/-! **C70**, **C71** node sets and periodicity of `Mesh::Hex8::FineLayer`. -/

namespace GF
open FineLayerSpec Finset FineLayer
variable {α : Type} [Field α] [LinearOrder α] [IsStrictOrderedRing α]

theorem FineLayer3.setsMesh (nelx nely nelz : Nat) (hy : 0 < nely) (h : α) (nfine : Nat) :
    ∃ M n WX WZ G R ct x, FineLayer3.new nelx nely nelz h nfine = .ok M ∧
      M.nely = .ok (height G (2 * n - 1)) ∧ M.coor = .ok ct ∧ Is2 ct M.nnode 3 x ∧
      M.nhy.v [0] = some (G 0) ∧ M.refine.v [0] = some (R 0) ∧ M.ndim = 3 ∧
      IsFine3 M nelx nelz n WX WZ G R ∧ Layers3 nelx nelz n WX WZ G R ∧
      (WX 0 = WX (2 * n - 2) ∧ WZ 0 = WZ (2 * n - 2)) ∧ G 0 = G (2 * n - 2) ∧ R 0 = R (2 * n - 2) ∧
      M.nnode = height (blkC nelx nelz n WX WZ R) (2 * n) ∧ Placed3 h nelx nelz n WX WZ G R x := by
  obtain ⟨M, n, wx, wz, g, r, ct, x, t, c, h1, h2, h3, h4, e1, e2, e3, e4, e5, e6, -, -⟩ :=
    FineLayer3.mesh nelx nely nelz hy h nfine
  have hL := FineLayer3.layers_of_half h3
  have hp := hL.npos
  have hd : dist n 0 = dist n (2 * n - 2) := by
    unfold dist
    rw [if_pos hp]
    split <;> omega
  refine ⟨M, n, _, _, _, _, ct, x, h1, ?_, e1, e2, h4.nhy.2 0 (by omega), h4.refine.2 0 (by omega), h4.ndim, h4, hL, ?_, ?_, ?_, e5, e6⟩
  · unfold FineLayer3.nely
    rw [h4.nhy.flat, Res.ok_bind, foldl_height, Nat.zero_add]
  · rw [hd]; exact ⟨rfl, rfl⟩
  · rw [hd]
  · rw [hd]

/-- **C70** Front/back: `z = 0`, `z = Lz`; left/right: `x = 0`, `x = Lx`; bottom/top: `y = 0`, `y = Ly`. Each set is exactly
the set of nodes on that side of the box, each node listed once, ordered by `y`, then `x`, then `z`. -/
theorem C70_sides (nelx nely nelz : Nat) (hy : 0 < nely) {h : α} (hh : 0 < h) (nfine : Nat) :
    ∃ M Ny ct x, FineLayer3.new nelx nely nelz h nfine = .ok M ∧ M.nely = .ok Ny ∧ M.coor = .ok ct ∧ Is2 ct M.nnode 3 x ∧
      let S := fun (f : FineLayer3 α → Res (Ten Nat)) (lx ly lz : Loc) =>
        NodeSet (f M) (At3 M.nnode (h * (nelx : α)) (h * (Ny : α)) (h * (nelz : α)) x lx ly lz) (BeforeYXZ x)
      S FineLayer3.nodesFront .all .all .lo ∧
      S FineLayer3.nodesBack .all .all .hi ∧
      S FineLayer3.nodesLeft .lo .all .all ∧
      S FineLayer3.nodesRight .hi .all .all ∧
      S FineLayer3.nodesBottom .all .lo .all ∧
      S FineLayer3.nodesTop .all .hi .all := by
  obtain ⟨M, n, WX, WZ, G, R, ct, x, h1, h2, h3, h4, hv, hr, hd, hM, hL, hs, hG, hR, hnn, hP⟩ :=
    FineLayer3.setsMesh nelx nely nelz hy h nfine
  have hn := hL.npos
  refine ⟨M, _, ct, x, h1, h2, h3, h4, ?_, ?_, ?_, ?_, ?_, ?_⟩
  · exact FineLayer3.setL_nodeSet' hL hG hR hh hP hnn (by simp) (FineLayer3.nodesFront_spec hM hL)
  · exact FineLayer3.setL_nodeSet' hL hG hR hh hP hnn (by simp) (FineLayer3.nodesBack_spec hM hL)
  · exact FineLayer3.setL_nodeSet' hL hG hR hh hP hnn (by simp) (FineLayer3.nodesLeft_spec hM hL)
  · exact FineLayer3.setL_nodeSet' hL hG hR hh hP hnn (by simp) (FineLayer3.nodesRight_spec hM hL)
  · exact FineLayer3.setL_nodeSet' hL hG hR hh hP hnn (by simp) (FineLayer3.nodesBottom_spec hM hL hs)
  · exact FineLayer3.setL_nodeSet' hL hG hR hh hP hnn (by simp) (FineLayer3.nodesTop_spec hM hL)

/-- **C70** The bottom and the top without their edges. -/
theorem C70_bottom_top_faces (nelx nely nelz : Nat) (hx : 0 < nelx) (hy : 0 < nely) (hz : 0 < nelz) {h : α} (hh : 0 < h) (nfine : Nat) :
    ∃ M Ny ct x, FineLayer3.new nelx nely nelz h nfine = .ok M ∧ M.nely = .ok Ny ∧ M.coor = .ok ct ∧ Is2 ct M.nnode 3 x ∧
      let S := fun (f : FineLayer3 α → Res (Ten Nat)) (lx ly lz : Loc) =>
        NodeSet (f M) (At3 M.nnode (h * (nelx : α)) (h * (Ny : α)) (h * (nelz : α)) x lx ly lz) (BeforeYXZ x)
      S FineLayer3.nodesBottomFace .mid .lo .mid ∧
      S FineLayer3.nodesTopFace .mid .hi .mid := by
  obtain ⟨M, n, WX, WZ, G, R, ct, x, h1, h2, h3, h4, hv, hr, hd, hM, hL, hs, hG, hR, hnn, hP⟩ :=
    FineLayer3.setsMesh nelx nely nelz hy h nfine
  have hn := hL.npos
  have h0 : ∀ i, i < 2 * n - 1 → 0 < nelx / WX i := fun i hi =>
    Nat.div_pos (Nat.le_of_dvd hx (hL.fits i hi).1) (hL.wpos i hi).1
  have g0 : ∀ i, i < 2 * n - 1 → 0 < nelz / WZ i := fun i hi =>
    Nat.div_pos (Nat.le_of_dvd hz (hL.fits i hi).2) (hL.wpos i hi).2
  refine ⟨M, _, ct, x, h1, h2, h3, h4, ?_, ?_⟩
  · exact FineLayer3.setL_nodeSet' hL hG hR hh hP hnn (by simp) (FineLayer3.nodesBottomFace_spec hM hL (h0 _ (by omega)) (g0 _ (by omega)))
  · exact FineLayer3.setL_nodeSet' hL hG hR hh hP hnn (by simp) (FineLayer3.nodesTopFace_spec hM hL (h0 _ (by omega)) (g0 _ (by omega)))

/-- **C70** Each edge set is exactly the set of nodes on that edge of the box. -/
theorem C70_edges (nelx nely nelz : Nat) (hy : 0 < nely) {h : α} (hh : 0 < h) (nfine : Nat) :
    ∃ M Ny ct x, FineLayer3.new nelx nely nelz h nfine = .ok M ∧ M.nely = .ok Ny ∧ M.coor = .ok ct ∧ Is2 ct M.nnode 3 x ∧
      let S := fun (f : FineLayer3 α → Res (Ten Nat)) (lx ly lz : Loc) =>
        NodeSet (f M) (At3 M.nnode (h * (nelx : α)) (h * (Ny : α)) (h * (nelz : α)) x lx ly lz) (BeforeYXZ x)
      S FineLayer3.nodesFrontBottomEdge .all .lo .lo ∧
      S FineLayer3.nodesFrontTopEdge .all .hi .lo ∧
      S FineLayer3.nodesFrontLeftEdge .lo .all .lo ∧
      S FineLayer3.nodesFrontRightEdge .hi .all .lo ∧
      S FineLayer3.nodesBackBottomEdge .all .lo .hi ∧
      S FineLayer3.nodesBackTopEdge .all .hi .hi ∧
      S FineLayer3.nodesBackLeftEdge .lo .all .hi ∧
      S FineLayer3.nodesBackRightEdge .hi .all .hi ∧
      S FineLayer3.nodesBottomLeftEdge .lo .lo .all ∧
      S FineLayer3.nodesBottomRightEdge .hi .lo .all ∧
      S FineLayer3.nodesTopLeftEdge .lo .hi .all ∧
      S FineLayer3.nodesTopRightEdge .hi .hi .all := by
  obtain ⟨M, n, WX, WZ, G, R, ct, x, h1, h2, h3, h4, hv, hr, hd, hM, hL, hs, hG, hR, hnn, hP⟩ :=
    FineLayer3.setsMesh nelx nely nelz hy h nfine
  have hn := hL.npos
  refine ⟨M, _, ct, x, h1, h2, h3, h4, ?_, ?_, ?_, ?_, ?_, ?_, ?_, ?_, ?_, ?_, ?_, ?_⟩
  · exact FineLayer3.setL_nodeSet' hL hG hR hh hP hnn (by simp) (FineLayer3.nodesFrontBottomEdge_spec hM hL)
  · exact FineLayer3.setL_nodeSet' hL hG hR hh hP hnn (by simp) (FineLayer3.nodesFrontTopEdge_spec hM hL)
  · exact FineLayer3.setL_nodeSet' hL hG hR hh hP hnn (by simp) (FineLayer3.nodesFrontLeftEdge_spec hM hL)
  · exact FineLayer3.setL_nodeSet' hL hG hR hh hP hnn (by simp) (FineLayer3.nodesFrontRightEdge_spec hM hL)
  · exact FineLayer3.setL_nodeSet' hL hG hR hh hP hnn (by simp) (FineLayer3.nodesBackBottomEdge_spec hM hL)
  · exact FineLayer3.setL_nodeSet' hL hG hR hh hP hnn (by simp) (FineLayer3.nodesBackTopEdge_spec hM hL)
  · exact FineLayer3.setL_nodeSet' hL hG hR hh hP hnn (by simp) (FineLayer3.nodesBackLeftEdge_spec hM hL)
  · exact FineLayer3.setL_nodeSet' hL hG hR hh hP hnn (by simp) (FineLayer3.nodesBackRightEdge_spec hM hL)
  · exact FineLayer3.setL_nodeSet' hL hG hR hh hP hnn (by simp) (FineLayer3.nodesBottomLeftEdge_spec hM hL)
  · exact FineLayer3.setL_nodeSet' hL hG hR hh hP hnn (by simp) (FineLayer3.nodesBottomRightEdge_spec hM hL)
  · exact FineLayer3.setL_nodeSet' hL hG hR hh hP hnn (by simp) (FineLayer3.nodesTopLeftEdge_spec hM hL)
  · exact FineLayer3.setL_nodeSet' hL hG hR hh hP hnn (by simp) (FineLayer3.nodesTopRightEdge_spec hM hL)

/-- **C70** The same without the corners. -/
theorem C70_open_edges (nelx nely nelz : Nat) (hx : 0 < nelx) (hy : 0 < nely) (hz : 0 < nelz) {h : α} (hh : 0 < h) (nfine : Nat) :
    ∃ M Ny ct x, FineLayer3.new nelx nely nelz h nfine = .ok M ∧ M.nely = .ok Ny ∧ M.coor = .ok ct ∧ Is2 ct M.nnode 3 x ∧
      let S := fun (f : FineLayer3 α → Res (Ten Nat)) (lx ly lz : Loc) =>
        NodeSet (f M) (At3 M.nnode (h * (nelx : α)) (h * (Ny : α)) (h * (nelz : α)) x lx ly lz) (BeforeYXZ x)
      S FineLayer3.nodesFrontBottomOpenEdge .mid .lo .lo ∧
      S FineLayer3.nodesFrontTopOpenEdge .mid .hi .lo ∧
      S FineLayer3.nodesFrontLeftOpenEdge .lo .mid .lo ∧
      S FineLayer3.nodesFrontRightOpenEdge .hi .mid .lo ∧
      S FineLayer3.nodesBackBottomOpenEdge .mid .lo .hi ∧
      S FineLayer3.nodesBackTopOpenEdge .mid .hi .hi ∧
      S FineLayer3.nodesBackLeftOpenEdge .lo .mid .hi ∧
      S FineLayer3.nodesBackRightOpenEdge .hi .mid .hi ∧
      S FineLayer3.nodesBottomLeftOpenEdge .lo .lo .mid ∧
      S FineLayer3.nodesBottomRightOpenEdge .hi .lo .mid ∧
      S FineLayer3.nodesTopLeftOpenEdge .lo .hi .mid ∧
      S FineLayer3.nodesTopRightOpenEdge .hi .hi .mid := by
  obtain ⟨M, n, WX, WZ, G, R, ct, x, h1, h2, h3, h4, hv, hr, hd, hM, hL, hs, hG, hR, hnn, hP⟩ :=
    FineLayer3.setsMesh nelx nely nelz hy h nfine
  have hn := hL.npos
  have h0 : ∀ i, i < 2 * n - 1 → 0 < nelx / WX i := fun i hi =>
    Nat.div_pos (Nat.le_of_dvd hx (hL.fits i hi).1) (hL.wpos i hi).1
  have g0 : ∀ i, i < 2 * n - 1 → 0 < nelz / WZ i := fun i hi =>
    Nat.div_pos (Nat.le_of_dvd hz (hL.fits i hi).2) (hL.wpos i hi).2
  refine ⟨M, _, ct, x, h1, h2, h3, h4, ?_, ?_, ?_, ?_, ?_, ?_, ?_, ?_, ?_, ?_, ?_, ?_⟩
  · exact FineLayer3.setL_nodeSet' hL hG hR hh hP hnn (by simp) (FineLayer3.nodesFrontBottomOpenEdge_spec hM hL (h0 _ (by omega)))
  · exact FineLayer3.setL_nodeSet' hL hG hR hh hP hnn (by simp) (FineLayer3.nodesFrontTopOpenEdge_spec hM hL (h0 _ (by omega)))
  · exact FineLayer3.setL_nodeSet' hL hG hR hh hP hnn (by simp) (FineLayer3.nodesFrontLeftOpenEdge_spec hM hL)
  · exact FineLayer3.setL_nodeSet' hL hG hR hh hP hnn (by simp) (FineLayer3.nodesFrontRightOpenEdge_spec hM hL)
  · exact FineLayer3.setL_nodeSet' hL hG hR hh hP hnn (by simp) (FineLayer3.nodesBackBottomOpenEdge_spec hM hL (h0 _ (by omega)))
  · exact FineLayer3.setL_nodeSet' hL hG hR hh hP hnn (by simp) (FineLayer3.nodesBackTopOpenEdge_spec hM hL (h0 _ (by omega)))
  · exact FineLayer3.setL_nodeSet' hL hG hR hh hP hnn (by simp) (FineLayer3.nodesBackLeftOpenEdge_spec hM hL)
  · exact FineLayer3.setL_nodeSet' hL hG hR hh hP hnn (by simp) (FineLayer3.nodesBackRightOpenEdge_spec hM hL)
  · exact FineLayer3.setL_nodeSet' hL hG hR hh hP hnn (by simp) (FineLayer3.nodesBottomLeftOpenEdge_spec hM hL (g0 _ (by omega)))
  · exact FineLayer3.setL_nodeSet' hL hG hR hh hP hnn (by simp) (FineLayer3.nodesBottomRightOpenEdge_spec hM hL (g0 _ (by omega)))
  · exact FineLayer3.setL_nodeSet' hL hG hR hh hP hnn (by simp) (FineLayer3.nodesTopLeftOpenEdge_spec hM hL (g0 _ (by omega)))
  · exact FineLayer3.setL_nodeSet' hL hG hR hh hP hnn (by simp) (FineLayer3.nodesTopRightOpenEdge_spec hM hL (g0 _ (by omega)))

/-- **C70** Each corner is the unique node in that corner of the box. -/
theorem C70_corners (nelx nely nelz : Nat) (hy : 0 < nely) {h : α} (hh : 0 < h) (nfine : Nat) :
    ∃ M Ny ct x, FineLayer3.new nelx nely nelz h nfine = .ok M ∧ M.nely = .ok Ny ∧ M.coor = .ok ct ∧ Is2 ct M.nnode 3 x ∧
      let S := fun (f : FineLayer3 α → Res Nat) (lx ly lz : Loc) =>
        ∃ c, f M = .ok c ∧ ∀ k, At3 M.nnode (h * (nelx : α)) (h * (Ny : α)) (h * (nelz : α)) x lx ly lz k ↔ k = c
      S FineLayer3.nodesFrontBottomLeftCorner .lo .lo .lo ∧
      S FineLayer3.nodesFrontBottomRightCorner .hi .lo .lo ∧
      S FineLayer3.nodesFrontTopLeftCorner .lo .hi .lo ∧
      S FineLayer3.nodesFrontTopRightCorner .hi .hi .lo ∧
      S FineLayer3.nodesBackBottomLeftCorner .lo .lo .hi ∧
      S FineLayer3.nodesBackBottomRightCorner .hi .lo .hi ∧
      S FineLayer3.nodesBackTopLeftCorner .lo .hi .hi ∧
      S FineLayer3.nodesBackTopRightCorner .hi .hi .hi := by
  obtain ⟨M, n, WX, WZ, G, R, ct, x, h1, h2, h3, h4, hv, hr, hd, hM, hL, hs, hG, hR, hnn, hP⟩ :=
    FineLayer3.setsMesh nelx nely nelz hy h nfine
  have hn := hL.npos
  refine ⟨M, _, ct, x, h1, h2, h3, h4, ?_, ?_, ?_, ?_, ?_, ?_, ?_, ?_⟩
  · exact FineLayer3.setL_corner hL hh hP hnn (by simp) (FineLayer3.nodesFrontBottomLeftCorner_spec hM hL)
  · exact FineLayer3.setL_corner hL hh hP hnn (by simp) (FineLayer3.nodesFrontBottomRightCorner_spec hM hL)
  · exact FineLayer3.setL_corner hL hh hP hnn (by simp) (FineLayer3.nodesFrontTopLeftCorner_spec hM hL)
  · exact FineLayer3.setL_corner hL hh hP hnn (by simp) (FineLayer3.nodesFrontTopRightCorner_spec hM hL)
  · exact FineLayer3.setL_corner hL hh hP hnn (by simp) (FineLayer3.nodesBackBottomLeftCorner_spec hM hL)
  · exact FineLayer3.setL_corner hL hh hP hnn (by simp) (FineLayer3.nodesBackBottomRightCorner_spec hM hL)
  · exact FineLayer3.setL_corner hL hh hP hnn (by simp) (FineLayer3.nodesBackTopLeftCorner_spec hM hL)
  · exact FineLayer3.setL_corner hL hh hP hnn (by simp) (FineLayer3.nodesBackTopRightCorner_spec hM hL)

/-- **C70** The open side faces: the nodes of the side that are not on its edges, except those strictly inside the lowest
or the highest layer of elements (of height `b0`), which are not listed. -/
theorem C70_side_faces (nelx nely nelz : Nat) (hx : 0 < nelx) (hy : 0 < nely) (hz : 0 < nelz) {h : α} (hh : 0 < h) (nfine : Nat) :
    ∃ M Ny b0 ct x, FineLayer3.new nelx nely nelz h nfine = .ok M ∧ M.nely = .ok Ny ∧ M.nhy.v [0] = some b0 ∧
      M.coor = .ok ct ∧ Is2 ct M.nnode 3 x ∧
      let S := fun (f : FineLayer3 α → Res (Ten Nat)) (lx ly lz : Loc) =>
        NodeSet (f M) (fun k => At3 M.nnode (h * (nelx : α)) (h * (Ny : α)) (h * (nelz : α)) x lx ly lz k ∧
          ¬ OuterLayer (h * (Ny : α)) (h * (b0 : α)) (x k 1)) (BeforeYXZ x)
      S FineLayer3.nodesFrontFace .mid .mid .lo ∧
      S FineLayer3.nodesBackFace .mid .mid .hi ∧
      S FineLayer3.nodesLeftFace .lo .mid .mid ∧
      S FineLayer3.nodesRightFace .hi .mid .mid := by
  obtain ⟨M, n, WX, WZ, G, R, ct, x, h1, h2, h3, h4, hv, hr, hd, hM, hL, hs, hG, hR, hnn, hP⟩ :=
    FineLayer3.setsMesh nelx nely nelz hy h nfine
  have hn := hL.npos
  have h0 : ∀ i, i < 2 * n - 1 → 0 < nelx / WX i := fun i hi =>
    Nat.div_pos (Nat.le_of_dvd hx (hL.fits i hi).1) (hL.wpos i hi).1
  have g0 : ∀ i, i < 2 * n - 1 → 0 < nelz / WZ i := fun i hi =>
    Nat.div_pos (Nat.le_of_dvd hz (hL.fits i hi).2) (hL.wpos i hi).2
  have key : ∀ {f : FineLayer3 α → Res (Ten Nat)} {lx lz : Loc},
      (∃ t, f M = .ok t ∧ FineLayer3.IsL t (FineLayer3.setL nelx nelz n WX WZ R lx .mid lz)) →
      NodeSet (f M) (fun k => At3 M.nnode (h * (nelx : α)) (h * ((height G (2 * n - 1) : Nat) : α)) (h * (nelz : α)) x lx .mid lz k ∧
          ¬ OuterLayer (h * ((height G (2 * n - 1) : Nat) : α)) (h * (G 0 : α)) (x k 1)) (BeforeYXZ x) := fun hf =>
    FineLayer3.NodeSet.congr (FineLayer3.setL_nodeSet hL hG hh hP hnn hf) fun k => by simp
  exact ⟨M, _, _, ct, x, h1, h2, hv, h3, h4, key (FineLayer3.nodesFrontFace_spec hM hL h0), key (FineLayer3.nodesBackFace_spec hM hL h0), key (FineLayer3.nodesLeftFace_spec hM hL g0), key (FineLayer3.nodesRightFace_spec hM hL g0)⟩

/-- **C70** The open side faces are complete if the outermost layers are not transition layers in that direction (type `0`
for the front and the back, type `2` for the left and the right). -/
theorem C70_side_faces_complete (nelx nely nelz : Nat) (hx : 0 < nelx) (hy : 0 < nely) (hz : 0 < nelz) {h : α} (hh : 0 < h) (nfine : Nat) :
    ∃ M Ny r0 ct x, FineLayer3.new nelx nely nelz h nfine = .ok M ∧ M.nely = .ok Ny ∧ M.refine.v [0] = some r0 ∧
      M.coor = .ok ct ∧ Is2 ct M.nnode 3 x ∧
      let S := fun (f : FineLayer3 α → Res (Ten Nat)) (lx ly lz : Loc) =>
        NodeSet (f M) (At3 M.nnode (h * (nelx : α)) (h * (Ny : α)) (h * (nelz : α)) x lx ly lz) (BeforeYXZ x)
      (r0 ≠ 0 → S FineLayer3.nodesFrontFace .mid .mid .lo ∧ S FineLayer3.nodesBackFace .mid .mid .hi) ∧
      (r0 ≠ 2 → S FineLayer3.nodesLeftFace .lo .mid .mid ∧ S FineLayer3.nodesRightFace .hi .mid .mid) := by
  obtain ⟨M, n, WX, WZ, G, R, ct, x, h1, h2, h3, h4, hv, hr, hd, hM, hL, hs, hG, hR, hnn, hP⟩ :=
    FineLayer3.setsMesh nelx nely nelz hy h nfine
  have hn := hL.npos
  have h0 : ∀ i, i < 2 * n - 1 → 0 < nelx / WX i := fun i hi =>
    Nat.div_pos (Nat.le_of_dvd hx (hL.fits i hi).1) (hL.wpos i hi).1
  have g0 : ∀ i, i < 2 * n - 1 → 0 < nelz / WZ i := fun i hi =>
    Nat.div_pos (Nat.le_of_dvd hz (hL.fits i hi).2) (hL.wpos i hi).2
  refine ⟨M, _, _, ct, x, h1, h2, hr, h3, h4, fun hr0 => ⟨?_, ?_⟩, fun hr0 => ⟨?_, ?_⟩⟩
  · exact FineLayer3.setL_nodeSet' hL hG hR hh hP hnn (by simp [hr0]) (FineLayer3.nodesFrontFace_spec hM hL h0)
  · exact FineLayer3.setL_nodeSet' hL hG hR hh hP hnn (by simp [hr0]) (FineLayer3.nodesBackFace_spec hM hL h0)
  · exact FineLayer3.setL_nodeSet' hL hG hR hh hP hnn (by simp [hr0]) (FineLayer3.nodesLeftFace_spec hM hL g0)
  · exact FineLayer3.setL_nodeSet' hL hG hR hh hP hnn (by simp [hr0]) (FineLayer3.nodesRightFace_spec hM hL g0)

open FineLayer3 in
/-- **C70** ... and otherwise they are not: there is a node on the side, on none of its edges, that is not listed. -/
theorem C70_side_faces_incomplete (nelx nely nelz : Nat) (hx : 0 < nelx) (hy : 0 < nely) (hz : 0 < nelz) {h : α} (hh : 0 < h) (nfine : Nat) :
    ∃ M Ny r0 ct x, FineLayer3.new nelx nely nelz h nfine = .ok M ∧ M.nely = .ok Ny ∧ M.refine.v [0] = some r0 ∧
      M.coor = .ok ct ∧ Is2 ct M.nnode 3 x ∧
      let S := fun (f : FineLayer3 α → Res (Ten Nat)) (lx ly lz : Loc) => ∃ t l F k, f M = .ok t ∧ Is1 t l F ∧
        At3 M.nnode (h * (nelx : α)) (h * (Ny : α)) (h * (nelz : α)) x lx ly lz k ∧ ∀ i, i < l → F i ≠ k
      (r0 = 0 → S FineLayer3.nodesFrontFace .mid .mid .lo ∧ S FineLayer3.nodesBackFace .mid .mid .hi) ∧
      (r0 = 2 → S FineLayer3.nodesLeftFace .lo .mid .mid ∧ S FineLayer3.nodesRightFace .hi .mid .mid) := by
  obtain ⟨M, n, WX, WZ, G, R, ct, x, h1, h2, h3, h4, hv, hr, hd, hM, hL, hs, hG, hR, hnn, hP⟩ :=
    FineLayer3.setsMesh nelx nely nelz hy h nfine
  have hn := hL.npos
  have h0 : ∀ i, i < 2 * n - 1 → 0 < nelx / WX i := fun i hi =>
    Nat.div_pos (Nat.le_of_dvd hx (hL.fits i hi).1) (hL.wpos i hi).1
  have g0 : ∀ i, i < 2 * n - 1 → 0 < nelz / WZ i := fun i hi =>
    Nat.div_pos (Nat.le_of_dvd hz (hL.fits i hi).2) (hL.wpos i hi).2
  have hi : 0 < 2 * n - 1 := by omega
  obtain ⟨w1, w2⟩ := hL.wpos 0 hi
  obtain ⟨d1, d2⟩ := hL.fits 0 hi
  obtain ⟨t1, t2⟩ := hL.three hi
  have hb : height G 0 + G 0 / 2 = G 0 / 2 := by simp [height]
  have hH : G 0 ≤ height G (2 * n - 1) := by
    have : height G 1 ≤ height G (2 * n - 1) := height_mono (by omega)
    rw [height_succ] at this
    simp [height] at *
    exact this
  have key : ∀ {f : FineLayer3 α → Res (Ten Nat)} {lx lz : Loc}, lx ≠ .all → lz ≠ .all →
      (∃ t, f M = .ok t ∧ FineLayer3.IsL t (FineLayer3.setL nelx nelz n WX WZ R lx .mid lz)) →
      (∃ kx kz, kindR3 n R 0 ≠ .normal ∧ kx < axM nelx (WX 0) (kindR3 n R 0).mx ∧ kz < axM nelz (WZ 0) (kindR3 n R 0).mz ∧
        lx.on (axMid (WX 0) (kindR3 n R 0).mx kx) nelx ∧ lz.on (axMid (WZ 0) (kindR3 n R 0).mz kz) nelz) →
      ∃ t l F k, f M = .ok t ∧ Is1 t l F ∧
        At3 M.nnode (h * (nelx : α)) (h * ((height G (2 * n - 1) : Nat) : α)) (h * (nelz : α)) x lx .mid lz k ∧ ∀ i, i < l → F i ≠ k := by
    rintro f lx lz nx nz ⟨t, hf, ht⟩ ⟨kx, kz, hk, b1, b2, o1, o2⟩
    have hg := hL.halfG hi hk
    have s : Site nelx nelz n WX WZ G R _ _ _ _ := .mid 0 kx kz hi hk b1 b2
    obtain ⟨p0, p1, p2⟩ := s.x hP
    obtain ⟨c0, c1, c2⟩ := s.bound hL
    refine ⟨t, _, _, _, hf, ht, ⟨by rw [hnn]; exact s.lt, ?_, ?_, ?_⟩, fun i hil e => ?_⟩
    · rw [p0, Loc.on_holds hh lx c0]; exact o1
    · rw [p1, Loc.on_holds hh .mid c1]; simp only [Loc.on]; omega
    · rw [p2, Loc.on_holds hh lz c2]; exact o2
    · have hmem : (FineLayer3.setL nelx nelz n WX WZ R lx .mid lz).getD i 0 ∈ FineLayer3.setL nelx nelz n WX WZ R lx .mid lz := by
        rw [List.getD_eq_getElem?_getD, List.getElem?_eq_getElem hil]
        exact List.getElem_mem _
      rw [e] at hmem
      have := ((FineLayer3.mem_setL hL s).1 hmem).2.1
      simp only [FineLayer3.band] at this
      rw [show height G 1 = G 0 by rw [height_succ]; simp [height]] at this
      omega
  have kx : R 0 = 0 → kindR3 n R 0 = .xBelow := fun e => by simp [kindR3, e, hn]
  have kz : R 0 = 2 → kindR3 n R 0 = .zBelow := fun e => by simp [kindR3, e, hn]
  refine ⟨M, _, _, ct, x, h1, h2, hr, h3, h4, fun e => ⟨?_, ?_⟩, fun e => ⟨?_, ?_⟩⟩
  · refine key (by simp) (by simp) (FineLayer3.nodesFrontFace_spec hM hL h0) ⟨0, 0, ?_⟩
    rw [kx e] at t1 ⊢
    have := h0 0 hi
    have q : 0 < axM nelx (WX 0) .below := by simp only [axM]; omega
    exact ⟨by simp, q, Nat.succ_pos _, axMid_inner w1 d1 (by decide) (t1 (by simp [Kind3.mx])) q, by simp [Loc.on, axMid, Kind3.mz]⟩
  · refine key (by simp) (by simp) (FineLayer3.nodesBackFace_spec hM hL h0) ⟨0, nelz / WZ 0, ?_⟩
    rw [kx e] at t1 ⊢
    have := h0 0 hi
    have q : 0 < axM nelx (WX 0) .below := by simp only [axM]; omega
    exact ⟨by simp, q, Nat.lt_succ_self _, axMid_inner w1 d1 (by decide) (t1 (by simp [Kind3.mx])) q, Nat.div_mul_cancel d2⟩
  · refine key (by simp) (by simp) (FineLayer3.nodesLeftFace_spec hM hL g0) ⟨0, 0, ?_⟩
    rw [kz e] at t2 ⊢
    have := g0 0 hi
    have q : 0 < axM nelz (WZ 0) .below := by simp only [axM]; omega
    exact ⟨by simp, Nat.succ_pos _, q, by simp [Loc.on, axMid, Kind3.mx], axMid_inner w2 d2 (by decide) (t2 (by simp [Kind3.mz])) q⟩
  · refine key (by simp) (by simp) (FineLayer3.nodesRightFace_spec hM hL g0) ⟨nelx / WX 0, 0, ?_⟩
    rw [kz e] at t2 ⊢
    have := g0 0 hi
    have q : 0 < axM nelz (WZ 0) .below := by simp only [axM]; omega
    exact ⟨by simp, Nat.lt_succ_self _, q, Nat.div_mul_cancel d1, axMid_inner w2 d2 (by decide) (t2 (by simp [Kind3.mz])) q⟩

/-- **C71** `nodesPeriodic()`: the pairs (independent, dependent) consist of valid nodes, the dependent node is the
independent one shifted by the dimensions of the mesh; the dependent nodes are exactly the nodes of the right, top and
back sides, each listed once, except those strictly inside the lowest or the highest layer of elements; no independent
node is dependent. -/
theorem C71_nodesPeriodic (nelx nely nelz : Nat) (hx : 0 < nelx) (hy : 0 < nely) (hz : 0 < nelz) {h : α} (hh : 0 < h) (nfine : Nat) :
    ∃ M Ny b0 ct x t l P, FineLayer3.new nelx nely nelz h nfine = .ok M ∧ M.nely = .ok Ny ∧ M.nhy.v [0] = some b0 ∧
      M.coor = .ok ct ∧ Is2 ct M.nnode 3 x ∧ M.nodesPeriodic = .ok t ∧ Is2 t l 2 P ∧
      PeriodicPairs3Except (fun m => OuterLayer (h * (Ny : α)) (h * (b0 : α)) (x m 1)) M.nnode
        (h * (nelx : α)) (h * (Ny : α)) (h * (nelz : α)) x l P := by
  obtain ⟨M, n, WX, WZ, G, R, ct, x, h1, h2, h3, h4, hv, hr, hd, hM, hL, hs, hG, hR, hnn, hP⟩ :=
    FineLayer3.setsMesh nelx nely nelz hy h nfine
  have hn := hL.npos
  obtain ⟨t, l, P, q1, q2, q3⟩ := FineLayer3.nodesPeriodic_spec hM hL hs hx hz
  exact ⟨M, _, _, ct, x, t, l, P, h1, h2, hv, h3, h4, q1, q2, FineLayer3.table_pairs hL hG hh hP hnn q3⟩

/-- **C71** the pairs are complete if the outermost layers are not transition layers -/
theorem C71_nodesPeriodic_complete (nelx nely nelz : Nat) (hx : 0 < nelx) (hy : 0 < nely) (hz : 0 < nelz) {h : α} (hh : 0 < h) (nfine : Nat) :
    ∃ M Ny r0 ct x t l P, FineLayer3.new nelx nely nelz h nfine = .ok M ∧ M.nely = .ok Ny ∧ M.refine.v [0] = some r0 ∧
      M.coor = .ok ct ∧ Is2 ct M.nnode 3 x ∧ M.nodesPeriodic = .ok t ∧ Is2 t l 2 P ∧
      (r0 = -1 → PeriodicPairs3 M.nnode (h * (nelx : α)) (h * (Ny : α)) (h * (nelz : α)) x l P) := by
  obtain ⟨M, n, WX, WZ, G, R, ct, x, h1, h2, h3, h4, hv, hr, hd, hM, hL, hs, hG, hR, hnn, hP⟩ :=
    FineLayer3.setsMesh nelx nely nelz hy h nfine
  have hn := hL.npos
  obtain ⟨t, l, P, q1, q2, q3⟩ := FineLayer3.nodesPeriodic_spec hM hL hs hx hz
  refine ⟨M, _, _, ct, x, t, l, P, h1, h2, hr, h3, h4, q1, q2, fun e => ?_⟩
  have hT := FineLayer3.table_pairs hL hG hh hP hnn q3
  refine ⟨hT.valid, hT.shift, hT.distinct, hT.independent, fun m hm => ?_⟩
  rw [hT.dependent m hm]
  exact and_iff_left (FineLayer3.no_outer hL hG hR e hh hP (by rw [← hnn]; exact hm))

/-- **C71** `dofsPeriodic()`: two DOFs coincide exactly when they are the same component of the same node, or of two
nodes, neither strictly inside the lowest or the highest layer of elements, whose positions differ by a lattice vector
of the periodic cell; the DOF numbers are contiguous: one per direction for each node that is not dependent. -/
theorem C71_dofsPeriodic (nelx nely nelz : Nat) (hx : 0 < nelx) (hy : 0 < nely) (hz : 0 < nelz) {h : α} (hh : 0 < h) (nfine : Nat) :
    ∃ M Ny b0 ct x t l P y d, FineLayer3.new nelx nely nelz h nfine = .ok M ∧ M.nely = .ok Ny ∧ M.nhy.v [0] = some b0 ∧
      M.coor = .ok ct ∧ Is2 ct M.nnode 3 x ∧ M.nodesPeriodic = .ok t ∧ Is2 t l 2 P ∧
      M.dofsPeriodic = .ok y ∧ Is2 y M.nnode 3 d ∧
      (∀ m i m' i', m < M.nnode → i < 3 → m' < M.nnode → i' < 3 → (d m i = d m' i' ↔
        (m = m' ∨ (¬ OuterLayer (h * (Ny : α)) (h * (b0 : α)) (x m 1) ∧ ¬ OuterLayer (h * (Ny : α)) (h * (b0 : α)) (x m' 1) ∧
          LatticeEq3 (h * (nelx : α)) (h * (Ny : α)) (h * (nelz : α)) (x m) (x m'))) ∧ i = i')) ∧
      (∀ v, (∃ m i, m < M.nnode ∧ i < 3 ∧ d m i = v) ↔ v < (M.nnode - l) * 3) := by
  obtain ⟨M, n, WX, WZ, G, R, ct, x, h1, h2, h3, h4, hv, hr, hd, hM, hL, hs, hG, hR, hnn, hP⟩ :=
    FineLayer3.setsMesh nelx nely nelz hy h nfine
  have hn := hL.npos
  obtain ⟨t, l, P, q1, q2, q3⟩ := FineLayer3.nodesPeriodic_spec hM hL hs hx hz
  have hT := FineLayer3.table_pairs hL hG hh hP hnn q3
  obtain ⟨y, d, y1, y2, y3, y4⟩ := periodic_dofs3 q2 (FineLayer3.inBox hL hh hP hnn) hT
  refine ⟨M, _, _, ct, x, t, l, P, y, d, h1, h2, hv, h3, h4, q1, q2, ?_, y2, y3, y4⟩
  rw [FineLayer3.dofsPeriodic, q1, Res.ok_bind, hd]
  exact y1

/-- **C71** full periodicity if the outermost layers are not transition layers -/
theorem C71_dofsPeriodic_complete (nelx nely nelz : Nat) (hx : 0 < nelx) (hy : 0 < nely) (hz : 0 < nelz) {h : α} (hh : 0 < h) (nfine : Nat) :
    ∃ M Ny r0 ct x y d, FineLayer3.new nelx nely nelz h nfine = .ok M ∧ M.nely = .ok Ny ∧ M.refine.v [0] = some r0 ∧
      M.coor = .ok ct ∧ Is2 ct M.nnode 3 x ∧ M.dofsPeriodic = .ok y ∧ Is2 y M.nnode 3 d ∧
      (r0 = -1 → ∀ m i m' i', m < M.nnode → i < 3 → m' < M.nnode → i' < 3 → (d m i = d m' i' ↔
          LatticeEq3 (h * (nelx : α)) (h * (Ny : α)) (h * (nelz : α)) (x m) (x m') ∧ i = i')) := by
  obtain ⟨M, n, WX, WZ, G, R, ct, x, h1, h2, h3, h4, hv, hr, hd, hM, hL, hs, hG, hR, hnn, hP⟩ :=
    FineLayer3.setsMesh nelx nely nelz hy h nfine
  have hn := hL.npos
  obtain ⟨t, l, P, q1, q2, q3⟩ := FineLayer3.nodesPeriodic_spec hM hL hs hx hz
  have hT := FineLayer3.table_pairs hL hG hh hP hnn q3
  obtain ⟨y, d, y1, y2, y3, y4⟩ := periodic_dofs3 q2 (FineLayer3.inBox hL hh hP hnn) hT
  refine ⟨M, _, _, ct, x, y, d, h1, h2, hr, h3, h4, ?_, y2, fun e m i m' i' hm hi hm' hi' => ?_⟩
  · rw [FineLayer3.dofsPeriodic, q1, Res.ok_bind, hd]
    exact y1
  · rw [y3 m i m' i' hm hi hm' hi']
    refine and_congr_left fun _ => ?_
    constructor
    · rintro (rfl | ⟨-, -, h⟩)
      · exact ⟨0, 0, 0, by simp, by simp, by simp⟩
      · exact h
    · exact fun h => .inr ⟨FineLayer3.no_outer hL hG hR e hh hP (by rw [← hnn]; exact hm),
        FineLayer3.no_outer hL hG hR e hh hP (by rw [← hnn]; exact hm'), h⟩

/-- Non-vacuity: a mesh whose outermost layers are transition layers (the front face misses nodes `8` and `9`) ... -/
example : ((FineLayer3.new 3 9 3 (1 : Nat) 1).bind fun M => M.nodesFrontFace.bind fun t => M.nodesPeriodic.bind fun q =>
      .ok (M.nnode, M.refine.v [0], t.shape, (List.range 20).filterMap (fun i => t.v [i]), q.shape)) =
    .ok (128, some 0, [12], [17, 18, 33, 34, 49, 50, 65, 66, 81, 82, 97, 98], [55, 2]) := by
  decide +kernel

/-- ... and one whose outermost layers are not, while others are. -/
example : ((FineLayer3.new 3 15 3 (1 : Nat) 1).bind fun M => M.nodesFrontFace.bind fun t => M.nodesPeriodic.bind fun q =>
      .ok ((List.range 11).map (fun i => M.refine.v [i]), M.nnode, t.shape, (List.range 20).filterMap (fun i => t.v [i]), q.shape)) =
    .ok ([-1, 2, 0, -1, -1, -1, -1, -1, 0, 2, -1].map some, 152, [16],
      [20, 21, 29, 30, 45, 46, 61, 62, 77, 78, 93, 94, 109, 110, 124, 125], [73, 2]) := by
  decide +kernel

end GF
