import Verif.Lemmas.FineLayer3SetsSpec

/-! Lemmas on the node sets of `Mesh::Hex8::FineLayer`: bottom, top, edges and corners. -/

namespace GF.FineLayer3
open FineLayerSpec Finset FineLayer
variable {α : Type} {nelx nelz n : Nat} {WX WZ G : Nat → Nat} {R : Nat → Int}

theorem planeLoop_spec (lo hi nx nz b N : Nat) (hN : N = (nx + hi - lo) * (nz + hi - lo)) :
    ∃ t, planeLoop lo hi nx nz b N = .ok t ∧ IsL t ((itFrom lo (nx + hi)).flatMap fun ix =>
      (itFrom lo (nz + hi)).map fun iz => b + ix + iz * (nx + 1)) := by
  obtain ⟨t, h1, h2⟩ := (Emits1.loop (N := N) (l := itFrom lo (nx + hi)) (F := fun ix =>
    (itFrom lo (nz + hi)).map fun iz => b + ix + iz * (nx + 1)) fun ix _ => Emits1.map _ _).array
      (by simp [List.length_flatMap, itFrom, hN])
  exact ⟨t, by simp only [planeLoop]; rw [h1]; rfl, h2⟩

theorem isL_range {t : Ten Nat} {a m : Nat} {v : Nat → Nat} (h : Is1 t m fun i => v (a + i)) :
    IsL t ((List.range' a m).map v) := by
  refine ⟨by rw [h.1]; simp, fun i hi => ?_⟩
  have hi' : i < m := by simpa using hi
  rw [h.2 i hi']
  dsimp only
  rw [List.getD_eq_getElem?_getD, List.getElem?_map, List.getElem?_range' hi']
  simp

theorem fillEdge_spec (l : Nat) (v : Nat → Nat) : ∃ t, fillEdge l v = .ok t ∧ IsL t ((itFrom 0 (l + 1)).map v) := by
  obtain ⟨t, h1, h2, h3, -⟩ := fill0 (t := Ten.empty [l + 1]) (N := l + 1) rfl 0 (l + 1) (by omega) v
    (fun ret k => ret.set [k] (v k)) (by intro k _ s _; rw [Nat.zero_add])
  refine ⟨t, h1, isL_range ⟨h2, fun i hi => ?_⟩⟩
  have := h3 i hi
  rw [Nat.zero_add] at this
  dsimp only
  rwa [Nat.zero_add]

theorem fillOpenEdge_spec (l : Nat) (hl : 0 < l) (v : Nat → Nat) :
    ∃ t, fillOpenEdge l v = .ok t ∧ IsL t ((itFrom 1 l).map v) := by
  obtain ⟨t, h1, h2, h3, -⟩ := fillRange (t := Ten.empty [l - 1]) (N := l - 1) rfl 0 (l - 1) (by omega) (itFrom 1 l)
    (fun k => 1 + k) (fun i => mem_itFrom) (fun i => i - 1) (by intro k _; omega) (fun k => v (1 + k))
    (fun ret k => ret.set [k - 1] (v k)) (by
      intro k _ s _
      rw [show 1 + k - 1 = 0 + k by omega])
  refine ⟨t, by rw [fillOpenEdge, if_neg (by omega)]; exact h1, isL_range ⟨h2, fun i hi => ?_⟩⟩
  have := h3 i hi
  rwa [Nat.zero_add] at this

theorem midL_edge {i : Nat} (hL : Layers3 nelx nelz n WX WZ G R) (hi : i < 2 * n - 1) {lx lz : Loc}
    (hx : lx = .lo ∨ lx = .hi) (hz : lz = .lo ∨ lz = .hi) : midL nelx nelz n WX WZ R lx lz i = [] := by
  rcases hL.types i hi with h | h | h
  · rw [midL, if_pos (kind_n h)]
  · obtain ⟨h1, h2, h3⟩ := kind_x (n := n) h
    rw [midL, if_neg h1]
    have hs : sel (kindR3 n R i).mx lx (axM nelx (WX i) (kindR3 n R i).mx) = [] := by
      rcases h3 with h3 | h3 <;> rcases hx with rfl | rfl <;> rw [h3] <;> rfl
    simp [hs]
  · obtain ⟨h1, h2, h3⟩ := kind_z (n := n) h
    rw [midL, if_neg h1]
    have hs : sel (kindR3 n R i).mz lz (axM nelz (WZ i) (kindR3 n R i).mz) = [] := by
      rcases h3 with h3 | h3 <;> rcases hz with rfl | rfl <;> rw [h3] <;> rfl
    simp [hs]

theorem stackL_edge (hL : Layers3 nelx nelz n WX WZ G R) {lx lz : Loc}
    (hx : lx = .lo ∨ lx = .hi) (hz : lz = .lo ∨ lz = .hi) {a b : Nat} (hb : b ≤ 2 * n) {f : Nat → Nat}
    (hf : ∀ p, a ≤ p → p < b → planeL nelx nelz n WX WZ R lx lz p = [f p]) :
    stackL nelx nelz n WX WZ R lx lz a b = (itFrom a b).map f := by
  rw [stackL, ← flatMap_one]
  apply List.flatMap_congr
  intro p hp
  obtain ⟨k, hk, rfl⟩ := mem_itFrom.1 hp
  rw [hf _ (by omega) (by omega)]
  split
  · rw [midL_edge hL (by omega) hx hz]; rfl
  · rfl

section edges
variable {M : FineLayer3 α} (hM : IsFine3 M nelx nelz n WX WZ G R) (hL : Layers3 nelx nelz n WX WZ G R)
include hM hL

theorem vertEdge_spec {off : Nat → Nat → Nat} {lx lz : Loc} (hx : lx = .lo ∨ lx = .hi) (hz : lz = .lo ∨ lz = .hi)
    (hoff : ∀ nx nz b, (sel .same lx (nx + 1)).flatMap (fun kx => (sel .same lz (nz + 1)).map fun kz =>
      b + kx + kz * (nx + 1)) = [b + off nx nz]) :
    ∃ t, vertEdge M off = .ok t ∧ IsL t (setL nelx nelz n WX WZ R lx .all lz) := by
  have hp := hL.npos
  set f : Nat → Nat := fun p => rowS3 nelx nelz n WX WZ R p + off (rowN nelx n WX p - 1) (rowN nelz n WZ p - 1) with hf
  have hset : setL nelx nelz n WX WZ R lx .all lz = (itFrom 0 (2 * n)).map f :=
    stackL_edge hL hx hz (by omega) fun p _ _ => hoff _ _ _
  simp only [vertEdge, hM.nhy.size]
  rw [show (2 * n - 1 + 1) / 2 = n by omega, show (2 * n - 1 - 1) / 2 = n - 1 by omega]
  obtain ⟨t1, h1, h2, h3, -⟩ := fill0 (t := Ten.empty [2 * n - 1 + 1]) (N := 2 * n - 1 + 1) rfl 0 n (by omega) f
    (fun (ret : Ten Nat) iy => do
      let nx ← M.layer_nelx.get [iy]
      let nz ← M.layer_nelz.get [iy]
      let b ← M.startNode.get [iy]
      ret.set [iy] (b + off nx nz)) (by
      intro k hk s _
      rw [hM.layerx.get (by omega), Res.ok_bind, hM.layerz.get (by omega), Res.ok_bind, hM.startNode.get (by omega),
        Res.ok_bind, Nat.zero_add, hf]
      simp only [rowN_below hk, Nat.add_sub_cancel])
  rw [h1, Res.ok_bind]
  obtain ⟨t2, g1, g2, g3, g4⟩ := fillRange (t := t1) (N := 2 * n - 1 + 1) h2 n n (by omega) (itFrom (n - 1) (2 * n - 1))
    (fun k => n - 1 + k) (fun i => by rw [mem_itFrom, show 2 * n - 1 - (n - 1) = n by omega]) (fun i => i + 1)
    (by intro k _; omega) (fun k => f (n + k))
    (fun (ret : Ten Nat) iy => do
      let nx ← M.layer_nelx.get [iy]
      let nz ← M.layer_nelz.get [iy]
      let b ← M.startNode.get [iy + 1]
      ret.set [iy + 1] (b + off nx nz)) (by
      intro k hk s _
      rw [hM.layerx.get (by omega), Res.ok_bind, hM.layerz.get (by omega), Res.ok_bind, hM.startNode.get (by omega),
        Res.ok_bind, hf]
      dsimp only
      rw [show n + k = n - 1 + k + 1 by omega, rowN_above (by omega), rowN_above (by omega)]
      simp only [Nat.add_sub_cancel])
  refine ⟨t2, g1, ?_⟩
  rw [hset]
  refine isL_range ⟨by rw [g2, show 2 * n - 1 + 1 = 2 * n - 0 by omega], fun i hi => ?_⟩
  dsimp only
  rw [Nat.zero_add]
  by_cases h : i < n
  · rw [g4 i (.inl h)]; have := h3 i h; rwa [Nat.zero_add] at this
  · have := g3 (i - n) (by omega)
    rwa [show n + (i - n) = i by omega] at this

theorem vertOpenEdge_spec {off : Nat → Nat → Nat} {lx lz : Loc} (hx : lx = .lo ∨ lx = .hi) (hz : lz = .lo ∨ lz = .hi)
    (hoff : ∀ nx nz b, (sel .same lx (nx + 1)).flatMap (fun kx => (sel .same lz (nz + 1)).map fun kz =>
      b + kx + kz * (nx + 1)) = [b + off nx nz]) :
    ∃ t, vertOpenEdge M off = .ok t ∧ IsL t (setL nelx nelz n WX WZ R lx .mid lz) := by
  have hp := hL.npos
  set f : Nat → Nat := fun p => rowS3 nelx nelz n WX WZ R p + off (rowN nelx n WX p - 1) (rowN nelz n WZ p - 1) with hf
  have hset : setL nelx nelz n WX WZ R lx .mid lz = (itFrom 1 (2 * n - 1)).map f :=
    stackL_edge hL hx hz (by omega) fun p _ _ => hoff _ _ _
  simp only [vertOpenEdge, hM.nhy.size]
  rw [show (2 * n - 1 + 1) / 2 = n by omega, show (2 * n - 1 - 1) / 2 = n - 1 by omega]
  obtain ⟨t1, h1, h2, h3, -⟩ := fillRange (t := Ten.empty [2 * n - 1 - 1]) (N := 2 * n - 1 - 1) rfl 0 (n - 1) (by omega)
    (itFrom 1 n) (fun k => 1 + k) (fun i => mem_itFrom) (fun i => i - 1) (by intro k _; omega) (fun k => f (1 + k))
    (fun (ret : Ten Nat) iy => do
      let nx ← M.layer_nelx.get [iy]
      let nz ← M.layer_nelz.get [iy]
      let b ← M.startNode.get [iy]
      ret.set [iy - 1] (b + off nx nz)) (by
      intro k hk s _
      rw [hM.layerx.get (by omega), Res.ok_bind, hM.layerz.get (by omega), Res.ok_bind, hM.startNode.get (by omega),
        Res.ok_bind, show 1 + k - 1 = 0 + k by omega, hf]
      dsimp only
      rw [rowN_below (by omega), rowN_below (by omega)]
      simp only [Nat.add_sub_cancel])
  rw [h1, Res.ok_bind]
  obtain ⟨t2, g1, g2, g3, g4⟩ := fillRange (t := t1) (N := 2 * n - 1 - 1) h2 (n - 1) (n - 1) (by omega)
    (itFrom (n - 1) (2 * n - 1 - 1))
    (fun k => n - 1 + k) (fun i => by rw [mem_itFrom, show 2 * n - 1 - 1 - (n - 1) = n - 1 by omega]) (fun i => i)
    (by intro k _; omega) (fun k => f (n + k))
    (fun (ret : Ten Nat) iy => do
      let nx ← M.layer_nelx.get [iy]
      let nz ← M.layer_nelz.get [iy]
      let b ← M.startNode.get [iy + 1]
      ret.set [iy] (b + off nx nz)) (by
      intro k hk s _
      rw [hM.layerx.get (by omega), Res.ok_bind, hM.layerz.get (by omega), Res.ok_bind, hM.startNode.get (by omega),
        Res.ok_bind, hf]
      dsimp only
      rw [show n + k = n - 1 + k + 1 by omega, rowN_above (by omega), rowN_above (by omega)]
      simp only [Nat.add_sub_cancel])
  refine ⟨t2, g1, ?_⟩
  rw [hset]
  refine isL_range ⟨by rw [g2], fun i hi => ?_⟩
  by_cases h : i < n - 1
  · rw [g4 i (.inl h)]; have := h3 i h; rwa [Nat.zero_add] at this
  · have := g3 (i - (n - 1)) (by omega)
    rwa [show n - 1 + (i - (n - 1)) = i by omega, show n + (i - (n - 1)) = 1 + i by omega] at this

theorem plane_bottom (lx lz : Loc) : setL nelx nelz n WX WZ R lx .lo lz =
    (sel .same lx (nelx / WX 0 + 1)).flatMap fun kx => (sel .same lz (nelz / WZ 0 + 1)).map fun kz =>
      rowS3 nelx nelz n WX WZ R 0 + kx + kz * (nelx / WX 0 + 1) := by
  simp only [setL, planeL, mainNode, rowN_below hL.npos]

theorem plane_top (lx lz : Loc) : setL nelx nelz n WX WZ R lx .hi lz =
    (sel .same lx (nelx / WX (2 * n - 1 - 1) + 1)).flatMap fun kx =>
      (sel .same lz (nelz / WZ (2 * n - 1 - 1) + 1)).map fun kz =>
      rowS3 nelx nelz n WX WZ R (2 * n - 1) + kx + kz * (nelx / WX (2 * n - 1 - 1) + 1) := by
  have hp := hL.npos
  have e : ∀ (nel : Nat) (W : Nat → Nat), rowN nel n W (2 * n - 1) = nel / W (2 * n - 1 - 1) + 1 := by
    intro nel W
    have := rowN_above (n := n) (nel := nel) (W := W) (i := 2 * n - 1 - 1) (by omega)
    rwa [show 2 * n - 1 - 1 + 1 = 2 * n - 1 by omega] at this
  simp only [setL, planeL, mainNode, e]

theorem nodesBottom_spec (hs : WX 0 = WX (2 * n - 2) ∧ WZ 0 = WZ (2 * n - 2)) :
    ∃ t, M.nodesBottom = .ok t ∧ IsL t (setL nelx nelz n WX WZ R .all .lo .all) := by
  have hp := hL.npos
  have e : rowN3 nelx nelz n WX WZ (2 * n - 1) = (nelx / WX 0 + 1) * (nelz / WZ 0 + 1) := by
    rw [rowN3, rowN, rowN, rowW, rowW, if_neg (by omega), if_neg (by omega), show 2 * n - 1 - 1 = 2 * n - 2 by omega, hs.1, hs.2]
  simp only [nodesBottom, hM.nhy.size]
  rw [hM.nnd.get (by omega), Res.ok_bind, hM.layerx.get (by omega), Res.ok_bind, hM.layerz.get (by omega), Res.ok_bind,
    hM.startNode.get (by omega), Res.ok_bind, plane_bottom hM hL, sel_all, sel_all]
  exact planeLoop_spec 0 1 _ _ _ _ (by rw [e]; simp)

theorem nodesTop_spec : ∃ t, M.nodesTop = .ok t ∧ IsL t (setL nelx nelz n WX WZ R .all .hi .all) := by
  have hp := hL.npos
  have e : rowN3 nelx nelz n WX WZ (2 * n - 1) = (nelx / WX (2 * n - 1 - 1) + 1) * (nelz / WZ (2 * n - 1 - 1) + 1) := by
    rw [rowN3, rowN, rowN, rowW, rowW, if_neg (by omega), if_neg (by omega)]
  simp only [nodesTop, hM.nhy.size]
  rw [hM.nnd.get (by omega), Res.ok_bind, hM.layerx.get (by omega), Res.ok_bind, hM.layerz.get (by omega), Res.ok_bind,
    hM.startNode.get (by omega), Res.ok_bind, plane_top hM hL, sel_all, sel_all]
  exact planeLoop_spec 0 1 _ _ _ _ (by rw [e]; simp)

theorem nodesBottomFace_spec (hx : 0 < nelx / WX 0) (hz : 0 < nelz / WZ 0) :
    ∃ t, M.nodesBottomFace = .ok t ∧ IsL t (setL nelx nelz n WX WZ R .mid .lo .mid) := by
  have hp := hL.npos
  simp only [nodesBottomFace]
  rw [hM.layerx.get (by omega), Res.ok_bind, hM.layerz.get (by omega), Res.ok_bind,
    hM.startNode.get (by omega), Res.ok_bind, if_neg (by omega), plane_bottom hM hL, sel_mid, sel_mid]
  exact planeLoop_spec 1 0 _ _ _ _ rfl

theorem nodesTopFace_spec (hx : 0 < nelx / WX (2 * n - 1 - 1)) (hz : 0 < nelz / WZ (2 * n - 1 - 1)) :
    ∃ t, M.nodesTopFace = .ok t ∧ IsL t (setL nelx nelz n WX WZ R .mid .hi .mid) := by
  have hp := hL.npos
  simp only [nodesTopFace, hM.nhy.size]
  rw [hM.layerx.get (by omega), Res.ok_bind, hM.layerz.get (by omega), Res.ok_bind,
    hM.startNode.get (by omega), Res.ok_bind, if_neg (by omega), plane_top hM hL, sel_mid, sel_mid]
  exact planeLoop_spec 1 0 _ _ _ _ rfl

theorem nodesFrontBottomEdge_spec : ∃ t, M.nodesFrontBottomEdge = .ok t ∧ IsL t (setL nelx nelz n WX WZ R .all .lo .lo) := by
  have hp := hL.npos
  have hN : M.nhy.size = 2 * n - 1 := hM.nhy.size
  have gx := hM.layerx.get (show 0 < 2 * n - 1 by omega)
  have gz := hM.layerz.get (show 0 < 2 * n - 1 by omega)
  have gs := hM.startNode.get (show 0 < 2 * n by omega)
  rw [nodesFrontBottomEdge]
  simp only [gx, gz, gs, Res.ok_bind]
  obtain ⟨t, h1, h2⟩ := fillEdge_spec _ _
  refine ⟨t, h1, ?_⟩
  rw [plane_bottom hM hL]
  simp only [sel_lo, sel_hi, sel_all, List.flatMap_cons, List.flatMap_nil, List.map_cons, List.map_nil, List.append_nil, flatMap_one]
  convert h2 using 2
  all_goals (funext k; ring)

theorem nodesFrontTopEdge_spec : ∃ t, M.nodesFrontTopEdge = .ok t ∧ IsL t (setL nelx nelz n WX WZ R .all .hi .lo) := by
  have hp := hL.npos
  have hN : M.nhy.size = 2 * n - 1 := hM.nhy.size
  have gx := hM.layerx.get (show (2 * n - 1 - 1) < 2 * n - 1 by omega)
  have gz := hM.layerz.get (show (2 * n - 1 - 1) < 2 * n - 1 by omega)
  have gs := hM.startNode.get (show 2 * n - 1 < 2 * n by omega)
  rw [nodesFrontTopEdge, hN]
  simp only [gx, gz, gs, Res.ok_bind]
  obtain ⟨t, h1, h2⟩ := fillEdge_spec _ _
  refine ⟨t, h1, ?_⟩
  rw [plane_top hM hL]
  simp only [sel_lo, sel_hi, sel_all, List.flatMap_cons, List.flatMap_nil, List.map_cons, List.map_nil, List.append_nil, flatMap_one]
  convert h2 using 2
  all_goals (funext k; ring)

theorem nodesFrontLeftEdge_spec : ∃ t, M.nodesFrontLeftEdge = .ok t ∧ IsL t (setL nelx nelz n WX WZ R .lo .all .lo) :=
  vertEdge_spec hM hL (by simp) (by simp) (by intro nx nz b; simp [sel_lo])

theorem nodesFrontRightEdge_spec : ∃ t, M.nodesFrontRightEdge = .ok t ∧ IsL t (setL nelx nelz n WX WZ R .hi .all .lo) :=
  vertEdge_spec hM hL (by simp) (by simp) (by intro nx nz b; simp only [sel_lo, sel_hi, List.flatMap_cons, List.flatMap_nil, List.map_cons, List.map_nil, List.append_nil, List.cons_append, List.nil_append]; congr 1; ring)

theorem nodesBackBottomEdge_spec : ∃ t, M.nodesBackBottomEdge = .ok t ∧ IsL t (setL nelx nelz n WX WZ R .all .lo .hi) := by
  have hp := hL.npos
  have hN : M.nhy.size = 2 * n - 1 := hM.nhy.size
  have gx := hM.layerx.get (show 0 < 2 * n - 1 by omega)
  have gz := hM.layerz.get (show 0 < 2 * n - 1 by omega)
  have gs := hM.startNode.get (show 0 < 2 * n by omega)
  rw [nodesBackBottomEdge]
  simp only [gx, gz, gs, Res.ok_bind]
  obtain ⟨t, h1, h2⟩ := fillEdge_spec _ _
  refine ⟨t, h1, ?_⟩
  rw [plane_bottom hM hL]
  simp only [sel_lo, sel_hi, sel_all, List.flatMap_cons, List.flatMap_nil, List.map_cons, List.map_nil, List.append_nil, flatMap_one]
  convert h2 using 2
  all_goals (funext k; ring)

theorem nodesBackTopEdge_spec : ∃ t, M.nodesBackTopEdge = .ok t ∧ IsL t (setL nelx nelz n WX WZ R .all .hi .hi) := by
  have hp := hL.npos
  have hN : M.nhy.size = 2 * n - 1 := hM.nhy.size
  have gx := hM.layerx.get (show (2 * n - 1 - 1) < 2 * n - 1 by omega)
  have gz := hM.layerz.get (show (2 * n - 1 - 1) < 2 * n - 1 by omega)
  have gs := hM.startNode.get (show 2 * n - 1 < 2 * n by omega)
  rw [nodesBackTopEdge, hN]
  simp only [gx, gz, gs, Res.ok_bind]
  obtain ⟨t, h1, h2⟩ := fillEdge_spec _ _
  refine ⟨t, h1, ?_⟩
  rw [plane_top hM hL]
  simp only [sel_lo, sel_hi, sel_all, List.flatMap_cons, List.flatMap_nil, List.map_cons, List.map_nil, List.append_nil, flatMap_one]
  convert h2 using 2
  all_goals (funext k; ring)

theorem nodesBackLeftEdge_spec : ∃ t, M.nodesBackLeftEdge = .ok t ∧ IsL t (setL nelx nelz n WX WZ R .lo .all .hi) :=
  vertEdge_spec hM hL (by simp) (by simp) (by intro nx nz b; simp only [sel_lo, sel_hi, List.flatMap_cons, List.flatMap_nil, List.map_cons, List.map_nil, List.append_nil, List.cons_append, List.nil_append]; congr 1; ring)

theorem nodesBackRightEdge_spec : ∃ t, M.nodesBackRightEdge = .ok t ∧ IsL t (setL nelx nelz n WX WZ R .hi .all .hi) :=
  vertEdge_spec hM hL (by simp) (by simp) (by intro nx nz b; simp only [sel_lo, sel_hi, List.flatMap_cons, List.flatMap_nil, List.map_cons, List.map_nil, List.append_nil, List.cons_append, List.nil_append]; congr 1; ring)

theorem nodesBottomLeftEdge_spec : ∃ t, M.nodesBottomLeftEdge = .ok t ∧ IsL t (setL nelx nelz n WX WZ R .lo .lo .all) := by
  have hp := hL.npos
  have hN : M.nhy.size = 2 * n - 1 := hM.nhy.size
  have gx := hM.layerx.get (show 0 < 2 * n - 1 by omega)
  have gz := hM.layerz.get (show 0 < 2 * n - 1 by omega)
  have gs := hM.startNode.get (show 0 < 2 * n by omega)
  rw [nodesBottomLeftEdge]
  simp only [gx, gz, gs, Res.ok_bind]
  obtain ⟨t, h1, h2⟩ := fillEdge_spec _ _
  refine ⟨t, h1, ?_⟩
  rw [plane_bottom hM hL]
  simp only [sel_lo, sel_hi, sel_all, List.flatMap_cons, List.flatMap_nil, List.map_cons, List.map_nil, List.append_nil, flatMap_one]
  convert h2 using 2
  all_goals (funext k; ring)

theorem nodesBottomRightEdge_spec : ∃ t, M.nodesBottomRightEdge = .ok t ∧ IsL t (setL nelx nelz n WX WZ R .hi .lo .all) := by
  have hp := hL.npos
  have hN : M.nhy.size = 2 * n - 1 := hM.nhy.size
  have gx := hM.layerx.get (show 0 < 2 * n - 1 by omega)
  have gz := hM.layerz.get (show 0 < 2 * n - 1 by omega)
  have gs := hM.startNode.get (show 0 < 2 * n by omega)
  rw [nodesBottomRightEdge]
  simp only [gx, gz, gs, Res.ok_bind]
  obtain ⟨t, h1, h2⟩ := fillEdge_spec _ _
  refine ⟨t, h1, ?_⟩
  rw [plane_bottom hM hL]
  simp only [sel_lo, sel_hi, sel_all, List.flatMap_cons, List.flatMap_nil, List.map_cons, List.map_nil, List.append_nil, flatMap_one]
  convert h2 using 2
  all_goals (funext k; ring)

theorem nodesTopLeftEdge_spec : ∃ t, M.nodesTopLeftEdge = .ok t ∧ IsL t (setL nelx nelz n WX WZ R .lo .hi .all) := by
  have hp := hL.npos
  have hN : M.nhy.size = 2 * n - 1 := hM.nhy.size
  have gx := hM.layerx.get (show (2 * n - 1 - 1) < 2 * n - 1 by omega)
  have gz := hM.layerz.get (show (2 * n - 1 - 1) < 2 * n - 1 by omega)
  have gs := hM.startNode.get (show 2 * n - 1 < 2 * n by omega)
  rw [nodesTopLeftEdge, hN]
  simp only [gx, gz, gs, Res.ok_bind]
  obtain ⟨t, h1, h2⟩ := fillEdge_spec _ _
  refine ⟨t, h1, ?_⟩
  rw [plane_top hM hL]
  simp only [sel_lo, sel_hi, sel_all, List.flatMap_cons, List.flatMap_nil, List.map_cons, List.map_nil, List.append_nil, flatMap_one]
  convert h2 using 2
  all_goals (funext k; ring)

theorem nodesTopRightEdge_spec : ∃ t, M.nodesTopRightEdge = .ok t ∧ IsL t (setL nelx nelz n WX WZ R .hi .hi .all) := by
  have hp := hL.npos
  have hN : M.nhy.size = 2 * n - 1 := hM.nhy.size
  have gx := hM.layerx.get (show (2 * n - 1 - 1) < 2 * n - 1 by omega)
  have gz := hM.layerz.get (show (2 * n - 1 - 1) < 2 * n - 1 by omega)
  have gs := hM.startNode.get (show 2 * n - 1 < 2 * n by omega)
  rw [nodesTopRightEdge, hN]
  simp only [gx, gz, gs, Res.ok_bind]
  obtain ⟨t, h1, h2⟩ := fillEdge_spec _ _
  refine ⟨t, h1, ?_⟩
  rw [plane_top hM hL]
  simp only [sel_lo, sel_hi, sel_all, List.flatMap_cons, List.flatMap_nil, List.map_cons, List.map_nil, List.append_nil, flatMap_one]
  convert h2 using 2
  all_goals (funext k; ring)

theorem nodesFrontBottomOpenEdge_spec (h0 : 0 < nelx / WX 0) : ∃ t, M.nodesFrontBottomOpenEdge = .ok t ∧ IsL t (setL nelx nelz n WX WZ R .mid .lo .lo) := by
  have hp := hL.npos
  have hN : M.nhy.size = 2 * n - 1 := hM.nhy.size
  have gx := hM.layerx.get (show 0 < 2 * n - 1 by omega)
  have gz := hM.layerz.get (show 0 < 2 * n - 1 by omega)
  have gs := hM.startNode.get (show 0 < 2 * n by omega)
  rw [nodesFrontBottomOpenEdge]
  simp only [gx, gz, gs, Res.ok_bind]
  obtain ⟨t, h1, h2⟩ := fillOpenEdge_spec _ h0 _
  refine ⟨t, h1, ?_⟩
  rw [plane_bottom hM hL]
  simp only [sel_lo, sel_hi, sel_mid, List.flatMap_cons, List.flatMap_nil, List.map_cons, List.map_nil, List.append_nil, flatMap_one]
  convert h2 using 2
  all_goals (funext k; ring)

theorem nodesFrontTopOpenEdge_spec (h0 : 0 < nelx / WX (2 * n - 1 - 1)) : ∃ t, M.nodesFrontTopOpenEdge = .ok t ∧ IsL t (setL nelx nelz n WX WZ R .mid .hi .lo) := by
  have hp := hL.npos
  have hN : M.nhy.size = 2 * n - 1 := hM.nhy.size
  have gx := hM.layerx.get (show (2 * n - 1 - 1) < 2 * n - 1 by omega)
  have gz := hM.layerz.get (show (2 * n - 1 - 1) < 2 * n - 1 by omega)
  have gs := hM.startNode.get (show 2 * n - 1 < 2 * n by omega)
  rw [nodesFrontTopOpenEdge, hN]
  simp only [gx, gz, gs, Res.ok_bind]
  obtain ⟨t, h1, h2⟩ := fillOpenEdge_spec _ h0 _
  refine ⟨t, h1, ?_⟩
  rw [plane_top hM hL]
  simp only [sel_lo, sel_hi, sel_mid, List.flatMap_cons, List.flatMap_nil, List.map_cons, List.map_nil, List.append_nil, flatMap_one]
  convert h2 using 2
  all_goals (funext k; ring)

theorem nodesFrontLeftOpenEdge_spec : ∃ t, M.nodesFrontLeftOpenEdge = .ok t ∧ IsL t (setL nelx nelz n WX WZ R .lo .mid .lo) :=
  vertOpenEdge_spec hM hL (by simp) (by simp) (by intro nx nz b; simp [sel_lo])

theorem nodesFrontRightOpenEdge_spec : ∃ t, M.nodesFrontRightOpenEdge = .ok t ∧ IsL t (setL nelx nelz n WX WZ R .hi .mid .lo) :=
  vertOpenEdge_spec hM hL (by simp) (by simp) (by intro nx nz b; simp only [sel_lo, sel_hi, List.flatMap_cons, List.flatMap_nil, List.map_cons, List.map_nil, List.append_nil, List.cons_append, List.nil_append]; congr 1; ring)

theorem nodesBackBottomOpenEdge_spec (h0 : 0 < nelx / WX 0) : ∃ t, M.nodesBackBottomOpenEdge = .ok t ∧ IsL t (setL nelx nelz n WX WZ R .mid .lo .hi) := by
  have hp := hL.npos
  have hN : M.nhy.size = 2 * n - 1 := hM.nhy.size
  have gx := hM.layerx.get (show 0 < 2 * n - 1 by omega)
  have gz := hM.layerz.get (show 0 < 2 * n - 1 by omega)
  have gs := hM.startNode.get (show 0 < 2 * n by omega)
  rw [nodesBackBottomOpenEdge]
  simp only [gx, gz, gs, Res.ok_bind]
  obtain ⟨t, h1, h2⟩ := fillOpenEdge_spec _ h0 _
  refine ⟨t, h1, ?_⟩
  rw [plane_bottom hM hL]
  simp only [sel_lo, sel_hi, sel_mid, List.flatMap_cons, List.flatMap_nil, List.map_cons, List.map_nil, List.append_nil, flatMap_one]
  convert h2 using 2
  all_goals (funext k; ring)

theorem nodesBackTopOpenEdge_spec (h0 : 0 < nelx / WX (2 * n - 1 - 1)) : ∃ t, M.nodesBackTopOpenEdge = .ok t ∧ IsL t (setL nelx nelz n WX WZ R .mid .hi .hi) := by
  have hp := hL.npos
  have hN : M.nhy.size = 2 * n - 1 := hM.nhy.size
  have gx := hM.layerx.get (show (2 * n - 1 - 1) < 2 * n - 1 by omega)
  have gz := hM.layerz.get (show (2 * n - 1 - 1) < 2 * n - 1 by omega)
  have gs := hM.startNode.get (show 2 * n - 1 < 2 * n by omega)
  rw [nodesBackTopOpenEdge, hN]
  simp only [gx, gz, gs, Res.ok_bind]
  obtain ⟨t, h1, h2⟩ := fillOpenEdge_spec _ h0 _
  refine ⟨t, h1, ?_⟩
  rw [plane_top hM hL]
  simp only [sel_lo, sel_hi, sel_mid, List.flatMap_cons, List.flatMap_nil, List.map_cons, List.map_nil, List.append_nil, flatMap_one]
  convert h2 using 2
  all_goals (funext k; ring)

theorem nodesBackLeftOpenEdge_spec : ∃ t, M.nodesBackLeftOpenEdge = .ok t ∧ IsL t (setL nelx nelz n WX WZ R .lo .mid .hi) :=
  vertOpenEdge_spec hM hL (by simp) (by simp) (by intro nx nz b; simp only [sel_lo, sel_hi, List.flatMap_cons, List.flatMap_nil, List.map_cons, List.map_nil, List.append_nil, List.cons_append, List.nil_append]; congr 1; ring)

theorem nodesBackRightOpenEdge_spec : ∃ t, M.nodesBackRightOpenEdge = .ok t ∧ IsL t (setL nelx nelz n WX WZ R .hi .mid .hi) :=
  vertOpenEdge_spec hM hL (by simp) (by simp) (by intro nx nz b; simp only [sel_lo, sel_hi, List.flatMap_cons, List.flatMap_nil, List.map_cons, List.map_nil, List.append_nil, List.cons_append, List.nil_append]; congr 1; ring)

theorem nodesBottomLeftOpenEdge_spec (h0 : 0 < nelz / WZ 0) : ∃ t, M.nodesBottomLeftOpenEdge = .ok t ∧ IsL t (setL nelx nelz n WX WZ R .lo .lo .mid) := by
  have hp := hL.npos
  have hN : M.nhy.size = 2 * n - 1 := hM.nhy.size
  have gx := hM.layerx.get (show 0 < 2 * n - 1 by omega)
  have gz := hM.layerz.get (show 0 < 2 * n - 1 by omega)
  have gs := hM.startNode.get (show 0 < 2 * n by omega)
  rw [nodesBottomLeftOpenEdge]
  simp only [gx, gz, gs, Res.ok_bind]
  obtain ⟨t, h1, h2⟩ := fillOpenEdge_spec _ h0 _
  refine ⟨t, h1, ?_⟩
  rw [plane_bottom hM hL]
  simp only [sel_lo, sel_hi, sel_mid, List.flatMap_cons, List.flatMap_nil, List.map_cons, List.map_nil, List.append_nil, flatMap_one]
  convert h2 using 2
  all_goals (funext k; ring)

theorem nodesBottomRightOpenEdge_spec (h0 : 0 < nelz / WZ 0) : ∃ t, M.nodesBottomRightOpenEdge = .ok t ∧ IsL t (setL nelx nelz n WX WZ R .hi .lo .mid) := by
  have hp := hL.npos
  have hN : M.nhy.size = 2 * n - 1 := hM.nhy.size
  have gx := hM.layerx.get (show 0 < 2 * n - 1 by omega)
  have gz := hM.layerz.get (show 0 < 2 * n - 1 by omega)
  have gs := hM.startNode.get (show 0 < 2 * n by omega)
  rw [nodesBottomRightOpenEdge]
  simp only [gx, gz, gs, Res.ok_bind]
  obtain ⟨t, h1, h2⟩ := fillOpenEdge_spec _ h0 _
  refine ⟨t, h1, ?_⟩
  rw [plane_bottom hM hL]
  simp only [sel_lo, sel_hi, sel_mid, List.flatMap_cons, List.flatMap_nil, List.map_cons, List.map_nil, List.append_nil, flatMap_one]
  convert h2 using 2
  all_goals (funext k; ring)

theorem nodesTopLeftOpenEdge_spec (h0 : 0 < nelz / WZ (2 * n - 1 - 1)) : ∃ t, M.nodesTopLeftOpenEdge = .ok t ∧ IsL t (setL nelx nelz n WX WZ R .lo .hi .mid) := by
  have hp := hL.npos
  have hN : M.nhy.size = 2 * n - 1 := hM.nhy.size
  have gx := hM.layerx.get (show (2 * n - 1 - 1) < 2 * n - 1 by omega)
  have gz := hM.layerz.get (show (2 * n - 1 - 1) < 2 * n - 1 by omega)
  have gs := hM.startNode.get (show 2 * n - 1 < 2 * n by omega)
  rw [nodesTopLeftOpenEdge, hN]
  simp only [gx, gz, gs, Res.ok_bind]
  obtain ⟨t, h1, h2⟩ := fillOpenEdge_spec _ h0 _
  refine ⟨t, h1, ?_⟩
  rw [plane_top hM hL]
  simp only [sel_lo, sel_hi, sel_mid, List.flatMap_cons, List.flatMap_nil, List.map_cons, List.map_nil, List.append_nil, flatMap_one]
  convert h2 using 2
  all_goals (funext k; ring)

theorem nodesTopRightOpenEdge_spec (h0 : 0 < nelz / WZ (2 * n - 1 - 1)) : ∃ t, M.nodesTopRightOpenEdge = .ok t ∧ IsL t (setL nelx nelz n WX WZ R .hi .hi .mid) := by
  have hp := hL.npos
  have hN : M.nhy.size = 2 * n - 1 := hM.nhy.size
  have gx := hM.layerx.get (show (2 * n - 1 - 1) < 2 * n - 1 by omega)
  have gz := hM.layerz.get (show (2 * n - 1 - 1) < 2 * n - 1 by omega)
  have gs := hM.startNode.get (show 2 * n - 1 < 2 * n by omega)
  rw [nodesTopRightOpenEdge, hN]
  simp only [gx, gz, gs, Res.ok_bind]
  obtain ⟨t, h1, h2⟩ := fillOpenEdge_spec _ h0 _
  refine ⟨t, h1, ?_⟩
  rw [plane_top hM hL]
  simp only [sel_lo, sel_hi, sel_mid, List.flatMap_cons, List.flatMap_nil, List.map_cons, List.map_nil, List.append_nil, flatMap_one]
  convert h2 using 2
  all_goals (funext k; ring)

theorem nodesFrontBottomLeftCorner_spec : ∃ c, M.nodesFrontBottomLeftCorner = .ok c ∧ setL nelx nelz n WX WZ R .lo .lo .lo = [c] := by
  have hp := hL.npos
  have hN : M.nhy.size = 2 * n - 1 := hM.nhy.size
  have gx := hM.layerx.get (show 0 < 2 * n - 1 by omega)
  have gz := hM.layerz.get (show 0 < 2 * n - 1 by omega)
  have gs := hM.startNode.get (show 0 < 2 * n by omega)
  rw [nodesFrontBottomLeftCorner]
  simp only [gx, gz, gs, Res.ok_bind]
  refine ⟨_, rfl, ?_⟩
  rw [plane_bottom hM hL]
  simp only [sel_lo, sel_hi, List.flatMap_cons, List.flatMap_nil, List.map_cons, List.map_nil, List.append_nil]
  congr 1
  try ring

theorem nodesFrontBottomRightCorner_spec : ∃ c, M.nodesFrontBottomRightCorner = .ok c ∧ setL nelx nelz n WX WZ R .hi .lo .lo = [c] := by
  have hp := hL.npos
  have hN : M.nhy.size = 2 * n - 1 := hM.nhy.size
  have gx := hM.layerx.get (show 0 < 2 * n - 1 by omega)
  have gz := hM.layerz.get (show 0 < 2 * n - 1 by omega)
  have gs := hM.startNode.get (show 0 < 2 * n by omega)
  rw [nodesFrontBottomRightCorner]
  simp only [gx, gz, gs, Res.ok_bind]
  refine ⟨_, rfl, ?_⟩
  rw [plane_bottom hM hL]
  simp only [sel_lo, sel_hi, List.flatMap_cons, List.flatMap_nil, List.map_cons, List.map_nil, List.append_nil]
  congr 1
  try ring

theorem nodesFrontTopLeftCorner_spec : ∃ c, M.nodesFrontTopLeftCorner = .ok c ∧ setL nelx nelz n WX WZ R .lo .hi .lo = [c] := by
  have hp := hL.npos
  have hN : M.nhy.size = 2 * n - 1 := hM.nhy.size
  have gx := hM.layerx.get (show (2 * n - 1 - 1) < 2 * n - 1 by omega)
  have gz := hM.layerz.get (show (2 * n - 1 - 1) < 2 * n - 1 by omega)
  have gs := hM.startNode.get (show 2 * n - 1 < 2 * n by omega)
  rw [nodesFrontTopLeftCorner, hN]
  simp only [gx, gz, gs, Res.ok_bind]
  refine ⟨_, rfl, ?_⟩
  rw [plane_top hM hL]
  simp only [sel_lo, sel_hi, List.flatMap_cons, List.flatMap_nil, List.map_cons, List.map_nil, List.append_nil]
  congr 1
  try ring

theorem nodesFrontTopRightCorner_spec : ∃ c, M.nodesFrontTopRightCorner = .ok c ∧ setL nelx nelz n WX WZ R .hi .hi .lo = [c] := by
  have hp := hL.npos
  have hN : M.nhy.size = 2 * n - 1 := hM.nhy.size
  have gx := hM.layerx.get (show (2 * n - 1 - 1) < 2 * n - 1 by omega)
  have gz := hM.layerz.get (show (2 * n - 1 - 1) < 2 * n - 1 by omega)
  have gs := hM.startNode.get (show 2 * n - 1 < 2 * n by omega)
  rw [nodesFrontTopRightCorner, hN]
  simp only [gx, gz, gs, Res.ok_bind]
  refine ⟨_, rfl, ?_⟩
  rw [plane_top hM hL]
  simp only [sel_lo, sel_hi, List.flatMap_cons, List.flatMap_nil, List.map_cons, List.map_nil, List.append_nil]
  congr 1
  try ring

theorem nodesBackBottomLeftCorner_spec : ∃ c, M.nodesBackBottomLeftCorner = .ok c ∧ setL nelx nelz n WX WZ R .lo .lo .hi = [c] := by
  have hp := hL.npos
  have hN : M.nhy.size = 2 * n - 1 := hM.nhy.size
  have gx := hM.layerx.get (show 0 < 2 * n - 1 by omega)
  have gz := hM.layerz.get (show 0 < 2 * n - 1 by omega)
  have gs := hM.startNode.get (show 0 < 2 * n by omega)
  rw [nodesBackBottomLeftCorner]
  simp only [gx, gz, gs, Res.ok_bind]
  refine ⟨_, rfl, ?_⟩
  rw [plane_bottom hM hL]
  simp only [sel_lo, sel_hi, List.flatMap_cons, List.flatMap_nil, List.map_cons, List.map_nil, List.append_nil]
  congr 1
  try ring

theorem nodesBackBottomRightCorner_spec : ∃ c, M.nodesBackBottomRightCorner = .ok c ∧ setL nelx nelz n WX WZ R .hi .lo .hi = [c] := by
  have hp := hL.npos
  have hN : M.nhy.size = 2 * n - 1 := hM.nhy.size
  have gx := hM.layerx.get (show 0 < 2 * n - 1 by omega)
  have gz := hM.layerz.get (show 0 < 2 * n - 1 by omega)
  have gs := hM.startNode.get (show 0 < 2 * n by omega)
  rw [nodesBackBottomRightCorner]
  simp only [gx, gz, gs, Res.ok_bind]
  refine ⟨_, rfl, ?_⟩
  rw [plane_bottom hM hL]
  simp only [sel_lo, sel_hi, List.flatMap_cons, List.flatMap_nil, List.map_cons, List.map_nil, List.append_nil]
  congr 1
  try ring

theorem nodesBackTopLeftCorner_spec : ∃ c, M.nodesBackTopLeftCorner = .ok c ∧ setL nelx nelz n WX WZ R .lo .hi .hi = [c] := by
  have hp := hL.npos
  have hN : M.nhy.size = 2 * n - 1 := hM.nhy.size
  have gx := hM.layerx.get (show (2 * n - 1 - 1) < 2 * n - 1 by omega)
  have gz := hM.layerz.get (show (2 * n - 1 - 1) < 2 * n - 1 by omega)
  have gs := hM.startNode.get (show 2 * n - 1 < 2 * n by omega)
  rw [nodesBackTopLeftCorner, hN]
  simp only [gx, gz, gs, Res.ok_bind]
  refine ⟨_, rfl, ?_⟩
  rw [plane_top hM hL]
  simp only [sel_lo, sel_hi, List.flatMap_cons, List.flatMap_nil, List.map_cons, List.map_nil, List.append_nil]
  congr 1
  try ring

theorem nodesBackTopRightCorner_spec : ∃ c, M.nodesBackTopRightCorner = .ok c ∧ setL nelx nelz n WX WZ R .hi .hi .hi = [c] := by
  have hp := hL.npos
  have hN : M.nhy.size = 2 * n - 1 := hM.nhy.size
  have gx := hM.layerx.get (show (2 * n - 1 - 1) < 2 * n - 1 by omega)
  have gz := hM.layerz.get (show (2 * n - 1 - 1) < 2 * n - 1 by omega)
  have gs := hM.startNode.get (show 2 * n - 1 < 2 * n by omega)
  rw [nodesBackTopRightCorner, hN]
  simp only [gx, gz, gs, Res.ok_bind]
  refine ⟨_, rfl, ?_⟩
  rw [plane_top hM hL]
  simp only [sel_lo, sel_hi, List.flatMap_cons, List.flatMap_nil, List.map_cons, List.map_nil, List.append_nil]
  congr 1
  try ring

end edges
end GF.FineLayer3
