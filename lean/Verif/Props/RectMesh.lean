import Verif.Props.Surface
import Verif.Spec.System
import Verif.Props.ElementQuad4Mech
import Verif.Props.Vector
import Mathlib.Tactic.LinearCombination

/-! **C73** The quadrilateral meshes are conforming meshes of a rectangle; the volumes of all integration points add up to
the area of the rectangle. -/

namespace GF
open Finset ElemSpec
variable {α : Type}

variable [Field α] [LinearOrder α] [IsStrictOrderedRing α]

/-- the regular grid of quadrilaterals is a mesh of a rectangle -/
theorem regular_rect (nelx nely : Nat) {h : α} (hh : 0 < h) :
    let M := Quad4.Regular.new nelx nely h
    RectMesh M.nnode M.nelem (gridQuad nelx) (gridCoor h nelx) (h * (nelx : α)) (h * (nely : α)) (gridOutline nelx nely) := by
  intro M
  have node : ∀ {i j : Nat}, i < nely + 1 → j < nelx + 1 → i * (nelx + 1) + j < M.nnode := by
    intro i j hi hj
    have := grid_lt hi hj
    rw [Nat.mul_comm (nely + 1)] at this
    exact this
  have split : ∀ e, e < M.nelem → ∃ iy ix, iy < nely ∧ ix < nelx ∧ e = iy * nelx + ix := by
    intro e he
    have he' : e < nely * nelx := by rw [Nat.mul_comm]; exact he
    exact grid_exists he'
  refine ⟨by simp [M, Quad4.Regular.new], fun e a he ha => ?_, fun e he => ?_, gridQuad_perimeter nelx nely,
    ⟨Nat.succ_pos _, rfl, Nat.succ_pos _, rfl⟩, fun i hi => ?_, fun i hi => ?_, fun i hi => ?_, fun i hi => ?_,
    fun i hi => ?_, fun i hi => ?_, fun m hm => ?_, fun m m' hm hm' p0 p1 => ?_, fun lx ly m hm => ?_⟩
  · obtain ⟨iy, ix, hy, hx, rfl⟩ := split e he
    rw [gridQuad, grid_div hx, grid_mod hx]
    split_ifs <;> exact node (by omega) (by omega)
  · obtain ⟨iy, ix, hy, hx, rfl⟩ := split e he
    have p : ∀ {i j : Nat}, j < nelx + 1 → _ := fun {i j} hj => gridCoor_node h (nelx := nelx) (i := i) (j := j) hj
    simp only [Convex4, turn, gridQuad, grid_div hx, grid_mod hx, if_true, show (1 : Nat) ≠ 0 by omega, if_false,
      show (2 : Nat) ≠ 0 by omega, show (2 : Nat) ≠ 1 by omega, show (3 : Nat) ≠ 0 by omega, show (3 : Nat) ≠ 1 by omega,
      show (3 : Nat) ≠ 2 by omega]
    simp only [M, Quad4.Regular.new, (p (show ix < nelx + 1 by omega)).1, (p (show ix < nelx + 1 by omega)).2,
      (p (show ix + 1 < nelx + 1 by omega)).1, (p (show ix + 1 < nelx + 1 by omega)).2]
    push_cast
    have : 0 < h * h := mul_pos hh hh
    refine ⟨?_, ?_, ?_, ?_⟩ <;> linarith
  · have := gridCoor_node h (nelx := nelx) (i := 0) (j := i) hi
    have n0 := node (i := 0) (j := i) (by omega) hi
    rw [Nat.zero_mul, Nat.zero_add] at this n0
    exact ⟨n0, this.2.trans (by simp)⟩
  · have h0 := gridCoor_node h (nelx := nelx) (i := 0) (j := i) hi
    have h1 := gridCoor_node h (nelx := nelx) (i := nely) (j := i) hi
    rw [Nat.zero_mul, Nat.zero_add] at h0
    exact ⟨node (by omega) hi, h1.2, h1.1.trans h0.1.symm⟩
  · have h0 := gridCoor_node h (nelx := nelx) (i := i) (j := 0) (by omega)
    exact ⟨node (j := 0) hi (by omega), h0.1.trans (by simp)⟩
  · have h0 := gridCoor_node h (nelx := nelx) (i := i) (j := 0) (by omega)
    have h1 := gridCoor_node h (nelx := nelx) (i := i) (j := nelx) (by omega)
    exact ⟨node hi (by omega), h1.1, h1.2.trans h0.2.symm⟩
  · have h0 := gridCoor_node h (nelx := nelx) (i := 0) (j := i) (Nat.lt_of_succ_lt hi)
    have h1 := gridCoor_node h (nelx := nelx) (i := 0) (j := i + 1) hi
    rw [Nat.zero_mul, Nat.zero_add] at h0 h1
    refine h0.1.trans_lt (lt_of_lt_of_eq ?_ h1.1.symm)
    push_cast
    linarith
  · have h0 := gridCoor_node h (nelx := nelx) (i := i) (j := 0) (by omega)
    have h1 := gridCoor_node h (nelx := nelx) (i := i + 1) (j := 0) (by omega)
    refine h0.2.trans_lt (lt_of_lt_of_eq ?_ h1.2.symm)
    push_cast
    linarith
  · have hm' : m < (nely + 1) * (nelx + 1) := by rw [Nat.mul_comm]; exact hm
    obtain ⟨i, j, hi, hj, rfl⟩ := grid_exists hm'
    have p := gridCoor_node h (nelx := nelx) (i := i) (j := j) hj
    have e0 : (0 : α) ≤ h * (j : α) := mul_nonneg hh.le (Nat.cast_nonneg _)
    have e1 : (0 : α) ≤ h * (i : α) := mul_nonneg hh.le (Nat.cast_nonneg _)
    have e2 : h * (j : α) ≤ h * (nelx : α) := mul_le_mul_of_nonneg_left (Nat.cast_le.2 (by omega)) hh.le
    have e3 : h * (i : α) ≤ h * (nely : α) := mul_le_mul_of_nonneg_left (Nat.cast_le.2 (by omega)) hh.le
    exact ⟨e0.trans_eq p.1.symm, p.1.trans_le e2, e1.trans_eq p.2.symm, p.2.trans_le e3⟩
  · have hq : m < (nely + 1) * (nelx + 1) := by rw [Nat.mul_comm]; exact hm
    have hq' : m' < (nely + 1) * (nelx + 1) := by rw [Nat.mul_comm]; exact hm'
    obtain ⟨i, j, hi, hj, rfl⟩ := grid_exists hq
    obtain ⟨i', j', hi', hj', rfl⟩ := grid_exists hq'
    have p := gridCoor_node h (nelx := nelx) (i := i) (j := j) hj
    have p' := gridCoor_node h (nelx := nelx) (i := i') (j := j') hj'
    have z0 : (j : α) = j' := mul_left_cancel₀ hh.ne' (p.1.symm.trans (p0.trans p'.1))
    have z1 : (i : α) = i' := mul_left_cancel₀ hh.ne' (p.2.symm.trans (p1.trans p'.2))
    rw [Nat.cast_inj.1 z0, Nat.cast_inj.1 z1]
  · have p1 : 0 < nelx := Nat.pos_of_ne_zero fun e => by simp [e] at lx
    have p2 : 0 < nely := Nat.pos_of_ne_zero fun e => by simp [e] at ly
    have hm' : m < (nely + 1) * (nelx + 1) := by rw [Nat.mul_comm]; exact hm
    obtain ⟨i, j, hi, hj, rfl⟩ := grid_exists hm'
    have el : ∀ {iy ix : Nat}, iy < nely → ix < nelx → iy * nelx + ix < M.nelem := fun a b => by
      have := grid_lt a b
      rw [Nat.mul_comm nely] at this
      exact this
    rcases Nat.lt_or_ge i nely with hi' | hi' <;> rcases Nat.lt_or_ge j nelx with hj' | hj'
    · exact ⟨i * nelx + j, 0, el hi' hj', by omega, by simp [gridQuad, grid_div hj', grid_mod hj']⟩
    · have l : nelx - 1 < nelx := by omega
      refine ⟨i * nelx + (nelx - 1), 1, el hi' l, by omega, ?_⟩
      simp only [gridQuad, grid_div l, grid_mod l, show (1 : Nat) ≠ 0 by omega, if_false, if_true]
      rw [show nelx - 1 + 1 = j by omega]
    · have l : nely - 1 < nely := by omega
      refine ⟨(nely - 1) * nelx + j, 3, el l hj', by omega, ?_⟩
      simp only [gridQuad, grid_div hj', grid_mod hj', show (3 : Nat) ≠ 0 by omega, show (3 : Nat) ≠ 1 by omega,
        show (3 : Nat) ≠ 2 by omega, if_false]
      rw [show nely - 1 + 1 = i by omega]
    · have l : nely - 1 < nely := by omega
      have l' : nelx - 1 < nelx := by omega
      refine ⟨(nely - 1) * nelx + (nelx - 1), 2, el l l', by omega, ?_⟩
      simp only [gridQuad, grid_div l', grid_mod l', show (2 : Nat) ≠ 0 by omega, show (2 : Nat) ≠ 1 by omega, if_false, if_true]
      rw [show nely - 1 + 1 = i by omega, show nelx - 1 + 1 = j by omega]

/-- **C73** (Quad4 `Regular`) -/
theorem C73_quad4_regular (nelx nely : Nat) {h : α} (hh : 0 < h) :
    let M := Quad4.Regular.new nelx nely h
    ∃ c x O, MeshArrays M.nnode M.nelem c x O (Quad4.Regular.conn M) M.coor (Quad4.Regular.nodesBottomEdge M)
        (Quad4.Regular.nodesRightEdge M) (Quad4.Regular.nodesTopEdge M) (Quad4.Regular.nodesLeftEdge M) ∧
      RectMesh M.nnode M.nelem c x (h * (nelx : α)) (h * (nely : α)) O := by
  intro M
  obtain ⟨h1, h2, h3, h4, h5⟩ := Quad4.Regular.sides nelx nely h
  exact ⟨gridQuad nelx, _, gridOutline nelx nely, ⟨h1, M.coor_spec rfl rfl, h2, h3, h4, h5⟩, regular_rect nelx nely hh⟩

open FineLayer FineLayerSpec in
/-- **C73** (Quad4 `FineLayer`) -/
theorem C73_finelayer (nelx nely : Nat) (hy : 0 < nely) {h : α} (hh : 0 < h) (nfine : Nat) :
    ∃ M Ny c x O, FineLayer.new nelx nely h nfine = .ok M ∧ M.nely = .ok Ny ∧
      MeshArrays M.nnode M.nelem c x O M.conn M.coor M.nodesBottomEdge M.nodesRightEdge M.nodesTopEdge M.nodesLeftEdge ∧
      RectMesh M.nnode M.nelem c x (h * (nelx : α)) (h * (Ny : α)) O := by
  obtain ⟨M, n, W, G, R, Ny, ct, x, h1, hL, hM, e1, hNy, hNy0, e2, e3, e4, hP, hw⟩ := FineLayer.meshN nelx nely hy h nfine
  have hp := hL.npos
  have T := edgeTable hM hp
  have rp := rowPos hL hh hP
  have lt := @rowS_lt nelx n W R
  rw [← e4] at lt
  obtain ⟨t, c, t1, t2, hPer⟩ := FineLayer.perimeter hL hM
  obtain ⟨M', ct', x', t', c', k1, k2, k3, k4, k5, k6⟩ := C36_convex nelx nely hy h hh nfine
  obtain rfl : M = M' := by rw [h1] at k1; injection k1
  obtain rfl : ct = ct' := by rw [e2] at k2; injection k2
  obtain rfl : t = t' := by rw [t1] at k4; injection k4
  obtain ⟨M'', u1, u2⟩ : ∃ M'', FineLayer.new nelx nely h nfine = .ok M'' ∧ ∀ e j, e < M''.nelem → j < 4 → c e j < M''.nnode := by
    obtain ⟨M'', n', w', g', r', ct', x', t', c', k1, -, -, -, -, -, k3, k4, -, -, hF⟩ := FineLayer.mesh nelx nely hy h nfine
    obtain rfl : M = M'' := by rw [h1] at k1; injection k1
    obtain rfl : t = t' := by rw [t1] at k3; injection k3
    exact ⟨M, h1, fun e j he hj => by rw [t2.unique k4 he hj]; exact hF.valid e j he hj⟩
  obtain rfl : M = M'' := by rw [h1] at u1; injection u1
  refine ⟨M, Ny, c, x, fineOutline nelx n W R, h1, e1, ⟨⟨t, t1, t2⟩, ⟨ct, e2, e3⟩, T.bottom, T.right, T.top, T.left⟩, ?_⟩
  refine ⟨?_, u2, fun e he => ?_, hPer, ⟨Nat.succ_pos _, by simp only [fineOutline, hw], by simp only [fineOutline]; omega, rfl⟩, fun i hi => ?_, fun i hi => ?_,
    fun i hi => ?_, fun i hi => ?_, fun i hi => ?_, fun i hi => ?_, fun m hm => ?_, fun m m' hm hm' p0 p1 => ?_, fun lx _ m hm => ?_⟩
  · have := lt (i := 0) (a := 0) (by omega) (Nat.zero_le _)
    omega
  · have := k6 e he
    simp only [Convex4, turn] at this ⊢
    have xe : ∀ a i, a < 4 → i < 2 → x' (c' e a) i = x (c e a) i := fun a i ha hi => by
      rw [← t2.unique k5 he ha, e3.unique k3 (u2 e a he ha) hi]
    simpa only [xe 0 0 (by omega) (by omega), xe 0 1 (by omega) (by omega), xe 1 0 (by omega) (by omega),
      xe 1 1 (by omega) (by omega), xe 2 0 (by omega) (by omega), xe 2 1 (by omega) (by omega), xe 3 0 (by omega) (by omega),
      xe 3 1 (by omega) (by omega)] using this
  · have hi' : i ≤ nelx / rowW n W 0 := Nat.lt_succ_iff.1 hi
    exact ⟨lt (by omega) hi', (rp.y0 0 _ (by omega) hi').2 rfl⟩
  · have hi' : i ≤ nelx / rowW n W (2 * n - 1) := Nat.lt_succ_iff.1 hi
    have hi0 : i ≤ nelx / rowW n W 0 := by rw [← hw]; exact hi'
    refine ⟨lt (by omega) hi', by rw [hNy]; exact (rp.y1 _ _ (by omega) hi').2 rfl, ?_⟩
    simp only [fineOutline]
    rw [(hP.row (by omega) hi').1, (hP.row (by omega) hi0).1, hw]
  · exact ⟨lt (a := 0) hi (Nat.zero_le _), (rp.x0 i 0 hi (Nat.zero_le _)).2 rfl⟩
  · refine ⟨lt hi le_rfl, (rp.x1 i _ hi le_rfl).2 rfl, ?_⟩
    simp only [fineOutline]
    rw [(hP.row (i := i) hi le_rfl).2]
    exact (hP.row (i := i) (a := 0) hi (Nat.zero_le _)).2.symm
  · simp only [fineOutline] at hi ⊢
    exact rp.xlt 0 i (i + 1) (by omega) (by omega) (by omega) (by omega)
  · simp only [fineOutline] at hi ⊢
    exact rp.ylt i (i + 1) 0 0 (by omega) (by omega) (Nat.zero_le _) (Nat.zero_le _)
  · rw [e4] at hm
    have mono : ∀ a b : Nat, a ≤ b → h * ((a : Nat) : α) ≤ h * ((b : Nat) : α) := fun a b hab =>
      mul_le_mul_of_nonneg_left (Nat.cast_le.2 hab) hh.le
    have z : (0 : α) = h * ((0 : Nat) : α) := by simp
    rcases node_cases hL hP hm with ⟨i, a, hi, ha, rfl⟩ | ⟨X, Y, p0, p1, q1, q2, q3, q4⟩
    · obtain ⟨p0, p1⟩ := hP.row hi ha
      rw [p0, p1, z, hNy]
      refine ⟨mono _ _ (by omega), mono _ _ ?_, mono _ _ (by omega), mono _ _ (height_mono (by omega))⟩
      calc a * rowW n W i ≤ nelx / rowW n W i * rowW n W i := Nat.mul_le_mul_right _ ha
        _ = nelx := Nat.div_mul_cancel (hL.rowW_dvd hi)
    · rw [p0, p1, z, hNy]
      exact ⟨mono _ _ (by omega), mono _ _ (by omega), mono _ _ (by omega), mono _ _ (by omega)⟩
  · rw [e4] at hm hm'
    exact node_inj hL hh.ne' hP hm hm' p0 p1
  · have p1 : 0 < nelx := Nat.pos_of_ne_zero fun e => by simp [e] at lx
    obtain ⟨M', t', c', k1, k2, k3, k4⟩ := C36_used nelx nely p1 hy h hh nfine
    obtain rfl : M = M' := by rw [h1] at k1; injection k1
    obtain rfl : t = t' := by rw [t1] at k2; injection k2
    obtain ⟨e, a, he, ha, h⟩ := k4 m hm
    exact ⟨e, a, he, ha, by rw [t2.unique k3 he ha, h]⟩

section volume
variable {nn ne : Nat} {c : Nat → Nat → Nat} {x : Nat → Nat → α} {Lx Ly : α} {O : Outline}

/-- telescoping along a side -/
theorem pathSum_sub (l : Nat) (P : Nat → Nat) (y : Nat → α) : pathSum l P (fun p q => y q - y p) = y (P (l - 1)) - y (P 0) :=
  sum_range_sub (fun i => y (P i)) (l - 1)

/-- **C73** the areas of the elements add up to the area of the rectangle -/
theorem C73_area (hM : RectMesh nn ne c x Lx Ly O) : ∑ e ∈ range ne, area4 (fun a => x (c e a)) = Lx * Ly := by
  have h := hM.perimeter.stokes (fun p q => (x p 0 * x q 1 - x q 0 * x p 1) / 2) (fun p q => by ring)
  have h0 : ∑ e ∈ range ne, area4 (fun a => x (c e a)) = edgeSum 4 ne c (fun p q => (x p 0 * x q 1 - x q 0 * x p 1) / 2) := by
    refine sum_congr rfl fun e _ => ?_
    simp only [sum_range_succ, sum_range_zero, area4]
    norm_num
    ring
  obtain ⟨s1, s2, s3, s4⟩ := hM.sizes
  have hb : pathSum O.nb O.bottom (fun p q => (x p 0 * x q 1 - x q 0 * x p 1) / 2) = 0 := by
    refine sum_eq_zero fun i hi => ?_
    rw [mem_range] at hi
    beta_reduce
    rw [(hM.bottom i (by omega)).2, (hM.bottom (i + 1) (by omega)).2]; ring
  have hl : pathSum O.nl O.left (fun p q => (x p 0 * x q 1 - x q 0 * x p 1) / 2) = 0 := by
    refine sum_eq_zero fun i hi => ?_
    rw [mem_range] at hi
    beta_reduce
    rw [(hM.left i (by omega)).2, (hM.left (i + 1) (by omega)).2]; ring
  have hr : pathSum O.nr O.right (fun p q => (x p 0 * x q 1 - x q 0 * x p 1) / 2) =
      pathSum O.nr O.right (fun p q => Lx / 2 * x q 1 - Lx / 2 * x p 1) := by
    refine sum_congr rfl fun i hi => ?_
    rw [mem_range] at hi
    beta_reduce
    rw [(hM.right i (by omega)).2.1, (hM.right (i + 1) (by omega)).2.1]; ring
  have ht : pathSum O.nt O.top (fun p q => (x p 0 * x q 1 - x q 0 * x p 1) / 2) =
      pathSum O.nt O.top (fun p q => (- Ly / 2) * x q 0 - (- Ly / 2) * x p 0) := by
    refine sum_congr rfl fun i hi => ?_
    rw [mem_range] at hi
    beta_reduce
    rw [(hM.top i (by omega)).2.1, (hM.top (i + 1) (by omega)).2.1]; ring
  rw [h0, h, hb, hl, hr, ht, pathSum_sub (y := fun m => Lx / 2 * x m 1), pathSum_sub (y := fun m => - Ly / 2 * x m 0),
    ← hM.perimeter.br, ← hM.perimeter.tr, hM.perimeter.tl, (hM.bottom _ (by omega)).2, (hM.left _ (by omega)).2,
    (hM.top _ (by omega)).2.1]
  have : x (O.top (O.nt - 1)) 0 = Lx := by rw [hM.perimeter.tr]; exact (hM.right _ (by omega)).2.1
  rw [this]
  ring

open Element Element.Quad4 in
/-- the quadrature object for the elements of a mesh, also if there are more nodes than those of the mesh -/
theorem RectMesh.quad (hM : RectMesh nn ne c x Lx Ly O) {s : α} (s1 : -1 ≤ s) (s2 : s ≤ 1) (σ τ : Sched) {V : Vector} {d : Nat → Nat → Nat}
    (hV : V.Holds c d) (h2 : V.nelem = ne) (h3 : V.nne = 4) (h5 : V.ndim = 2) {coor : Ten α} {y : Nat → Nat → α} (hy : Is2 coor V.nnode 2 y)
    (hyx : ∀ m i, m < nn → i < 2 → y m i = x m i) :
    ∃ xe Q, V.AsElement σ coor = .ok xe ∧ newGauss s τ xe = .ok Q ∧
      Live 2 1 ne 4 (fun q i => s * corner4 q i) (fun _ => 1) Q (fun e m i => x (c e m) i) ∧
      ∀ e q, e < ne → q < 4 → 0 < det4 (fun m i => x (c e m) i) (s * corner4 q 0) (s * corner4 q 1) := by
  obtain ⟨xe, g1, g2⟩ := C03_element_of_node hV σ (x := coor) (g := y) (by rw [h5]; exact hy)
  rw [h2, h3, h5] at g2
  have g2' := g2.congr (g := fun e m i => x (c e m) i) fun e m i he hm hi => (hyx _ _ (hM.valid e m he hm) hi)
  obtain ⟨xi, r1, r2⟩ := rule_ok s
  obtain ⟨w, r3, r4⟩ := (weights_ok (α := α)).1
  obtain ⟨Q, r5, hQ⟩ := C53_constructor τ g2' r2 r4
  refine ⟨xe, Q, g1, ?_, hQ, fun e q he hq => ?_⟩
  · simp only [newGauss, r1, r3, r5, Res.ok_bind]
  · have hb : ∀ q i, -1 ≤ s * corner4 q i ∧ s * corner4 q i ≤ 1 := by
      intro q i
      have : corner4 (α := α) q i = 1 ∨ corner4 (α := α) q i = -1 := by unfold corner4; split <;> simp
      rcases this with h | h <;> rw [h] <;> constructor <;> linarith
    exact det_pos (hM.convex e he) (hb q 0).1 (hb q 0).2 (hb q 1).1 (hb q 1).2

open Element Element.Quad4 in
/-- what the two constructors return for a mesh -/
theorem RectMesh.setup (hM : RectMesh nn ne c x Lx Ly O) {s : α} (s1 : -1 ≤ s) (s2 : s ≤ 1) (σ τ : Sched) {conn dofs : Ten Nat}
    {coor : Ten α} {d : Nat → Nat → Nat} (hc : Is2 conn ne 4 c) (hx : Is2 coor nn 2 x) (hd : Is2 dofs nn 2 d) :
    ∃ V Q, GF.setup s σ τ conn dofs coor = .ok (V, Q) ∧ V.Holds c d ∧ V.nelem = ne ∧ V.nne = 4 ∧ V.nnode = nn ∧ V.ndim = 2 ∧
      (∃ m i, m < nn ∧ i < 2 ∧ V.ndof = d m i + 1) ∧
      Live 2 1 ne 4 (fun q i => s * corner4 q i) (fun _ => 1) Q (fun e m i => x (c e m) i) ∧
      ∀ e q, e < ne → q < 4 → 0 < det4 (fun m i => x (c e m) i) (s * corner4 q 0) (s * corner4 q 1) := by
  obtain ⟨V, h1, h2, h3, h4, h5, hV, h6⟩ := C08_constructor hc hd hM.nodes (by omega) hM.valid
  obtain ⟨xe, Q, g1, g2, hQ, hp⟩ := hM.quad s1 s2 σ τ hV h2 h3 h5 (by rw [h4]; exact hx) fun _ _ _ _ => rfl
  refine ⟨V, Q, ?_, hV, h2, h3, h4, h5, h6, hQ, hp⟩
  simp only [GF.setup, h1, g1, g2, Res.ok_bind]; rfl

open Element Element.Quad4 in
/-- **C73** the volumes of all integration points are positive and add up to the area of the rectangle -/
theorem C73_volume (hM : RectMesh nn ne c x Lx Ly O) {s : α} (s1 : -1 ≤ s) (s2 : s ≤ 1) (σ τ : Sched) {conn dofs : Ten Nat}
    {coor : Ten α} {d : Nat → Nat → Nat} (hc : Is2 conn ne 4 c) (hx : Is2 coor nn 2 x) (hd : Is2 dofs nn 2 d) :
    IsOk (GF.setup s σ τ conn dofs coor) fun S => ∃ V, Is2 S.2.vol ne 4 V ∧ (∀ e q, e < ne → q < 4 → 0 < V e q) ∧
      ∑ e ∈ range ne, ∑ q ∈ range 4, V e q = Lx * Ly := by
  obtain ⟨V, Q, h1, -, -, -, -, -, -, hQ, hp⟩ := hM.setup s1 s2 σ τ hc hx hd
  refine ⟨_, h1, _, C46_volume hQ, fun e q he hq => by rw [one_mul]; exact hp e q he hq, ?_⟩
  rw [← C73_area hM]
  refine sum_congr rfl fun e _ => ?_
  simp only [one_mul]
  exact det4_sum _ s

end volume

end GF
