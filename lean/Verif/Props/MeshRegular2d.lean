import Verif.Lemmas.MeshRegular2d
import Mathlib.Algebra.Order.Ring.Rat
import Mathlib.Tactic.NormNum

/-! C31: Quad4 regular mesh; C32: boundary sets; C33: periodicity (Quad4 and Tri3 regular). -/

namespace GF
variable {α : Type}

/-- **C31** number of nodes and elements -/
theorem C31_counts (nelx nely : Nat) (h : α) :
    (Quad4.Regular.new nelx nely h).nnode = (nelx + 1) * (nely + 1) ∧
    (Quad4.Regular.new nelx nely h).nelem = nelx * nely ∧
    (Quad4.Regular.new nelx nely h).nne = 4 ∧ (Quad4.Regular.new nelx nely h).ndim = 2 :=
  ⟨rfl, rfl, rfl, rfl⟩

theorem gridCoor_node [Mul α] [NatCast α] (h : α) {nelx i j : Nat} (hj : j < nelx + 1) :
    gridCoor h nelx (i * (nelx + 1) + j) 0 = h * (j : α) ∧
    gridCoor h nelx (i * (nelx + 1) + j) 1 = h * (i : α) := by
  simp [gridCoor, grid_mod hj, grid_div hj]

/-- **C31** `coor()`: the nodes are exactly the points of the `(nelx+1) × (nely+1)` grid with spacing
`h`, each grid point being the position of exactly one node. -/
theorem C31_coor [Field α] [CharZero α] (nelx nely : Nat) {h : α} (hh : h ≠ 0) :
    ∃ c x, (Quad4.Regular.new nelx nely h).coor = .ok c ∧
      Is2 c ((nelx + 1) * (nely + 1)) 2 x ∧
      (∀ k, k < (nelx + 1) * (nely + 1) → ∃ i j, i ≤ nelx ∧ j ≤ nely ∧
        x k 0 = h * (i : α) ∧ x k 1 = h * (j : α)) ∧
      (∀ i j, i ≤ nelx → j ≤ nely → ∃! k, k < (nelx + 1) * (nely + 1) ∧
        x k 0 = h * (i : α) ∧ x k 1 = h * (j : α)) := by
  obtain ⟨c, h1, h2⟩ := (Quad4.Regular.new nelx nely h).coor_spec rfl rfl
  refine ⟨c, _, h1, h2, fun k hk => ?_, fun i j hi hj => ?_⟩
  · rw [Nat.mul_comm] at hk
    obtain ⟨b, a, hb, ha, rfl⟩ := grid_exists hk
    exact ⟨a, b, by omega, by omega, gridCoor_node h ha⟩
  · refine ⟨j * (nelx + 1) + i, ⟨?_, gridCoor_node h (nelx := nelx) (by omega)⟩, ?_⟩
    · rw [Nat.mul_comm (nelx + 1)]; exact grid_lt (by omega) (by omega)
    · rintro k ⟨hk, e1, e2⟩
      rw [Nat.mul_comm] at hk
      obtain ⟨b, a, hb, ha, rfl⟩ := grid_exists hk
      have := gridCoor_node h (i := b) ha
      change gridCoor h nelx (b * (nelx + 1) + a) 0 = _ at e1
      change gridCoor h nelx (b * (nelx + 1) + a) 1 = _ at e2
      rw [this.1, mul_right_inj' hh, Nat.cast_inj] at e1
      rw [this.2, mul_right_inj' hh, Nat.cast_inj] at e2
      rw [e1, e2]

theorem Quad4.Regular.conn_spec (nelx nely : Nat) (h : α) :
    ∃ t, conn (new nelx nely h) = .ok t ∧ Is2 t (nelx * nely) 4 (fun e l =>
      let p := (e / nelx, e % nelx)
      if l = 0 then p.1 * (nelx + 1) + p.2
      else if l = 1 then p.1 * (nelx + 1) + (p.2 + 1)
      else if l = 2 then (p.1 + 1) * (nelx + 1) + (p.2 + 1)
      else (p.1 + 1) * (nelx + 1) + p.2) := by
  obtain ⟨t, a1, a2⟩ := rows_it2 nely nelx 4 (fun (s : Ten Nat × Nat) p => do
    let iy := p.1
    let ix := p.2
    let ret ← s.1.set [s.2, 0] (iy * (nelx + 1) + ix)
    let ret ← ret.set [s.2, 1] (iy * (nelx + 1) + (ix + 1))
    let ret ← ret.set [s.2, 3] ((iy + 1) * (nelx + 1) + ix)
    let ret ← ret.set [s.2, 2] ((iy + 1) * (nelx + 1) + (ix + 1))
    .ok (ret, s.2 + 1))
    (fun p l => if l = 0 then p.1 * (nelx + 1) + p.2
      else if l = 1 then p.1 * (nelx + 1) + (p.2 + 1)
      else if l = 2 then (p.1 + 1) * (nelx + 1) + (p.2 + 1)
      else (p.1 + 1) * (nelx + 1) + p.2) (nelx * nely) (by rw [Nat.mul_comm])
    (by
      intro i j hi hj t c hs hc
      refine ⟨((((t.put [c, 0] (i * (nelx + 1) + j)).put [c, 1] (i * (nelx + 1) + (j + 1))).put [c, 3]
        ((i + 1) * (nelx + 1) + j)).put [c, 2] ((i + 1) * (nelx + 1) + (j + 1))), ?_, hs, ?_, ?_⟩
      · dsimp only
        rw [set_put (by simp [hs, hc]), Res.ok_bind, set_put (by simp [hs, hc]), Res.ok_bind,
          set_put (by simp [hs, hc]), Res.ok_bind, set_put (by simp [hs, hc]), Res.ok_bind]
      · intro l hl
        obtain rfl | rfl | rfl | rfl : l = 0 ∨ l = 1 ∨ l = 2 ∨ l = 3 := by omega
        all_goals simp [Ten.put_v]
      · intro r l hr
        have : r ≠ c := by omega
        simp [Ten.put_v, this])
  exact ⟨t, by simp only [conn, new, a1, Res.ok_bind], a2⟩

/-- **C31** `conn()` and `elementgrid()`: `elementgrid` numbers the cells of the grid (row `iy`, column
`ix`) bijectively by the elements, and the four nodes of an element are the corners of its cell, in
counter-clockwise order starting at the lower left. -/
theorem C31_conn [Field α] [CharZero α] (nelx nely : Nat) (h : α) :
    ∃ c x t conn g eg, (Quad4.Regular.new nelx nely h).coor = .ok c ∧
      Is2 c ((nelx + 1) * (nely + 1)) 2 x ∧
      Quad4.Regular.conn (Quad4.Regular.new nelx nely h) = .ok t ∧
      Is2 t (nelx * nely) 4 conn ∧
      Quad4.Regular.elementgrid (Quad4.Regular.new nelx nely h) = .ok g ∧ Is2 g nely nelx eg ∧
      (∀ e, e < nelx * nely → ∃ iy ix, iy < nely ∧ ix < nelx ∧ eg iy ix = e) ∧
      (∀ iy ix iy' ix', iy < nely → ix < nelx → iy' < nely → ix' < nelx →
        eg iy ix = eg iy' ix' → iy = iy' ∧ ix = ix') ∧
      (∀ e m, e < nelx * nely → m < 4 → conn e m < (nelx + 1) * (nely + 1)) ∧
      ∀ iy ix, iy < nely → ix < nelx → eg iy ix < nelx * nely ∧
        (x (conn (eg iy ix) 0) 0 = h * (ix : α) ∧ x (conn (eg iy ix) 0) 1 = h * (iy : α)) ∧
        (x (conn (eg iy ix) 1) 0 = h * ((ix + 1 : Nat) : α) ∧ x (conn (eg iy ix) 1) 1 = h * (iy : α)) ∧
        (x (conn (eg iy ix) 2) 0 = h * ((ix + 1 : Nat) : α) ∧
          x (conn (eg iy ix) 2) 1 = h * ((iy + 1 : Nat) : α)) ∧
        (x (conn (eg iy ix) 3) 0 = h * (ix : α) ∧ x (conn (eg iy ix) 3) 1 = h * ((iy + 1 : Nat) : α)) := by
  obtain ⟨c, h1, h2⟩ := (Quad4.Regular.new nelx nely h).coor_spec rfl rfl
  obtain ⟨t, h3, h4⟩ := Quad4.Regular.conn_spec nelx nely h
  refine ⟨c, _, t, _, _, _, h1, h2, h3, h4, if_pos (by simp [Quad4.Regular.new, Nat.mul_comm]),
    is2_of _ _ _, ?_, ?_, ?_, ?_⟩
  · intro e he
    rw [Nat.mul_comm] at he
    obtain ⟨b, a, hb, ha, rfl⟩ := grid_exists he
    exact ⟨b, a, hb, ha, rfl⟩
  · intro iy ix iy' ix' _ hix _ hix' he
    exact grid_inj hix hix' he
  · intro e m he hm
    rw [Nat.mul_comm] at he
    obtain ⟨b, a, hb, ha, rfl⟩ := grid_exists he
    rw [Nat.mul_comm (nelx + 1)]
    dsimp only
    rw [grid_div ha, grid_mod ha]
    obtain rfl | rfl | rfl | rfl : m = 0 ∨ m = 1 ∨ m = 2 ∨ m = 3 := by omega
    all_goals exact grid_lt (by omega) (by omega)
  · intro iy ix hiy hix
    simp only [List.getD_cons_zero, List.getD_cons_succ, Quad4.Regular.new]
    rw [grid_div hix, grid_mod hix]
    refine ⟨by rw [Nat.mul_comm nelx]; exact grid_lt hiy hix, ?_, ?_, ?_, ?_⟩
    all_goals exact gridCoor_node h (by omega)

/-- **C31** no loose nodes: every node belongs to some element -/
theorem C31_cover (nelx nely : Nat) (hx : 0 < nelx) (hy : 0 < nely) (h : α) :
    ∃ t conn, Quad4.Regular.conn (Quad4.Regular.new nelx nely h) = .ok t ∧
      Is2 t (nelx * nely) 4 conn ∧
      ∀ k, k < (nelx + 1) * (nely + 1) → ∃ e m, e < nelx * nely ∧ m < 4 ∧ conn e m = k := by
  obtain ⟨t, h3, h4⟩ := Quad4.Regular.conn_spec nelx nely h
  refine ⟨t, _, h3, h4, fun k hk => ?_⟩
  rw [Nat.mul_comm] at hk
  obtain ⟨b, a, hb, ha, rfl⟩ := grid_exists hk
  have key : ∀ b' a', b' < nely → a' < nelx → b' * nelx + a' < nelx * nely ∧
      (b' * nelx + a') / nelx = b' ∧ (b' * nelx + a') % nelx = a' := fun b' a' h1 h2 =>
    ⟨by rw [Nat.mul_comm nelx]; exact grid_lt h1 h2, grid_div h2, grid_mod h2⟩
  by_cases h1 : a < nelx
  · by_cases h2 : b < nely
    · obtain ⟨k1, k2, k3⟩ := key b a h2 h1
      exact ⟨_, 0, k1, by omega, by simp only [k2, k3, if_true]⟩
    · obtain ⟨k1, k2, k3⟩ := key (b - 1) a (by omega) h1
      refine ⟨_, 3, k1, by omega, ?_⟩
      simp only [k2, k3, show b - 1 + 1 = b by omega]; simp
  · by_cases h2 : b < nely
    · obtain ⟨k1, k2, k3⟩ := key b (a - 1) h2 (by omega)
      refine ⟨_, 1, k1, by omega, ?_⟩
      simp only [k2, k3, show a - 1 + 1 = a by omega]; simp
    · obtain ⟨k1, k2, k3⟩ := key (b - 1) (a - 1) (by omega) (by omega)
      refine ⟨_, 2, k1, by omega, ?_⟩
      simp only [k2, k3, show b - 1 + 1 = b by omega, show a - 1 + 1 = a by omega]; simp

/-- C31 on a 2 × 1 mesh -/
example : ∃ t, Quad4.Regular.conn (Quad4.Regular.new 2 1 (1 : ℚ)) = .ok t ∧
    Is2 t 2 4 fun e m => (([[0, 1, 4, 3], [1, 2, 5, 4]] : List (List Nat)).getD e []).getD m 0 := by
  obtain ⟨t, h1, h2⟩ := Quad4.Regular.conn_spec 2 1 (1 : ℚ)
  exact ⟨t, h1, h2.congr (ball2 (by decide))⟩

section boundary
variable [Field α] [LinearOrder α] [IsStrictOrderedRing α]

theorem grid_x0 {h : α} (hh : 0 < h) {nelx k : Nat} : gridCoor h nelx k 0 = 0 ↔ k % (nelx + 1) = 0 := by
  have := hmul_eq hh (a := k % (nelx + 1)) (b := 0)
  simpa [gridCoor] using this

theorem grid_x1 {h : α} (hh : 0 < h) {nelx k : Nat} :
    gridCoor h nelx k 0 = h * (nelx : α) ↔ k % (nelx + 1) = nelx := by
  rw [← hmul_eq hh]; simp [gridCoor]

theorem grid_y0 {h : α} (hh : 0 < h) {nelx k : Nat} : gridCoor h nelx k 1 = 0 ↔ k / (nelx + 1) = 0 := by
  have := hmul_eq hh (a := k / (nelx + 1)) (b := 0)
  rw [← this]; simp [gridCoor]

theorem grid_y1 {h : α} (hh : 0 < h) {nelx nely k : Nat} :
    gridCoor h nelx k 1 = h * (nely : α) ↔ k / (nelx + 1) = nely := by
  rw [← hmul_eq hh]; simp [gridCoor]

theorem grid_x0' {h : α} (hh : 0 < h) {nelx k : Nat} : 0 < gridCoor h nelx k 0 ↔ 0 < k % (nelx + 1) := by
  have := hmul_lt hh (a := 0) (b := k % (nelx + 1))
  rw [← this]; simp [gridCoor]

theorem grid_x1' {h : α} (hh : 0 < h) {nelx k : Nat} :
    gridCoor h nelx k 0 < h * (nelx : α) ↔ k % (nelx + 1) < nelx := by
  rw [← hmul_lt hh]; simp [gridCoor]

theorem grid_y0' {h : α} (hh : 0 < h) {nelx k : Nat} : 0 < gridCoor h nelx k 1 ↔ 0 < k / (nelx + 1) := by
  have := hmul_lt hh (a := 0) (b := k / (nelx + 1))
  rw [← this]; simp [gridCoor]

theorem grid_y1' {h : α} (hh : 0 < h) {nelx nely k : Nat} :
    gridCoor h nelx k 1 < h * (nely : α) ↔ k / (nelx + 1) < nely := by
  rw [← hmul_lt hh]; simp [gridCoor]

/-- all eight boundary sets, from the node numbers returned -/
theorem edgeSets {nelx nely : Nat} (hx : 0 < nelx) (hy : 0 < nely) {h : α} (hh : 0 < h)
    {b t l r bo tp lo ro : Ten Nat}
    (h1 : Is1 b (nelx + 1) fun i => i) (h2 : Is1 t (nelx + 1) fun i => i + nely * (nelx + 1))
    (h3 : Is1 l (nely + 1) fun i => i * (nelx + 1)) (h4 : Is1 r (nely + 1) fun i => i * (nelx + 1) + nelx)
    (h5 : Is1 bo (nelx - 1) fun i => 1 + i) (h6 : Is1 tp (nelx - 1) fun i => 1 + i + nely * (nelx + 1))
    (h7 : Is1 lo (nely - 1) fun i => (1 + i) * (nelx + 1))
    (h8 : Is1 ro (nely - 1) fun i => (1 + i) * (nelx + 1) + nelx) :
    EdgeSets ((nelx + 1) * (nely + 1)) (h * (nelx : α)) (h * (nely : α)) (gridCoor h nelx)
      (.ok b) (.ok t) (.ok l) (.ok r) (.ok bo) (.ok tp) (.ok lo) (.ok ro) := by
  have hb : ∀ k, k < (nelx + 1) * (nely + 1) → k % (nelx + 1) < nelx + 1 ∧ k / (nelx + 1) < nely + 1 :=
    fun k hk => ⟨Nat.mod_lt _ (by omega), (Nat.div_lt_iff_lt_mul (by omega)).2 (by rwa [Nat.mul_comm])⟩
  refine ⟨?_, ?_, ?_, ?_, ?_, ?_, ?_, ?_⟩
  · refine nodeSet_row (nely := nely) hh (a := 0) (b := nelx + 1) (iy := 0) (by omega) (by omega) rfl
      (h1.congr fun i _ => by omega) fun k => ?_
    rw [grid_y0 hh]; have := hb k; constructor <;> intro _ <;> omega
  · refine nodeSet_row (nely := nely) hh (a := 0) (b := nelx + 1) (iy := nely) (by omega) (by omega) rfl
      (h2.congr fun i _ => by omega) fun k => ?_
    rw [grid_y1 hh]; have := hb k; constructor <;> intro _ <;> omega
  · refine nodeSet_col (nelx := nelx) (nely := nely) hh (a := 0) (b := nely + 1) (ix := 0) (by omega)
      (by omega) rfl (h3.congr fun i _ => by simp) fun k => ?_
    rw [grid_x0 hh]; have := hb k
    have := Nat.zero_le (k / (nelx + 1)); constructor <;> intro _ <;> omega
  · refine nodeSet_col (nelx := nelx) (nely := nely) hh (a := 0) (b := nely + 1) (ix := nelx) (by omega)
      (by omega) rfl (h4.congr fun i _ => by simp) fun k => ?_
    rw [grid_x1 hh]; have := hb k
    have := Nat.zero_le (k / (nelx + 1)); constructor <;> intro _ <;> omega
  · refine nodeSet_row (nely := nely) hh (a := 1) (b := nelx) (iy := 0) (by omega) (by omega) rfl
      (h5.congr fun i _ => by omega) fun k => ?_
    rw [grid_y0 hh, grid_x0' hh, grid_x1' hh]; have := hb k; constructor <;> intro _ <;> omega
  · refine nodeSet_row (nely := nely) hh (a := 1) (b := nelx) (iy := nely) (by omega) (by omega) rfl
      (h6.congr fun i _ => by omega) fun k => ?_
    rw [grid_y1 hh, grid_x0' hh, grid_x1' hh]; have := hb k; constructor <;> intro _ <;> omega
  · refine nodeSet_col (nelx := nelx) (nely := nely) hh (a := 1) (b := nely) (ix := 0) (by omega)
      (by omega) rfl (h7.congr fun i _ => by simp) fun k => ?_
    rw [grid_x0 hh, grid_y0' hh, grid_y1' hh]; have := hb k; constructor <;> intro _ <;> omega
  · refine nodeSet_col (nelx := nelx) (nely := nely) hh (a := 1) (b := nely) (ix := nelx) (by omega)
      (by omega) rfl (h8.congr fun i _ => by simp) fun k => ?_
    rw [grid_x1 hh, grid_y0' hh, grid_y1' hh]; have := hb k; constructor <;> intro _ <;> omega

/-- **C32** (Quad4) the eight boundary sets are exactly the nodes with the respective extreme
coordinate (and, for the open edges, away from the corners), listed in order of the other coordinate,
without duplicates. -/
theorem C32_quad4_edges (nelx nely : Nat) (hx : 0 < nelx) (hy : 0 < nely) {h : α} (hh : 0 < h) :
    let M := Quad4.Regular.new nelx nely h
    ∃ c x, M.coor = .ok c ∧ Is2 c M.nnode 2 x ∧
      EdgeSets M.nnode (h * (nelx : α)) (h * (nely : α)) x
        (Quad4.Regular.nodesBottomEdge M) (Quad4.Regular.nodesTopEdge M)
        (Quad4.Regular.nodesLeftEdge M) (Quad4.Regular.nodesRightEdge M)
        (Quad4.Regular.nodesBottomOpenEdge M) (Quad4.Regular.nodesTopOpenEdge M)
        (Quad4.Regular.nodesLeftOpenEdge M) (Quad4.Regular.nodesRightOpenEdge M) := by
  obtain ⟨c, h1, h2⟩ := (Quad4.Regular.new nelx nely h).coor_spec rfl rfl
  refine ⟨c, _, h1, h2, ?_⟩
  exact edgeSets hx hy hh ((is1_arange 0 _).congr fun i _ => by omega)
    (((is1_arange 0 _).affine _ _).congr fun i _ => by simp [Quad4.Regular.new])
    (((is1_arange 0 _).affine _ _).congr fun i _ => by simp [Quad4.Regular.new])
    (((is1_arange 0 _).affine _ _).congr fun i _ => by simp [Quad4.Regular.new]) (is1_arange 1 _)
    (((is1_arange 1 _).affine _ _).congr fun i _ => by simp [Quad4.Regular.new])
    (((is1_arange 1 _).affine _ _).congr fun i _ => by simp [Quad4.Regular.new])
    (((is1_arange 1 _).affine _ _).congr fun i _ => by simp [Quad4.Regular.new])

theorem Tri3.Regular.fillEdge_spec (n : Nat) (f : Nat → Nat) :
    ∃ t, fillEdge n f = .ok t ∧ Is1 t n f := by
  obtain ⟨t, h1, h2, h3, -⟩ := forEach_set (it1 n) (fun (ret : Ten Nat) i => ret.set [i] (f i))
    (fun i => [i]) f (Ten.empty [n])
    (by intro i hi; rw [mem_it1] at hi; simp [Ten.empty, hi]) (fun _ _ _ _ => rfl)
  refine ⟨t, h1, h2, fun i hi => ?_⟩
  obtain ⟨j, h4, h5, h6⟩ := h3 [i] ⟨i, by simpa using hi, rfl⟩
  simp only [List.cons.injEq, and_true] at h5
  rw [h6, h5]

theorem Tri3.Regular.fillOpenEdge_spec (n : Nat) (hn : 0 < n) (f : Nat → Nat) :
    ∃ t, fillOpenEdge n f = .ok t ∧ Is1 t (n - 1) (fun i => f (1 + i)) := by
  obtain ⟨t, h1, h2, h3, -⟩ := forEach_set (List.range' 1 (n - 1))
    (fun (ret : Ten Nat) i => ret.set [i - 1] (f i)) (fun i => [i - 1]) f (Ten.empty [n - 1])
    (by intro i hi; rw [List.mem_range'_1] at hi; simp [Ten.empty]; omega) (fun _ _ _ _ => rfl)
  refine ⟨t, by rw [fillOpenEdge, if_neg (by omega), h1], h2, fun i hi => ?_⟩
  obtain ⟨j, h4, h5, h6⟩ := h3 [i] ⟨1 + i, by rw [List.mem_range'_1]; omega, by simp⟩
  simp only [List.cons.injEq, and_true] at h5
  rw [List.mem_range'_1] at h4
  rw [h6, show j = 1 + i by omega]

/-- **C32** (Tri3) the eight boundary sets are exactly the nodes with the respective extreme
coordinate (and, for the open edges, away from the corners), listed in order of the other coordinate,
without duplicates. -/
theorem C32_tri3_edges (nelx nely : Nat) (hx : 0 < nelx) (hy : 0 < nely) {h : α} (hh : 0 < h) :
    let M := Tri3.Regular.new nelx nely h
    ∃ c x, M.coor = .ok c ∧ Is2 c M.nnode 2 x ∧
      EdgeSets M.nnode (h * (nelx : α)) (h * (nely : α)) x
        (Tri3.Regular.nodesBottomEdge M) (Tri3.Regular.nodesTopEdge M)
        (Tri3.Regular.nodesLeftEdge M) (Tri3.Regular.nodesRightEdge M)
        (Tri3.Regular.nodesBottomOpenEdge M) (Tri3.Regular.nodesTopOpenEdge M)
        (Tri3.Regular.nodesLeftOpenEdge M) (Tri3.Regular.nodesRightOpenEdge M) := by
  obtain ⟨c, h1, h2⟩ := (Tri3.Regular.new nelx nely h).coor_spec rfl rfl
  refine ⟨c, _, h1, h2, ?_⟩
  obtain ⟨b, b1, b2⟩ := Tri3.Regular.fillEdge_spec (nelx + 1) fun ix => ix
  obtain ⟨t, t1, t2⟩ := Tri3.Regular.fillEdge_spec (nelx + 1) fun ix => ix + nely * (nelx + 1)
  obtain ⟨l, l1, l2⟩ := Tri3.Regular.fillEdge_spec (nely + 1) fun iy => iy * (nelx + 1)
  obtain ⟨r, r1, r2⟩ := Tri3.Regular.fillEdge_spec (nely + 1) fun iy => iy * (nelx + 1) + nelx
  obtain ⟨bo, bo1, bo2⟩ := Tri3.Regular.fillOpenEdge_spec nelx hx fun ix => ix
  obtain ⟨tp, tp1, tp2⟩ := Tri3.Regular.fillOpenEdge_spec nelx hx fun ix => ix + nely * (nelx + 1)
  obtain ⟨lo, lo1, lo2⟩ := Tri3.Regular.fillOpenEdge_spec nely hy fun iy => iy * (nelx + 1)
  obtain ⟨ro, ro1, ro2⟩ := Tri3.Regular.fillOpenEdge_spec nely hy fun iy => iy * (nelx + 1) + nelx
  simp only [Tri3.Regular.new, Tri3.Regular.nodesBottomEdge, Tri3.Regular.nodesTopEdge,
    Tri3.Regular.nodesLeftEdge, Tri3.Regular.nodesRightEdge, Tri3.Regular.nodesBottomOpenEdge,
    Tri3.Regular.nodesTopOpenEdge, Tri3.Regular.nodesLeftOpenEdge, Tri3.Regular.nodesRightOpenEdge,
    b1, t1, l1, r1, bo1, tp1, lo1, ro1]
  exact edgeSets hx hy hh b2 t2 l2 r2 bo2 tp2 lo2 ro2

/-- **C32** (Tri3) with zero elements in a direction the open edges are undefined: their size `nelx - 1`
wraps around (the constructor only asserts `nelx >= 1`). -/
theorem C32_tri3_zero (nely : Nat) (h : α) :
    Tri3.Regular.nodesBottomOpenEdge (Tri3.Regular.new 0 nely h) = .ub := rfl

theorem cornerNodes (nelx nely : Nat) (h : α) :
    CornerNodes ((nelx + 1) * (nely + 1)) (h * (nelx : α)) (h * (nely : α)) (gridCoor h nelx)
      0 nelx (nely * (nelx + 1)) (nely * (nelx + 1) + nelx) := by
  have key : ∀ b a, b ≤ nely → a ≤ nelx → b * (nelx + 1) + a < (nelx + 1) * (nely + 1) := by
    intro b a hb ha; rw [Nat.mul_comm (nelx + 1)]; exact grid_lt (by omega) (by omega)
  have n1 := gridCoor_node h (nelx := nelx) (i := 0) (j := 0) (by omega)
  have n2 := gridCoor_node h (nelx := nelx) (i := 0) (j := nelx) (by omega)
  have n3 := gridCoor_node h (nelx := nelx) (i := nely) (j := 0) (by omega)
  have n4 := gridCoor_node h (nelx := nelx) (i := nely) (j := nelx) (by omega)
  have k1 := key 0 0 (by omega) (by omega)
  have k2 := key 0 nelx (by omega) (by omega)
  have k3 := key nely 0 (by omega) (by omega)
  have k4 := key nely nelx (by omega) (by omega)
  simp only [Nat.zero_mul, Nat.add_zero, Nat.zero_add, Nat.cast_zero, mul_zero] at n1 n2 n3 n4 k1 k2 k3 k4
  exact ⟨⟨k1, n1⟩, ⟨k2, n2⟩, ⟨k3, n3⟩, ⟨k4, n4⟩⟩

/-- **C32** (Quad4) the corner nodes are at the four corners of the mesh, the origin is node
`nodesOrigin` -/
theorem C32_quad4_corners (nelx nely : Nat) (h : α) :
    let M := Quad4.Regular.new nelx nely h
    ∃ c x, M.coor = .ok c ∧ Is2 c M.nnode 2 x ∧
      CornerNodes M.nnode (h * (nelx : α)) (h * (nely : α)) x
        (Quad4.Regular.nodesBottomLeftCorner M) (Quad4.Regular.nodesBottomRightCorner M)
        (Quad4.Regular.nodesTopLeftCorner M) (Quad4.Regular.nodesTopRightCorner M) := by
  obtain ⟨c, h1, h2⟩ := (Quad4.Regular.new nelx nely h).coor_spec rfl rfl
  exact ⟨c, _, h1, h2, cornerNodes nelx nely h⟩

/-- **C32** (Tri3) the corner nodes are at the four corners of the mesh, the origin is node
`nodesOrigin` -/
theorem C32_tri3_corners (nelx nely : Nat) (h : α) :
    let M := Tri3.Regular.new nelx nely h
    ∃ c x, M.coor = .ok c ∧ Is2 c M.nnode 2 x ∧
      CornerNodes M.nnode (h * (nelx : α)) (h * (nely : α)) x
        (Tri3.Regular.nodesBottomLeftCorner M) (Tri3.Regular.nodesBottomRightCorner M)
        (Tri3.Regular.nodesTopLeftCorner M) (Tri3.Regular.nodesTopRightCorner M) := by
  obtain ⟨c, h1, h2⟩ := (Tri3.Regular.new nelx nely h).coor_spec rfl rfl
  exact ⟨c, _, h1, h2, cornerNodes nelx nely h⟩

theorem gridPeriodic {nelx nely : Nat} (hx : 0 < nelx) (hy : 0 < nely) {h : α} (hh : 0 < h)
    {n : Nat} {P : Nat → Nat → Nat} (hG : GridTable nelx nely n P) :
    PeriodicPairs ((nelx + 1) * (nely + 1)) (h * (nelx : α)) (h * (nely : α)) (gridCoor h nelx) n P := by
  refine ⟨hG.lt, fun k hk => ?_, hG.inj, fun k k' hk hk' he => ?_, fun m hm => ?_⟩
  · have h1 := gridRep_lt (k := P k 1) hx hy
    rw [hG.rep k hk] at h1
    have hm := hG.lt k 1 hk (by omega)
    have hr := hG.rep k hk
    have hmod : P k 1 % (nelx + 1) < nelx + 1 := Nat.mod_lt _ (by omega)
    have hdiv : P k 1 / (nelx + 1) < nely + 1 :=
      (Nat.div_lt_iff_lt_mul (by omega)).2 (by rwa [Nat.mul_comm])
    have hrx : P k 0 % (nelx + 1) = P k 1 % (nelx + 1) % nelx := by
      rw [← hr, gridRep, grid_mod]
      have := Nat.mod_lt (P k 1 % (nelx + 1)) hx; omega
    have hry : P k 0 / (nelx + 1) = P k 1 / (nelx + 1) % nely := by
      rw [← hr, gridRep, grid_div]
      have := Nat.mod_lt (P k 1 % (nelx + 1)) hx; omega
    constructor
    · simp only [gridCoor, if_true]
      by_cases hc : P k 1 % (nelx + 1) = nelx
      · right; rw [hrx, hc, Nat.mod_self]; simp
      · left; rw [hrx, Nat.mod_eq_of_lt (by omega : P k 1 % (nelx + 1) < nelx)]
    · simp only [gridCoor, one_ne_zero, if_false]
      by_cases hc : P k 1 / (nelx + 1) = nely
      · right; rw [hry, hc, Nat.mod_self]; simp
      · left; rw [hry, Nat.mod_eq_of_lt (by omega : P k 1 / (nelx + 1) < nely)]
  · have := gridRep_lt (k := P k 1) hx hy
    rw [hG.rep k hk, he] at this
    have := (hG.dep (P k' 1) (hG.lt k' 1 hk' (by omega))).1 ⟨k', hk', rfl⟩
    omega
  · rw [hG.dep m hm, grid_x1 hh, grid_y1 hh]

theorem gridRep_lattice {nelx nely : Nat} (hx : 0 < nelx) {h : α} (hh : 0 < h) (m m' : Nat) :
    gridRep nelx nely m = gridRep nelx nely m' ↔
      LatticeEq2 (h * (nelx : α)) (h * (nely : α)) (gridCoor h nelx m) (gridCoor h nelx m') := by
  rw [gridRep_eq hx, LatticeEq2, ← lattice1 hh, ← lattice1 hh]
  simp only [gridCoor, if_true, one_ne_zero, if_false]
  constructor
  · rintro ⟨⟨a, ha⟩, b, hb⟩; exact ⟨a, b, ha, hb⟩
  · rintro ⟨a, b, ha, hb⟩; exact ⟨⟨a, ha⟩, b, hb⟩

theorem Quad4.Regular.table (nelx nely : Nat) (hx : 0 < nelx) (hy : 0 < nely) (h : α) :
    ∃ t n P, nodesPeriodic (new nelx nely h) = .ok t ∧ Is2 t n 2 P ∧ n = nelx + nely + 1 ∧
      GridTable nelx nely n P := by
  obtain ⟨t, t1, t2⟩ := nodesPeriodic2d_spec (E := edges (new nelx nely h))
    (b := fun i => 1 + i) (t := fun i => nely * (nelx + 1) + (1 + i))
    (l := fun i => (1 + i) * (nelx + 1)) (r := fun i => (1 + i) * (nelx + 1) + nelx)
    (nb := nelx - 1) (nl := nely - 1) rfl rfl rfl rfl
    (is1_arange 1 _)
    (((is1_arange 1 _).affine _ _).congr fun i _ => by simp [new]; omega)
    (((is1_arange 1 _).affine _ _).congr fun i _ => by simp [new])
    (((is1_arange 1 _).affine _ _).congr fun i _ => by simp [new])
  refine ⟨t, _, _, t1, t2, by omega, ?_⟩
  have := gridTable hx hy
  simp only [Nat.zero_mul, Nat.zero_add, Nat.add_zero] at this
  exact this

/-- **C33** (Quad4) `nodesPeriodic()`: the pairs (independent, dependent) consist of valid nodes, the
dependent node is the independent one shifted by the dimensions of the mesh; the dependent nodes are
exactly the nodes of the right and top edges, each listed once; no independent node is dependent. -/
theorem C33_quad4_nodesPeriodic (nelx nely : Nat) (hx : 0 < nelx) (hy : 0 < nely) {h : α} (hh : 0 < h) :
    let M := Quad4.Regular.new nelx nely h
    ∃ c x t P, M.coor = .ok c ∧ Is2 c M.nnode 2 x ∧
      Quad4.Regular.nodesPeriodic M = .ok t ∧ Is2 t (nelx + nely + 1) 2 P ∧
      PeriodicPairs M.nnode (h * (nelx : α)) (h * (nely : α)) x (nelx + nely + 1) P := by
  obtain ⟨c, h1, h2⟩ := (Quad4.Regular.new nelx nely h).coor_spec rfl rfl
  obtain ⟨t, n, P, t1, t2, rfl, t3⟩ := Quad4.Regular.table nelx nely hx hy h
  exact ⟨c, _, t, P, h1, h2, t1, t2, gridPeriodic hx hy hh t3⟩

/-- **C33** (Quad4) `dofsPeriodic()`: two DOFs coincide exactly when they are the same component of nodes
whose positions differ by a lattice vector of the periodic cell; the DOF numbers are contiguous, and
there are `2 * nelx * nely` of them. -/
theorem C33_quad4_dofsPeriodic (nelx nely : Nat) (hx : 0 < nelx) (hy : 0 < nely) {h : α} (hh : 0 < h) :
    let M := Quad4.Regular.new nelx nely h
    ∃ c x y d, M.coor = .ok c ∧ Is2 c M.nnode 2 x ∧
      Quad4.Regular.dofsPeriodic M = .ok y ∧ Is2 y M.nnode 2 d ∧
      (∀ m i m' i', m < M.nnode → i < 2 → m' < M.nnode → i' < 2 →
        (d m i = d m' i' ↔
          LatticeEq2 (h * (nelx : α)) (h * (nely : α)) (x m) (x m') ∧ i = i')) ∧
      (∀ v, (∃ m i, m < M.nnode ∧ i < 2 ∧ d m i = v) ↔ v < nelx * nely * 2) := by
  obtain ⟨c, h1, h2⟩ := (Quad4.Regular.new nelx nely h).coor_spec rfl rfl
  obtain ⟨t, n, P, t1, t2, rfl, t3⟩ := Quad4.Regular.table nelx nely hx hy h
  obtain ⟨y, g, y1, y2, y3, y4⟩ := gridTable_dofs hx hy t2 t3
  refine ⟨c, _, y, g, h1, h2, ?_, y2, fun m i m' i' hm hi hm' hi' => ?_, y4⟩
  · simp only [Quad4.Regular.dofsPeriodic, t1, Res.ok_bind]; exact y1
  · rw [y3 m i m' i' hm hi hm' hi', gridRep_lattice hx hh]; rfl

theorem Tri3.Regular.table (nelx nely : Nat) (hx : 0 < nelx) (hy : 0 < nely) (h : α) :
    ∃ t n P, nodesPeriodic (new nelx nely h) = .ok t ∧ Is2 t n 2 P ∧ n = nelx + nely + 1 ∧
      GridTable nelx nely n P := by
  obtain ⟨bo, bo1, bo2⟩ := Tri3.Regular.fillOpenEdge_spec nelx hx fun ix => ix
  obtain ⟨tp, tp1, tp2⟩ := Tri3.Regular.fillOpenEdge_spec nelx hx fun ix => ix + nely * (nelx + 1)
  obtain ⟨lo, lo1, lo2⟩ := Tri3.Regular.fillOpenEdge_spec nely hy fun iy => iy * (nelx + 1)
  obtain ⟨ro, ro1, ro2⟩ := Tri3.Regular.fillOpenEdge_spec nely hy fun iy => iy * (nelx + 1) + nelx
  obtain ⟨t, t1, t2⟩ := nodesPeriodic2d_spec (E := edges (new nelx nely h))
    (b := fun i => 1 + i) (t := fun i => nely * (nelx + 1) + (1 + i))
    (l := fun i => (1 + i) * (nelx + 1)) (r := fun i => (1 + i) * (nelx + 1) + nelx)
    (nb := nelx - 1) (nl := nely - 1) bo1 tp1 lo1 ro1 bo2 (tp2.congr fun i _ => by omega) lo2 ro2
  refine ⟨t, _, _, t1, t2, by omega, ?_⟩
  have := gridTable hx hy
  simp only [Nat.zero_mul, Nat.zero_add, Nat.add_zero] at this
  exact this

/-- **C33** (Tri3) `nodesPeriodic()`: the pairs (independent, dependent) consist of valid nodes, the
dependent node is the independent one shifted by the dimensions of the mesh; the dependent nodes are
exactly the nodes of the right and top edges, each listed once; no independent node is dependent. -/
theorem C33_tri3_nodesPeriodic (nelx nely : Nat) (hx : 0 < nelx) (hy : 0 < nely) {h : α} (hh : 0 < h) :
    let M := Tri3.Regular.new nelx nely h
    ∃ c x t P, M.coor = .ok c ∧ Is2 c M.nnode 2 x ∧
      Tri3.Regular.nodesPeriodic M = .ok t ∧ Is2 t (nelx + nely + 1) 2 P ∧
      PeriodicPairs M.nnode (h * (nelx : α)) (h * (nely : α)) x (nelx + nely + 1) P := by
  obtain ⟨c, h1, h2⟩ := (Tri3.Regular.new nelx nely h).coor_spec rfl rfl
  obtain ⟨t, n, P, t1, t2, rfl, t3⟩ := Tri3.Regular.table nelx nely hx hy h
  exact ⟨c, _, t, P, h1, h2, t1, t2, gridPeriodic hx hy hh t3⟩

/-- **C33** (Tri3) `dofsPeriodic()`: two DOFs coincide exactly when they are the same component of nodes
whose positions differ by a lattice vector of the periodic cell; the DOF numbers are contiguous, and
there are `2 * nelx * nely` of them. -/
theorem C33_tri3_dofsPeriodic (nelx nely : Nat) (hx : 0 < nelx) (hy : 0 < nely) {h : α} (hh : 0 < h) :
    let M := Tri3.Regular.new nelx nely h
    ∃ c x y d, M.coor = .ok c ∧ Is2 c M.nnode 2 x ∧
      Tri3.Regular.dofsPeriodic M = .ok y ∧ Is2 y M.nnode 2 d ∧
      (∀ m i m' i', m < M.nnode → i < 2 → m' < M.nnode → i' < 2 →
        (d m i = d m' i' ↔
          LatticeEq2 (h * (nelx : α)) (h * (nely : α)) (x m) (x m') ∧ i = i')) ∧
      (∀ v, (∃ m i, m < M.nnode ∧ i < 2 ∧ d m i = v) ↔ v < nelx * nely * 2) := by
  obtain ⟨c, h1, h2⟩ := (Tri3.Regular.new nelx nely h).coor_spec rfl rfl
  obtain ⟨t, n, P, t1, t2, rfl, t3⟩ := Tri3.Regular.table nelx nely hx hy h
  obtain ⟨y, g, y1, y2, y3, y4⟩ := gridTable_dofs hx hy t2 t3
  refine ⟨c, _, y, g, h1, h2, ?_, y2, fun m i m' i' hm hi hm' hi' => ?_, y4⟩
  · simp only [Tri3.Regular.dofsPeriodic, t1, Res.ok_bind]; exact y1
  · rw [y3 m i m' i' hm hi hm' hi', gridRep_lattice hx hh]; rfl

/-- C32, C33: the hypotheses hold for a 3 × 2 mesh -/
example : ∃ t P, Quad4.Regular.nodesPeriodic (Quad4.Regular.new 3 2 (1 : ℚ)) = .ok t ∧ Is2 t 6 2 P ∧
    P 0 0 = 0 := by
  obtain ⟨c, x, t, P, -, -, h1, h2, -⟩ := C33_quad4_nodesPeriodic 3 2 (by omega) (by omega)
    (show (0 : ℚ) < 1 by norm_num)
  refine ⟨t, P, h1, h2, ?_⟩
  obtain ⟨t', h3, h4⟩ := nodesPeriodic2d_spec (E := Quad4.Regular.edges (Quad4.Regular.new 3 2 (1 : ℚ)))
    (nb := 2) (nl := 1) rfl rfl rfl rfl (is1_arange 1 3) ((is1_arange 1 3).affine _ _)
    ((is1_arange 1 2).affine _ _) ((is1_arange 1 2).affine _ _)
  rw [Quad4.Regular.nodesPeriodic, h3] at h1
  cases h1
  have e1 := h2.2 0 0 (by omega) (by omega)
  rw [h4.2 0 0 (by omega) (by omega)] at e1
  rw [← Option.some.inj e1]
  rfl

end boundary
end GF
