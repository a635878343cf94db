import Verif.Lemmas.MeshHex8Periodic

/-! # C34: `Mesh::Hex8::Regular` -/

namespace GF
variable {α : Type}

theorem C34_counts (nelx nely nelz : Nat) (h : α) :
    (Hex8.Regular.new nelx nely nelz h).nnode = (nelx + 1) * (nely + 1) * (nelz + 1) ∧
    (Hex8.Regular.new nelx nely nelz h).nelem = nelx * nely * nelz ∧
    (Hex8.Regular.new nelx nely nelz h).nne = 8 ∧ (Hex8.Regular.new nelx nely nelz h).ndim = 3 :=
  ⟨rfl, rfl, rfl, rfl⟩

theorem length_it3 (n m k : Nat) : (it3 n m k).length = n * (m * k) := by
  simp [it3, List.length_flatMap, length_it2]

theorem it3_succ (n m k : Nat) : it3 (n + 1) m k = it3 n m k ++ (it2 m k).map fun j => (n, j) := by
  simp [it3, List.range_succ]

theorem it3_getElem? {n m k i j : Nat} {p : Nat × Nat} (hi : i < n) (hj : j < m * k)
    (hp : (it2 m k)[j]? = some p) : (it3 n m k)[i * (m * k) + j]? = some (i, p) := by
  induction n with
  | zero => omega
  | succ n ih =>
    rw [it3_succ]
    by_cases h : i < n
    · rw [List.getElem?_append_left (by rw [length_it3]; exact grid_lt h hj)]
      exact ih h
    · obtain rfl : i = n := by omega
      rw [List.getElem?_append_right (by rw [length_it3]; omega), length_it3]
      simp [hp]

theorem it3_idx {n m k e : Nat} (he : e < (it3 n m k).length) :
    (it3 n m k)[e]? = some (e / k / m, e / k % m, e % k) := by
  rw [length_it3, show n * (m * k) = k * m * n by ring] at he
  obtain ⟨x, y, z, hx, hy, hz, rfl⟩ := enc_exists he
  rw [enc_x hx, enc_y hx hy, enc_z hx hy]
  have := it3_getElem? (n := n) (i := z) (j := y * k + x) hz (grid_lt hy hx) (it2_getElem? hy hx)
  rwa [show z * (m * k) + (y * k + x) = enc k m x y z by rw [enc]; ring] at this

/-- three nested loops writing one row per iteration -/
theorem rows_it3 (n m k w : Nat) (body : Ten α × Nat → Nat × Nat × Nat → Res (Ten α × Nat))
    (g : Nat × Nat × Nat → Nat → α) (N : Nat) (hN : N = k * m * n)
    (hb : ∀ a b c, a < n → b < m → c < k → ∀ (t : Ten α) (e : Nat), t.shape = [N, w] → e < N →
      ∃ t', body (t, e) (a, b, c) = .ok (t', e + 1) ∧ t'.shape = [N, w] ∧
        (∀ l, l < w → t'.v [e, l] = some (g (a, b, c) l)) ∧
        ∀ r l, r < e → t'.v [r, l] = t.v [r, l]) :
    ∃ t, forEach (it3 n m k) body (Ten.empty [N, w], 0) = .ok (t, N) ∧
      Is2 t N w (fun e l => g (e / k / m, e / k % m, e % k) l) := by
  obtain ⟨t, h1, h2⟩ := rows_loop 1 w Nat.one_pos (it3 n m k) (fun e => (e / k / m, e / k % m, e % k))
    (fun e he => it3_idx he) body (fun i _ l => g i l) N (by rw [length_it3, hN]; ring) (by
      rintro ⟨a, b, c⟩ hij t e hs he
      rw [mem_it3] at hij
      obtain ⟨t', h3, h4, h5, h6⟩ := hb a b c hij.1 hij.2.1 hij.2.2 t e hs (by omega)
      refine ⟨t', h3, h4, fun r l hr hl => ?_, h6⟩
      obtain rfl : r = 0 := by omega
      exact h5 l hl)
  refine ⟨t, h1, h2.congr fun e l he hl => ?_⟩
  simp

theorem Hex8.Regular.coor_spec [Field α] [CharZero α] (nelx nely nelz : Nat) (h : α) :
    ∃ c, coor (new nelx nely nelz h) = .ok c ∧
      Is2 c ((nelx + 1) * (nely + 1) * (nelz + 1)) 3 (gridCoor3 h nelx nely) := by
  obtain ⟨t, a1, a2⟩ := rows_it3 (nelz + 1) (nely + 1) (nelx + 1) 3 (fun (s : Ten α × Nat) p => do
    let a ← (linspace 0 (h * (nelx : α)) (nelx + 1)).get [p.2.2]
    let ret ← s.1.set [s.2, 0] a
    let b ← (linspace 0 (h * (nely : α)) (nely + 1)).get [p.2.1]
    let ret ← ret.set [s.2, 1] b
    let c ← (linspace 0 (h * (nelz : α)) (nelz + 1)).get [p.1]
    let ret ← ret.set [s.2, 2] c
    .ok (ret, s.2 + 1))
    (fun p l => if l = 0 then h * (p.2.2 : α) else if l = 1 then h * (p.2.1 : α) else h * (p.1 : α))
    ((nelx + 1) * (nely + 1) * (nelz + 1)) rfl
    (by
      intro i j k hi hj hk t c hs hc
      refine ⟨(((t.put [c, 0] (h * (k : α))).put [c, 1] (h * (j : α))).put [c, 2] (h * (i : α))),
        ?_, hs, ?_, ?_⟩
      · dsimp only
        rw [(is1_linspace h nelx).get hk, (is1_linspace h nely).get hj, (is1_linspace h nelz).get hi,
          Res.ok_bind, set_put (by simp [hs, hc]), Res.ok_bind, Res.ok_bind,
          set_put (by simp [hs, hc]), Res.ok_bind, Res.ok_bind, set_put (by simp [hs, hc])]
        rfl
      · intro l hl
        obtain rfl | rfl | rfl : l = 0 ∨ l = 1 ∨ l = 2 := by omega
        all_goals simp [Ten.put_v]
      · intro r l hr
        have : r ≠ c := by omega
        simp [Ten.put_v, this])
  refine ⟨t, ?_, a2⟩
  rw [Hex8.Regular.coor]
  simp only [new]
  rw [a1]; rfl

theorem gridCoor3_enc [Mul α] [NatCast α] (h : α) {nelx nely x y z : Nat} (hx : x < nelx + 1)
    (hy : y < nely + 1) :
    gridCoor3 h nelx nely (enc (nelx + 1) (nely + 1) x y z) 0 = h * (x : α) ∧
    gridCoor3 h nelx nely (enc (nelx + 1) (nely + 1) x y z) 1 = h * (y : α) ∧
    gridCoor3 h nelx nely (enc (nelx + 1) (nely + 1) x y z) 2 = h * (z : α) := by
  simp [gridCoor3, enc_x hx, enc_y hx hy, enc_z hx hy]

/-- **C34** `coor()`: the nodes are exactly the points of the grid with spacing `h`, each grid point being
the position of exactly one node. -/
theorem C34_coor [Field α] [CharZero α] (nelx nely nelz : Nat) {h : α} (hh : h ≠ 0) :
    ∃ c x, Hex8.Regular.coor (Hex8.Regular.new nelx nely nelz h) = .ok c ∧
      Is2 c ((nelx + 1) * (nely + 1) * (nelz + 1)) 3 x ∧
      (∀ n, n < (nelx + 1) * (nely + 1) * (nelz + 1) → ∃ i j k, i ≤ nelx ∧ j ≤ nely ∧ k ≤ nelz ∧
        x n 0 = h * (i : α) ∧ x n 1 = h * (j : α) ∧ x n 2 = h * (k : α)) ∧
      (∀ i j k, i ≤ nelx → j ≤ nely → k ≤ nelz → ∃! n, n < (nelx + 1) * (nely + 1) * (nelz + 1) ∧
        x n 0 = h * (i : α) ∧ x n 1 = h * (j : α) ∧ x n 2 = h * (k : α)) := by
  obtain ⟨c, h1, h2⟩ := Hex8.Regular.coor_spec nelx nely nelz h
  refine ⟨c, _, h1, h2, fun n hn => ?_, fun i j k hi hj hk => ?_⟩
  · obtain ⟨x, y, z, hx, hy, hz, rfl⟩ := enc_exists hn
    exact ⟨x, y, z, by omega, by omega, by omega, gridCoor3_enc h hx hy⟩
  · refine ⟨enc (nelx + 1) (nely + 1) i j k,
      ⟨enc_lt (by omega) (by omega) (by omega), gridCoor3_enc h (by omega) (by omega)⟩, ?_⟩
    rintro n ⟨hn, e1, e2, e3⟩
    obtain ⟨x, y, z, hx, hy, hz, rfl⟩ := enc_exists hn
    obtain ⟨f1, f2, f3⟩ := gridCoor3_enc h (z := z) hx hy
    rw [f1, mul_right_inj' hh, Nat.cast_inj] at e1
    rw [f2, mul_right_inj' hh, Nat.cast_inj] at e2
    rw [f3, mul_right_inj' hh, Nat.cast_inj] at e3
    rw [e1, e2, e3]

theorem Hex8.Regular.conn_spec (nelx nely nelz : Nat) (h : α) :
    ∃ t, conn (new nelx nely nelz h) = .ok t ∧ Is2 t (nelx * nely * nelz) 8 (fun e m =>
      enc (nelx + 1) (nely + 1) (e % nelx + hexOffset m 0) (e / nelx % nely + hexOffset m 1)
        (e / nelx / nely + hexOffset m 2)) := by
  obtain ⟨t, a1, a2⟩ := rows_it3 nelz nely nelx 8 (fun (s : Ten Nat × Nat) p => do
    let iz := p.1
    let iy := p.2.1
    let ix := p.2.2
    let ret ← s.1.set [s.2, 0] (iy * (nelx + 1) + ix + iz * (nely + 1) * (nelx + 1))
    let ret ← ret.set [s.2, 1] (iy * (nelx + 1) + (ix + 1) + iz * (nely + 1) * (nelx + 1))
    let ret ← ret.set [s.2, 3] ((iy + 1) * (nelx + 1) + ix + iz * (nely + 1) * (nelx + 1))
    let ret ← ret.set [s.2, 2] ((iy + 1) * (nelx + 1) + (ix + 1) + iz * (nely + 1) * (nelx + 1))
    let ret ← ret.set [s.2, 4] (iy * (nelx + 1) + ix + (iz + 1) * (nely + 1) * (nelx + 1))
    let ret ← ret.set [s.2, 5] (iy * (nelx + 1) + (ix + 1) + (iz + 1) * (nely + 1) * (nelx + 1))
    let ret ← ret.set [s.2, 7] ((iy + 1) * (nelx + 1) + ix + (iz + 1) * (nely + 1) * (nelx + 1))
    let ret ← ret.set [s.2, 6]
      ((iy + 1) * (nelx + 1) + (ix + 1) + (iz + 1) * (nely + 1) * (nelx + 1))
    .ok (ret, s.2 + 1))
    (fun p m => enc (nelx + 1) (nely + 1) (p.2.2 + hexOffset m 0) (p.2.1 + hexOffset m 1)
        (p.1 + hexOffset m 2)) (nelx * nely * nelz) rfl
    (by
      intro i j k hi hj hk t c hs hc
      dsimp only
      have key : ∀ (t : Ten Nat) m a, t.shape = [nelx * nely * nelz, 8] → m < 8 →
          t.set [c, m] a = .ok (t.put [c, m] a) := fun t m a hs hm => set_put (by rw [hs]; simp [hm, hc]) a
      rw [key _ 0 _ (by exact hs) (by omega), Res.ok_bind, key _ 1 _ (by exact hs) (by omega), Res.ok_bind,
        key _ 3 _ (by exact hs) (by omega), Res.ok_bind, key _ 2 _ (by exact hs) (by omega), Res.ok_bind,
        key _ 4 _ (by exact hs) (by omega), Res.ok_bind, key _ 5 _ (by exact hs) (by omega), Res.ok_bind,
        key _ 7 _ (by exact hs) (by omega), Res.ok_bind, key _ 6 _ (by exact hs) (by omega), Res.ok_bind]
      refine ⟨_, rfl, hs, ?_, ?_⟩
      · intro m hm
        obtain rfl | rfl | rfl | rfl | rfl | rfl | rfl | rfl :
          m = 0 ∨ m = 1 ∨ m = 2 ∨ m = 3 ∨ m = 4 ∨ m = 5 ∨ m = 6 ∨ m = 7 := by omega
        all_goals
          simp [Ten.put_v, hexOffset, enc]
          try ring
      · intro r l hr
        have : r ≠ c := by omega
        simp [Ten.put_v, this])
  refine ⟨t, ?_, a2⟩
  rw [Hex8.Regular.conn]
  simp only [new]
  exact (congrArg (fun r => Res.bind r _) a1).trans rfl

theorem hexOffset_le (m j : Nat) : hexOffset m j ≤ 1 := by
  unfold hexOffset; split
  · split <;> omega
  · split <;> split <;> omega

/-- **C34** `conn()`: there is a bijection between the elements and the cells of the grid such that node `m` of the
element of cell `(ix, iy, iz)` is at the corner of that cell given by the standard node order; all node
numbers are valid. -/
theorem C34_conn [Field α] [CharZero α] (nelx nely nelz : Nat) (h : α) :
    ∃ c x t conn, Hex8.Regular.coor (Hex8.Regular.new nelx nely nelz h) = .ok c ∧
      Is2 c ((nelx + 1) * (nely + 1) * (nelz + 1)) 3 x ∧
      Hex8.Regular.conn (Hex8.Regular.new nelx nely nelz h) = .ok t ∧
      Is2 t (nelx * nely * nelz) 8 conn ∧
      (∀ e m, e < nelx * nely * nelz → m < 8 → conn e m < (nelx + 1) * (nely + 1) * (nelz + 1)) ∧
      ∃ cell : Nat → Nat → Nat → Nat,
        (∀ e, e < nelx * nely * nelz → ∃ ix iy iz, ix < nelx ∧ iy < nely ∧ iz < nelz ∧ cell ix iy iz = e) ∧
        (∀ ix iy iz ix' iy' iz', ix < nelx → iy < nely → iz < nelz → ix' < nelx → iy' < nely → iz' < nelz →
          cell ix iy iz = cell ix' iy' iz' → ix = ix' ∧ iy = iy' ∧ iz = iz') ∧
        ∀ ix iy iz, ix < nelx → iy < nely → iz < nelz → cell ix iy iz < nelx * nely * nelz ∧
          ∀ m, m < 8 →
            x (conn (cell ix iy iz) m) 0 = h * ((ix + hexOffset m 0 : Nat) : α) ∧
            x (conn (cell ix iy iz) m) 1 = h * ((iy + hexOffset m 1 : Nat) : α) ∧
            x (conn (cell ix iy iz) m) 2 = h * ((iz + hexOffset m 2 : Nat) : α) := by
  obtain ⟨c, h1, h2⟩ := Hex8.Regular.coor_spec nelx nely nelz h
  obtain ⟨t, h3, h4⟩ := Hex8.Regular.conn_spec nelx nely nelz h
  refine ⟨c, _, t, _, h1, h2, h3, h4, fun e m he hm => ?_, enc nelx nely, fun e he => ?_, ?_, ?_⟩
  · obtain ⟨x, y, z, hx, hy, hz, rfl⟩ := enc_exists he
    rw [enc_x hx, enc_y hx hy, enc_z hx hy]
    have := hexOffset_le m 0
    have := hexOffset_le m 1
    have := hexOffset_le m 2
    exact enc_lt (by omega) (by omega) (by omega)
  · obtain ⟨x, y, z, hx, hy, hz, rfl⟩ := enc_exists he
    exact ⟨x, y, z, hx, hy, hz, rfl⟩
  · intro x y z x' y' z' hx hy _ hx' hy' _ e
    exact enc_inj hx hy hx' hy' e
  · intro x y z hx hy hz
    refine ⟨enc_lt hx hy hz, fun m _ => ?_⟩
    rw [enc_x hx, enc_y hx hy, enc_z hx hy]
    have := hexOffset_le m 0
    have := hexOffset_le m 1
    exact gridCoor3_enc h (by omega) (by omega)

/-- **C34** every node is used: each node of the mesh belongs to an element -/
theorem C34_cover (nelx nely nelz : Nat) (hx : 0 < nelx) (hy : 0 < nely) (hz : 0 < nelz) (h : α) :
    ∃ t conn, Hex8.Regular.conn (Hex8.Regular.new nelx nely nelz h) = .ok t ∧
      Is2 t (nelx * nely * nelz) 8 conn ∧
      ∀ k, k < (nelx + 1) * (nely + 1) * (nelz + 1) →
        ∃ e m, e < nelx * nely * nelz ∧ m < 8 ∧ conn e m = k := by
  obtain ⟨t, h3, h4⟩ := Hex8.Regular.conn_spec nelx nely nelz h
  refine ⟨t, _, h3, h4, fun k hk => ?_⟩
  obtain ⟨x, y, z, bx, by', bz, rfl⟩ := enc_exists hk
  have pick : ∀ n a, 0 < n → a < n + 1 → ∃ b o, b < n ∧ o < 2 ∧ a = b + o := by
    intro n a hn ha
    by_cases h : a < n
    · exact ⟨a, 0, h, by omega, by omega⟩
    · exact ⟨a - 1, 1, by omega, by omega, by omega⟩
  obtain ⟨x', ox, px, qx, rfl⟩ := pick nelx x hx bx
  obtain ⟨y', oy, py, qy, rfl⟩ := pick nely y hy by'
  obtain ⟨z', oz, pz, qz, rfl⟩ := pick nelz z hz bz
  have hm : ∃ m, m < 8 ∧ hexOffset m 0 = ox ∧ hexOffset m 1 = oy ∧ hexOffset m 2 = oz := by
    obtain rfl | rfl : ox = 0 ∨ ox = 1 := by omega
    all_goals obtain rfl | rfl : oy = 0 ∨ oy = 1 := by omega
    all_goals obtain rfl | rfl : oz = 0 ∨ oz = 1 := by omega
    · exact ⟨0, by decide⟩
    · exact ⟨4, by decide⟩
    · exact ⟨3, by decide⟩
    · exact ⟨7, by decide⟩
    · exact ⟨1, by decide⟩
    · exact ⟨5, by decide⟩
    · exact ⟨2, by decide⟩
    · exact ⟨6, by decide⟩
  obtain ⟨m, m1, m2, m3, m4⟩ := hm
  refine ⟨enc nelx nely x' y' z', m, enc_lt px py pz, m1, ?_⟩
  rw [enc_x px, enc_y px py, enc_z px py, m2, m3, m4]

section boundary
variable [Field α] [LinearOrder α] [IsStrictOrderedRing α]

/-- **C34** Front/back: `z = 0`, `z = Lz`; left/right: `x = 0`, `x = Lx`; bottom/top: `y = 0`, `y = Ly`. Each face set is exactly the set of nodes on that face of the box, in ascending order. -/
theorem C34_faces (nelx nely nelz : Nat) {h : α} (hh : 0 < h) :
    let M := Hex8.Regular.new nelx nely nelz h
    ∃ c x, Hex8.Regular.coor M = .ok c ∧ Is2 c M.nnode 3 x ∧
      let S := fun (f : Regular3d α → Res (Ten Nat)) (lx ly lz : Loc) =>
        NodeSet (f M) (At3 M.nnode (h * (nelx : α)) (h * (nely : α)) (h * (nelz : α)) x lx ly lz) (· < ·)
      S Hex8.Regular.nodesFront .all .all .lo ∧
      S Hex8.Regular.nodesBack .all .all .hi ∧
      S Hex8.Regular.nodesLeft .lo .all .all ∧
      S Hex8.Regular.nodesRight .hi .all .all ∧
      S Hex8.Regular.nodesBottom .all .lo .all ∧
      S Hex8.Regular.nodesTop .all .hi .all := by
  obtain ⟨c, h1, h2⟩ := Hex8.Regular.coor_spec nelx nely nelz h
  have key : ∀ {f : Regular3d α → Res (Ten Nat)} {lx ly lz : Loc},
      (∃ t, f (Hex8.Regular.new nelx nely nelz h) = .ok t ∧
        Is1 t (locCount nelx nely nelz lx ly lz) (locEnum nelx nely nelz lx ly lz)) →
      NodeSet (f (Hex8.Regular.new nelx nely nelz h)) (At3 ((nelx + 1) * (nely + 1) * (nelz + 1))
        (h * (nelx : α)) (h * (nely : α)) (h * (nelz : α)) (gridCoor3 h nelx nely) lx ly lz) (· < ·) :=
    fun ⟨t, e, ht⟩ => locSet hh e ht
  refine ⟨c, _, h1, h2, key (Hex8.Regular.nodesFront_spec nelx nely nelz h),
    key (Hex8.Regular.nodesBack_spec nelx nely nelz h),
    key (Hex8.Regular.nodesLeft_spec nelx nely nelz h),
    key (Hex8.Regular.nodesRight_spec nelx nely nelz h),
    key (Hex8.Regular.nodesBottom_spec nelx nely nelz h),
    key (Hex8.Regular.nodesTop_spec nelx nely nelz h)⟩

/-- **C34** The same without the nodes on the edges of the box. -/
theorem C34_open_faces (nelx nely nelz : Nat) (hx : 0 < nelx) (hy : 0 < nely) (hz : 0 < nelz) {h : α} (hh : 0 < h) :
    let M := Hex8.Regular.new nelx nely nelz h
    ∃ c x, Hex8.Regular.coor M = .ok c ∧ Is2 c M.nnode 3 x ∧
      let S := fun (f : Regular3d α → Res (Ten Nat)) (lx ly lz : Loc) =>
        NodeSet (f M) (At3 M.nnode (h * (nelx : α)) (h * (nely : α)) (h * (nelz : α)) x lx ly lz) (· < ·)
      S Hex8.Regular.nodesFrontFace .mid .mid .lo ∧
      S Hex8.Regular.nodesBackFace .mid .mid .hi ∧
      S Hex8.Regular.nodesLeftFace .lo .mid .mid ∧
      S Hex8.Regular.nodesRightFace .hi .mid .mid ∧
      S Hex8.Regular.nodesBottomFace .mid .lo .mid ∧
      S Hex8.Regular.nodesTopFace .mid .hi .mid := by
  obtain ⟨c, h1, h2⟩ := Hex8.Regular.coor_spec nelx nely nelz h
  have key : ∀ {f : Regular3d α → Res (Ten Nat)} {lx ly lz : Loc},
      (∃ t, f (Hex8.Regular.new nelx nely nelz h) = .ok t ∧
        Is1 t (locCount nelx nely nelz lx ly lz) (locEnum nelx nely nelz lx ly lz)) →
      NodeSet (f (Hex8.Regular.new nelx nely nelz h)) (At3 ((nelx + 1) * (nely + 1) * (nelz + 1))
        (h * (nelx : α)) (h * (nely : α)) (h * (nelz : α)) (gridCoor3 h nelx nely) lx ly lz) (· < ·) :=
    fun ⟨t, e, ht⟩ => locSet hh e ht
  refine ⟨c, _, h1, h2, key (Hex8.Regular.nodesFrontFace_spec nelx nely nelz h hx hy),
    key (Hex8.Regular.nodesBackFace_spec nelx nely nelz h hx hy),
    key (Hex8.Regular.nodesLeftFace_spec nelx nely nelz h hy hz),
    key (Hex8.Regular.nodesRightFace_spec nelx nely nelz h hy hz),
    key (Hex8.Regular.nodesBottomFace_spec nelx nely nelz h hx hz),
    key (Hex8.Regular.nodesTopFace_spec nelx nely nelz h hx hz)⟩

/-- **C34** Each edge set (under all names by which it can be requested) is exactly the set of nodes on that edge of the box. -/
theorem C34_edges (nelx nely nelz : Nat) {h : α} (hh : 0 < h) :
    let M := Hex8.Regular.new nelx nely nelz h
    ∃ c x, Hex8.Regular.coor M = .ok c ∧ Is2 c M.nnode 3 x ∧
      let S := fun (f : Regular3d α → Res (Ten Nat)) (lx ly lz : Loc) =>
        NodeSet (f M) (At3 M.nnode (h * (nelx : α)) (h * (nely : α)) (h * (nelz : α)) x lx ly lz) (· < ·)
      S Hex8.Regular.nodesFrontBottomEdge .all .lo .lo ∧
      S Hex8.Regular.nodesBottomFrontEdge .all .lo .lo ∧
      S Hex8.Regular.nodesFrontTopEdge .all .hi .lo ∧
      S Hex8.Regular.nodesTopFrontEdge .all .hi .lo ∧
      S Hex8.Regular.nodesFrontLeftEdge .lo .all .lo ∧
      S Hex8.Regular.nodesLeftFrontEdge .lo .all .lo ∧
      S Hex8.Regular.nodesFrontRightEdge .hi .all .lo ∧
      S Hex8.Regular.nodesRightFrontEdge .hi .all .lo ∧
      S Hex8.Regular.nodesBackBottomEdge .all .lo .hi ∧
      S Hex8.Regular.nodesBottomBackEdge .all .lo .hi ∧
      S Hex8.Regular.nodesBackTopEdge .all .hi .hi ∧
      S Hex8.Regular.nodesTopBackEdge .all .hi .hi ∧
      S Hex8.Regular.nodesBackLeftEdge .lo .all .hi ∧
      S Hex8.Regular.nodesLeftBackEdge .lo .all .hi ∧
      S Hex8.Regular.nodesBackRightEdge .hi .all .hi ∧
      S Hex8.Regular.nodesRightBackEdge .hi .all .hi ∧
      S Hex8.Regular.nodesBottomLeftEdge .lo .lo .all ∧
      S Hex8.Regular.nodesLeftBottomEdge .lo .lo .all ∧
      S Hex8.Regular.nodesBottomRightEdge .hi .lo .all ∧
      S Hex8.Regular.nodesRightBottomEdge .hi .lo .all ∧
      S Hex8.Regular.nodesTopLeftEdge .lo .hi .all ∧
      S Hex8.Regular.nodesLeftTopEdge .lo .hi .all ∧
      S Hex8.Regular.nodesTopRightEdge .hi .hi .all ∧
      S Hex8.Regular.nodesRightTopEdge .hi .hi .all := by
  obtain ⟨c, h1, h2⟩ := Hex8.Regular.coor_spec nelx nely nelz h
  have key : ∀ {f : Regular3d α → Res (Ten Nat)} {lx ly lz : Loc},
      (∃ t, f (Hex8.Regular.new nelx nely nelz h) = .ok t ∧
        Is1 t (locCount nelx nely nelz lx ly lz) (locEnum nelx nely nelz lx ly lz)) →
      NodeSet (f (Hex8.Regular.new nelx nely nelz h)) (At3 ((nelx + 1) * (nely + 1) * (nelz + 1))
        (h * (nelx : α)) (h * (nely : α)) (h * (nelz : α)) (gridCoor3 h nelx nely) lx ly lz) (· < ·) :=
    fun ⟨t, e, ht⟩ => locSet hh e ht
  refine ⟨c, _, h1, h2, key (Hex8.Regular.nodesFrontBottomEdge_spec nelx nely nelz h),
    key (Hex8.Regular.nodesFrontBottomEdge_spec nelx nely nelz h),
    key (Hex8.Regular.nodesFrontTopEdge_spec nelx nely nelz h),
    key (Hex8.Regular.nodesFrontTopEdge_spec nelx nely nelz h),
    key (Hex8.Regular.nodesFrontLeftEdge_spec nelx nely nelz h),
    key (Hex8.Regular.nodesFrontLeftEdge_spec nelx nely nelz h),
    key (Hex8.Regular.nodesFrontRightEdge_spec nelx nely nelz h),
    key (Hex8.Regular.nodesFrontRightEdge_spec nelx nely nelz h),
    key (Hex8.Regular.nodesBackBottomEdge_spec nelx nely nelz h),
    key (Hex8.Regular.nodesBackBottomEdge_spec nelx nely nelz h),
    key (Hex8.Regular.nodesBackTopEdge_spec nelx nely nelz h),
    key (Hex8.Regular.nodesBackTopEdge_spec nelx nely nelz h),
    key (Hex8.Regular.nodesBackLeftEdge_spec nelx nely nelz h),
    key (Hex8.Regular.nodesBackLeftEdge_spec nelx nely nelz h),
    key (Hex8.Regular.nodesBackRightEdge_spec nelx nely nelz h),
    key (Hex8.Regular.nodesBackRightEdge_spec nelx nely nelz h),
    key (Hex8.Regular.nodesBottomLeftEdge_spec nelx nely nelz h),
    key (Hex8.Regular.nodesBottomLeftEdge_spec nelx nely nelz h),
    key (Hex8.Regular.nodesBottomRightEdge_spec nelx nely nelz h),
    key (Hex8.Regular.nodesBottomRightEdge_spec nelx nely nelz h),
    key (Hex8.Regular.nodesTopLeftEdge_spec nelx nely nelz h),
    key (Hex8.Regular.nodesTopLeftEdge_spec nelx nely nelz h),
    key (Hex8.Regular.nodesTopRightEdge_spec nelx nely nelz h),
    key (Hex8.Regular.nodesTopRightEdge_spec nelx nely nelz h)⟩

/-- **C34** The same without the corners. -/
theorem C34_open_edges (nelx nely nelz : Nat) (hx : 0 < nelx) (hy : 0 < nely) (hz : 0 < nelz) {h : α} (hh : 0 < h) :
    let M := Hex8.Regular.new nelx nely nelz h
    ∃ c x, Hex8.Regular.coor M = .ok c ∧ Is2 c M.nnode 3 x ∧
      let S := fun (f : Regular3d α → Res (Ten Nat)) (lx ly lz : Loc) =>
        NodeSet (f M) (At3 M.nnode (h * (nelx : α)) (h * (nely : α)) (h * (nelz : α)) x lx ly lz) (· < ·)
      S Hex8.Regular.nodesFrontBottomOpenEdge .mid .lo .lo ∧
      S Hex8.Regular.nodesBottomFrontOpenEdge .mid .lo .lo ∧
      S Hex8.Regular.nodesFrontTopOpenEdge .mid .hi .lo ∧
      S Hex8.Regular.nodesTopFrontOpenEdge .mid .hi .lo ∧
      S Hex8.Regular.nodesFrontLeftOpenEdge .lo .mid .lo ∧
      S Hex8.Regular.nodesLeftFrontOpenEdge .lo .mid .lo ∧
      S Hex8.Regular.nodesFrontRightOpenEdge .hi .mid .lo ∧
      S Hex8.Regular.nodesRightFrontOpenEdge .hi .mid .lo ∧
      S Hex8.Regular.nodesBackBottomOpenEdge .mid .lo .hi ∧
      S Hex8.Regular.nodesBottomBackOpenEdge .mid .lo .hi ∧
      S Hex8.Regular.nodesBackTopOpenEdge .mid .hi .hi ∧
      S Hex8.Regular.nodesTopBackOpenEdge .mid .hi .hi ∧
      S Hex8.Regular.nodesBackLeftOpenEdge .lo .mid .hi ∧
      S Hex8.Regular.nodesLeftBackOpenEdge .lo .mid .hi ∧
      S Hex8.Regular.nodesBackRightOpenEdge .hi .mid .hi ∧
      S Hex8.Regular.nodesRightBackOpenEdge .hi .mid .hi ∧
      S Hex8.Regular.nodesBottomLeftOpenEdge .lo .lo .mid ∧
      S Hex8.Regular.nodesLeftBottomOpenEdge .lo .lo .mid ∧
      S Hex8.Regular.nodesBottomRightOpenEdge .hi .lo .mid ∧
      S Hex8.Regular.nodesRightBottomOpenEdge .hi .lo .mid ∧
      S Hex8.Regular.nodesTopLeftOpenEdge .lo .hi .mid ∧
      S Hex8.Regular.nodesLeftTopOpenEdge .lo .hi .mid ∧
      S Hex8.Regular.nodesTopRightOpenEdge .hi .hi .mid ∧
      S Hex8.Regular.nodesRightTopOpenEdge .hi .hi .mid := by
  obtain ⟨c, h1, h2⟩ := Hex8.Regular.coor_spec nelx nely nelz h
  have key : ∀ {f : Regular3d α → Res (Ten Nat)} {lx ly lz : Loc},
      (∃ t, f (Hex8.Regular.new nelx nely nelz h) = .ok t ∧
        Is1 t (locCount nelx nely nelz lx ly lz) (locEnum nelx nely nelz lx ly lz)) →
      NodeSet (f (Hex8.Regular.new nelx nely nelz h)) (At3 ((nelx + 1) * (nely + 1) * (nelz + 1))
        (h * (nelx : α)) (h * (nely : α)) (h * (nelz : α)) (gridCoor3 h nelx nely) lx ly lz) (· < ·) :=
    fun ⟨t, e, ht⟩ => locSet hh e ht
  refine ⟨c, _, h1, h2, key (Hex8.Regular.nodesFrontBottomOpenEdge_spec nelx nely nelz h hx),
    key (Hex8.Regular.nodesFrontBottomOpenEdge_spec nelx nely nelz h hx),
    key (Hex8.Regular.nodesFrontTopOpenEdge_spec nelx nely nelz h hx),
    key (Hex8.Regular.nodesFrontTopOpenEdge_spec nelx nely nelz h hx),
    key (Hex8.Regular.nodesFrontLeftOpenEdge_spec nelx nely nelz h hy),
    key (Hex8.Regular.nodesFrontLeftOpenEdge_spec nelx nely nelz h hy),
    key (Hex8.Regular.nodesFrontRightOpenEdge_spec nelx nely nelz h hy),
    key (Hex8.Regular.nodesFrontRightOpenEdge_spec nelx nely nelz h hy),
    key (Hex8.Regular.nodesBackBottomOpenEdge_spec nelx nely nelz h hx),
    key (Hex8.Regular.nodesBackBottomOpenEdge_spec nelx nely nelz h hx),
    key (Hex8.Regular.nodesBackTopOpenEdge_spec nelx nely nelz h hx),
    key (Hex8.Regular.nodesBackTopOpenEdge_spec nelx nely nelz h hx),
    key (Hex8.Regular.nodesBackLeftOpenEdge_spec nelx nely nelz h hy),
    key (Hex8.Regular.nodesBackLeftOpenEdge_spec nelx nely nelz h hy),
    key (Hex8.Regular.nodesBackRightOpenEdge_spec nelx nely nelz h hy),
    key (Hex8.Regular.nodesBackRightOpenEdge_spec nelx nely nelz h hy),
    key (Hex8.Regular.nodesBottomLeftOpenEdge_spec nelx nely nelz h hz),
    key (Hex8.Regular.nodesBottomLeftOpenEdge_spec nelx nely nelz h hz),
    key (Hex8.Regular.nodesBottomRightOpenEdge_spec nelx nely nelz h hz),
    key (Hex8.Regular.nodesBottomRightOpenEdge_spec nelx nely nelz h hz),
    key (Hex8.Regular.nodesTopLeftOpenEdge_spec nelx nely nelz h hz),
    key (Hex8.Regular.nodesTopLeftOpenEdge_spec nelx nely nelz h hz),
    key (Hex8.Regular.nodesTopRightOpenEdge_spec nelx nely nelz h hz),
    key (Hex8.Regular.nodesTopRightOpenEdge_spec nelx nely nelz h hz)⟩

/-- **C34** Each corner (under all six names) is the unique node in that corner of the box; `nodesOrigin` is the
front-bottom-left corner. -/
theorem C34_corners (nelx nely nelz : Nat) {h : α} (hh : 0 < h) :
    let M := Hex8.Regular.new nelx nely nelz h
    ∃ c x, Hex8.Regular.coor M = .ok c ∧ Is2 c M.nnode 3 x ∧
      let S := fun (f : Regular3d α → Nat) (lx ly lz : Loc) =>
        ∀ k, At3 M.nnode (h * (nelx : α)) (h * (nely : α)) (h * (nelz : α)) x lx ly lz k ↔ k = f M
      S Hex8.Regular.nodesFrontBottomLeftCorner .lo .lo .lo ∧
      S Hex8.Regular.nodesBottomFrontLeftCorner .lo .lo .lo ∧
      S Hex8.Regular.nodesBottomLeftFrontCorner .lo .lo .lo ∧
      S Hex8.Regular.nodesFrontLeftBottomCorner .lo .lo .lo ∧
      S Hex8.Regular.nodesLeftBottomFrontCorner .lo .lo .lo ∧
      S Hex8.Regular.nodesLeftFrontBottomCorner .lo .lo .lo ∧
      S Hex8.Regular.nodesFrontBottomRightCorner .hi .lo .lo ∧
      S Hex8.Regular.nodesBottomFrontRightCorner .hi .lo .lo ∧
      S Hex8.Regular.nodesBottomRightFrontCorner .hi .lo .lo ∧
      S Hex8.Regular.nodesFrontRightBottomCorner .hi .lo .lo ∧
      S Hex8.Regular.nodesRightBottomFrontCorner .hi .lo .lo ∧
      S Hex8.Regular.nodesRightFrontBottomCorner .hi .lo .lo ∧
      S Hex8.Regular.nodesFrontTopLeftCorner .lo .hi .lo ∧
      S Hex8.Regular.nodesFrontLeftTopCorner .lo .hi .lo ∧
      S Hex8.Regular.nodesLeftFrontTopCorner .lo .hi .lo ∧
      S Hex8.Regular.nodesLeftTopFrontCorner .lo .hi .lo ∧
      S Hex8.Regular.nodesTopFrontLeftCorner .lo .hi .lo ∧
      S Hex8.Regular.nodesTopLeftFrontCorner .lo .hi .lo ∧
      S Hex8.Regular.nodesFrontTopRightCorner .hi .hi .lo ∧
      S Hex8.Regular.nodesFrontRightTopCorner .hi .hi .lo ∧
      S Hex8.Regular.nodesRightFrontTopCorner .hi .hi .lo ∧
      S Hex8.Regular.nodesRightTopFrontCorner .hi .hi .lo ∧
      S Hex8.Regular.nodesTopFrontRightCorner .hi .hi .lo ∧
      S Hex8.Regular.nodesTopRightFrontCorner .hi .hi .lo ∧
      S Hex8.Regular.nodesBackBottomLeftCorner .lo .lo .hi ∧
      S Hex8.Regular.nodesBackLeftBottomCorner .lo .lo .hi ∧
      S Hex8.Regular.nodesBottomBackLeftCorner .lo .lo .hi ∧
      S Hex8.Regular.nodesBottomLeftBackCorner .lo .lo .hi ∧
      S Hex8.Regular.nodesLeftBackBottomCorner .lo .lo .hi ∧
      S Hex8.Regular.nodesLeftBottomBackCorner .lo .lo .hi ∧
      S Hex8.Regular.nodesBackBottomRightCorner .hi .lo .hi ∧
      S Hex8.Regular.nodesBackRightBottomCorner .hi .lo .hi ∧
      S Hex8.Regular.nodesBottomBackRightCorner .hi .lo .hi ∧
      S Hex8.Regular.nodesBottomRightBackCorner .hi .lo .hi ∧
      S Hex8.Regular.nodesRightBackBottomCorner .hi .lo .hi ∧
      S Hex8.Regular.nodesRightBottomBackCorner .hi .lo .hi ∧
      S Hex8.Regular.nodesBackTopLeftCorner .lo .hi .hi ∧
      S Hex8.Regular.nodesBackLeftTopCorner .lo .hi .hi ∧
      S Hex8.Regular.nodesLeftBackTopCorner .lo .hi .hi ∧
      S Hex8.Regular.nodesLeftTopBackCorner .lo .hi .hi ∧
      S Hex8.Regular.nodesTopBackLeftCorner .lo .hi .hi ∧
      S Hex8.Regular.nodesTopLeftBackCorner .lo .hi .hi ∧
      S Hex8.Regular.nodesBackTopRightCorner .hi .hi .hi ∧
      S Hex8.Regular.nodesBackRightTopCorner .hi .hi .hi ∧
      S Hex8.Regular.nodesRightBackTopCorner .hi .hi .hi ∧
      S Hex8.Regular.nodesRightTopBackCorner .hi .hi .hi ∧
      S Hex8.Regular.nodesTopBackRightCorner .hi .hi .hi ∧
      S Hex8.Regular.nodesTopRightBackCorner .hi .hi .hi ∧
      S Hex8.Regular.nodesOrigin .lo .lo .lo := by
  obtain ⟨c, h1, h2⟩ := Hex8.Regular.coor_spec nelx nely nelz h
  have key : ∀ {lx ly lz : Loc} {k₀ : Nat}, lx.width nelx = 1 → ly.width nely = 1 → lz.width nelz = 1 →
      enc (nelx + 1) (nely + 1) (lx.start nelx) (ly.start nely) (lz.start nelz) = k₀ →
      ∀ k, At3 ((nelx + 1) * (nely + 1) * (nelz + 1)) (h * (nelx : α)) (h * (nely : α)) (h * (nelz : α))
        (gridCoor3 h nelx nely) lx ly lz k ↔ k = k₀ := by
    intro lx ly lz k₀ w1 w2 w3 e k
    rw [at3_iff hh, ← locEnum_mem, locCount, w1, w2, w3]
    simp only [locEnum, boxEnum, w1, w2, Nat.mod_one, Nat.div_one, Nat.add_zero]
    constructor
    · rintro ⟨i, hi, rfl⟩
      obtain rfl : i = 0 := by omega
      exact e
    · rintro rfl; exact ⟨0, by omega, e⟩
  have k0 := @key .lo .lo .lo (Hex8.Regular.nodesFrontBottomLeftCorner (Hex8.Regular.new nelx nely nelz h)) rfl rfl rfl
    (by simp only [enc, Loc.start, Hex8.Regular.nodesFrontBottomLeftCorner, Hex8.Regular.new]; try ring)
  have k1 := @key .hi .lo .lo (Hex8.Regular.nodesFrontBottomRightCorner (Hex8.Regular.new nelx nely nelz h)) rfl rfl rfl
    (by simp only [enc, Loc.start, Hex8.Regular.nodesFrontBottomRightCorner, Hex8.Regular.new]; ring)
  have k2 := @key .lo .hi .lo (Hex8.Regular.nodesFrontTopLeftCorner (Hex8.Regular.new nelx nely nelz h)) rfl rfl rfl
    (by simp only [enc, Loc.start, Hex8.Regular.nodesFrontTopLeftCorner, Hex8.Regular.new]; ring)
  have k3 := @key .hi .hi .lo (Hex8.Regular.nodesFrontTopRightCorner (Hex8.Regular.new nelx nely nelz h)) rfl rfl rfl
    (by simp only [enc, Loc.start, Hex8.Regular.nodesFrontTopRightCorner, Hex8.Regular.new]; ring)
  have k4 := @key .lo .lo .hi (Hex8.Regular.nodesBackBottomLeftCorner (Hex8.Regular.new nelx nely nelz h)) rfl rfl rfl
    (by simp only [enc, Loc.start, Hex8.Regular.nodesBackBottomLeftCorner, Hex8.Regular.new]; ring)
  have k5 := @key .hi .lo .hi (Hex8.Regular.nodesBackBottomRightCorner (Hex8.Regular.new nelx nely nelz h)) rfl rfl rfl
    (by simp only [enc, Loc.start, Hex8.Regular.nodesBackBottomRightCorner, Hex8.Regular.new]; ring)
  have k6 := @key .lo .hi .hi (Hex8.Regular.nodesBackTopLeftCorner (Hex8.Regular.new nelx nely nelz h)) rfl rfl rfl
    (by simp only [enc, Loc.start, Hex8.Regular.nodesBackTopLeftCorner, Hex8.Regular.new]; ring)
  have k7 := @key .hi .hi .hi (Hex8.Regular.nodesBackTopRightCorner (Hex8.Regular.new nelx nely nelz h)) rfl rfl rfl
    (by simp only [enc, Loc.start, Hex8.Regular.nodesBackTopRightCorner, Hex8.Regular.new]; ring)
  exact ⟨c, _, h1, h2, k0, k0, k0, k0, k0, k0, k1, k1, k1, k1, k1, k1, k2, k2, k2, k2, k2, k2, k3, k3, k3, k3, k3, k3, k4, k4, k4, k4, k4, k4, k5, k5, k5, k5, k5, k5, k6, k6, k6, k6, k6, k6, k7, k7, k7, k7, k7, k7, k0⟩

theorem gridRep3_lattice {nelx nely nelz : Nat} (hx : 0 < nelx) (hy : 0 < nely) {h : α} (hh : 0 < h) {k k' : Nat} :
    gridRep3 nelx nely nelz k = gridRep3 nelx nely nelz k' ↔
      LatticeEq3 (h * (nelx : α)) (h * (nely : α)) (h * (nelz : α)) (gridCoor3 h nelx nely k)
        (gridCoor3 h nelx nely k') := by
  rw [gridRep3_eq hx hy, ← lattice1 hh (n := nelx), ← lattice1 hh (n := nely), ← lattice1 hh (n := nelz)]
  simp only [LatticeEq3, gridCoor3, if_true, one_ne_zero, if_false, show ¬(2 = 0) by omega,
    show ¬(2 = 1) by omega]
  constructor
  · rintro ⟨⟨a, ha⟩, ⟨b, hb⟩, ⟨c, hc⟩⟩; exact ⟨a, b, c, ha, hb, hc⟩
  · rintro ⟨a, b, c, ha, hb, hc⟩; exact ⟨⟨a, ha⟩, ⟨b, hb⟩, ⟨c, hc⟩⟩

/-- **C34** `nodesPeriodic()`: the pairs (independent, dependent) consist of valid nodes, the dependent node
is the independent one shifted by the dimensions of the mesh; the dependent nodes are exactly the nodes of
the right, top and back faces, each listed once; no independent node is dependent. -/
theorem C34_nodesPeriodic (nelx nely nelz : Nat) (hx : 0 < nelx) (hy : 0 < nely) (hz : 0 < nelz) {h : α}
    (hh : 0 < h) :
    let M := Hex8.Regular.new nelx nely nelz h
    let n := (nelx + 1) * (nely + 1) * (nelz + 1) - nelx * nely * nelz
    ∃ c x t P, Hex8.Regular.coor M = .ok c ∧ Is2 c M.nnode 3 x ∧
      Hex8.Regular.nodesPeriodic M = .ok t ∧ Is2 t n 2 P ∧
      PeriodicPairs3 M.nnode (h * (nelx : α)) (h * (nely : α)) (h * (nelz : α)) x n P := by
  obtain ⟨c, h1, h2⟩ := Hex8.Regular.coor_spec nelx nely nelz h
  obtain ⟨t, n, P, t1, t2, rfl, t3⟩ := Hex8.Regular.table nelx nely nelz hx hy hz h
  refine ⟨c, _, t, P, h1, h2, t1, t2, t3.lt, fun k hk => ?_, t3.inj, fun k k' hk hk' he => ?_,
    fun m hm => ?_⟩
  · have hr := t3.rep k hk
    have hl := t3.lt k 1 hk (by omega)
    obtain ⟨a, b, d, ba, bb, bd, e⟩ := enc_exists hl
    rw [e] at hr ⊢
    rw [gridRep3, enc_x ba, enc_y ba bb, enc_z ba bb] at hr
    rw [← hr]
    have la := Nat.mod_lt a hx
    have lb := Nat.mod_lt b hy
    obtain ⟨f1, f2, f3⟩ := gridCoor3_enc h (z := d) ba bb
    obtain ⟨g1, g2, g3⟩ := gridCoor3_enc h (nelx := nelx) (nely := nely) (x := a % nelx) (y := b % nely)
      (z := d % nelz) (by omega) (by omega)
    rw [f1, f2, f3, g1, g2, g3]
    have key : ∀ a n : Nat, 0 < n → a < n + 1 → h * (a : α) = h * ((a % n : Nat) : α) ∨
        h * (a : α) = h * ((a % n : Nat) : α) + h * (n : α) := by
      intro a n hn ha
      by_cases e : a = n
      · right; subst e; rw [Nat.mod_self]; simp
      · left; rw [Nat.mod_eq_of_lt (by omega)]
    exact ⟨key a nelx hx ba, key b nely hy bb, key d nelz hz bd⟩
  · have := gridRep3_lt (k := P k 1) hx hy hz
    rw [t3.rep k hk, he] at this
    have := (t3.dep (P k' 1) (t3.lt k' 1 hk' (by omega))).1 ⟨k', hk', rfl⟩
    omega
  · rw [t3.dep m hm, ← hmul_eq hh, ← hmul_eq hh (b := nely), ← hmul_eq hh (b := nelz)]
    simp [gridCoor3]

/-- **C34** `dofsPeriodic()`: two DOFs coincide exactly when they are the same component of nodes whose
positions differ by a lattice vector of the periodic cell; the DOF numbers are contiguous, and there are
`3 * nelx * nely * nelz` of them. -/
theorem C34_dofsPeriodic (nelx nely nelz : Nat) (hx : 0 < nelx) (hy : 0 < nely) (hz : 0 < nelz) {h : α}
    (hh : 0 < h) :
    let M := Hex8.Regular.new nelx nely nelz h
    ∃ c x y d, Hex8.Regular.coor M = .ok c ∧ Is2 c M.nnode 3 x ∧
      Hex8.Regular.dofsPeriodic M = .ok y ∧ Is2 y M.nnode 3 d ∧
      (∀ m i m' i', m < M.nnode → i < 3 → m' < M.nnode → i' < 3 →
        (d m i = d m' i' ↔
          LatticeEq3 (h * (nelx : α)) (h * (nely : α)) (h * (nelz : α)) (x m) (x m') ∧ i = i')) ∧
      (∀ v, (∃ m i, m < M.nnode ∧ i < 3 ∧ d m i = v) ↔ v < nelx * nely * nelz * 3) := by
  obtain ⟨c, h1, h2⟩ := Hex8.Regular.coor_spec nelx nely nelz h
  obtain ⟨t, n, P, t1, t2, rfl, t3⟩ := Hex8.Regular.table nelx nely nelz hx hy hz h
  obtain ⟨y, g, y1, y2, y3, y4⟩ := gridTable3_dofs hx hy hz t2 t3
  refine ⟨c, _, y, g, h1, h2, ?_, y2, fun m i m' i' hm hi hm' hi' => ?_, y4⟩
  · simp only [Hex8.Regular.dofsPeriodic, t1, Res.ok_bind]; exact y1
  · rw [y3 m i m' i' hm hi hm' hi', gridRep3_lattice hx hy hh]

end boundary

/-- C34: the hypotheses hold for a 2 × 3 × 4 mesh, whose periodic version has 72 DOFs -/
example : ∃ y d, Hex8.Regular.dofsPeriodic (Hex8.Regular.new 2 3 4 (1 : ℚ)) = .ok y ∧ Is2 y 60 3 d ∧
    ∃ m i, m < 60 ∧ i < 3 ∧ d m i = 71 := by
  obtain ⟨c, x, y, d, -, -, h1, h2, -, h3⟩ := C34_dofsPeriodic 2 3 4 (by omega) (by omega) (by omega)
    (show (0 : ℚ) < 1 by norm_num)
  exact ⟨y, d, h1, h2, (h3 71).2 (by omega)⟩

end GF
