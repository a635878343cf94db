import Verif.Lemmas.MeshHex8Sets

/-! The table of periodic node pairs of `Hex8::Regular`. -/

namespace GF

/-- the first rows of the table under construction -/
def RowsAre (s : Ten Nat × Nat) (N : Nat) (L : List (Nat × Nat)) : Prop :=
  s.1.shape = [N, 2] ∧ s.2 = L.length ∧
    ∀ i p, L[i]? = some p → s.1.v [i, 0] = some p.1 ∧ s.1.v [i, 1] = some p.2

theorem pairRow_spec {s : Ten Nat × Nat} {N : Nat} {L : List (Nat × Nat)} (h : RowsAre s N L)
    (hN : L.length < N) (a b : Nat) : ∃ s', pairRow a b s = .ok s' ∧ RowsAre s' N (L ++ [(a, b)]) := by
  obtain ⟨t, c⟩ := s
  obtain ⟨h1, h2, h3⟩ := h
  dsimp only at h1 h2 h3
  subst h2
  refine ⟨((t.put [L.length, 0] a).put [L.length, 1] b, L.length + 1), ?_, h1, by simp, ?_⟩
  · rw [pairRow]; dsimp only
    rw [set_put (by simp [h1, hN]), Res.ok_bind, set_put (by simp [Ten.put, h1, hN]), Res.ok_bind]
  · intro i p hp
    rw [List.getElem?_append] at hp
    split at hp
    · rename_i hi
      have : i ≠ L.length := by omega
      simpa [Ten.put_v, this] using h3 i p hp
    · rename_i hi
      obtain ⟨rfl, rfl⟩ : i = L.length ∧ p = (a, b) := by
        have := List.getElem?_eq_some_iff.1 hp
        obtain ⟨h4, h5⟩ := this
        simp at h4
        have : i = L.length := by omega
        subst this
        simp at h5
        exact ⟨rfl, h5.symm⟩
      simp [Ten.put_v]

theorem pairRows_spec {s : Ten Nat × Nat} {N n : Nat} {L : List (Nat × Nat)} (h : RowsAre s N L)
    {a b : Ten Nat} {f g : Nat → Nat} (ha : Is1 a n f) (hb : Is1 b n g) (hN : L.length + n ≤ N) :
    ∃ s', pairRows a b s = .ok s' ∧ RowsAre s' N (L ++ (List.range n).map fun k => (f k, g k)) := by
  rw [pairRows, ha.size]
  obtain ⟨s', h1, h2⟩ := forEach_inv (it1 n) (fun s j => do
      let x ← a.get [j]
      let ret ← s.1.set [s.2, 0] x
      let y ← b.get [j]
      let ret ← ret.set [s.2, 1] y
      .ok (ret, s.2 + 1)) (fun pre (s : Ten Nat × Nat) => RowsAre s N (L ++ pre.map fun k => (f k, g k)))
    s (by simpa using h) (by
      intro pre j post s hl hI
      have hj : j < n := by
        have : j ∈ it1 n := by rw [hl]; simp
        simpa using this
      have hlen : pre.length < n := by
        have := congrArg List.length hl
        simp [it1] at this; omega
      obtain ⟨s', h3, h4⟩ := pairRow_spec hI (by simp; omega) (f j) (g j)
      refine ⟨s', ?_, by simpa using h4⟩
      rw [ha.get hj, hb.get hj]
      exact h3)
  exact ⟨s', h1, h2⟩

/-- the independent counterpart of a location -/
def Loc.low : Loc → Loc
  | .hi => .lo
  | l => l

/-- one block of the table: nodes of a box and the nodes they depend on -/
def block (nelx nely nelz : Nat) (t : Loc × Loc × Loc) : List (Nat × Nat) :=
  (List.range (locCount nelx nely nelz t.1 t.2.1 t.2.2)).map fun k =>
    (locEnum nelx nely nelz t.1.low t.2.1.low t.2.2.low k, locEnum nelx nely nelz t.1 t.2.1 t.2.2 k)

/-- the blocks in the order of the code -/
def triples : List (Loc × Loc × Loc) :=
  [(.hi, .lo, .lo), (.hi, .lo, .hi), (.lo, .lo, .hi), (.lo, .hi, .lo),
   (.hi, .hi, .lo), (.hi, .hi, .hi), (.lo, .hi, .hi), (.mid, .lo, .hi),
   (.mid, .hi, .hi), (.mid, .hi, .lo), (.hi, .lo, .mid), (.hi, .hi, .mid),
   (.lo, .hi, .mid), (.hi, .mid, .lo), (.hi, .mid, .hi), (.lo, .mid, .hi),
   (.mid, .mid, .hi), (.hi, .mid, .mid), (.mid, .hi, .mid)]

theorem low_count (nelx nely nelz : Nat) (lx ly lz : Loc) :
    locCount nelx nely nelz lx.low ly.low lz.low = locCount nelx nely nelz lx ly lz := by
  have : ∀ l : Loc, ∀ n, l.low.width n = l.width n := fun l n => by cases l <;> rfl
  simp only [locCount, this]

/-- the table under construction consists of the blocks `T` -/
def Acc (nelx nely nelz : Nat) (s : Ten Nat × Nat) (N : Nat) (T : List (Loc × Loc × Loc)) : Prop :=
  RowsAre s N (T.flatMap (block nelx nely nelz))

theorem block_length {nelx nely nelz : Nat} (T : List (Loc × Loc × Loc)) :
    (T.flatMap (block nelx nely nelz)).length =
      (T.map fun t => locCount nelx nely nelz t.1 t.2.1 t.2.2).sum := by
  simp [List.length_flatMap, block]

theorem step_row {nelx nely nelz : Nat} {s : Ten Nat × Nat} {N : Nat} {T : List (Loc × Loc × Loc)}
    (h : Acc nelx nely nelz s N T) (t : Loc × Loc × Loc)
    (hc : locCount nelx nely nelz t.1 t.2.1 t.2.2 = 1) {a b : Nat}
    (ha : locEnum nelx nely nelz t.1.low t.2.1.low t.2.2.low 0 = a)
    (hb : locEnum nelx nely nelz t.1 t.2.1 t.2.2 0 = b)
    (hN : (T.map fun t => locCount nelx nely nelz t.1 t.2.1 t.2.2).sum < N) :
    ∃ s', pairRow a b s = .ok s' ∧ Acc nelx nely nelz s' N (T ++ [t]) := by
  obtain ⟨s', h1, h2⟩ := pairRow_spec h (by rw [block_length]; exact hN) a b
  refine ⟨s', h1, ?_⟩
  rw [Acc, List.flatMap_append]
  simpa [block, hc, ha, hb] using h2

theorem step_rows {nelx nely nelz : Nat} {s : Ten Nat × Nat} {N : Nat} {T : List (Loc × Loc × Loc)}
    (h : Acc nelx nely nelz s N T) (t : Loc × Loc × Loc) {a b : Ten Nat}
    (ha : Is1 a (locCount nelx nely nelz t.1.low t.2.1.low t.2.2.low)
      (locEnum nelx nely nelz t.1.low t.2.1.low t.2.2.low))
    (hb : Is1 b (locCount nelx nely nelz t.1 t.2.1 t.2.2) (locEnum nelx nely nelz t.1 t.2.1 t.2.2))
    (hN : (T.map fun t => locCount nelx nely nelz t.1 t.2.1 t.2.2).sum +
      locCount nelx nely nelz t.1 t.2.1 t.2.2 ≤ N) :
    ∃ s', pairRows a b s = .ok s' ∧ Acc nelx nely nelz s' N (T ++ [t]) := by
  rw [low_count] at ha
  obtain ⟨s', h1, h2⟩ := pairRows_spec h ha hb (by rw [block_length]; exact hN)
  refine ⟨s', h1, ?_⟩
  rw [Acc, List.flatMap_append]
  simpa [block] using h2

theorem pref {nelx nely nelz : Nat} (k : Nat) {t : Loc × Loc × Loc} (h : triples[k]? = some t) :
    ((triples.take k).map fun t => locCount nelx nely nelz t.1 t.2.1 t.2.2).sum +
      locCount nelx nely nelz t.1 t.2.1 t.2.2 ≤
    (triples.map fun t => locCount nelx nely nelz t.1 t.2.1 t.2.2).sum := by
  conv_rhs => rw [← List.take_append_drop k triples]
  obtain ⟨hk, rfl⟩ := List.getElem?_eq_some_iff.1 h
  rw [List.drop_eq_getElem_cons hk]
  simp only [List.map_append, List.map_cons, List.sum_append, List.sum_cons]
  omega

theorem total (nelx nely nelz : Nat) :
    (triples.map fun t => locCount nelx nely nelz t.1 t.2.1 t.2.2).sum =
      locCount nelx nely nelz .mid .mid .lo + locCount nelx nely nelz .lo .mid .mid +
      locCount nelx nely nelz .mid .lo .mid + (3 * locCount nelx nely nelz .mid .lo .lo +
      3 * locCount nelx nely nelz .lo .mid .lo + 3 * locCount nelx nely nelz .lo .lo .mid) + 7 := by
  simp only [triples, List.map_cons, List.map_nil, List.sum_cons, List.sum_nil, locCount, Loc.width, Nat.one_mul,
    Nat.mul_one]
  generalize nelx - 1 = a
  generalize nely - 1 = b
  generalize nelz - 1 = c
  generalize a * b = ab
  generalize b * c = bc
  generalize a * c = ac
  omega

set_option maxHeartbeats 2000000 in
theorem Hex8.Regular.rows {α : Type} (nelx nely nelz : Nat) (hx : 0 < nelx) (hy : 0 < nely) (hz : 0 < nelz)
    (h : α) : ∃ t, nodesPeriodic (new nelx nely nelz h) = .ok t ∧
      RowsAre (t, (triples.flatMap (block nelx nely nelz)).length)
        ((triples.flatMap (block nelx nely nelz)).length) (triples.flatMap (block nelx nely nelz)) := by
  obtain ⟨fro, fro1, fro2⟩ := nodesFrontFace_spec nelx nely nelz h hx hy
  obtain ⟨bck, bck1, bck2⟩ := nodesBackFace_spec nelx nely nelz h hx hy
  obtain ⟨lft, lft1, lft2⟩ := nodesLeftFace_spec nelx nely nelz h hy hz
  obtain ⟨rgt, rgt1, rgt2⟩ := nodesRightFace_spec nelx nely nelz h hy hz
  obtain ⟨bot, bot1, bot2⟩ := nodesBottomFace_spec nelx nely nelz h hx hz
  obtain ⟨top, top1, top2⟩ := nodesTopFace_spec nelx nely nelz h hx hz
  obtain ⟨froBot, froBot1, froBot2⟩ := nodesFrontBottomOpenEdge_spec nelx nely nelz h hx
  obtain ⟨froTop, froTop1, froTop2⟩ := nodesFrontTopOpenEdge_spec nelx nely nelz h hx
  obtain ⟨froLft, froLft1, froLft2⟩ := nodesFrontLeftOpenEdge_spec nelx nely nelz h hy
  obtain ⟨froRgt, froRgt1, froRgt2⟩ := nodesFrontRightOpenEdge_spec nelx nely nelz h hy
  obtain ⟨bckBot, bckBot1, bckBot2⟩ := nodesBackBottomOpenEdge_spec nelx nely nelz h hx
  obtain ⟨bckTop, bckTop1, bckTop2⟩ := nodesBackTopOpenEdge_spec nelx nely nelz h hx
  obtain ⟨bckLft, bckLft1, bckLft2⟩ := nodesBackLeftOpenEdge_spec nelx nely nelz h hy
  obtain ⟨bckRgt, bckRgt1, bckRgt2⟩ := nodesBackRightOpenEdge_spec nelx nely nelz h hy
  obtain ⟨botLft, botLft1, botLft2⟩ := nodesBottomLeftOpenEdge_spec nelx nely nelz h hz
  obtain ⟨botRgt, botRgt1, botRgt2⟩ := nodesBottomRightOpenEdge_spec nelx nely nelz h hz
  obtain ⟨topLft, topLft1, topLft2⟩ := nodesTopLeftOpenEdge_spec nelx nely nelz h hz
  obtain ⟨topRgt, topRgt1, topRgt2⟩ := nodesTopRightOpenEdge_spec nelx nely nelz h hz
  rw [nodesPeriodic, nodesPeriodic3d]
  rw [show (faces (new nelx nely nelz h)).frontFace = .ok fro from fro1, Res.ok_bind]
  rw [show (faces (new nelx nely nelz h)).backFace = .ok bck from bck1, Res.ok_bind]
  rw [show (faces (new nelx nely nelz h)).leftFace = .ok lft from lft1, Res.ok_bind]
  rw [show (faces (new nelx nely nelz h)).rightFace = .ok rgt from rgt1, Res.ok_bind]
  rw [show (faces (new nelx nely nelz h)).bottomFace = .ok bot from bot1, Res.ok_bind]
  rw [show (faces (new nelx nely nelz h)).topFace = .ok top from top1, Res.ok_bind]
  rw [show (faces (new nelx nely nelz h)).frontBottom = .ok froBot from froBot1, Res.ok_bind]
  rw [show (faces (new nelx nely nelz h)).frontTop = .ok froTop from froTop1, Res.ok_bind]
  rw [show (faces (new nelx nely nelz h)).frontLeft = .ok froLft from froLft1, Res.ok_bind]
  rw [show (faces (new nelx nely nelz h)).frontRight = .ok froRgt from froRgt1, Res.ok_bind]
  rw [show (faces (new nelx nely nelz h)).backBottom = .ok bckBot from bckBot1, Res.ok_bind]
  rw [show (faces (new nelx nely nelz h)).backTop = .ok bckTop from bckTop1, Res.ok_bind]
  rw [show (faces (new nelx nely nelz h)).backLeft = .ok bckLft from bckLft1, Res.ok_bind]
  rw [show (faces (new nelx nely nelz h)).backRight = .ok bckRgt from bckRgt1, Res.ok_bind]
  rw [show (faces (new nelx nely nelz h)).bottomLeft = .ok botLft from botLft1, Res.ok_bind]
  rw [show (faces (new nelx nely nelz h)).bottomRight = .ok botRgt from botRgt1, Res.ok_bind]
  rw [show (faces (new nelx nely nelz h)).topLeft = .ok topLft from topLft1, Res.ok_bind]
  rw [show (faces (new nelx nely nelz h)).topRight = .ok topRgt from topRgt1, Res.ok_bind]
  rw [fro2.size, lft2.size, bot2.size, froBot2.size, froLft2.size, botLft2.size]
  have hN := total nelx nely nelz
  set N := locCount nelx nely nelz .mid .mid .lo + locCount nelx nely nelz .lo .mid .mid +
    locCount nelx nely nelz .mid .lo .mid + (3 * locCount nelx nely nelz .mid .lo .lo +
    3 * locCount nelx nely nelz .lo .mid .lo + 3 * locCount nelx nely nelz .lo .lo .mid) + 7 with hN'
  clear_value N
  have h0 : Acc nelx nely nelz (Ten.empty [N, 2], 0) N [] := ⟨rfl, rfl, fun i p hp => by simp at hp⟩
  obtain ⟨s1, e1, h1⟩ := step_row h0 (.hi, .lo, .lo) (by simp [locCount, Loc.width])
    (a := (faces (new nelx nely nelz h)).frontBottomLeft) (b := (faces (new nelx nely nelz h)).frontBottomRight)
    (by simp [faces, locEnum, boxEnum, enc, Loc.start, Loc.low, nodesFrontBottomLeftCorner])
    (by simp only [locEnum, boxEnum, enc, Loc.start, Loc.width, faces, nodesFrontBottomRightCorner, new, Nat.zero_mod, Nat.zero_div]; ring)
    (by have := pref (nelx := nelx) (nely := nely) (nelz := nelz) 0 (t := (.hi, .lo, .lo)) rfl; rw [hN] at this; exact (Nat.lt_of_lt_of_le (Nat.lt_add_of_pos_right (by simp [locCount, Loc.width])) this))
  rw [e1, Res.ok_bind]
  obtain ⟨s2, e2, h2⟩ := step_row h1 (.hi, .lo, .hi) (by simp [locCount, Loc.width])
    (a := (faces (new nelx nely nelz h)).frontBottomLeft) (b := (faces (new nelx nely nelz h)).backBottomRight)
    (by simp [faces, locEnum, boxEnum, enc, Loc.start, Loc.low, nodesFrontBottomLeftCorner])
    (by simp only [locEnum, boxEnum, enc, Loc.start, Loc.width, faces, nodesBackBottomRightCorner, new, Nat.zero_mod, Nat.zero_div]; ring)
    (by have := pref (nelx := nelx) (nely := nely) (nelz := nelz) 1 (t := (.hi, .lo, .hi)) rfl; rw [hN] at this; exact (Nat.lt_of_lt_of_le (Nat.lt_add_of_pos_right (by simp [locCount, Loc.width])) this))
  rw [e2, Res.ok_bind]
  obtain ⟨s3, e3, h3⟩ := step_row h2 (.lo, .lo, .hi) (by simp [locCount, Loc.width])
    (a := (faces (new nelx nely nelz h)).frontBottomLeft) (b := (faces (new nelx nely nelz h)).backBottomLeft)
    (by simp [faces, locEnum, boxEnum, enc, Loc.start, Loc.low, nodesFrontBottomLeftCorner])
    (by simp only [locEnum, boxEnum, enc, Loc.start, Loc.width, faces, nodesBackBottomLeftCorner, new, Nat.zero_mod, Nat.zero_div]; ring)
    (by have := pref (nelx := nelx) (nely := nely) (nelz := nelz) 2 (t := (.lo, .lo, .hi)) rfl; rw [hN] at this; exact (Nat.lt_of_lt_of_le (Nat.lt_add_of_pos_right (by simp [locCount, Loc.width])) this))
  rw [e3, Res.ok_bind]
  obtain ⟨s4, e4, h4⟩ := step_row h3 (.lo, .hi, .lo) (by simp [locCount, Loc.width])
    (a := (faces (new nelx nely nelz h)).frontBottomLeft) (b := (faces (new nelx nely nelz h)).frontTopLeft)
    (by simp [faces, locEnum, boxEnum, enc, Loc.start, Loc.low, nodesFrontBottomLeftCorner])
    (by simp only [locEnum, boxEnum, enc, Loc.start, Loc.width, faces, nodesFrontTopLeftCorner, new, Nat.zero_mod, Nat.zero_div]; ring)
    (by have := pref (nelx := nelx) (nely := nely) (nelz := nelz) 3 (t := (.lo, .hi, .lo)) rfl; rw [hN] at this; exact (Nat.lt_of_lt_of_le (Nat.lt_add_of_pos_right (by simp [locCount, Loc.width])) this))
  rw [e4, Res.ok_bind]
  obtain ⟨s5, e5, h5⟩ := step_row h4 (.hi, .hi, .lo) (by simp [locCount, Loc.width])
    (a := (faces (new nelx nely nelz h)).frontBottomLeft) (b := (faces (new nelx nely nelz h)).frontTopRight)
    (by simp [faces, locEnum, boxEnum, enc, Loc.start, Loc.low, nodesFrontBottomLeftCorner])
    (by simp only [locEnum, boxEnum, enc, Loc.start, Loc.width, faces, nodesFrontTopRightCorner, new, Nat.zero_mod, Nat.zero_div]; ring)
    (by have := pref (nelx := nelx) (nely := nely) (nelz := nelz) 4 (t := (.hi, .hi, .lo)) rfl; rw [hN] at this; exact (Nat.lt_of_lt_of_le (Nat.lt_add_of_pos_right (by simp [locCount, Loc.width])) this))
  rw [e5, Res.ok_bind]
  obtain ⟨s6, e6, h6⟩ := step_row h5 (.hi, .hi, .hi) (by simp [locCount, Loc.width])
    (a := (faces (new nelx nely nelz h)).frontBottomLeft) (b := (faces (new nelx nely nelz h)).backTopRight)
    (by simp [faces, locEnum, boxEnum, enc, Loc.start, Loc.low, nodesFrontBottomLeftCorner])
    (by simp only [locEnum, boxEnum, enc, Loc.start, Loc.width, faces, nodesBackTopRightCorner, new, Nat.zero_mod, Nat.zero_div]; ring)
    (by have := pref (nelx := nelx) (nely := nely) (nelz := nelz) 5 (t := (.hi, .hi, .hi)) rfl; rw [hN] at this; exact (Nat.lt_of_lt_of_le (Nat.lt_add_of_pos_right (by simp [locCount, Loc.width])) this))
  rw [e6, Res.ok_bind]
  obtain ⟨s7, e7, h7⟩ := step_row h6 (.lo, .hi, .hi) (by simp [locCount, Loc.width])
    (a := (faces (new nelx nely nelz h)).frontBottomLeft) (b := (faces (new nelx nely nelz h)).backTopLeft)
    (by simp [faces, locEnum, boxEnum, enc, Loc.start, Loc.low, nodesFrontBottomLeftCorner])
    (by simp only [locEnum, boxEnum, enc, Loc.start, Loc.width, faces, nodesBackTopLeftCorner, new, Nat.zero_mod, Nat.zero_div]; ring)
    (by have := pref (nelx := nelx) (nely := nely) (nelz := nelz) 6 (t := (.lo, .hi, .hi)) rfl; rw [hN] at this; exact (Nat.lt_of_lt_of_le (Nat.lt_add_of_pos_right (by simp [locCount, Loc.width])) this))
  rw [e7, Res.ok_bind]
  obtain ⟨s8, e8, h8⟩ := step_rows h7 (.mid, .lo, .hi) froBot2 bckBot2
    (by have := pref (nelx := nelx) (nely := nely) (nelz := nelz) 7 (t := (.mid, .lo, .hi)) rfl; rw [hN] at this; exact this)
  rw [e8, Res.ok_bind]
  obtain ⟨s9, e9, h9⟩ := step_rows h8 (.mid, .hi, .hi) froBot2 bckTop2
    (by have := pref (nelx := nelx) (nely := nely) (nelz := nelz) 8 (t := (.mid, .hi, .hi)) rfl; rw [hN] at this; exact this)
  rw [e9, Res.ok_bind]
  obtain ⟨s10, e10, h10⟩ := step_rows h9 (.mid, .hi, .lo) froBot2 froTop2
    (by have := pref (nelx := nelx) (nely := nely) (nelz := nelz) 9 (t := (.mid, .hi, .lo)) rfl; rw [hN] at this; exact this)
  rw [e10, Res.ok_bind]
  obtain ⟨s11, e11, h11⟩ := step_rows h10 (.hi, .lo, .mid) botLft2 botRgt2
    (by have := pref (nelx := nelx) (nely := nely) (nelz := nelz) 10 (t := (.hi, .lo, .mid)) rfl; rw [hN] at this; exact this)
  rw [e11, Res.ok_bind]
  obtain ⟨s12, e12, h12⟩ := step_rows h11 (.hi, .hi, .mid) botLft2 topRgt2
    (by have := pref (nelx := nelx) (nely := nely) (nelz := nelz) 11 (t := (.hi, .hi, .mid)) rfl; rw [hN] at this; exact this)
  rw [e12, Res.ok_bind]
  obtain ⟨s13, e13, h13⟩ := step_rows h12 (.lo, .hi, .mid) botLft2 topLft2
    (by have := pref (nelx := nelx) (nely := nely) (nelz := nelz) 12 (t := (.lo, .hi, .mid)) rfl; rw [hN] at this; exact this)
  rw [e13, Res.ok_bind]
  obtain ⟨s14, e14, h14⟩ := step_rows h13 (.hi, .mid, .lo) froLft2 froRgt2
    (by have := pref (nelx := nelx) (nely := nely) (nelz := nelz) 13 (t := (.hi, .mid, .lo)) rfl; rw [hN] at this; exact this)
  rw [e14, Res.ok_bind]
  obtain ⟨s15, e15, h15⟩ := step_rows h14 (.hi, .mid, .hi) froLft2 bckRgt2
    (by have := pref (nelx := nelx) (nely := nely) (nelz := nelz) 14 (t := (.hi, .mid, .hi)) rfl; rw [hN] at this; exact this)
  rw [e15, Res.ok_bind]
  obtain ⟨s16, e16, h16⟩ := step_rows h15 (.lo, .mid, .hi) froLft2 bckLft2
    (by have := pref (nelx := nelx) (nely := nely) (nelz := nelz) 15 (t := (.lo, .mid, .hi)) rfl; rw [hN] at this; exact this)
  rw [e16, Res.ok_bind]
  obtain ⟨s17, e17, h17⟩ := step_rows h16 (.mid, .mid, .hi) fro2 bck2
    (by have := pref (nelx := nelx) (nely := nely) (nelz := nelz) 16 (t := (.mid, .mid, .hi)) rfl; rw [hN] at this; exact this)
  rw [e17, Res.ok_bind]
  obtain ⟨s18, e18, h18⟩ := step_rows h17 (.hi, .mid, .mid) lft2 rgt2
    (by have := pref (nelx := nelx) (nely := nely) (nelz := nelz) 17 (t := (.hi, .mid, .mid)) rfl; rw [hN] at this; exact this)
  rw [e18, Res.ok_bind]
  obtain ⟨s19, e19, h19⟩ := step_rows h18 (.mid, .hi, .mid) bot2 top2
    (by have := pref (nelx := nelx) (nely := nely) (nelz := nelz) 18 (t := (.mid, .hi, .mid)) rfl; rw [hN] at this; exact this)
  rw [e19, Res.ok_bind]
  have hl : (triples.flatMap (block nelx nely nelz)).length = N := by
    rw [block_length, hN]
  rw [hl]
  refine ⟨s19.1, rfl, ?_⟩
  have := h19
  rw [Acc] at this
  exact ⟨this.1, hl.symm, this.2.2⟩

end GF
