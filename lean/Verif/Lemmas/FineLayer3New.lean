import Verif.Lemmas.FineLayer3

/-! Lemmas on `Mesh::Hex8::FineLayer`: the numbering of the layers. -/

namespace GF.FineLayer3
open FineLayerSpec Finset FineLayer
variable {α : Type}

section half
variable {nelx nelz nmin nfine n : Nat} {wx wz g : Nat → Nat} {r : Nat → Int}

theorem HalfLayers3.cases (h : HalfLayers3 nelx nelz nmin nfine n wx wz g r) {d : Nat} (hd : d + 1 < n) :
    (r (d + 1) = -1 ∧ wx (d + 1) = wx d ∧ wz (d + 1) = wz d ∧ g (d + 1) = max (wx d) (wz d)) ∨
    (r (d + 1) = 0 ∧ wx (d + 1) = 3 * wx d ∧ wz (d + 1) = wz d ∧ g (d + 1) = 2 * max (wx d) (wz d)) ∨
    (r (d + 1) = 2 ∧ wx (d + 1) = wx d ∧ wz (d + 1) = 3 * wz d ∧
      (g (d + 1) = 2 * max (wx d) (wz d) ∨ (r d = 0 ∧ g (d + 1) = g d))) := by
  have := h.step d hd
  split at this
  · rename_i hc
    exact Or.inr (Or.inr ⟨this.1, this.2.1, this.2.2.1, Or.inr ⟨hc.1, this.2.2.2⟩⟩)
  · split at this
    · exact Or.inr (Or.inl this)
    · split at this
      · exact Or.inr (Or.inr ⟨this.1, this.2.1, this.2.2.1, Or.inl this.2.2.2⟩)
      · exact Or.inl this

theorem HalfLayers3.wpos (h : HalfLayers3 nelx nelz nmin nfine n wx wz g r) {i : Nat} (hi : i < n) :
    0 < wx i ∧ 0 < wz i := by
  induction i with
  | zero => have := h.mid; omega
  | succ i ih =>
    have := ih (by omega)
    rcases HalfLayers3.cases h hi with h | h | h <;> omega

theorem HalfLayers3.gpos (h : HalfLayers3 nelx nelz nmin nfine n wx wz g r) {i : Nat} (hi : i < n) :
    0 < g i ∧ (r i = 0 → 2 ∣ g i) := by
  induction i with
  | zero => have := h.mid; omega
  | succ i ih =>
    have h1 := ih (by omega)
    have h2 := HalfLayers3.wpos h (show i < n by omega)
    rcases HalfLayers3.cases h hi with h | h | ⟨a, b, c, h | h⟩ <;> omega

theorem HalfLayers3.even (h : HalfLayers3 nelx nelz nmin nfine n wx wz g r) {i : Nat} (hi : i < n)
    (hr : r i ≠ -1) : 2 ∣ g i := by
  cases i with
  | zero => have := h.mid; omega
  | succ i =>
    have h1 := HalfLayers3.gpos h (show i < n by omega)
    rcases HalfLayers3.cases h hi with h | h | ⟨a, b, c, h | h⟩ <;> omega

end half

/-- how the number of cells along one axis changes across a layer -/
inductive Mode where
  | same | below | above
deriving DecidableEq

/-- cells of the bottom row, respectively the top row, per cell of the layer -/
def Mode.lo : Mode → Nat
  | .above => 3
  | _ => 1

def Mode.hi : Mode → Nat
  | .below => 3
  | _ => 1

/-- kind of layer `i`, for the types of the layers from bottom to top -/
def kindR3 (n : Nat) (R : Nat → Int) (i : Nat) : Kind3 :=
  if R i = 0 then (if i < n then .xBelow else .xAbove)
  else if R i = 2 then (if i < n then .zBelow else .zAbove)
  else .normal

end GF.FineLayer3

namespace GF.FineLayerSpec.Kind3
open FineLayer3

def mx : Kind3 → Mode
  | .xBelow => .below
  | .xAbove => .above
  | _ => .same

def mz : Kind3 → Mode
  | .zBelow => .below
  | .zAbove => .above
  | _ => .same

end GF.FineLayerSpec.Kind3

namespace GF.FineLayer3
open FineLayerSpec Finset FineLayer
variable {α : Type}

/-- the sizes of the cells along node rows `i` and `i + 1`, for cells of `W i` in layer `i` -/
def ModeOk (n : Nat) (W : Nat → Nat) (i : Nat) : Mode → Prop
  | .same => rowW n W i = W i ∧ rowW n W (i + 1) = W i
  | .below => i + 1 < n ∧ rowW n W i = W i ∧ W i = 3 * rowW n W (i + 1)
  | .above => n ≤ i ∧ rowW n W (i + 1) = W i ∧ W i = 3 * rowW n W i

/-- The layers of the mesh from bottom to top: `2 n - 1` layers of blocks of `WX i` times `G i` times `WZ i`. -/
structure Layers3 (nelx nelz n : Nat) (WX WZ G : Nat → Nat) (R : Nat → Int) : Prop where
  npos : 0 < n
  wpos : ∀ i, i < 2 * n - 1 → 0 < WX i ∧ 0 < WZ i
  gpos : ∀ i, i < 2 * n - 1 → 0 < G i
  fits : ∀ i, i < 2 * n - 1 → WX i ∣ nelx ∧ WZ i ∣ nelz
  modes : ∀ i, i < 2 * n - 1 → ModeOk n WX i (kindR3 n R i).mx ∧ ModeOk n WZ i (kindR3 n R i).mz ∧
    (kindR3 n R i).ny ∣ G i
  types : ∀ i, i < 2 * n - 1 → R i = -1 ∨ R i = 0 ∨ R i = 2
  mid : WX (n - 1) = 1 ∧ WZ (n - 1) = 1 ∧ G (n - 1) = 1 ∧ R (n - 1) = -1

theorem layers_of_half {nelx nelz nmin nfine n : Nat} {wx wz g : Nat → Nat} {r : Nat → Int}
    (h : HalfLayers3 nelx nelz nmin nfine n wx wz g r) :
    Layers3 nelx nelz n (fun i => wx (dist n i)) (fun i => wz (dist n i)) (fun i => g (dist n i))
      (fun i => r (dist n i)) := by
  have hp := h.pos
  have hmid : dist n (n - 1) = 0 := by rw [dist, if_pos (by omega)]; omega
  refine ⟨hp, fun i hi => HalfLayers3.wpos h (dist_lt hi), fun i hi => (HalfLayers3.gpos h (dist_lt hi)).1,
    fun i hi => h.fits _ (dist_lt hi), fun i hi => ?_, fun i hi => ?_, ?_⟩
  · unfold kindR3
    by_cases h1 : i + 1 < n
    · have e1 : dist n i = dist n (i + 1) + 1 := by
        rw [dist, dist, if_pos (by omega), if_pos (by omega)]; omega
      have hd := dist_lt hi
      rw [e1] at hd
      have hc := HalfLayers3.cases h hd
      have hev := HalfLayers3.even h hd
      rw [← e1] at hc hev
      rcases hc with ⟨a, b, c, d⟩ | ⟨a, b, c, d⟩ | ⟨a, b, c, d⟩
      · simp [a, Kind3.mx, Kind3.mz, Kind3.ny, ModeOk, rowW, h1, show i < n by omega, b, c]
      · simp [a, Kind3.mx, Kind3.mz, Kind3.ny, ModeOk, rowW, h1, show i < n by omega, b, c, hev (by omega)]
      · simp [a, Kind3.mx, Kind3.mz, Kind3.ny, ModeOk, rowW, h1, show i < n by omega, b, c, hev (by omega)]
    · by_cases h2 : i < n
      · obtain rfl : i = n - 1 := by omega
        simp [hmid, h.mid, Kind3.mx, Kind3.mz, Kind3.ny, ModeOk, rowW, hp]
        omega
      · have e1 : dist n i = dist n (i - 1) + 1 := by
          rw [dist, dist, if_neg (by omega)]; split <;> omega
        have hd := dist_lt hi
        rw [e1] at hd
        have hc := HalfLayers3.cases h hd
        have hev := HalfLayers3.even h hd
        rw [← e1] at hc hev
        rcases hc with ⟨a, b, c, d⟩ | ⟨a, b, c, d⟩ | ⟨a, b, c, d⟩
        · simp [a, Kind3.mx, Kind3.mz, Kind3.ny, ModeOk, rowW, h1, h2, b, c]
        · simp [a, Kind3.mx, Kind3.mz, Kind3.ny, ModeOk, rowW, h1, h2, show n ≤ i by omega, b, c, hev (by omega)]
        · simp [a, Kind3.mx, Kind3.mz, Kind3.ny, ModeOk, rowW, h1, h2, show n ≤ i by omega, b, c, hev (by omega)]
  · have hd := dist_lt hi
    beta_reduce
    generalize dist n i = d at hd
    cases d with
    | zero => exact Or.inl h.mid.2.2.2
    | succ d =>
      rcases HalfLayers3.cases h hd with ⟨a, -⟩ | ⟨a, -⟩ | ⟨a, -⟩
      · exact Or.inl a
      · exact Or.inr (Or.inl a)
      · exact Or.inr (Or.inr a)
  · simp only [hmid]; exact h.mid

section
variable {nelx nelz n : Nat} {WX WZ G : Nat → Nat} {R : Nat → Int}

/-- number of nodes of node plane `i` -/
def rowN3 (nelx nelz n : Nat) (WX WZ : Nat → Nat) (i : Nat) : Nat := rowN nelx n WX i * rowN nelz n WZ i

/-- number of nodes along one axis inside a layer -/
def axM (nel w : Nat) : Mode → Nat
  | .same => nel / w + 1
  | _ => 2 * (nel / w)

/-- number of nodes inside layer `i` -/
def midN3 (nelx nelz n : Nat) (WX WZ : Nat → Nat) (R : Nat → Int) (i : Nat) : Nat :=
  if kindR3 n R i = .normal then 0
  else axM nelx (WX i) (kindR3 n R i).mx * axM nelz (WZ i) (kindR3 n R i).mz

/-- number of elements of layer `i` -/
def layE3 (nelx nelz n : Nat) (WX WZ : Nat → Nat) (R : Nat → Int) (i : Nat) : Nat :=
  nelx / WX i * (nelz / WZ i) * (kindR3 n R i).tiles

/-- nodes from node plane `i` to node plane `i + 1` -/
def blkN3 (nelx nelz n : Nat) (WX WZ : Nat → Nat) (R : Nat → Int) (i : Nat) : Nat :=
  rowN3 nelx nelz n WX WZ i + midN3 nelx nelz n WX WZ R i

/-- first node of node plane `i` -/
def rowS3 (nelx nelz n : Nat) (WX WZ : Nat → Nat) (R : Nat → Int) (i : Nat) : Nat :=
  height (blkN3 nelx nelz n WX WZ R) i

/-- first element of layer `i` -/
def layS3 (nelx nelz n : Nat) (WX WZ : Nat → Nat) (R : Nat → Int) (i : Nat) : Nat :=
  height (layE3 nelx nelz n WX WZ R) i

theorem Layers3.rowW_pos (h : Layers3 nelx nelz n WX WZ G R) {i : Nat} (hi : i < 2 * n) :
    0 < rowW n WX i ∧ 0 < rowW n WZ i := by
  have hp := h.npos
  unfold rowW; split
  · exact h.wpos _ (by omega)
  · exact h.wpos _ (by omega)

theorem Layers3.rowW_dvd (h : Layers3 nelx nelz n WX WZ G R) {i : Nat} (hi : i < 2 * n) :
    rowW n WX i ∣ nelx ∧ rowW n WZ i ∣ nelz := by
  have hp := h.npos
  unfold rowW; split
  · exact h.fits _ (by omega)
  · exact h.fits _ (by omega)

/-- numbers of cells along one axis, for the three modes -/
theorem ModeOk.cells {nel : Nat} {W : Nat → Nat} {i : Nat} {m : Mode} (h : ModeOk n W i m) (hw : 0 < W i)
    (hd : W i ∣ nel) :
    nel / rowW n W i = m.lo * (nel / W i) ∧ nel / rowW n W (i + 1) = m.hi * (nel / W i) := by
  cases m with
  | same => obtain ⟨a, b⟩ := h; simp only [a, b, Mode.lo, Mode.hi, Nat.one_mul]; trivial
  | below =>
    obtain ⟨-, a, b⟩ := h
    simp only [a, Mode.lo, Mode.hi, Nat.one_mul, true_and]
    rw [b] at hd hw ⊢
    exact div_triple (by omega) hd
  | above =>
    obtain ⟨-, a, b⟩ := h
    simp only [a, Mode.lo, Mode.hi, Nat.one_mul, and_true]
    rw [b] at hd hw ⊢
    exact div_triple (by omega) hd

theorem ModeOk.size {W : Nat → Nat} {i : Nat} {m : Mode} (h : ModeOk n W i m) :
    W i = m.lo * rowW n W i ∧ W i = m.hi * rowW n W (i + 1) := by
  cases m with
  | same => obtain ⟨a, b⟩ := h; simp [a, b, Mode.lo, Mode.hi]
  | below => obtain ⟨-, a, b⟩ := h; simp [a, Mode.lo, Mode.hi]; exact b
  | above => obtain ⟨-, a, b⟩ := h; simp [a, Mode.lo, Mode.hi]; exact b

/-- number of nodes between the bottom plane of layer `i` and its top plane, bottom plane included -/
def rowCount3 (n : Nat) (R : Nat → Int) (L M : Nat → Nat) (i : Nat) : Nat :=
  if i < n - 1 then (if R i = 0 then (3 * L i + 1) * (M i + 1)
    else if R i = 2 then (L i + 1) * (3 * M i + 1) else (L i + 1) * (M i + 1))
  else (if R i = 0 then (5 * L i + 1) * (M i + 1)
    else if R i = 2 then (L i + 1) * (5 * M i + 1) else (L i + 1) * (M i + 1))

/-- number of elements of layer `i` -/
def elemCount3 (R : Nat → Int) (L M : Nat → Nat) (i : Nat) : Nat :=
  if R i = 0 then 4 * L i * M i else if R i = 2 then L i * (4 * M i) else L i * M i

theorem elemCount3_eq (i : Nat) :
    elemCount3 R (fun i => nelx / WX i) (fun i => nelz / WZ i) i = layE3 nelx nelz n WX WZ R i := by
  unfold elemCount3 layE3 kindR3
  by_cases h0 : R i = 0
  · simp only [h0, if_true]; split <;> simp only [Kind3.tiles] <;> ring
  · by_cases h2 : R i = 2
    · simp only [h2, if_true]; rw [if_neg (by omega), if_neg (by omega)]; split <;> simp only [Kind3.tiles] <;> ring
    · simp only [h0, h2, if_false, Kind3.tiles]; ring

theorem Layers3.rowCount_eq (h : Layers3 nelx nelz n WX WZ G R) {i : Nat} (hi : i < 2 * n - 1) :
    rowCount3 n R (fun i => nelx / WX i) (fun i => nelz / WZ i) i = blkN3 nelx nelz n WX WZ R i := by
  have hp := h.npos
  obtain ⟨m1, m2, -⟩ := h.modes i hi
  have c1 := m1.cells (h.wpos i hi).1 (h.fits i hi).1
  have c2 := m2.cells (h.wpos i hi).2 (h.fits i hi).2
  unfold rowCount3 blkN3 rowN3 midN3 rowN
  revert m1 m2 c1 c2
  unfold kindR3
  by_cases h0 : R i = 0
  · by_cases hin : i < n
    · simp only [h0, hin, if_true, Kind3.mx, Kind3.mz, Mode.lo, Mode.hi, Nat.one_mul]
      rintro ⟨q, -⟩ - ⟨c1, -⟩ ⟨c2, -⟩
      rw [if_pos (by omega), if_neg (by simp), c1, c2]; simp only [axM]; ring
    · simp only [h0, hin, if_true, if_false, Kind3.mx, Kind3.mz, Mode.lo, Mode.hi, Nat.one_mul]
      rintro ⟨q, -⟩ - ⟨c1, -⟩ ⟨c2, -⟩
      rw [if_neg (by omega), if_neg (by simp), c1, c2]; simp only [axM]; ring
  · by_cases h2 : R i = 2
    · by_cases hin : i < n
      · simp only [h2, hin, if_true, if_neg (show ¬ (2 : Int) = 0 by omega), Kind3.mx, Kind3.mz, Mode.lo, Mode.hi, Nat.one_mul]
        rintro - ⟨q, -⟩ ⟨c1, -⟩ ⟨c2, -⟩
        rw [if_pos (by omega), if_neg (by simp), c1, c2]; simp only [axM]; ring
      · simp only [h2, hin, if_true, if_false, if_neg (show ¬ (2 : Int) = 0 by omega), Kind3.mx, Kind3.mz, Mode.lo, Mode.hi, Nat.one_mul]
        rintro - ⟨q, -⟩ ⟨c1, -⟩ ⟨c2, -⟩
        rw [if_neg (by omega), if_neg (by simp), c1, c2]; simp only [axM]; ring
    · simp only [h0, h2, if_false, if_true, Kind3.mx, Kind3.mz, Mode.lo, Mode.hi, Nat.one_mul]
      rintro - - ⟨c1, -⟩ ⟨c2, -⟩
      rw [c1, c2]; split <;> ring

theorem rowNodes_spec {lx lz : Ten Nat} {L M : Nat → Nat} (hn : 0 < n) (h : Is1 lx (2 * n - 1) L)
    (h' : Is1 lz (2 * n - 1) M) :
    ∃ t, FineLayer3.rowNodes (2 * n - 1) lx lz = .ok t ∧
      Is1 t (2 * n) (fun i => if i < n then (L i + 1) * (M i + 1) else (L (i - 1) + 1) * (M (i - 1) + 1)) := by
  unfold FineLayer3.rowNodes
  have e1 : (2 * n - 1 + 1) / 2 = n := by omega
  have e2 : (2 * n - 1 - 1) / 2 = n - 1 := by omega
  have e3 : 2 * n - 1 + 1 = 2 * n := by omega
  rw [e1, e2, e3]
  obtain ⟨t1, a1, a2, a3, a4⟩ := fill0 (t := (Ten.empty [2 * n] : Ten Nat)) rfl 0 n (by omega)
    (fun k => (L k + 1) * (M k + 1)) (fun ret iy => do
      let a ← lx.get [iy]
      let b ← lz.get [iy]
      ret.set [iy] ((a + 1) * (b + 1))) (by
      intro k hk s hs
      rw [h.get (by omega), Res.ok_bind, h'.get (by omega), Res.ok_bind, Nat.zero_add])
  obtain ⟨t2, b1, b2, b3, b4⟩ := fillRange a2 n n (by omega) (itFrom (n - 1) (2 * n - 1)) (fun k => n - 1 + k)
    (by
      intro i; rw [mem_itFrom]
      constructor
      · rintro ⟨k, hk, rfl⟩; exact ⟨k, by omega, rfl⟩
      · rintro ⟨k, hk, rfl⟩; exact ⟨k, by omega, rfl⟩) (fun i => i + 1) (by intro k hk; omega)
    (fun k => (L (n - 1 + k) + 1) * (M (n - 1 + k) + 1)) (fun ret iy => do
      let a ← lx.get [iy]
      let b ← lz.get [iy]
      ret.set [iy + 1] ((a + 1) * (b + 1))) (by
      intro k hk s hs
      beta_reduce
      rw [h.get (by omega), Res.ok_bind, h'.get (by omega), Res.ok_bind, show n - 1 + k + 1 = n + k by omega])
  rw [a1, Res.ok_bind]
  refine ⟨t2, b1, b2, fun i hi => ?_⟩
  beta_reduce
  by_cases hin : i < n
  · rw [b4 i (by omega), if_pos hin]
    have := a3 i hin
    rwa [Nat.zero_add] at this
  · have := b3 (i - n) (by omega)
    rw [show n + (i - n) = i by omega] at this
    rw [this, if_neg hin, show n - 1 + (i - n) = i - 1 by omega]

theorem count_spec {lx lz : Ten Nat} {rf : Ten Int} {L M : Nat → Nat} (hn : 0 < n)
    (h : Is1 lx (2 * n - 1) L) (h' : Is1 lz (2 * n - 1) M) (hr : Is1 rf (2 * n - 1) R) :
    ∃ c, FineLayer3.count (2 * n - 1) rf lx lz = .ok c ∧
      CountIs (2 * n - 1) (2 * n - 1) (rowCount3 n R L M) (elemCount3 R L M) c := by
  unfold FineLayer3.count
  have e1 : (2 * n - 1 - 1) / 2 = n - 1 := by omega
  have e2 : itFrom (n - 1) (2 * n - 1) = (it1 n).map (n - 1 + ·) := by
    rw [itFrom, show 2 * n - 1 - (n - 1) = n by omega, it1, List.range'_eq_map_range]
  rw [e1, e2, set1 (t := (Ten.empty [2 * n - 1 + 1] : Ten Nat)) rfl (by omega), Res.ok_bind]
  have low : ∀ i, i < n - 1 → ∀ c, CountIs (2 * n - 1) i (rowCount3 n R L M) (elemCount3 R L M) c →
      ∃ c', FineLayer3.countBelow rf lx lz c i = .ok c' ∧ CountIs (2 * n - 1) (i + 1) (rowCount3 n R L M) (elemCount3 R L M) c' := by
    intro i hi c hc
    obtain ⟨c', h1, h2⟩ := count_step (i := i) (by omega) hc
      (a := c.nnode + (if R i = 0 then (3 * L i + 1) * (M i + 1)
        else if R i = 2 then (L i + 1) * (3 * M i + 1) else (L i + 1) * (M i + 1)))
      (b := c.nelem + (if R i = 0 then 4 * L i * M i else if R i = 2 then L i * (4 * M i) else L i * M i))
      (by rw [rowCount3, if_pos hi]) rfl
    refine ⟨c', ?_, h2⟩
    rw [← h1]
    unfold FineLayer3.countBelow
    rw [set1 hc.es (by omega), Res.ok_bind, hr.get (by omega), Res.ok_bind, h.get (by omega), Res.ok_bind,
      h'.get (by omega), Res.ok_bind, Res.ok_bind]
  have high : ∀ i, n - 1 ≤ i → i < 2 * n - 1 → ∀ c, CountIs (2 * n - 1) i (rowCount3 n R L M) (elemCount3 R L M) c →
      ∃ c', FineLayer3.countAbove rf lx lz c i = .ok c' ∧ CountIs (2 * n - 1) (i + 1) (rowCount3 n R L M) (elemCount3 R L M) c' := by
    intro i hi hi2 c hc
    obtain ⟨c', h1, h2⟩ := count_step (i := i) (by omega) hc
      (a := c.nnode + (if R i = 0 then (5 * L i + 1) * (M i + 1)
        else if R i = 2 then (L i + 1) * (5 * M i + 1) else (L i + 1) * (M i + 1)))
      (b := c.nelem + (if R i = 0 then 4 * L i * M i else if R i = 2 then L i * (4 * M i) else L i * M i))
      (by rw [rowCount3, if_neg (show ¬ i < n - 1 by omega)]) rfl
    refine ⟨c', ?_, h2⟩
    rw [← h1]
    unfold FineLayer3.countAbove
    rw [set1 hc.es (by omega), Res.ok_bind, hr.get (by omega), Res.ok_bind, h.get (by omega), Res.ok_bind,
      h'.get (by omega), Res.ok_bind, Res.ok_bind]
  have loop : ∀ (f : Count → Nat → Res Count) (a m : Nat) (c : Count),
      (∀ k, k < m → ∀ c, CountIs (2 * n - 1) (a + k) (rowCount3 n R L M) (elemCount3 R L M) c →
        ∃ c', f c k = .ok c' ∧ CountIs (2 * n - 1) (a + k + 1) (rowCount3 n R L M) (elemCount3 R L M) c') →
      CountIs (2 * n - 1) a (rowCount3 n R L M) (elemCount3 R L M) c →
      ∃ c', forEach (it1 m) f c = .ok c' ∧ CountIs (2 * n - 1) (a + m) (rowCount3 n R L M) (elemCount3 R L M) c' := by
    intro f a m c hf hc
    exact forEach_range m f (fun k c => CountIs (2 * n - 1) (a + k) (rowCount3 n R L M) (elemCount3 R L M) c) c hc
      (fun k hk c hc => hf k hk c hc)
  obtain ⟨c1, a1, a2⟩ := loop (FineLayer3.countBelow rf lx lz) 0 (n - 1)
    { startElem := Ten.empty [2 * n - 1], startNode := ⟨[2 * n - 1 + 1], Function.update (Ten.empty [2 * n - 1 + 1]).v [0] (some 0)⟩, nnode := 0, nelem := 0 }
    (fun k hk c hc => by rw [Nat.zero_add] at *; exact low k hk c hc)
    ⟨rfl, rfl, by intro k hk; omega, by intro k hk; obtain rfl : k = 0 := by omega
                                        simp [height], rfl, rfl⟩
  obtain ⟨c2, b1, b2⟩ := loop (fun c k => FineLayer3.countAbove rf lx lz c (n - 1 + k)) (n - 1) n c1
    (fun k hk c hc => high _ (by omega) (by omega) c hc) (by rw [Nat.zero_add] at a2; exact a2)
  refine ⟨c2, ?_, by rw [show n - 1 + n = 2 * n - 1 by omega] at b2; exact b2⟩
  refine (congrArg (fun r => Res.bind r _) a1).trans ?_
  rw [Res.ok_bind', forEach_map]
  exact b1

/-- the state of a constructed mesh -/
structure IsFine3 (M : FineLayer3 α) (nelx nelz n : Nat) (WX WZ G : Nat → Nat) (R : Nat → Int) : Prop where
  ndim : M.ndim = 3
  nne : M.nne = 8
  nhx : Is1 M.nhx (2 * n - 1) WX
  nhy : Is1 M.nhy (2 * n - 1) G
  nhz : Is1 M.nhz (2 * n - 1) WZ
  refine : Is1 M.refine (2 * n - 1) R
  layerx : Is1 M.layer_nelx (2 * n - 1) (fun i => nelx / WX i)
  layerz : Is1 M.layer_nelz (2 * n - 1) (fun i => nelz / WZ i)
  nnd : Is1 M.nnd (2 * n) (rowN3 nelx nelz n WX WZ)
  startElem : Is1 M.startElem (2 * n - 1) (layS3 nelx nelz n WX WZ R)
  startNode : Is1 M.startNode (2 * n) (rowS3 nelx nelz n WX WZ R)
  nelem : M.nelem = layS3 nelx nelz n WX WZ R (2 * n - 1)
  nnode : M.nnode = rowS3 nelx nelz n WX WZ R (2 * n - 1) + rowN3 nelx nelz n WX WZ (2 * n - 1)

theorem new_spec [Mul α] [NatCast α] (nelx nely nelz : Nat) (h : α) (nfine : Nat) (hy : 0 < nely) :
    ∃ M n wx wz g r, FineLayer3.new nelx nely nelz h nfine = .ok M ∧ M.h = h ∧ M.Lx = h * (nelx : α) ∧
      M.Lz = h * (nelz : α) ∧
      HalfLayers3 nelx nelz ((nely + 1) / 2) (min (nfine / 2 + 1) ((nely + 1) / 2)) n wx wz g r ∧
      IsFine3 M nelx nelz n (fun i => wx (dist n i)) (fun i => wz (dist n i)) (fun i => g (dist n i))
        (fun i => r (dist n i)) := by
  obtain ⟨n, H, wx, wz, g, r, cx, cz, cv, h1, h2, h3, h4⟩ := half_spec nelx nely nelz nfine hy
  have hp := h4.pos
  have hL := layers_of_half h4
  unfold FineLayer3.new
  rw [h1, Res.ok_bind]
  dsimp only
  rw [if_neg hp.ne', show n * 2 - 1 = 2 * n - 1 by omega]
  have hmx : ∀ {β : Type} (f : Nat → β) (c : β) i, i < 2 * n - 1 → mix n f c (dist n i) = f (dist n i) := by
    intro β f c i hi
    rw [mix, if_pos (dist_lt hi)]
  obtain ⟨t1, a1, b1⟩ := mirror_spec h3.nhx hp h2
  obtain ⟨t2, a2, b2⟩ := mirror_spec h3.nhy hp h2
  obtain ⟨t2', a2', b2'⟩ := mirror_spec h3.nhz hp h2
  obtain ⟨t3, a3, b3⟩ := mirror_spec h3.refine hp h2
  replace b1 := Is1.ext b1 (hmx wx cx)
  replace b2 := Is1.ext b2 (hmx g cv)
  replace b2' := Is1.ext b2' (hmx wz cz)
  replace b3 := Is1.ext b3 (hmx r (-1))
  obtain ⟨t4, a4, b4⟩ := layerNelx_spec (nelx := nelx) b1 (fun i hi => (hL.wpos i hi).1)
  obtain ⟨t4', a4', b4'⟩ := layerNelx_spec (nelx := nelz) b2' (fun i hi => (hL.wpos i hi).2)
  obtain ⟨t5, a5, b5⟩ := rowNodes_spec hp b4 b4'
  obtain ⟨c, a6, b6⟩ := count_spec hp b4 b4' b3
  rw [a1, Res.ok_bind, a2, Res.ok_bind, a2', Res.ok_bind, a3, Res.ok_bind, a4, Res.ok_bind, a4', Res.ok_bind, a5, Res.ok_bind,
    a6, Res.ok_bind, b4.get (by omega), Res.ok_bind, b4'.get (by omega), Res.ok_bind]
  have hrow : ∀ k, k ≤ 2 * n - 1 → height (rowCount3 n (fun i => r (dist n i)) (fun i => nelx / wx (dist n i))
      (fun i => nelz / wz (dist n i))) k =
      rowS3 nelx nelz n (fun i => wx (dist n i)) (fun i => wz (dist n i)) (fun i => r (dist n i)) k := by
    intro k hk
    exact height_congr fun j hj => hL.rowCount_eq (by omega)
  have hlay : ∀ k, height (elemCount3 (fun i => r (dist n i)) (fun i => nelx / wx (dist n i))
      (fun i => nelz / wz (dist n i))) k =
      layS3 nelx nelz n (fun i => wx (dist n i)) (fun i => wz (dist n i)) (fun i => r (dist n i)) k := by
    intro k
    exact height_congr fun j hj => elemCount3_eq j
  refine ⟨_, n, wx, wz, g, r, rfl, rfl, rfl, rfl, h4, ⟨rfl, rfl, b1, b2, b2', b3, b4, b4', ?_,
    ⟨b6.es, fun i hi => ?_⟩, ?_, ?_, ?_⟩⟩
  · refine b5.congr fun i hi => ?_
    simp only [rowN3, rowN, rowW]
    split <;> rfl
  · rw [← hlay]; exact b6.e i hi
  · refine ⟨by rw [b6.ns]; congr 1; omega, fun i hi => ?_⟩
    rw [← hrow i (by omega)]
    exact b6.n i (by omega)
  · rw [← hlay]; exact b6.ne
  · show c.nnode + (nelx / wx (dist n (2 * n - 1 - 1)) + 1) * (nelz / wz (dist n (2 * n - 1 - 1)) + 1) = _
    rw [b6.nn, hrow _ (le_refl _), rowN3, rowN, rowN, rowW, rowW, if_neg (by omega), if_neg (by omega)]

end
end GF.FineLayer3
