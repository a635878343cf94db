import Verif.Lemmas.FineLayer3Mesh
import Verif.Lemmas.FineLayerGrid
import Verif.Props.FineLayer
import Mathlib.Tactic.Linarith

/-! **C66**, **C67** `Mesh::Hex8::FineLayer`: a three-dimensional mesh with a fine middle layer that coarsens
outwards. -/

namespace GF
open FineLayerSpec Finset FineLayer ElemSpec
variable {α : Type}

/-- the layers as they are stored, and returned (one entry per layer, from bottom to top): symmetric about the
middle, where `wx`, `wz`, `g`, `r` list the half counted from the middle -/
structure FineLayerSpec.Rows3 (M : FineLayer3 α) (nelx nelz n : Nat) (wx wz g : Nat → Nat) (r : Nat → Int) : Prop where
  nhx : Is1 M.nhx (2 * n - 1) (fun i => wx (dist n i))
  nhy : Is1 M.nhy (2 * n - 1) (fun i => g (dist n i))
  nhz : Is1 M.nhz (2 * n - 1) (fun i => wz (dist n i))
  type : Is1 M.refine (2 * n - 1) (fun i => r (dist n i))
  nelemx : Is1 M.layer_nelx (2 * n - 1) (fun i => nelx / wx (dist n i))
  nelemz : Is1 M.layer_nelz (2 * n - 1) (fun i => nelz / wz (dist n i))

theorem FineLayer3.IsFine3.rows {M : FineLayer3 α} {nelx nelz n : Nat} {wx wz g : Nat → Nat} {r : Nat → Int}
    (h : FineLayer3.IsFine3 M nelx nelz n (fun i => wx (dist n i)) (fun i => wz (dist n i)) (fun i => g (dist n i))
      (fun i => r (dist n i))) : Rows3 M nelx nelz n wx wz g r :=
  ⟨h.nhx, h.nhy, h.nhz, h.refine, h.layerx, h.layerz⟩

/-- **C66** the layers.  For every number of elements in x-, y- and z-direction the constructor succeeds; the
layers are symmetric about the middle; counted from the middle they obey the documented rules (`HalfLayers3`):
the half height is at least `(nely + 1) / 2`, the middle `min (nfine / 2 + 1) ((nely + 1) / 2)` layers are fine. -/
theorem C66_layers [Mul α] [NatCast α] (nelx nely nelz : Nat) (hy : 0 < nely) (h : α) (nfine : Nat) :
    ∃ M n wx wz g r, FineLayer3.new nelx nely nelz h nfine = .ok M ∧
      HalfLayers3 nelx nelz ((nely + 1) / 2) (min (nfine / 2 + 1) ((nely + 1) / 2)) n wx wz g r ∧
      Rows3 M nelx nelz n wx wz g r := by
  obtain ⟨M, n, wx, wz, g, r, h1, -, -, -, h2, h3⟩ := FineLayer3.new_spec nelx nely nelz h nfine hy
  exact ⟨M, n, wx, wz, g, r, h1, h2, h3.rows⟩

/-- **C66** without a layer the sizes of the internal arrays underflow -/
theorem C66_zero [Mul α] [NatCast α] (nelx nelz : Nat) (h : α) (nfine : Nat) :
    FineLayer3.new nelx 0 nelz h nfine = .ub := by
  have h1 : FineLayer3.half nelx 0 nelz nfine =
      .ok (0, ⟨Ten.full [0] 1, Ten.full [0] 1, Ten.full [0] 1, Ten.full [0] (-1)⟩) := by
    rw [FineLayer3.half]
    simp only [minHeight_eq, fineHeight_eq]
    rw [show min (nfine / 2 + 1) ((0 + 1) / 2) = 0 by omega, FineLayer3.grow, if_pos (Or.inl (le_refl _))]
  rw [FineLayer3.new, h1, Res.ok_bind]
  rfl

/-- **C66** consequences of the rules: the sizes of the blocks always divide the mesh and change by a factor three
in at most one direction per layer, so that neighbouring rows of blocks match; the fine layers are fine; a
transition layer has an even height; no block is longer than its distance to the middle of the mesh; the height of
the mesh exceeds the requested height by less than the outermost layers. -/
theorem C66_rules {nelx nelz nmin nfine n : Nat} {wx wz g : Nat → Nat} {r : Nat → Int}
    (h : HalfLayers3 nelx nelz nmin nfine n wx wz g r) :
    (∀ i, i < n → 0 < wx i ∧ 0 < wz i ∧ 0 < g i ∧ wx i ∣ nelx ∧ wz i ∣ nelz) ∧
    (∀ i, i < n → i < nfine → wx i = 1 ∧ wz i = 1 ∧ g i = 1 ∧ r i = -1) ∧
    (∀ i, i + 1 < n →
      (r (i + 1) = -1 ∧ wx (i + 1) = wx i ∧ wz (i + 1) = wz i ∧ g (i + 1) = max (wx i) (wz i)) ∨
      (r (i + 1) = 0 ∧ wx (i + 1) = 3 * wx i ∧ wz (i + 1) = wz i ∧ 2 ∣ g (i + 1)) ∨
      (r (i + 1) = 2 ∧ wx (i + 1) = wx i ∧ wz (i + 1) = 3 * wz i ∧ 2 ∣ g (i + 1))) ∧
    (∀ i, 0 < i → i < n → wx i ≤ height g i ∧ wz i ≤ height g i) ∧
    (n = nfine ∨ height g n < nmin + g (n - 1)) := by
  have hfine : ∀ i, i < n → i < nfine → wx i = 1 ∧ wz i = 1 ∧ g i = 1 ∧ r i = -1 := by
    intro i
    induction i with
    | zero => intro _ _; exact h.mid
    | succ i ih =>
      intro h1 h2
      have h3 := ih (by omega) (by omega)
      have := h.step i h1
      rw [if_neg (by omega), if_neg (by omega), if_neg (by omega)] at this
      rw [h3.1, h3.2.1] at this
      simp only [max_self] at this
      omega
  have hdist : ∀ i, i + 1 < n → (wx (i + 1) ≤ height g (i + 1) ∧ wz (i + 1) ≤ height g (i + 1)) ∧
      (r (i + 1) = 0 → 3 * wz (i + 1) ≤ height g (i + 1)) := by
    intro i
    induction i with
    | zero =>
      intro hi
      have := h.step 0 hi
      obtain ⟨m1, m2, m3, m4⟩ := h.mid
      have e : height g 1 = 1 := by rw [height_succ, m3]; simp [height]
      simp only [m1, m2, m3, m4, Nat.zero_add, max_self, e] at this ⊢
      rw [if_neg (by omega), if_neg (by omega), if_neg (by omega)] at this
      omega
    | succ i ih =>
      intro hi
      obtain ⟨h1, h1'⟩ := ih (by omega)
      have h2 := h.step (i + 1) hi
      have h3 := height_succ g (i + 1)
      split at h2
      · rename_i hc
        have := h1' hc.1
        omega
      · split at h2
        · rename_i hc
          have := hc.2.1
          omega
        · split at h2
          · rename_i hc
            have := hc.2.1
            omega
          · omega
  refine ⟨fun i hi => ?_, hfine, fun i hi => ?_, fun i hp hi => ?_, ?_⟩
  · obtain ⟨a, b⟩ := FineLayer3.HalfLayers3.wpos h hi
    exact ⟨a, b, (FineLayer3.HalfLayers3.gpos h hi).1, h.fits i hi⟩
  · have hev := FineLayer3.HalfLayers3.even h hi
    have := h.step i hi
    split at this
    · right; right
      exact ⟨this.1, this.2.1, this.2.2.1, hev (by omega)⟩
    · split at this
      · right; left
        exact ⟨this.1, this.2.1, this.2.2.1, hev (by omega)⟩
      · split at this
        · right; right
          exact ⟨this.1, this.2.1, this.2.2.1, hev (by omega)⟩
        · exact Or.inl this
  · obtain ⟨j, rfl⟩ : ∃ j, i = j + 1 := ⟨i - 1, by omega⟩
    exact (hdist j hi).1
  · by_cases hn : n = nfine
    · exact Or.inl hn
    · right
      have hpos := h.pos
      have hf := h.fine
      have h1 := h.minimal (n - 1) (by omega) (by omega)
      have h2 := height_succ g (n - 1)
      rw [Nat.sub_add_cancel hpos] at h2
      omega

/-- **C66** the size of the mesh: `nelx()` and `nelz()` are the requested numbers, `nely()` is the height of the
mesh in fine elements; it is at least the requested number of layers (one less if that is even, the mesh has a
middle layer). -/
theorem C66_size [Mul α] [NatCast α] (nelx nely nelz : Nat) (hy : 0 < nely) (h : α) (nfine : Nat) :
    ∃ M n wx wz g r Ny, FineLayer3.new nelx nely nelz h nfine = .ok M ∧ Rows3 M nelx nelz n wx wz g r ∧
      M.nelx = .ok nelx ∧ M.nelz = .ok nelz ∧ M.nely = .ok Ny ∧
      Ny = height (fun i => g (dist n i)) (2 * n - 1) ∧
      nely ≤ Ny + 1 - nely % 2 ∧ (Ny ≤ nely ∨ Ny < nely + 2 * g (n - 1)) := by
  obtain ⟨M, n, wx, wz, g, r, h1, -, -, -, h2, h3⟩ := FineLayer3.new_spec nelx nely nelz h nfine hy
  have hL := FineLayer3.layers_of_half h2
  have hp := hL.npos
  have key : ∀ (N : Nat) (w : Nat → Nat) (t : Ten Nat), w (n - 1) = 1 → Is1 t (2 * n - 1) (fun i => N / w i) →
      amax t = .ok N := by
    intro N w t hw ht
    obtain ⟨m, h4, h5, h6⟩ := amax_is1 ht
    rw [h4]
    congr 1
    refine le_antisymm ?_ ?_
    · by_contra hc
      obtain ⟨i, hi, e⟩ : ∃ i, i < 2 * n - 1 ∧ N / w i = m := h6.resolve_left (by omega)
      have := Nat.div_le_self N (w i)
      omega
    · have := h5 (n - 1) (by omega)
      rw [hw, Nat.div_one] at this
      exact this
  refine ⟨M, n, wx, wz, g, r, height (fun i => g (dist n i)) (2 * n - 1), h1, h3.rows, ?_, ?_, ?_, rfl, ?_, ?_⟩
  · exact key nelx (fun i => wx (dist n i)) _ hL.mid.1 h3.layerx
  · exact key nelz (fun i => wz (dist n i)) _ hL.mid.2.1 h3.layerz
  · unfold FineLayer3.nely
    rw [h3.nhy.flat, Res.ok_bind, foldl_height, Nat.zero_add]
  · have e := height_mirror hp h2.mid.2.2.1
    have := h2.reach
    omega
  · have e := height_mirror hp h2.mid.2.2.1
    obtain ⟨-, hfine, -, -, h5⟩ := C66_rules h2
    rcases h5 with h5 | h5
    · left
      have : height g n = n := by
        rw [height, sum_congr rfl (fun k hk => (hfine k (mem_range.1 hk) (by rw [← h5]; exact mem_range.1 hk)).2.2.1)]
        simp
      omega
    · right; omega

/-- non-vacuity: a mesh with transition layers in both directions on each side, evaluated -/
example : ((FineLayer3.new 9 27 9 (1 : Nat) 1).bind fun M => .ok (M.nelem, M.nnode,
      (List.range 13).map (fun i => M.nhx.v [i]), (List.range 13).map (fun i => M.nhz.v [i]))) =
    .ok (735, 944, [9, 3, 3, 3, 1, 1, 1, 1, 1, 3, 3, 3, 9].map some, [3, 3, 3, 1, 1, 1, 1, 1, 1, 1, 3, 3, 3].map some) := by
  decide +kernel

example : ((FineLayer3.new 9 27 9 (1 : Nat) 1).bind fun M => .ok (
      (List.range 13).map (fun i => M.nhy.v [i]), (List.range 13).map (fun i => (M.refine.v [i]).map fun a => a.toNat))) =
    .ok ([6, 3, 2, 2, 1, 1, 1, 1, 1, 2, 2, 3, 6].map some, [0, 0, 2, 0, 0, 0, 0, 0, 0, 0, 2, 0, 0].map some) := by
  decide +kernel

section
variable {nelx nelz n : Nat} {WX WZ G : Nat → Nat} {R : Nat → Int}

theorem FineLayer3.axMid_inj {w : Nat} {m : FineLayer3.Mode} (hw : 0 < w / m.cols) (hd : m.cols ∣ w) {k k' : Nat}
    (h : axMid w m k = axMid w m k') : k = k' := by
  have key : ∀ {u : Nat}, 0 < u → w = 3 * u → k / 2 * w + (k % 2 + 1) * (w / 3) = k' / 2 * w + (k' % 2 + 1) * (w / 3) →
      k = k' := by
    intro u hu hw h
    rw [hw, Nat.mul_div_cancel_left _ (by omega)] at h
    have e : (3 * (k / 2) + (k % 2 + 1)) * u = (3 * (k' / 2) + (k' % 2 + 1)) * u := by
      calc _ = k / 2 * (3 * u) + (k % 2 + 1) * u := by ring
        _ = _ := h
        _ = _ := by ring
    have := Nat.eq_of_mul_eq_mul_right hu e
    omega
  cases m with
  | same => exact Nat.eq_of_mul_eq_mul_right (by simpa [Mode.cols] using hw) h
  | below => exact key hw (Nat.mul_div_cancel' hd).symm h
  | above => exact key hw (Nat.mul_div_cancel' hd).symm h

theorem FineLayer3.ModeOk.unit {n : Nat} {W : Nat → Nat} {i : Nat} {m : Mode} (h : ModeOk n W i m)
    (h1 : 0 < rowW n W i) (h2 : 0 < rowW n W (i + 1)) : 0 < W i / m.cols ∧ m.cols ∣ W i := by
  cases m with
  | same => exact ⟨by rw [Mode.cols, Nat.div_one, ← h.1]; exact h1, ⟨W i, by simp [Mode.cols]⟩⟩
  | below =>
    obtain ⟨-, -, a⟩ := h
    simp only [Mode.cols]
    exact ⟨by omega, ⟨_, a⟩⟩
  | above =>
    obtain ⟨-, -, a⟩ := h
    simp only [Mode.cols]
    exact ⟨by omega, ⟨_, a⟩⟩

/-- the units of length of a layer -/
theorem FineLayer3.Layers3.unit (hL : Layers3 nelx nelz n WX WZ G R) {i : Nat} (hi : i < 2 * n - 1) :
    (0 < WX i / (kindR3 n R i).nx ∧ (kindR3 n R i).nx ∣ WX i) ∧
    (0 < G i / (kindR3 n R i).ny ∧ (kindR3 n R i).ny ∣ G i) ∧
    (0 < WZ i / (kindR3 n R i).nz ∧ (kindR3 n R i).nz ∣ WZ i) := by
  obtain ⟨m1, m2, m3⟩ := hL.modes i hi
  have w0 := hL.rowW_pos (show i < 2 * n by omega)
  have w1 := hL.rowW_pos (show i + 1 < 2 * n by omega)
  refine ⟨?_, ⟨?_, m3⟩, ?_⟩
  · rw [nx_eq]; exact m1.unit w0.1 w1.1
  · exact Nat.div_pos (Nat.le_of_dvd (hL.gpos i hi) m3) (by cases kindR3 n R i <;> simp [Kind3.ny])
  · rw [nz_eq]; exact m2.unit w0.2 w1.2

/-- the nodes have distinct positions -/
theorem FineLayer3.pos_inj (hL : Layers3 nelx nelz n WX WZ G R) {i k i' k' : Nat} (hi : i < 2 * n) (hi' : i' < 2 * n)
    (hk : k < blkC nelx nelz n WX WZ R i) (hk' : k' < blkC nelx nelz n WX WZ R i')
    (he : ∀ j, j < 3 → pos3 nelx nelz n WX WZ G R i k j = pos3 nelx nelz n WX WZ G R i' k' j) :
    i = i' ∧ k = k' := by
  have hp := hL.npos
  have hx := he 0 (by omega)
  have hy := he 1 (by omega)
  have hz := he 2 (by omega)
  have posY : ∀ i k, pos3 nelx nelz n WX WZ G R i k 1 = if k < rowN3 nelx nelz n WX WZ i then height G i else
      height G i + G i / 2 := by
    intro i k; rw [pos3]; split <;> rfl
  have low : ∀ i k, height G i ≤ pos3 nelx nelz n WX WZ G R i k 1 := by
    intro i k; rw [posY]; split <;> omega
  have up : ∀ i k, i < 2 * n - 1 → pos3 nelx nelz n WX WZ G R i k 1 < height G (i + 1) := by
    intro i k hi
    have := hL.gpos i hi
    rw [posY, height_succ]; split <;> omega
  have hne : ∀ i k i' k', i < i' → i' < 2 * n →
      pos3 nelx nelz n WX WZ G R i k 1 ≠ pos3 nelx nelz n WX WZ G R i' k' 1 := by
    intro i k i' k' h1 h2 he
    have h3 := up i k (by omega)
    have h4 := low i' k'
    have h5 : height G (i + 1) ≤ height G i' := height_mono h1
    omega
  have hii : i = i' := by
    rcases Nat.lt_trichotomy i i' with h | h | h
    · exact absurd hy (hne _ _ _ _ h hi')
    · exact h
    · exact absurd hy.symm (hne _ _ _ _ h hi)
  subst hii
  refine ⟨rfl, ?_⟩
  rw [posY, posY] at hy
  obtain ⟨w1, w2⟩ := hL.rowW_pos hi
  have mid : ∀ k, ¬ k < rowN3 nelx nelz n WX WZ i → k < blkC nelx nelz n WX WZ R i → i < 2 * n - 1 ∧
      0 < G i / 2 := by
    intro k h1 h2
    rw [blkC] at h2
    by_cases h3 : i < 2 * n - 1
    · refine ⟨h3, ?_⟩
      have u := (hL.unit h3).2.1.1
      rw [if_pos h3, midN3] at h2
      cases hK : kindR3 n R i
      · rw [if_pos hK] at h2; omega
      all_goals (rw [hK] at u; exact u)
    · rw [if_neg h3] at h2; omega
  have split : ∀ {A a b : Nat}, a % A = b % A → a / A = b / A → a = b := by
    intro A a b h1 h2
    rw [← Nat.mod_add_div a A, ← Nat.mod_add_div b A, h1, h2]
  by_cases c1 : k < rowN3 nelx nelz n WX WZ i
  · rw [if_pos c1] at hy
    by_cases c2 : k' < rowN3 nelx nelz n WX WZ i
    · rw [pos3, pos3, if_pos c1, if_pos c2] at hx hz
      exact split (Nat.eq_of_mul_eq_mul_right w1 hx) (Nat.eq_of_mul_eq_mul_right w2 hz)
    · rw [if_neg c2] at hy
      have := mid k' c2 hk'
      omega
  · rw [if_neg c1] at hy
    have h1 := mid k c1 hk
    by_cases c2 : k' < rowN3 nelx nelz n WX WZ i
    · rw [if_pos c2] at hy
      omega
    · rw [pos3, pos3, if_neg c1, if_neg c2] at hx hz
      obtain ⟨u1, -, u3⟩ := hL.unit h1.1
      rw [nx_eq] at u1
      rw [nz_eq] at u3
      have := split (axMid_inj u1.1 u1.2 hx) (axMid_inj u3.1 u3.2 hz)
      omega

theorem FineLayer3.node_inj [Field α] [CharZero α] (hL : Layers3 nelx nelz n WX WZ G R) {h : α}
    (hh : h ≠ 0) {x : Nat → Nat → α} (hx : Placed3 h nelx nelz n WX WZ G R x) {m m' : Nat}
    (hm : m < height (blkC nelx nelz n WX WZ R) (2 * n)) (hm' : m' < height (blkC nelx nelz n WX WZ R) (2 * n))
    (he : ∀ j, j < 3 → x m j = x m' j) : m = m' := by
  obtain ⟨i, k, a1, a2, rfl⟩ := exists_block hm
  obtain ⟨i', k', b1, b2, rfl⟩ := exists_block hm'
  obtain ⟨rfl, rfl⟩ := pos_inj hL a1 b1 a2 b2 (fun j hj => by
    have := he j hj
    rw [hx i k j a1 a2 hj, hx i' k' j b1 b2 hj] at this
    have e := mul_left_cancel₀ hh this
    exact_mod_cast e)
  rfl

/-- every node position of a plane is a corner of an element -/
theorem FineLayer3.exists_corner (K : Kind3) {p : Pl} {cx cz : Nat} (hp : p = .mid → K ≠ .normal)
    (hx : AxValid K.mx p cx) (hz : AxValid K.mz p cz) :
    ∃ q j, q < K.tiles ∧ j < 8 ∧ plOf K q j = p ∧ K.corner q j 0 = cx ∧ K.corner q j 2 = cz := by
  have le : ∀ {m p c}, AxValid m p c → c ∈ List.range 4 := by
    intro m p c h
    rw [List.mem_range]
    cases m <;> cases p <;> simp only [AxValid] at h <;> omega
  have key : ∀ K ∈ [Kind3.normal, .xBelow, .xAbove, .zBelow, .zAbove], ∀ p ∈ [Pl.bot, .mid, .top],
      ∀ cx ∈ List.range 4, ∀ cz ∈ List.range 4, (p = .mid → K ≠ .normal) → AxValid K.mx p cx → AxValid K.mz p cz →
      ∃ q ∈ List.range K.tiles, ∃ j ∈ List.range 8, plOf K q j = p ∧ K.corner q j 0 = cx ∧ K.corner q j 2 = cz := by
    decide +kernel
  obtain ⟨q, hq, j, hj, e⟩ := key K (by cases K <;> simp) p (by cases p <;> simp) cx (le hx) cz (le hz) hp hx hz
  exact ⟨q, j, List.mem_range.1 hq, List.mem_range.1 hj, e⟩

theorem FineLayer3.exists_ax {m : Mode} {p : Pl} {l k : Nat} (hl : 0 < l) (hk : k < axCnt m p l) :
    ∃ b c, b < l ∧ AxValid m p c ∧ axIdx m p b c = k := by
  have three : k < 3 * l + 1 → ∃ b c, b < l ∧ c ≤ 3 ∧ 3 * b + c = k := by
    intro h
    by_cases e : k = 3 * l
    · exact ⟨l - 1, 3, by omega, by omega, by omega⟩
    · exact ⟨k / 3, k % 3, by omega, by omega, by omega⟩
  have two : k < 2 * l → ∃ b c, b < l ∧ (c = 1 ∨ c = 2) ∧ 2 * b + (c - 1) = k := fun h =>
    ⟨k / 2, k % 2 + 1, by omega, by omega, by omega⟩
  cases m <;> cases p <;> simp only [axCnt, Mode.lo, Mode.hi, axIdx, AxValid] at hk ⊢
  all_goals first
    | exact three hk
    | exact two hk
    | (by_cases e : k = l
       · exact ⟨l - 1, 1, by omega, by omega, by omega⟩
       · exact ⟨k, 0, by omega, by omega, by omega⟩)
    | (by_cases e : k = l
       · exact ⟨l - 1, 3, by omega, by omega, by omega⟩
       · exact ⟨k, 0, by omega, by omega, by omega⟩)

end

section
variable [Field α] [CharZero α]

/-- everything that is known about the mesh -/
theorem FineLayer3.mesh (nelx nely nelz : Nat) (hy : 0 < nely) (h : α) (nfine : Nat) :
    ∃ M n wx wz g r ct x t c, FineLayer3.new nelx nely nelz h nfine = .ok M ∧ M.h = h ∧
      HalfLayers3 nelx nelz ((nely + 1) / 2) (min (nfine / 2 + 1) ((nely + 1) / 2)) n wx wz g r ∧
      IsFine3 M nelx nelz n (fun i => wx (dist n i)) (fun i => wz (dist n i)) (fun i => g (dist n i))
        (fun i => r (dist n i)) ∧
      M.coor = .ok ct ∧ Is2 ct M.nnode 3 x ∧ M.conn = .ok t ∧ Is2 t M.nelem 8 c ∧
      M.nnode = height (blkC nelx nelz n (fun i => wx (dist n i)) (fun i => wz (dist n i)) (fun i => r (dist n i))) (2 * n) ∧
      Placed3 h nelx nelz n (fun i => wx (dist n i)) (fun i => wz (dist n i)) (fun i => g (dist n i))
        (fun i => r (dist n i)) x ∧
      (∀ i bx bz q j, i < 2 * n - 1 → bx < nelx / wx (dist n i) → bz < nelz / wz (dist n i) →
        q < (kind3 n r i).tiles → j < 8 →
        c (layS3 nelx nelz n (fun i => wx (dist n i)) (fun i => wz (dist n i)) (fun i => r (dist n i)) i +
            (bx + bz * (nelx / wx (dist n i))) * (kind3 n r i).tiles + q) j =
          node3 nelx nelz n (fun i => wx (dist n i)) (fun i => wz (dist n i)) (fun i => r (dist n i)) i
            (plOf (kind3 n r i) q j)
            (axIdx (kind3 n r i).mx (plOf (kind3 n r i) q j) bx ((kind3 n r i).corner q j 0))
            (axIdx (kind3 n r i).mz (plOf (kind3 n r i) q j) bz ((kind3 n r i).corner q j 2))) ∧
      FineMesh3 nelx nelz n wx wz g r h M.nnode M.nelem x c
        (layS3 nelx nelz n (fun i => wx (dist n i)) (fun i => wz (dist n i)) (fun i => r (dist n i))) := by
  obtain ⟨M, n, wx, wz, g, r, h1, h2, h3, h4, h5, h6⟩ := new_spec nelx nely nelz h nfine hy
  have hL := layers_of_half h5
  have hp := hL.npos
  rw [← h2] at h3 h4
  obtain ⟨e1, ct, x, e2, e3, e4⟩ := coor_spec h6 hL h3 h4
  obtain ⟨t, c, e5, e6, e7⟩ := conn_spec h6 hL
  rw [h2] at e4
  have hk : ∀ i, kind3 n r i = kindR3 n (fun i => r (dist n i)) i := fun i => rfl
  have corner : ∀ i bx bz q j, i < 2 * n - 1 → bx < nelx / wx (dist n i) → bz < nelz / wz (dist n i) →
      q < (kind3 n r i).tiles → j < 8 → _ := fun i bx bz q j hi hbx hbz hq hj =>
    Placed3.at (p := plOf (kindR3 n (fun i => r (dist n i)) i) q j)
      (kx := axIdx (kindR3 n (fun i => r (dist n i)) i).mx (plOf (kindR3 n (fun i => r (dist n i)) i) q j) bx
        ((kindR3 n (fun i => r (dist n i)) i).corner q j 0))
      (kz := axIdx (kindR3 n (fun i => r (dist n i)) i).mz (plOf (kindR3 n (fun i => r (dist n i)) i) q j) bz
        ((kindR3 n (fun i => r (dist n i)) i).corner q j 2)) e4 hL hi (corner_valid _ hq hj).2.2
      (ax_lt (corner_valid _ hq hj).1 hbx) (ax_lt (corner_valid _ hq hj).2.1 hbz)
  refine ⟨M, n, wx, wz, g, r, ct, x, t, c, h1, h2, h5, h6, e2, e3, e5, e6, e1, e4, ?_, ⟨rfl, fun i hi => ?_, h6.nelem.symm, ?_, ?_⟩⟩
  · intro i bx bz q j hi hbx hbz hq hj
    exact e7 i bx bz q j hi hbx hbz hq hj
  · exact height_succ _ _
  · intro e j he hj
    rw [h6.nelem] at he
    obtain ⟨i, k, a1, a2, a3⟩ := exists_block he
    rw [layE3, Nat.mul_comm (nelx / _)] at a2
    obtain ⟨b, q, b1, b2, rfl⟩ := grid_exists a2
    obtain ⟨bz, bx, c1, c2, rfl⟩ := grid_exists b1
    have := e7 i bx bz q j a1 c2 c1 b2 hj
    rw [layS3, Nat.add_comm bx, Nat.add_assoc] at this
    rw [a3, this, e1]
    exact (corner i bx bz q j a1 c2 c1 b2 hj).1
  · intro i bx bz q j hi hbx hbz hq hj
    have := corner i bx bz q j hi hbx hbz hq hj
    obtain ⟨m1, m2, m3⟩ := hL.modes i hi
    rw [hk] at hq ⊢
    rw [e7 i bx bz q j hi hbx hbz hq hj, nodeOf_eq, this.2.1, this.2.2.1, this.2.2.2, ax_pos m1 (corner_valid _ hq hj).1,
      ax_pos m2 (corner_valid _ hq hj).2.1, corner_y (G := fun i => g (dist n i)) (i := i) _ hq hj m3, ← nx_eq, ← nz_eq]
    exact ⟨rfl, rfl, rfl⟩

/-- **C67** the mesh.  `coor()` and `conn()` are fully initialised, every entry of `conn()` is a node, and the
elements have the documented shapes at the documented positions, layer by layer (`FineMesh3`).  Distinct nodes have
distinct positions and every node belongs to an element.  `elementsMiddleLayer()` lists the elements of the middle
layer. -/
theorem C67_mesh (nelx nely nelz : Nat) (hy : 0 < nely) (h : α) (nfine : Nat) :
    ∃ M n wx wz g r ct x t c s, FineLayer3.new nelx nely nelz h nfine = .ok M ∧
      HalfLayers3 nelx nelz ((nely + 1) / 2) (min (nfine / 2 + 1) ((nely + 1) / 2)) n wx wz g r ∧
      Rows3 M nelx nelz n wx wz g r ∧
      M.coor = .ok ct ∧ Is2 ct M.nnode 3 x ∧ M.conn = .ok t ∧ Is2 t M.nelem 8 c ∧
      FineMesh3 nelx nelz n wx wz g r h M.nnode M.nelem x c s ∧
      (h ≠ 0 → ∀ m m', m < M.nnode → m' < M.nnode → (∀ j, j < 3 → x m j = x m' j) → m = m') ∧
      (0 < nelx → 0 < nelz → ∀ m, m < M.nnode → ∃ e j, e < M.nelem ∧ j < 8 ∧ c e j = m) ∧
      IsOk M.elementsMiddleLayer (fun l => Is1 l (nelx * nelz) (fun k => s (n - 1) + k)) := by
  obtain ⟨M, n, wx, wz, g, r, ct, x, t, c, h1, h2, h3, h4, e1, e2, e3, e4, e5, e6, e7, e8⟩ :=
    FineLayer3.mesh nelx nely nelz hy h nfine
  have hL := FineLayer3.layers_of_half h3
  have hp := hL.npos
  refine ⟨M, n, wx, wz, g, r, ct, x, t, c, _, h1, h3, h4.rows, e1, e2, e3, e4, e8, ?_, ?_, ?_⟩
  · intro hh m m' hm hm' he
    rw [e5] at hm hm'
    exact FineLayer3.node_inj hL hh e6 hm hm' he
  · intro hx hz m hm
    rw [e5] at hm
    obtain ⟨i, p, kx, kz, hi, hpl, hkx, hkz, rfl⟩ := hL.exists_node hm
    obtain ⟨bx, cx, hbx, vx, rfl⟩ := FineLayer3.exists_ax
      (Nat.div_pos (Nat.le_of_dvd hx (hL.fits i hi).1) (hL.wpos i hi).1) hkx
    obtain ⟨bz, cz, hbz, vz, rfl⟩ := FineLayer3.exists_ax
      (Nat.div_pos (Nat.le_of_dvd hz (hL.fits i hi).2) (hL.wpos i hi).2) hkz
    obtain ⟨q, j, hq, hj, rfl, rfl, rfl⟩ := FineLayer3.exists_corner _ hpl vx vz
    refine ⟨_, j, ?_, hj, e7 i bx bz q j hi hbx hbz hq hj⟩
    rw [h4.nelem]
    refine lt_of_lt_of_le ?_ (height_mono (show i + 1 ≤ 2 * n - 1 by omega))
    rw [height_succ, Nat.add_assoc]
    refine Nat.add_lt_add_left ?_ _
    rw [FineLayer3.layE3]
    refine grid_lt ?_ hq
    rw [Nat.add_comm bx, Nat.mul_comm (nelx / _)]
    exact grid_lt hbz hbx
  · unfold FineLayer3.elementsMiddleLayer
    have hsz : M.nhy.size = 2 * n - 1 := h4.nhy.size
    have hmid : (2 * n - 1 - 1) / 2 = n - 1 := by omega
    simp only [hsz, hmid]
    rw [h4.layerx.get (by omega), Res.ok_bind, h4.layerz.get (by omega), Res.ok_bind, h4.startElem.get (by omega),
      Res.ok_bind]
    have w1 := hL.mid.1
    have w2 := hL.mid.2.1
    beta_reduce at w1 w2 ⊢
    rw [w1, w2, Nat.div_one, Nat.div_one]
    rw [show (forEach (it1 nelx) (fun (ret : Ten Nat) x => forEach (it1 nelz) (fun (ret : Ten Nat) z =>
        ret.set [x + z * nelx] (FineLayer3.layS3 nelx nelz n (fun i => wx (dist n i)) (fun i => wz (dist n i))
          (fun i => r (dist n i)) (n - 1) + x + z * nelx)) ret) (Ten.empty [nelx * nelz])) = _ from
      forEach_nest (it1 nelx) (it1 nelz) (fun (ret : Ten Nat) (p : Nat × Nat) => ret.set [p.1 + p.2 * nelx]
        (FineLayer3.layS3 nelx nelz n (fun i => wx (dist n i)) (fun i => wz (dist n i))
          (fun i => r (dist n i)) (n - 1) + p.1 + p.2 * nelx)) _]
    obtain ⟨t', a1, a2, a3, -⟩ := forEach_set ((it1 nelx).flatMap fun e => (it1 nelz).map fun k => (e, k))
      (fun (ret : Ten Nat) (p : Nat × Nat) => ret.set [p.1 + p.2 * nelx] (FineLayer3.layS3 nelx nelz n (fun i => wx (dist n i))
        (fun i => wz (dist n i)) (fun i => r (dist n i)) (n - 1) + p.1 + p.2 * nelx))
      (fun p => [p.1 + p.2 * nelx]) (fun p => FineLayer3.layS3 nelx nelz n (fun i => wx (dist n i))
        (fun i => wz (dist n i)) (fun i => r (dist n i)) (n - 1) + p.1 + p.2 * nelx) (Ten.empty [nelx * nelz])
      (by
        intro p hp
        simp only [List.mem_flatMap, List.mem_map, mem_it1] at hp
        obtain ⟨a, ha, b, hb, rfl⟩ := hp
        have := grid_lt hb ha
        refine inb1.2 ⟨_, rfl, ?_⟩
        rw [Nat.mul_comm nelx, Nat.add_comm]; exact this)
      (fun _ _ _ _ => rfl)
    refine ⟨t', a1, ⟨a2, fun k hk => ?_⟩⟩
    rw [Nat.mul_comm] at hk
    obtain ⟨b, a, hb, ha, rfl⟩ := grid_exists hk
    obtain ⟨⟨a', b'⟩, -, q2, q3⟩ := a3 [b * nelx + a] ⟨(a, b), by
      simp only [List.mem_flatMap, List.mem_map, mem_it1]; exact ⟨a, ha, b, hb, rfl⟩, by simp only [Nat.add_comm]⟩
    rw [q3]
    have : a' + b' * nelx = b * nelx + a := by simpa using q2
    simp only; congr 1; omega

end

end GF
