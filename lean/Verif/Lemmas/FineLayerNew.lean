import Verif.Lemmas.FineLayer

/-! Lemmas on `Mesh::Quad4::FineLayer`: the numbering of the layers. -/

namespace GF.FineLayer
open FineLayerSpec Finset
variable {α : Type}

theorem HalfLayers.wpos {nelx nmin nfine n : Nat} {w g : Nat → Nat} {r : Nat → Int}
    (h : HalfLayers nelx nmin nfine n w g r) {i : Nat} (hi : i < n) : 0 < w i := by
  induction i with
  | zero => have := h.mid.1; omega
  | succ i ih =>
    have := ih (by omega)
    have h2 := h.step i hi
    split at h2 <;> omega

/-- The layers of the mesh from bottom to top: `2 n - 1` layers of blocks of `W i` times `G i`. -/
structure Layers (nelx n : Nat) (W G : Nat → Nat) (R : Nat → Int) : Prop where
  npos : 0 < n
  wpos : ∀ i, i < 2 * n - 1 → 0 < W i
  gpos : ∀ i, i < 2 * n - 1 → 0 < G i
  fits : ∀ i, i < 2 * n - 1 → W i ∣ nelx
  below : ∀ i, i + 1 < n → (R i = -1 ∧ W i = W (i + 1) ∧ G i = W i) ∨
    (R i = 0 ∧ W i = 3 * W (i + 1) ∧ G i = 2 * W (i + 1))
  above : ∀ i, n ≤ i → i < 2 * n - 1 → (R i = -1 ∧ W i = W (i - 1) ∧ G i = W i) ∨
    (R i = 0 ∧ W i = 3 * W (i - 1) ∧ G i = 2 * W (i - 1))
  mid : W (n - 1) = 1 ∧ G (n - 1) = 1 ∧ R (n - 1) = -1

theorem layers_of_half {nelx nmin nfine n : Nat} {w g : Nat → Nat} {r : Nat → Int}
    (h : HalfLayers nelx nmin nfine n w g r) :
    Layers nelx n (fun i => w (dist n i)) (fun i => g (dist n i)) (fun i => r (dist n i)) := by
  have hp := h.pos
  have gp : ∀ i, i < n → 0 < g i := by
    intro i hi
    cases i with
    | zero => have := h.mid.2.1; omega
    | succ i =>
      have h1 := HalfLayers.wpos h (show i < n by omega)
      have h2 := h.step i hi
      split at h2 <;> omega
  have st : ∀ d, d + 1 < n → (r (d + 1) = -1 ∧ w (d + 1) = w d ∧ g (d + 1) = w (d + 1)) ∨
      (r (d + 1) = 0 ∧ w (d + 1) = 3 * w d ∧ g (d + 1) = 2 * w d) := by
    intro d hd
    have h2 := h.step d hd
    split at h2
    · exact Or.inr h2
    · exact Or.inl ⟨h2.1, h2.2.1, h2.2.2.trans h2.2.1.symm⟩
  refine ⟨hp, fun i hi => HalfLayers.wpos h (dist_lt hi), fun i hi => gp _ (dist_lt hi),
    fun i hi => h.fits _ (dist_lt hi), fun i hi => ?_, fun i h1 h2 => ?_, ?_⟩
  · have e1 : dist n i = dist n (i + 1) + 1 := by
      rw [dist, dist, if_pos (by omega), if_pos (by omega)]; omega
    have := st (dist n (i + 1)) (by rw [← e1]; exact dist_lt (by omega))
    beta_reduce
    rw [e1]; exact this
  · have e1 : dist n i = dist n (i - 1) + 1 := by
      rw [dist, dist, if_neg (by omega)]; split <;> omega
    have := st (dist n (i - 1)) (by rw [← e1]; exact dist_lt (by omega))
    beta_reduce
    rw [e1]; exact this
  · have : dist n (n - 1) = 0 := by rw [dist, if_pos (by omega)]; omega
    simp only [this]; exact h.mid

section
variable {nelx n : Nat} {W G : Nat → Nat} {R : Nat → Int}

/-- width of the cells along node row `i` -/
def rowW (n : Nat) (W : Nat → Nat) (i : Nat) : Nat := if i < n then W i else W (i - 1)

/-- number of nodes of node row `i` -/
def rowN (nelx n : Nat) (W : Nat → Nat) (i : Nat) : Nat := nelx / rowW n W i + 1

/-- number of nodes inside layer `i` -/
def midN (nelx : Nat) (W : Nat → Nat) (R : Nat → Int) (i : Nat) : Nat := if R i = 0 then 2 * (nelx / W i) else 0

/-- number of elements of layer `i` -/
def layE (nelx : Nat) (W : Nat → Nat) (R : Nat → Int) (i : Nat) : Nat :=
  if R i = 0 then 4 * (nelx / W i) else nelx / W i

/-- first node of node row `i` -/
def rowS (nelx n : Nat) (W : Nat → Nat) (R : Nat → Int) (i : Nat) : Nat :=
  height (fun k => rowN nelx n W k + midN nelx W R k) i

/-- first element of layer `i` -/
def layS (nelx : Nat) (W : Nat → Nat) (R : Nat → Int) (i : Nat) : Nat := height (layE nelx W R) i

theorem rowS_succ (i : Nat) :
    rowS nelx n W R (i + 1) = rowS nelx n W R i + rowN nelx n W i + midN nelx W R i := by
  simp only [rowS]
  rw [height_succ]; omega

theorem layS_succ (i : Nat) : layS nelx W R (i + 1) = layS nelx W R i + layE nelx W R i := by
  rw [layS, height_succ, layS]

theorem div_triple {a b : Nat} (hb : 0 < b) (h : 3 * b ∣ a) : a / b = 3 * (a / (3 * b)) := by
  obtain ⟨c, rfl⟩ := h
  rw [Nat.mul_div_cancel_left _ (by omega), show 3 * b * c = b * (3 * c) by ring, Nat.mul_div_cancel_left _ hb]

theorem Layers.nelx_eq (h : Layers nelx n W G R) {i : Nat} (hi : i < 2 * n - 1) :
    nelx / W i * W i = nelx := Nat.div_mul_cancel (h.fits i hi)

theorem Layers.kind (h : Layers nelx n W G R) {i : Nat} (hi : i < 2 * n - 1) :
    (R i = -1 ∧ rowW n W i = W i ∧ rowW n W (i + 1) = W i ∧ G i = W i) ∨
    (R i = 0 ∧ i + 1 < n ∧ rowW n W i = W i ∧ W i = 3 * rowW n W (i + 1) ∧ G i = 2 * rowW n W (i + 1)) ∨
    (R i = 0 ∧ n ≤ i ∧ rowW n W (i + 1) = W i ∧ W i = 3 * rowW n W i ∧ G i = 2 * rowW n W i) := by
  have hp := h.npos
  simp only [rowW]
  by_cases h1 : i + 1 < n
  · rw [if_pos (by omega), if_pos h1]
    rcases h.below i h1 with ⟨a, b, c⟩ | ⟨a, b, c⟩
    · exact Or.inl ⟨a, rfl, b.symm, c⟩
    · exact Or.inr (Or.inl ⟨a, h1, rfl, b, c⟩)
  · by_cases h2 : i < n
    · obtain rfl : i = n - 1 := by omega
      obtain ⟨a, b, c⟩ := h.mid
      rw [if_pos (by omega), if_neg (by omega), Nat.add_sub_cancel]
      exact Or.inl ⟨c, rfl, rfl, by rw [a, b]⟩
    · rw [if_neg (by omega), if_neg (by omega), Nat.add_sub_cancel]
      rcases h.above i (by omega) hi with ⟨a, b, c⟩ | ⟨a, b, c⟩
      · exact Or.inl ⟨a, b.symm, rfl, c⟩
      · exact Or.inr (Or.inr ⟨a, by omega, rfl, b, c⟩)

theorem Layers.rowW_pos (h : Layers nelx n W G R) {i : Nat} (hi : i < 2 * n) : 0 < rowW n W i := by
  have hp := h.npos
  unfold rowW; split
  · exact h.wpos _ (by omega)
  · exact h.wpos _ (by omega)

theorem Layers.rowW_dvd (h : Layers nelx n W G R) {i : Nat} (hi : i < 2 * n) : rowW n W i ∣ nelx := by
  have hp := h.npos
  unfold rowW; split
  · exact h.fits _ (by omega)
  · exact h.fits _ (by omega)

theorem Layers.rowCount_eq (h : Layers nelx n W G R) {i : Nat} (hi : i < 2 * n - 1) :
    rowCount n R (fun i => nelx / W i) i = rowN nelx n W i + midN nelx W R i := by
  have hp := h.npos
  unfold rowCount rowN midN
  beta_reduce
  rcases h.kind hi with ⟨a, b, c, d⟩ | ⟨a, a', b, c, d⟩ | ⟨a, a', b, c, d⟩
  · rw [b, a]; simp
  · rw [if_pos (by omega), if_pos a, if_pos a, b]; omega
  · rw [if_neg (by omega), if_pos a, if_pos a]
    have := h.fits i hi
    rw [c] at this
    have := div_triple (h.rowW_pos (by omega)) this
    rw [this, ← c]; omega

/-- the state of a constructed mesh -/
structure IsFine (M : FineLayer α) (nelx n : Nat) (W G : Nat → Nat) (R : Nat → Int) : Prop where
  ndim : M.ndim = 2
  nne : M.nne = 4
  nhx : Is1 M.nhx (2 * n - 1) W
  nhy : Is1 M.nhy (2 * n - 1) G
  refine : Is1 M.refine (2 * n - 1) R
  layer : Is1 M.layer_nelx (2 * n - 1) (fun i => nelx / W i)
  nnd : Is1 M.nnd (2 * n) (rowN nelx n W)
  startElem : Is1 M.startElem (2 * n - 1) (layS nelx W R)
  startNode : Is1 M.startNode (2 * n) (rowS nelx n W R)
  nelem : M.nelem = layS nelx W R (2 * n - 1)
  nnode : M.nnode = rowS nelx n W R (2 * n - 1) + rowN nelx n W (2 * n - 1)

theorem new_spec [Mul α] [NatCast α] (nelx nely : Nat) (h : α) (nfine : Nat) (hy : 0 < nely) :
    ∃ M n w g r, FineLayer.new nelx nely h nfine = .ok M ∧ M.h = h ∧ M.Lx = h * (nelx : α) ∧
      HalfLayers nelx ((nely + 1) / 2) (min (nfine / 2 + 1) ((nely + 1) / 2)) n w g r ∧
      IsFine M nelx n (fun i => w (dist n i)) (fun i => g (dist n i)) (fun i => r (dist n i)) := by
  obtain ⟨n, H, w, g, r, h1, h2, h3, h4⟩ := half_spec nelx nely nfine hy
  have hp := h4.pos
  have hL := layers_of_half h4
  unfold FineLayer.new
  rw [h1, Res.ok_bind]
  dsimp only
  rw [if_neg hp.ne', show n * 2 - 1 = 2 * n - 1 by omega]
  obtain ⟨t1, a1, b1⟩ := mirror_spec h3.nhx hp h2
  obtain ⟨t2, a2, b2⟩ := mirror_spec h3.nhy hp h2
  obtain ⟨t3, a3, b3⟩ := mirror_spec h3.refine hp h2
  obtain ⟨t4, a4, b4⟩ := layerNelx_spec (nelx := nelx) b1 hL.wpos
  obtain ⟨t5, a5, b5⟩ := rowNodes_spec hp b4
  obtain ⟨c, a6, b6⟩ := count_spec hp b4 b3
  rw [a1, Res.ok_bind, a2, Res.ok_bind, a3, Res.ok_bind, a4, Res.ok_bind, a5, Res.ok_bind, a6, Res.ok_bind,
    b4.get (by omega), Res.ok_bind]
  have hrow : ∀ k, k ≤ 2 * n - 1 → height (rowCount n (fun i => r (dist n i)) fun i => nelx / w (dist n i)) k =
      rowS nelx n (fun i => w (dist n i)) (fun i => r (dist n i)) k := by
    intro k hk
    exact height_congr fun j hj => hL.rowCount_eq (by omega)
  refine ⟨_, n, w, g, r, rfl, rfl, rfl, h4, ⟨rfl, rfl, b1, b2, b3, b4, ?_, ⟨b6.es, fun i hi => b6.e i hi⟩, ?_, b6.ne, ?_⟩⟩
  · refine b5.congr fun i hi => ?_
    simp only [rowN, rowW]
    split <;> rfl
  · refine ⟨by rw [b6.ns]; congr 1; omega, fun i hi => ?_⟩
    rw [← hrow i (by omega)]
    exact b6.n i (by omega)
  · show c.nnode + (nelx / w (dist n (2 * n - 1 - 1)) + 1) = _
    rw [b6.nn, hrow _ (le_refl _), rowN, rowW, if_neg (by omega)]

end
end GF.FineLayer
