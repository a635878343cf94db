import Verif.Lemmas.FineLayerGrid

/-! **C62** `Mesh::Quad4::FineLayer::elementgrid_ravel`. -/

namespace GF
open FineLayerSpec Finset FineLayer
variable {α : Type} [Field α] [LinearOrder α] [IsStrictOrderedRing α]

theorem FineLayerSpec.Kind.corner_bound (K : Kind) {q j : Nat} (hq : q < K.tiles) (hj : j < 4) :
    (K.corner q j).1 ≤ K.cols ∧ (K.corner q j).2 ≤ K.rows := by
  cases K
  all_goals
    simp only [Kind.tiles] at hq
    interval_cases q <;> interval_cases j <;> decide

theorem FineLayerSpec.Kind.corner_spread (K : Kind) {q : Nat} (hq : q < K.tiles) :
    (∃ j, j < 4 ∧ 0 < (K.corner q j).1) ∧ (∃ j, j < 4 ∧ (K.corner q j).1 < K.cols) ∧
    (∃ j, j < 4 ∧ 0 < (K.corner q j).2) ∧ (∃ j, j < 4 ∧ (K.corner q j).2 < K.rows) := by
  cases K
  all_goals
    simp only [Kind.tiles] at hq
    interval_cases q <;> decide

/-- an element of layer `i`, block `b`, is in a box bounded by layers and by multiples of the width of the layer
exactly if the layer and the block are -/
theorem FineLayerSpec.inBox_iff {nelx nmin nfine n : Nat} {w g : Nat → Nat} {r : Nat → Int} {h : α} (hh : 0 < h)
    {nnode nelem : Nat} {x : Nat → Nat → α} {c : Nat → Nat → Nat} {s : Nat → Nat}
    (hH : HalfLayers nelx nmin nfine n w g r) (hF : FineMesh nelx n w g r h nnode nelem x c s)
    {i b q lo hi X0 X1 : Nat} (hi' : i < 2 * n - 1) (hb : b < nelx / w (dist n i)) (hq : q < (kind n r i).tiles)
    (hx0 : w (dist n i) ∣ X0 ∨ ¬ (lo ≤ i ∧ i ≤ hi)) (hx1 : w (dist n i) ∣ X1 ∨ ¬ (lo ≤ i ∧ i ≤ hi)) :
    InBox h x c X0 X1 (height (fun k => g (dist n k)) lo) (height (fun k => g (dist n k)) (hi + 1))
        (s i + (b * (kind n r i).tiles + q)) ↔
      lo ≤ i ∧ i ≤ hi ∧ X0 ≤ b * w (dist n i) ∧ (b + 1) * w (dist n i) ≤ X1 := by
  have hL := layers_of_half hH
  have le : ∀ a b : Nat, h * (a : α) ≤ h * (b : α) ↔ a ≤ b := fun a b => by
    rw [mul_le_mul_iff_right₀ hh]; exact Nat.cast_le
  have hK : kind n r i = kindR n (fun i => r (dist n i)) i := rfl
  obtain ⟨u0, u1, u2⟩ := unit_spec hL hi'
  rw [← hK] at u0 u1 u2
  have pos := fun j hj => hF.pos i b q j hi' hb hq hj
  rw [Nat.add_assoc] at pos
  have hbox : InBox h x c X0 X1 (height (fun k => g (dist n k)) lo) (height (fun k => g (dist n k)) (hi + 1))
      (s i + (b * (kind n r i).tiles + q)) ↔ ∀ j, j < 4 →
      X0 ≤ b * w (dist n i) + ((kind n r i).corner q j).1 * (w (dist n i) / (kind n r i).cols) ∧
      b * w (dist n i) + ((kind n r i).corner q j).1 * (w (dist n i) / (kind n r i).cols) ≤ X1 ∧
      height (fun k => g (dist n k)) lo ≤ height (fun k => g (dist n k)) i + ((kind n r i).corner q j).2 * (w (dist n i) / (kind n r i).cols) ∧
      height (fun k => g (dist n k)) i + ((kind n r i).corner q j).2 * (w (dist n i) / (kind n r i).cols) ≤ height (fun k => g (dist n k)) (hi + 1) := by
    refine forall_congr' fun j => forall_congr' fun hj => ?_
    rw [(pos j hj).1, (pos j hj).2, le, le, le, le]
  rw [hbox]
  generalize hunit : w (dist n i) / (kind n r i).cols = un at u0 u1 u2 ⊢
  have hs : height (fun k => g (dist n k)) (i + 1) = height (fun k => g (dist n k)) i + un * (kind n r i).rows := by
    rw [height_succ, u2]
  constructor
  · intro H
    obtain ⟨⟨j1, hj1, p1⟩, ⟨j2, hj2, p2⟩, ⟨j3, hj3, p3⟩, ⟨j4, hj4, p4⟩⟩ := (kind n r i).corner_spread hq
    have q1 := (H j1 hj1).2.1
    have q2 := (H j2 hj2).1
    have q3 := (H j3 hj3).2.2.2
    have q4 := (H j4 hj4).2.2.1
    have r3 : 0 < ((kind n r i).corner q j3).2 * un := Nat.mul_pos p3 u0
    have r4 : ((kind n r i).corner q j4).2 * un < un * (kind n r i).rows := by
      rw [Nat.mul_comm un]; exact Nat.mul_lt_mul_of_pos_right p4 u0
    have hlo : lo ≤ i := by
      by_contra hc
      have : height (fun k => g (dist n k)) (i + 1) ≤ height (fun k => g (dist n k)) lo := height_mono (by omega)
      omega
    have hhi : i ≤ hi := by
      by_contra hc
      have : height (fun k => g (dist n k)) (hi + 1) ≤ height (fun k => g (dist n k)) i := height_mono (by omega)
      omega
    refine ⟨hlo, hhi, ?_, ?_⟩
    · obtain ⟨k, rfl⟩ := hx0.resolve_right (fun h => h ⟨hlo, hhi⟩)
      have r2 : ((kind n r i).corner q j2).1 * un < w (dist n i) := by
        rw [u1, Nat.mul_comm un]; exact Nat.mul_lt_mul_of_pos_right p2 u0
      have r5 : w (dist n i) * k < w (dist n i) * (b + 1) := by rw [Nat.mul_add, Nat.mul_comm _ b]; omega
      have := Nat.lt_of_mul_lt_mul_left r5
      rw [Nat.mul_comm]; exact Nat.mul_le_mul_right _ (by omega)
    · obtain ⟨k, rfl⟩ := hx1.resolve_right (fun h => h ⟨hlo, hhi⟩)
      have r1 : 0 < ((kind n r i).corner q j1).1 * un := Nat.mul_pos p1 u0
      have r5 : w (dist n i) * b < w (dist n i) * k := by rw [Nat.mul_comm _ b]; omega
      have := Nat.lt_of_mul_lt_mul_left r5
      rw [Nat.mul_comm]; exact Nat.mul_le_mul_left _ (by omega)
  · rintro ⟨h1, h2, h3, h4⟩ j hj
    obtain ⟨p1, p2⟩ := (kind n r i).corner_bound hq hj
    have r1 : ((kind n r i).corner q j).1 * un ≤ w (dist n i) := by
      rw [u1, Nat.mul_comm un]; exact Nat.mul_le_mul_right _ p1
    have r2 : ((kind n r i).corner q j).2 * un ≤ un * (kind n r i).rows := by
      rw [Nat.mul_comm un]; exact Nat.mul_le_mul_right _ p2
    have m1 : height (fun k => g (dist n k)) lo ≤ height (fun k => g (dist n k)) i := height_mono h1
    have m2 : height (fun k => g (dist n k)) (i + 1) ≤ height (fun k => g (dist n k)) (hi + 1) := height_mono (by omega)
    rw [Nat.add_mul] at h4
    exact ⟨by omega, by omega, by omega, by omega⟩

/-- everything about the mesh that the selections use -/
theorem FineLayer.meshG (nelx nely : Nat) (hy : 0 < nely) (h : α) (nfine : Nat) :
    ∃ M n w g r Ny ct x t c, FineLayer.new nelx nely h nfine = .ok M ∧
      HalfLayers nelx ((nely + 1) / 2) (min (nfine / 2 + 1) ((nely + 1) / 2)) n w g r ∧
      IsFine M nelx n (fun i => w (dist n i)) (fun i => g (dist n i)) (fun i => r (dist n i)) ∧
      M.nelx = .ok nelx ∧ M.nely = .ok Ny ∧ Ny = height (fun i => g (dist n i)) (2 * n - 1) ∧
      M.coor = .ok ct ∧ Is2 ct M.nnode 2 x ∧ M.conn = .ok t ∧ Is2 t M.nelem 4 c ∧
      FineMesh nelx n w g r h M.nnode M.nelem x c (layS nelx (fun i => w (dist n i)) (fun i => r (dist n i))) := by
  obtain ⟨M, n, w, g, r, ct, x, t, c, h1, h2, h3, h4, e1, e2, e3, e4, e5, e6, e7⟩ := FineLayer.mesh nelx nely hy h nfine
  have hL := layers_of_half h3
  have hp := hL.npos
  refine ⟨M, n, w, g, r, height (fun i => g (dist n i)) (2 * n - 1), ct, x, t, c, h1, h3, h4, ?_, ?_, rfl, e1, e2, e3, e4, e7⟩
  · unfold FineLayer.nelx
    obtain ⟨m, h4, h5, h6⟩ := amax_is1 h4.layer
    rw [h4]
    congr 1
    refine le_antisymm ?_ ?_
    · by_contra hc
      obtain ⟨i, hi, e⟩ : ∃ i, i < 2 * n - 1 ∧ nelx / w (dist n i) = m := h6.resolve_left (by omega)
      have := Nat.div_le_self nelx (w (dist n i))
      omega
    · have := h5 (n - 1) (by omega)
      have hm := hL.mid.1
      rw [hm, Nat.div_one] at this
      exact this
  · unfold FineLayer.nely
    rw [h4.nhy.flat, Res.ok_bind, foldl_height, Nat.zero_add]

theorem FineLayer.elem_coord {nelx n : Nat} {w g : Nat → Nat} {r : Nat → Int} {nelem : Nat}
    (hL : Layers nelx n (fun i => w (dist n i)) (fun i => g (dist n i)) (fun i => r (dist n i)))
    (hN : nelem = layS nelx (fun i => w (dist n i)) (fun i => r (dist n i)) (2 * n - 1)) {e : Nat} (he : e < nelem) :
    ∃ i b q, i < 2 * n - 1 ∧ b < nelx / w (dist n i) ∧ q < (kind n r i).tiles ∧
      e = layS nelx (fun i => w (dist n i)) (fun i => r (dist n i)) i + (b * (kind n r i).tiles + q) := by
  rw [hN] at he
  obtain ⟨i, k, a1, a2, a3⟩ := exists_block he
  rw [hL.layE_eq a1] at a2
  have hk : kind n r i = kindR n (fun i => r (dist n i)) i := rfl
  rw [← hk] at a2
  have ht : 0 < (kind n r i).tiles := by cases kind n r i <;> simp [Kind.tiles]
  refine ⟨i, k / (kind n r i).tiles, k % (kind n r i).tiles, a1,
    (Nat.div_lt_iff_lt_mul ht).2 a2, Nat.mod_lt _ ht, ?_⟩
  rw [a3, Nat.div_add_mod']
  rfl

theorem FineLayer.ravel_box {nelx nmin nfine n : Nat} {w g : Nat → Nat} {r : Nat → Int} {M : FineLayer α}
    (hM : IsFine M nelx n (fun i => w (dist n i)) (fun i => g (dist n i)) (fun i => r (dist n i)))
    (hH : HalfLayers nelx nmin nfine n w g r) {Ny : Nat} (hny : M.nely = .ok Ny) (hnx : M.nelx = .ok nelx)
    (hNy : Ny = height (fun i => g (dist n i)) (2 * n - 1)) {h : α} (hh : 0 < h) {x : Nat → Nat → α} {c : Nat → Nat → Nat}
    (hF : FineMesh nelx n w g r h M.nnode M.nelem x c (layS nelx (fun i => w (dist n i)) (fun i => r (dist n i))))
    {rows cols : List Nat} {r0 r1 c0 c1 : Nat}
    (hrows : pickRange rows Ny = (r0, r1)) (hcols : pickRange cols nelx = (c0, c1)) (h01 : r0 < r1) (h1 : r1 ≤ Ny)
    (c01 : c0 ≤ c1) (hc1 : c1 ≤ nelx) :
    ∃ lo hi u, Region n w g r0 r1 lo hi u ∧
      NodeSet (M.elementgrid_ravel rows cols)
        (fun e => e < M.nelem ∧ InBox h x c (c0 / u * u) (c1 / u * u) (height (fun k => g (dist n k)) lo)
          (height (fun k => g (dist n k)) (hi + 1)) e) (fun e e' => e < e') := by
  obtain ⟨lo, hi, u, t, N, F, hR, hdv, a1, a2, a3, a4⟩ := ravel_core hM hH hny hnx hNy hrows hcols h01 h1 c01 hc1
  have hL := layers_of_half hH
  refine ⟨lo, hi, u, hR, t, N, F, a1, a2, a3, fun e => ?_⟩
  rw [a4]
  have hdvd : ∀ i, ∀ k, w (dist n i) ∣ k / u * u ∨ ¬ (lo ≤ i ∧ i ≤ hi) := by
    intro i k
    by_cases hc : lo ≤ i ∧ i ≤ hi
    · exact Or.inl (Dvd.dvd.mul_left (hdv i hc.1 hc.2) _)
    · exact Or.inr hc
  constructor
  · rintro ⟨i, b, q, h2, h3, h4, h5, h6, rfl⟩
    have hi' : i < 2 * n - 1 := by have := hR.lt; omega
    have hb : b < nelx / w (dist n i) := by
      rw [Nat.lt_div_iff_mul_lt' (hL.fits i hi')]
      have : c1 / u * u ≤ c1 := Nat.div_mul_le_self _ _
      have hw : 0 < w (dist n i) := hL.wpos i hi'
      rw [Nat.add_mul] at h5
      rw [Nat.mul_comm]; omega
    refine ⟨?_, (inBox_iff hh hH hF hi' hb h6 (hdvd i c0) (hdvd i c1)).2 ⟨h2, h3, h4, h5⟩⟩
    rw [hM.nelem]
    refine block_lt hi' ?_
    rw [hL.layE_eq hi']
    exact grid_lt hb h6
  · rintro ⟨he, hb⟩
    obtain ⟨i, b, q, h2, h3, h4, rfl⟩ := elem_coord hL hM.nelem he
    have := (inBox_iff hh hH hF h2 h3 h4 (hdvd i c0) (hdvd i c1)).1 hb
    exact ⟨i, b, q, this.1, this.2.1, this.2.2.1, this.2.2.2, h4, rfl⟩

/-- **C62** `elementgrid_ravel({r0, r1}, {c0, c1})` lists, in increasing order and each once, exactly the elements
inside a box: the rows are rounded outwards to whole layers `lo`, ..., `hi`, the columns are rounded down to
multiples of the widest element in these layers. -/
theorem C62_ravel (nelx nely : Nat) (hy : 0 < nely) {h : α} (hh : 0 < h) (nfine : Nat) :
    ∃ M n w g r Ny ct x t c, FineLayer.new nelx nely h nfine = .ok M ∧ Rows M nelx n w g r ∧ M.nely = .ok Ny ∧
      M.coor = .ok ct ∧ Is2 ct M.nnode 2 x ∧ M.conn = .ok t ∧ Is2 t M.nelem 4 c ∧
      ∀ r0 r1 c0 c1, r0 < r1 → r1 ≤ Ny → c0 ≤ c1 → c1 ≤ nelx →
        ∃ lo hi u, Region n w g r0 r1 lo hi u ∧
          NodeSet (M.elementgrid_ravel [r0, r1] [c0, c1])
            (fun e => e < M.nelem ∧ InBox h x c (c0 / u * u) (c1 / u * u) (height (fun k => g (dist n k)) lo)
              (height (fun k => g (dist n k)) (hi + 1)) e) (fun e e' => e < e') := by
  obtain ⟨M, n, w, g, r, Ny, ct, x, t, c, h1, h2, h3, h4, h5, h6, h7, h8, h9, h10, h11⟩ := FineLayer.meshG nelx nely hy h nfine
  refine ⟨M, n, w, g, r, Ny, ct, x, t, c, h1, ⟨h3.nhx, h3.nhy, h3.refine, h3.layer⟩, h5, h7, h8, h9, h10, ?_⟩
  intro r0 r1 c0 c1 a1 a2 a3 a4
  exact ravel_box h3 h2 h5 h4 h6 hh h11 rfl rfl a1 a2 a3 a4

theorem FineLayer.ravel_exact {nelx nmin nfine n : Nat} {w g : Nat → Nat} {r : Nat → Int} {M : FineLayer α}
    (h3 : IsFine M nelx n (fun i => w (dist n i)) (fun i => g (dist n i)) (fun i => r (dist n i)))
    (h2 : HalfLayers nelx nmin nfine n w g r) {Ny : Nat} (h5 : M.nely = .ok Ny) (h4 : M.nelx = .ok nelx)
    (h6 : Ny = height (fun i => g (dist n i)) (2 * n - 1)) {h : α} (hh : 0 < h) {x : Nat → Nat → α} {c : Nat → Nat → Nat}
    (h11 : FineMesh nelx n w g r h M.nnode M.nelem x c (layS nelx (fun i => w (dist n i)) (fun i => r (dist n i))))
    {lo hi c0 c1 : Nat} (a1 : lo ≤ hi) (a2 : hi < 2 * n - 1) (a3 : c0 ≤ c1) (a4 : c1 ≤ nelx)
    (a5 : ∀ i, lo ≤ i → i ≤ hi → w (dist n i) ∣ c0 ∧ w (dist n i) ∣ c1) :
    NodeSet (M.elementgrid_ravel [height (fun k => g (dist n k)) lo, height (fun k => g (dist n k)) (hi + 1)] [c0, c1])
      (fun e => e < M.nelem ∧ InBox h x c c0 c1 (height (fun k => g (dist n k)) lo)
        (height (fun k => g (dist n k)) (hi + 1)) e) (fun e e' => e < e') := by
  have hL := layers_of_half h2
  have hg := hL.gpos
  have hlt : ∀ i j, i < j → j ≤ 2 * n - 1 → height (fun k => g (dist n k)) i < height (fun k => g (dist n k)) j :=
    fun i j => height_lt hg
  have m1 : height (fun k => g (dist n k)) (hi + 1) ≤ height (fun k => g (dist n k)) (2 * n - 1) := height_mono (by omega)
  obtain ⟨lo', hi', u, hR, hS⟩ := ravel_box h3 h2 h5 h4 h6 hh h11 (rows := [height (fun k => g (dist n k)) lo, height (fun k => g (dist n k)) (hi + 1)])
    (cols := [c0, c1]) rfl rfl (hlt lo (hi + 1) (by omega) (by omega)) (by omega) a3 a4
  have b1 : lo' = lo := by
    have r1 := hR.lo0
    have r2 := hR.lo1
    have r3 := hR.le
    have r4 := hR.lt
    rcases Nat.lt_trichotomy lo' lo with h | h | h
    · have : height (fun k => g (dist n k)) (lo' + 1) ≤ height (fun k => g (dist n k)) lo := height_mono h
      omega
    · exact h
    · have := hlt lo lo' h (by omega)
      omega
  have b2 : hi' = hi := by
    have r1 := hR.hi0
    have r2 := hR.hi1
    have r4 := hR.lt
    rcases Nat.lt_trichotomy hi' hi with h | h | h
    · have := hlt (hi' + 1) (hi + 1) (by omega) (by omega)
      omega
    · exact h
    · have : height (fun k => g (dist n k)) (hi + 1) ≤ height (fun k => g (dist n k)) hi' := height_mono h
      omega
  subst b1 b2
  obtain ⟨i, i1, i2, i3⟩ := hR.attained
  have := a5 i i1 i2
  rw [i3] at this
  rw [Nat.div_mul_cancel this.1, Nat.div_mul_cancel this.2] at hS
  exact hS

/-- **C62** a box that matches the layers and the widths of the elements is selected exactly -/
theorem C62_exact (nelx nely : Nat) (hy : 0 < nely) {h : α} (hh : 0 < h) (nfine : Nat) :
    ∃ M n w g r Ny ct x t c, FineLayer.new nelx nely h nfine = .ok M ∧ Rows M nelx n w g r ∧ M.nely = .ok Ny ∧
      M.coor = .ok ct ∧ Is2 ct M.nnode 2 x ∧ M.conn = .ok t ∧ Is2 t M.nelem 4 c ∧
      ∀ lo hi c0 c1, lo ≤ hi → hi < 2 * n - 1 → c0 ≤ c1 → c1 ≤ nelx →
        (∀ i, lo ≤ i → i ≤ hi → w (dist n i) ∣ c0 ∧ w (dist n i) ∣ c1) →
          NodeSet (M.elementgrid_ravel [height (fun k => g (dist n k)) lo, height (fun k => g (dist n k)) (hi + 1)] [c0, c1])
            (fun e => e < M.nelem ∧ InBox h x c c0 c1 (height (fun k => g (dist n k)) lo)
              (height (fun k => g (dist n k)) (hi + 1)) e) (fun e e' => e < e') := by
  obtain ⟨M, n, w, g, r, Ny, ct, x, t, c, h1, h2, h3, h4, h5, h6, h7, h8, h9, h10, h11⟩ := FineLayer.meshG nelx nely hy h nfine
  refine ⟨M, n, w, g, r, Ny, ct, x, t, c, h1, ⟨h3.nhx, h3.nhy, h3.refine, h3.layer⟩, h5, h7, h8, h9, h10, ?_⟩
  intro lo hi c0 c1 a1 a2 a3 a4 a5
  exact ravel_exact h3 h2 h5 h4 h6 hh h11 a1 a2 a3 a4 a5

/-- **C62** without arguments all elements are selected -/
theorem C62_all (nelx nely : Nat) (hy : 0 < nely) {h : α} (hh : 0 < h) (nfine : Nat) :
    ∃ M, FineLayer.new nelx nely h nfine = .ok M ∧
      NodeSet (M.elementgrid_ravel [] []) (fun e => e < M.nelem) (fun e e' => e < e') := by
  obtain ⟨M, n, w, g, r, Ny, ct, x, t, c, h1, h2, h3, h4, h5, h6, h7, h8, h9, h10, h11⟩ := FineLayer.meshG nelx nely hy h nfine
  have hL := layers_of_half h2
  have hp := hL.npos
  have hlt : ∀ i j, i < j → j ≤ 2 * n - 1 → height (fun k => g (dist n k)) i < height (fun k => g (dist n k)) j :=
    fun i j => height_lt hL.gpos
  have h0 : 0 < Ny := by have := hlt 0 (2 * n - 1) (by omega) le_rfl; omega
  obtain ⟨lo, hi, u, t, N, F, hR, hdv, a1, a2, a3, a4⟩ := ravel_core h3 h2 h5 h4 h6 (rows := []) (cols := []) rfl rfl h0 le_rfl
    (Nat.zero_le _) le_rfl
  refine ⟨M, h1, t, N, F, a1, a2, a3, fun e => ?_⟩
  rw [a4]
  have hlo : lo = 0 := by
    have := hR.lo0
    by_contra hc
    have := hlt 0 lo (by omega) (by have := hR.le; have := hR.lt; omega)
    omega
  have hhi : hi = 2 * n - 2 := by
    have := hR.hi1
    have := hR.lt
    by_contra hc
    have := hlt (hi + 1) (2 * n - 1) (by omega) le_rfl
    omega
  subst hlo hhi
  have hu : nelx / u * u = nelx := by
    obtain ⟨i, i1, i2, i3⟩ := hR.attained
    rw [← i3]
    exact hL.nelx_eq (by omega)
  constructor
  · rintro ⟨i, b, q, b1, b2, b3, b4, b5, rfl⟩
    have hi' : i < 2 * n - 1 := by omega
    rw [hu] at b4
    have hb : b < nelx / w (dist n i) := by
      rw [Nat.lt_div_iff_mul_lt' (hL.fits i hi')]
      have hw : 0 < w (dist n i) := hL.wpos i hi'
      rw [Nat.add_mul] at b4
      rw [Nat.mul_comm]; omega
    rw [h3.nelem]
    refine block_lt hi' ?_
    rw [hL.layE_eq hi']
    exact grid_lt hb b5
  · intro he
    obtain ⟨i, b, q, b1, b2, b3, rfl⟩ := elem_coord hL h3.nelem he
    refine ⟨i, b, q, by omega, by omega, by simp, ?_, b3, rfl⟩
    rw [hu]
    have := hL.nelx_eq b1
    beta_reduce at this
    calc (b + 1) * w (dist n i) ≤ nelx / w (dist n i) * w (dist n i) := Nat.mul_le_mul_right _ b2
      _ = nelx := this

/-- concrete case: rows `[0, 5)`, columns `[4, 9)` of a mesh whose outer layers are three times coarser: the columns
are rounded to `[3, 9)` and the two blocks of four elements of the lower transition layer are selected -/
example : ((FineLayer.new 9 9 (1 : Nat) 1).bind fun M => (M.elementgrid_ravel [0, 5] [4, 9]).bind fun t => t.flat) =
    .ok [4, 5, 6, 7, 8, 9, 10, 11, 15, 16, 17, 18, 19, 20, 24, 25, 26, 27, 28, 29, 33, 34, 35, 36, 37, 38] := by
  decide +kernel

end GF
