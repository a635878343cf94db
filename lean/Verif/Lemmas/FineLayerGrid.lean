import Verif.Props.FineLayerRoll
import Verif.Model.FineLayerGrid
import Verif.Spec.FineLayerGrid

/-! The element selections of `Quad4::FineLayer`. -/

namespace GF
open FineLayerSpec Finset FineLayer
variable {α : Type}

theorem forEach_itFrom {σ : Type} (a b : Nat) (f : σ → Nat → Res σ) (s : σ) :
    forEach (itFrom a b) f s = forEach (it1 (b - a)) (fun s k => f s (a + k)) s := by
  have : itFrom a b = (it1 (b - a)).map (fun k => a + k) := by
    rw [itFrom, it1, List.range'_eq_map_range]
  rw [this, forEach_map]

/-- a loop that appends `cnt k` entries in iteration `k` -/
theorem append_loop {m N : Nat} {cnt : Nat → Nat} {g : Nat → Nat → Nat} (hN : height cnt m = N)
    (body : Ten Nat × Nat → Nat → Res (Ten Nat × Nat))
    (hb : ∀ k, k < m → ∀ t c, t.shape = [N] → c + cnt k ≤ N → ∃ t', body (t, c) k = .ok (t', c + cnt k) ∧
      t'.shape = [N] ∧ (∀ q, q < cnt k → t'.v [c + q] = some (g k q)) ∧ ∀ i, i < c ∨ c + cnt k ≤ i → t'.v [i] = t.v [i]) :
    ∃ t F, forEach (it1 m) body (Ten.empty [N], 0) = .ok (t, N) ∧ Is1 t N F ∧
      ∀ k q, k < m → q < cnt k → F (height cnt k + q) = g k q := by
  obtain ⟨s, a1, a2, a3, a4⟩ := forEach_range m body
    (fun k (s : Ten Nat × Nat) => s.1.shape = [N] ∧ s.2 = height cnt k ∧
      ∀ i q, i < k → q < cnt i → s.1.v [height cnt i + q] = some (g i q))
    (Ten.empty [N], 0) ⟨rfl, rfl, fun i q hi => by omega⟩ (by
      rintro k hk ⟨t, c⟩ ⟨h1, h2, h3⟩
      dsimp only at h1 h2 h3
      have hle : height cnt (k + 1) ≤ height cnt m := height_mono hk
      rw [height_succ] at hle
      obtain ⟨t', b1, b2, b3, b4⟩ := hb k hk t c h1 (by omega)
      refine ⟨(t', c + cnt k), b1, b2, by rw [height_succ, h2], fun i q hi hq => ?_⟩
      by_cases hik : i = k
      · subst hik
        rw [← h2]; exact b3 q hq
      · have : height cnt (i + 1) ≤ height cnt k := height_mono (by omega)
        rw [height_succ] at this
        dsimp only
        rw [b4 _ (Or.inl (by omega)), h3 i q (by omega) hq])
  obtain ⟨t, c⟩ := s
  dsimp only at a2 a3 a4
  obtain ⟨F, hF⟩ := exists_glue cnt g
  refine ⟨t, F, by rw [a1, a3, hN], ⟨a2, fun e he => ?_⟩, fun k q _ hq => hF k q hq⟩
  rw [← hN] at he
  obtain ⟨i, k, h1, h2, rfl⟩ := exists_block he
  rw [a4 i k h1 h2, hF i k h2]

theorem foldl_height (g : Nat → Nat) (m a : Nat) :
    ((List.range m).map g).foldl (· + ·) a = a + height g m := by
  induction m generalizing a with
  | zero => simp [height]
  | succ m ih => rw [List.range_succ, List.map_append, List.foldl_append, ih, height_succ]; simp; omega

theorem FineLayer.cumsum_spec {t : Ten Nat} {N : Nat} {g : Nat → Nat} (h : Is1 t N g) :
    cumsum t = .ok ((List.range N).map fun i => height g (i + 1)) := by
  unfold cumsum
  rw [h.flat, Res.ok_bind]
  congr 1
  rw [List.length_map, List.length_range]
  refine List.map_congr_left fun i hi => ?_
  have hi := List.mem_range.1 hi
  rw [← List.map_take, List.take_range, Nat.min_eq_left (by omega), foldl_height, Nat.zero_add]

/-- the first position at which a predicate holds -/
theorem FineLayer.argmaxB_spec {N : Nat} {f : Nat → Nat} {p : Nat → Bool} (h : ∃ i, i < N ∧ p (f i) = true) :
    ∃ i, argmaxB ((List.range N).map f) p = i ∧ i < N ∧ p (f i) = true ∧ ∀ j, j < i → p (f j) = false := by
  obtain ⟨i, hi, hp⟩ := h
  have hlen : ((List.range N).map f).length = N := by simp
  have hlt : ((List.range N).map f).findIdx p < ((List.range N).map f).length :=
    List.findIdx_lt_length_of_exists ⟨f i, List.mem_map.2 ⟨i, List.mem_range.2 hi, rfl⟩, hp⟩
  refine ⟨_, rfl, ?_⟩
  unfold argmaxB
  rw [if_pos hlt]
  rw [hlen] at hlt
  refine ⟨hlt, ?_, fun j hj => ?_⟩
  · have := List.findIdx_getElem (xs := (List.range N).map f) (p := p) (w := by rw [hlen]; exact hlt)
    simpa using this
  · have := List.not_of_lt_findIdx hj
    simpa using this


namespace FineLayer
variable {nelx nmin nfine n : Nat} {w g : Nat → Nat} {r : Nat → Int} {M : FineLayer α}

theorem layer_exists {f : Nat → Nat} {N : Nat} {p : Nat} (hp : p < height f N) : ∃ i, i < N ∧ height f i ≤ p ∧ p < height f (i + 1) := by
  obtain ⟨i, k, h1, h2, rfl⟩ := exists_block hp
  exact ⟨i, h1, by omega, by rw [height_succ]; omega⟩

/-- number of elements selected in layer `i` -/
def selN (n : Nat) (w : Nat → Nat) (r : Nat → Int) (xl xu u i : Nat) : Nat :=
  (xu - xl) * (u / w (dist n i)) * (kind n r i).tiles

theorem tiles_if (R : Int) (i : Nat) (h : r (dist n i) = R) (a : Nat) :
    (if R ≠ -1 then a * 4 else a) = a * (kind n r i).tiles := by
  rw [kind, h]
  by_cases h : R = -1
  · rw [if_neg (by simpa using h), if_pos h]; simp [Kind.tiles]
  · rw [if_pos h, if_neg h]; split <;> rfl

theorem gridCount_ok (hM : IsFine M nelx n (fun i => w (dist n i)) (fun i => g (dist n i)) (fun i => r (dist n i)))
    {xl xu u i : Nat} (hx : xl ≤ xu) (hi : i < 2 * n - 1) (hw : 0 < w (dist n i)) (hd : w (dist n i) ∣ u) :
    gridCount M xl xu u i = .ok (selN n w r xl xu u i) := by
  unfold gridCount
  rw [if_neg (by omega), hM.nhx.get hi, Res.ok_bind, hM.refine.get hi, Res.ok_bind, if_neg (by omega), tiles_if _ _ rfl,
    selN, Nat.mul_div_assoc _ hd]

theorem gridLayer_ok (hM : IsFine M nelx n (fun i => w (dist n i)) (fun i => g (dist n i)) (fun i => r (dist n i)))
    {xl xu u i N c : Nat} (hx : xl ≤ xu) (hi : i < 2 * n - 1) (hw : 0 < w (dist n i)) (hd : w (dist n i) ∣ u)
    {t : Ten Nat} (hs : t.shape = [N]) (hc : c + selN n w r xl xu u i ≤ N) :
    ∃ t', gridLayer M xl xu u (t, c) i = .ok (t', c + selN n w r xl xu u i) ∧ t'.shape = [N] ∧
      (∀ q, q < selN n w r xl xu u i → t'.v [c + q] =
        some (layS nelx (fun i => w (dist n i)) (fun i => r (dist n i)) i + (xl * (u / w (dist n i)) * (kind n r i).tiles + q))) ∧
      ∀ j, j < c ∨ c + selN n w r xl xu u i ≤ j → t'.v [j] = t.v [j] := by
  unfold gridLayer
  rw [gridCount_ok hM hx hi hw hd, Res.ok_bind, hM.nhx.get hi, Res.ok_bind, hM.refine.get hi, Res.ok_bind,
    hM.startElem.get hi, Res.ok_bind]
  dsimp only
  rw [tiles_if _ _ rfl]
  obtain ⟨t', a1, a2, a3, a4⟩ := assignRange_spec hs (Nat.le_add_right c (selN n w r xl xu u i)) hc
    (f := fun k => .ok (layS nelx (fun i => w (dist n i)) (fun i => r (dist n i)) i + xl * (u * (kind n r i).tiles) / w (dist n i) + k))
    (g := fun q => layS nelx (fun i => w (dist n i)) (fun i => r (dist n i)) i + (xl * (u / w (dist n i)) * (kind n r i).tiles + q))
    (by
      intro k _
      congr 1
      obtain ⟨K, rfl⟩ := hd
      rw [Nat.mul_div_cancel_left _ hw, Nat.add_assoc]
      congr 2
      rw [show xl * (w (dist n i) * K * (kind n r i).tiles) = w (dist n i) * (xl * K * (kind n r i).tiles) by ring,
        Nat.mul_div_cancel_left _ hw])
  rw [a1, Res.ok_bind]
  exact ⟨t', rfl, a2, fun q hq => a3 q (by omega), a4⟩

theorem region_exists (hL : Layers nelx n (fun i => w (dist n i)) (fun i => g (dist n i)) (fun i => r (dist n i)))
    (hH : HalfLayers nelx nmin nfine n w g r) {r0 r1 : Nat} (h01 : r0 < r1)
    (h1 : r1 ≤ height (fun i => g (dist n i)) (2 * n - 1)) :
    ∃ lo hi, Region n w g r0 r1 lo hi (max (w (dist n lo)) (w (dist n hi))) ∧
      (∀ i, lo ≤ i → i ≤ hi → w (dist n i) ∣ max (w (dist n lo)) (w (dist n hi))) := by
  have hp := hL.npos
  obtain ⟨lo, a1, a2, a3⟩ := layer_exists (show r0 < height (fun i => g (dist n i)) (2 * n - 1) by omega)
  obtain ⟨hi, b1, b2, b3⟩ := layer_exists (show r1 - 1 < height (fun i => g (dist n i)) (2 * n - 1) by omega)
  have hle : lo ≤ hi := by
    by_contra hc
    have : height (fun i => g (dist n i)) (hi + 1) ≤ height (fun i => g (dist n i)) lo := height_mono (by omega)
    omega
  have key : ∀ i, lo ≤ i → i ≤ hi → w (dist n i) ∣ max (w (dist n lo)) (w (dist n hi)) := by
    intro i h2 h3
    have d1 := dist_lt a1
    have d2 := dist_lt b1
    have wl : 0 < w (dist n lo) := hL.wpos lo a1
    have wh : 0 < w (dist n hi) := hL.wpos hi b1
    have : dist n i ≤ dist n lo ∨ dist n i ≤ dist n hi := by
      simp only [FineLayerSpec.dist]; split_ifs <;> omega
    rcases Nat.le_total (dist n lo) (dist n hi) with h4 | h4
    · have h5 := hH.nested h4 d2
      rw [Nat.max_eq_right (Nat.le_of_dvd wh h5)]
      exact hH.nested (by omega) d2
    · have h5 := hH.nested h4 d1
      rw [Nat.max_eq_left (Nat.le_of_dvd wl h5)]
      exact hH.nested (by omega) d1
  have hpos : 0 < max (w (dist n lo)) (w (dist n hi)) := lt_max_of_lt_left (hL.wpos lo a1)
  refine ⟨lo, hi, ⟨hle, b1, a2, a3, by omega, by omega, fun i h2 h3 => Nat.le_of_dvd hpos (key i h2 h3), ?_⟩, key⟩
  rcases Nat.le_total (w (dist n lo)) (w (dist n hi)) with h4 | h4
  · exact ⟨hi, hle, le_rfl, (Nat.max_eq_right h4).symm⟩
  · exact ⟨lo, le_rfl, hle, (Nat.max_eq_left h4).symm⟩

/-- `elementgrid_ravel`, in terms of the blocks of the layers -/
theorem ravel_core (hM : IsFine M nelx n (fun i => w (dist n i)) (fun i => g (dist n i)) (fun i => r (dist n i)))
    (hH : HalfLayers nelx nmin nfine n w g r) {Ny : Nat} (hny : M.nely = .ok Ny) (hnx : M.nelx = .ok nelx)
    (hNy : Ny = height (fun i => g (dist n i)) (2 * n - 1)) {rows cols : List Nat} {r0 r1 c0 c1 : Nat}
    (hrows : pickRange rows Ny = (r0, r1))
    (hcols : pickRange cols nelx = (c0, c1)) (h01 : r0 < r1) (h1 : r1 ≤ Ny)
    (c01 : c0 ≤ c1) (hc1 : c1 ≤ nelx) :
    ∃ lo hi u t N F, Region n w g r0 r1 lo hi u ∧ (∀ i, lo ≤ i → i ≤ hi → w (dist n i) ∣ u) ∧
      M.elementgrid_ravel rows cols = .ok t ∧ Is1 t N F ∧
      (∀ p p', p < p' → p' < N → F p < F p') ∧
      ∀ e, (∃ p, p < N ∧ F p = e) ↔ ∃ i b q, lo ≤ i ∧ i ≤ hi ∧ c0 / u * u ≤ b * w (dist n i) ∧
        (b + 1) * w (dist n i) ≤ c1 / u * u ∧ q < (kind n r i).tiles ∧
        e = layS nelx (fun i => w (dist n i)) (fun i => r (dist n i)) i + (b * (kind n r i).tiles + q) := by
  have hL := layers_of_half hH
  have hp := hL.npos
  obtain ⟨lo, hi, hR, hdv⟩ := region_exists hL hH h01 (by omega)
  generalize hu : max (w (dist n lo)) (w (dist n hi)) = u at hR hdv
  refine ⟨lo, hi, u, ?_⟩
  have hupos : 0 < u := by
    rw [← hu]; exact lt_max_of_lt_left (hL.wpos lo (by have := hR.lt; have := hR.le; omega))
  have hwpos : ∀ i, lo ≤ i → i ≤ hi → 0 < w (dist n i) := fun i _ h => hL.wpos i (by have := hR.lt; omega)
  unfold elementgrid_ravel
  rw [hny, Res.ok_bind, hnx, Res.ok_bind]
  dsimp only
  rw [hrows, hcols]
  dsimp only
  by_cases hcc : c0 = c1
  · rw [if_pos (Or.inr hcc)]
    refine ⟨Ten.empty [0], 0, fun _ => 0, hR, hdv, rfl, ⟨rfl, fun i hi => by omega⟩, fun p p' _ h => by omega, fun e => ?_⟩
    constructor
    · rintro ⟨p, hp, -⟩; omega
    · rintro ⟨i, b, q, h2, h3, h4, h5, -⟩
      exfalso
      subst hcc
      have := hwpos i h2 h3
      rw [Nat.add_mul] at h5
      omega
  rw [if_neg (by omega), cumsum_spec hM.nhy, Res.ok_bind]
  -- the first and last layer
  have hlow : (if 0 < r0 then argmaxB ((List.range (2 * n - 1)).map fun i => height (fun i => g (dist n i)) (i + 1))
      (fun y => decide (r0 < y)) else 0) = lo := by
    by_cases h0 : 0 < r0
    · rw [if_pos h0]
      obtain ⟨i, e1, e2, e3, e4⟩ := argmaxB_spec (N := 2 * n - 1) (f := fun i => height (fun i => g (dist n i)) (i + 1))
        (p := fun y => decide (r0 < y)) ⟨lo, by have := hR.lt; have := hR.le; omega, by simpa using hR.lo1⟩
      rw [e1]
      simp only [decide_eq_true_eq] at e3
      rcases Nat.lt_trichotomy i lo with h2 | h2 | h2
      · exfalso
        have h3 : height (fun k => g (dist n k)) (i + 1) ≤ height (fun k => g (dist n k)) lo := height_mono h2
        have := hR.lo0
        omega
      · exact h2
      · exfalso
        have := e4 lo h2
        simp only [decide_eq_false_iff_not] at this
        exact this hR.lo1
    · rw [if_neg h0]
      by_contra hc
      have h2 : height (fun k => g (dist n k)) 1 ≤ height (fun k => g (dist n k)) lo := height_mono (by omega)
      have h3 := hL.gpos 0 (by omega)
      have h4 := hR.lo0
      rw [show (1 : Nat) = 0 + 1 by omega, height_succ] at h2
      beta_reduce at h3
      omega
  have hupp : argmaxB ((List.range (2 * n - 1)).map fun i => height (fun i => g (dist n i)) (i + 1))
      (fun y => decide (r1 ≤ y)) = hi := by
    obtain ⟨i, e1, e2, e3, e4⟩ := argmaxB_spec (N := 2 * n - 1) (f := fun i => height (fun i => g (dist n i)) (i + 1))
      (p := fun y => decide (r1 ≤ y)) ⟨hi, hR.lt, by simpa using hR.hi1⟩
    rw [e1]
    simp only [decide_eq_true_eq] at e3
    rcases Nat.lt_trichotomy i hi with h2 | h2 | h2
    · exfalso
      have h3 : height (fun k => g (dist n k)) (i + 1) ≤ height (fun k => g (dist n k)) hi := height_mono h2
      have := hR.hi0
      omega
    · exact h2
    · exfalso
      have := e4 hi h2
      simp only [decide_eq_false_iff_not] at this
      exact this hR.hi1
  rw [hlow, hupp, hM.nhx.get (show lo < 2 * n - 1 by have := hR.lt; have := hR.le; omega), Res.ok_bind, hM.nhx.get hR.lt,
    Res.ok_bind, hu, if_neg (by omega)]
  have hdiv : ∀ c, (c - c % u) / u = c / u := by
    intro c
    have h2 : c - c % u = u * (c / u) := by have := Nat.div_add_mod c u; omega
    rw [h2, Nat.mul_div_cancel_left _ hupos]
  rw [hdiv, hdiv]
  have hxx : c0 / u ≤ c1 / u := Nat.div_le_div_right c01
  generalize hxl : c0 / u = xl at hxx ⊢
  have hxu' : c1 / u * u ≤ nelx := (Nat.div_mul_le_self _ _).trans hc1
  generalize hxu : c1 / u = xu at hxx hxu' ⊢
  -- the size of the output
  have hN : forEach (itFrom lo (hi + 1)) (fun (N : Nat) i => do
        let n ← gridCount M xl xu u i
        .ok (N + n)) 0 = .ok (height (fun k => selN n w r xl xu u (lo + k)) (hi + 1 - lo)) := by
    rw [forEach_itFrom]
    obtain ⟨s, e1, e2⟩ := forEach_range (hi + 1 - lo) (fun (s : Nat) k => do
        let n ← gridCount M xl xu u (lo + k)
        .ok (s + n)) (fun k s => s = height (fun k => selN n w r xl xu u (lo + k)) k) 0 rfl (by
      rintro k hk s rfl
      refine ⟨_, ?_, rfl⟩
      beta_reduce
      rw [gridCount_ok hM hxx (by have := hR.lt; omega) (hwpos _ (by omega) (by omega)) (hdv _ (by omega) (by omega)), Res.ok_bind,
        height_succ])
    rw [e1, e2]
  rw [hN, Res.ok_bind, forEach_itFrom]
  obtain ⟨t, F, e1, e2, e3⟩ := append_loop (m := hi + 1 - lo) (cnt := fun k => selN n w r xl xu u (lo + k))
    (g := fun k q => layS nelx (fun i => w (dist n i)) (fun i => r (dist n i)) (lo + k) +
      (xl * (u / w (dist n (lo + k))) * (kind n r (lo + k)).tiles + q)) rfl
    (fun s k => gridLayer M xl xu u s (lo + k)) (by
      intro k hk t c hs hc
      exact gridLayer_ok hM hxx (by have := hR.lt; omega) (hwpos _ (by omega) (by omega)) (hdv _ (by omega) (by omega)) hs hc)
  rw [e1, Res.ok_bind]
  -- the selected blocks are blocks of the mesh
  have hK : ∀ i, lo ≤ i → i ≤ hi → w (dist n i) * (u / w (dist n i)) = u := fun i h2 h3 => Nat.mul_div_cancel' (hdv i h2 h3)
  have hin : ∀ i, lo ≤ i → i ≤ hi → xu * (u / w (dist n i)) ≤ nelx / w (dist n i) := by
    intro i h2 h3
    rw [Nat.le_div_iff_mul_le (hwpos i h2 h3), Nat.mul_assoc, Nat.mul_comm (u / w (dist n i)), hK i h2 h3]
    exact hxu'
  have hbnd : ∀ i q, lo ≤ i → i ≤ hi → q < selN n w r xl xu u i →
      xl * (u / w (dist n i)) * (kind n r i).tiles + q < layE nelx (fun i => w (dist n i)) (fun i => r (dist n i)) i := by
    intro i q h2 h3 hq
    rw [hL.layE_eq (by have := hR.lt; omega)]
    have h4 : kind n r i = kindR n (fun i => r (dist n i)) i := rfl
    rw [← h4]
    have h5 : xu * (u / w (dist n i)) * (kind n r i).tiles ≤ nelx / w (dist n i) * (kind n r i).tiles :=
      Nat.mul_le_mul_right _ (hin i h2 h3)
    rw [selN] at hq
    have h6 : xu * (u / w (dist n i)) * (kind n r i).tiles = xl * (u / w (dist n i)) * (kind n r i).tiles +
        (xu - xl) * (u / w (dist n i)) * (kind n r i).tiles := by
      rw [← Nat.add_mul, ← Nat.add_mul]; congr 2; omega
    omega
  refine ⟨t, _, F, hR, hdv, rfl, e2, fun p p' hpp hp' => ?_, fun e => ?_⟩
  · obtain ⟨k, q, a1, a2, rfl⟩ := exists_block (Nat.lt_trans hpp hp')
    obtain ⟨k', q', b1, b2, rfl⟩ := exists_block hp'
    rw [e3 k q a1 a2, e3 k' q' b1 b2]
    rcases Nat.lt_trichotomy k k' with h2 | h2 | h2
    · have h3 := hbnd (lo + k) q (by omega) (by omega) a2
      have h4 : layS nelx (fun i => w (dist n i)) (fun i => r (dist n i)) (lo + k + 1) ≤
        layS nelx (fun i => w (dist n i)) (fun i => r (dist n i)) (lo + k') := height_mono (by omega)
      rw [layS_succ] at h4
      omega
    · subst h2; omega
    · exfalso
      have h4 : height (fun k => selN n w r xl xu u (lo + k)) (k' + 1) ≤ height (fun k => selN n w r xl xu u (lo + k)) k :=
        height_mono h2
      rw [height_succ] at h4
      omega
  · constructor
    · rintro ⟨p, hp, rfl⟩
      obtain ⟨k, q, a1, a2, rfl⟩ := exists_block hp
      have ht : 0 < (kind n r (lo + k)).tiles := by cases kind n r (lo + k) <;> simp [Kind.tiles]
      have hk := hK (lo + k) (by omega) (by omega)
      refine ⟨lo + k, xl * (u / w (dist n (lo + k))) + q / (kind n r (lo + k)).tiles, q % (kind n r (lo + k)).tiles,
        by omega, by omega, ?_, ?_, Nat.mod_lt _ ht, ?_⟩
      · calc xl * u = xl * (u / w (dist n (lo + k))) * w (dist n (lo + k)) := by
              rw [Nat.mul_assoc, Nat.mul_comm (u / w (dist n (lo + k))), hk]
          _ ≤ _ := Nat.mul_le_mul_right _ (Nat.le_add_right _ _)
      · have h2 : q / (kind n r (lo + k)).tiles < (xu - xl) * (u / w (dist n (lo + k))) := by
          rw [Nat.div_lt_iff_lt_mul ht]; exact a2
        calc _ ≤ (xl * (u / w (dist n (lo + k))) + (xu - xl) * (u / w (dist n (lo + k)))) * w (dist n (lo + k)) :=
              Nat.mul_le_mul_right _ (by omega)
          _ = (xl + (xu - xl)) * (w (dist n (lo + k)) * (u / w (dist n (lo + k)))) := by ring
          _ = xu * u := by rw [hk]; congr 1; omega
      · rw [e3 k q a1 a2, Nat.add_mul, Nat.add_assoc, Nat.div_add_mod']
    · rintro ⟨i, b, q, h2, h3, h4, h5, h6, rfl⟩
      have hk := hK i h2 h3
      have hw := hwpos i h2 h3
      have h7 : xl * (u / w (dist n i)) ≤ b := by
        refine Nat.le_of_mul_le_mul_right ?_ hw
        rw [Nat.mul_assoc, Nat.mul_comm (u / w (dist n i)), hk]; exact h4
      have h8 : b + 1 ≤ xu * (u / w (dist n i)) := by
        refine Nat.le_of_mul_le_mul_right ?_ hw
        rw [Nat.mul_assoc, Nat.mul_comm (u / w (dist n i)), hk]; exact h5
      have h9 : (b - xl * (u / w (dist n i))) * (kind n r i).tiles + q < selN n w r xl xu u i := by
        rw [selN]
        refine grid_lt ?_ h6
        rw [Nat.sub_mul]; omega
      obtain ⟨k, rfl⟩ := Nat.exists_eq_add_of_le h2
      refine ⟨height (fun k => selN n w r xl xu u (lo + k)) k + ((b - xl * (u / w (dist n (lo + k)))) * (kind n r (lo + k)).tiles + q),
        block_lt (by omega) h9, ?_⟩
      rw [e3 k _ (by omega) h9, ← Nat.add_assoc (xl * _ * _), ← Nat.add_mul]
      congr 4
      omega

end FineLayer
end GF
