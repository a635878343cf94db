import Verif.Lemmas.FineLayerAround

/-! **C63** `Mesh::Quad4::FineLayer::elementgrid_around_ravel` and `elementgrid_leftright`. -/

namespace GF
open FineLayerSpec Finset FineLayer
variable {α : Type} [Field α] [LinearOrder α] [IsStrictOrderedRing α]

/-- rolling the elements of a box gives the elements whose periodic copy is in the box -/
theorem FineLayer.rolled_box {nelx nmin nfine n : Nat} {w g : Nat → Nat} {r : Nat → Int} {M : FineLayer α}
    (hM : IsFine M nelx n (fun i => w (dist n i)) (fun i => g (dist n i)) (fun i => r (dist n i)))
    (hH : HalfLayers nelx nmin nfine n w g r) (hx : 0 < nelx) {h : α} (hh : 0 < h) {x : Nat → Nat → α}
    {c : Nat → Nat → Nat}
    (hF : FineMesh nelx n w g r h M.nnode M.nelem x c (layS nelx (fun i => w (dist n i)) (fun i => r (dist n i))))
    {d : Nat} {map : Nat → Nat} (hmap : PeriodicShift M.nelem nelx d h x c map) {X0 X1 Y0 Y1 : Nat} (hX : X1 ≤ nelx)
    (e' : Nat) :
    (∃ e, (e < M.nelem ∧ InBox h x c X0 X1 Y0 Y1 e) ∧ map e = e') ↔
      e' < M.nelem ∧ PeriodicInBox nelx d h x c X0 X1 Y0 Y1 e' := by
  have hL := layers_of_half hH
  have hp := hL.npos
  constructor
  · rintro ⟨e, ⟨he, hb⟩, rfl⟩
    refine ⟨hmap.valid e he, ?_⟩
    obtain ⟨z, hz⟩ := hmap.shift e he
    refine ⟨z, fun j hj => ?_⟩
    obtain ⟨z1, z2⟩ := hz j hj
    obtain ⟨b1, b2, b3, b4⟩ := hb j hj
    rw [← z1, ← z2]
    exact ⟨b1, b2, b3, b4⟩
  · rintro ⟨he', z, hz⟩
    obtain ⟨e, he, rfl⟩ := hmap.surj e' he'
    refine ⟨e, ⟨he, ?_⟩, rfl⟩
    obtain ⟨z', hz'⟩ := hmap.shift e he
    -- position of `e`
    have hall : ∀ j, j < 4 → 0 ≤ x (c e j) 0 ∧ x (c e j) 0 ≤ h * (nelx : α) ∧
        0 ≤ x (c e j) 1 := by
      obtain ⟨i, b, q, i1, i2, i3, rfl⟩ := elem_coord hL hM.nelem he
      have := (inBox_iff (lo := 0) (hi := 2 * n - 2) (X0 := 0) (X1 := nelx) hh hH hF i1 i2 i3 (Or.inl (dvd_zero _))
        (Or.inl (hL.fits i i1))).2 ⟨Nat.zero_le _, by omega, Nat.zero_le _, by
          have := hL.nelx_eq i1
          beta_reduce at this
          calc (b + 1) * w (dist n i) ≤ nelx / w (dist n i) * w (dist n i) := Nat.mul_le_mul_right _ i2
            _ = nelx := this⟩
      intro j hj
      obtain ⟨q1, q2, q3, q4⟩ := this j hj
      simp only [height, range_zero, sum_empty, Nat.cast_zero, mul_zero] at q1 q3
      exact ⟨q1, q2, q3⟩
    have hthin : ∀ X : Nat, (X = 0 ∨ X = nelx) → ¬ ∀ j, j < 4 → x (c e j) 0 = h * (X : α) := by
      intro X hXX hc
      obtain ⟨i, b, q, i1, i2, i3, rfl⟩ := elem_coord hL hM.nelem he
      have hd : w (dist n i) ∣ X := by
        rcases hXX with rfl | rfl
        · exact dvd_zero _
        · exact hL.fits i i1
      have hYe : ∀ j, j < 4 → h * ((height (fun k => g (dist n k)) 0 : Nat) : α) ≤
            x (c (layS nelx (fun i => w (dist n i)) (fun i => r (dist n i)) i + (b * (kind n r i).tiles + q)) j) 1 ∧
          x (c (layS nelx (fun i => w (dist n i)) (fun i => r (dist n i)) i + (b * (kind n r i).tiles + q)) j) 1 ≤
            h * ((height (fun k => g (dist n k)) (2 * n - 2 + 1) : Nat) : α) := by
        have := (inBox_iff (lo := 0) (hi := 2 * n - 2) (X0 := 0) (X1 := nelx) hh hH hF i1 i2 i3 (Or.inl (dvd_zero _))
          (Or.inl (hL.fits i i1))).2 ⟨Nat.zero_le _, by omega, Nat.zero_le _, by
            have := hL.nelx_eq i1
            beta_reduce at this
            calc (b + 1) * w (dist n i) ≤ nelx / w (dist n i) * w (dist n i) := Nat.mul_le_mul_right _ i2
              _ = nelx := this⟩
        exact fun j hj => ⟨(this j hj).2.2.1, (this j hj).2.2.2⟩
      have := (inBox_iff (lo := 0) (hi := 2 * n - 2) (X0 := X) (X1 := X) hh hH hF i1 i2 i3 (Or.inl hd) (Or.inl hd)).1
        (fun j hj => ⟨(hc j hj).ge, (hc j hj).le, (hYe j hj).1, (hYe j hj).2⟩)
      have hw : 0 < w (dist n i) := hL.wpos i i1
      have h1 := this.2.2.1
      have h2 := this.2.2.2
      rw [Nat.add_mul] at h2
      omega
    have hLx : 0 < h * (nelx : α) := mul_pos hh (by exact_mod_cast hx)
    have hX1 : h * (X1 : α) ≤ h * (nelx : α) := mul_le_mul_of_nonneg_left (by exact_mod_cast hX) hh.le
    have hX0 : 0 ≤ h * (X0 : α) := mul_nonneg hh.le (by exact_mod_cast Nat.zero_le _)
    have key : ∀ j, j < 4 → x (c e j) 0 + ((z : α) - z') * (h * (nelx : α)) =
        x (c (map e) j) 0 + h * (d : α) + z * (h * (nelx : α)) := by
      intro j hj
      rw [(hz' j hj).1]; ring
    have hzz : z = z' := by
      rcases lt_trichotomy z z' with hlt | heq | hgt
      · exfalso
        have h1 : (z : α) - z' ≤ -1 := by
          have : z + 1 ≤ z' := hlt
          have : ((z + 1 : ℤ) : α) ≤ z' := by exact_mod_cast this
          push_cast at this
          linarith
        have h2 : ((z : α) - z') * (h * (nelx : α)) ≤ -(h * (nelx : α)) := by nlinarith
        refine hthin nelx (Or.inr rfl) fun j hj => ?_
        have k1 := key j hj
        have k2 := (hz j hj).1
        have k3 := (hall j hj).2.1
        linarith
      · exact heq
      · exfalso
        have h1 : (1 : α) ≤ (z : α) - z' := by
          have : z' + 1 ≤ z := hgt
          have : ((z' + 1 : ℤ) : α) ≤ z := by exact_mod_cast this
          push_cast at this
          linarith
        have h2 : h * (nelx : α) ≤ ((z : α) - z') * (h * (nelx : α)) := by nlinarith
        refine hthin 0 (Or.inl rfl) fun j hj => ?_
        have k1 := key j hj
        have k2 := (hz j hj).2.1
        have k3 := (hall j hj).1
        rw [Nat.cast_zero, mul_zero]
        linarith
    subst hzz
    intro j hj
    have k1 := key j hj
    rw [sub_self, zero_mul, add_zero] at k1
    obtain ⟨q1, q2, q3, q4⟩ := hz j hj
    rw [(hz' j hj).2, k1]
    exact ⟨q1, q2, q3, q4⟩

/-- the result of the selection around an element of the middle layer, see `C63_around` -/
structure FineLayerSpec.Around (nelx n : Nat) (w g : Nat → Nat) (h : α) (nelem : Nat) (x : Nat → Nat → α)
    (c : Nat → Nat → Nat) (Ny ex size mid d lo hi u X0 X1 : Nat) (result : Res (Ten Nat)) : Prop where
  /-- a periodic shift over `d` columns brings the element from column `ex` to column `mid`, in the block of
  coarse elements in the middle -/
  shift : (ex + d) % nelx = mid
  middle : mid = nelx / w (dist n 0) / 2 * w (dist n 0) + ex % w (dist n 0)
  /-- the layers that overlap with `size` rows below and above the middle row, `u`: width of the widest elements -/
  rows : Region n w g ((Ny - 1) / 2 - size) ((Ny - 1) / 2 + size + 1) lo hi u
  /-- columns: multiples of that width -/
  left : X0 = (mid - size) / u * u
  right : u ∣ X1
  le : X1 ≤ nelx
  inside : mid < X1
  reach : mid + size ≤ X1 ∨ X1 = nelx
  tight : X1 < mid + size + 1 + u
  /-- exactly the elements of which the shifted periodic copy is in the box, each once -/
  result : ∃ t K F, result = .ok t ∧ Is1 t K F ∧ (∀ p q, p < K → q < K → F p = F q → p = q) ∧
    ∀ e', (∃ p, p < K ∧ F p = e') ↔ e' < nelem ∧ PeriodicInBox nelx d h x c X0 X1
      (height (fun k => g (dist n k)) lo) (height (fun k => g (dist n k)) (hi + 1)) e'

/-- start of the layers: monotone -/
theorem FineLayer.layS_mono {nelx : Nat} {W : Nat → Nat} {R : Nat → Int} (i j : Nat) (h : i ≤ j) :
    layS nelx W R i ≤ layS nelx W R j := height_mono h

theorem FineLayer.layS_mid {nelx nmin nfine n : Nat} {w g : Nat → Nat} {r : Nat → Int} (hH : HalfLayers nelx nmin nfine n w g r) :
    layS nelx (fun i => w (dist n i)) (fun i => r (dist n i)) n =
      layS nelx (fun i => w (dist n i)) (fun i => r (dist n i)) (n - 1) + nelx := by
  have hp := hH.pos
  have hL := layers_of_half hH
  have h1 : layS nelx (fun i => w (dist n i)) (fun i => r (dist n i)) (n - 1 + 1) = _ := height_succ _ _
  rw [show n - 1 + 1 = n by omega] at h1
  rw [h1]
  have h2 := hL.layE_eq (show n - 1 < 2 * n - 1 by omega)
  have d0 : dist n (n - 1) = 0 := by simp only [FineLayerSpec.dist]; rw [if_pos (by omega)]; omega
  have hk : kindR n (fun i => r (dist n i)) (n - 1) = .normal := by
    have : kindR n (fun i => r (dist n i)) (n - 1) = kind n r (n - 1) := rfl
    rw [this]; unfold kind; rw [d0, if_pos hH.mid.2.2]
  rw [hk, d0, hH.mid.1, Nat.div_one] at h2
  rw [layS]
  simp only [Kind.tiles, Nat.mul_one] at h2
  rw [h2]

theorem FineLayer.layer_mid {nelx nmin nfine n : Nat} {w g : Nat → Nat} {r : Nat → Int} {M : FineLayer α}
    (hM : IsFine M nelx n (fun i => w (dist n i)) (fun i => g (dist n i)) (fun i => r (dist n i)))
    (hH : HalfLayers nelx nmin nfine n w g r) (hn : 1 < n) {ex : Nat} (hex : ex < nelx) :
    M.layerOf (layS nelx (fun i => w (dist n i)) (fun i => r (dist n i)) (n - 1) + ex) = .ok (n - 1) ∧
      M.layer_nelx.get [n - 1] = .ok nelx ∧ M.startElem.get [n - 1] = .ok (layS nelx (fun i => w (dist n i)) (fun i => r (dist n i)) (n - 1)) ∧
      M.nhx.get [n - 1] = .ok 1 ∧ (M.nhy.size - 1) / 2 = n - 1 := by
  have d0 : dist n (n - 1) = 0 := by simp only [FineLayerSpec.dist]; rw [if_pos (by omega)]; omega
  refine ⟨?_, ?_, hM.startElem.get (by omega), ?_, ?_⟩
  · refine layerOf_ok hM.startElem ?_ layS_mono (by omega) (by omega) ?_
    · simp [layS, height]
    · rw [show n - 1 + 1 = n by omega, layS_mid hH]; omega
  · rw [hM.layer.get (by omega), d0, hH.mid.1, Nat.div_one]
  · rw [hM.nhx.get (by omega), d0, hH.mid.1]
  · rw [hM.nhy.size]; omega

theorem FineLayer.around_ok {nelx nmin nfine n : Nat} {w g : Nat → Nat} {r : Nat → Int} {M : FineLayer α}
    (hM : IsFine M nelx n (fun i => w (dist n i)) (fun i => g (dist n i)) (fun i => r (dist n i)))
    (hH : HalfLayers nelx nmin nfine n w g r) (hx : 0 < nelx) {Ny : Nat} (hny : M.nely = .ok Ny) (hnx : M.nelx = .ok nelx)
    (hNy : Ny = height (fun i => g (dist n i)) (2 * n - 1)) {h : α} (hh : 0 < h) {x : Nat → Nat → α} {c : Nat → Nat → Nat}
    (hF : FineMesh nelx n w g r h M.nnode M.nelem x c (layS nelx (fun i => w (dist n i)) (fun i => r (dist n i))))
    (hn : 1 < n) {ex size : Nat} (hex : ex < nelx) (hsz : 2 * size < Ny) :
    ∃ mid d lo hi u X0 X1, Around nelx n w g h M.nelem x c Ny ex size mid d lo hi u X0 X1
      (M.elementgrid_around_ravel (layS nelx (fun i => w (dist n i)) (fun i => r (dist n i)) (n - 1) + ex) size true) := by
  have hL := layers_of_half hH
  obtain ⟨q1, q2, q3, q4, q5⟩ := layer_mid hM hH hn hex
  obtain ⟨l, u, row, r1, r2, r3, r4, r5, r6, r7, r8, r9⟩ := rows_spec hH (size := size) (by rw [← hNy]; exact hsz)
  have hrow : (Ny - 1) / 2 = row := by omega
  have hw0 : 0 < w (dist n 0) := hL.wpos 0 (by omega)
  have hul := r7.lt
  have hwu : 0 < w (dist n u) := hL.wpos u hul
  obtain ⟨mid, k, m1, m2, m3, m4⟩ := recentre_spec hw0 (hL.fits 0 (by omega)) hx hex
  obtain ⟨xl, xu, x1, x2, x3, x4, x5, x6, x7, x8, x9⟩ := window_spec (left := size) hwu (hL.fits u hul) m2 r8
  obtain ⟨mt, map, p1, p2, p3⟩ := roll_shift hx hH hM hF k
  obtain ⟨t, K, F, s1, s2, s3, s4⟩ := ravel_exact (c0 := xl) (c1 := xu) hM hH hny hnx hNy hh hF r7.le hul (by omega) x6
    (fun i h1 h2 => ⟨(r9 i h1 h2).trans x2, (r9 i h1 h2).trans x3⟩)
  have hFlt : ∀ p, p < K → F p < M.nelem := fun p hp => ((s4 (F p)).1 ⟨p, hp, rfl⟩).1
  obtain ⟨ft, f1, f2⟩ := keep_ok p2 s2 hFlt
  refine ⟨mid, k * w (dist n 0), l, u, w (dist n u), xl, xu, ⟨m3, m4, by rw [hrow]; exact r7, x7, x3, x6, x5, x8, x9,
    ft, K, _, ?_, f2, ?_, ?_⟩⟩
  · unfold elementgrid_around_ravel
    rw [if_neg (by simp), q1, Res.ok_bind, q2, Res.ok_bind, if_neg (by simp [q5]), cumsum_spec hM.nhy, Res.ok_bind,
      List.length_map, List.length_range, lget_range (by omega), Res.ok_bind,
      show 2 * n - 1 - 1 + 1 = 2 * n - 1 by omega, ← hNy, if_neg (by omega), lget_range (by omega), Res.ok_bind,
      show n - 1 + 1 = n by omega, r2, if_pos (show size + 1 ≤ row + 1 by omega)]
    dsimp only
    rw [r5, r6]
    rw [below_ok (show l ≤ 2 * n - 1 by have := r7.le; omega), Res.ok_bind, lget_range hul, Res.ok_bind, amax_nhx hH hM.nhx, Res.ok_bind, q3, Res.ok_bind,
      if_neg (by omega), Nat.add_sub_cancel_left, m1, hM.nhx.get hul, Res.ok_bind, if_neg (by omega), x1, s1, Res.ok_bind,
      p1, Res.ok_bind, f1]
  · intro p q hp hq hpq
    have := p3.inj _ _ (hFlt p hp) (hFlt q hq) hpq
    rcases Nat.lt_trichotomy p q with h | h | h
    · have := s3 p q h hq; omega
    · exact h
    · have := s3 q p h hp; omega
  · intro e'
    rw [← rolled_box hM hH hx hh hF p3 x6]
    constructor
    · rintro ⟨p, hp, rfl⟩
      exact ⟨F p, (s4 (F p)).1 ⟨p, hp, rfl⟩, rfl⟩
    · rintro ⟨e, he, rfl⟩
      obtain ⟨p, hp, rfl⟩ := (s4 e).2 he
      exact ⟨p, hp, rfl⟩

/-- an increasing list of the elements of an interval -/
theorem interval_list {K a b : Nat} {F : Nat → Nat} (hab : a ≤ b) (hinc : ∀ p q, p < q → q < K → F p < F q)
    (hmem : ∀ e, (∃ p, p < K ∧ F p = e) ↔ a ≤ e ∧ e < b) : K = b - a ∧ ∀ p, p < K → F p = a + p := by
  have h1 : ∀ (K : Nat) (F : Nat → Nat), (∀ p q, p < q → q < K → F p < F q) → ((List.range K).map F).Pairwise (· < ·) := by
    intro K F h
    rw [List.pairwise_map]
    refine List.Pairwise.imp_of_mem ?_ List.pairwise_lt_range
    intro p q hp hq hpq
    exact h p q hpq (List.mem_range.1 hq)
  have := sorted_ext (h1 K F hinc) (h1 (b - a) (fun p => a + p) (by intros; omega)) (by
    intro e
    simp only [List.mem_map, List.mem_range]
    rw [hmem]
    constructor
    · rintro ⟨h2, h3⟩; exact ⟨e - a, by omega, by omega⟩
    · rintro ⟨p, h2, rfl⟩; omega)
  have hK : K = b - a := by simpa using congrArg List.length this
  refine ⟨hK, fun p hp => ?_⟩
  have := congrArg (fun l => l[p]?) this
  simpa [hp, hK ▸ hp] using this

theorem FineLayer.leftright_ok {nelx nmin nfine n : Nat} {w g : Nat → Nat} {r : Nat → Int} {M : FineLayer α}
    (hM : IsFine M nelx n (fun i => w (dist n i)) (fun i => g (dist n i)) (fun i => r (dist n i)))
    (hH : HalfLayers nelx nmin nfine n w g r) {Ny : Nat} (hny : M.nely = .ok Ny) (hnx : M.nelx = .ok nelx)
    (hNy : Ny = height (fun i => g (dist n i)) (2 * n - 1))
    (hn : 1 < n) {ex : Nat} (hex : ex < nelx) (left right : Nat) :
    ∃ mid t, mid = nelx / w (dist n 0) / 2 * w (dist n 0) + ex % w (dist n 0) ∧ mid < nelx ∧
      M.elementgrid_leftright (layS nelx (fun i => w (dist n i)) (fun i => r (dist n i)) (n - 1) + ex) left right true = .ok t ∧
      Is1 t (min left mid + 1 + min right (nelx - 1 - mid))
        (fun p => layS nelx (fun i => w (dist n i)) (fun i => r (dist n i)) (n - 1) + (ex + (nelx - min left mid) + p) % nelx) := by
  have hL := layers_of_half hH
  have hx : 0 < nelx := by omega
  obtain ⟨q1, q2, q3, q4, q5⟩ := layer_mid hM hH hn hex
  have hw0 : 0 < w (dist n 0) := hL.wpos 0 (by omega)
  obtain ⟨mid, k, m1, m2, m3, m4⟩ := recentre_spec hw0 (hL.fits 0 (by omega)) hx hex
  have d0 : dist n (n - 1) = 0 := by simp only [FineLayerSpec.dist]; rw [if_pos (by omega)]; omega
  have hwin : window nelx 1 mid left right = (mid - left, if mid + right < nelx then mid + right + 1 else nelx) := by
    unfold window
    simp only [Nat.mod_one, Nat.sub_zero]
    have e1 : (if left ≤ mid then mid - left else 0) = mid - left := by split <;> omega
    rw [e1]
    congr 1
    · split_ifs <;> omega
    · split_ifs <;> omega
  obtain ⟨xu, hxu⟩ : ∃ xu, xu = (if mid + right < nelx then mid + right + 1 else nelx) := ⟨_, rfl⟩
  have hxu1 : xu ≤ nelx ∧ mid < xu := by rw [hxu]; split <;> omega
  have hG : height (fun i => g (dist n i)) n = height (fun i => g (dist n i)) (n - 1) + 1 := by
    have := height_succ (fun i => g (dist n i)) (n - 1)
    rw [show n - 1 + 1 = n by omega] at this
    rw [this, d0, hH.mid.2.1]
  have hlen : height (fun i => g (dist n i)) n ≤ height (fun i => g (dist n i)) (2 * n - 1) := height_mono (by omega)
  obtain ⟨lo, hi, u, t, N, F, hR, hdv, a1, a2, a3, a4⟩ := ravel_core hM hH hny hnx hNy
    (rows := [height (fun i => g (dist n i)) (n - 1), height (fun i => g (dist n i)) n]) (cols := [mid - left, xu]) rfl rfl
    (by omega) (by omega) (by omega) hxu1.1
  have hlt : ∀ i j, i < j → j ≤ 2 * n - 1 → height (fun k => g (dist n k)) i < height (fun k => g (dist n k)) j :=
    fun i j => height_lt hL.gpos
  have hlo : lo = n - 1 := by
    have b1 := hR.lo0; have b2 := hR.lo1; have b3 := hR.le; have b4 := hR.lt
    rcases Nat.lt_trichotomy lo (n - 1) with hc | hc | hc
    · have := height_mono (g := fun k => g (dist n k)) (show lo + 1 ≤ n - 1 by omega); omega
    · exact hc
    · have := hlt (n - 1) lo hc (by omega); omega
  have hhi : hi = n - 1 := by
    have b1 := hR.hi0; have b2 := hR.hi1; have b3 := hR.le; have b4 := hR.lt
    rcases Nat.lt_trichotomy hi (n - 1) with hc | hc | hc
    · omega
    · exact hc
    · have := height_mono (g := fun k => g (dist n k)) (show n ≤ hi by omega); omega
  subst hlo hhi
  have hu : u = 1 := by
    obtain ⟨i, i1, i2, i3⟩ := hR.attained
    have : i = n - 1 := by omega
    rw [this, d0, hH.mid.1] at i3
    exact i3.symm
  subst hu
  have hk : kind n r (n - 1) = .normal := by unfold kind; rw [d0, if_pos hH.mid.2.2]
  obtain ⟨S, hS⟩ : ∃ S, S = layS nelx (fun i => w (dist n i)) (fun i => r (dist n i)) (n - 1) := ⟨_, rfl⟩
  obtain ⟨c1, c2⟩ := interval_list (a := S + (mid - left)) (b := S + xu) (by omega) a3 (by
    intro e
    rw [a4]
    constructor
    · rintro ⟨i, b, q, h1, h2, h3, h4, h5, rfl⟩
      have : i = n - 1 := by omega
      subst this
      rw [hk] at h5 ⊢
      rw [d0, hH.mid.1] at h3 h4
      simp only [Kind.tiles] at h5 ⊢
      omega
    · rintro ⟨h1, h2⟩
      refine ⟨n - 1, e - S, 0, le_rfl, le_rfl, ?_, ?_, by rw [hk]; decide, ?_⟩
      · rw [d0, hH.mid.1]; omega
      · rw [d0, hH.mid.1]; omega
      · rw [hk]; simp only [Kind.tiles]; omega)
  obtain ⟨mt, p1, p2, p3⟩ := roll_ok hM hL hx k
  have hS2 : S + nelx ≤ M.nelem := by
    rw [hM.nelem, hS, ← layS_mid hH]
    exact layS_mono _ _ (by omega)
  -- the map on the middle layer
  have hmap : ∀ b, b < nelx → mt.v [S + b] = some (S + (b + nelx - k * w (dist n 0) % nelx) % nelx) := by
    intro b hb
    have := p3 (n - 1) b 0 (by omega) (by rw [d0, hH.mid.1, Nat.div_one]; exact hb) (by
      have : kindR n (fun i => r (dist n i)) (n - 1) = kind n r (n - 1) := rfl
      rw [this, hk]; decide)
    have hkk : kindR n (fun i => r (dist n i)) (n - 1) = .normal := hk
    rw [hkk] at this
    simp only [Kind.tiles, Nat.mul_one, Nat.add_zero] at this
    rw [d0, hH.mid.1, Nat.div_one, ← hS] at this
    have hq : nelx / (nelx / w (dist n 0)) = w (dist n 0) := by
      have hd := hL.fits 0 (by omega)
      beta_reduce at hd
      exact Nat.div_div_self hd (by omega)
    rw [hq] at this
    exact this
  obtain ⟨ft, f1, f2⟩ := keep_ok (map := mt) (N := M.nelem) (G := fun e => (mt.v [e]).getD 0) (by
    refine ⟨p2, fun e he => ?_⟩
    obtain ⟨i, b, q, i1, i2, i3, rfl⟩ := elem_coord hL hM.nelem he
    have := p3 i b q i1 i2 i3
    have hkk : kindR n (fun i => r (dist n i)) i = kind n r i := rfl
    rw [hkk] at this
    beta_reduce
    rw [this]; simp) a2 (fun p hp => by rw [c2 p hp]; omega)
  refine ⟨mid, ft, m4, m2, ?_, ?_⟩
  · unfold elementgrid_leftright
    rw [if_neg (by simp), q1, Res.ok_bind, q2, Res.ok_bind, if_neg (by simp [q5]), amax_nhx hH hM.nhx, Res.ok_bind, q3, Res.ok_bind,
      if_neg (by omega), Nat.add_sub_cancel_left, m1, q4, Res.ok_bind, if_neg (by omega), hwin, cumsum_spec hM.nhy, Res.ok_bind,
      below_ok (by omega), Res.ok_bind, lget_range (by omega), Res.ok_bind, show n - 1 + 1 = n by omega, ← hxu]
    dsimp only
    rw [a1, Res.ok_bind, p1, Res.ok_bind, f1]
  · have hN : N = min left mid + 1 + min right (nelx - 1 - mid) := by
      rw [c1, hxu]; split <;> omega
    rw [← hN]
    refine f2.congr fun p hp => ?_
    beta_reduce
    rw [c2 p hp, Nat.add_assoc, hmap _ (by omega), ← hS]
    simp only [Option.getD_some]
    congr 1
    -- arithmetic modulo `nelx`
    have hkm : k * w (dist n 0) % nelx < nelx := Nat.mod_lt _ hx
    have h1 : (ex + k * w (dist n 0) % nelx) % nelx = mid := by rw [Nat.add_mod_mod]; exact m3
    have hml : mid - left = mid - min left mid := by omega
    rw [hml]
    have hle : min left mid ≤ mid := Nat.min_le_right _ _
    generalize min left mid = L at *
    generalize k * w (dist n 0) % nelx = D at *
    rcases Nat.lt_or_ge (ex + D) nelx with hc | hc
    · rw [Nat.mod_eq_of_lt hc] at h1
      rw [show mid - L + p + nelx - D = ex + (nelx - L) + p by omega]
    · rw [Nat.mod_eq_sub_mod hc, Nat.mod_eq_of_lt (by omega)] at h1
      rw [show ex + (nelx - L) + p = mid - L + p + nelx - D + nelx by omega, Nat.add_mod_right]

/-- **C63** `elementgrid_around_ravel(e, size)` for an element in column `ex` of the middle layer and a box that is
lower than the mesh: the elements in a box around the element, in the periodic mesh.  The box is rounded outwards to
whole layers and to multiples of the widest elements in them (but see `C63_around_misses`). -/
theorem C63_around (nelx nely : Nat) (hx : 0 < nelx) (hy : 0 < nely) {h : α} (hh : 0 < h) (nfine : Nat) :
    ∃ M n w g r Ny ct x t c S, FineLayer.new nelx nely h nfine = .ok M ∧ Rows M nelx n w g r ∧ M.nely = .ok Ny ∧
      M.coor = .ok ct ∧ Is2 ct M.nnode 2 x ∧ M.conn = .ok t ∧ Is2 t M.nelem 4 c ∧ M.startElem.get [n - 1] = .ok S ∧
      ∀ ex size, 1 < n → ex < nelx →
        (2 * size < Ny → ∃ mid d lo hi u X0 X1, Around nelx n w g h M.nelem x c Ny ex size mid d lo hi u X0 X1
          (M.elementgrid_around_ravel (S + ex) size true)) ∧
        (Ny ≤ 2 * size → ∃ a, M.elementgrid_around_ravel (S + ex) size true = .ok a ∧ Is1 a M.nelem (fun e => e)) := by
  obtain ⟨M, n, w, g, r, Ny, ct, x, t, c, h1, h2, h3, h4, h5, h6, h7, h8, h9, h10, h11⟩ := FineLayer.meshG nelx nely hy h nfine
  have hp := h2.pos
  refine ⟨M, n, w, g, r, Ny, ct, x, t, c, _, h1, ⟨h3.nhx, h3.nhy, h3.refine, h3.layer⟩, h5, h7, h8, h9, h10,
    h3.startElem.get (by omega), fun ex size hn hex => ⟨fun hs => around_ok h3 h2 hx h5 h4 h6 hh h11 hn hex hs, fun hs => ?_⟩⟩
  obtain ⟨q1, q2, q3, q4, q5⟩ := layer_mid h3 h2 hn hex
  refine ⟨arange 0 M.nelem, ?_, (is1_arange 0 M.nelem).congr fun i _ => by omega⟩
  unfold elementgrid_around_ravel
  rw [if_neg (by simp), q1, Res.ok_bind, q2, Res.ok_bind, if_neg (by simp [q5]), cumsum_spec h3.nhy, Res.ok_bind,
      List.length_map, List.length_range, lget_range (by omega), Res.ok_bind,
      show 2 * n - 1 - 1 + 1 = 2 * n - 1 by omega, ← h6, if_pos hs]

/-- **C63** `elementgrid_leftright(e, left, right)` for the element in column `ex` of the middle layer: the elements from
`left` columns to the left to `right` columns to the right (periodically), from left to right; at most `mid` columns to
the left and `nelx - 1 - mid` columns to the right, with `mid` about `nelx / 2`. -/
theorem C63_leftright (nelx nely : Nat) (hy : 0 < nely) {h : α} (nfine : Nat) :
    ∃ M n w g r S W, FineLayer.new nelx nely h nfine = .ok M ∧ Rows M nelx n w g r ∧ M.startElem.get [n - 1] = .ok S ∧
      M.nhx.get [0] = .ok W ∧
      ∀ ex left right, 1 < n → ex < nelx →
        ∃ mid a, mid = nelx / W / 2 * W + ex % W ∧ mid < nelx ∧
          M.elementgrid_leftright (S + ex) left right true = .ok a ∧
          Is1 a (min left mid + 1 + min right (nelx - 1 - mid)) (fun p => S + (ex + (nelx - min left mid) + p) % nelx) := by
  obtain ⟨M, n, w, g, r, Ny, ct, x, t, c, h1, h2, h3, h4, h5, h6, h7, h8, h9, h10, h11⟩ := FineLayer.meshG nelx nely hy h nfine
  have hp := h2.pos
  exact ⟨M, n, w, g, r, _, _, h1, ⟨h3.nhx, h3.nhy, h3.refine, h3.layer⟩,
    h3.startElem.get (by omega), h3.nhx.get (by omega), fun ex left right hn hex => leftright_ok h3 h2 h5 h4 h6 hn hex left right⟩

/-- **C63** both selections accept only elements of the middle layer: for an element of another layer they throw, except
that an element of the last layer (in particular in a mesh of one layer) is undefined behaviour. -/
theorem C63_middle_only (nelx nely : Nat) (hy : 0 < nely) {h : α} (nfine : Nat) :
    ∃ M n w g r, FineLayer.new nelx nely h nfine = .ok M ∧ Rows M nelx n w g r ∧
      (∀ e size left right, M.elementgrid_around_ravel e size false = .throws ∧
        M.elementgrid_leftright e left right false = .throws) ∧
      (∀ i s s' e size left right, i + 1 < 2 * n - 1 → i ≠ n - 1 → M.startElem.get [i] = .ok s →
        M.startElem.get [i + 1] = .ok s' → s ≤ e → e < s' →
        M.elementgrid_around_ravel e size true = .throws ∧ M.elementgrid_leftright e left right true = .throws) ∧
      (∀ s e size left right, M.startElem.get [2 * n - 2] = .ok s → s ≤ e →
        M.elementgrid_around_ravel e size true = .ub ∧ M.elementgrid_leftright e left right true = .ub) := by
  obtain ⟨M, n, w, g, r, Ny, ct, x, t, c, h1, h2, h3, h4, h5, h6, h7, h8, h9, h10, h11⟩ := FineLayer.meshG nelx nely hy h nfine
  have hp := h2.pos
  refine ⟨M, n, w, g, r, h1, ⟨h3.nhx, h3.nhy, h3.refine, h3.layer⟩, fun e size left right => ⟨rfl, rfl⟩, ?_, ?_⟩
  · intro i s s' e size left right hi hne hs hs' h12 h13
    rw [h3.startElem.get (by omega)] at hs hs'
    have hs := Res.ok.inj hs
    have hs' := Res.ok.inj hs'
    have hl : M.layerOf e = .ok i := layerOf_ok h3.startElem (by simp [layS, height]) layS_mono hi (by omega) (by omega)
    have q5 : (M.nhy.size - 1) / 2 = n - 1 := by rw [h3.nhy.size]; omega
    constructor
    · unfold elementgrid_around_ravel
      rw [if_neg (by simp), hl, Res.ok_bind, h3.layer.get (by omega), Res.ok_bind, q5, if_pos hne]
    · unfold elementgrid_leftright
      rw [if_neg (by simp), hl, Res.ok_bind, h3.layer.get (by omega), Res.ok_bind, q5, if_pos hne]
  · intro s e size left right hs h12
    rw [h3.startElem.get (by omega)] at hs
    have hs := Res.ok.inj hs
    have hl : M.layerOf e = .ub := layerOf_last h3.startElem layS_mono (by
      rw [show 2 * n - 1 - 1 = 2 * n - 2 by omega]; omega)
    constructor
    · unfold elementgrid_around_ravel
      rw [if_neg (by simp), hl, Res.ub_bind]
    · unfold elementgrid_leftright
      rw [if_neg (by simp), hl, Res.ub_bind]

/-- **C63** the box can miss the last column: around element 120 (column 12 of the middle layer, which starts at 108) with
`size = 3` the middle row contains the elements 117, ..., 122, not 123, although the documented box of `2 * size + 1`
columns contains it; `elementgrid_leftright` does return it. -/
theorem C63_around_misses :
    ((FineLayer.new 27 17 (1 : Nat) 1).bind fun M => (M.elementgrid_around_ravel 120 3 true).bind fun t => t.flat.bind fun l =>
      .ok (l.filter fun e => decide (108 ≤ e ∧ e < 135))) = .ok [117, 118, 119, 120, 121, 122] ∧
    ((FineLayer.new 27 17 (1 : Nat) 1).bind fun M => (M.elementgrid_leftright 120 3 3 true).bind fun t => t.flat) =
      .ok [117, 118, 119, 120, 121, 122, 123] ∧
    ((FineLayer.new 27 17 (1 : Nat) 1).bind fun M => M.startElem.flat) = .ok [0, 9, 18, 54, 81, 108, 135, 162, 189, 225, 234] := by
  refine ⟨?_, ?_, ?_⟩ <;> decide +kernel

end GF
