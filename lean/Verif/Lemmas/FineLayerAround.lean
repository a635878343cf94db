import Verif.Props.FineLayerGrid

/-! The selections around an element of `Quad4::FineLayer`: the pieces. -/

namespace GF
open FineLayerSpec Finset FineLayer
variable {α : Type}

namespace FineLayer

theorem keep_ok {map ret : Ten Nat} {N K : Nat} {F G : Nat → Nat} (hm : Is1 map N G) (hr : Is1 ret K F)
    (hF : ∀ p, p < K → F p < N) : ∃ t, keep map ret = .ok t ∧ Is1 t K (fun p => G (F p)) := by
  unfold keep
  rw [hr.flat, Res.ok_bind, mapRes_ok (fun i => map.get [i]) G _ (by
    intro a ha
    obtain ⟨p, hp, rfl⟩ := List.mem_map.1 ha
    exact hm.get (hF p (List.mem_range.1 hp))), Res.ok_bind]
  refine ⟨_, rfl, ?_, fun p hp => ?_⟩
  · simp [Ten.of]
  · simp [Ten.of, hp]

/-- the layer of an element that is not in the last layer -/
theorem layerOf_ok {M : FineLayer α} {N : Nat} {s : Nat → Nat} (hs : Is1 M.startElem N s) (h0 : s 0 = 0)
    (hmono : ∀ i j, i ≤ j → s i ≤ s j) {i e : Nat} (hi : i + 1 < N) (h1 : s i ≤ e) (h2 : e < s (i + 1)) :
    M.layerOf e = .ok i := by
  unfold layerOf
  rw [hs.flat, Res.ok_bind]
  obtain ⟨p, e1, e2, e3, e4⟩ := argmaxB_spec (N := N) (f := s) (p := fun s => decide (e < s)) ⟨i + 1, hi, by simpa using h2⟩
  simp only [decide_eq_true_eq] at e3
  have hp : p = i + 1 := by
    rcases Nat.lt_trichotomy p (i + 1) with h | h | h
    · have := hmono p i (by omega); omega
    · exact h
    · have := e4 (i + 1) h
      simp only [decide_eq_false_iff_not] at this
      exact absurd h2 this
  dsimp only
  rw [e1, hp, if_neg (by omega), Nat.add_sub_cancel]

/-- an element of the last layer has no layer above it: the subtraction underflows -/
theorem layerOf_last {M : FineLayer α} {N : Nat} {s : Nat → Nat} (hs : Is1 M.startElem N s)
    (hmono : ∀ i j, i ≤ j → s i ≤ s j) {e : Nat} (h1 : s (N - 1) ≤ e) :
    M.layerOf e = .ub := by
  unfold layerOf
  rw [hs.flat, Res.ok_bind]
  have : argmaxB ((List.range N).map s) (fun s => decide (e < s)) = 0 := by
    unfold argmaxB
    rw [if_neg]
    rw [List.findIdx_lt_length]
    rintro ⟨a, ha, hp⟩
    obtain ⟨i, hi, rfl⟩ := List.mem_map.1 ha
    have hi := List.mem_range.1 hi
    have := hmono i (N - 1) (by omega)
    simp only [decide_eq_true_eq] at hp
    omega
  dsimp only
  rw [this, if_pos rfl]

theorem recentre_spec {nel step ex : Nat} (hs : 0 < step) (hd : step ∣ nel) (hn : 0 < nel) (hx : ex < nel) :
    ∃ mid k, recentre nel step ex = (mid, k) ∧ mid < nel ∧ (ex + k * step) % nel = mid ∧
      mid = nel / step / 2 * step + ex % step := by
  unfold recentre
  dsimp only
  have hq : (nel / step - nel / step % 2) / 2 = nel / step / 2 := by generalize nel / step = x; omega
  rw [hq]
  obtain ⟨m, rfl⟩ := hd
  have hm : 0 < m := Nat.pos_of_mul_pos_left hn |> fun h => by
    rcases Nat.eq_zero_or_pos m with rfl | h
    · simp at hn
    · exact h
  rw [Nat.mul_div_cancel_left _ hs]
  have he := Nat.mod_lt ex hs
  have hdm := Nat.div_add_mod ex step
  have hexm : ex / step < m := (Nat.div_lt_iff_lt_mul hs).2 (by rw [Nat.mul_comm]; exact hx)
  have hmid : m / 2 * step + ex % step < step * m := by
    have : (m / 2 + 1) * step ≤ m * step := Nat.mul_le_mul_right _ (by omega)
    rw [Nat.add_mul, Nat.mul_comm m] at this
    omega
  refine ⟨_, _, rfl, hmid, ?_, rfl⟩
  generalize hM : m / 2 * step + ex % step = mid at *
  -- the distance is a multiple of the step
  have h1 : (step * m - mid + ex) % (step * m) = step * ((m - m / 2 + ex / step) % m) := by
    rw [← Nat.mul_mod_mul_left]
    congr 1
    have h2 : step * (m - m / 2) = step * m - m / 2 * step := by rw [Nat.mul_sub, Nat.mul_comm step (m / 2)]
    rw [Nat.mul_add, h2]
    have h3 : m / 2 * step ≤ step * m := by rw [Nat.mul_comm step]; exact Nat.mul_le_mul_right _ (Nat.div_le_self _ _)
    omega
  have hb : (m - m / 2 + ex / step) % m < m := Nat.mod_lt _ hm
  rw [h1]
  have h4 : step * m - step * ((m - m / 2 + ex / step) % m) = step * (m - (m - m / 2 + ex / step) % m) := by
    rw [Nat.mul_sub]
  rw [h4, Nat.mul_div_cancel_left _ hs]
  -- add it to `ex`
  have h5 : ex + (m - (m - m / 2 + ex / step) % m) * step = step * (ex / step + (m - (m - m / 2 + ex / step) % m)) + ex % step := by
    rw [Nat.mul_add, Nat.mul_comm (m - _) step]; omega
  rw [h5]
  have h6 : (ex / step + (m - (m - m / 2 + ex / step) % m)) % m = m / 2 := by
    have hlt : m / 2 < m := by omega
    rcases Nat.lt_or_ge (m - m / 2 + ex / step) m with c | c
    · rw [Nat.mod_eq_of_lt c]
      rw [show ex / step + (m - (m - m / 2 + ex / step)) = m / 2 by omega, Nat.mod_eq_of_lt hlt]
    · have hz : (m - m / 2 + ex / step) % m = m - m / 2 + ex / step - m := by
        rw [Nat.mod_eq_sub_mod c, Nat.mod_eq_of_lt]
        generalize ex / step = y at *; omega
      rw [hz]
      rw [show ex / step + (m - (m - m / 2 + ex / step - m)) = m / 2 + m by generalize ex / step = y at *; omega, Nat.add_mod_right, Nat.mod_eq_of_lt hlt]
  have h7 := Nat.div_add_mod (ex / step + (m - (m - m / 2 + ex / step) % m)) m
  rw [h6] at h7
  rw [← h7, Nat.mul_add, Nat.add_assoc, ← Nat.mul_assoc, Nat.mul_add_mod, Nat.mul_comm step (m / 2), hM, Nat.mod_eq_of_lt hmid]

/-- the window of columns: whole coarse elements that reach `left` columns to the left of `mid` and `right` columns
to the right (not `right + 1`) -/
theorem window_spec {nel dx mid left right : Nat} (hdx : 0 < dx) (hd : dx ∣ nel) (hm : mid < nel) (hr : dx ≤ right + 1) :
    ∃ xl xu, window nel dx mid left right = (xl, xu) ∧ dx ∣ xl ∧ dx ∣ xu ∧ xl ≤ mid ∧ mid < xu ∧ xu ≤ nel ∧
      xl = (mid - left) / dx * dx ∧ (mid + right ≤ xu ∨ xu = nel) ∧ xu < mid + right + 1 + dx := by
  have hfl : ∀ a, a - a % dx = a / dx * dx := fun a => by have := Nat.div_add_mod' a dx; omega
  have e1 : (if left ≤ mid then mid - left else 0) = mid - left := by split <;> omega
  have hxl : (mid - left) / dx * dx ≤ mid - left := Nat.div_mul_le_self _ _
  have e2 : (if mid - (mid - left) / dx * dx < left then (if (mid - left) / dx * dx < dx then 0 else (mid - left) / dx * dx - dx)
      else (mid - left) / dx * dx) = (mid - left) / dx * dx := by
    by_cases hl : left ≤ mid
    · rw [if_neg (by omega)]
    · have : mid - left = 0 := by omega
      rw [this]; simp
  obtain ⟨T, hT, t1, t2, t3, t4⟩ : ∃ T, (if mid + right < nel then mid + right + 1 else nel) = T ∧ T ≤ nel ∧ (T = nel ∨ T = mid + right + 1) ∧ mid < T ∧ T ≤ mid + right + 1 := by
    refine ⟨_, rfl, ?_⟩
    split
    · exact ⟨by omega, Or.inr rfl, by omega, by omega⟩
    · exact ⟨le_rfl, Or.inl rfl, hm, by omega⟩
  have hf1 : T / dx * dx ≤ T := Nat.div_mul_le_self _ _
  have hf2 : T < T / dx * dx + dx := by
    have h1 := Nat.div_add_mod' T dx
    have h2 := Nat.mod_lt T hdx
    omega
  have hf3 : T = nel → T / dx * dx = nel := fun h => by rw [h]; exact Nat.div_mul_cancel hd
  obtain ⟨k, hk⟩ := hd
  generalize hf : T / dx = f at *
  unfold window
  dsimp only
  rw [e1, hT, hfl, hfl, e2, hf]
  refine ⟨_, _, rfl, Dvd.intro_left _ rfl, ?_⟩
  by_cases hc : mid ≤ f * dx ∧ f * dx - mid < right
  · rw [if_pos hc]
    by_cases hc2 : nel - dx < f * dx
    · rw [if_pos hc2]
      exact ⟨Dvd.intro _ hk.symm, by omega, by omega, le_rfl, rfl, Or.inr rfl, by omega⟩
    · rw [if_neg hc2]
      have h3 : f * dx ≠ nel := by
        intro h3
        have : dx ≤ nel := by
          rw [hk]; exact Nat.le_mul_of_pos_right _ (by
            rcases Nat.eq_zero_or_pos k with rfl | h
            · simp at hk; omega
            · exact h)
        omega
      have hnel : dx ≤ nel := by
        rw [hk]; exact Nat.le_mul_of_pos_right _ (by
          rcases Nat.eq_zero_or_pos k with rfl | h
          · simp at hk; omega
          · exact h)
      refine ⟨⟨f + 1, by ring⟩, by omega, by omega, by omega, rfl, ?_, by omega⟩
      rcases t2 with t2 | t2
      · exact absurd (hf3 t2) h3
      · left; omega
  · rw [if_neg hc]
    refine ⟨Dvd.intro_left _ rfl, by omega, ?_, by omega, rfl, ?_, by omega⟩
    · rcases t2 with t2 | t2
      · rw [hf3 t2]; exact hm
      · omega
    · rcases t2 with t2 | t2
      · exact Or.inr (hf3 t2)
      · left; omega

/-! ### rows -/

theorem half_up {n : Nat} {g : Nat → Nat} (hn : 0 < n) (d : Nat) :
    height (fun i => g (dist n i)) (n - 1 + d) = height (fun i => g (dist n i)) (n - 1) + height g d := by
  rw [height_add]
  congr 1
  refine height_congr fun k _ => ?_
  simp only [FineLayerSpec.dist]
  split
  · congr 1; omega
  · congr 1; omega

theorem half_down {n : Nat} {g : Nat → Nat} {d : Nat} (hd : d ≤ n) :
    height (fun i => g (dist n i)) n = height (fun i => g (dist n i)) (n - d) + height g d := by
  induction d with
  | zero => simp [height]
  | succ d ih =>
    rw [ih (by omega), height_succ g, show n - d = n - (d + 1) + 1 by omega, height_succ]
    have : dist n (n - (d + 1)) = d := by
      simp only [FineLayerSpec.dist]; rw [if_pos (by omega)]; omega
    rw [this]; omega

/-- an element is not wider than the distance of its layer to the middle, plus one -/
theorem width_le {nelx nmin nfine n : Nat} {w g : Nat → Nat} {r : Nat → Int} (hH : HalfLayers nelx nmin nfine n w g r)
    {d : Nat} (hd : d < n) : w d ≤ height g d + 1 := by
  induction d with
  | zero => have := hH.mid.1; omega
  | succ d ih =>
    have h1 := ih (by omega)
    have h2 := hH.step d hd
    split at h2
    · rename_i hc; have := hc.2.1; omega
    · have : height g d ≤ height g (d + 1) := height_mono (by omega)
      omega

theorem rows_spec {nelx nmin nfine n : Nat} {w g : Nat → Nat} {r : Nat → Int} (hH : HalfLayers nelx nmin nfine n w g r)
    {size : Nat} (hsz : 2 * size < height (fun i => g (dist n i)) (2 * n - 1)) :
    ∃ l u row, row = height (fun i => g (dist n i)) (n - 1) ∧ height (fun i => g (dist n i)) n = row + 1 ∧
      height (fun i => g (dist n i)) (2 * n - 1) = 2 * row + 1 ∧ size ≤ row ∧
      argmaxB ((List.range (2 * n - 1)).map fun i => height (fun i => g (dist n i)) (i + 1))
        (fun y => decide (row + 1 - size - 1 < y)) = l ∧
      argmaxB ((List.range (2 * n - 1)).map fun i => height (fun i => g (dist n i)) (i + 1))
        (fun y => decide (row + 1 + size ≤ y)) = u ∧
      Region n w g (row - size) (row + size + 1) l u (w (dist n u)) ∧ w (dist n u) ≤ size + 1 ∧
      ∀ i, l ≤ i → i ≤ u → w (dist n i) ∣ w (dist n u) := by
  have hp := hH.pos
  have hL := layers_of_half hH
  have hg0 := hH.mid.2.1
  obtain ⟨row, hrow⟩ : ∃ row, row = height (fun i => g (dist n i)) (n - 1) := ⟨_, rfl⟩
  have e1 : height (fun i => g (dist n i)) n = row + 1 := by
    have := half_down (g := g) (show 1 ≤ n from hp)
    rw [this, ← hrow]; simp [height, hg0]
  have e2 : height g n = row + 1 := by
    have := half_down (g := g) (le_refl n)
    rw [Nat.sub_self, e1] at this
    simp only [height, range_zero, sum_empty] at this ⊢
    omega
  have e3 : height (fun i => g (dist n i)) (2 * n - 1) = 2 * row + 1 := by
    have := half_up (g := g) hp n
    rw [show n - 1 + n = 2 * n - 1 by omega] at this
    omega
  have hmono : ∀ i j, i ≤ j → height (fun i => g (dist n i)) i ≤ height (fun i => g (dist n i)) j := fun i j h => height_mono h
  obtain ⟨l, a1, a2, a3, a4⟩ := argmaxB_spec (N := 2 * n - 1) (f := fun i => height (fun i => g (dist n i)) (i + 1))
    (p := fun y => decide (row + 1 - size - 1 < y)) ⟨n - 1, by omega, by
      simp only [decide_eq_true_eq]; rw [show n - 1 + 1 = n by omega, e1]; omega⟩
  obtain ⟨u, b1, b2, b3, b4⟩ := argmaxB_spec (N := 2 * n - 1) (f := fun i => height (fun i => g (dist n i)) (i + 1))
    (p := fun y => decide (row + 1 + size ≤ y)) ⟨2 * n - 2, by omega, by
      simp only [decide_eq_true_eq]; rw [show 2 * n - 2 + 1 = 2 * n - 1 by omega, e3]; omega⟩
  simp only [decide_eq_true_eq, decide_eq_false_iff_not, Nat.not_lt, Nat.not_le] at a3 a4 b3 b4
  have hl : l ≤ n - 1 := by
    by_contra hc
    have := a4 (n - 1) (by omega)
    rw [show n - 1 + 1 = n by omega, e1] at this
    omega
  have hu : n - 1 ≤ u := by
    by_contra hc
    have := hmono (u + 1) (n - 1) (by omega)
    omega
  obtain ⟨d, rfl⟩ : ∃ d, u = n - 1 + d := ⟨u - (n - 1), by omega⟩
  have hdu : dist n (n - 1 + d) = d := by simp only [FineLayerSpec.dist]; split <;> omega
  have hdn : d < n := by omega
  have hu0 : height (fun i => g (dist n i)) (n - 1 + d) < row + size + 1 := by
    rcases Nat.eq_zero_or_pos d with rfl | h
    · rw [Nat.add_zero, ← hrow]; omega
    · have := b4 (n - 1 + d - 1) (by omega)
      rw [show n - 1 + d - 1 + 1 = n - 1 + d by omega] at this
      omega
  have hw : w d ≤ size + 1 := by
    have := width_le hH hdn
    rw [half_up hp] at hu0
    omega
  have hl0 : height (fun i => g (dist n i)) l ≤ row - size := by
    rcases Nat.eq_zero_or_pos l with rfl | h
    · simp [height]
    · have := a4 (l - 1) (by omega)
      rw [show l - 1 + 1 = l by omega] at this
      omega
  have hdl : dist n l ≤ d := by
    have h1 : dist n l = n - 1 - l := by simp only [FineLayerSpec.dist]; split <;> omega
    by_contra hc
    have h2 := half_down (g := g) (show n - 1 - l ≤ n by omega)
    rw [show n - (n - 1 - l) = l + 1 by omega, e1] at h2
    have h3 : height g (d + 1) ≤ height g (n - 1 - l) := height_mono (by omega)
    have h4 := half_up (g := g) hp (d + 1)
    rw [show n - 1 + (d + 1) = n - 1 + d + 1 by omega] at h4
    omega
  have hdiv : ∀ i, l ≤ i → i ≤ n - 1 + d → w (dist n i) ∣ w d := by
    intro i h1 h2
    refine hH.nested ?_ hdn
    simp only [FineLayerSpec.dist] at hdl ⊢
    split_ifs at hdl ⊢ <;> omega
  have hwd : 0 < w d := by
    have := hL.wpos (n - 1 + d) (by omega)
    beta_reduce at this
    rwa [hdu] at this
  refine ⟨l, n - 1 + d, row, hrow, e1, e3, by omega, a1, b1, ?_, ?_, ?_⟩
  · refine ⟨by omega, by omega, hl0, by omega, hu0, by omega, ?_, n - 1 + d, by omega, le_rfl, rfl⟩
    intro i h1 h2
    rw [hdu]
    exact Nat.le_of_dvd hwd (hdiv i h1 h2)
  · rw [hdu]; exact hw
  · rw [hdu]; exact hdiv

theorem amax_nhx {nelx nmin nfine n : Nat} {w g : Nat → Nat} {r : Nat → Int} (hH : HalfLayers nelx nmin nfine n w g r)
    {t : Ten Nat} (ht : Is1 t (2 * n - 1) (fun i => w (dist n i))) : amax t = .ok (w (dist n 0)) := by
  have hp := hH.pos
  have hL := layers_of_half hH
  obtain ⟨k, k1, k2, k3⟩ := amax_is1 ht
  rw [k1]
  have h0 := k2 0 (by omega)
  have hw : 0 < w (dist n 0) := hL.wpos 0 (by omega)
  rcases k3 with k3 | ⟨i, hi, k3⟩
  · omega
  · have d0 : dist n 0 = n - 1 := by simp only [FineLayerSpec.dist]; rw [if_pos hp]; omega
    have di := dist_lt hi
    have := Nat.le_of_dvd (by rw [← d0]; exact hw) (hH.nested (show dist n i ≤ n - 1 by omega) (by omega))
    beta_reduce at k3 h0
    rw [← d0] at this
    congr 1
    omega

theorem lget_range {N : Nat} {f : Nat → Nat} {i : Nat} (h : i < N) : lget ((List.range N).map f) i = .ok (f i) :=
  by simp [lget, h]

theorem below_ok {N : Nat} {g : Nat → Nat} {l : Nat} (h : l ≤ N) :
    below ((List.range N).map fun i => height g (i + 1)) l = .ok (height g l) := by
  unfold below
  split
  · rw [lget_range (by omega), show l - 1 + 1 = l by omega]
  · have : l = 0 := by omega
    rw [this]; simp [height]

end FineLayer
end GF
