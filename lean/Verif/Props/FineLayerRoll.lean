import Verif.Lemmas.FineLayerEdges
import Mathlib.Tactic.NormNum
import Mathlib.Tactic.LinearCombination

/-! **C61** `Mesh::Quad4::FineLayer::roll` is a periodic shift of the mesh. -/

namespace GF
open FineLayerSpec Finset FineLayer
variable {α : Type}

/-- `map` is the periodic shift, by `d` columns of width `h` to the right, of a mesh of `nelx` columns: it is a
permutation of the elements; the element `map e` moved by `d` columns, and back by whole widths of the mesh,
coincides corner by corner with element `e` -/
structure FineLayerSpec.PeriodicShift [Ring α] (nelem nelx d : Nat) (h : α) (x : Nat → Nat → α) (c : Nat → Nat → Nat)
    (map : Nat → Nat) : Prop where
  valid : ∀ e, e < nelem → map e < nelem
  inj : ∀ e e', e < nelem → e' < nelem → map e = map e' → e = e'
  surj : ∀ e', e' < nelem → ∃ e, e < nelem ∧ map e = e'
  shift : ∀ e, e < nelem → ∃ z : ℤ, ∀ j, j < 4 →
    x (c e j) 0 = x (c (map e) j) 0 + h * (d : α) + z * (h * (nelx : α)) ∧
    x (c e j) 1 = x (c (map e) j) 1

/-- the widths of the layers are nested -/
theorem FineLayerSpec.HalfLayers.nested {nelx nmin nfine n : Nat} {w g : Nat → Nat} {r : Nat → Int}
    (h : HalfLayers nelx nmin nfine n w g r) {i j : Nat} (hij : i ≤ j) (hj : j < n) : w i ∣ w j := by
  induction j with
  | zero => have : i = 0 := by omega
            subst this; exact dvd_refl _
  | succ j ih =>
    rcases Nat.lt_or_ge i (j + 1) with hi | hi
    · have h1 := ih (by omega) (by omega)
      have h2 := h.step j hj
      split at h2
      · rw [h2.2.1]; exact Dvd.dvd.mul_left h1 3
      · rw [h2.2.1]; exact h1
    · have : i = j + 1 := by omega
      subst this; exact dvd_refl _

/-- rolling `m` blocks of `t` elements by `S` blocks -/
theorem roll_block {m t S b q : Nat} (hb : b < m) (hq : q < t) :
    (b * t + q + m * t - (S * t) % (m * t)) % (m * t) = (b + m - S % m) % m * t + q ∧ (b + m - S % m) % m < m := by
  have hm : 0 < m := by omega
  have h1 : (S * t) % (m * t) = S % m * t := by rw [Nat.mul_comm S, Nat.mul_comm m, Nat.mul_mod_mul_left, Nat.mul_comm]
  have h2 : S % m < m := Nat.mod_lt _ hm
  have h3 : (b + m - S % m) % m < m := Nat.mod_lt _ hm
  refine ⟨?_, h3⟩
  rw [h1]
  have h4 : b * t + q + m * t - S % m * t = (b + m - S % m) * t + q := by
    have : (b + m) * t = (b + m - S % m) * t + S % m * t := by rw [← Nat.add_mul]; congr 1; omega
    rw [Nat.add_mul] at this
    omega
  rw [h4]
  have h5 := Nat.div_add_mod (b + m - S % m) m
  have h6 : (b + m - S % m) * t + q = m * t * ((b + m - S % m) / m) + ((b + m - S % m) % m * t + q) := by
    calc _ = (m * ((b + m - S % m) / m) + (b + m - S % m) % m) * t + q := by rw [h5]
      _ = _ := by ring
  rw [h6, Nat.mul_add_mod, Nat.mod_eq_of_lt]
  exact grid_lt h3 hq

theorem FineLayer.rollLayer_ok {M : FineLayer α} {nelx n : Nat} {W G : Nat → Nat} {R : Nat → Int}
    (hM : IsFine M nelx n W G R) (hL : Layers nelx n W G R) (hx : 0 < nelx) {N : Nat} {ret : Ten Nat}
    (hs : ret.shape = [layS nelx W R (2 * n - 1)]) {i : Nat} (hi : i < 2 * n - 1) :
    ∃ t, rollLayer M N ret i = .ok t ∧ t.shape = [layS nelx W R (2 * n - 1)] ∧
      (∀ b q, b < nelx / W i → q < (kindR n R i).tiles →
        t.v [layS nelx W R i + (b * (kindR n R i).tiles + q)] =
          some (layS nelx W R i +
            ((b + nelx / W i - (N * (nelx / W i / (nelx / W 0))) % (nelx / W i)) % (nelx / W i) * (kindR n R i).tiles + q))) ∧
      ∀ e, e < layS nelx W R i ∨ layS nelx W R (i + 1) ≤ e → t.v [e] = ret.v [e] := by
  have hp := hL.npos
  have hb0 : nelx / W 0 ≠ 0 := by
    have := Nat.div_pos (Nat.le_of_dvd hx (hL.fits 0 (by omega))) (hL.wpos 0 (by omega))
    omega
  unfold rollLayer
  rw [hM.layer.get hi, Res.ok_bind, hM.layer.get (show 0 < 2 * n - 1 by omega), Res.ok_bind, if_neg hb0,
    hM.refine.get hi, Res.ok_bind]
  dsimp only
  rw [hM.startElem.get hi, Res.ok_bind]
  have hsucc : layS nelx W R (i + 1) = layS nelx W R i + nelx / W i * (kindR n R i).tiles := by
    rw [layS_succ, hL.layE_eq hi]
  have hmono : layS nelx W R (i + 1) ≤ layS nelx W R (2 * n - 1) := height_mono hi
  have hnel : (if R i ≠ -1 then nelx / W i * 4 else nelx / W i) = nelx / W i * (kindR n R i).tiles := by
    rw [kindR]
    by_cases h : R i = -1
    · rw [if_neg (by simpa using h), if_pos h]; simp [Kind.tiles]
    · rw [if_pos h, if_neg h]; split <;> rfl
  have hsh : (if R i ≠ -1 then N * (nelx / W i / (nelx / W 0)) * 4 else N * (nelx / W i / (nelx / W 0))) =
      N * (nelx / W i / (nelx / W 0)) * (kindR n R i).tiles := by
    rw [kindR]
    by_cases h : R i = -1
    · rw [if_neg (by simpa using h), if_pos h]; simp [Kind.tiles]
    · rw [if_pos h, if_neg h]; split <;> rfl
  rw [hnel, hsh]
  generalize hm : nelx / W i = m at *
  generalize ht : (kindR n R i).tiles = tl at *
  obtain ⟨t, a1, a2, a3, a4⟩ := assignRange_spec hs (Nat.le_add_right (layS nelx W R i) (m * tl)) (by omega)
    (f := fun k => .ok (layS nelx W R i + (k + m * tl - N * (m / (nelx / W 0)) * tl % (m * tl)) % (m * tl)))
    (g := fun k => layS nelx W R i + (k + m * tl - N * (m / (nelx / W 0)) * tl % (m * tl)) % (m * tl)) (fun _ _ => rfl)
  refine ⟨t, a1, a2, fun b q hb hq => ?_, fun e he => a4 e (by omega)⟩
  rw [a3 (b * tl + q) (by rw [Nat.add_sub_cancel_left]; exact grid_lt hb hq), (roll_block hb hq).1]

theorem FineLayer.roll_ok {M : FineLayer α} {nelx n : Nat} {W G : Nat → Nat} {R : Nat → Int}
    (hM : IsFine M nelx n W G R) (hL : Layers nelx n W G R) (hx : 0 < nelx) (N : Nat) :
    ∃ t, M.roll N = .ok t ∧ t.shape = [M.nelem] ∧
      ∀ i b q, i < 2 * n - 1 → b < nelx / W i → q < (kindR n R i).tiles →
        t.v [layS nelx W R i + (b * (kindR n R i).tiles + q)] =
          some (layS nelx W R i +
            ((b + nelx / W i - (N * (nelx / W i / (nelx / W 0))) % (nelx / W i)) % (nelx / W i) * (kindR n R i).tiles + q)) := by
  have hsz : M.nhy.size = 2 * n - 1 := hM.nhy.size
  unfold roll
  rw [hsz, hM.nelem]
  obtain ⟨t, a1, a2, a3⟩ := forEach_range (2 * n - 1) (rollLayer M N)
    (fun k (t : Ten Nat) => t.shape = [layS nelx W R (2 * n - 1)] ∧
      ∀ i b q, i < k → b < nelx / W i → q < (kindR n R i).tiles →
        t.v [layS nelx W R i + (b * (kindR n R i).tiles + q)] =
          some (layS nelx W R i +
            ((b + nelx / W i - (N * (nelx / W i / (nelx / W 0))) % (nelx / W i)) % (nelx / W i) * (kindR n R i).tiles + q)))
    (Ten.empty [layS nelx W R (2 * n - 1)]) ⟨rfl, fun i b q hi => by omega⟩ (by
      rintro k hk s ⟨hs, hI⟩
      obtain ⟨t, b1, b2, b3, b4⟩ := rollLayer_ok hM hL hx (N := N) hs hk
      refine ⟨t, b1, b2, fun i b q hi hb hq => ?_⟩
      by_cases hik : i = k
      · subst hik; exact b3 b q hb hq
      · rw [b4, hI i b q (by omega) hb hq]
        left
        have h1 : layS nelx W R (i + 1) ≤ layS nelx W R k := height_mono (by omega)
        rw [layS_succ, hL.layE_eq (by omega)] at h1
        have := grid_lt hb hq
        omega)
  exact ⟨t, a1, a2, a3⟩

section
variable [Field α] [CharZero α]

/-- `roll(N)` of a given mesh -/
theorem FineLayer.roll_shift {M : FineLayer α} {nelx nmin nfine n : Nat} {w g : Nat → Nat} {r : Nat → Int} {h : α}
    {x : Nat → Nat → α} {c : Nat → Nat → Nat} (hx : 0 < nelx) (h3 : HalfLayers nelx nmin nfine n w g r)
    (h4 : IsFine M nelx n (fun i => w (dist n i)) (fun i => g (dist n i)) (fun i => r (dist n i)))
    (e7 : FineMesh nelx n w g r h M.nnode M.nelem x c (layS nelx (fun i => w (dist n i)) (fun i => r (dist n i)))) (N : Nat) :
    ∃ m map, M.roll N = .ok m ∧ Is1 m M.nelem map ∧ PeriodicShift M.nelem nelx (N * w (dist n 0)) h x c map := by
  have hL := layers_of_half h3
  have hp := hL.npos
  obtain ⟨tm, m1, m2, m3⟩ := roll_ok h4 hL hx N
  -- block coordinates of an element
  have hlast := h4.nelem
  have coord : ∀ e, e < M.nelem → ∃ i b q, i < 2 * n - 1 ∧ b < nelx / w (dist n i) ∧ q < (kind n r i).tiles ∧
      e = layS nelx (fun i => w (dist n i)) (fun i => r (dist n i)) i + (b * (kind n r i).tiles + q) := by
    intro e he
    rw [hlast] at he
    obtain ⟨i, k, a1, a2, a3⟩ := exists_block he
    rw [hL.layE_eq a1] at a2
    have hk : kind n r i = kindR n (fun i => r (dist n i)) i := rfl
    rw [← hk] at a2
    have ht : 0 < (kind n r i).tiles := by cases kind n r i <;> simp [Kind.tiles]
    refine ⟨i, k / (kind n r i).tiles, k % (kind n r i).tiles, a1,
      (Nat.div_lt_iff_lt_mul ht).2 a2, Nat.mod_lt _ ht, ?_⟩
    rw [a3, Nat.div_add_mod']
    rfl
  have elt : ∀ i b q, i < 2 * n - 1 → b < nelx / w (dist n i) → q < (kind n r i).tiles →
      layS nelx (fun i => w (dist n i)) (fun i => r (dist n i)) i + (b * (kind n r i).tiles + q) < M.nelem := by
    intro i b q hi hb hq
    rw [hlast]
    refine block_lt hi ?_
    rw [hL.layE_eq hi]
    exact grid_lt hb hq
  let S : Nat → Nat := fun i => N * (nelx / w (dist n i) / (nelx / w (dist n 0)))
  let B : Nat → Nat → Nat := fun i b => (b + nelx / w (dist n i) - S i % (nelx / w (dist n i))) % (nelx / w (dist n i))
  have hB : ∀ i b, b < nelx / w (dist n i) → B i b < nelx / w (dist n i) := fun i b hb => Nat.mod_lt _ (by omega)
  let map : Nat → Nat := fun e => (tm.v [e]).getD 0
  have hmap : ∀ i b q, i < 2 * n - 1 → b < nelx / w (dist n i) → q < (kind n r i).tiles →
      map (layS nelx (fun i => w (dist n i)) (fun i => r (dist n i)) i + (b * (kind n r i).tiles + q)) =
      layS nelx (fun i => w (dist n i)) (fun i => r (dist n i)) i + (B i b * (kind n r i).tiles + q) := by
    intro i b q hi hb hq
    have := m3 i b q hi hb hq
    simp only [map]
    have hk : kind n r i = kindR n (fun i => r (dist n i)) i := rfl
    rw [hk, this]
    rfl
  have valid : ∀ e, e < M.nelem → map e < M.nelem := by
    intro e he
    obtain ⟨i, b, q, hi, hb, hq, rfl⟩ := coord e he
    rw [hmap i b q hi hb hq]
    exact elt i _ q hi (hB i b hb) hq
  have inj : ∀ e e', e < M.nelem → e' < M.nelem → map e = map e' → e = e' := by
    intro e e' he he' hee
    obtain ⟨i, b, q, hi, hb, hq, rfl⟩ := coord e he
    obtain ⟨i', b', q', hi', hb', hq', rfl⟩ := coord e' he'
    rw [hmap i b q hi hb hq, hmap i' b' q' hi' hb' hq'] at hee
    have hk : ∀ i, kind n r i = kindR n (fun i => r (dist n i)) i := fun i => rfl
    obtain ⟨rfl, h9⟩ := block_inj (cnt := layE nelx (fun i => w (dist n i)) (fun i => r (dist n i)))
      (by rw [hL.layE_eq hi, ← hk]; exact grid_lt (hB i b hb) hq)
      (by rw [hL.layE_eq hi', ← hk]; exact grid_lt (hB i' b' hb') hq') hee
    obtain ⟨h10, rfl⟩ := grid_inj hq hq' h9
    have : b = b' := by
      simp only [B] at h10
      generalize nelx / w (dist n i) = m at hb hb' h10
      have hs : S i % m < m := Nat.mod_lt _ (by omega)
      generalize S i % m = s at hs h10
      rcases Nat.lt_or_ge (b + m - s) m with c1 | c1 <;> rcases Nat.lt_or_ge (b' + m - s) m with c2 | c2
      · rw [Nat.mod_eq_of_lt c1, Nat.mod_eq_of_lt c2] at h10; omega
      · rw [Nat.mod_eq_of_lt c1, Nat.mod_eq_sub_mod c2, Nat.mod_eq_of_lt (by omega)] at h10; omega
      · rw [Nat.mod_eq_of_lt c2, Nat.mod_eq_sub_mod c1, Nat.mod_eq_of_lt (by omega)] at h10; omega
      · rw [Nat.mod_eq_sub_mod c2, Nat.mod_eq_sub_mod c1, Nat.mod_eq_of_lt (by omega), Nat.mod_eq_of_lt (by omega)] at h10
        omega
    rw [this]
  refine ⟨tm, map, m1, ⟨m2, fun e he => ?_⟩,
    valid, inj, ?_, fun e he => ?_⟩
  · obtain ⟨i, b, q, hi, hb, hq, rfl⟩ := coord e he
    have := m3 i b q hi hb hq
    rw [hmap i b q hi hb hq]
    exact this
  · -- an injective map of a finite set into itself is onto
    intro e' he'
    have hsub : (range M.nelem).image map ⊆ range M.nelem := by
      intro y hy
      rw [mem_image] at hy
      obtain ⟨e, he, rfl⟩ := hy
      exact mem_range.2 (valid e (mem_range.1 he))
    have heq : (range M.nelem).image map = range M.nelem := by
      refine eq_of_subset_of_card_le hsub ?_
      rw [card_image_of_injOn]
      intro a ha b hb
      simp only [coe_range, Set.mem_Iio] at ha hb
      exact inj a b ha hb
    have : e' ∈ (range M.nelem).image map := by rw [heq]; exact mem_range.2 he'
    obtain ⟨e, he, hee⟩ := mem_image.1 this
    exact ⟨e, mem_range.1 he, hee⟩
  · obtain ⟨i, b, q, hi, hb, hq, rfl⟩ := coord e he
    rw [hmap i b q hi hb hq]
    have hne := hL.nelx_eq hi
    have hne0 := hL.nelx_eq (show 0 < 2 * n - 1 by omega)
    -- widths are nested
    have hdvd : w (dist n i) ∣ w (dist n 0) := by
      have hd := dist_lt hi
      have h0 : dist n 0 = n - 1 := by simp only [FineLayerSpec.dist, if_pos hp]; omega
      rw [h0]
      exact h3.nested (by omega) (by omega)
    have hw : 0 < w (dist n i) := hL.wpos i hi
    have hS : S i * w (dist n i) = N * w (dist n 0) := by
      obtain ⟨k, hk⟩ := hdvd
      have hk0 : 0 < k := by
        have := hL.wpos 0 (show 0 < 2 * n - 1 by omega)
        beta_reduce at this
        rw [hk] at this
        exact Nat.pos_of_mul_pos_left this |> fun h => h
      have e1 : nelx / w (dist n i) = nelx / w (dist n 0) * k := by
        refine Nat.eq_of_mul_eq_mul_right hw ?_
        beta_reduce at hne hne0
        rw [hne]
        calc nelx = nelx / w (dist n 0) * w (dist n 0) := hne0.symm
          _ = nelx / w (dist n 0) * (w (dist n i) * k) := by rw [← hk]
          _ = _ := by ring
      have hm0 : 0 < nelx / w (dist n 0) :=
        Nat.div_pos (Nat.le_of_dvd hx (hL.fits 0 (by omega))) (hL.wpos 0 (by omega))
      have e2 : nelx / w (dist n i) / (nelx / w (dist n 0)) = k := by
        rw [e1, Nat.mul_div_cancel_left _ hm0]
      simp only [S]
      rw [e2, hk]; ring
    -- the block of the source in integers
    obtain ⟨z, hz⟩ : ∃ z : ℤ, (b : ℤ) = B i b + S i + z * (nelx / w (dist n i) : Nat) := by
      simp only [B]
      beta_reduce at hb
      generalize nelx / w (dist n i) = m at hb
      have d1 := Nat.div_add_mod (S i) m
      have hs : S i % m < m := Nat.mod_lt _ (by omega)
      have d2 := Nat.div_add_mod (b + m - S i % m) m
      have d3 : b + m = (b + m - S i % m) + S i % m := by omega
      refine ⟨((b + m - S i % m) / m : Nat) - 1 - (S i / m : Nat), ?_⟩
      have c1 : (m : ℤ) * (S i / m : Nat) + (S i % m : Nat) = S i := by exact_mod_cast d1
      have c2 : (m : ℤ) * ((b + m - S i % m) / m : Nat) + ((b + m - S i % m) % m : Nat) = ((b + m - S i % m : Nat) : ℤ) := by
        exact_mod_cast d2
      have c3 : (b : ℤ) + m = ((b + m - S i % m : Nat) : ℤ) + (S i % m : Nat) := by exact_mod_cast d3
      linear_combination c3 - c2 + c1
    refine ⟨z, fun j hj => ?_⟩
    have p1 := e7.pos i b q j hi hb hq hj
    have p2 := e7.pos i (B i b) q j hi (hB i b hb) hq hj
    rw [Nat.add_assoc] at p1 p2
    refine ⟨?_, by rw [p1.2, p2.2]⟩
    rw [p1.1, p2.1]
    have hzw : (b : ℤ) * w (dist n i) = B i b * w (dist n i) + N * w (dist n 0) + z * nelx := by
      have h8 : ((nelx / w (dist n i) : Nat) : ℤ) * w (dist n i) = nelx := by exact_mod_cast hne
      have h9 : (S i : ℤ) * w (dist n i) = N * w (dist n 0) := by exact_mod_cast hS
      rw [hz]
      linear_combination h9 + z * h8
    have hc : (b : α) * w (dist n i) = B i b * w (dist n i) + N * w (dist n 0) + z * nelx := by exact_mod_cast hzw
    push_cast
    linear_combination h * hc

/-- **C61** `roll(N)` succeeds for every mesh and every `N`, and is the periodic shift of the mesh to the right by
`N` times the width of an element of the bottom row. -/
theorem C61_roll (nelx nely : Nat) (hx : 0 < nelx) (hy : 0 < nely) (h : α) (nfine N : Nat) :
    ∃ M W ct x t c m map, FineLayer.new nelx nely h nfine = .ok M ∧ M.nhx.get [0] = .ok W ∧
      M.coor = .ok ct ∧ Is2 ct M.nnode 2 x ∧ M.conn = .ok t ∧ Is2 t M.nelem 4 c ∧
      M.roll N = .ok m ∧ Is1 m M.nelem map ∧
      PeriodicShift M.nelem nelx (N * W) h x c map := by
  obtain ⟨M, n, w, g, r, ct, x, t, c, h1, h2, h3, h4, e1, e2, e3, e4, e5, e6, e7⟩ := FineLayer.mesh nelx nely hy h nfine
  have hp := h3.pos
  obtain ⟨m, map, m1, m2, m3⟩ := roll_shift hx h3 h4 e7 N
  exact ⟨M, w (dist n 0), ct, x, t, c, m, map, h1, h4.nhx.get (by omega), e1, e2, e3, e4, m1, m2, m3⟩

end

/-- non-vacuity: a mesh with transition layers, rolled by one coarse element -/
example : ((FineLayer.new 9 13 (1 : Nat) 1).bind fun M => (M.roll 1).bind fun t =>
      .ok (M.nelem, (List.range 12).map (fun i => t.v [i]))) =
    .ok (75, [2, 0, 1, 11, 12, 13, 14, 3, 4, 5, 6, 7].map some) := by
  decide +kernel

end GF
