import Mathlib.Tactic.IntervalCases
import Verif.Lemmas.FineLayer2RegularNew
import Verif.Spec.FineLayer2Regular
import Verif.Spec.Element

namespace GF
open FineLayerSpec ElemSpec Finset
namespace FineLayer2Regular
open FineLayer
variable {α : Type}

theorem flatMap_single {ι β : Type} {l : List ι} (hl : l.Nodup) {a : ι} (ha : a ∈ l) {g : ι → List β}
    (h : ∀ x, x ∈ l → x ≠ a → g x = []) : l.flatMap g = g a := by
  induction l with
  | nil => simp at ha
  | cons y l ih =>
    rw [List.flatMap_cons]
    rw [List.nodup_cons] at hl
    by_cases hy : y = a
    · subst hy
      have : l.flatMap g = [] := by
        rw [List.flatMap_eq_nil_iff]
        intro x hx
        exact h x (by simp [hx]) (fun e => hl.1 (e ▸ hx))
      rw [this, List.append_nil]
    · rw [h y (by simp) hy, List.nil_append]
      refine ih hl.2 ?_ fun x hx => h x (by simp [hx])
      rcases List.mem_cons.1 ha with e | e
      · exact absurd e.symm hy
      · exact e

theorem filter_unique {β γ : Type} [DecidableEq γ] {l : List β} {pos : β → γ} (hl : (l.map pos).Nodup) {t : β} (ht : t ∈ l) :
    l.filter (fun s => pos s == pos t) = [t] := by
  induction l with
  | nil => simp at ht
  | cons y l ih =>
    rw [List.map_cons, List.nodup_cons] at hl
    by_cases hy : y = t
    · subst hy
      rw [List.filter_cons_of_pos (by simp)]
      congr 1
      rw [List.filter_eq_nil_iff]
      intro s hs
      simp only [beq_iff_eq]
      intro e
      exact hl.1 (List.mem_map.2 ⟨s, hs, e⟩)
    · have ht : t ∈ l := by
        rcases List.mem_cons.1 ht with e | e
        · exact absurd e.symm hy
        · exact e
      rw [List.filter_cons_of_neg, ih hl.2 ht]
      simp only [beq_iff_eq]
      intro e
      exact hl.1 (List.mem_map.2 ⟨t, ht, e.symm⟩)

section
variable [Field α] {nelx n : Nat} {W G : Nat → Nat} {R : Nat → Int}

theorem put_filter' {L : List (Nat × Nat × α)} (nx y0 x0 e e' : Nat) :
    (L.map (put nx y0 x0 e)).filter (fun t => t.1 == e') = if e = e' then L.map (put nx y0 x0 e) else [] := by
  rw [List.filter_map]
  by_cases h : e = e'
  · rw [if_pos h]
    congr 1
    rw [List.filter_eq_self]
    intro t _
    simp [put, h]
  · rw [if_neg h]
    rw [List.map_eq_nil_iff, List.filter_eq_nil_iff]
    intro t _
    simp [put, h]

/-- position of an element determines layer, block and number -/
theorem elem_inj (hL : Layers nelx n W G R) {i b q i' b' q' : Nat} (hi : i < 2 * n - 1) (hb : b < nelx / W i)
    (hq : q < (kindR n R i).tiles) (hi' : i' < 2 * n - 1) (hb' : b' < nelx / W i') (hq' : q' < (kindR n R i').tiles)
    (h : layS nelx W R i + b * (kindR n R i).tiles + q = layS nelx W R i' + b' * (kindR n R i').tiles + q') :
    i = i' ∧ b = b' ∧ q = q' := by
  have hE : ∀ i, i < 2 * n - 1 → layE nelx W R i = nelx / W i * (kindR n R i).tiles := by
    intro i hi
    have := layS_step hL hi
    rw [layS_succ] at this
    omega
  obtain ⟨e1, e2⟩ := block_inj (cnt := layE nelx W R) (i := i) (i' := i') (by rw [hE i hi]; exact grid_lt hb hq)
    (by rw [hE i' hi']; exact grid_lt hb' hq') (by simp only [layS] at h; omega)
  subst e1
  obtain ⟨e3, e4⟩ := grid_inj hq hq' e2
  exact ⟨rfl, e3, e4⟩

/-- the entries of one element -/
theorem entries (hL : Layers nelx n W G R) {i b q : Nat} (hi : i < 2 * n - 1) (hb : b < nelx / W i)
    (hq : q < (kindR n R i).tiles) :
    (allT nelx n W G R : List (Nat × Nat × α)).filter (fun t => t.1 == layS nelx W R i + b * (kindR n R i).tiles + q) =
      (tile (kindR n R i) (W i / (kindR n R i).cols) q).map
        (put nelx (height G i) (b * W i) (layS nelx W R i + b * (kindR n R i).tiles + q)) := by
  have main : ∀ i' b' q', i' < 2 * n - 1 → b' < nelx / W i' → q' < (kindR n R i').tiles → ¬ (i' = i ∧ b' = b ∧ q' = q) →
      ∀ (L : List (Nat × Nat × α)) y0 x0, (L.map (put nelx y0 x0 (layS nelx W R i' + b' * (kindR n R i').tiles + q'))).filter
        (fun t => t.1 == layS nelx W R i + b * (kindR n R i).tiles + q) = [] := by
    intro i' b' q' h1 h2 h3 h4 L y0 x0
    rw [put_filter', if_neg]
    intro h
    exact h4 (elem_inj hL h1 h2 h3 hi hb hq h)
  rw [allT, List.filter_flatMap, flatMap_single List.nodup_range (List.mem_range.2 hi), lay, List.filter_flatMap,
    flatMap_single List.nodup_range (List.mem_range.2 hb), blk, List.filter_flatMap,
    flatMap_single (order_nodup _) ((mem_order _).2 hq), put_filter', if_pos rfl]
  · intro q' h1 h2
    exact main i b q' hi hb ((mem_order _).1 h1) (by omega) _ _ _
  · intro b' h1 h2
    rw [blk, List.filter_flatMap, List.flatMap_eq_nil_iff]
    intro q' h3
    exact main i b' q' hi (List.mem_range.1 h1) ((mem_order _).1 h3) (by omega) _ _ _
  · intro i' h1 h2
    rw [lay, List.filter_flatMap, List.flatMap_eq_nil_iff]
    intro b' h3
    rw [blk, List.filter_flatMap, List.flatMap_eq_nil_iff]
    intro q' h4
    exact main i' b' q' (List.mem_range.1 h1) (List.mem_range.1 h3) ((mem_order _).1 h4) (by omega) _ _ _

theorem zip_map_self {β γ δ : Type} (L : List β) (f : β → γ) (g : β → δ) :
    (L.map f).zip (L.map g) = L.map fun t => (f t, g t) := by
  induction L with
  | nil => rfl
  | cons a L ih => simp [ih]

/-- the fraction of cell `(j, k)` of a block that is in element `q` -/
def frac (K : Kind) (u q j k : Nat) : α :=
  if j < u * K.rows ∧ lo K u q j ≤ k ∧ k < hi K u q j then if cut K u q j k then 1 / 2 else 1 else 0

/-- the cells are within the block -/
theorem hi_le (K : Kind) {u q j : Nat} (hq : q < K.tiles) (hj : j < u * K.rows) : hi K u q j ≤ u * K.cols := by
  cases K
  · simp [Kind.tiles] at hq; subst hq; simp [hi, Kind.cols]
  all_goals
    simp only [Kind.tiles, Kind.rows] at hq hj
    interval_cases q <;> simp only [hi, Kind.cols] <;> (try split_ifs) <;> omega

theorem tile_mem {K : Kind} {u q : Nat} {t : Nat × Nat × α} :
    t ∈ tile K u q ↔ t.1 < u * K.rows ∧ lo K u q t.1 ≤ t.2.1 ∧ t.2.1 < hi K u q t.1 ∧ t.2.2 = frac K u q t.1 t.2.1 := by
  rw [tile, mem_rows]
  constructor
  · rintro ⟨-, h1, h2, h3, h4⟩
    refine ⟨h1, h2, h3, ?_⟩
    rw [frac, if_pos ⟨h1, h2, h3⟩, h4]
  · rintro ⟨h1, h2, h3, h4⟩
    refine ⟨Nat.zero_le _, h1, h2, h3, ?_⟩
    rw [h4, frac, if_pos ⟨h1, h2, h3⟩]

/-- the fractions of the elements of a block add up to one, cell by cell -/
theorem frac_sum [CharZero α] (K : Kind) {u j k : Nat} (hj : j < u * K.rows) (hk : k < u * K.cols) :
    ∑ q ∈ range K.tiles, (frac K u q j k : α) = 1 := by
  have h2 : (1 / 2 + 1 / 2 : α) = 1 := by norm_num
  cases K
  · simp only [Kind.tiles, Kind.rows, Kind.cols, Nat.mul_one] at hj hk ⊢
    simp [frac, lo, hi, cut, Kind.rows, hj, hk]
  · simp only [Kind.rows, Kind.cols] at hj hk
    simp only [Kind.tiles, sum_range_succ, sum_range_zero, zero_add, frac, Kind.rows, hj, true_and, lo, hi, cut]
    by_cases c1 : j < u
    · simp only [c1, if_true, true_and]
      rcases Nat.lt_trichotomy k j with c | c | c
      · rw [if_neg (by omega), if_neg (by omega), if_neg (by omega), if_pos (by omega), if_neg (by omega)]; simp
      · rw [if_pos (by omega), if_pos (by omega), if_neg (by omega), if_neg (by omega), if_pos (by omega), if_pos (by omega)]; simpa using h2
      · rcases Nat.lt_trichotomy (k + 1) (3 * u - j) with c' | c' | c'
        · rw [if_pos (by omega), if_neg (by omega), if_neg (by omega), if_neg (by omega), if_neg (by omega)]; simp
        · rw [if_pos (by omega), if_pos (by omega), if_pos (by omega), if_pos (by omega), if_neg (by omega), if_neg (by omega)]; simpa using h2
        · rw [if_neg (by omega), if_pos (by omega), if_neg (by omega), if_neg (by omega), if_neg (by omega)]; simp
    · simp only [c1, if_false, false_and]
      rw [if_neg (by omega)]
      by_cases c2 : k < u
      · rw [if_neg (by omega), if_neg (by omega), if_pos (by omega)]; simp
      · by_cases c3 : k < 2 * u
        · rw [if_neg (by omega), if_pos (by omega), if_neg (by omega)]; simp
        · rw [if_pos (by omega), if_neg (by omega), if_neg (by omega)]; simp
  · simp only [Kind.rows, Kind.cols] at hj hk
    simp only [Kind.tiles, sum_range_succ, sum_range_zero, zero_add, frac, Kind.rows, hj, true_and, lo, hi, cut]
    by_cases c1 : j < u
    · simp only [c1, if_true, show ¬ u ≤ j by omega, false_and, if_false]
      by_cases c2 : k < u
      · rw [if_pos (by omega), if_neg (by omega), if_neg (by omega), if_neg (by omega)]; simp
      · by_cases c3 : k < 2 * u
        · rw [if_neg (by omega), if_pos (by omega), if_neg (by omega), if_neg (by omega)]; simp
        · rw [if_neg (by omega), if_neg (by omega), if_pos (by omega), if_neg (by omega)]; simp
    · simp only [c1, if_false, show u ≤ j by omega, true_and]
      rcases Nat.lt_trichotomy (k + 1) (2 * u - j) with c | c | c
      · rw [if_pos (by omega), if_neg (by omega), if_neg (by omega), if_neg (by omega), if_neg (by omega)]; simp
      · rw [if_pos (by omega), if_pos (by omega), if_neg (by omega), if_neg (by omega), if_pos (by omega), if_pos (by omega)]; simpa using h2
      · rcases Nat.lt_trichotomy k (u + j) with c' | c' | c'
        · rw [if_neg (by omega), if_neg (by omega), if_neg (by omega), if_pos (by omega), if_neg (by omega)]; simp
        · rw [if_neg (by omega), if_neg (by omega), if_pos (by omega), if_pos (by omega), if_pos (by omega), if_pos (by omega)]; simpa using h2
        · rw [if_neg (by omega), if_neg (by omega), if_pos (by omega), if_neg (by omega), if_neg (by omega)]; simp

end
end FineLayer2Regular
end GF
