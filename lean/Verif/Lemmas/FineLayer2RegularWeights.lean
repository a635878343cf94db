import Verif.Lemmas.FineLayer2RegularGeom
import Verif.Lemmas.RefineRegular
import Verif.Lemmas.Element
import Mathlib.Algebra.BigOperators.Intervals
import Mathlib.Order.Interval.Finset.Nat

namespace GF
open FineLayerSpec ElemSpec Finset
namespace FineLayer2Regular
open FineLayer
variable {α : Type}

section
variable [Field α] {nelx n : Nat} {W G : Nat → Nat} {R : Nat → Int}

/-- number of the cell in the regular mesh -/
def cellNo (nx y0 x0 : Nat) (t : Nat × Nat × α) : Nat := (y0 + t.1) * nx + (x0 + t.2.1)

theorem lists (hL : Layers nelx n W G R) {N : Nat} {S : FLMap α} (hS : St N (allT nelx n W G R) S) {i b q : Nat}
    (hi : i < 2 * n - 1) (hb : b < nelx / W i) (hq : q < (kindR n R i).tiles)
    (hN : layS nelx W R i + b * (kindR n R i).tiles + q < N) :
    S.elem[layS nelx W R i + b * (kindR n R i).tiles + q]? =
      some ((tile (kindR n R i) (W i / (kindR n R i).cols) q : List (Nat × Nat × α)).map (cellNo nelx (height G i) (b * W i))) ∧
    S.frac[layS nelx W R i + b * (kindR n R i).tiles + q]? =
      some ((tile (kindR n R i) (W i / (kindR n R i).cols) q).map (·.2.2)) := by
  obtain ⟨h1, h2⟩ := hS.2.2 _ hN
  rw [entries hL hi hb hq, List.map_map] at h1 h2
  exact ⟨h1, h2⟩

theorem cell_nodup {K : Kind} {u q nx y0 x0 : Nat} (hq : q < K.tiles) (hx : x0 + u * K.cols ≤ nx) :
    ((tile K u q : List (Nat × Nat × α)).map (cellNo nx y0 x0)).Nodup := by
  have h1 : (tile K u q : List (Nat × Nat × α)).map (cellNo nx y0 x0) =
      ((tile K u q : List (Nat × Nat × α)).map fun t => (t.1, t.2.1)).map fun p => (y0 + p.1) * nx + (x0 + p.2) := by
    rw [List.map_map]; rfl
  rw [h1]
  refine List.Nodup.map_on ?_ rows_nodup
  intro p hp p' hp' he
  obtain ⟨t, ht, rfl⟩ := List.mem_map.1 hp
  obtain ⟨t', ht', rfl⟩ := List.mem_map.1 hp'
  obtain ⟨m1, m2, m3, -⟩ := tile_mem.1 ht
  obtain ⟨m1', m2', m3', -⟩ := tile_mem.1 ht'
  have b1 := hi_le K hq m1
  have b2 := hi_le K hq m1'
  obtain ⟨e1, e2⟩ := grid_inj (by omega) (by omega) he
  simp only [Prod.mk.injEq]
  omega

/-- the fraction of cell `(r, c)` of the regular mesh in element `q` of block `b` of layer `i` -/
def cellFrac (n : Nat) (W G : Nat → Nat) (R : Nat → Int) (i b q r c : Nat) : α :=
  if height G i ≤ r ∧ r < height G (i + 1) ∧ b * W i ≤ c ∧ c < (b + 1) * W i then
    frac (kindR n R i) (W i / (kindR n R i).cols) q (r - height G i) (c - b * W i)
  else 0

theorem block_fit (hL : Layers nelx n W G R) {i b : Nat} (hi : i < 2 * n - 1) (hb : b < nelx / W i) :
    (b + 1) * W i ≤ nelx ∧ W i = W i / (kindR n R i).cols * (kindR n R i).cols ∧
      G i = W i / (kindR n R i).cols * (kindR n R i).rows := by
  obtain ⟨-, u2, u3⟩ := unit_spec hL hi
  refine ⟨?_, u2, u3⟩
  calc (b + 1) * W i ≤ nelx / W i * W i := Nat.mul_le_mul_right _ hb
    _ = nelx := hL.nelx_eq hi

theorem mem_entry (hL : Layers nelx n W G R) {i b q : Nat} (hi : i < 2 * n - 1) (hb : b < nelx / W i)
    (hq : q < (kindR n R i).tiles) {r c : Nat} (hc : c < nelx) {f : α} [CharZero α] :
    (r * nelx + c, f) ∈ (tile (kindR n R i) (W i / (kindR n R i).cols) q).map
        (fun t => (cellNo nelx (height G i) (b * W i) t, t.2.2)) ↔ f ≠ 0 ∧ f = cellFrac n W G R i b q r c := by
  obtain ⟨f1, f2, f3⟩ := block_fit hL hi hb
  rw [Nat.add_mul, Nat.one_mul] at f1
  have hs := height_succ G i
  have h12 : (1 / 2 : α) ≠ 0 := by norm_num
  set u := W i / (kindR n R i).cols with hu
  rw [List.mem_map]
  constructor
  · rintro ⟨t, ht, he⟩
    obtain ⟨m1, m2, m3, m4⟩ := tile_mem.1 ht
    have b1 := hi_le (kindR n R i) hq m1
    simp only [Prod.mk.injEq, cellNo] at he
    obtain ⟨e1, rfl⟩ := he
    obtain ⟨rfl, rfl⟩ := grid_inj (by omega) hc e1
    have e2 : cellFrac n W G R i b q (height G i + t.1) (b * W i + t.2.1) = (frac (kindR n R i) u q t.1 t.2.1 : α) := by
      rw [cellFrac, if_pos ⟨by omega, by omega, by omega, by rw [Nat.add_mul, Nat.one_mul]; omega⟩,
        Nat.add_sub_cancel_left, Nat.add_sub_cancel_left]
    rw [e2, m4]
    refine ⟨?_, rfl⟩
    rw [frac, if_pos ⟨m1, m2, m3⟩]
    split
    · exact h12
    · exact one_ne_zero
  · rintro ⟨h1, h2⟩
    rw [h2] at h1
    unfold cellFrac at h1 h2
    split at h1
    · rename_i hr
      rw [if_pos hr] at h2
      refine ⟨(r - height G i, c - b * W i, f), ?_, ?_⟩
      · rw [tile_mem]
        simp only
        unfold frac at h1
        split at h1
        · rename_i hm
          exact ⟨hm.1, hm.2.1, hm.2.2, h2⟩
        · exact absurd rfl h1
      · simp only [cellNo, Prod.mk.injEq, and_true]
        rw [show height G i + (r - height G i) = r by omega, show b * W i + (c - b * W i) = c by omega]
    · exact absurd rfl h1

theorem weight_eq (hL : Layers nelx n W G R) {i b q : Nat} (hi : i < 2 * n - 1) (hb : b < nelx / W i)
    (hq : q < (kindR n R i).tiles) {r c : Nat} (hc : c < nelx) [CharZero α] :
    ((((tile (kindR n R i) (W i / (kindR n R i).cols) q).map
        (fun t => (cellNo nelx (height G i) (b * W i) t, t.2.2))).filter (fun p => p.1 == r * nelx + c)).map (·.2)).sum =
      (cellFrac n W G R i b q r c : α) := by
  obtain ⟨f1, f2, f3⟩ := block_fit hL hi hb
  by_cases h : (cellFrac n W G R i b q r c : α) = 0
  · rw [h]
    rw [List.filter_eq_nil_iff.2]
    · rfl
    · rintro ⟨k, f⟩ hp
      simp only [beq_iff_eq]
      rintro rfl
      obtain ⟨g1, g2⟩ := (mem_entry hL hi hb hq hc).1 hp
      exact g1 (g2.trans h)
  · have hm := (mem_entry hL hi hb hq hc (f := cellFrac n W G R i b q r c)).2 ⟨h, rfl⟩
    have hn : (((tile (kindR n R i) (W i / (kindR n R i).cols) q).map
        (fun t => (cellNo nelx (height G i) (b * W i) t, (t.2.2 : α)))).map (·.1)).Nodup := by
      rw [List.map_map]
      exact cell_nodup hq (by rw [Nat.add_mul, Nat.one_mul] at f1; omega)
    have := filter_unique hn hm
    simp only at this
    rw [this]
    simp

end

section area
variable [Field α] [CharZero α]

theorem row_full (a b : Nat) (hab : a ≤ b) : ∑ _k ∈ Ico a b, (1 : α) = (b : α) - (a : α) := by
  rw [sum_const, Nat.card_Ico, nsmul_eq_mul, mul_one, Nat.cast_sub hab]

theorem row_one {a b c : Nat} (h1 : a ≤ c) (h2 : c < b) {P : Nat → Prop} [DecidablePred P] (hP : ∀ k, a ≤ k → k < b → (P k ↔ k = c)) :
    ∑ k ∈ Ico a b, (if P k then 1 / 2 else 1 : α) = (b : α) - (a : α) - 1 / 2 := by
  have : ∑ k ∈ Ico a b, (if P k then 1 / 2 else 1 : α) = ∑ k ∈ Ico a b, ((1 : α) - if k = c then 1 / 2 else 0) := by
    refine sum_congr rfl fun k hk => ?_
    rw [mem_Ico] at hk
    by_cases hc : k = c
    · rw [if_pos ((hP k hk.1 hk.2).2 hc), if_pos hc]; norm_num
    · rw [if_neg (fun h => hc ((hP k hk.1 hk.2).1 h)), if_neg hc, sub_zero]
  rw [this, sum_sub_distrib, row_full a b (by omega), sum_ite_eq', if_pos (mem_Ico.2 ⟨h1, h2⟩)]

theorem row_two {a b c d : Nat} (h1 : a ≤ c) (h2 : c < b) (h3 : a ≤ d) (h4 : d < b) (hcd : c ≠ d) {P : Nat → Prop} [DecidablePred P]
    (hP : ∀ k, a ≤ k → k < b → (P k ↔ k = c ∨ k = d)) :
    ∑ k ∈ Ico a b, (if P k then 1 / 2 else 1 : α) = (b : α) - (a : α) - 1 := by
  have : ∑ k ∈ Ico a b, (if P k then 1 / 2 else 1 : α) =
      ∑ k ∈ Ico a b, ((1 : α) - (if k = c then 1 / 2 else 0) - if k = d then 1 / 2 else 0) := by
    refine sum_congr rfl fun k hk => ?_
    rw [mem_Ico] at hk
    by_cases hc : k = c
    · rw [if_pos ((hP k hk.1 hk.2).2 (Or.inl hc)), if_pos hc, if_neg (by omega)]; norm_num
    · by_cases hd : k = d
      · rw [if_pos ((hP k hk.1 hk.2).2 (Or.inr hd)), if_pos hd, if_neg hc]; norm_num
      · rw [if_neg (fun h => by rcases (hP k hk.1 hk.2).1 h with h | h <;> contradiction), if_neg hc, if_neg hd, sub_zero, sub_zero]
  rw [this, sum_sub_distrib, sum_sub_distrib, row_full a b (by omega), sum_ite_eq', if_pos (mem_Ico.2 ⟨h1, h2⟩), sum_ite_eq',
    if_pos (mem_Ico.2 ⟨h3, h4⟩)]
  rw [sub_sub, show (1 / 2 + 1 / 2 : α) = 1 by norm_num]

/-- the sum of the fractions of one element, row by row -/
theorem tile_sum (K : Kind) (u q : Nat) : ((tile K u q : List (Nat × Nat × α)).map (·.2.2)).sum =
    ∑ j ∈ range (u * K.rows), ∑ k ∈ Ico (lo K u q j) (hi K u q j), (if cut K u q j k then 1 / 2 else 1 : α) := by
  rw [tile, rows, itFrom_zero, List.map_flatMap]
  simp only [List.map_map]
  rw [← sum_it1, it1, List.flatMap_def, List.sum_flatten, List.map_map]
  congr 1

theorem sum_odd (u : Nat) : ∑ j ∈ range u, ((j : α) + 1 / 2) = (u : α) * u / 2 := by
  induction u with
  | zero => simp
  | succ u ih => rw [sum_range_succ, ih]; push_cast; field_simp; ring

theorem sum_trap (u : Nat) : ∑ j ∈ range u, (3 * (u : α) - 2 * (j : α) - 1) = 2 * (u : α) * u := by
  have : ∀ m, ∑ j ∈ range m, (3 * (u : α) - 2 * (j : α) - 1) = 3 * (u : α) * m - (m : α) * m := by
    intro m
    induction m with
    | zero => simp
    | succ m ih => rw [sum_range_succ, ih]; push_cast; ring
  rw [this]; ring

theorem sum_trap' (u : Nat) : ∑ j ∈ range u, ((u : α) + 2 * (j : α) + 1) = 2 * (u : α) * u := by
  have : ∀ m, ∑ j ∈ range m, ((u : α) + 2 * (j : α) + 1) = (u : α) * m + (m : α) * m := by
    intro m
    induction m with
    | zero => simp
    | succ m ih => rw [sum_range_succ, ih]; push_cast; ring
  rw [this]; ring

theorem sum_odd' (u : Nat) : ∑ j ∈ range u, ((u : α) - (j : α) - 1 / 2) = (u : α) * u / 2 := by
  have := sum_odd (α := α) u
  have h2 : ∑ j ∈ range u, ((u : α) - (j : α) - 1 / 2) + ∑ j ∈ range u, ((j : α) + 1 / 2) = (u : α) * u := by
    rw [← sum_add_distrib]
    simp
  rw [this] at h2
  linear_combination h2

/-- area of element `q` in units -/
def tileArea (K : Kind) (q : Nat) : α :=
  match K, q with
  | .normal, _ => 1
  | .below, 0 => 2
  | .below, 2 => 1
  | .below, _ => 3 / 2
  | .above, 1 => 1
  | .above, 3 => 2
  | .above, _ => 3 / 2

theorem sum_two {u : Nat} {A B f g : Nat → α} {a b r : α} (hA : ∀ j ∈ range u, A j = f j) (hB : ∀ j ∈ range u, B j = g j)
    (hf : ∑ j ∈ range u, f j = a) (hg : ∑ j ∈ range u, g j = b) (hr : a + b = r) :
    ∑ j ∈ range u, A j + ∑ j ∈ range u, B j = r := by
  rw [sum_congr rfl hA, sum_congr rfl hB, hf, hg, hr]

theorem tile_area (K : Kind) {u q : Nat} (hq : q < K.tiles) :
    ((tile K u q : List (Nat × Nat × α)).map (·.2.2)).sum = tileArea K q * ((u : α) * u) := by
  rw [tile_sum]
  have const : ∀ c : α, ∑ _j ∈ range u, c = u * c := fun c => by rw [sum_const, card_range, nsmul_eq_mul]
  cases K
  · simp only [Kind.tiles] at hq
    interval_cases q
    simp [lo, hi, cut, Kind.rows, tileArea]
  · simp only [Kind.tiles] at hq
    simp only [Kind.rows]
    rw [show u * 2 = u + u by omega, sum_range_add]
    interval_cases q
    · refine sum_two (f := fun j => 3 * (u : α) - 2 * (j : α) - 1) (g := fun _ => (0 : α)) ?_ ?_ (sum_trap u) (const _) (by simp only [tileArea]; ring)
      rotate_left
      · intro j hj; simp [lo, hi]
      · intro j hj
        rw [mem_range] at hj
        simp only [lo, hi, cut, hj, if_true]
        rw [row_two (c := j) (d := 3 * u - j - 1) (by omega) (by omega) (by omega) (by omega) (by omega) (fun k _ _ => by omega),
          Nat.cast_sub (by omega)]
        push_cast; ring
    · refine sum_two (f := fun j => (j : α) + 1 / 2) (g := fun _ => (u : α)) ?_ ?_ (sum_odd u) (const _) (by simp only [tileArea]; ring)
      rotate_left
      · intro j hj
        simp only [lo, hi, cut, show ¬ u + j < u by omega, if_false, false_and]
        rw [row_full _ _ (by omega)]; push_cast; ring
      · intro j hj
        rw [mem_range] at hj
        simp only [lo, hi, cut, hj, if_true, true_and]
        rw [row_one (c := 3 * u - j - 1) (by omega) (by omega) (fun k _ _ => by omega),
          Nat.sub_sub, Nat.cast_sub (by omega)]
        push_cast; ring
    · refine sum_two (f := fun _ => (0 : α)) (g := fun _ => (u : α)) ?_ ?_ (const _) (const _) (by simp only [tileArea]; ring)
      rotate_left
      · intro j hj
        simp only [lo, hi, cut, show ¬ u + j < u by omega, if_false]
        rw [row_full _ _ (by omega)]; push_cast; ring
      · intro j hj
        rw [mem_range] at hj
        simp [lo, hi, hj]
    · refine sum_two (f := fun j => (j : α) + 1 / 2) (g := fun _ => (u : α)) ?_ ?_ (sum_odd u) (const _) (by simp only [tileArea]; ring)
      rotate_left
      · intro j hj
        simp only [lo, hi, cut, show ¬ u + j < u by omega, if_false, false_and]
        rw [row_full _ _ (by omega)]; push_cast; ring
      · intro j hj
        rw [mem_range] at hj
        simp only [lo, hi, cut, hj, if_true, true_and]
        rw [row_one (c := j) (by omega) (by omega) (fun k _ _ => by omega)]
        push_cast; ring
  · simp only [Kind.tiles] at hq
    simp only [Kind.rows]
    rw [show u * 2 = u + u by omega, sum_range_add]
    interval_cases q
    · refine sum_two (f := fun _ => (u : α)) (g := fun j => (u : α) - (j : α) - 1 / 2) ?_ ?_ (const _) (sum_odd' u) (by simp only [tileArea]; ring)
      rotate_left
      · intro j hj
        rw [mem_range] at hj
        simp only [lo, hi, cut, show ¬ u + j < u by omega, if_false, show u ≤ u + j by omega, true_and]
        rw [row_one (c := u - j - 1) (by omega) (by omega) (fun k _ _ => by omega), Nat.cast_sub (by omega)]
        push_cast; ring
      · intro j hj
        rw [mem_range] at hj
        simp only [lo, hi, cut, hj, if_true, show ¬ u ≤ j by omega, false_and, if_false]
        rw [row_full _ _ (by omega)]; push_cast; ring
    · refine sum_two (f := fun _ => (u : α)) (g := fun _ => (0 : α)) ?_ ?_ (const _) (const _) (by simp only [tileArea]; ring)
      rotate_left
      · intro j hj; simp [lo, hi]
      · intro j hj
        rw [mem_range] at hj
        simp only [lo, hi, cut, hj, if_true, if_false]
        rw [row_full _ _ (by omega)]; push_cast; ring
    · refine sum_two (f := fun _ => (u : α)) (g := fun j => (u : α) - (j : α) - 1 / 2) ?_ ?_ (const _) (sum_odd' u) (by simp only [tileArea]; ring)
      rotate_left
      · intro j hj
        rw [mem_range] at hj
        simp only [lo, hi, cut, show ¬ u + j < u by omega, if_false, show u ≤ u + j by omega, true_and]
        rw [row_one (c := u + (u + j)) (by omega) (by omega) (fun k _ _ => by omega)]
        push_cast; ring
      · intro j hj
        rw [mem_range] at hj
        simp only [lo, hi, cut, hj, if_true, show ¬ u ≤ j by omega, false_and, if_false]
        rw [row_full _ _ (by omega)]; push_cast; ring
    · refine sum_two (f := fun _ => (0 : α)) (g := fun j => (u : α) + 2 * (j : α) + 1) ?_ ?_ (const _) (sum_trap' u) (by simp only [tileArea]; ring)
      rotate_left
      · intro j hj
        rw [mem_range] at hj
        simp only [lo, hi, cut, show ¬ u + j < u by omega, if_false]
        rw [row_two (c := 2 * u - 1 - (u + j)) (d := u + (u + j)) (by omega) (by omega) (by omega) (by omega) (by omega) (fun k _ _ => by omega),
          show 2 * u - 1 - (u + j) = u - (j + 1) by omega, Nat.cast_sub (by omega)]
        push_cast; ring
      · intro j hj
        rw [mem_range] at hj
        simp [lo, hi, hj]

end area

theorem indices_nodup (sh : List Nat) : (indices sh).Nodup := by
  induction sh with
  | nil => simp [indices]
  | cons n sh ih =>
    rw [indices, List.nodup_flatMap]
    refine ⟨fun i _ => ih.map (fun a b h => by simpa using h), ?_⟩
    refine List.Pairwise.imp ?_ (List.nodup_range (n := n))
    intro a b hab x hx hy
    obtain ⟨x', -, rfl⟩ := List.mem_map.1 hx
    obtain ⟨y', -, h⟩ := List.mem_map.1 hy
    exact hab (by simpa using (List.cons.inj h).1.symm)

theorem sum_single {ι : Type} [DecidableEq ι] [Field α] {l : List ι} (hl : l.Nodup) {a : ι} (ha : a ∈ l) (c : α) :
    (l.map fun x => if x = a then c else 0).sum = c := by
  induction l with
  | nil => simp at ha
  | cons y l ih =>
    rw [List.nodup_cons] at hl
    rw [List.map_cons, List.sum_cons]
    by_cases hy : y = a
    · subst hy
      rw [if_pos rfl, List.map_congr_left (g := fun _ => (0 : α)), List.map_const', List.sum_replicate, smul_zero, add_zero]
      intro x hx
      exact if_neg (fun h : x = y => hl.1 (h ▸ hx))
    · rw [if_neg hy, zero_add]
      exact ih hl.2 (by simpa [Ne.symm hy] using ha)

theorem weight_sum [Field α] {E : List Nat} {P : List α} (h : E.length = P.length) {k : Nat} :
    ∑ i ∈ range E.length, (if E.getD i 0 = k then P.getD i 0 else 0) =
      (((E.zip P).filter (fun p => p.1 == k)).map (·.2)).sum := by
  induction E generalizing P with
  | nil => simp
  | cons a E ih =>
    cases P with
    | nil => simp at h
    | cons b P =>
      rw [List.length_cons, sum_range_succ']
      simp only [List.getD_cons_succ, List.getD_cons_zero, List.zip_cons_cons]
      rw [ih (by simpa using h)]
      by_cases c : a = k
      · rw [if_pos c, List.filter_cons_of_pos (by simpa using c), List.map_cons, List.sum_cons, add_comm]
      · rw [if_neg c, List.filter_cons_of_neg (by simpa using c), add_zero]

theorem weights_total [Field α] {L : List (Nat × α)} {m : Nat} (h : ∀ p, p ∈ L → p.1 < m) :
    ∑ k ∈ range m, ((L.filter (fun p => p.1 == k)).map (·.2)).sum = (L.map (·.2)).sum := by
  induction L with
  | nil => simp
  | cons a L ih =>
    rw [List.map_cons, List.sum_cons, ← ih fun p hp => h p (List.mem_cons_of_mem _ hp)]
    have : ∀ k, (((a :: L).filter (fun p => p.1 == k)).map (·.2)).sum =
        (if a.1 = k then a.2 else 0) + ((L.filter (fun p => p.1 == k)).map (·.2)).sum := by
      intro k
      by_cases c : a.1 = k
      · rw [if_pos c, List.filter_cons_of_pos (by simpa using c), List.map_cons, List.sum_cons]
      · rw [if_neg c, List.filter_cons_of_neg (by simpa using c), zero_add]
    rw [sum_congr rfl fun k _ => this k, sum_add_distrib, sum_ite_eq, if_pos (mem_range.2 (h a (List.mem_cons_self ..)))]

/-- `mapToRegular` in terms of the weights -/
theorem mapToRegular_ok [Field α] {F : FineLayer2Regular α} {N nR : Nat} (hN : F.finelayer.nelem = N) (hR : F.regular.nelem = nR)
    {E : Nat → List Nat} {P : Nat → List α}
    (hm : ∀ e, e < N → F.map.elem[e]? = some (E e) ∧ F.map.frac[e]? = some (P e) ∧ (E e).length = (P e).length ∧
      ∀ k, k ∈ E e → k < nR)
    {data : Ten α} {rest : List Nat} {d : List Nat → α} (hs : data.shape = N :: rest) (hd : Full data d) :
    ∃ y, F.mapToRegular data = .ok y ∧ y.shape = nR :: rest ∧
      ∀ k ix, k < nR → inb rest ix = true → y.v (k :: ix) = some (∑ e ∈ range N, mapWeight F.map.elem F.map.frac e k * d (e :: ix)) := by
  have hall : IsAdds (nR :: rest) (forEach (it1 N) (fun ret e => do
      let le ← lget F.map.elem e
      forEach (it1 le.length) (fun ret i => do
        let k ← lget le i
        let lf ← lget F.map.frac e
        let f ← lget lf i
        forEach (indices rest) (fun ret ix => do
          let d ← data.get (e :: ix)
          ret.addAt (k :: ix) (f * d)) ret) ret))
      ((it1 N).flatMap fun e => (it1 (E e).length).flatMap fun i => (indices rest).flatMap fun ix =>
        [((E e).getD i 0 :: ix, (P e).getD i 0 * d (e :: ix))]) := by
    refine isAdds_loop _ _ _ fun e he => ?_
    have he := mem_it1.1 he
    obtain ⟨h1, h2, h3, h4⟩ := hm e he
    simp only [lget_eq h1, lget_eq h2, Res.ok_bind]
    refine isAdds_loop _ _ (fun i => (indices rest).flatMap fun ix =>
        [((E e).getD i 0 :: ix, (P e).getD i 0 * d (e :: ix))]) fun i hi => ?_
    have hi := mem_it1.1 hi
    have g1 : (E e)[i]? = some ((E e).getD i 0) := by rw [List.getElem?_eq_getElem hi]; simp [hi]
    have g2 : (P e)[i]? = some ((P e).getD i 0) := by
      rw [List.getElem?_eq_getElem (by omega)]; simp [show i < (P e).length by omega]
    simp only [lget_eq g1, lget_eq g2, Res.ok_bind]
    refine isAdds_loop _ _ (fun ix => [((E e).getD i 0 :: ix, (P e).getD i 0 * d (e :: ix))]) fun ix hix =>
      isAdds_one _ _ _ _ fun s hs' => ?_
    have := mem_indices.1 hix
    rw [RefineRegular.get_full hd (by rw [hs]; simp [inb, he, this]), Res.ok_bind]
  obtain ⟨y, y1, y2, y3⟩ := hall.spec (by
    intro st hst
    simp only [List.mem_flatMap, List.mem_singleton] at hst
    obtain ⟨e, he, i, hi, ix, hix, rfl⟩ := hst
    obtain ⟨h1, h2, h3, h4⟩ := hm e (mem_it1.1 he)
    have hi := mem_it1.1 hi
    have : (E e).getD i 0 < nR := by
      refine h4 _ ?_
      simp [hi]
    simp only [inb, Bool.and_eq_true, decide_eq_true_eq]
    exact ⟨this, mem_indices.1 hix⟩)
  refine ⟨y, ?_, y2, fun k ix hk hix => ?_⟩
  · unfold mapToRegular
    rw [hs, hN, hR]
    exact y1
  · rw [y3 (k :: ix) (by simp [inb, hk, hix])]
    congr 1
    rw [sum_map_flatMap, sum_it1]
    refine sum_congr rfl fun e he => ?_
    obtain ⟨h1, h2, h3, h4⟩ := hm e (mem_range.1 he)
    have hpick : ∀ (a : Nat) (b : List Nat → α), (((indices rest).flatMap fun ix' => [(a :: ix', b ix')]).map
        fun st => if st.1 = k :: ix then st.2 else 0).sum = if a = k then b ix else 0 := by
      intro a b
      rw [sum_map_flatMap]
      have : ∀ ix', (([(a :: ix', b ix')] : List (List Nat × α)).map fun st => if st.1 = k :: ix then st.2 else 0).sum =
          if ix' = ix then (if a = k then b ix else 0) else 0 := by
        intro ix'
        simp only [List.map_cons, List.map_nil, List.sum_cons, List.sum_nil, add_zero, List.cons.injEq]
        by_cases c1 : ix' = ix
        · subst c1; simp
        · simp [c1]
      rw [List.map_congr_left fun ix' _ => this ix']
      exact sum_single (indices_nodup rest) (mem_indices.2 hix) _
    rw [sum_map_flatMap]
    simp only [hpick]
    rw [mapWeight, List.getD_eq_getElem?_getD, List.getD_eq_getElem?_getD, h1, h2, Option.getD_some, Option.getD_some,
      ← weight_sum h3, Finset.sum_mul, sum_it1]
    refine sum_congr rfl fun i _ => ?_
    by_cases c : (E e).getD i 0 = k
    · rw [if_pos c, if_pos c]
    · rw [if_neg c, if_neg c, zero_mul]

end FineLayer2Regular
end GF
