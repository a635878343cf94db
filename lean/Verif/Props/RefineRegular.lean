import Verif.Lemmas.RefineRegular
import Verif.Props.MeshRegular2d
import Mathlib.Algebra.Order.Field.Basic
import Mathlib.Tactic.Positivity
import Mathlib.Tactic.Linarith
import Mathlib.Algebra.BigOperators.Field

/-! C40: `RefineRegular`. -/

namespace GF
open Finset RefineRegular
variable {α : Type}

/-- a map from `nc` coarse elements, `n` fine elements each, to the fine elements `0 .. nf - 1`: every fine element belongs
to exactly one coarse element and is listed once -/
structure IsPartition (nc n nf : Nat) (T : Nat → Nat → Nat) : Prop where
  valid : ∀ e k, e < nc → k < n → T e k < nf
  all : ∀ f, f < nf → ∃ e k, e < nc ∧ k < n ∧ T e k = f
  once : ∀ e k e' k', e < nc → k < n → e' < nc → k' < n → T e k = T e' k' → e = e' ∧ k = k'

/-- **C40** (construction) for every regular mesh and all `nx`, `ny` the constructor succeeds; the map `map()` divides the
elements of `fineMesh()` in blocks of `nx * ny` elements, one for each element of `coarseMesh()`. -/
theorem C40_partition (nelx nely nx ny : Nat) (h : α) :
    IsOk (RefineRegular.new (Quad4.Regular.new nelx nely h) nx ny) fun R =>
      R.coarse.nelem = nelx * nely ∧ R.fine.nelem = nx * ny * (nelx * nely) ∧
      ∃ T, Is2 R.c2f R.coarse.nelem (nx * ny) T ∧ IsPartition R.coarse.nelem (nx * ny) R.fine.nelem T := by
  obtain ⟨R, h1, h2, h3, -, -, h6⟩ := new_ok nelx nely nx ny h
  obtain ⟨b1, b2, b3⟩ := fineOf_bij (nelx := nelx) (nely := nely) (nx := nx) (ny := ny)
  have e1 : R.coarse.nelem = nelx * nely := by rw [h2]; rfl
  have e2 : R.fine.nelem = nx * nelx * (ny * nely) := by rw [h3]; rfl
  refine ⟨R, h1, e1, by rw [e2]; ring, _, by rw [e1]; exact h6, ?_⟩
  rw [e1, e2]
  exact ⟨b1, b2, b3⟩

theorem regular_nodes [Field α] [CharZero α] (nelx nely : Nat) (h : α) :
    ∃ c x t C, (Quad4.Regular.new nelx nely h).coor = .ok c ∧ Is2 c ((nelx + 1) * (nely + 1)) 2 x ∧
      Quad4.Regular.conn (Quad4.Regular.new nelx nely h) = .ok t ∧ Is2 t (nelx * nely) 4 C ∧
      ∀ i j m, i < nely → j < nelx → m < 4 →
        x (C (i * nelx + j) m) 0 = h * ((j + if m = 1 ∨ m = 2 then 1 else 0 : Nat) : α) ∧
        x (C (i * nelx + j) m) 1 = h * ((i + if m = 2 ∨ m = 3 then 1 else 0 : Nat) : α) := by
  obtain ⟨c, h1, h2⟩ := (Quad4.Regular.new nelx nely h).coor_spec rfl rfl
  obtain ⟨t, h3, h4⟩ := Quad4.Regular.conn_spec nelx nely h
  refine ⟨c, _, t, _, h1, h2, h3, h4, fun i j m hi hj hm => ?_⟩
  dsimp only
  rw [grid_div hj, grid_mod hj]
  obtain rfl | rfl | rfl | rfl : m = 0 ∨ m = 1 ∨ m = 2 ∨ m = 3 := by omega
  · exact gridCoor_node h (nelx := nelx) (i := i) (j := j) (by omega)
  · exact gridCoor_node h (nelx := nelx) (i := i) (j := j + 1) (by omega)
  · exact gridCoor_node h (nelx := nelx) (i := i + 1) (j := j + 1) (by omega)
  · exact gridCoor_node h (nelx := nelx) (i := i + 1) (j := j) (by omega)

/-- **C40** (geometry) the fine elements of coarse element `e` lie in the rectangle covered by `e`, provided that the
coordinates of the coarse mesh are multiplied by `nx` and `ny` (see `C40_fine_scaled`).  Here corner 0 is the lower left,
and corner 2 the upper right corner of the coarse element. -/
theorem C40_contained [Field α] [LinearOrder α] [IsStrictOrderedRing α] (nelx nely nx ny : Nat) {h : α} (hh : 0 ≤ h) :
    ∃ R T c x t C c' x' t' C', RefineRegular.new (Quad4.Regular.new nelx nely h) nx ny = .ok R ∧
      Is2 R.c2f (nelx * nely) (nx * ny) T ∧
      R.coarse.coor = .ok c ∧ Is2 c R.coarse.nnode 2 x ∧
      Quad4.Regular.conn R.coarse = .ok t ∧ Is2 t R.coarse.nelem 4 C ∧
      R.fine.coor = .ok c' ∧ Is2 c' R.fine.nnode 2 x' ∧
      Quad4.Regular.conn R.fine = .ok t' ∧ Is2 t' R.fine.nelem 4 C' ∧
      ∀ e k m, e < nelx * nely → k < nx * ny → m < 4 →
        ((nx : α) * x (C e 0) 0 ≤ x' (C' (T e k) m) 0 ∧ x' (C' (T e k) m) 0 ≤ (nx : α) * x (C e 2) 0) ∧
        ((ny : α) * x (C e 0) 1 ≤ x' (C' (T e k) m) 1 ∧ x' (C' (T e k) m) 1 ≤ (ny : α) * x (C e 2) 1) := by
  obtain ⟨R, h1, h2, h3, -, -, h6⟩ := new_ok nelx nely nx ny h
  obtain ⟨c, x, t, C, a1, a2, a3, a4, a5⟩ := regular_nodes nelx nely h
  obtain ⟨c', x', t', C', b1, b2, b3, b4, b5⟩ := regular_nodes (nx * nelx) (ny * nely) h
  refine ⟨R, _, c, x, t, C, c', x', t', C', h1, h6, by rw [h2]; exact a1, by rw [h2]; exact a2, by rw [h2]; exact a3,
    by rw [h2]; exact a4, by rw [h3]; exact b1, by rw [h3]; exact b2, by rw [h3]; exact b3, by rw [h3]; exact b4, ?_⟩
  intro e k m he hk hm
  rw [Nat.mul_comm] at he hk
  obtain ⟨i, j, hi, hj, rfl⟩ := grid_exists he
  obtain ⟨a, b, ha, hb, rfl⟩ := grid_exists hk
  have l1 : i * ny + a < ny * nely := by rw [Nat.mul_comm ny]; exact grid_lt hi ha
  have l2 : j * nx + b < nx * nelx := by rw [Nat.mul_comm nx]; exact grid_lt hj hb
  rw [fineOf_eq hj hb]
  obtain ⟨q0, q1⟩ := b5 _ _ m l1 l2 hm
  obtain ⟨p0, p1⟩ := a5 i j 0 hi hj (by omega)
  obtain ⟨r0, r1⟩ := a5 i j 2 hi hj (by omega)
  rw [q0, q1, p0, p1, r0, r1]
  have key : ∀ u v w : Nat, u ≤ w → w ≤ v → h * (u : α) ≤ h * (w : α) ∧ h * (w : α) ≤ h * (v : α) := fun u v w h1 h2 =>
    ⟨mul_le_mul_of_nonneg_left (Nat.cast_le.2 h1) hh, mul_le_mul_of_nonneg_left (Nat.cast_le.2 h2) hh⟩
  have key' : ∀ n i a d D : Nat, a < n → d ≤ 1 → 1 ≤ D →
      (n : α) * (h * ((i + 0 : Nat) : α)) ≤ h * ((i * n + a + d : Nat) : α) ∧
      h * ((i * n + a + d : Nat) : α) ≤ (n : α) * (h * ((i + D : Nat) : α)) := by
    intro n i a d D han hd hD
    have e : ∀ z : Nat, (n : α) * (h * ((z : Nat) : α)) = h * ((z * n : Nat) : α) := fun z => by
      rw [Nat.cast_mul]; ring
    rw [e, e, Nat.add_zero]
    refine key _ _ _ (by omega) ?_
    have : (i + D) * n = i * n + D * n := by ring
    have : 1 * n ≤ D * n := Nat.mul_le_mul_right _ hD
    omega
  refine ⟨?_, ?_⟩
  · have := key' nx j b (if m = 1 ∨ m = 2 then 1 else 0) 1 hb (by split_ifs <;> omega) (le_refl 1)
    simpa using this
  · have := key' ny i a (if m = 2 ∨ m = 3 then 1 else 0) 1 ha (by split_ifs <;> omega) (le_refl 1)
    simpa using this

/-- **C40** (discrepancy: scale) the fine mesh is built with the element size of the coarse mesh.  Its elements are therefore
not smaller: `fineMesh().h() = coarseMesh().h()`, and the mesh is `nx` times wider and `ny` times higher: it has a node at
`(h nx nelx, h ny nely)`, outside the coarse mesh if `nx > 1`. -/
theorem C40_fine_scaled [Field α] [LinearOrder α] [IsStrictOrderedRing α] (nelx nely nx ny : Nat) {h : α} (hh : 0 < h)
    (hx : 0 < nelx) (hnx : 1 < nx) :
    ∃ R c x c' x', RefineRegular.new (Quad4.Regular.new nelx nely h) nx ny = .ok R ∧
      R.fine.h = R.coarse.h ∧ R.coarse.coor = .ok c ∧ Is2 c R.coarse.nnode 2 x ∧
      R.fine.coor = .ok c' ∧ Is2 c' R.fine.nnode 2 x' ∧
      ∃ n', n' < R.fine.nnode ∧ x' n' 0 = h * (nx * nelx) ∧ x' n' 1 = h * (ny * nely) ∧
        ∀ n, n < R.coarse.nnode → x n 0 < x' n' 0 := by
  obtain ⟨R, h1, h2, h3, -, -, h6⟩ := new_ok nelx nely nx ny h
  obtain ⟨c, x, a1, a2, a3, -⟩ := C31_coor nelx nely hh.ne'
  obtain ⟨c', x', b1, b2, -, b4⟩ := C31_coor (nx * nelx) (ny * nely) hh.ne'
  obtain ⟨n', ⟨d1, d2, d3⟩, -⟩ := b4 (nx * nelx) (ny * nely) (le_refl _) (le_refl _)
  refine ⟨R, c, x, c', x', h1, by rw [h2, h3]; rfl, by rw [h2]; exact a1, by rw [h2]; exact a2, by rw [h3]; exact b1,
    by rw [h3]; exact b2, n', by rw [h3]; exact d1, by rw [d2]; push_cast; ring, by rw [d3]; push_cast; ring, fun n hn => ?_⟩
  obtain ⟨i, j, hi, hj, e1, e2⟩ := a3 n (by rw [h2] at hn; exact hn)
  rw [e1, d2]
  refine mul_lt_mul_of_pos_left ?_ hh
  rw [Nat.cast_lt]
  calc i ≤ nelx := hi
    _ = 1 * nelx := (Nat.one_mul _).symm
    _ < nx * nelx := (Nat.mul_lt_mul_right hx).2 hnx

/-! ### data -/

/-- **C40** (`mapToFine`) for element data with any trailing shape: every fine element receives the value of the coarse
element it belongs to, and every entry of the result is written. -/
theorem C40_mapToFine [Inhabited α] (nelx nely nx ny : Nat) (h : α) {data : Ten α} {rest : List Nat} {f}
    (hs : data.shape = nelx * nely :: rest) (hf : Full data f) :
    ∃ R T y g, RefineRegular.new (Quad4.Regular.new nelx nely h) nx ny = .ok R ∧ Is2 R.c2f (nelx * nely) (nx * ny) T ∧
      R.mapToFine data = .ok y ∧ y.shape = R.fine.nelem :: rest ∧ Full y g ∧
      ∀ e k ix, e < nelx * nely → k < nx * ny → inb rest ix = true → g (T e k :: ix) = f (e :: ix) := by
  obtain ⟨R, h1, h2, h3, -, -, h6⟩ := new_ok nelx nely nx ny h
  obtain ⟨b1, b2, b3⟩ := fineOf_bij (nelx := nelx) (nely := nely) (nx := nx) (ny := ny)
  have hn : nx * nelx * (ny * nely) = nelx * nely * (nx * ny) := by ring
  rw [hn] at b1 b2
  obtain ⟨y, y1, y2, y3⟩ := mapToFine_ok h6 b1 b2 b3 hs hf
  refine ⟨R, _, y, fun ix => (y.v ix).getD default, h1, h6, y1, by rw [y2, h3]; show _ = nx * nelx * (ny * nely) :: rest; rw [hn], ?_, ?_⟩
  · intro ix hix
    rw [y2] at hix
    cases ix with
    | nil => simp at hix
    | cons v ix =>
      simp only [inb_cons, Bool.and_eq_true, decide_eq_true_eq] at hix
      obtain ⟨e, k, he, hk, rfl⟩ := b2 v hix.1
      beta_reduce
      rw [y3 e k ix he hk hix.2]
      rfl
  · intro e k ix he hk hix
    beta_reduce
    rw [y3 e k ix he hk hix]
    rfl

/-- **C40** (`meanToCoarse`) every coarse element receives the mean over its fine elements -/
theorem C40_meanToCoarse [Field α] (nelx nely nx ny : Nat) (h : α) {data : Ten α} {rest : List Nat} {f}
    (hs : data.shape = nx * nelx * (ny * nely) :: rest) (hf : Full data f) :
    ∃ R T y, RefineRegular.new (Quad4.Regular.new nelx nely h) nx ny = .ok R ∧ Is2 R.c2f (nelx * nely) (nx * ny) T ∧
      R.meanToCoarse data = .ok y ∧ y.shape = nelx * nely :: rest ∧
      ∀ e ix, e < nelx * nely → inb rest ix = true →
        y.v (e :: ix) = some ((∑ k ∈ range (nx * ny), f (T e k :: ix)) / ((nx * ny : Nat) : α)) := by
  obtain ⟨R, h1, h2, h3, -, -, h6⟩ := new_ok nelx nely nx ny h
  obtain ⟨b1, -, -⟩ := fineOf_bij (nelx := nelx) (nely := nely) (nx := nx) (ny := ny)
  obtain ⟨y, y1, y2, y3⟩ := meanToCoarse_ok h6 b1 hs hf
  exact ⟨R, _, y, h1, h6, y1, y2, y3⟩

/-- **C40** (`averageToCoarse`) every coarse element receives the weighted mean over its fine elements -/
theorem C40_averageToCoarse [Field α] (nelx nely nx ny : Nat) (h : α) {data weights : Ten α} {rest : List Nat} {f w}
    (hs : data.shape = nx * nelx * (ny * nely) :: rest) (hf : Full data f)
    (hs' : weights.shape = nx * nelx * (ny * nely) :: rest) (hw : Full weights w) :
    ∃ R T y, RefineRegular.new (Quad4.Regular.new nelx nely h) nx ny = .ok R ∧ Is2 R.c2f (nelx * nely) (nx * ny) T ∧
      R.averageToCoarse data weights = .ok y ∧ y.shape = nelx * nely :: rest ∧
      ∀ e ix, e < nelx * nely → inb rest ix = true →
        y.v (e :: ix) = some ((∑ k ∈ range (nx * ny), f (T e k :: ix) * w (T e k :: ix)) /
          ∑ k ∈ range (nx * ny), w (T e k :: ix)) := by
  obtain ⟨R, h1, h2, h3, -, -, h6⟩ := new_ok nelx nely nx ny h
  obtain ⟨b1, -, -⟩ := fineOf_bij (nelx := nelx) (nely := nely) (nx := nx) (ny := ny)
  obtain ⟨y, y1, y2, y3⟩ := averageToCoarse_ok h6 b1 hs hf hs' hw
  exact ⟨R, _, y, h1, h6, y1, y2, y3⟩

/-- **C40** (round trip) `meanToCoarse(mapToFine(data)) = data`, and `averageToCoarse(mapToFine(data), weights) = data` for
weights whose sum per coarse element is not zero. -/
theorem C40_roundtrip [Field α] [CharZero α] (nelx nely nx ny : Nat) (hnx : 0 < nx) (hny : 0 < ny) (h : α)
    {data weights : Ten α} {rest : List Nat} {f w}
    (hs : data.shape = nelx * nely :: rest) (hf : Full data f)
    (hs' : weights.shape = nx * nelx * (ny * nely) :: rest) (hw : Full weights w) :
    ∃ R T y z z', RefineRegular.new (Quad4.Regular.new nelx nely h) nx ny = .ok R ∧ Is2 R.c2f (nelx * nely) (nx * ny) T ∧
      R.mapToFine data = .ok y ∧ R.meanToCoarse y = .ok z ∧ z.shape = data.shape ∧ Full z f ∧
      R.averageToCoarse y weights = .ok z' ∧ z'.shape = data.shape ∧
      ((∀ e ix, e < nelx * nely → inb rest ix = true → ∑ k ∈ range (nx * ny), w (T e k :: ix) ≠ 0) → Full z' f) := by
  have : Inhabited α := ⟨0⟩
  obtain ⟨R, h1, h2, h3, -, -, h6⟩ := new_ok nelx nely nx ny h
  obtain ⟨R', T, y, g, r1, r2, r3, r4, r5, r6⟩ := C40_mapToFine nelx nely nx ny h hs hf
  obtain rfl : R' = R := by rw [h1] at r1; exact (Res.ok.inj r1).symm
  obtain ⟨b1, -, -⟩ := fineOf_bij (nelx := nelx) (nely := nely) (nx := nx) (ny := ny)
  have hT : ∀ e k, e < nelx * nely → k < nx * ny → T e k = fineOf nelx nx ny e k := fun e k he hk => r2.unique h6 he hk
  have r4' : y.shape = nx * nelx * (ny * nely) :: rest := by rw [r4, h3]; rfl
  obtain ⟨z, z1, z2, z3⟩ := meanToCoarse_ok h6 b1 r4' r5
  obtain ⟨z', z1', z2', z3'⟩ := averageToCoarse_ok h6 b1 r4' r5 hs' hw
  have hgf : ∀ e k ix, e < nelx * nely → k < nx * ny → inb rest ix = true →
      g (fineOf nelx nx ny e k :: ix) = f (e :: ix) := by
    intro e k ix he hk hix
    rw [← hT e k he hk]
    exact r6 e k ix he hk hix
  refine ⟨R', T, y, z, z', r1, r2, r3, z1, by rw [z2, hs], ?_, z1', by rw [z2', hs], fun hne => ?_⟩
  · intro ix hix
    rw [z2] at hix
    cases ix with
    | nil => simp at hix
    | cons e ix =>
      simp only [inb_cons, Bool.and_eq_true, decide_eq_true_eq] at hix
      rw [z3 e ix hix.1 hix.2, sum_congr rfl fun k hk => hgf e k ix hix.1 (mem_range.1 hk) hix.2, sum_const, card_range,
        nsmul_eq_mul, mul_div_cancel_left₀]
      rw [Nat.cast_ne_zero]
      exact (Nat.mul_pos hnx hny).ne'
  · intro ix hix
    rw [z2'] at hix
    cases ix with
    | nil => simp at hix
    | cons e ix =>
      simp only [inb_cons, Bool.and_eq_true, decide_eq_true_eq] at hix
      have hne' := hne e ix hix.1 hix.2
      rw [sum_congr rfl fun k hk => by rw [hT e k hix.1 (mem_range.1 hk)]] at hne'
      rw [z3' e ix hix.1 hix.2, sum_congr rfl fun k hk => by rw [hgf e k ix hix.1 (mem_range.1 hk) hix.2],
        ← mul_sum, mul_div_assoc, div_self hne', mul_one]

/-- C40: a 3 × 2 mesh refined by 2 × 3, with scalar data -/
example : ∃ R : RefineRegular ℚ, RefineRegular.new (Quad4.Regular.new 3 2 1) 2 3 = .ok R ∧
    (Ten.of [6] fun ix => (ix.getD 0 0 : ℚ)).shape = 3 * 2 :: [] ∧
    Full (Ten.of [6] fun ix => (ix.getD 0 0 : ℚ)) fun ix => (ix.getD 0 0 : ℚ) :=
  ⟨_, (new_ok 3 2 2 3 (1 : ℚ)).choose_spec.1, rfl, fun _ _ => rfl⟩

end GF
