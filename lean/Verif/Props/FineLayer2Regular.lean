import Verif.Lemmas.FineLayer2RegularWeights
import Verif.Props.RefineRegular
import Verif.Props.FineLayer
import Mathlib.Tactic.Linarith
import Mathlib.Tactic.LinearCombination
import Mathlib.Algebra.Order.Ring.Rat
import Mathlib.Algebra.Field.Rat

/-! **C65** `Mesh::Quad4::Map::FineLayer2Regular`: the map of a refined mesh to the regular mesh of its finest elements. -/

namespace GF
open FineLayerSpec ElemSpec Finset FineLayer FineLayer2Regular
variable {α : Type} [Field α] [LinearOrder α] [IsStrictOrderedRing α]

namespace FineLayer2Regular

/-- a square cell of size `h` with its lower left corner in `(X, Y)` -/
def IsCell (h X Y : α) (C : Nat → Nat → α) : Prop :=
  ∀ m, m < 4 → C m 0 = X + h * ((Kind.normal.corner 0 m).1 : α) ∧ C m 1 = Y + h * ((Kind.normal.corner 0 m).2 : α)

theorem IsCell.inQuad {h X Y : α} {C : Nat → Nat → α} (hC : IsCell h X Y C) (hh : 0 < h) (p : Nat → α) :
    InQuad C p ↔ X ≤ p 0 ∧ p 0 ≤ X + h ∧ Y ≤ p 1 ∧ p 1 ≤ Y + h := by
  rw [inQuad_iff hh hC, edges_iff (by decide)]
  simp only [InTile]
  constructor
  · rintro ⟨a, b, c, d⟩; exact ⟨by linarith, by linarith, by linarith, by linarith⟩
  · rintro ⟨a, b, c, d⟩; exact ⟨by linarith, by linarith, by linarith, by linarith⟩

theorem IsCell.inside {h X Y : α} {C : Nat → Nat → α} (hC : IsCell h X Y C) (hh : 0 < h) {p : Nat → α} (hp : InsideQuad C p) :
    X < p 0 ∧ p 0 < X + h ∧ Y < p 1 ∧ p 1 < Y + h := by
  rw [insideQuad_iff hh hC] at hp
  obtain ⟨a, b, c, d⟩ := edge_box_strict (by decide) hh hp
  simp only [Kind.cols, Kind.rows, Nat.cast_one, mul_one] at b d
  exact ⟨by linarith, by linarith, by linarith, by linarith⟩

theorem IsCell.inside_of {h X Y : α} {C : Nat → Nat → α} (hC : IsCell h X Y C) (hh : 0 < h) {p : Nat → α}
    (h1 : X < p 0) (h2 : p 0 < X + h) (h3 : Y < p 1) (h4 : p 1 < Y + h) : InsideQuad C p := by
  rw [insideQuad_iff hh hC, ball4]
  simp only [edge, Kind.corner, Kind.corners, List.getD_cons_zero, List.getD_cons_succ]
  norm_num
  exact ⟨by linarith, by linarith, by linarith, by linarith⟩

/-- the diagonals of a cell -/
theorem IsCell.diag {h X Y : α} {C : Nat → Nat → α} (hC : IsCell h X Y C) (hh : 0 < h) (p : Nat → α) :
    (0 ≤ turn (C 0) (C ((0 + 2) % 4)) p ↔ p 0 - X ≤ p 1 - Y) ∧
    (0 ≤ turn (C 1) (C ((1 + 2) % 4)) p ↔ (p 0 - X) + (p 1 - Y) ≤ h) ∧
    (0 ≤ turn (C 2) (C ((2 + 2) % 4)) p ↔ p 1 - Y ≤ p 0 - X) ∧
    (0 ≤ turn (C 3) (C ((3 + 2) % 4)) p ↔ h ≤ (p 0 - X) + (p 1 - Y)) := by
  obtain ⟨a0, b0⟩ := hC 0 (by omega)
  obtain ⟨a1, b1⟩ := hC 1 (by omega)
  obtain ⟨a2, b2⟩ := hC 2 (by omega)
  obtain ⟨a3, b3⟩ := hC 3 (by omega)
  simp only [Kind.corner, Kind.corners, List.getD_cons_zero, List.getD_cons_succ, Nat.cast_zero, Nat.cast_one, mul_zero, mul_one,
    add_zero] at a0 b0 a1 b1 a2 b2 a3 b3
  have key : ∀ {s t : α}, s = h * t → (0 ≤ s ↔ 0 ≤ t) := fun e => by rw [e]; exact mul_nonneg_iff_of_pos_left hh
  norm_num [turn, a0, b0, a1, b1, a2, b2, a3, b3]
  refine ⟨?_, ?_, ?_, ?_⟩
  · rw [← sub_nonneg, key (t := (p 1 - Y) - (p 0 - X)) (by ring)]
    constructor <;> intro <;> linarith
  · rw [← sub_nonneg, key (t := h - (p 0 - X) - (p 1 - Y)) (by ring)]
    constructor <;> intro <;> linarith
  · rw [← sub_nonneg, key (t := (p 0 - X) - (p 1 - Y)) (by ring)]
    constructor <;> intro <;> linarith
  · rw [← sub_nonneg, key (t := (p 0 - X) + (p 1 - Y) - h) (by ring)]
    constructor <;> intro <;> linarith

/-- the part of a cell that is covered is uniquely defined -/
theorem overlap_unique {h X Y : α} {C E : Nat → Nat → α} (hC : IsCell h X Y C) (hh : 0 < h) {f f' : α} (h1 : Overlap C E f)
    (h2 : Overlap C E f') : f = f' := by
  have mid : ∀ {f : α}, Overlap C E f → f ≠ 0 → InQuad E (fun i => if i = 0 then X + h / 2 else Y + h / 2) := by
    rintro f (⟨-, H⟩ | ⟨-, j, hj, H⟩ | ⟨e, -⟩) hf
    · exact H _ ((hC.inQuad hh _).2 ⟨by simp; linarith, by simp; linarith, by simp; linarith, by simp; linarith⟩)
    · rw [H _ ((hC.inQuad hh _).2 ⟨by simp; linarith, by simp; linarith, by simp; linarith, by simp; linarith⟩)]
      obtain ⟨d0, d1, d2, d3⟩ := hC.diag hh (fun i => if i = 0 then X + h / 2 else Y + h / 2)
      obtain rfl | rfl | rfl | rfl : j = 0 ∨ j = 1 ∨ j = 2 ∨ j = 3 := by omega
      · rw [d0]; simp
      · rw [d1]; simp
      · rw [d2]; simp
      · rw [d3]; simp
    · exact absurd e hf
  have nomid : ∀ {f : α}, Overlap C E f → f = 0 → ¬ InQuad E (fun i => if i = 0 then X + h / 2 else Y + h / 2) := by
    rintro f (⟨e, H⟩ | ⟨e, H⟩ | ⟨-, H⟩) hf
    · rw [e] at hf; exact absurd hf one_ne_zero
    · rw [e] at hf; norm_num at hf
    · exact H _ (hC.inside_of hh (by simp; linarith) (by simp; linarith) (by simp; linarith) (by simp; linarith))
  have aux : ∀ {f f' : α}, Overlap C E f → Overlap C E f' → f = 1 → f' = 1 / 2 → False := by
    rintro f f' (⟨e, H⟩ | ⟨e, -⟩ | ⟨e, -⟩) (⟨e', -⟩ | ⟨e', j, hj, H'⟩ | ⟨e', -⟩) hf hf'
    case inl.inr.inl =>
      have hin : ∀ p, InQuad C p → 0 ≤ turn (C j) (C ((j + 2) % 4)) p := fun p hp => (H' p hp).1 (H p hp)
      have hc : ∀ A B : α, (A = X ∨ A = X + h) → (B = Y ∨ B = Y + h) → InQuad C (fun i => if i = 0 then A else B) := by
        rintro A B (rfl | rfl) (rfl | rfl) <;> refine (hC.inQuad hh _).2 ⟨?_, ?_, ?_, ?_⟩ <;> simp <;> linarith
      obtain rfl | rfl | rfl | rfl : j = 0 ∨ j = 1 ∨ j = 2 ∨ j = 3 := by omega
      · have := hin _ (hc (X + h) Y (Or.inr rfl) (Or.inl rfl))
        rw [(hC.diag hh _).1] at this; simp at this; linarith
      · have := hin _ (hc (X + h) (Y + h) (Or.inr rfl) (Or.inr rfl))
        rw [(hC.diag hh _).2.1] at this; simp at this; linarith
      · have := hin _ (hc X (Y + h) (Or.inl rfl) (Or.inr rfl))
        rw [(hC.diag hh _).2.2.1] at this; simp at this; linarith
      · have := hin _ (hc X Y (Or.inl rfl) (Or.inl rfl))
        rw [(hC.diag hh _).2.2.2] at this; simp at this; linarith
    all_goals (subst e; subst e'; first | (norm_num at hf; done) | (norm_num at hf'; done))
  have vals : ∀ {f : α}, Overlap C E f → f = 1 ∨ f = 1 / 2 ∨ f = 0 := by
    rintro f (⟨e, -⟩ | ⟨e, -⟩ | ⟨e, -⟩)
    · exact Or.inl e
    · exact Or.inr (Or.inl e)
    · exact Or.inr (Or.inr e)
  have n12 : (1 / 2 : α) ≠ 0 := by norm_num
  rcases vals h1 with e | e | e <;> rcases vals h2 with e' | e' | e'
  · rw [e, e']
  · exact (aux h1 h2 e e').elim
  · exact (nomid h2 e' (mid h1 (by rw [e]; exact one_ne_zero))).elim
  · exact (aux h2 h1 e' e).elim
  · rw [e, e']
  · exact (nomid h2 e' (mid h1 (by rw [e]; exact n12))).elim
  · exact (nomid h1 e (mid h2 (by rw [e']; exact one_ne_zero))).elim
  · exact (nomid h1 e (mid h2 (by rw [e']; exact n12))).elim
  · rw [e, e']

variable {nelx n : Nat} {W G : Nat → Nat} {R : Nat → Int}

/-- the fraction listed for a cell is the part of the cell covered by the element -/
theorem overlap_cell (hL : Layers nelx n W G R) {i b q : Nat} (hi : i < 2 * n - 1) (hb : b < nelx / W i)
    (hq : q < (kindR n R i).tiles) {h : α} (hh : 0 < h) {E C : Nat → Nat → α} {r c : Nat}
    (hE : ∀ j, j < 4 → E j 0 = h * ((b * W i : Nat) : α) +
          h * ((W i / (kindR n R i).cols : Nat) : α) * (((kindR n R i).corner q j).1 : α) ∧
      E j 1 = h * ((height G i : Nat) : α) + h * ((W i / (kindR n R i).cols : Nat) : α) * (((kindR n R i).corner q j).2 : α))
    (hC : IsCell h (h * (c : α)) (h * (r : α)) C) : Overlap C E (cellFrac n W G R i b q r c) := by
  obtain ⟨u1, u2, u3⟩ := unit_spec hL hi
  set u := W i / (kindR n R i).cols with hu
  have ha : 0 < h * (u : α) := mul_pos hh (by exact_mod_cast u1)
  have hX := inQuad_iff ha hE
  have hs := height_succ G i
  by_cases hin : height G i ≤ r ∧ r < height G (i + 1) ∧ b * W i ≤ c ∧ c < (b + 1) * W i
  · rw [cellFrac, if_pos hin, ← hu]
    obtain ⟨i1, i2, i3, i4⟩ := hin
    rw [Nat.add_mul, Nat.one_mul] at i4
    have hl := loverlap (K := kindR n R i) hq hh (j := r - height G i) (k := c - b * W i) (u := u) (by omega) (by omega)
    have ek : h * ((c - b * W i : Nat) : α) = h * (c : α) - h * ((b * W i : Nat) : α) := by rw [Nat.cast_sub i3]; ring
    have ej : h * ((r - height G i : Nat) : α) = h * (r : α) - h * ((height G i : Nat) : α) := by rw [Nat.cast_sub i1]; ring
    generalize (frac (kindR n R i) u q (r - height G i) (c - b * W i) : α) = f at hl ⊢
    have hXi : ∀ p, InQuad E p ↔ InTile (kindR n R i) q (h * (u : α)) (p 0 - h * ((b * W i : Nat) : α)) (p 1 - h * ((height G i : Nat) : α)) :=
      fun p => (hX p).trans (edges_iff hq _ _ _)
    rw [ek, ej] at hl
    rcases hl with ⟨e, H⟩ | ⟨e, H⟩ | ⟨e, H⟩
    · refine Or.inl ⟨e, fun p hp => ?_⟩
      obtain ⟨p1, p2, p3, p4⟩ := (hC.inQuad hh p).1 hp
      exact (hXi p).2 (H _ _ (by linarith) (by linarith) (by linarith) (by linarith))
    · refine Or.inr (Or.inl ⟨e, ?_⟩)
      rcases H with H | H | H | H
      · refine ⟨0, by omega, fun p hp => ?_⟩
        obtain ⟨p1, p2, p3, p4⟩ := (hC.inQuad hh p).1 hp
        rw [hXi, H _ _ (by linarith) (by linarith) (by linarith) (by linarith), (hC.diag hh p).1]
        constructor <;> intro <;> linarith
      · refine ⟨1, by omega, fun p hp => ?_⟩
        obtain ⟨p1, p2, p3, p4⟩ := (hC.inQuad hh p).1 hp
        rw [hXi, H _ _ (by linarith) (by linarith) (by linarith) (by linarith), (hC.diag hh p).2.1]
        constructor <;> intro <;> linarith
      · refine ⟨2, by omega, fun p hp => ?_⟩
        obtain ⟨p1, p2, p3, p4⟩ := (hC.inQuad hh p).1 hp
        rw [hXi, H _ _ (by linarith) (by linarith) (by linarith) (by linarith), (hC.diag hh p).2.2.1]
        constructor <;> intro <;> linarith
      · refine ⟨3, by omega, fun p hp => ?_⟩
        obtain ⟨p1, p2, p3, p4⟩ := (hC.inQuad hh p).1 hp
        rw [hXi, H _ _ (by linarith) (by linarith) (by linarith) (by linarith), (hC.diag hh p).2.2.2]
        constructor <;> intro <;> linarith
    · refine Or.inr (Or.inr ⟨e, fun p hp => ?_⟩)
      obtain ⟨p1, p2, p3, p4⟩ := hC.inside hh hp
      rw [hXi]
      exact H _ _ (by linarith) (by linarith) (by linarith) (by linarith)
  · rw [cellFrac, if_neg hin]
    refine Or.inr (Or.inr ⟨rfl, fun p hp hc => hin ?_⟩)
    obtain ⟨p1, p2, p3, p4⟩ := hC.inside hh hp
    obtain ⟨q1, q2, q3, q4⟩ := edge_box hq ha ((hX p).1 hc)
    have cw : h * (u : α) * ((kindR n R i).cols : α) = h * (W i : α) := by
      rw [mul_assoc]; congr 1; exact_mod_cast u2.symm
    have cg : h * (u : α) * ((kindR n R i).rows : α) = h * (G i : α) := by
      rw [mul_assoc]; congr 1; exact_mod_cast u3.symm
    rw [cw] at q2
    rw [cg] at q4
    have lt : ∀ {a b : Nat}, h * (a : α) < h * (b : α) → a < b := fun H => by
      have := lt_of_mul_lt_mul_left H hh.le
      exact_mod_cast this
    refine ⟨?_, ?_, ?_, ?_⟩
    · have : height G i < r + 1 := lt (by push_cast; linarith)
      omega
    · rw [hs]; exact lt (by push_cast; linarith)
    · have : b * W i < c + 1 := lt (by push_cast at *; linarith)
      omega
    · rw [Nat.add_mul, Nat.one_mul]; exact lt (by push_cast at *; linarith)

theorem tile_area4 {K : Kind} {q : Nat} (hq : q < K.tiles) {a x0 y0 : α} {X : Nat → Nat → α}
    (hX : ∀ j, j < 4 → X j 0 = x0 + a * ((K.corner q j).1 : α) ∧ X j 1 = y0 + a * ((K.corner q j).2 : α)) :
    area4 X = tileArea K q * (a * a) := by
  obtain ⟨a0, b0⟩ := hX 0 (by omega)
  obtain ⟨a1, b1⟩ := hX 1 (by omega)
  obtain ⟨a2, b2⟩ := hX 2 (by omega)
  obtain ⟨a3, b3⟩ := hX 3 (by omega)
  rw [area4, a0, b0, a1, b1, a2, b2, a3, b3]
  cases K
  all_goals
    simp only [Kind.tiles] at hq
    interval_cases q <;> norm_num [Kind.corner, Kind.corners, tileArea] <;> ring

/-- the lists of one element -/
structure Listed (nR : Nat) (h : α) (X : Nat → Nat → α) (C : Nat → Nat → Nat → α) (le : List Nat) (lf : List α) : Prop where
  len : le.length = lf.length
  nodup : le.Nodup
  mem : ∀ k f, (k, f) ∈ le.zip lf ↔ k < nR ∧ f ≠ 0 ∧ Overlap (C k) X f
  area : lf.sum * (h * h) = area4 X

theorem core (nelx nely : Nat) (hy : 0 < nely) {h : α} (hh : 0 < h) (nfine : Nat) :
    ∃ M F ct x t c ct' x' t' c', FineLayer.new nelx nely h nfine = .ok M ∧ FineLayer2Regular.new M = .ok F ∧
      F.finelayer = M ∧ F.regular.h = h ∧
      M.coor = .ok ct ∧ Is2 ct M.nnode 2 x ∧ M.conn = .ok t ∧ Is2 t M.nelem 4 c ∧
      F.regular.coor = .ok ct' ∧ Is2 ct' F.regular.nnode 2 x' ∧
      Quad4.Regular.conn F.regular = .ok t' ∧ Is2 t' F.regular.nelem 4 c' ∧
      F.map.elem.length = M.nelem ∧ F.map.frac.length = M.nelem ∧
      (∀ e, e < M.nelem → ∃ le lf, F.map.elem[e]? = some le ∧ F.map.frac[e]? = some lf ∧
        Listed F.regular.nelem h (fun m => x (c e m)) (fun k m => x' (c' k m)) le lf) ∧
      ∀ k, k < F.regular.nelem → ∑ e ∈ range M.nelem, mapWeight F.map.elem F.map.frac e k = 1 := by
  obtain ⟨M, n, w, g, r, ct, x, t, c, h1, h2, h3, h4, e1, e2, e3, e4, e5, e6, hF⟩ := FineLayer.mesh nelx nely hy h nfine
  have hL := layers_of_half h3
  set W := fun i => w (dist n i) with hW
  set G := fun i => g (dist n i) with hG
  set R := fun i => r (dist n i) with hR
  obtain ⟨S, s1, s2⟩ := new_entries hL h4
  rw [h2] at s1
  obtain ⟨ct', x', t', c', r1, r2, r3, r4, r5⟩ := regular_nodes nelx (height G (2 * n - 1)) h
  have hk : ∀ i, kind n r i = kindR n R i := fun _ => rfl
  have hcell : ∀ i j, i < height G (2 * n - 1) → j < nelx →
      IsCell h (h * (j : α)) (h * (i : α)) (fun m => x' (c' (i * nelx + j) m)) := by
    intro i j hi hj m hm
    obtain ⟨a, b⟩ := r5 i j m hi hj hm
    simp only [a, b]
    obtain rfl | rfl | rfl | rfl : m = 0 ∨ m = 1 ∨ m = 2 ∨ m = 3 := by omega
    all_goals norm_num [Kind.corner, Kind.corners, mul_add]
  have hS : ∀ i b q, i < 2 * n - 1 → b < nelx / W i → q < (kindR n R i).tiles →
      layS nelx W R i + b * (kindR n R i).tiles + q < M.nelem := fun i b q hi hb hq => elem_lt hF hi hb hq
  have hlists := fun i b q hi hb hq => lists hL s2 hi hb hq (hS i b q hi hb hq)
  have hwt : ∀ i b q r c, i < 2 * n - 1 → b < nelx / W i → q < (kindR n R i).tiles → c < nelx →
      mapWeight S.elem S.frac (layS nelx W R i + b * (kindR n R i).tiles + q) (r * nelx + c) = cellFrac n W G R i b q r c := by
    intro i b q r c hi hb hq hc
    obtain ⟨l1, l2⟩ := hlists i b q hi hb hq
    rw [mapWeight, List.getD_eq_getElem?_getD, List.getD_eq_getElem?_getD, l1, l2, Option.getD_some, Option.getD_some,
      zip_map_self]
    exact weight_eq hL hi hb hq hc
  refine ⟨M, _, ct, x, t, c, ct', x', t', c', h1, s1, rfl, rfl, e1, e2, e3, e4, r1, r2, r3, r4, s2.1, s2.2.1, ?_, ?_⟩
  · intro e he
    obtain ⟨i, b, q, hi, hb, hq, rfl⟩ := elem_split hF he
    obtain ⟨l1, l2⟩ := hlists i b q hi hb hq
    have hpos := local_pos hF hi hb hq
    obtain ⟨f1, f2, f3⟩ := block_fit hL hi hb
    refine ⟨_, _, l1, l2, ⟨by simp, cell_nodup hq (by rw [Nat.add_mul, Nat.one_mul] at f1; omega), ?_, ?_⟩⟩
    · intro k f
      rw [zip_map_self]
      constructor
      · intro hm
        have hkn : k < nelx * height G (2 * n - 1) := by
          obtain ⟨t, ht, he⟩ := List.mem_map.1 hm
          obtain ⟨m1, m2, m3, m4⟩ := tile_mem.1 ht
          have b1 := hi_le (kindR n R i) hq m1
          simp only [Prod.mk.injEq, cellNo] at he
          rw [← he.1, Nat.mul_comm nelx]
          rw [Nat.add_mul, Nat.one_mul] at f1
          refine grid_lt ?_ (by omega)
          have a1 := height_succ G i
          have a2 : height G (i + 1) ≤ height G (2 * n - 1) := height_mono hi
          omega
        rw [Nat.mul_comm] at hkn
        obtain ⟨i', j', hi', hj', rfl⟩ := grid_exists hkn
        obtain ⟨m1, m2⟩ := (mem_entry hL hi hb hq hj').1 hm
        refine ⟨by show _ < nelx * height G (2 * n - 1); rw [Nat.mul_comm nelx]; exact hkn, m1, ?_⟩
        rw [m2]
        exact overlap_cell hL hi hb hq hh hpos (hcell i' j' hi' hj')
      · rintro ⟨m1, m2, m3⟩
        change k < nelx * height G (2 * n - 1) at m1
        rw [Nat.mul_comm] at m1
        obtain ⟨i', j', hi', hj', rfl⟩ := grid_exists m1
        refine (mem_entry hL hi hb hq hj').2 ⟨m2, ?_⟩
        exact overlap_unique (hcell i' j' hi' hj') hh m3 (overlap_cell hL hi hb hq hh hpos (hcell i' j' hi' hj'))
    · rw [tile_area (kindR n R i) hq, tile_area4 hq hpos, hk]
      ring
  · intro k hk'
    change k < nelx * height G (2 * n - 1) at hk'
    rw [Nat.mul_comm] at hk'
    obtain ⟨i', j', hi', hj', rfl⟩ := grid_exists hk'
    obtain ⟨i, y, hi, hy', rfl⟩ := exists_block hi'
    have hs := height_succ G i
    have hWi := hL.wpos i hi
    have hb : j' / W i < nelx / W i := by
      rw [Nat.div_lt_iff_lt_mul hWi, hL.nelx_eq hi]; exact hj'
    obtain ⟨f1, f2, f3⟩ := block_fit hL hi hb
    have hjd : j' / W i * W i ≤ j' := Nat.div_mul_le_self _ _
    have hjm : j' < (j' / W i + 1) * W i := by
      rw [Nat.add_mul, Nat.one_mul]
      have := Nat.mod_lt j' hWi
      have := Nat.div_add_mod j' (W i)
      rw [Nat.mul_comm] at this
      omega
    have hz : ∀ e, e < M.nelem → e ∉ Ico (layS nelx W R i + j' / W i * (kindR n R i).tiles)
        (layS nelx W R i + j' / W i * (kindR n R i).tiles + (kindR n R i).tiles) →
        mapWeight S.elem S.frac e ((height G i + y) * nelx + j') = 0 := by
      intro e he hne
      obtain ⟨i2, b2, q2, hi2, hb2, hq2, rfl⟩ := elem_split hF he
      rw [show layS nelx W R i2 + b2 * (kind n r i2).tiles + q2 = layS nelx W R i2 + b2 * (kindR n R i2).tiles + q2 from rfl,
        hwt i2 b2 q2 _ _ hi2 hb2 hq2 hj', cellFrac, if_neg]
      rintro ⟨g1, g2, g3, g4⟩
      have hi3 : i2 = i := by
        have hs2 := height_succ G i2
        obtain ⟨a, -⟩ := block_inj (cnt := G) (i := i2) (k := height G i + y - height G i2) (i' := i) (k' := y) (by omega) (by omega) (by omega)
        exact a
      subst hi3
      have hb3 : b2 = j' / W i2 := by
        refine le_antisymm ((Nat.le_div_iff_mul_le hWi).2 g3) ?_
        have := (Nat.div_lt_iff_lt_mul hWi).2 g4
        omega
      subst hb3
      refine hne (mem_Ico.2 ⟨?_, ?_⟩)
      · show _ ≤ layS nelx W R i2 + j' / W i2 * (kindR n R i2).tiles + q2; omega
      · show layS nelx W R i2 + j' / W i2 * (kindR n R i2).tiles + q2 < _
        have : q2 < (kindR n R i2).tiles := hq2
        omega
    rw [← sum_subset (s₁ := Ico (layS nelx W R i + j' / W i * (kindR n R i).tiles)
        (layS nelx W R i + j' / W i * (kindR n R i).tiles + (kindR n R i).tiles)), sum_Ico_eq_sum_range, Nat.add_sub_cancel_left]
    · rw [← frac_sum (α := α) (kindR n R i) (u := W i / (kindR n R i).cols) (j := y) (k := j' - j' / W i * W i) (by omega)
        (by rw [Nat.add_mul, Nat.one_mul] at hjm; omega)]
      refine sum_congr rfl fun q hq => ?_
      rw [hwt i _ q _ _ hi hb (mem_range.1 hq) hj', cellFrac, if_pos ⟨by omega, by omega, hjd, hjm⟩, Nat.add_sub_cancel_left]
    · intro e he
      rw [mem_Ico] at he
      rw [mem_range]
      have := hS i (j' / W i) (e - (layS nelx W R i + j' / W i * (kindR n R i).tiles)) hi hb (by omega)
      omega
    · intro e he hne
      exact hz e (mem_range.1 he) hne

end FineLayer2Regular

/-! ### the claims -/

/-- **C65** (the map) for every `FineLayer` mesh: the constructor succeeds, the regular mesh has elements of size `h`, and for every
element `e` of the mesh the lists `getMap()[e]` and `getMapFraction()[e]` have the same length, list no element of the regular mesh
twice, and list exactly the elements of the regular mesh that are covered by `e` - completely (fraction 1) or on one side of
a diagonal (fraction 1/2) - together with that fraction. -/
theorem C65_map (nelx nely : Nat) (hy : 0 < nely) {h : α} (hh : 0 < h) (nfine : Nat) :
    ∃ M F ct x t c ct' x' t' c', FineLayer.new nelx nely h nfine = .ok M ∧ FineLayer2Regular.new M = .ok F ∧
      F.finelayer = M ∧ F.regular.h = h ∧
      M.coor = .ok ct ∧ Is2 ct M.nnode 2 x ∧ M.conn = .ok t ∧ Is2 t M.nelem 4 c ∧
      F.regular.coor = .ok ct' ∧ Is2 ct' F.regular.nnode 2 x' ∧
      Quad4.Regular.conn F.regular = .ok t' ∧ Is2 t' F.regular.nelem 4 c' ∧
      F.map.elem.length = M.nelem ∧ F.map.frac.length = M.nelem ∧
      ∀ e, e < M.nelem → ∃ le lf, F.map.elem[e]? = some le ∧ F.map.frac[e]? = some lf ∧ le.length = lf.length ∧ le.Nodup ∧
        ∀ k f, (k, f) ∈ le.zip lf ↔
          k < F.regular.nelem ∧ f ≠ 0 ∧ Overlap (fun m => x' (c' k m)) (fun m => x (c e m)) f := by
  obtain ⟨M, F, ct, x, t, c, ct', x', t', c', a1, a2, a3, a4, a5, a6, a7, a8, a9, a10, a11, a12, a13, a14, a15, -⟩ :=
    core nelx nely hy hh nfine
  refine ⟨M, F, ct, x, t, c, ct', x', t', c', a1, a2, a3, a4, a5, a6, a7, a8, a9, a10, a11, a12, a13, a14, fun e he => ?_⟩
  obtain ⟨le, lf, l1, l2, hl⟩ := a15 e he
  exact ⟨le, lf, l1, l2, hl.len, hl.nodup, hl.mem⟩

/-- **C65** (partition) the fractions with which an element of the regular mesh is listed add up to one -/
theorem C65_partition (nelx nely : Nat) (hy : 0 < nely) {h : α} (hh : 0 < h) (nfine : Nat) :
    ∃ M F, FineLayer.new nelx nely h nfine = .ok M ∧ FineLayer2Regular.new M = .ok F ∧
      ∀ k, k < F.regular.nelem → ∑ e ∈ range M.nelem, mapWeight F.map.elem F.map.frac e k = 1 := by
  obtain ⟨M, F, ct, x, t, c, ct', x', t', c', a1, a2, a3, a4, a5, a6, a7, a8, a9, a10, a11, a12, a13, a14, a15, a16⟩ :=
    core nelx nely hy hh nfine
  exact ⟨M, F, a1, a2, a16⟩

/-- **C65** (area) the fractions of an element times the area of an element of the regular mesh add up to its area -/
theorem C65_area (nelx nely : Nat) (hy : 0 < nely) {h : α} (hh : 0 < h) (nfine : Nat) :
    ∃ M F ct x t c, FineLayer.new nelx nely h nfine = .ok M ∧ FineLayer2Regular.new M = .ok F ∧
      M.coor = .ok ct ∧ Is2 ct M.nnode 2 x ∧ M.conn = .ok t ∧ Is2 t M.nelem 4 c ∧
      ∀ e, e < M.nelem → ∃ lf, F.map.frac[e]? = some lf ∧ lf.sum * (h * h) = area4 (fun m => x (c e m)) := by
  obtain ⟨M, F, ct, x, t, c, ct', x', t', c', a1, a2, a3, a4, a5, a6, a7, a8, a9, a10, a11, a12, a13, a14, a15, a16⟩ :=
    core nelx nely hy hh nfine
  refine ⟨M, F, ct, x, t, c, a1, a2, a5, a6, a7, a8, fun e he => ?_⟩
  obtain ⟨le, lf, l1, l2, hl⟩ := a15 e he
  exact ⟨lf, l2, hl.area⟩

/-- **C65** (`mapToRegular`) for element data with any trailing shape: every entry of the result is written; an element of the
regular mesh receives the average of the data of the elements that cover it, weighted with the covered part (so that a constant
field is reproduced), and the integral over the domain is conserved. -/
theorem C65_mapToRegular (nelx nely : Nat) (hy : 0 < nely) {h : α} (hh : 0 < h) (nfine : Nat) :
    ∃ M F ct x t c, FineLayer.new nelx nely h nfine = .ok M ∧ FineLayer2Regular.new M = .ok F ∧
      M.coor = .ok ct ∧ Is2 ct M.nnode 2 x ∧ M.conn = .ok t ∧ Is2 t M.nelem 4 c ∧
      ∀ (data : Ten α) (rest : List Nat) (d : List Nat → α), data.shape = M.nelem :: rest → Full data d →
        ∃ y g, F.mapToRegular data = .ok y ∧ y.shape = F.regular.nelem :: rest ∧ Full y g ∧
          (∀ k ix, k < F.regular.nelem → inb rest ix = true →
            g (k :: ix) = ∑ e ∈ range M.nelem, mapWeight F.map.elem F.map.frac e k * d (e :: ix)) ∧
          (∀ ix v, inb rest ix = true → (∀ e, e < M.nelem → d (e :: ix) = v) →
            ∀ k, k < F.regular.nelem → g (k :: ix) = v) ∧
          (∀ ix, inb rest ix = true → ∑ k ∈ range F.regular.nelem, g (k :: ix) * (h * h) =
            ∑ e ∈ range M.nelem, d (e :: ix) * area4 (fun m => x (c e m))) := by
  obtain ⟨M, F, ct, x, t, c, ct', x', t', c', a1, a2, a3, a4, a5, a6, a7, a8, a9, a10, a11, a12, a13, a14, a15, a16⟩ :=
    core nelx nely hy hh nfine
  refine ⟨M, F, ct, x, t, c, a1, a2, a5, a6, a7, a8, fun data rest d hs hd => ?_⟩
  have hm : ∀ e, e < M.nelem → F.map.elem[e]? = some (F.map.elem.getD e []) ∧ F.map.frac[e]? = some (F.map.frac.getD e []) ∧
      (F.map.elem.getD e []).length = (F.map.frac.getD e []).length ∧ ∀ k, k ∈ F.map.elem.getD e [] → k < F.regular.nelem := by
    intro e he
    obtain ⟨le, lf, l1, l2, hl⟩ := a15 e he
    rw [List.getD_eq_getElem?_getD, List.getD_eq_getElem?_getD, l1, l2, Option.getD_some, Option.getD_some]
    refine ⟨rfl, rfl, hl.len, fun k hk => ?_⟩
    obtain ⟨i, hi, rfl⟩ := List.mem_iff_getElem.1 hk
    refine ((hl.mem le[i] (lf[i]'(hl.len ▸ hi))).1 ?_).1
    rw [← List.getElem_zip (h := by rw [List.length_zip, ← hl.len]; omega)]
    exact List.getElem_mem _
  obtain ⟨y, y1, y2, y3⟩ := mapToRegular_ok (F := F) (by rw [a3]) rfl hm hs hd
  refine ⟨y, fun ix => (y.v ix).getD 0, y1, y2, ?_, ?_, ?_, ?_⟩
  · intro ix hix
    rw [y2] at hix
    cases ix with
    | nil => simp [inb] at hix
    | cons k ix =>
      simp only [inb, Bool.and_eq_true, decide_eq_true_eq] at hix
      simp only [y3 k ix hix.1 hix.2, Option.getD_some]
  · intro k ix hk hix
    simp only [y3 k ix hk hix, Option.getD_some]
  · intro ix v hix hv k hk
    simp only [y3 k ix hk hix, Option.getD_some]
    rw [sum_congr rfl fun e he => by rw [hv e (mem_range.1 he)], ← Finset.sum_mul, a16 k hk, one_mul]
  · intro ix hix
    rw [sum_congr (g := fun k => ∑ e ∈ range M.nelem, mapWeight F.map.elem F.map.frac e k * d (e :: ix) * (h * h)) rfl fun k hk => by
      simp only [y3 k ix (mem_range.1 hk) hix, Option.getD_some, Finset.sum_mul], sum_comm]
    refine sum_congr rfl fun e he => ?_
    obtain ⟨le, lf, l1, l2, hl⟩ := a15 e (mem_range.1 he)
    rw [← hl.area]
    have : ∑ k ∈ range F.regular.nelem, mapWeight F.map.elem F.map.frac e k = lf.sum := by
      have hlt : ∀ p, p ∈ le.zip lf → p.1 < F.regular.nelem := fun p hp => ((hl.mem p.1 p.2).1 hp).1
      unfold mapWeight
      rw [List.getD_eq_getElem?_getD, List.getD_eq_getElem?_getD, l1, l2, Option.getD_some, Option.getD_some]
      rw [weights_total hlt, List.map_snd_zip (by rw [hl.len])]
    rw [← this, Finset.sum_mul, Finset.mul_sum]
    refine sum_congr rfl fun k _ => by ring

/-- a mesh with transition layers: 46 elements, 54 elements in the regular mesh, and data on it -/
example : ((FineLayer.new 6 9 (1 : ℚ) 1).bind fun M => (FineLayer2Regular.new M).bind fun F =>
    .ok (M.nelem, F.regular.nelem, F.map.elem.take 5)) =
      .ok (46, 54, [[0, 1, 2], [2, 8], [7], [0, 6], [3, 4, 5]]) := by
  decide +kernel

example : Full (Ten.of [46, 2] fun ix => (ix.getD 0 0 : ℚ)) fun ix => (ix.getD 0 0 : ℚ) := fun _ _ => rfl

end GF
