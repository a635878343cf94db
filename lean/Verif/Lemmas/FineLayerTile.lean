import Verif.Lemmas.FineLayerMesh
import Verif.Spec.Polygon
import Mathlib.Tactic.Linarith
import Mathlib.Tactic.IntervalCases

/-! Lemmas on `Mesh::Quad4::FineLayer`: the tiles of one block. -/

namespace GF.FineLayer
open FineLayerSpec ElemSpec
variable {α : Type} [Field α] [LinearOrder α] [IsStrictOrderedRing α]

/-- the linear form of edge `j` of tile `q` in a block with unit `a`, at the local point `(P, Q)` -/
def edge (K : Kind) (q : Nat) (a P Q : α) (j : Nat) : α :=
  (((K.corner q ((j + 1) % 4)).1 : α) - ((K.corner q j).1 : α)) * (Q - a * ((K.corner q j).2 : α)) -
  (((K.corner q ((j + 1) % 4)).2 : α) - ((K.corner q j).2 : α)) * (P - a * ((K.corner q j).1 : α))

theorem turn_edge {K : Kind} {q : Nat} {a x0 y0 : α} {X : Nat → Nat → α}
    (hX : ∀ j, j < 4 → X j 0 = x0 + a * ((K.corner q j).1 : α) ∧ X j 1 = y0 + a * ((K.corner q j).2 : α))
    (p : Nat → α) {j : Nat} (hj : j < 4) :
    turn (X j) (X ((j + 1) % 4)) p = a * edge K q a (p 0 - x0) (p 1 - y0) j := by
  obtain ⟨a1, a2⟩ := hX j hj
  obtain ⟨b1, b2⟩ := hX ((j + 1) % 4) (Nat.mod_lt _ (by omega))
  rw [turn, edge, a1, a2, b1, b2]
  ring

theorem inQuad_iff {K : Kind} {q : Nat} {a x0 y0 : α} (ha : 0 < a) {X : Nat → Nat → α}
    (hX : ∀ j, j < 4 → X j 0 = x0 + a * ((K.corner q j).1 : α) ∧ X j 1 = y0 + a * ((K.corner q j).2 : α))
    (p : Nat → α) : InQuad X p ↔ ∀ j, j < 4 → 0 ≤ edge K q a (p 0 - x0) (p 1 - y0) j := by
  refine forall₂_congr fun j hj => ?_
  rw [turn_edge hX p hj]
  exact mul_nonneg_iff_of_pos_left ha

theorem insideQuad_iff {K : Kind} {q : Nat} {a x0 y0 : α} (ha : 0 < a) {X : Nat → Nat → α}
    (hX : ∀ j, j < 4 → X j 0 = x0 + a * ((K.corner q j).1 : α) ∧ X j 1 = y0 + a * ((K.corner q j).2 : α))
    (p : Nat → α) : InsideQuad X p ↔ ∀ j, j < 4 → 0 < edge K q a (p 0 - x0) (p 1 - y0) j := by
  refine forall₂_congr fun j hj => ?_
  rw [turn_edge hX p hj]
  exact mul_pos_iff_of_pos_left ha

theorem all4 {p : Nat → Prop} : (∀ j, j < 4 → p j) ↔ p 0 ∧ p 1 ∧ p 2 ∧ p 3 := by
  constructor
  · intro h; exact ⟨h 0 (by omega), h 1 (by omega), h 2 (by omega), h 3 (by omega)⟩
  · rintro ⟨a, b, c, d⟩ j hj
    obtain rfl | rfl | rfl | rfl : j = 0 ∨ j = 1 ∨ j = 2 ∨ j = 3 := by omega
    all_goals assumption

/-- a tile is inside its block -/
theorem edge_box {K : Kind} {q : Nat} (hq : q < K.tiles) {a P Q : α} (ha : 0 < a)
    (h : ∀ j, j < 4 → 0 ≤ edge K q a P Q j) :
    0 ≤ P ∧ P ≤ a * (K.cols : α) ∧ 0 ≤ Q ∧ Q ≤ a * (K.rows : α) := by
  rw [all4] at h
  cases K
  · obtain rfl : q = 0 := by simp [Kind.tiles] at hq; omega
    norm_num [edge, Kind.corner, Kind.corners, Kind.cols, Kind.rows] at h ⊢
    refine ⟨?_, ?_, ?_, ?_⟩ <;> linarith
  · simp only [Kind.tiles] at hq
    interval_cases q
    all_goals
      norm_num [edge, Kind.corner, Kind.corners, Kind.cols, Kind.rows] at h ⊢
      refine ⟨?_, ?_, ?_, ?_⟩ <;> linarith
  · simp only [Kind.tiles] at hq
    interval_cases q
    all_goals
      norm_num [edge, Kind.corner, Kind.corners, Kind.cols, Kind.rows] at h ⊢
      refine ⟨?_, ?_, ?_, ?_⟩ <;> linarith

theorem edge_box_strict {K : Kind} {q : Nat} (hq : q < K.tiles) {a P Q : α} (ha : 0 < a)
    (h : ∀ j, j < 4 → 0 < edge K q a P Q j) :
    0 < P ∧ P < a * (K.cols : α) ∧ 0 < Q ∧ Q < a * (K.rows : α) := by
  rw [all4] at h
  cases K
  · obtain rfl : q = 0 := by simp [Kind.tiles] at hq; omega
    norm_num [edge, Kind.corner, Kind.corners, Kind.cols, Kind.rows] at h ⊢
    refine ⟨?_, ?_, ?_, ?_⟩ <;> linarith
  · simp only [Kind.tiles] at hq
    interval_cases q
    all_goals
      norm_num [edge, Kind.corner, Kind.corners, Kind.cols, Kind.rows] at h ⊢
      refine ⟨?_, ?_, ?_, ?_⟩ <;> linarith
  · simp only [Kind.tiles] at hq
    interval_cases q
    all_goals
      norm_num [edge, Kind.corner, Kind.corners, Kind.cols, Kind.rows] at h ⊢
      refine ⟨?_, ?_, ?_, ?_⟩ <;> linarith

/-- the tiles cover the block -/
theorem edge_cover (K : Kind) {a P Q : α} (ha : 0 < a) (h0 : 0 ≤ P) (h1 : P ≤ a * (K.cols : α)) (h2 : 0 ≤ Q)
    (h3 : Q ≤ a * (K.rows : α)) : ∃ q, q < K.tiles ∧ ∀ j, j < 4 → 0 ≤ edge K q a P Q j := by
  simp only [all4]
  cases K
  · refine ⟨0, by decide, ?_⟩
    norm_num [edge, Kind.corner, Kind.corners, Kind.cols, Kind.rows] at h1 h3 ⊢
    refine ⟨?_, ?_, ?_, ?_⟩ <;> linarith
  · norm_num [Kind.cols, Kind.rows] at h1 h3
    by_cases c1 : Q ≤ a ∧ Q ≤ P ∧ P + Q ≤ 3 * a
    · refine ⟨0, by decide, ?_⟩
      norm_num [edge, Kind.corner, Kind.corners]
      refine ⟨?_, ?_, ?_, ?_⟩ <;> linarith [c1.1, c1.2.1, c1.2.2]
    · by_cases c2 : 2 * a ≤ P
      · refine ⟨1, by decide, ?_⟩
        norm_num [edge, Kind.corner, Kind.corners]
        have : 3 * a ≤ P + Q := by
          by_contra hc
          exact c1 ⟨by linarith, by linarith, by linarith⟩
        refine ⟨?_, ?_, ?_, ?_⟩ <;> linarith
      · by_cases c3 : a ≤ P
        · refine ⟨2, by decide, ?_⟩
          norm_num [edge, Kind.corner, Kind.corners]
          have : a ≤ Q := by
            by_contra hc
            exact c1 ⟨by linarith, by linarith, by linarith⟩
          refine ⟨?_, ?_, ?_, ?_⟩ <;> linarith
        · refine ⟨3, by decide, ?_⟩
          norm_num [edge, Kind.corner, Kind.corners]
          have : P ≤ Q := by
            by_contra hc
            exact c1 ⟨by linarith, by linarith, by linarith⟩
          refine ⟨?_, ?_, ?_, ?_⟩ <;> linarith
  · norm_num [Kind.cols, Kind.rows] at h1 h3
    by_cases c1 : a ≤ Q ∧ 2 * a ≤ P + Q ∧ P ≤ a + Q
    · refine ⟨3, by decide, ?_⟩
      norm_num [edge, Kind.corner, Kind.corners]
      refine ⟨?_, ?_, ?_, ?_⟩ <;> linarith [c1.1, c1.2.1, c1.2.2]
    · by_cases c2 : 2 * a ≤ P
      · refine ⟨2, by decide, ?_⟩
        norm_num [edge, Kind.corner, Kind.corners]
        have : a + Q ≤ P := by
          by_contra hc
          exact c1 ⟨by linarith, by linarith, by linarith⟩
        refine ⟨?_, ?_, ?_, ?_⟩ <;> linarith
      · by_cases c3 : a ≤ P
        · refine ⟨1, by decide, ?_⟩
          norm_num [edge, Kind.corner, Kind.corners]
          have : Q ≤ a := by
            by_contra hc
            exact c1 ⟨by linarith, by linarith, by linarith⟩
          refine ⟨?_, ?_, ?_, ?_⟩ <;> linarith
        · refine ⟨0, by decide, ?_⟩
          norm_num [edge, Kind.corner, Kind.corners]
          have : P + Q ≤ 2 * a := by
            by_contra hc
            exact c1 ⟨by linarith, by linarith, by linarith⟩
          refine ⟨?_, ?_, ?_, ?_⟩ <;> linarith

/-- the tiles do not overlap -/
theorem edge_disjoint {K : Kind} {q q' : Nat} (hq : q < K.tiles) (hq' : q' < K.tiles) {a P Q : α}
    (h : ∀ j, j < 4 → 0 < edge K q a P Q j) (h' : ∀ j, j < 4 → 0 ≤ edge K q' a P Q j) : q = q' := by
  rw [all4] at h h'
  cases K
  · simp only [Kind.tiles] at hq hq'; omega
  · simp only [Kind.tiles] at hq hq'
    interval_cases q <;> interval_cases q' <;> first
      | rfl
      | (exfalso
         norm_num [edge, Kind.corner, Kind.corners] at h h'
         linarith [h.1, h.2.1, h.2.2.1, h.2.2.2, h'.1, h'.2.1, h'.2.2.1, h'.2.2.2])
  · simp only [Kind.tiles] at hq hq'
    interval_cases q <;> interval_cases q' <;> first
      | rfl
      | (exfalso
         norm_num [edge, Kind.corner, Kind.corners] at h h'
         linarith [h.1, h.2.1, h.2.2.1, h.2.2.2, h'.1, h'.2.1, h'.2.2.1, h'.2.2.2])

/-- the nodes of a block, in units of length -/
def blockNodes : Kind → List (Nat × Nat)
  | .normal => [(0, 0), (1, 0), (0, 1), (1, 1)]
  | .below => [(0, 0), (3, 0), (1, 1), (2, 1), (0, 2), (1, 2), (2, 2), (3, 2)]
  | .above => [(0, 0), (1, 0), (2, 0), (3, 0), (1, 1), (2, 1), (0, 2), (3, 2)]

/-- a node of the block that lies in a tile is one of its corners -/
theorem edge_conform {K : Kind} {q : Nat} (hq : q < K.tiles) {a : α} (ha : 0 < a) {A B : Nat}
    (hAB : (A, B) ∈ blockNodes K) (h : ∀ j, j < 4 → 0 ≤ edge K q a (a * (A : α)) (a * (B : α)) j) :
    ∃ j, j < 4 ∧ K.corner q j = (A, B) := by
  have key : ∀ j, edge K q a (a * (A : α)) (a * (B : α)) j =
      a * ((((K.corner q ((j + 1) % 4)).1 : Int) - (K.corner q j).1) * (B - (K.corner q j).2) -
        (((K.corner q ((j + 1) % 4)).2 : Int) - (K.corner q j).2) * (A - (K.corner q j).1) : Int) := by
    intro j; rw [edge]; push_cast; ring
  have h2 : ∀ j, j < 4 → 0 ≤ ((((K.corner q ((j + 1) % 4)).1 : Int) - (K.corner q j).1) * (B - (K.corner q j).2) -
        (((K.corner q ((j + 1) % 4)).2 : Int) - (K.corner q j).2) * (A - (K.corner q j).1)) := by
    intro j hj
    have := h j hj
    rw [key, mul_nonneg_iff_of_pos_left ha] at this
    exact_mod_cast this
  clear h key
  have fin : ∀ p ∈ blockNodes K, ∀ q, q < K.tiles →
      (∀ j, j < 4 → 0 ≤ ((((K.corner q ((j + 1) % 4)).1 : Int) - (K.corner q j).1) * (p.2 - (K.corner q j).2) -
        (((K.corner q ((j + 1) % 4)).2 : Int) - (K.corner q j).2) * (p.1 - (K.corner q j).1))) →
      ∃ j, j < 4 ∧ K.corner q j = p := by
    cases K <;> decide +kernel
  exact fin (A, B) hAB q hq h2

/-- the tiles are strictly convex -/
theorem convex_local {K : Kind} {q : Nat} (hq : q < K.tiles) {a x0 y0 : α} (ha : 0 < a) {X : Nat → Nat → α}
    (hX : ∀ j, j < 4 → X j 0 = x0 + a * ((K.corner q j).1 : α) ∧ X j 1 = y0 + a * ((K.corner q j).2 : α)) :
    Convex4 X := by
  have fin : ∀ q, q < K.tiles → ∀ j, j < 4 →
      0 < ((((K.corner q ((j + 1) % 4)).1 : Int) - (K.corner q j).1) *
          ((K.corner q ((j + 2) % 4)).2 - (K.corner q j).2) -
        (((K.corner q ((j + 1) % 4)).2 : Int) - (K.corner q j).2) *
          ((K.corner q ((j + 2) % 4)).1 - (K.corner q j).1)) := by
    cases K <;> decide +kernel
  have key : ∀ j, j < 4 → 0 < turn (X j) (X ((j + 1) % 4)) (X ((j + 2) % 4)) := by
    intro j hj
    have h1 := fin q hq j hj
    rw [turn_edge hX _ hj]
    obtain ⟨c1, c2⟩ := hX ((j + 2) % 4) (Nat.mod_lt _ (by omega))
    have e : edge K q a (X ((j + 2) % 4) 0 - x0) (X ((j + 2) % 4) 1 - y0) j =
        a * (((((K.corner q ((j + 1) % 4)).1 : Int) - (K.corner q j).1) *
          ((K.corner q ((j + 2) % 4)).2 - (K.corner q j).2) -
        (((K.corner q ((j + 1) % 4)).2 : Int) - (K.corner q j).2) *
          ((K.corner q ((j + 2) % 4)).1 - (K.corner q j).1) : Int) : α) := by
      rw [edge, c1, c2]; push_cast; ring
    rw [e]
    exact mul_pos ha (mul_pos ha (by exact_mod_cast h1))
  exact ⟨key 3 (by omega), key 0 (by omega), key 1 (by omega), key 2 (by omega)⟩

end GF.FineLayer
