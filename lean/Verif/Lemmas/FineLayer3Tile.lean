import Verif.Lemmas.FineLayer3Mesh
import Mathlib.Tactic.LinearCombination
import Mathlib.Tactic.Linarith

/-! Lemmas on `Mesh::Hex8::FineLayer`: the elements of a block. -/

namespace GF.FineLayerSpec
open FineLayer3
variable {α : Type}

/-- coefficient `d` (and, for `d = 3`, the constant) of the plane through face `f` of element `q`, in units of
length -/
def Kind3.coef (K : Kind3) (q f d : Nat) : Int :=
  let a := fun d => (K.corner q (hexFace f 0) d : Int)
  let b := fun d => (K.corner q (hexFace f 1) d : Int) - a d
  let c := fun d => (K.corner q (hexFace f 2) d : Int) - a d
  let A0 := b 1 * c 2 - b 2 * c 1
  let A1 := b 2 * c 0 - b 0 * c 2
  let A2 := b 0 * c 1 - b 1 * c 0
  match d with
  | 0 => A0
  | 1 => A1
  | 2 => A2
  | _ => - (A0 * a 0 + A1 * a 1 + A2 * a 2)

/-- the same, evaluated -/
def Kind3.coefs : Kind3 → List (List (List Int))
  | .normal => [
    [[0, 0, 1, 0], [0, 0, -1, 1], [0, 1, 0, 0], [0, -1, 0, 1], [1, 0, 0, 0], [-1, 0, 0, 1]]]
  | .xBelow => [
    [[0, 0, 3, 0], [0, 0, -1, 1], [0, 3, 0, 0], [0, -1, 0, 1], [1, -1, 0, 0], [-1, -1, 0, 3]],
    [[0, 0, 2, 0], [0, 0, -1, 1], [-2, 0, 0, 6], [1, 0, 0, -2], [1, 1, 0, -3], [0, -1, 0, 2]],
    [[0, 0, 1, 0], [0, 0, -1, 1], [0, 1, 0, -1], [0, -1, 0, 2], [1, 0, 0, -1], [-1, 0, 0, 2]],
    [[0, 0, 1, 0], [0, 0, -2, 2], [-1, 1, 0, 0], [0, -1, 0, 2], [2, 0, 0, 0], [-1, 0, 0, 1]]]
  | .xAbove => [
    [[0, 0, 1, 0], [0, 0, -2, 2], [0, 1, 0, 0], [-1, -1, 0, 2], [2, 0, 0, 0], [-1, 0, 0, 1]],
    [[0, 0, 1, 0], [0, 0, -1, 1], [0, 1, 0, 0], [0, -1, 0, 1], [1, 0, 0, -1], [-1, 0, 0, 2]],
    [[0, 0, 2, 0], [0, 0, -1, 1], [0, 1, 0, 0], [1, -1, 0, -1], [1, 0, 0, -2], [-2, 0, 0, 6]],
    [[0, 0, 1, 0], [0, 0, -3, 3], [0, 1, 0, -1], [0, -3, 0, 6], [1, 1, 0, -2], [-1, 1, 0, 1]]]
  | .zBelow => [
    [[0, 3, 0, 0], [0, -1, 0, 1], [1, 0, 0, 0], [-3, 0, 0, 3], [0, -1, 1, 0], [0, -1, -1, 3]],
    [[0, 0, 1, -2], [0, 0, -2, 6], [0, 1, 1, -3], [0, -1, 0, 2], [1, 0, 0, 0], [-2, 0, 0, 2]],
    [[0, 0, 1, -1], [0, 0, -1, 2], [0, 1, 0, -1], [0, -1, 0, 2], [1, 0, 0, 0], [-1, 0, 0, 1]],
    [[0, 0, 2, 0], [0, 0, -1, 1], [0, 1, -1, 0], [0, -1, 0, 2], [2, 0, 0, 0], [-1, 0, 0, 1]]]
  | .zAbove => [
    [[0, 0, 2, 0], [0, 0, -1, 1], [0, 1, 0, 0], [0, -1, -1, 2], [2, 0, 0, 0], [-1, 0, 0, 1]],
    [[0, 0, 1, -1], [0, 0, -1, 2], [0, 1, 0, 0], [0, -1, 0, 1], [1, 0, 0, 0], [-1, 0, 0, 1]],
    [[0, 0, 1, -2], [0, 0, -2, 6], [0, 1, 0, 0], [0, -1, 1, -1], [1, 0, 0, 0], [-2, 0, 0, 2]],
    [[0, 1, 1, -2], [0, 1, -1, 1], [0, 1, 0, -1], [0, -3, 0, 6], [3, 0, 0, 0], [-1, 0, 0, 1]]]

theorem Kind3.mem_all (K : Kind3) : K ∈ [Kind3.normal, .xBelow, .xAbove, .zBelow, .zAbove] := by cases K <;> simp

theorem Kind3.coef_eq (K : Kind3) {q f d : Nat} (hq : q < K.tiles) (hf : f < 6) (hd : d < 4) :
    K.coef q f d = ((K.coefs.getD q []).getD f []).getD d 0 := by
  have key : ∀ K ∈ [Kind3.normal, .xBelow, .xAbove, .zBelow, .zAbove], ∀ q ∈ List.range K.tiles,
    ∀ f ∈ List.range 6, ∀ d ∈ List.range 4, K.coef q f d = ((K.coefs.getD q []).getD f []).getD d 0 := by decide +kernel
  exact key K K.mem_all q (List.mem_range.2 hq) f (List.mem_range.2 hf) d (List.mem_range.2 hd)

/-- position with respect to the plane of face `f` of element `q`, in units of length -/
def Kind3.side [Ring α] (K : Kind3) (q f : Nat) (X Y Z : α) : α :=
  (K.coef q f 0 : α) * X + (K.coef q f 1 : α) * Y + (K.coef q f 2 : α) * Z + (K.coef q f 3 : α)

theorem hexFace_lt {f k : Nat} (hf : f < 6) (hk : k < 4) : hexFace f k < 8 := by
  have key : ∀ f ∈ List.range 6, ∀ k ∈ List.range 4, hexFace f k < 8 := by decide +kernel
  exact key f (List.mem_range.2 hf) k (List.mem_range.2 hk)

theorem side_eq [CommRing α] {K : Kind3} {q : Nat} {X : Nat → Nat → α} {o u : Nat → α}
    (hX : ∀ j d, j < 8 → d < 3 → X j d = o d + u d * (K.corner q j d : α)) {p P : Nat → α}
    (hp : ∀ d, d < 3 → p d = o d + u d * P d) {f : Nat} (hf : f < 6) :
    hexSide X f p = u 0 * u 1 * u 2 * K.side q f (P 0) (P 1) (P 2) := by
  have h0 := fun d hd => hX (hexFace f 0) d (hexFace_lt hf (by omega)) hd
  have h1 := fun d hd => hX (hexFace f 1) d (hexFace_lt hf (by omega)) hd
  have h2 := fun d hd => hX (hexFace f 2) d (hexFace_lt hf (by omega)) hd
  rw [hexSide, tetDet, h0 0 (by omega), h0 1 (by omega), h0 2 (by omega), h1 0 (by omega), h1 1 (by omega), h1 2 (by omega),
    h2 0 (by omega), h2 1 (by omega), h2 2 (by omega), hp 0 (by omega), hp 1 (by omega), hp 2 (by omega), Kind3.side]
  simp only [Kind3.coef]
  push_cast
  ring

theorem ball6 {Q : Nat → Prop} : (∀ f, f < 6 → Q f) ↔ Q 0 ∧ Q 1 ∧ Q 2 ∧ Q 3 ∧ Q 4 ∧ Q 5 := by
  constructor
  · intro h; exact ⟨h 0 (by omega), h 1 (by omega), h 2 (by omega), h 3 (by omega), h 4 (by omega), h 5 (by omega)⟩
  · rintro ⟨h0, h1, h2, h3, h4, h5⟩ f hf
    interval_cases f <;> assumption

/-- a linear form -/
def form3 [Ring α] (l : List Int) (X Y Z : α) : α :=
  ((l.getD 0 0 : Int) : α) * X + ((l.getD 1 0 : Int) : α) * Y + ((l.getD 2 0 : Int) : α) * Z + ((l.getD 3 0 : Int) : α)

theorem Kind3.side_table [Ring α] (K : Kind3) {q f : Nat} (hq : q < K.tiles) (hf : f < 6) (X Y Z : α) :
    K.side q f X Y Z = form3 ((K.coefs.getD q []).getD f []) X Y Z := by
  rw [form3, Kind3.side, K.coef_eq hq hf (by omega), K.coef_eq hq hf (by omega), K.coef_eq hq hf (by omega), K.coef_eq hq hf (by omega)]

section order
variable [Field α] [LinearOrder α] [IsStrictOrderedRing α]

/-- the closed element, in units of length -/
def Kind3.InTile (K : Kind3) (q : Nat) (X Y Z : α) : Prop := ∀ f, f < 6 → 0 ≤ K.side q f X Y Z

/-- the interior of the element, in units of length -/
def Kind3.InsideTile (K : Kind3) (q : Nat) (X Y Z : α) : Prop := ∀ f, f < 6 → 0 < K.side q f X Y Z

theorem inHex_iff {K : Kind3} {q : Nat} {X : Nat → Nat → α} {o u : Nat → α}
    (hX : ∀ j d, j < 8 → d < 3 → X j d = o d + u d * (K.corner q j d : α)) (hu : ∀ d, d < 3 → 0 < u d) (p : Nat → α) :
    (InHex X p ↔ K.InTile q ((p 0 - o 0) / u 0) ((p 1 - o 1) / u 1) ((p 2 - o 2) / u 2)) ∧
    (InsideHex X p ↔ K.InsideTile q ((p 0 - o 0) / u 0) ((p 1 - o 1) / u 1) ((p 2 - o 2) / u 2)) := by
  have hpos : 0 < u 0 * u 1 * u 2 := mul_pos (mul_pos (hu 0 (by omega)) (hu 1 (by omega))) (hu 2 (by omega))
  have key := fun f (hf : f < 6) => side_eq hX (p := p) (P := fun d => (p d - o d) / u d) (fun d hd => by
    have := (hu d hd).ne'
    rw [mul_div_cancel₀ _ this]; ring) hf
  constructor
  · refine forall₂_congr fun f hf => ?_
    rw [key f hf]
    exact mul_nonneg_iff_of_pos_left hpos
  · refine forall₂_congr fun f hf => ?_
    rw [key f hf]
    exact mul_pos_iff_of_pos_left hpos

theorem inTile_iff {K : Kind3} {q : Nat} (hq : q < K.tiles) {X Y Z : α} :
    K.InTile q X Y Z ↔ ∀ f, f < 6 → 0 ≤ form3 ((K.coefs.getD q []).getD f []) X Y Z :=
  forall₂_congr fun f hf => by rw [K.side_table hq hf]

theorem insideTile_iff {K : Kind3} {q : Nat} (hq : q < K.tiles) {X Y Z : α} :
    K.InsideTile q X Y Z ↔ ∀ f, f < 6 → 0 < form3 ((K.coefs.getD q []).getD f []) X Y Z :=
  forall₂_congr fun f hf => by rw [K.side_table hq hf]

macro "tile_simp" "at" h:ident : tactic =>
  `(tactic| (first | rw [inTile_iff (by decide), ball6] at $h:ident | rw [insideTile_iff (by decide), ball6] at $h:ident
             simp [form3, Kind3.coefs] at $h:ident))
macro "tile_simp" : tactic =>
  `(tactic| (rw [inTile_iff (by decide), ball6]; simp [form3, Kind3.coefs]))

theorem tile_box {K : Kind3} {q : Nat} (hq : q < K.tiles) {X Y Z : α} (h : K.InTile q X Y Z) :
    0 ≤ X ∧ X ≤ (K.nx : α) ∧ 0 ≤ Y ∧ Y ≤ (K.ny : α) ∧ 0 ≤ Z ∧ Z ≤ (K.nz : α) := by
  cases K <;> simp only [Kind3.tiles] at hq <;> interval_cases q <;> tile_simp at h <;>
    simp only [Kind3.nx, Kind3.ny, Kind3.nz, Nat.cast_one, Nat.cast_ofNat] <;>
    (obtain ⟨h0, h1, h2, h3, h4, h5⟩ := h; refine ⟨?_, ?_, ?_, ?_, ?_, ?_⟩ <;> linarith)

theorem tile_box_strict {K : Kind3} {q : Nat} (hq : q < K.tiles) {X Y Z : α} (h : K.InsideTile q X Y Z) :
    0 < X ∧ X < (K.nx : α) ∧ 0 < Y ∧ Y < (K.ny : α) ∧ 0 < Z ∧ Z < (K.nz : α) := by
  cases K <;> simp only [Kind3.tiles] at hq <;> interval_cases q <;> tile_simp at h <;>
    simp only [Kind3.nx, Kind3.ny, Kind3.nz, Nat.cast_one, Nat.cast_ofNat] <;>
    (obtain ⟨h0, h1, h2, h3, h4, h5⟩ := h; refine ⟨?_, ?_, ?_, ?_, ?_, ?_⟩ <;> linarith)

set_option maxHeartbeats 1000000 in
theorem tile_disjoint {K : Kind3} {q q' : Nat} (hq : q < K.tiles) (hq' : q' < K.tiles) {X Y Z : α}
    (h : K.InsideTile q X Y Z) (h' : K.InTile q' X Y Z) : q = q' := by
  by_contra hne
  cases K <;> simp only [Kind3.tiles] at hq hq' <;> interval_cases q <;> interval_cases q' <;>
    first
    | exact hne rfl
    | (tile_simp at h; tile_simp at h'
       obtain ⟨h0, h1, h2, h3, h4, h5⟩ := h
       obtain ⟨k0, k1, k2, k3, k4, k5⟩ := h'
       linarith)

theorem tile_cover {K : Kind3} {X Y Z : α} (x0 : 0 ≤ X) (x1 : X ≤ (K.nx : α)) (y0 : 0 ≤ Y) (y1 : Y ≤ (K.ny : α))
    (z0 : 0 ≤ Z) (z1 : Z ≤ (K.nz : α)) : ∃ q, q < K.tiles ∧ K.InTile q X Y Z := by
  cases K <;> simp only [Kind3.nx, Kind3.ny, Kind3.nz, Nat.cast_one, Nat.cast_ofNat] at x1 y1 z1
  · refine ⟨0, by simp [Kind3.tiles], ?_⟩
    tile_simp; refine ⟨?_, ?_, ?_, ?_, ?_, ?_⟩ <;> linarith
  · rcases le_total X 1 with hx | hx
    · rcases le_total Y X with hc | hc
      · refine ⟨0, by simp [Kind3.tiles], ?_⟩
        tile_simp; refine ⟨?_, ?_, ?_, ?_, ?_, ?_⟩ <;> linarith
      · refine ⟨3, by simp [Kind3.tiles], ?_⟩
        tile_simp; refine ⟨?_, ?_, ?_, ?_, ?_, ?_⟩ <;> linarith
    · rcases le_total X 2 with hx' | hx'
      · rcases le_total Y 1 with hc | hc
        · refine ⟨0, by simp [Kind3.tiles], ?_⟩
          tile_simp; refine ⟨?_, ?_, ?_, ?_, ?_, ?_⟩ <;> linarith
        · refine ⟨2, by simp [Kind3.tiles], ?_⟩
          tile_simp; refine ⟨?_, ?_, ?_, ?_, ?_, ?_⟩ <;> linarith
      · rcases le_total (X + Y) 3 with hc | hc
        · refine ⟨0, by simp [Kind3.tiles], ?_⟩
          tile_simp; refine ⟨?_, ?_, ?_, ?_, ?_, ?_⟩ <;> linarith
        · refine ⟨1, by simp [Kind3.tiles], ?_⟩
          tile_simp; refine ⟨?_, ?_, ?_, ?_, ?_, ?_⟩ <;> linarith
  · rcases le_total X 1 with hx | hx
    · rcases le_total (X + Y) 2 with hc | hc
      · refine ⟨0, by simp [Kind3.tiles], ?_⟩
        tile_simp; refine ⟨?_, ?_, ?_, ?_, ?_, ?_⟩ <;> linarith
      · refine ⟨3, by simp [Kind3.tiles], ?_⟩
        tile_simp; refine ⟨?_, ?_, ?_, ?_, ?_, ?_⟩ <;> linarith
    · rcases le_total X 2 with hx' | hx'
      · rcases le_total Y 1 with hc | hc
        · refine ⟨1, by simp [Kind3.tiles], ?_⟩
          tile_simp; refine ⟨?_, ?_, ?_, ?_, ?_, ?_⟩ <;> linarith
        · refine ⟨3, by simp [Kind3.tiles], ?_⟩
          tile_simp; refine ⟨?_, ?_, ?_, ?_, ?_, ?_⟩ <;> linarith
      · rcases le_total (Y + 1) X with hc | hc
        · refine ⟨2, by simp [Kind3.tiles], ?_⟩
          tile_simp; refine ⟨?_, ?_, ?_, ?_, ?_, ?_⟩ <;> linarith
        · refine ⟨3, by simp [Kind3.tiles], ?_⟩
          tile_simp; refine ⟨?_, ?_, ?_, ?_, ?_, ?_⟩ <;> linarith
  · rcases le_total Z 1 with hx | hx
    · rcases le_total Y Z with hc | hc
      · refine ⟨0, by simp [Kind3.tiles], ?_⟩
        tile_simp; refine ⟨?_, ?_, ?_, ?_, ?_, ?_⟩ <;> linarith
      · refine ⟨3, by simp [Kind3.tiles], ?_⟩
        tile_simp; refine ⟨?_, ?_, ?_, ?_, ?_, ?_⟩ <;> linarith
    · rcases le_total Z 2 with hx' | hx'
      · rcases le_total Y 1 with hc | hc
        · refine ⟨0, by simp [Kind3.tiles], ?_⟩
          tile_simp; refine ⟨?_, ?_, ?_, ?_, ?_, ?_⟩ <;> linarith
        · refine ⟨2, by simp [Kind3.tiles], ?_⟩
          tile_simp; refine ⟨?_, ?_, ?_, ?_, ?_, ?_⟩ <;> linarith
      · rcases le_total (Z + Y) 3 with hc | hc
        · refine ⟨0, by simp [Kind3.tiles], ?_⟩
          tile_simp; refine ⟨?_, ?_, ?_, ?_, ?_, ?_⟩ <;> linarith
        · refine ⟨1, by simp [Kind3.tiles], ?_⟩
          tile_simp; refine ⟨?_, ?_, ?_, ?_, ?_, ?_⟩ <;> linarith
  · rcases le_total Z 1 with hx | hx
    · rcases le_total (Z + Y) 2 with hc | hc
      · refine ⟨0, by simp [Kind3.tiles], ?_⟩
        tile_simp; refine ⟨?_, ?_, ?_, ?_, ?_, ?_⟩ <;> linarith
      · refine ⟨3, by simp [Kind3.tiles], ?_⟩
        tile_simp; refine ⟨?_, ?_, ?_, ?_, ?_, ?_⟩ <;> linarith
    · rcases le_total Z 2 with hx' | hx'
      · rcases le_total Y 1 with hc | hc
        · refine ⟨1, by simp [Kind3.tiles], ?_⟩
          tile_simp; refine ⟨?_, ?_, ?_, ?_, ?_, ?_⟩ <;> linarith
        · refine ⟨3, by simp [Kind3.tiles], ?_⟩
          tile_simp; refine ⟨?_, ?_, ?_, ?_, ?_, ?_⟩ <;> linarith
      · rcases le_total (Y + 1) Z with hc | hc
        · refine ⟨2, by simp [Kind3.tiles], ?_⟩
          tile_simp; refine ⟨?_, ?_, ?_, ?_, ?_, ?_⟩ <;> linarith
        · refine ⟨3, by simp [Kind3.tiles], ?_⟩
          tile_simp; refine ⟨?_, ?_, ?_, ?_, ?_, ?_⟩ <;> linarith

/-- an integer position -/
theorem side_int (K : Kind3) (q f A B C : Nat) :
    K.side q f (A : α) (B : α) (C : α) = ((K.side q f (A : Int) (B : Int) (C : Int) : Int) : α) := by
  simp only [Kind3.side]; push_cast; rfl

/-- the elements are convex hexahedra -/
theorem convex_tile {K : Kind3} {q : Nat} (hq : q < K.tiles) {X : Nat → Nat → α} {o u : Nat → α}
    (hX : ∀ j d, j < 8 → d < 3 → X j d = o d + u d * (K.corner q j d : α)) (hu : ∀ d, d < 3 → 0 < u d) :
    ConvexHex X := by
  have key : ∀ K ∈ [Kind3.normal, .xBelow, .xAbove, .zBelow, .zAbove], ∀ q ∈ List.range K.tiles,
    ∀ f ∈ List.range 6, ∀ j ∈ List.range 8, if j ∈ hexFaces.getD f [] then
      K.side q f (K.corner q j 0 : Int) (K.corner q j 1 : Int) (K.corner q j 2 : Int) = 0 else
      0 < K.side q f (K.corner q j 0 : Int) (K.corner q j 1 : Int) (K.corner q j 2 : Int) := by decide +kernel
  intro f j hf hj
  have hpos : 0 < u 0 * u 1 * u 2 := mul_pos (mul_pos (hu 0 (by omega)) (hu 1 (by omega))) (hu 2 (by omega))
  have h := key K K.mem_all q (List.mem_range.2 hq) f (List.mem_range.2 hf) j (List.mem_range.2 hj)
  rw [side_eq hX (p := X j) (P := fun d => (K.corner q j d : α)) (fun d hd => hX j d hj hd) hf, side_int]
  by_cases hc : j ∈ hexFaces.getD f []
  · rw [if_pos hc] at h ⊢
    rw [h]; simp
  · rw [if_neg hc] at h ⊢
    exact mul_pos hpos (by exact_mod_cast h)

/-- height of a plane in units of length -/
def plB (K : Kind3) : Pl → Nat
  | .bot => 0
  | .mid => 1
  | .top => K.ny

/-- a node of a block that lies in an element is one of its corners -/
theorem tile_conform {K : Kind3} {q : Nat} (hq : q < K.tiles) {p : Pl} {A B C : Nat} (hp : p = .mid → K ≠ .normal)
    (hA : AxValid K.mx p A) (hC : AxValid K.mz p C)
    (hB : B = plB K p)
    (h : K.InTile q (A : α) (B : α) (C : α)) :
    ∃ j, j < 8 ∧ K.corner q j 0 = A ∧ K.corner q j 1 = B ∧ K.corner q j 2 = C := by
  have le : ∀ {m p c}, AxValid m p c → c ∈ List.range 4 := by
    intro m p c h
    rw [List.mem_range]
    cases m <;> cases p <;> simp only [AxValid] at h <;> omega
  have key : ∀ K ∈ [Kind3.normal, .xBelow, .xAbove, .zBelow, .zAbove], ∀ q ∈ List.range K.tiles,
    ∀ p ∈ [Pl.bot, .mid, .top], ∀ A ∈ List.range 4, ∀ C ∈ List.range 4, (p = .mid → K ≠ .normal) →
    AxValid K.mx p A → AxValid K.mz p C →
    (∀ f ∈ List.range 6, 0 ≤ K.side q f (A : Int) (plB K p : Int) (C : Int)) →
    ∃ j ∈ List.range 8, K.corner q j 0 = A ∧ K.corner q j 1 = plB K p ∧
      K.corner q j 2 = C := by decide +kernel
  subst hB
  obtain ⟨j, hj, e⟩ := key K K.mem_all q (List.mem_range.2 hq) p (by cases p <;> simp) A (le hA) C (le hC) hp hA hC
    (fun f hf => by
      have := h f (List.mem_range.1 hf)
      rw [side_int] at this
      exact_mod_cast this)
  exact ⟨j, List.mem_range.1 hj, e⟩

end order
end GF.FineLayerSpec
