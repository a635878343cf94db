import Verif.Lemmas.FineLayer3SetsOrder
import Verif.Lemmas.MeshHex8Periodic

/-! The table of periodic node pairs of a three-dimensional mesh, given lists of nodes for each part of the boundary. -/

namespace GF

/-- one block of the table -/
def blockL (S : Loc → Loc → Loc → List Nat) (t : Loc × Loc × Loc) : List (Nat × Nat) :=
  (List.range (S t.1 t.2.1 t.2.2).length).map fun k =>
    ((S t.1.low t.2.1.low t.2.2.low).getD k 0, (S t.1 t.2.1 t.2.2).getD k 0)

/-- the parts of the boundary are the lists `S` -/
structure FacesAre (F : Faces3d) (S : Loc → Loc → Loc → List Nat) : Prop where
  frontFace : ∃ t, F.frontFace = .ok t ∧ FineLayer3.IsL t (S .mid .mid .lo)
  backFace : ∃ t, F.backFace = .ok t ∧ FineLayer3.IsL t (S .mid .mid .hi)
  leftFace : ∃ t, F.leftFace = .ok t ∧ FineLayer3.IsL t (S .lo .mid .mid)
  rightFace : ∃ t, F.rightFace = .ok t ∧ FineLayer3.IsL t (S .hi .mid .mid)
  bottomFace : ∃ t, F.bottomFace = .ok t ∧ FineLayer3.IsL t (S .mid .lo .mid)
  topFace : ∃ t, F.topFace = .ok t ∧ FineLayer3.IsL t (S .mid .hi .mid)
  frontBottom : ∃ t, F.frontBottom = .ok t ∧ FineLayer3.IsL t (S .mid .lo .lo)
  frontTop : ∃ t, F.frontTop = .ok t ∧ FineLayer3.IsL t (S .mid .hi .lo)
  frontLeft : ∃ t, F.frontLeft = .ok t ∧ FineLayer3.IsL t (S .lo .mid .lo)
  frontRight : ∃ t, F.frontRight = .ok t ∧ FineLayer3.IsL t (S .hi .mid .lo)
  backBottom : ∃ t, F.backBottom = .ok t ∧ FineLayer3.IsL t (S .mid .lo .hi)
  backTop : ∃ t, F.backTop = .ok t ∧ FineLayer3.IsL t (S .mid .hi .hi)
  backLeft : ∃ t, F.backLeft = .ok t ∧ FineLayer3.IsL t (S .lo .mid .hi)
  backRight : ∃ t, F.backRight = .ok t ∧ FineLayer3.IsL t (S .hi .mid .hi)
  bottomLeft : ∃ t, F.bottomLeft = .ok t ∧ FineLayer3.IsL t (S .lo .lo .mid)
  bottomRight : ∃ t, F.bottomRight = .ok t ∧ FineLayer3.IsL t (S .hi .lo .mid)
  topLeft : ∃ t, F.topLeft = .ok t ∧ FineLayer3.IsL t (S .lo .hi .mid)
  topRight : ∃ t, F.topRight = .ok t ∧ FineLayer3.IsL t (S .hi .hi .mid)
  frontBottomLeft : S .lo .lo .lo = [F.frontBottomLeft]
  frontBottomRight : S .hi .lo .lo = [F.frontBottomRight]
  frontTopLeft : S .lo .hi .lo = [F.frontTopLeft]
  frontTopRight : S .hi .hi .lo = [F.frontTopRight]
  backBottomLeft : S .lo .lo .hi = [F.backBottomLeft]
  backBottomRight : S .hi .lo .hi = [F.backBottomRight]
  backTopLeft : S .lo .hi .hi = [F.backTopLeft]
  backTopRight : S .hi .hi .hi = [F.backTopRight]
  len : ∀ lx ly lz : Loc, (S lx.low ly.low lz.low).length = (S lx ly lz).length

variable {S : Loc → Loc → Loc → List Nat}

def AccL (S : Loc → Loc → Loc → List Nat) (s : Ten Nat × Nat) (N : Nat) (T : List (Loc × Loc × Loc)) : Prop :=
  RowsAre s N (T.flatMap (blockL S))

theorem blockL_length (T : List (Loc × Loc × Loc)) :
    (T.flatMap (blockL S)).length = (T.map fun t => (S t.1 t.2.1 t.2.2).length).sum := by
  simp [List.length_flatMap, blockL]

theorem stepL_row {s : Ten Nat × Nat} {N : Nat} {T : List (Loc × Loc × Loc)} (h : AccL S s N T) (t : Loc × Loc × Loc)
    {a b : Nat} (ha : S t.1.low t.2.1.low t.2.2.low = [a]) (hb : S t.1 t.2.1 t.2.2 = [b])
    (hN : (T.map fun t => (S t.1 t.2.1 t.2.2).length).sum + (S t.1 t.2.1 t.2.2).length ≤ N) :
    ∃ s', pairRow a b s = .ok s' ∧ AccL S s' N (T ++ [t]) := by
  obtain ⟨s', h1, h2⟩ := pairRow_spec h (by rw [blockL_length]; rw [hb, List.length_singleton] at hN; omega) a b
  refine ⟨s', h1, ?_⟩
  rw [AccL, List.flatMap_append]
  simpa [blockL, ha, hb] using h2

theorem stepL_rows {s : Ten Nat × Nat} {N : Nat} {T : List (Loc × Loc × Loc)} (h : AccL S s N T) (t : Loc × Loc × Loc)
    (hl : (S t.1.low t.2.1.low t.2.2.low).length = (S t.1 t.2.1 t.2.2).length) {a b : Ten Nat}
    (ha : FineLayer3.IsL a (S t.1.low t.2.1.low t.2.2.low)) (hb : FineLayer3.IsL b (S t.1 t.2.1 t.2.2))
    (hN : (T.map fun t => (S t.1 t.2.1 t.2.2).length).sum + (S t.1 t.2.1 t.2.2).length ≤ N) :
    ∃ s', pairRows a b s = .ok s' ∧ AccL S s' N (T ++ [t]) := by
  rw [FineLayer3.IsL, hl] at ha
  obtain ⟨s', h1, h2⟩ := pairRows_spec h ha hb (by rw [blockL_length]; exact hN)
  refine ⟨s', h1, ?_⟩
  rw [AccL, List.flatMap_append]
  simpa [blockL] using h2

theorem prefL (k : Nat) {t : Loc × Loc × Loc} (h : triples[k]? = some t) :
    ((triples.take k).map fun t => (S t.1 t.2.1 t.2.2).length).sum + (S t.1 t.2.1 t.2.2).length ≤
    (triples.map fun t => (S t.1 t.2.1 t.2.2).length).sum := by
  conv_rhs => rw [← List.take_append_drop k triples]
  obtain ⟨hk, rfl⟩ := List.getElem?_eq_some_iff.1 h
  rw [List.drop_eq_getElem_cons hk]
  simp only [List.map_append, List.map_cons, List.sum_append, List.sum_cons]
  omega

theorem totalL (hlen : ∀ lx ly lz : Loc, (S lx.low ly.low lz.low).length = (S lx ly lz).length)
    (h1 : (S .lo .lo .lo).length = 1) :
    (triples.map fun t => (S t.1 t.2.1 t.2.2).length).sum =
      (S .mid .mid .lo).length + (S .lo .mid .mid).length + (S .mid .lo .mid).length +
      (3 * (S .mid .lo .lo).length + 3 * (S .lo .mid .lo).length + 3 * (S .lo .lo .mid).length) + 7 := by
  simp only [triples, List.map_cons, List.map_nil, List.sum_cons, List.sum_nil]
  have e0 : (S .lo .lo .lo).length = (S .hi .lo .lo).length := hlen .hi .lo .lo
  have e1 : (S .lo .lo .lo).length = (S .hi .lo .hi).length := hlen .hi .lo .hi
  have e2 : (S .lo .lo .lo).length = (S .lo .lo .hi).length := hlen .lo .lo .hi
  have e3 : (S .lo .lo .lo).length = (S .lo .hi .lo).length := hlen .lo .hi .lo
  have e4 : (S .lo .lo .lo).length = (S .hi .hi .lo).length := hlen .hi .hi .lo
  have e5 : (S .lo .lo .lo).length = (S .hi .hi .hi).length := hlen .hi .hi .hi
  have e6 : (S .lo .lo .lo).length = (S .lo .hi .hi).length := hlen .lo .hi .hi
  have e7 : (S .mid .lo .lo).length = (S .mid .lo .hi).length := hlen .mid .lo .hi
  have e8 : (S .mid .lo .lo).length = (S .mid .hi .hi).length := hlen .mid .hi .hi
  have e9 : (S .mid .lo .lo).length = (S .mid .hi .lo).length := hlen .mid .hi .lo
  have e10 : (S .lo .lo .mid).length = (S .hi .lo .mid).length := hlen .hi .lo .mid
  have e11 : (S .lo .lo .mid).length = (S .hi .hi .mid).length := hlen .hi .hi .mid
  have e12 : (S .lo .lo .mid).length = (S .lo .hi .mid).length := hlen .lo .hi .mid
  have e13 : (S .lo .mid .lo).length = (S .hi .mid .lo).length := hlen .hi .mid .lo
  have e14 : (S .lo .mid .lo).length = (S .hi .mid .hi).length := hlen .hi .mid .hi
  have e15 : (S .lo .mid .lo).length = (S .lo .mid .hi).length := hlen .lo .mid .hi
  have e16 : (S .mid .mid .lo).length = (S .mid .mid .hi).length := hlen .mid .mid .hi
  have e17 : (S .lo .mid .mid).length = (S .hi .mid .mid).length := hlen .hi .mid .mid
  have e18 : (S .mid .lo .mid).length = (S .mid .hi .mid).length := hlen .mid .hi .mid
  rw [← e0, ← e1, ← e2, ← e3, ← e4, ← e5, ← e6, ← e7, ← e8, ← e9, ← e10, ← e11, ← e12, ← e13, ← e14, ← e15, ← e16, ← e17, ← e18, h1]
  clear e0 e1 e2 e3 e4 e5 e6 e7 e8 e9 e10 e11 e12 e13 e14 e15 e16 e17 e18
  generalize (S .mid .mid .lo).length = a1
  generalize (S .lo .mid .mid).length = a2
  generalize (S .mid .lo .mid).length = a3
  generalize (S .mid .lo .lo).length = a4
  generalize (S .lo .mid .lo).length = a5
  generalize (S .lo .lo .mid).length = a6
  ring

set_option maxHeartbeats 2000000 in
theorem rowsL {F : Faces3d} (hF : FacesAre F S) : ∃ t, nodesPeriodic3d F = .ok t ∧
    RowsAre (t, (triples.flatMap (blockL S)).length) ((triples.flatMap (blockL S)).length) (triples.flatMap (blockL S)) := by
  obtain ⟨frontFace, frontFace1, frontFace2⟩ := hF.frontFace
  obtain ⟨backFace, backFace1, backFace2⟩ := hF.backFace
  obtain ⟨leftFace, leftFace1, leftFace2⟩ := hF.leftFace
  obtain ⟨rightFace, rightFace1, rightFace2⟩ := hF.rightFace
  obtain ⟨bottomFace, bottomFace1, bottomFace2⟩ := hF.bottomFace
  obtain ⟨topFace, topFace1, topFace2⟩ := hF.topFace
  obtain ⟨frontBottom, frontBottom1, frontBottom2⟩ := hF.frontBottom
  obtain ⟨frontTop, frontTop1, frontTop2⟩ := hF.frontTop
  obtain ⟨frontLeft, frontLeft1, frontLeft2⟩ := hF.frontLeft
  obtain ⟨frontRight, frontRight1, frontRight2⟩ := hF.frontRight
  obtain ⟨backBottom, backBottom1, backBottom2⟩ := hF.backBottom
  obtain ⟨backTop, backTop1, backTop2⟩ := hF.backTop
  obtain ⟨backLeft, backLeft1, backLeft2⟩ := hF.backLeft
  obtain ⟨backRight, backRight1, backRight2⟩ := hF.backRight
  obtain ⟨bottomLeft, bottomLeft1, bottomLeft2⟩ := hF.bottomLeft
  obtain ⟨bottomRight, bottomRight1, bottomRight2⟩ := hF.bottomRight
  obtain ⟨topLeft, topLeft1, topLeft2⟩ := hF.topLeft
  obtain ⟨topRight, topRight1, topRight2⟩ := hF.topRight
  rw [nodesPeriodic3d]
  rw [frontFace1, Res.ok_bind]
  rw [backFace1, Res.ok_bind]
  rw [leftFace1, Res.ok_bind]
  rw [rightFace1, Res.ok_bind]
  rw [bottomFace1, Res.ok_bind]
  rw [topFace1, Res.ok_bind]
  rw [frontBottom1, Res.ok_bind]
  rw [frontTop1, Res.ok_bind]
  rw [frontLeft1, Res.ok_bind]
  rw [frontRight1, Res.ok_bind]
  rw [backBottom1, Res.ok_bind]
  rw [backTop1, Res.ok_bind]
  rw [backLeft1, Res.ok_bind]
  rw [backRight1, Res.ok_bind]
  rw [bottomLeft1, Res.ok_bind]
  rw [bottomRight1, Res.ok_bind]
  rw [topLeft1, Res.ok_bind]
  rw [topRight1, Res.ok_bind]
  rw [frontFace2.size, leftFace2.size, bottomFace2.size, frontBottom2.size, frontLeft2.size, bottomLeft2.size]
  have hN := totalL hF.len (by rw [hF.frontBottomLeft]; rfl)
  have hp := fun k t h => prefL (S := S) k (t := t) h
  rw [hN] at hp
  set N := (S .mid .mid .lo).length + (S .lo .mid .mid).length + (S .mid .lo .mid).length +
      (3 * (S .mid .lo .lo).length + 3 * (S .lo .mid .lo).length + 3 * (S .lo .lo .mid).length) + 7 with hN'
  clear_value N
  have h0 : AccL S (Ten.empty [N, 2], 0) N [] := ⟨rfl, rfl, fun i p hp => by simp at hp⟩
  obtain ⟨s1, e1, h1⟩ := stepL_row h0 (.hi, .lo, .lo) hF.frontBottomLeft hF.frontBottomRight (hp 0 (.hi, .lo, .lo) rfl)
  rw [e1, Res.ok_bind]
  obtain ⟨s2, e2, h2⟩ := stepL_row h1 (.hi, .lo, .hi) hF.frontBottomLeft hF.backBottomRight (hp 1 (.hi, .lo, .hi) rfl)
  rw [e2, Res.ok_bind]
  obtain ⟨s3, e3, h3⟩ := stepL_row h2 (.lo, .lo, .hi) hF.frontBottomLeft hF.backBottomLeft (hp 2 (.lo, .lo, .hi) rfl)
  rw [e3, Res.ok_bind]
  obtain ⟨s4, e4, h4⟩ := stepL_row h3 (.lo, .hi, .lo) hF.frontBottomLeft hF.frontTopLeft (hp 3 (.lo, .hi, .lo) rfl)
  rw [e4, Res.ok_bind]
  obtain ⟨s5, e5, h5⟩ := stepL_row h4 (.hi, .hi, .lo) hF.frontBottomLeft hF.frontTopRight (hp 4 (.hi, .hi, .lo) rfl)
  rw [e5, Res.ok_bind]
  obtain ⟨s6, e6, h6⟩ := stepL_row h5 (.hi, .hi, .hi) hF.frontBottomLeft hF.backTopRight (hp 5 (.hi, .hi, .hi) rfl)
  rw [e6, Res.ok_bind]
  obtain ⟨s7, e7, h7⟩ := stepL_row h6 (.lo, .hi, .hi) hF.frontBottomLeft hF.backTopLeft (hp 6 (.lo, .hi, .hi) rfl)
  rw [e7, Res.ok_bind]
  obtain ⟨s8, e8, h8⟩ := stepL_rows h7 (.mid, .lo, .hi) (hF.len .mid .lo .hi) frontBottom2 backBottom2 (hp 7 (.mid, .lo, .hi) rfl)
  rw [e8, Res.ok_bind]
  obtain ⟨s9, e9, h9⟩ := stepL_rows h8 (.mid, .hi, .hi) (hF.len .mid .hi .hi) frontBottom2 backTop2 (hp 8 (.mid, .hi, .hi) rfl)
  rw [e9, Res.ok_bind]
  obtain ⟨s10, e10, h10⟩ := stepL_rows h9 (.mid, .hi, .lo) (hF.len .mid .hi .lo) frontBottom2 frontTop2 (hp 9 (.mid, .hi, .lo) rfl)
  rw [e10, Res.ok_bind]
  obtain ⟨s11, e11, h11⟩ := stepL_rows h10 (.hi, .lo, .mid) (hF.len .hi .lo .mid) bottomLeft2 bottomRight2 (hp 10 (.hi, .lo, .mid) rfl)
  rw [e11, Res.ok_bind]
  obtain ⟨s12, e12, h12⟩ := stepL_rows h11 (.hi, .hi, .mid) (hF.len .hi .hi .mid) bottomLeft2 topRight2 (hp 11 (.hi, .hi, .mid) rfl)
  rw [e12, Res.ok_bind]
  obtain ⟨s13, e13, h13⟩ := stepL_rows h12 (.lo, .hi, .mid) (hF.len .lo .hi .mid) bottomLeft2 topLeft2 (hp 12 (.lo, .hi, .mid) rfl)
  rw [e13, Res.ok_bind]
  obtain ⟨s14, e14, h14⟩ := stepL_rows h13 (.hi, .mid, .lo) (hF.len .hi .mid .lo) frontLeft2 frontRight2 (hp 13 (.hi, .mid, .lo) rfl)
  rw [e14, Res.ok_bind]
  obtain ⟨s15, e15, h15⟩ := stepL_rows h14 (.hi, .mid, .hi) (hF.len .hi .mid .hi) frontLeft2 backRight2 (hp 14 (.hi, .mid, .hi) rfl)
  rw [e15, Res.ok_bind]
  obtain ⟨s16, e16, h16⟩ := stepL_rows h15 (.lo, .mid, .hi) (hF.len .lo .mid .hi) frontLeft2 backLeft2 (hp 15 (.lo, .mid, .hi) rfl)
  rw [e16, Res.ok_bind]
  obtain ⟨s17, e17, h17⟩ := stepL_rows h16 (.mid, .mid, .hi) (hF.len .mid .mid .hi) frontFace2 backFace2 (hp 16 (.mid, .mid, .hi) rfl)
  rw [e17, Res.ok_bind]
  obtain ⟨s18, e18, h18⟩ := stepL_rows h17 (.hi, .mid, .mid) (hF.len .hi .mid .mid) leftFace2 rightFace2 (hp 17 (.hi, .mid, .mid) rfl)
  rw [e18, Res.ok_bind]
  obtain ⟨s19, e19, h19⟩ := stepL_rows h18 (.mid, .hi, .mid) (hF.len .mid .hi .mid) bottomFace2 topFace2 (hp 18 (.mid, .hi, .mid) rfl)
  rw [e19, Res.ok_bind]
  have hl : (triples.flatMap (blockL S)).length = N := by rw [blockL_length, hN]
  rw [hl]
  refine ⟨s19.1, rfl, ?_⟩
  have := h19
  rw [AccL] at this
  exact ⟨this.1, hl.symm, this.2.2⟩

/-- the table as a two-dimensional array -/
theorem tableL {F : Faces3d} (hF : FacesAre F S) : ∃ t n P, nodesPeriodic3d F = .ok t ∧ Is2 t n 2 P ∧
    (∀ k, k < n → (P k 0, P k 1) ∈ triples.flatMap (blockL S)) ∧
    (∀ p ∈ triples.flatMap (blockL S), ∃ k, k < n ∧ (P k 0, P k 1) = p) ∧
    (((triples.flatMap (blockL S)).map Prod.snd).Nodup → ∀ k k', k < n → k' < n → P k 1 = P k' 1 → k = k') := by
  obtain ⟨t, t1, t2, -, t3⟩ := rowsL hF
  dsimp only at t2 t3
  generalize triples.flatMap (blockL S) = L at *
  have hg : ∀ k (hk : k < L.length), L[k]?.getD (0, 0) = L[k] := fun k hk => by simp [hk]
  refine ⟨t, L.length, fun k j => if j = 0 then (L[k]?.getD (0, 0)).1 else (L[k]?.getD (0, 0)).2, t1,
    ⟨t2, fun k j hk hj => ?_⟩, fun k hk => ?_, fun p hp => ?_, fun hn k k' hk hk' he => ?_⟩
  · have := t3 k (L[k]) (by simp [hk])
    dsimp only
    rw [hg k hk]
    obtain rfl | rfl : j = 0 ∨ j = 1 := by omega
    · rw [this.1]; simp
    · rw [this.2]; simp
  · simp only [one_ne_zero, if_false, if_true, hg k hk]
    exact List.getElem_mem hk
  · obtain ⟨k, hk, rfl⟩ := List.getElem_of_mem hp
    exact ⟨k, hk, by simp only [one_ne_zero, if_false, if_true, hg k hk]⟩
  · simp only [one_ne_zero, if_false, hg k hk, hg k' hk'] at he
    have h1 := (List.nodup_iff_injective_get.1 hn) (a₁ := ⟨k, by simpa using hk⟩)
      (a₂ := ⟨k', by simpa using hk'⟩) (by simpa using he)
    simpa using h1

end GF
