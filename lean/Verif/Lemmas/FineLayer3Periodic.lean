import Verif.Lemmas.Periodic3dTable

/-! The table of periodic node pairs of `Mesh::Hex8::FineLayer`. -/

namespace GF

theorem blockL_snd (S : Loc → Loc → Loc → List Nat) (t : Loc × Loc × Loc) :
    (blockL S t).map Prod.snd = S t.1 t.2.1 t.2.2 := by
  apply List.ext_getElem
  · simp [blockL]
  · intro k h1 h2
    simp [blockL, h2]

theorem blockL_rel {S : Loc → Loc → Loc → List Nat} {t : Loc × Loc × Loc} {R : Nat → Nat → Prop}
    (h : List.Forall₂ R (S t.1.low t.2.1.low t.2.2.low) (S t.1 t.2.1 t.2.2)) {p : Nat × Nat} (hp : p ∈ blockL S t) :
    R p.1 p.2 ∧ p.1 ∈ S t.1.low t.2.1.low t.2.2.low ∧ p.2 ∈ S t.1 t.2.1 t.2.2 := by
  simp only [blockL, List.mem_map, List.mem_range] at hp
  obtain ⟨k, hk, rfl⟩ := hp
  have hk' : k < (S t.1.low t.2.1.low t.2.2.low).length := by rw [h.length_eq]; exact hk
  have := h.get hk' hk
  dsimp only
  rw [List.getD_eq_getElem?_getD, List.getD_eq_getElem?_getD, List.getElem?_eq_getElem hk, List.getElem?_eq_getElem hk']
  exact ⟨this, List.getElem_mem _, List.getElem_mem _⟩

namespace FineLayer3
open FineLayerSpec Finset FineLayer
variable {α : Type} {nelx nelz n : Nat} {WX WZ G : Nat → Nat} {R : Nat → Int}

/-- strictly inside the lowest or the highest layer of elements -/
def OuterN (n : Nat) (G : Nat → Nat) (b : Nat) : Prop :=
  (0 < b ∧ b < height G 1) ∨ (height G (2 * n - 2) < b ∧ b < height G (2 * n - 1))

theorem band_iff (hL : Layers3 nelx nelz n WX WZ G R) {l : Loc} (hl : l ≠ .all) {b : Nat} :
    band n G l b ↔ l.on b (height G (2 * n - 1)) ∧ ¬ OuterN n G b := by
  have hn := hL.npos
  have h1 := hL.strict (show 0 < 1 by omega) (show 1 ≤ 2 * n - 1 by omega)
  have h2 := hL.strict (show 2 * n - 2 < 2 * n - 1 by omega) (le_refl _)
  have h3 : height G 1 ≤ height G (2 * n - 1) := height_mono (by omega)
  have h0 : height G 0 = 0 := rfl
  cases l with
  | lo => simp only [band, Loc.on, OuterN]; omega
  | hi => simp only [band, Loc.on, OuterN]; omega
  | all => exact absurd rfl hl
  | mid => simp only [band, Loc.on, OuterN]; omega

/-- the table in units of `h` -/
structure Table3 (nelx nelz n : Nat) (WX WZ G : Nat → Nat) (R : Nat → Int) (k : Nat) (P : Nat → Nat → Nat) : Prop where
  rows : ∀ i, i < k → ∃ lx ly lz : Loc, (lx = .hi ∨ ly = .hi ∨ lz = .hi) ∧ ∃ a b c,
    Site nelx nelz n WX WZ G R (P i 0) a b c ∧ a < nelx ∧ b < height G (2 * n - 1) ∧ c < nelz ∧ ¬ OuterN n G b ∧
    Site nelx nelz n WX WZ G R (P i 1) (a + Loc.off lx nelx) (b + Loc.off ly (height G (2 * n - 1))) (c + Loc.off lz nelz)
  distinct : ∀ i j, i < k → j < k → P i 1 = P j 1 → i = j
  dep : ∀ m a b c, Site nelx nelz n WX WZ G R m a b c → ((∃ i, i < k ∧ P i 1 = m) ↔
    (a = nelx ∨ b = height G (2 * n - 1) ∨ c = nelz) ∧ ¬ OuterN n G b)

theorem table3 {F : Faces3d} (hL : Layers3 nelx nelz n WX WZ G R) (hs : WX 0 = WX (2 * n - 2) ∧ WZ 0 = WZ (2 * n - 2))
    (hx : 0 < nelx) (hz : 0 < nelz) (hF : FacesAre F (setL nelx nelz n WX WZ R)) :
    ∃ t k P, nodesPeriodic3d F = .ok t ∧ Is2 t k 2 P ∧ Table3 nelx nelz n WX WZ G R k P := by
  have hn := hL.npos
  have hH : 0 < height G (2 * n - 1) := hL.strict (show 0 < 2 * n - 1 by omega) (le_refl _)
  obtain ⟨t, k, P, h1, h2, h3, h4, h5⟩ := tableL hF
  refine ⟨t, k, P, h1, h2, ⟨fun i hi => ?_, h5 ?_, fun m a b c hm => ?_⟩⟩
  · obtain ⟨u, hu, hp⟩ := List.mem_flatMap.1 (h3 i hi)
    obtain ⟨⟨a, b, c, s1, s2⟩, m1, m2⟩ := blockL_rel (setL_shift hL hs u.1 u.2.1 u.2.2) hp
    obtain ⟨b1, b2, b3⟩ := (mem_setL hL s1).1 m1
    obtain ⟨n1, n2, n3⟩ := triples_all u hu
    have nl : ∀ {l : Loc}, l ≠ .all → l.low ≠ .all := fun {l} h => by cases l <;> simp_all [Loc.low]
    have lt : ∀ {l : Loc} {v L : Nat}, l ≠ .all → 0 < L → l.low.on v L → v < L := fun {l v L} h h' h'' => by
      cases l <;> simp only [Loc.low, Loc.on, ne_eq, not_true_eq_false] at * <;> omega
    obtain ⟨c1, c2⟩ := (band_iff hL (nl n2)).1 b2
    exact ⟨u.1, u.2.1, u.2.2, triples_hi u hu, a, b, c, s1, lt n1 hx b1, lt n2 hH c1, lt n3 hz b3, c2, s2⟩
  · rw [List.map_flatMap, List.nodup_flatMap]
    constructor
    · intro u _
      rw [blockL_snd]
      exact setL_nodup hL _ _ _
    · refine List.Pairwise.imp_of_mem ?_ triples_nodup
      rintro ⟨a, b, c⟩ ⟨a', b', c'⟩ ht ht' hne
      simp only [Function.onFun, blockL_snd]
      rw [List.disjoint_left]
      intro m hm hm'
      obtain ⟨px, py, pz, s⟩ := setL_site hL hm
      have h1 := (mem_setL hL s).1 hm
      have h2 := (mem_setL hL s).1 hm'
      obtain ⟨a1, a2, a3⟩ := triples_all _ ht
      obtain ⟨b1, b2, b3⟩ := triples_all _ ht'
      apply hne
      have e1 : a = a' := Loc.on_unique hx a1 b1 h1.1 h2.1
      have e2 : b = b' := Loc.on_unique hH a2 b2 ((band_iff hL a2).1 h1.2.1).1 ((band_iff hL b2).1 h2.2.1).1
      have e3 : c = c' := Loc.on_unique hz a3 b3 h1.2.2 h2.2.2
      rw [e1, e2, e3]
  · have key : (∃ i, i < k ∧ P i 1 = m) ↔ ∃ u ∈ triples, m ∈ setL nelx nelz n WX WZ R u.1 u.2.1 u.2.2 := by
      constructor
      · rintro ⟨i, hi, rfl⟩
        obtain ⟨u, hu, hp⟩ := List.mem_flatMap.1 (h3 i hi)
        exact ⟨u, hu, (blockL_rel (setL_shift hL hs u.1 u.2.1 u.2.2) hp).2.2⟩
      · rintro ⟨u, hu, hm⟩
        rw [← blockL_snd (setL nelx nelz n WX WZ R) u, List.mem_map] at hm
        obtain ⟨p, hp, e⟩ := hm
        obtain ⟨i, hi, he⟩ := h4 p (List.mem_flatMap.2 ⟨u, hu, hp⟩)
        exact ⟨i, hi, by rw [← e, ← he]⟩
    rw [key]
    obtain ⟨b1, b2, b3⟩ := hm.bound hL
    constructor
    · rintro ⟨u, hu, hmu⟩
      obtain ⟨n1, n2, n3⟩ := triples_all u hu
      obtain ⟨m1, m2, m3⟩ := (mem_setL hL hm).1 hmu
      obtain ⟨c1, c2⟩ := (band_iff hL n2).1 m2
      refine ⟨?_, c2⟩
      rcases triples_hi u hu with h | h | h
      · rw [h] at m1; exact .inl m1
      · rw [h] at c1; exact .inr (.inl c1)
      · rw [h] at m3; exact .inr (.inr m3)
    · rintro ⟨h, ho⟩
      obtain ⟨l1, a1, a2, a3⟩ := Loc.on_exists b1
      obtain ⟨l2, d1, d2, d3⟩ := Loc.on_exists b2
      obtain ⟨l3, c1, c2, c3⟩ := Loc.on_exists b3
      refine ⟨(l1, l2, l3), triples_mem l1 l2 l3 a1 d1 c1 ?_, (mem_setL hL hm).2 ⟨a2, (band_iff hL d1).2 ⟨d2, ho⟩, c2⟩⟩
      rcases h with h | h | h
      · exact .inl (a3 h)
      · exact .inr (.inl (d3 h))
      · exact .inr (.inr (c3 h))

theorem nodesPeriodic_spec {M : FineLayer3 α} (hM : IsFine3 M nelx nelz n WX WZ G R) (hL : Layers3 nelx nelz n WX WZ G R)
    (hs : WX 0 = WX (2 * n - 2) ∧ WZ 0 = WZ (2 * n - 2)) (hx : 0 < nelx) (hz : 0 < nelz) :
    ∃ t k P, M.nodesPeriodic = .ok t ∧ Is2 t k 2 P ∧ Table3 nelx nelz n WX WZ G R k P := by
  have hn := hL.npos
  have h0 : ∀ i, i < 2 * n - 1 → 0 < nelx / WX i := fun i hi =>
    Nat.div_pos (Nat.le_of_dvd hx (hL.fits i hi).1) (hL.wpos i hi).1
  have g0 : ∀ i, i < 2 * n - 1 → 0 < nelz / WZ i := fun i hi =>
    Nat.div_pos (Nat.le_of_dvd hz (hL.fits i hi).2) (hL.wpos i hi).2
  obtain ⟨frontBottomLeft, frontBottomLeft1, frontBottomLeft2⟩ := nodesFrontBottomLeftCorner_spec hM hL
  obtain ⟨frontBottomRight, frontBottomRight1, frontBottomRight2⟩ := nodesFrontBottomRightCorner_spec hM hL
  obtain ⟨frontTopLeft, frontTopLeft1, frontTopLeft2⟩ := nodesFrontTopLeftCorner_spec hM hL
  obtain ⟨frontTopRight, frontTopRight1, frontTopRight2⟩ := nodesFrontTopRightCorner_spec hM hL
  obtain ⟨backBottomLeft, backBottomLeft1, backBottomLeft2⟩ := nodesBackBottomLeftCorner_spec hM hL
  obtain ⟨backBottomRight, backBottomRight1, backBottomRight2⟩ := nodesBackBottomRightCorner_spec hM hL
  obtain ⟨backTopLeft, backTopLeft1, backTopLeft2⟩ := nodesBackTopLeftCorner_spec hM hL
  obtain ⟨backTopRight, backTopRight1, backTopRight2⟩ := nodesBackTopRightCorner_spec hM hL
  rw [nodesPeriodic]
  rw [frontBottomLeft1, Res.ok_bind]
  rw [frontBottomRight1, Res.ok_bind]
  rw [frontTopLeft1, Res.ok_bind]
  rw [frontTopRight1, Res.ok_bind]
  rw [backBottomLeft1, Res.ok_bind]
  rw [backBottomRight1, Res.ok_bind]
  rw [backTopLeft1, Res.ok_bind]
  rw [backTopRight1, Res.ok_bind]
  apply table3 hL hs hx hz
  refine ⟨?_, ?_, ?_, ?_, ?_, ?_, ?_, ?_, ?_, ?_, ?_, ?_, ?_, ?_, ?_, ?_, ?_, ?_, frontBottomLeft2, frontBottomRight2, frontTopLeft2, frontTopRight2, backBottomLeft2, backBottomRight2, backTopLeft2, backTopRight2, fun lx ly lz => (setL_shift hL hs lx ly lz).length_eq⟩
  · exact nodesFrontFace_spec hM hL h0
  · exact nodesBackFace_spec hM hL h0
  · exact nodesLeftFace_spec hM hL g0
  · exact nodesRightFace_spec hM hL g0
  · exact nodesBottomFace_spec hM hL (h0 0 (by omega)) (g0 0 (by omega))
  · exact nodesTopFace_spec hM hL (h0 _ (by omega)) (g0 _ (by omega))
  · exact nodesFrontBottomOpenEdge_spec hM hL (h0 _ (by omega))
  · exact nodesFrontTopOpenEdge_spec hM hL (h0 _ (by omega))
  · exact nodesFrontLeftOpenEdge_spec hM hL
  · exact nodesFrontRightOpenEdge_spec hM hL
  · exact nodesBackBottomOpenEdge_spec hM hL (h0 _ (by omega))
  · exact nodesBackTopOpenEdge_spec hM hL (h0 _ (by omega))
  · exact nodesBackLeftOpenEdge_spec hM hL
  · exact nodesBackRightOpenEdge_spec hM hL
  · exact nodesBottomLeftOpenEdge_spec hM hL (g0 _ (by omega))
  · exact nodesBottomRightOpenEdge_spec hM hL (g0 _ (by omega))
  · exact nodesTopLeftOpenEdge_spec hM hL (g0 _ (by omega))
  · exact nodesTopRightOpenEdge_spec hM hL (g0 _ (by omega))

end FineLayer3
end GF
