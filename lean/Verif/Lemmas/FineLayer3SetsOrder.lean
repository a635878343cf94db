import Verif.Lemmas.FineLayer3SetsMem
import Mathlib.Data.List.Forall2

/-! Lemmas on the node sets of `Mesh::Hex8::FineLayer`: order of the nodes, and opposite sets. -/

namespace GF.FineLayer3
open FineLayerSpec Finset FineLayer
variable {α : Type}

section
variable {nelx nelz n : Nat} {WX WZ G : Nat → Nat} {R : Nat → Int}

/-- `m` comes before `m'`: first by height, then along `x`, then along `z` -/
def Before (nelx nelz n : Nat) (WX WZ G : Nat → Nat) (R : Nat → Int) (m m' : Nat) : Prop :=
  ∀ a b c a' b' c', Site nelx nelz n WX WZ G R m a b c → Site nelx nelz n WX WZ G R m' a' b' c' →
    b < b' ∨ (b = b' ∧ (a < a' ∨ (a = a' ∧ c < c')))

theorem planeL_sorted (hL : Layers3 nelx nelz n WX WZ G R) (lx lz : Loc) {p : Nat} (hp : p < 2 * n) :
    (planeL nelx nelz n WX WZ R lx lz p).Pairwise (Before nelx nelz n WX WZ G R) := by
  obtain ⟨w1, w2⟩ := hL.rowW_pos hp
  obtain ⟨d1, d2⟩ := hL.rowW_dvd hp
  have bx : ∀ {k}, k ∈ sel .same lx (rowN nelx n WX p) → k < rowN nelx n WX p := fun {k} hk =>
    ((mem_sel (m := .same) lx w1 d1 (by simp)).1 hk).1
  have bz : ∀ {k}, k ∈ sel .same lz (rowN nelz n WZ p) → k < rowN nelz n WZ p := fun {k} hk =>
    ((mem_sel (m := .same) lz w2 d2 (by simp)).1 hk).1
  rw [planeL, List.pairwise_flatMap]
  constructor
  · intro kx hx
    rw [List.pairwise_map]
    refine List.Pairwise.imp_of_mem ?_ (sel_sorted .same lz (rowN nelz n WZ p))
    intro k k' h1 h2 hlt a b c a' b' c' s s'
    obtain ⟨rfl, rfl, rfl⟩ := s.unique (.main p kx k hp (bx hx) (bz h1))
    obtain ⟨rfl, rfl, rfl⟩ := s'.unique (.main p kx k' hp (bx hx) (bz h2))
    exact .inr ⟨rfl, .inr ⟨rfl, Nat.mul_lt_mul_of_pos_right hlt w2⟩⟩
  · refine List.Pairwise.imp_of_mem ?_ (sel_sorted .same lx (rowN nelx n WX p))
    intro k k' h1 h2 hlt m hm m' hm' a b c a' b' c' s s'
    obtain ⟨l, hl, rfl⟩ := List.mem_map.1 hm
    obtain ⟨l', hl', rfl⟩ := List.mem_map.1 hm'
    obtain ⟨rfl, rfl, rfl⟩ := s.unique (.main p k l hp (bx h1) (bz hl))
    obtain ⟨rfl, rfl, rfl⟩ := s'.unique (.main p k' l' hp (bx h2) (bz hl'))
    exact .inr ⟨rfl, .inl (Nat.mul_lt_mul_of_pos_right hlt w1)⟩

theorem midL_sorted (hL : Layers3 nelx nelz n WX WZ G R) (lx lz : Loc) {i : Nat} (hi : i < 2 * n - 1) :
    (midL nelx nelz n WX WZ R lx lz i).Pairwise (Before nelx nelz n WX WZ G R) := by
  obtain ⟨w1, w2⟩ := hL.wpos i hi
  obtain ⟨d1, d2⟩ := hL.fits i hi
  obtain ⟨t1, t2⟩ := hL.three hi
  rw [midL]
  split
  · exact List.Pairwise.nil
  rename_i hk
  have bx : ∀ {k}, k ∈ sel (kindR3 n R i).mx lx (axM nelx (WX i) (kindR3 n R i).mx) → _ := fun {k} h =>
    ((mem_sel lx w1 d1 t1).1 h).1
  have bz : ∀ {k}, k ∈ sel (kindR3 n R i).mz lz (axM nelz (WZ i) (kindR3 n R i).mz) → _ := fun {k} h =>
    ((mem_sel lz w2 d2 t2).1 h).1
  rw [List.pairwise_flatMap]
  constructor
  · intro kx hx
    rw [List.pairwise_map]
    refine List.Pairwise.imp_of_mem ?_ (sel_sorted _ lz _)
    intro k k' h1 h2 hlt a b c a' b' c' s s'
    obtain ⟨rfl, rfl, rfl⟩ := s.unique (.mid i kx k hi hk (bx hx) (bz h1))
    obtain ⟨rfl, rfl, rfl⟩ := s'.unique (.mid i kx k' hi hk (bx hx) (bz h2))
    exact .inr ⟨rfl, .inr ⟨rfl, axMid_strict w2 t2 hlt⟩⟩
  · refine List.Pairwise.imp_of_mem ?_ (sel_sorted _ lx _)
    intro k k' h1 h2 hlt m hm m' hm' a b c a' b' c' s s'
    obtain ⟨l, hl, rfl⟩ := List.mem_map.1 hm
    obtain ⟨l', hl', rfl⟩ := List.mem_map.1 hm'
    obtain ⟨rfl, rfl, rfl⟩ := s.unique (.mid i k l hi hk (bx h1) (bz hl))
    obtain ⟨rfl, rfl, rfl⟩ := s'.unique (.mid i k' l' hi hk (bx h2) (bz hl'))
    exact .inr ⟨rfl, .inl (axMid_strict w1 t1 hlt)⟩

theorem stackL_sorted (hL : Layers3 nelx nelz n WX WZ G R) (lx lz : Loc) {p q : Nat} (hq : q ≤ 2 * n) :
    (stackL nelx nelz n WX WZ R lx lz p q).Pairwise (Before nelx nelz n WX WZ G R) := by
  rw [stackL, List.pairwise_flatMap]
  constructor
  · intro r hr
    obtain ⟨k, hk, rfl⟩ := mem_itFrom.1 hr
    rw [List.pairwise_append]
    refine ⟨planeL_sorted hL lx lz (by omega), ?_, ?_⟩
    · split
      · exact midL_sorted hL lx lz (by omega)
      · exact List.Pairwise.nil
    · intro m hm m' hm' a b c a' b' c' s s'
      split at hm'
      · have h1 := (mem_planeL hL (by omega) s).1 hm
        have h2 := (mem_midL hL (by omega) s').1 hm'
        exact .inl (by omega)
      · simp at hm'
  · refine List.Pairwise.imp_of_mem ?_ (show (itFrom p q).Pairwise (· < ·) from List.pairwise_lt_range')
    intro r r' hr hr' hlt m hm m' hm' a b c a' b' c' s s'
    obtain ⟨k, hk, rfl⟩ := mem_itFrom.1 hr
    obtain ⟨k', hk', rfl⟩ := mem_itFrom.1 hr'
    left
    have u1 : height G (p + k + 1) ≤ height G (p + k') := height_mono hlt
    have e1 : b < height G (p + k + 1) := by
      have := hL.gpos (p + k) (by omega)
      rw [height_succ]
      rcases List.mem_append.1 hm with hm | hm
      · have := (mem_planeL hL (by omega) s).1 hm
        omega
      · split at hm
        · have := (mem_midL hL (by omega) s).1 hm
          rw [height_succ] at this
          omega
        · simp at hm
    have e2 : height G (p + k') ≤ b' := by
      rcases List.mem_append.1 hm' with hm | hm
      · have := (mem_planeL hL (by omega) s').1 hm
        omega
      · split at hm
        · have := (mem_midL hL (by omega) s').1 hm
          omega
        · simp at hm
    omega

theorem setL_sorted (hL : Layers3 nelx nelz n WX WZ G R) (lx ly lz : Loc) :
    (setL nelx nelz n WX WZ R lx ly lz).Pairwise (Before nelx nelz n WX WZ G R) := by
  have hn := hL.npos
  cases ly with
  | lo => exact planeL_sorted hL lx lz (by omega)
  | hi => exact planeL_sorted hL lx lz (by omega)
  | all => exact stackL_sorted hL lx lz (by omega)
  | mid => exact stackL_sorted hL lx lz (by omega)

theorem setL_nodup (hL : Layers3 nelx nelz n WX WZ G R) (lx ly lz : Loc) :
    (setL nelx nelz n WX WZ R lx ly lz).Nodup := by
  refine List.Pairwise.imp_of_mem ?_ (setL_sorted hL lx ly lz)
  intro m m' hm hm' hb e
  subst e
  obtain ⟨a, b, c, hs⟩ := setL_site hL hm
  have := hb _ _ _ _ _ _ hs hs
  omega

/-- shift between the nodes of a set and the nodes of the independent set -/
def Loc.off (l : Loc) (L : Nat) : Nat := if l = .hi then L else 0

/-- `m'` is `m` shifted by the dimensions of the mesh -/
def Shifted (nelx nelz n : Nat) (WX WZ G : Nat → Nat) (R : Nat → Int) (lx ly lz : Loc) (m m' : Nat) : Prop :=
  ∃ a b c, Site nelx nelz n WX WZ G R m a b c ∧
    Site nelx nelz n WX WZ G R m' (a + Loc.off lx nelx) (b + Loc.off ly (height G (2 * n - 1))) (c + Loc.off lz nelz)

theorem sel_shift {w nel : Nat} {m : Mode} (l : Loc) (hw : 0 < w) (hd : w ∣ nel) (hm : m ≠ .same → 3 ∣ w) :
    List.Forall₂ (fun k k' => k < axM nel w m ∧ k' < axM nel w m ∧ axMid w m k' = axMid w m k + Loc.off l nel)
      (sel m l.low (axM nel w m)) (sel m l (axM nel w m)) := by
  have same : l ≠ .hi → List.Forall₂ (fun k k' => k < axM nel w m ∧ k' < axM nel w m ∧
      axMid w m k' = axMid w m k + Loc.off l nel) (sel m l.low (axM nel w m)) (sel m l (axM nel w m)) := by
    intro hl
    have e : l.low = l := by cases l <;> first | rfl | exact absurd rfl hl
    rw [e, List.forall₂_same]
    intro k hk
    have := ((mem_sel l hw hd hm).1 hk).1
    exact ⟨this, this, by rw [Loc.off, if_neg hl, Nat.add_zero]⟩
  by_cases hl : l = .hi
  · subst hl
    cases m with
    | same =>
      simp only [sel, Loc.low, Loc.start, Loc.width, axM, Loc.off, if_true, Nat.add_sub_cancel, axMid, List.range'_one]
      refine List.Forall₂.cons ⟨Nat.succ_pos _, Nat.lt_succ_self _, ?_⟩ List.Forall₂.nil
      rw [Nat.zero_mul, Nat.zero_add, Nat.div_mul_cancel hd]
    | below => exact List.Forall₂.nil
    | above => exact List.Forall₂.nil
  · exact same hl

theorem planeL_shift (hL : Layers3 nelx nelz n WX WZ G R) (lx ly lz : Loc) {p p' : Nat} (hp : p < 2 * n) (hp' : p' < 2 * n)
    (hx : rowW n WX p' = rowW n WX p) (hz : rowW n WZ p' = rowW n WZ p)
    (hy : height G p' = height G p + Loc.off ly (height G (2 * n - 1))) :
    List.Forall₂ (Shifted nelx nelz n WX WZ G R lx ly lz)
      (planeL nelx nelz n WX WZ R lx.low lz.low p) (planeL nelx nelz n WX WZ R lx lz p') := by
  obtain ⟨w1, w2⟩ := hL.rowW_pos hp
  obtain ⟨d1, d2⟩ := hL.rowW_dvd hp
  have e1 : rowN nelx n WX p' = rowN nelx n WX p := by rw [rowN, rowN, hx]
  have e2 : rowN nelz n WZ p' = rowN nelz n WZ p := by rw [rowN, rowN, hz]
  rw [planeL, planeL, e1, e2]
  refine List.rel_flatMap (sel_shift (m := .same) lx w1 d1 (by simp)) ?_
  rintro k k' ⟨h1, h2, h3⟩
  rw [List.forall₂_map_left_iff, List.forall₂_map_right_iff]
  refine List.Forall₂.imp ?_ (sel_shift (m := .same) lz w2 d2 (by simp))
  rintro l l' ⟨g1, g2, g3⟩
  have s1 : Site nelx nelz n WX WZ G R _ _ _ _ := .main p k l hp h1 g1
  have s2 : Site nelx nelz n WX WZ G R _ _ _ _ := .main p' k' l' hp' (by rw [e1]; exact h2) (by rw [e2]; exact g2)
  refine ⟨_, _, _, s1, ?_⟩
  rw [hx, hz, hy, show k' * rowW n WX p = k * rowW n WX p + Loc.off lx nelx from h3,
    show l' * rowW n WZ p = l * rowW n WZ p + Loc.off lz nelz from g3] at s2
  exact s2

theorem midL_shift (hL : Layers3 nelx nelz n WX WZ G R) (lx ly lz : Loc) (hy : ly ≠ .hi) {i : Nat} (hi : i < 2 * n - 1) :
    List.Forall₂ (Shifted nelx nelz n WX WZ G R lx ly lz)
      (midL nelx nelz n WX WZ R lx.low lz.low i) (midL nelx nelz n WX WZ R lx lz i) := by
  obtain ⟨w1, w2⟩ := hL.wpos i hi
  obtain ⟨d1, d2⟩ := hL.fits i hi
  obtain ⟨t1, t2⟩ := hL.three hi
  rw [midL, midL]
  by_cases hk : kindR3 n R i = .normal
  · rw [if_pos hk, if_pos hk]; exact List.Forall₂.nil
  rw [if_neg hk, if_neg hk]
  refine List.rel_flatMap (sel_shift lx w1 d1 t1) ?_
  rintro k k' ⟨h1, h2, h3⟩
  rw [List.forall₂_map_left_iff, List.forall₂_map_right_iff]
  refine List.Forall₂.imp ?_ (sel_shift lz w2 d2 t2)
  rintro l l' ⟨g1, g2, g3⟩
  have s1 : Site nelx nelz n WX WZ G R _ _ _ _ := .mid i k l hi hk h1 g1
  have s2 : Site nelx nelz n WX WZ G R _ _ _ _ := .mid i k' l' hi hk h2 g2
  refine ⟨_, _, _, s1, ?_⟩
  rw [h3, g3] at s2
  rw [show Loc.off ly (height G (2 * n - 1)) = 0 from if_neg hy, Nat.add_zero]
  exact s2

theorem stackL_shift (hL : Layers3 nelx nelz n WX WZ G R) (lx ly lz : Loc) (hy : ly ≠ .hi) {p q : Nat} (hq : q ≤ 2 * n) :
    List.Forall₂ (Shifted nelx nelz n WX WZ G R lx ly lz)
      (stackL nelx nelz n WX WZ R lx.low lz.low p q) (stackL nelx nelz n WX WZ R lx lz p q) := by
  rw [stackL, stackL]
  refine List.rel_flatMap (R := fun r r' => r = r' ∧ r < q) (List.forall₂_same.2 fun r hr => ?_) ?_
  · obtain ⟨k, hk, rfl⟩ := mem_itFrom.1 hr
    exact ⟨rfl, by omega⟩
  · rintro r r' ⟨rfl, hr⟩
    refine List.rel_append (planeL_shift hL lx ly lz (by omega) (by omega) rfl rfl ?_) ?_
    · rw [show Loc.off ly (height G (2 * n - 1)) = 0 from if_neg hy, Nat.add_zero]
    · split
      · exact midL_shift hL lx ly lz hy (by omega)
      · exact List.Forall₂.nil

theorem setL_shift (hL : Layers3 nelx nelz n WX WZ G R) (hs : WX 0 = WX (2 * n - 2) ∧ WZ 0 = WZ (2 * n - 2)) (lx ly lz : Loc) :
    List.Forall₂ (Shifted nelx nelz n WX WZ G R lx ly lz)
      (setL nelx nelz n WX WZ R lx.low ly.low lz.low) (setL nelx nelz n WX WZ R lx ly lz) := by
  have hn := hL.npos
  cases ly with
  | lo => exact planeL_shift hL lx .lo lz (by omega) (by omega) rfl rfl rfl
  | hi =>
    have e : ∀ (W : Nat → Nat), W 0 = W (2 * n - 2) → rowW n W (2 * n - 1) = rowW n W 0 := by
      intro W hW
      rw [rowW, rowW, if_neg (by omega), if_pos hn, hW]
      congr 1
    exact planeL_shift hL lx .hi lz (by omega) (by omega) (e _ hs.1) (e _ hs.2) (by simp [Loc.off, height])
  | all => exact stackL_shift hL lx .all lz (by simp) (by omega)
  | mid => exact stackL_shift hL lx .mid lz (by simp) (by omega)

end
end GF.FineLayer3
