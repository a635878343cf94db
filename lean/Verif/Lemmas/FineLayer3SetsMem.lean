import Verif.Lemmas.FineLayer3SetsEdges
import Verif.Props.FineLayer3

/-! Lemmas on the node sets of `Mesh::Hex8::FineLayer`: positions of the nodes of the lists. -/

namespace GF.FineLayer3
open FineLayerSpec Finset FineLayer
variable {α : Type}

theorem Loc.on_scale (l : Loc) {k w nel : Nat} (hw : 0 < w) (hd : w ∣ nel) : l.on (k * w) nel ↔ l.on k (nel / w) := by
  obtain ⟨c, rfl⟩ := hd
  rw [Nat.mul_div_cancel_left _ hw]
  cases l <;> simp only [Loc.on]
  · simp [hw.ne']
  · rw [Nat.mul_comm w c]; exact ⟨Nat.eq_of_mul_eq_mul_right hw, fun h => by rw [h]⟩
  · rw [Nat.mul_comm w c]; exact Nat.mul_le_mul_right_iff hw
  · rw [Nat.mul_comm w c, Nat.mul_lt_mul_right hw]; simp [hw]

theorem axMid_strict {w : Nat} {m : Mode} (hw : 0 < w) (hm : m ≠ .same → 3 ∣ w) {k k' : Nat} (h : k < k') :
    axMid w m k < axMid w m k' := by
  have key : 3 ∣ w → k / 2 * w + (k % 2 + 1) * (w / 3) < k' / 2 * w + (k' % 2 + 1) * (w / 3) := by
    rintro ⟨u, rfl⟩
    rw [Nat.mul_div_cancel_left _ (by omega)]
    have e : (3 * (k / 2) + (k % 2 + 1)) * u < (3 * (k' / 2) + (k' % 2 + 1)) * u :=
      Nat.mul_lt_mul_of_pos_right (by omega) (by omega)
    calc _ = (3 * (k / 2) + (k % 2 + 1)) * u := by ring
      _ < _ := e
      _ = _ := by ring
  cases m with
  | same => exact Nat.mul_lt_mul_of_pos_right h hw
  | below => exact key (hm (by simp))
  | above => exact key (hm (by simp))

theorem axMid_inner {w nel : Nat} {m : Mode} (hw : 0 < w) (hd : w ∣ nel) (hm : m ≠ .same) (h3 : 3 ∣ w) {k : Nat}
    (hk : k < axM nel w m) : 0 < axMid w m k ∧ axMid w m k < nel := by
  obtain ⟨c, rfl⟩ := hd
  obtain ⟨u, rfl⟩ := h3
  have key : k < 2 * c → 0 < k / 2 * (3 * u) + (k % 2 + 1) * (3 * u / 3) ∧
      k / 2 * (3 * u) + (k % 2 + 1) * (3 * u / 3) < 3 * u * c := by
    intro hk
    rw [Nat.mul_div_cancel_left _ (by omega)]
    have e : (3 * (k / 2) + (k % 2 + 1)) * u < (3 * c) * u :=
      Nat.mul_lt_mul_of_pos_right (by omega) (by omega)
    constructor
    · have : 0 < (k % 2 + 1) * u := Nat.mul_pos (by omega) (by omega)
      omega
    · calc _ = (3 * (k / 2) + (k % 2 + 1)) * u := by ring
        _ < _ := e
        _ = _ := by ring
  cases m with
  | same => exact absurd rfl hm
  | below => simp only [axM, Nat.mul_div_cancel_left c hw] at hk; exact key hk
  | above => simp only [axM, Nat.mul_div_cancel_left c hw] at hk; exact key hk

theorem axMid_le {w nel : Nat} {m : Mode} (hw : 0 < w) (hd : w ∣ nel) (hm : m ≠ .same → 3 ∣ w) {k : Nat}
    (hk : k < axM nel w m) : axMid w m k ≤ nel := by
  by_cases h : m = .same
  · subst h
    simp only [axMid, axM] at *
    exact (Loc.on_scale .all hw hd).2 (by simp only [Loc.on]; omega)
  · exact (axMid_inner hw hd h (hm h) hk).2.le

theorem mem_sel {w nel : Nat} {m : Mode} (l : Loc) (hw : 0 < w) (hd : w ∣ nel) (hm : m ≠ .same → 3 ∣ w) {k : Nat} :
    k ∈ sel m l (axM nel w m) ↔ k < axM nel w m ∧ l.on (axMid w m k) nel := by
  by_cases h : m = .same
  · subst h
    simp only [axMid, axM, sel, List.mem_range'_1, Nat.add_sub_cancel]
    rw [Loc.on_scale l hw hd, ← l.on_iff]
    constructor
    · intro h1
      refine ⟨?_, h1⟩
      have := l.on_iff.1 h1
      have := l.bound (n := nel / w)
      omega
    · exact fun h => h.2
  · have h1 : ∀ (hk : k < axM nel w m), l.on (axMid w m k) nel ↔ l = .all ∨ l = .mid := by
      intro hk
      have := axMid_inner hw hd h (hm h) hk
      cases l <;> simp only [Loc.on] <;> simp <;> omega
    have h2 : sel m l (axM nel w m) = if l = .all ∨ l = .mid then List.range (axM nel w m) else [] := by
      cases m with
      | same => exact absurd rfl h
      | below => cases l <;> rfl
      | above => cases l <;> rfl
    rw [h2]
    constructor
    · intro hk
      split at hk
      · rename_i hl
        have := List.mem_range.1 hk
        exact ⟨this, (h1 this).2 hl⟩
      · simp at hk
    · rintro ⟨hk, hl⟩
      rw [if_pos ((h1 hk).1 hl)]
      exact List.mem_range.2 hk

theorem sel_sorted (m : Mode) (l : Loc) (c : Nat) : (sel m l c).Pairwise (· < ·) := by
  cases m <;> cases l <;> simp only [sel] <;> first
    | exact List.pairwise_lt_range'
    | exact List.pairwise_lt_range
    | exact List.Pairwise.nil

section
variable {nelx nelz n : Nat} {WX WZ G : Nat → Nat} {R : Nat → Int}

/-- number of a node and its position in units of `h` -/
inductive Site (nelx nelz n : Nat) (WX WZ G : Nat → Nat) (R : Nat → Int) : Nat → Nat → Nat → Nat → Prop
  | main (p kx kz : Nat) : p < 2 * n → kx < rowN nelx n WX p → kz < rowN nelz n WZ p →
      Site nelx nelz n WX WZ G R (mainNode nelx nelz n WX WZ R p kx kz) (kx * rowW n WX p) (height G p) (kz * rowW n WZ p)
  | mid (i kx kz : Nat) : i < 2 * n - 1 → kindR3 n R i ≠ .normal → kx < axM nelx (WX i) (kindR3 n R i).mx →
      kz < axM nelz (WZ i) (kindR3 n R i).mz →
      Site nelx nelz n WX WZ G R (midNode nelx nelz n WX WZ R i kx kz) (axMid (WX i) (kindR3 n R i).mx kx)
        (height G i + G i / 2) (axMid (WZ i) (kindR3 n R i).mz kz)

theorem Layers3.three (hL : Layers3 nelx nelz n WX WZ G R) {i : Nat} (hi : i < 2 * n - 1) :
    ((kindR3 n R i).mx ≠ .same → 3 ∣ WX i) ∧ ((kindR3 n R i).mz ≠ .same → 3 ∣ WZ i) := by
  obtain ⟨m1, m2, -⟩ := hL.modes i hi
  constructor
  · intro h
    cases hk : (kindR3 n R i).mx with
    | same => exact absurd hk h
    | below => rw [hk] at m1; exact ⟨_, m1.2.2⟩
    | above => rw [hk] at m1; exact ⟨_, m1.2.2⟩
  · intro h
    cases hk : (kindR3 n R i).mz with
    | same => exact absurd hk h
    | below => rw [hk] at m2; exact ⟨_, m2.2.2⟩
    | above => rw [hk] at m2; exact ⟨_, m2.2.2⟩

theorem Layers3.halfG (hL : Layers3 nelx nelz n WX WZ G R) {i : Nat} (hi : i < 2 * n - 1) (hk : kindR3 n R i ≠ .normal) :
    0 < G i / 2 := by
  have := (hL.unit hi).2.1.1
  cases h : kindR3 n R i <;> rw [h] at this hk <;> first | exact absurd rfl hk | exact this

/-- every node has a position -/
theorem Layers3.site (hL : Layers3 nelx nelz n WX WZ G R) {m : Nat} (hm : m < height (blkC nelx nelz n WX WZ R) (2 * n)) :
    ∃ a b c, Site nelx nelz n WX WZ G R m a b c := by
  have hp := hL.npos
  obtain ⟨i, k, hi, hk, rfl⟩ := exists_block hm
  have hmod : ∀ {A B e : Nat}, e < A * B → e % A < A ∧ e / A < B := by
    intro A B e he
    have hA : 0 < A := by
      rcases Nat.eq_zero_or_pos A with rfl | h
      · simp at he
      · exact h
    exact ⟨Nat.mod_lt _ hA, Nat.div_lt_of_lt_mul he⟩
  by_cases hr : k < rowN3 nelx nelz n WX WZ i
  · obtain ⟨g1, g2⟩ := hmod hr
    have e : height (blkC nelx nelz n WX WZ R) i + k =
        mainNode nelx nelz n WX WZ R i (k % rowN nelx n WX i) (k / rowN nelx n WX i) := by
      rw [mainNode, rowS3_eq (by omega), Nat.add_assoc, Nat.mul_comm]
      congr 1
      exact (Nat.mod_add_div k _).symm
    rw [e]
    exact ⟨_, _, _, .main i _ _ hi g1 g2⟩
  · have h1 : i < 2 * n - 1 := by
      by_contra hc
      rw [blkC, if_neg hc] at hk
      omega
    rw [blkC, if_pos h1, midN3] at hk
    have h2 : kindR3 n R i ≠ .normal := by
      intro hc
      rw [if_pos hc] at hk
      omega
    rw [if_neg h2] at hk
    obtain ⟨e', rfl⟩ : ∃ e', k = rowN3 nelx nelz n WX WZ i + e' := ⟨k - rowN3 nelx nelz n WX WZ i, by omega⟩
    obtain ⟨g1, g2⟩ := hmod (show e' < axM nelx (WX i) (kindR3 n R i).mx * axM nelz (WZ i) (kindR3 n R i).mz by omega)
    have e : height (blkC nelx nelz n WX WZ R) i + (rowN3 nelx nelz n WX WZ i + e') =
        midNode nelx nelz n WX WZ R i (e' % axM nelx (WX i) (kindR3 n R i).mx)
          (e' / axM nelx (WX i) (kindR3 n R i).mx) := by
      rw [midNode, rowS3_eq (by omega), Nat.add_assoc (height _ i + _), Nat.mul_comm, ← Nat.add_assoc]
      congr 1
      exact (Nat.mod_add_div e' _).symm
    rw [e]
    exact ⟨_, _, _, .mid i _ _ h1 h2 g1 g2⟩

/-- block and local number of a node with a position -/
theorem Site.block {m a b c : Nat} (hs : Site nelx nelz n WX WZ G R m a b c) :
    ∃ i k, i < 2 * n ∧ k < blkC nelx nelz n WX WZ R i ∧ m = height (blkC nelx nelz n WX WZ R) i + k ∧
      ∀ j, pos3 nelx nelz n WX WZ G R i k j = vec3 a b c j := by
  cases hs with
  | main p kx kz h1 h2 h3 =>
    have hr : kz * rowN nelx n WX p + kx < rowN3 nelx nelz n WX WZ p := by
      rw [rowN3, Nat.mul_comm (rowN nelx n WX p)]; exact grid_lt h3 h2
    refine ⟨p, kz * rowN nelx n WX p + kx, h1, by rw [blkC]; omega, ?_, fun j => ?_⟩
    · rw [mainNode, rowS3_eq (by omega)]; omega
    · rw [pos3, if_pos hr, grid_div h2, grid_mod h2]
  | mid i kx kz h1 h2 h3 h4 =>
    have hlt : kz * axM nelx (WX i) (kindR3 n R i).mx + kx <
        axM nelx (WX i) (kindR3 n R i).mx * axM nelz (WZ i) (kindR3 n R i).mz := by
      rw [Nat.mul_comm (axM nelx _ _) (axM nelz _ _)]; exact grid_lt h4 h3
    refine ⟨i, rowN3 nelx nelz n WX WZ i + (kz * axM nelx (WX i) (kindR3 n R i).mx + kx), by omega, ?_, ?_, fun j => ?_⟩
    · rw [blkC, if_pos h1, midN3, if_neg h2]; omega
    · rw [midNode, rowS3_eq (by omega)]; omega
    · rw [pos3, if_neg (by omega), Nat.add_sub_cancel_left, grid_div h3, grid_mod h3]

theorem Site.lt {m a b c : Nat} (hs : Site nelx nelz n WX WZ G R m a b c) :
    m < height (blkC nelx nelz n WX WZ R) (2 * n) := by
  obtain ⟨i, k, h1, h2, rfl, -⟩ := hs.block
  have : height (blkC nelx nelz n WX WZ R) (i + 1) ≤ height (blkC nelx nelz n WX WZ R) (2 * n) := height_mono h1
  rw [height_succ] at this
  omega

theorem Site.unique {m a b c a' b' c' : Nat} (hs : Site nelx nelz n WX WZ G R m a b c)
    (hs' : Site nelx nelz n WX WZ G R m a' b' c') : a = a' ∧ b = b' ∧ c = c' := by
  obtain ⟨i, k, h1, h2, rfl, h3⟩ := hs.block
  obtain ⟨i', k', h1', h2', e, h3'⟩ := hs'.block
  obtain ⟨rfl, rfl⟩ := block_inj h2 h2' e
  have : ∀ j, vec3 a b c j = vec3 a' b' c' j := fun j => by rw [← h3, ← h3']
  exact ⟨this 0, this 1, this 2⟩

theorem Site.inj (hL : Layers3 nelx nelz n WX WZ G R) {m m' a b c : Nat} (hs : Site nelx nelz n WX WZ G R m a b c)
    (hs' : Site nelx nelz n WX WZ G R m' a b c) : m = m' := by
  obtain ⟨i, k, h1, h2, rfl, h3⟩ := hs.block
  obtain ⟨i', k', h1', h2', rfl, h3'⟩ := hs'.block
  obtain ⟨rfl, rfl⟩ := pos_inj hL h1 h1' h2 h2' fun j _ => by rw [h3, h3']
  rfl

theorem Site.bound (hL : Layers3 nelx nelz n WX WZ G R) {m a b c : Nat} (hs : Site nelx nelz n WX WZ G R m a b c) :
    a ≤ nelx ∧ b ≤ height G (2 * n - 1) ∧ c ≤ nelz := by
  cases hs with
  | main p kx kz h1 h2 h3 =>
    obtain ⟨w1, w2⟩ := hL.rowW_pos h1
    obtain ⟨d1, d2⟩ := hL.rowW_dvd h1
    exact ⟨axMid_le (m := .same) w1 d1 (by simp) h2, height_mono (by omega), axMid_le (m := .same) w2 d2 (by simp) h3⟩
  | mid i kx kz h1 h2 h3 h4 =>
    obtain ⟨w1, w2⟩ := hL.wpos i h1
    obtain ⟨d1, d2⟩ := hL.fits i h1
    obtain ⟨t1, t2⟩ := hL.three h1
    have : height G (i + 1) ≤ height G (2 * n - 1) := height_mono h1
    rw [height_succ] at this
    exact ⟨axMid_le w1 d1 t1 h3, by omega, axMid_le w2 d2 t2 h4⟩

theorem Site.x [Field α] {h : α} {x : Nat → Nat → α} (hx : Placed3 h nelx nelz n WX WZ G R x) {m a b c : Nat}
    (hs : Site nelx nelz n WX WZ G R m a b c) : x m 0 = h * (a : α) ∧ x m 1 = h * (b : α) ∧ x m 2 = h * (c : α) := by
  obtain ⟨i, k, h1, h2, rfl, h3⟩ := hs.block
  have := fun j hj => hx i k j h1 h2 hj
  refine ⟨?_, ?_, ?_⟩
  · rw [this 0 (by omega), h3]; rfl
  · rw [this 1 (by omega), h3]; rfl
  · rw [this 2 (by omega), h3]; rfl

theorem Layers3.strict (hL : Layers3 nelx nelz n WX WZ G R) {i j : Nat} (h : i < j) (hj : j ≤ 2 * n - 1) :
    height G i < height G j := by
  have h1 := hL.gpos i (by omega)
  have h2 : height G (i + 1) ≤ height G j := height_mono h
  rw [height_succ] at h2
  omega

theorem mem_planeL (hL : Layers3 nelx nelz n WX WZ G R) {lx lz : Loc} {p m a b c : Nat} (hp : p < 2 * n)
    (hs : Site nelx nelz n WX WZ G R m a b c) :
    m ∈ planeL nelx nelz n WX WZ R lx lz p ↔ lx.on a nelx ∧ b = height G p ∧ lz.on c nelz := by
  obtain ⟨w1, w2⟩ := hL.rowW_pos hp
  obtain ⟨d1, d2⟩ := hL.rowW_dvd hp
  have ms := fun l k => mem_sel (m := .same) l w1 d1 (by simp) (k := k)
  have mz := fun l k => mem_sel (m := .same) l w2 d2 (by simp) (k := k)
  rw [planeL, List.mem_flatMap]
  constructor
  · rintro ⟨kx, hkx, hm⟩
    obtain ⟨kz, hkz, rfl⟩ := List.mem_map.1 hm
    obtain ⟨x1, x2⟩ := (ms lx kx).1 hkx
    obtain ⟨z1, z2⟩ := (mz lz kz).1 hkz
    obtain ⟨rfl, rfl, rfl⟩ := hs.unique (.main p kx kz hp x1 z1)
    exact ⟨x2, rfl, z2⟩
  · rintro ⟨h1, h2, h3⟩
    cases hs with
    | main q kx kz q1 q2 q3 =>
      obtain rfl : q = p := by
        rcases Nat.lt_trichotomy q p with h | h | h
        · have := hL.strict h (by omega); omega
        · exact h
        · have := hL.strict h (by omega); omega
      exact ⟨kx, (ms lx kx).2 ⟨q2, h1⟩, List.mem_map.2 ⟨kz, (mz lz kz).2 ⟨q3, h3⟩, rfl⟩⟩
    | mid i kx kz i1 i2 i3 i4 =>
      exfalso
      have hg := hL.halfG i1 i2
      have e := height_succ G i
      rcases Nat.lt_or_ge i p with h | h
      · have : height G (i + 1) ≤ height G p := height_mono h
        omega
      · have : height G p ≤ height G i := height_mono h
        omega

theorem mem_midL (hL : Layers3 nelx nelz n WX WZ G R) {lx lz : Loc} {i m a b c : Nat} (hi : i < 2 * n - 1)
    (hs : Site nelx nelz n WX WZ G R m a b c) :
    m ∈ midL nelx nelz n WX WZ R lx lz i ↔
      lx.on a nelx ∧ (height G i < b ∧ b < height G (i + 1)) ∧ lz.on c nelz := by
  obtain ⟨w1, w2⟩ := hL.wpos i hi
  obtain ⟨d1, d2⟩ := hL.fits i hi
  obtain ⟨t1, t2⟩ := hL.three hi
  have ms := fun l k => mem_sel l w1 d1 t1 (k := k)
  have mz := fun l k => mem_sel l w2 d2 t2 (k := k)
  have e := height_succ G i
  have hGi := hL.gpos i hi
  constructor
  · intro hm
    rw [midL] at hm
    split at hm
    · simp at hm
    · rename_i hk
      obtain ⟨kx, hkx, hm⟩ := List.mem_flatMap.1 hm
      obtain ⟨kz, hkz, rfl⟩ := List.mem_map.1 hm
      obtain ⟨x1, x2⟩ := (ms lx kx).1 hkx
      obtain ⟨z1, z2⟩ := (mz lz kz).1 hkz
      obtain ⟨rfl, rfl, rfl⟩ := hs.unique (.mid i kx kz hi hk x1 z1)
      have hg := hL.halfG hi hk
      exact ⟨x2, by omega, z2⟩
  · rintro ⟨h1, h2, h3⟩
    cases hs with
    | main q kx kz q1 q2 q3 =>
      exfalso
      rcases Nat.lt_or_ge i q with h | h
      · have : height G (i + 1) ≤ height G q := height_mono h
        omega
      · have : height G q ≤ height G i := height_mono h
        omega
    | mid i' kx kz i1 i2 i3 i4 =>
      have hG' := hL.gpos i' i1
      have e' := height_succ G i'
      obtain rfl : i' = i := by
        rcases Nat.lt_trichotomy i' i with h | h | h
        · have : height G (i' + 1) ≤ height G i := height_mono h
          omega
        · exact h
        · have : height G (i + 1) ≤ height G i' := height_mono h
          omega
      rw [midL, if_neg i2, List.mem_flatMap]
      exact ⟨kx, (ms lx kx).2 ⟨i3, h1⟩, List.mem_map.2 ⟨kz, (mz lz kz).2 ⟨i4, h3⟩, rfl⟩⟩

theorem mem_stackL (hL : Layers3 nelx nelz n WX WZ G R) {lx lz : Loc} {p q m a b c : Nat} (hp : p ≤ 2 * n - 1) (hq : q < 2 * n)
    (hs : Site nelx nelz n WX WZ G R m a b c) :
    m ∈ stackL nelx nelz n WX WZ R lx lz p (q + 1) ↔
      lx.on a nelx ∧ (height G p ≤ b ∧ b ≤ height G q) ∧ lz.on c nelz := by
  have hn := hL.npos
  rw [stackL, List.mem_flatMap]
  constructor
  · rintro ⟨r, hr, hm⟩
    obtain ⟨k, hk, rfl⟩ := mem_itFrom.1 hr
    have h1 : height G p ≤ height G (p + k) := height_mono (by omega)
    rcases List.mem_append.1 hm with hm | hm
    · obtain ⟨m1, m2, m3⟩ := (mem_planeL hL (by omega) hs).1 hm
      have h2 : height G (p + k) ≤ height G q := height_mono (by omega)
      exact ⟨m1, by omega, m3⟩
    · split at hm
      · rename_i hlt
        obtain ⟨m1, m2, m3⟩ := (mem_midL hL (by omega) hs).1 hm
        have h2 : height G (p + k + 1) ≤ height G q := height_mono (by omega)
        exact ⟨m1, by omega, m3⟩
      · simp at hm
  · rintro ⟨h1, h2, h3⟩
    have key : ∀ r, height G r ≤ b → b ≤ height G r + (G r - 1) → r < 2 * n → (b ≠ height G r → r < 2 * n - 1) →
        ∃ p_1 ∈ itFrom p (q + 1), m ∈ planeL nelx nelz n WX WZ R lx lz p_1 ++
          if p_1 + 1 < q + 1 then midL nelx nelz n WX WZ R lx lz p_1 else [] := by
      intro r r1 r2 r3 r4
      have a1 : p ≤ r := by
        by_contra hc
        by_cases hb : b = height G r
        · have := hL.strict (show r < p by omega) hp
          omega
        · have h5 := r4 hb
          have h6 : height G (r + 1) ≤ height G p := height_mono (by omega)
          rw [height_succ] at h6
          have := hL.gpos r h5
          omega
      have a2 : r ≤ q := by
        by_contra hc
        have := hL.strict (show q < r by omega) (by omega)
        omega
      refine ⟨r, mem_itFrom.2 ⟨r - p, by omega, by omega⟩, List.mem_append.2 ?_⟩
      by_cases hb : b = height G r
      · exact .inl ((mem_planeL hL r3 hs).2 ⟨h1, hb, h3⟩)
      · right
        have h5 := r4 hb
        have hr : r < q := by
          by_contra hc
          have : r = q := by omega
          subst this
          omega
        rw [if_pos (by omega)]
        refine (mem_midL hL h5 hs).2 ⟨h1, ?_, h3⟩
        rw [height_succ]
        have := hL.gpos r h5
        omega
    cases hs with
    | main r kx kz q1 q2 q3 => exact key r (le_refl _) (by omega) q1 (fun h => absurd rfl h)
    | mid i kx kz i1 i2 i3 i4 =>
      have := hL.halfG i1 i2
      exact key i (by omega) (by omega) (by omega) (fun _ => i1)

/-- heights at which the library looks for nodes, for a location in vertical direction -/
def band (n : Nat) (G : Nat → Nat) (l : Loc) (b : Nat) : Prop :=
  match l with
  | .lo => b = 0
  | .hi => b = height G (2 * n - 1)
  | .all => True
  | .mid => height G 1 ≤ b ∧ b ≤ height G (2 * n - 2)

theorem mem_setL (hL : Layers3 nelx nelz n WX WZ G R) {lx ly lz : Loc} {m a b c : Nat}
    (hs : Site nelx nelz n WX WZ G R m a b c) :
    m ∈ setL nelx nelz n WX WZ R lx ly lz ↔ lx.on a nelx ∧ band n G ly b ∧ lz.on c nelz := by
  have hn := hL.npos
  cases ly with
  | lo => exact mem_planeL hL (by omega) hs
  | hi => exact mem_planeL hL (by omega) hs
  | all =>
    have := mem_stackL hL (lx := lx) (lz := lz) (p := 0) (q := 2 * n - 1) (by omega) (by omega) hs
    rw [show 2 * n - 1 + 1 = 2 * n by omega] at this
    have hb := (hs.bound hL).2.1
    simp only [setL, band]
    rw [this]
    simp [height] at *
    intro _ _
    exact hb
  | mid =>
    have := mem_stackL hL (lx := lx) (lz := lz) (p := 1) (q := 2 * n - 2) (by omega) (by omega) hs
    rw [show 2 * n - 2 + 1 = 2 * n - 1 by omega] at this
    exact this

theorem setL_site (hL : Layers3 nelx nelz n WX WZ G R) {lx ly lz : Loc} {m : Nat}
    (hm : m ∈ setL nelx nelz n WX WZ R lx ly lz) : ∃ a b c, Site nelx nelz n WX WZ G R m a b c := by
  have hn := hL.npos
  have pl : ∀ p, p < 2 * n → m ∈ planeL nelx nelz n WX WZ R lx lz p → ∃ a b c, Site nelx nelz n WX WZ G R m a b c := by
    intro p hp hm
    obtain ⟨w1, w2⟩ := hL.rowW_pos hp
    obtain ⟨d1, d2⟩ := hL.rowW_dvd hp
    obtain ⟨kx, hkx, hm⟩ := List.mem_flatMap.1 hm
    obtain ⟨kz, hkz, rfl⟩ := List.mem_map.1 hm
    exact ⟨_, _, _, .main p kx kz hp ((mem_sel (m := .same) lx w1 d1 (by simp)).1 hkx).1
      ((mem_sel (m := .same) lz w2 d2 (by simp)).1 hkz).1⟩
  have md : ∀ i, i < 2 * n - 1 → m ∈ midL nelx nelz n WX WZ R lx lz i → ∃ a b c, Site nelx nelz n WX WZ G R m a b c := by
    intro i hi hm
    obtain ⟨w1, w2⟩ := hL.wpos i hi
    obtain ⟨d1, d2⟩ := hL.fits i hi
    obtain ⟨t1, t2⟩ := hL.three hi
    rw [midL] at hm
    split at hm
    · simp at hm
    · rename_i hk
      obtain ⟨kx, hkx, hm⟩ := List.mem_flatMap.1 hm
      obtain ⟨kz, hkz, rfl⟩ := List.mem_map.1 hm
      exact ⟨_, _, _, .mid i kx kz hi hk ((mem_sel lx w1 d1 t1).1 hkx).1 ((mem_sel lz w2 d2 t2).1 hkz).1⟩
  have st : ∀ p q, q ≤ 2 * n → m ∈ stackL nelx nelz n WX WZ R lx lz p q → ∃ a b c, Site nelx nelz n WX WZ G R m a b c := by
    intro p q hq hm
    obtain ⟨r, hr, hm⟩ := List.mem_flatMap.1 hm
    obtain ⟨k, hk, rfl⟩ := mem_itFrom.1 hr
    rcases List.mem_append.1 hm with hm | hm
    · exact pl _ (by omega) hm
    · split at hm
      · exact md _ (by omega) hm
      · simp at hm
  cases ly with
  | lo => exact pl _ (by omega) hm
  | hi => exact pl _ (by omega) hm
  | all => exact st _ _ (by omega) hm
  | mid => exact st _ _ (by omega) hm

end
end GF.FineLayer3
