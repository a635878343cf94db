import Verif.Model.FineLayer3
import Verif.Spec.FineLayer3
import Verif.Lemmas.FineLayerNew

/-! Lemmas on `Mesh::Hex8::FineLayer`: the layers of one half. -/

namespace GF.FineLayer3
open FineLayerSpec Finset FineLayer
variable {α : Type}

/-- the array holds `f` up to `iy` and `c` from there -/
def mix {β : Type} (iy : Nat) (f : Nat → β) (c : β) (k : Nat) : β := if k < iy then f k else c

/-- extend by one value -/
def upd {β : Type} (iy : Nat) (f : Nat → β) (a : β) (k : Nat) : β := if k = iy then a else f k

theorem upd_self {β : Type} (iy : Nat) (f : Nat → β) (a : β) : upd iy f a iy = a := by simp [upd]
theorem upd_lt {β : Type} {iy k : Nat} (f : Nat → β) (a : β) (h : k < iy) : upd iy f a k = f k := by
  simp [upd, show k ≠ iy by omega]

/-- the four temporaries hold the layers up to `iy` and the current sizes from there -/
structure HalfIs (H : FineLayer3.Half) (nely iy : Nat) (wx wz g : Nat → Nat) (r : Nat → Int) (cx cz cv : Nat) : Prop where
  nhx : Is1 H.nhx nely (mix iy wx cx)
  nhy : Is1 H.nhy nely (mix iy g cv)
  nhz : Is1 H.nhz nely (mix iy wz cz)
  refine : Is1 H.refine nely (mix iy r (-1))

/-- the rule that determines layer `i + 1` from layer `i` -/
def StepAt (nelx nelz nmin nfine : Nat) (wx wz g : Nat → Nat) (r : Nat → Int) (i : Nat) : Prop :=
    if r i = 0 ∧ height g i + 2 * g i < nmin ∧ 3 * wz i ∣ nelz then
      r (i + 1) = 2 ∧ wx (i + 1) = wx i ∧ wz (i + 1) = 3 * wz i ∧ g (i + 1) = g i
    else if nfine ≤ i + 1 ∧ 3 * max (wx i) (wz i) ≤ height g (i + 1) ∧
        height g (i + 1) + max (wx i) (wz i) < nmin ∧ 3 * wx i ∣ nelx then
      r (i + 1) = 0 ∧ wx (i + 1) = 3 * wx i ∧ wz (i + 1) = wz i ∧ g (i + 1) = 2 * max (wx i) (wz i)
    else if nfine ≤ i + 1 ∧ 3 * max (wx i) (wz i) ≤ height g (i + 1) ∧
        height g (i + 1) + max (wx i) (wz i) < nmin ∧ 3 * wz i ∣ nelz then
      r (i + 1) = 2 ∧ wx (i + 1) = wx i ∧ wz (i + 1) = 3 * wz i ∧ g (i + 1) = 2 * max (wx i) (wz i)
    else r (i + 1) = -1 ∧ wx (i + 1) = wx i ∧ wz (i + 1) = wz i ∧ g (i + 1) = max (wx i) (wz i)

/-- what holds of the layers up to `iy` -/
structure Core (nelx nelz nmin nfine iy ntot : Nat) (wx wz g : Nat → Nat) (r : Nat → Int) (cx cz cv : Nat) : Prop where
  pos : 0 < iy
  fine : nfine ≤ iy
  mid : wx 0 = 1 ∧ wz 0 = 1 ∧ g 0 = 1 ∧ r 0 = -1
  step : ∀ i, i + 1 < iy → StepAt nelx nelz nmin nfine wx wz g r i
  fits : ∀ i, i < iy → wx i ∣ nelx ∧ wz i ∣ nelz
  curx : cx = wx (iy - 1)
  curz : cz = wz (iy - 1)
  curv : cv = max cx cz
  cpos : 0 < cx ∧ 0 < cz
  total : ntot = height g iy
  low : iy ≤ ntot
  minimal : ∀ i, nfine ≤ i → i < iy → height g i < nmin

theorem height_upd {g : Nat → Nat} {iy k a : Nat} (h : k ≤ iy) : height (upd iy g a) k = height g k :=
  height_congr fun j hj => upd_lt _ _ (by omega)

/-- one more layer -/
theorem Core.ext {nelx nelz nmin nfine iy ntot : Nat} {wx wz g : Nat → Nat} {r : Nat → Int} {cx cz cv : Nat}
    (h : Core nelx nelz nmin nfine iy ntot wx wz g r cx cz cv) {x z y v : Nat} {rr : Int} (hnt : ntot < nmin)
    (hx : x ∣ nelx) (hz : z ∣ nelz) (hxp : 0 < x) (hzp : 0 < z) (hy : 0 < y) (hv : v = max x z)
    (hs : if r (iy - 1) = 0 ∧ height g (iy - 1) + 2 * g (iy - 1) < nmin ∧ 3 * cz ∣ nelz then
        rr = 2 ∧ x = cx ∧ z = 3 * cz ∧ y = g (iy - 1)
      else if 3 * cv ≤ ntot ∧ ntot + cv < nmin ∧ 3 * cx ∣ nelx then
        rr = 0 ∧ x = 3 * cx ∧ z = cz ∧ y = 2 * cv
      else if 3 * cv ≤ ntot ∧ ntot + cv < nmin ∧ 3 * cz ∣ nelz then
        rr = 2 ∧ x = cx ∧ z = 3 * cz ∧ y = 2 * cv
      else rr = -1 ∧ x = cx ∧ z = cz ∧ y = cv) :
    Core nelx nelz nmin nfine (iy + 1) (ntot + y) (upd iy wx x) (upd iy wz z) (upd iy g y) (upd iy r rr) x z v := by
  have hp := h.pos
  have hf := h.fine
  have hlow := h.low
  constructor
  · omega
  · omega
  · rw [upd_lt _ _ hp, upd_lt _ _ hp, upd_lt _ _ hp, upd_lt _ _ hp]; exact h.mid
  · intro i hi
    unfold StepAt
    rw [height_upd (show i ≤ iy by omega), height_upd (show i + 1 ≤ iy by omega), upd_lt wx _ (show i < iy by omega),
      upd_lt wz _ (show i < iy by omega), upd_lt g _ (show i < iy by omega), upd_lt r _ (show i < iy by omega)]
    by_cases hl : i + 1 < iy
    · rw [upd_lt wx _ hl, upd_lt wz _ hl, upd_lt g _ hl, upd_lt r _ hl]
      exact h.step i hl
    · obtain rfl : i = iy - 1 := by omega
      rw [show iy - 1 + 1 = iy by omega, upd_self, upd_self, upd_self, upd_self, ← h.curx, ← h.curz, ← h.curv, ← h.total]
      simp only [hf, true_and]
      exact hs
  · intro i hi
    by_cases hl : i < iy
    · rw [upd_lt _ _ hl, upd_lt _ _ hl]; exact h.fits i hl
    · obtain rfl : i = iy := by omega
      rw [upd_self, upd_self]; exact ⟨hx, hz⟩
  · rw [show iy + 1 - 1 = iy by omega, upd_self]
  · rw [show iy + 1 - 1 = iy by omega, upd_self]
  · exact hv
  · exact ⟨hxp, hzp⟩
  · rw [height_succ, height_upd (le_refl _), upd_self, h.total]
  · omega
  · intro i h1 h2
    rw [height_upd (by omega)]
    by_cases hl : i < iy
    · exact h.minimal i h1 hl
    · obtain rfl : i = iy := by omega
      rw [← h.total]; exact hnt

/-- invariant of the construction loop -/
structure GrowInv (nelx nelz nmin nely nfine iy ntot : Nat) (wx wz g : Nat → Nat) (r : Nat → Int) (cx cz cv : Nat) : Prop
    extends Core nelx nelz nmin nfine iy ntot wx wz g r cx cz cv where
  jx : cx = cv ∨ ¬ 3 * cx ∣ nelx
  jz : cz = cv ∨ ¬ 3 * cz ∣ nelz ∨ nmin ≤ ntot + cv
  nopend : iy < nely → ¬ (r (iy - 1) = 0 ∧ height g (iy - 1) + 2 * g (iy - 1) < nmin ∧ 3 * cz ∣ nelz)

theorem Is1.ext {β : Type} {t : Ten β} {n : Nat} {f f' : Nat → β} (h : Is1 t n f) (he : ∀ k, k < n → f k = f' k) :
    Is1 t n f' := ⟨h.1, fun k hk => by rw [h.2 k hk, he k hk]⟩

/-- `iy`, `ntot` and the arrays after one iteration -/
theorem tryCoarsen_spec {nelx nelz nmin nely nfine iy ntot : Nat} (hmin : nmin ≤ nely) {H : FineLayer3.Half}
    {wx wz g : Nat → Nat} {r : Nat → Int} {cx cz cv : Nat} (hH : HalfIs H nely iy wx wz g r cx cz cv)
    (hinv : GrowInv nelx nelz nmin nely nfine iy ntot wx wz g r cx cz cv) (hlt : iy < nely) (hnt : ntot < nmin) :
    ∃ iy' ntot' H' y wx' wz' g' r' cx' cz' cv', FineLayer3.tryCoarsen nelx nelz nmin nely iy ntot H = .ok (iy', ntot', H') ∧
      iy ≤ iy' ∧ iy' < nely ∧ H'.nhy.get [iy'] = .ok y ∧ HalfIs H' nely (iy' + 1) wx' wz' g' r' cx' cz' cv' ∧
      GrowInv nelx nelz nmin nely nfine (iy' + 1) (ntot' + y) wx' wz' g' r' cx' cz' cv' := by
  have hC := hinv.toCore
  have hmixx : mix iy wx cx iy = cx := by simp [mix]
  have hmixz : mix iy wz cz iy = cz := by simp [mix]
  have hmixy : mix iy g cv iy = cv := by simp [mix]
  have hcp := hC.cpos
  have hcv := hC.curv
  have hp := hC.pos
  have hlow := hC.low
  have hdx : cx ∣ nelx := by rw [hC.curx]; exact (hC.fits _ (by omega)).1
  have hdz : cz ∣ nelz := by rw [hC.curz]; exact (hC.fits _ (by omega)).2
  have hvp : 0 < cv := by omega
  have hno := hinv.nopend hlt
  unfold FineLayer3.tryCoarsen
  rw [hH.nhy.get hlt, Res.ok_bind, hH.nhx.get hlt, Res.ok_bind, hH.nhz.get hlt, Res.ok_bind, hmixx, hmixy, hmixz]
  by_cases hcX : 3 * cv ≤ ntot ∧ nelx % (3 * cx) = 0 ∧ ntot + cv < nmin
  · rw [if_pos hcX]
    have e1 : 3 * cx ∣ nelx := Nat.dvd_of_mod_eq_zero hcX.2.1
    have hxv : cx = cv := hinv.jx.resolve_right (fun h => h e1)
    unfold FineLayer3.coarsenX
    obtain ⟨rt, r1, r2⟩ := Is1.setAt hH.refine hlt 0
    obtain ⟨yt, y1, y2⟩ := Is1.setAt hH.nhy hlt (cv * 2)
    rw [r1, Res.ok_bind, hH.nhy.get hlt, Res.ok_bind, hmixy, y1, Res.ok_bind, Res.ok_bind]
    have y3 := scaleFrom_spec (a := iy + 1) (s := 3) y2
    have x3 := scaleFrom_spec (a := iy) (s := 3) hH.nhx
    -- the arrays after the first layer
    have hH1 : HalfIs ⟨scaleFrom H.nhx iy 3, scaleFrom yt (iy + 1) 3, H.nhz, rt⟩ nely (iy + 1) (upd iy wx (3 * cx))
        (upd iy wz cz) (upd iy g (2 * cv)) (upd iy r 0) (3 * cx) cz (3 * cv) := by
      refine ⟨Is1.ext x3 fun k _ => ?_, Is1.ext y3 fun k _ => ?_, Is1.ext hH.nhz fun k _ => ?_, Is1.ext r2 fun k _ => ?_⟩
      all_goals
        simp only [mix, upd]
        rcases Nat.lt_trichotomy k iy with hk | hk | hk
        · simp [hk, show k ≠ iy by omega, show ¬ iy ≤ k by omega, show k < iy + 1 by omega, show ¬ iy < k by omega]
        · subst hk; simp [Nat.mul_comm]
        · simp [show k ≠ iy by omega, show iy ≤ k by omega, show ¬ k < iy + 1 by omega, show ¬ k < iy by omega,
            show iy < k by omega, Nat.mul_comm]
    have hC1 : Core nelx nelz nmin nfine (iy + 1) (ntot + 2 * cv) (upd iy wx (3 * cx)) (upd iy wz cz)
        (upd iy g (2 * cv)) (upd iy r 0) (3 * cx) cz (3 * cv) := by
      refine hC.ext hnt e1 hdz (by omega) hcp.2 (by omega) (by omega) ?_
      rw [if_neg hno, if_pos ⟨hcX.1, hcX.2.2, e1⟩]
      exact ⟨rfl, rfl, rfl, rfl⟩
    have hy1 : Ten.get (scaleFrom yt (iy + 1) 3) [iy] = .ok (2 * cv) := by
      have := hH1.nhy.get hlt
      rw [this]
      simp [mix, upd]
    unfold FineLayer3.tryPair
    simp only []
    rw [hy1, Res.ok_bind]
    -- the second layer does not follow
    have noPair : ¬ (iy + 1 < nely ∧ ntot + 2 * (2 * cv) < nmin ∧ 3 * cz ∣ nelz) →
        GrowInv nelx nelz nmin nely nfine (iy + 1) (ntot + 2 * cv) (upd iy wx (3 * cx)) (upd iy wz cz)
          (upd iy g (2 * cv)) (upd iy r 0) (3 * cx) cz (3 * cv) := by
      intro hn
      refine { hC1 with jx := Or.inl (by omega), jz := ?_, nopend := ?_ }
      · by_cases hd : 3 * cz ∣ nelz
        · right; right
          by_cases hc : iy + 1 < nely
          · have : ¬ ntot + 2 * (2 * cv) < nmin := fun h => hn ⟨hc, h, hd⟩
            omega
          · omega
        · exact Or.inr (Or.inl hd)
      · rintro hc ⟨-, h2, h3⟩
        rw [show iy + 1 - 1 = iy by omega, height_upd (le_refl _), upd_self, ← hC.total] at h2
        exact hn ⟨hc, h2, h3⟩
    by_cases hp1 : iy + 1 < nely ∧ ntot + 2 * (2 * cv) < nmin
    · rw [if_pos hp1, hH.nhz.get hp1.1, Res.ok_bind]
      have hz1 : mix iy wz cz (iy + 1) = cz := by simp [mix]
      rw [hz1]
      by_cases hd : nelz % (3 * cz) = 0
      · rw [if_pos hd]
        have e2 : 3 * cz ∣ nelz := Nat.dvd_of_mod_eq_zero hd
        have hzv : cz = cv := by
          rcases hinv.jz with h | h | h
          · exact h
          · exact absurd e2 h
          · omega
        unfold FineLayer3.pairZ
        simp only []
        obtain ⟨rt', r1', r2'⟩ := Is1.setAt hH1.refine hp1.1 2
        obtain ⟨yt', y1', y2'⟩ := Is1.setAt hH1.nhy hp1.1 (2 * cv)
        simp only [] at r1' y1'
        rw [r1', Res.ok_bind, show iy + 1 - 1 = iy by omega, hy1, Res.ok_bind, y1', Res.ok_bind, Res.ok_bind]
        have z3 := scaleFrom_spec (a := iy + 1) (s := 3) hH1.nhz
        have hH2 : HalfIs ⟨scaleFrom H.nhx iy 3, yt', scaleFrom H.nhz (iy + 1) 3, rt'⟩ nely (iy + 2)
            (upd (iy + 1) (upd iy wx (3 * cx)) (3 * cx)) (upd (iy + 1) (upd iy wz cz) (3 * cz))
            (upd (iy + 1) (upd iy g (2 * cv)) (2 * cv)) (upd (iy + 1) (upd iy r 0) 2) (3 * cx) (3 * cz) (3 * cv) := by
          refine ⟨Is1.ext hH1.nhx fun k _ => ?_, Is1.ext y2' fun k _ => ?_, Is1.ext z3 fun k _ => ?_, Is1.ext r2' fun k _ => ?_⟩
          all_goals
            generalize upd iy wx (3 * cx) = a1
            generalize upd iy wz cz = a2
            generalize upd iy g (2 * cv) = a3
            generalize upd iy r 0 = a4
            simp only [mix, upd]
            rcases Nat.lt_trichotomy k (iy + 1) with hk | hk | hk
            · simp [hk, show k ≠ iy + 1 by omega, show ¬ iy + 1 ≤ k by omega, show k < iy + 2 by omega,
                show ¬ iy < k by omega]
            · subst hk; simp [Nat.mul_comm]
            · simp [show k ≠ iy + 1 by omega, show iy + 1 ≤ k by omega, show ¬ k < iy + 2 by omega, show ¬ k < iy + 1 by omega,
                show iy < k by omega, Nat.mul_comm]
        have hC2 := hC1.ext (x := 3 * cx) (z := 3 * cz) (y := 2 * cv) (v := 3 * cv) (rr := 2) (by omega) e1 e2
          (by omega) (by omega) (by omega) (by omega) (by
            rw [show iy + 1 - 1 = iy by omega, height_upd (le_refl _), upd_self, upd_self, ← hC.total]
            rw [if_pos ⟨rfl, hp1.2, e2⟩]
            exact ⟨rfl, rfl, rfl, rfl⟩)
        refine ⟨iy + 1, ntot + 2 * cv, _, 2 * cv, _, _, _, _, _, _, _, rfl, by omega, hp1.1, ?_, hH2,
          { hC2 with jx := Or.inl (by omega), jz := Or.inl (by omega), nopend := ?_ }⟩
        · rw [hH2.nhy.get hp1.1]; simp [mix, upd]
        · rintro - ⟨h1, -⟩
          rw [show iy + 1 + 1 - 1 = iy + 1 by omega, upd_self] at h1
          omega
      · rw [if_neg hd]
        exact ⟨iy, ntot, _, 2 * cv, _, _, _, _, _, _, _, rfl, le_refl _, hlt, hy1, hH1,
          noPair fun h => hd (Nat.mod_eq_zero_of_dvd h.2.2)⟩
    · rw [if_neg hp1]
      exact ⟨iy, ntot, _, 2 * cv, _, _, _, _, _, _, _, rfl, le_refl _, hlt, hy1, hH1,
        noPair fun h => hp1 ⟨h.1, h.2.1⟩⟩
  · rw [if_neg hcX]
    have hnx : ¬ (3 * cv ≤ ntot ∧ ntot + cv < nmin ∧ 3 * cx ∣ nelx) := fun h =>
      hcX ⟨h.1, Nat.mod_eq_zero_of_dvd h.2.2, h.2.1⟩
    by_cases hcZ : 3 * cv ≤ ntot ∧ nelz % (3 * cz) = 0 ∧ ntot + cv < nmin
    · rw [if_pos hcZ]
      have e2 : 3 * cz ∣ nelz := Nat.dvd_of_mod_eq_zero hcZ.2.1
      have hzv : cz = cv := by
        rcases hinv.jz with h | h | h
        · exact h
        · exact absurd e2 h
        · omega
      unfold FineLayer3.coarsenZ
      obtain ⟨rt, r1, r2⟩ := Is1.setAt hH.refine hlt 2
      obtain ⟨yt, y1, y2⟩ := Is1.setAt hH.nhy hlt (cv * 2)
      rw [r1, Res.ok_bind, hH.nhy.get hlt, Res.ok_bind, hmixy, y1, Res.ok_bind, Res.ok_bind]
      have y3 := scaleFrom_spec (a := iy + 1) (s := 3) y2
      have z3 := scaleFrom_spec (a := iy) (s := 3) hH.nhz
      have hH1 : HalfIs ⟨H.nhx, scaleFrom yt (iy + 1) 3, scaleFrom H.nhz iy 3, rt⟩ nely (iy + 1) (upd iy wx cx)
          (upd iy wz (3 * cz)) (upd iy g (2 * cv)) (upd iy r 2) cx (3 * cz) (3 * cv) := by
        refine ⟨Is1.ext hH.nhx fun k _ => ?_, Is1.ext y3 fun k _ => ?_, Is1.ext z3 fun k _ => ?_, Is1.ext r2 fun k _ => ?_⟩
        all_goals
          simp only [mix, upd]
          rcases Nat.lt_trichotomy k iy with hk | hk | hk
          · simp [hk, show k ≠ iy by omega, show ¬ iy ≤ k by omega, show k < iy + 1 by omega, show ¬ iy < k by omega]
          · subst hk; simp [Nat.mul_comm]
          · simp [show k ≠ iy by omega, show iy ≤ k by omega, show ¬ k < iy + 1 by omega, show ¬ k < iy by omega,
              show iy < k by omega, Nat.mul_comm]
      have hC1 := hC.ext (x := cx) (z := 3 * cz) (y := 2 * cv) (v := 3 * cv) (rr := 2) hnt hdx e2 hcp.1 (by omega)
        (by omega) (by omega) (by
          rw [if_neg hno, if_neg hnx, if_pos ⟨hcZ.1, hcZ.2.2, e2⟩]
          exact ⟨rfl, rfl, rfl, rfl⟩)
      refine ⟨iy, ntot, _, 2 * cv, _, _, _, _, _, _, _, rfl, le_refl _, hlt, ?_, hH1,
          { hC1 with jx := Or.inr ?_, jz := Or.inl (by omega), nopend := ?_ }⟩
      · rw [hH1.nhy.get hlt]; simp [mix, upd]
      · exact fun h => hnx ⟨hcZ.1, hcZ.2.2, h⟩
      · rintro - ⟨h1, -⟩
        rw [show iy + 1 - 1 = iy by omega, upd_self] at h1
        omega
    · rw [if_neg hcZ]
      have hnz : ¬ (3 * cv ≤ ntot ∧ ntot + cv < nmin ∧ 3 * cz ∣ nelz) := fun h =>
        hcZ ⟨h.1, Nat.mod_eq_zero_of_dvd h.2.2, h.2.1⟩
      have hH1 : HalfIs H nely (iy + 1) (upd iy wx cx)
          (upd iy wz cz) (upd iy g cv) (upd iy r (-1)) cx cz cv := by
        refine ⟨Is1.ext hH.nhx fun k _ => ?_, Is1.ext hH.nhy fun k _ => ?_, Is1.ext hH.nhz fun k _ => ?_, Is1.ext hH.refine fun k _ => ?_⟩
        all_goals
          simp only [mix, upd]
          rcases Nat.lt_trichotomy k iy with hk | hk | hk
          · simp [hk, show k ≠ iy by omega, show k < iy + 1 by omega]
          · subst hk; simp
          · simp [show k ≠ iy by omega, show ¬ k < iy + 1 by omega, show ¬ k < iy by omega]
      have hC1 := hC.ext (x := cx) (z := cz) (y := cv) (v := cv) (rr := -1) hnt hdx hdz hcp.1 hcp.2
        hvp hcv (by
          rw [if_neg hno, if_neg hnx, if_neg hnz]
          exact ⟨rfl, rfl, rfl, rfl⟩)
      refine ⟨iy, ntot, _, cv, _, _, _, _, _, _, _, rfl, le_refl _, hlt, ?_, hH1,
          { hC1 with jx := hinv.jx, jz := ?_, nopend := ?_ }⟩
      · rw [hH.nhy.get hlt, hmixy]
      · rcases hinv.jz with h | h | h
        · exact Or.inl h
        · exact Or.inr (Or.inl h)
        · exact Or.inr (Or.inr (by omega))
      · rintro - ⟨h1, -⟩
        rw [show iy + 1 - 1 = iy by omega, upd_self] at h1
        omega

theorem grow_spec (nelx nelz nmin nely nfine : Nat) (hmin : nmin ≤ nely) (fuel iy ntot : Nat) (H : FineLayer3.Half)
    (wx wz g : Nat → Nat) (r : Nat → Int) (cx cz cv : Nat) (hH : HalfIs H nely iy wx wz g r cx cz cv)
    (hinv : GrowInv nelx nelz nmin nely nfine iy ntot wx wz g r cx cz cv) (hfuel : nely + 1 ≤ iy + fuel) (hle : iy ≤ nely) :
    ∃ n H' wx' wz' g' r' cx' cz' cv', FineLayer3.grow nelx nelz nmin nely fuel iy ntot H = .ok (n, H') ∧ n ≤ nely ∧
      HalfIs H' nely n wx' wz' g' r' cx' cz' cv' ∧ HalfLayers3 nelx nelz nmin nfine n wx' wz' g' r' := by
  induction fuel generalizing iy ntot H wx wz g r cx cz cv with
  | zero => omega
  | succ fuel ih =>
    unfold FineLayer3.grow
    by_cases hstop : nely ≤ iy ∨ nmin ≤ ntot
    · rw [if_pos hstop]
      refine ⟨iy, H, wx, wz, g, r, cx, cz, cv, rfl, hle, hH, ⟨hinv.pos, hinv.fine, hinv.mid, hinv.step, hinv.fits, ?_, hinv.minimal⟩⟩
      have h1 := hinv.total
      have h2 := hinv.low
      omega
    · rw [if_neg hstop]
      obtain ⟨iy', ntot', H', y, wx', wz', g', r', cx', cz', cv', a1, a2, a3, a4, a5, a6⟩ :=
        tryCoarsen_spec hmin hH hinv (by omega) (by omega)
      rw [a1, Res.ok_bind]
      simp only []
      rw [a4, Res.ok_bind]
      exact ih _ _ _ _ _ _ _ _ _ _ a5 a6 (by omega) (by omega)

theorem half_spec (nelx nely nelz nfine : Nat) (hy : 0 < nely) :
    ∃ n H wx wz g r cx cz cv, FineLayer3.half nelx nely nelz nfine = .ok (n, H) ∧ n ≤ nely ∧
      HalfIs H nely n wx wz g r cx cz cv ∧
      HalfLayers3 nelx nelz ((nely + 1) / 2) (min (nfine / 2 + 1) ((nely + 1) / 2)) n wx wz g r := by
  unfold FineLayer3.half
  simp only [minHeight_eq, fineHeight_eq]
  generalize hf : min (nfine / 2 + 1) ((nely + 1) / 2) = f
  have hfp : 0 < f := by omega
  have hg : ∀ i, height (fun _ => 1) i = i := by intro i; simp [height]
  have hm : ∀ {β : Type} (a : β) i k, mix i (fun _ => a) a k = a := by intro β a i k; simp [mix]
  refine grow_spec nelx nelz _ nely f (by omega) _ _ _ _ (fun _ => 1) (fun _ => 1) (fun _ => 1) (fun _ => -1) 1 1 1
    ⟨⟨rfl, fun _ _ => by rw [hm]; rfl⟩, ⟨rfl, fun _ _ => by rw [hm]; rfl⟩, ⟨rfl, fun _ _ => by rw [hm]; rfl⟩,
      ⟨rfl, fun _ _ => by rw [hm]; rfl⟩⟩ ?_ (by omega) (by omega)
  refine ⟨⟨hfp, le_refl _, ⟨rfl, rfl, rfl, rfl⟩, ?_, by simp, rfl, rfl, rfl, by simp, (hg f).symm, le_refl _, ?_⟩,
    Or.inl rfl, Or.inl rfl, by simp⟩
  · intro i hi
    unfold StepAt
    rw [if_neg (by simp), if_neg (by omega), if_neg (by omega)]
    simp
  · intro i h1 h2; omega

end GF.FineLayer3
