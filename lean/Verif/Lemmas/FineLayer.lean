import Verif.Model.FineLayer
import Verif.Spec.FineLayer
import Verif.Lemmas.Rows
import Verif.Lemmas.MeshRegular2d
import Verif.Lemmas.MeshMeasures
import Verif.Lemmas.Element
import Mathlib.Algebra.BigOperators.Intervals

/-! Lemmas on `Mesh::Quad4::FineLayer`: the constructor. -/

namespace GF.FineLayer
open FineLayerSpec Finset
variable {α : Type}

theorem height_succ (g : Nat → Nat) (i : Nat) : height g (i + 1) = height g i + g i := by
  simp [height, sum_range_succ]

theorem height_congr {g g' : Nat → Nat} {i : Nat} (h : ∀ k, k < i → g k = g' k) : height g i = height g' i :=
  sum_congr rfl fun k hk => h k (mem_range.1 hk)

theorem scaleFrom_spec {t : Ten Nat} {n a s : Nat} {f : Nat → Nat} (h : Is1 t n f) :
    Is1 (scaleFrom t a s) n (fun i => if a ≤ i then f i * s else f i) :=
  ⟨h.1, fun i hi => by simp [scaleFrom, h.2 i hi]⟩

theorem Is1.setAt {β : Type} {t : Ten β} {n i : Nat} {f : Nat → β} (h : Is1 t n f) (hi : i < n) (a : β) :
    ∃ t', t.set [i] a = .ok t' ∧ Is1 t' n (fun k => if k = i then a else f k) := by
  refine ⟨_, set1 h.1 hi a, h.1, fun k hk => ?_⟩
  by_cases hki : k = i
  · subst hki; simp
  · simp [hki, h.2 k hk]

/-- the three temporaries hold `w`, `g`, `r` -/
structure HalfIs (H : Half) (nely : Nat) (w g : Nat → Nat) (r : Nat → Int) : Prop where
  nhx : Is1 H.nhx nely w
  nhy : Is1 H.nhy nely g
  refine : Is1 H.refine nely r

/-- invariant of the construction loop after `iy` layers -/
structure GrowInv (nelx nmin nfine iy ntot : Nat) (w g : Nat → Nat) (r : Nat → Int) : Prop where
  pos : 0 < iy
  fine : nfine ≤ iy
  mid : w 0 = 1 ∧ g 0 = 1 ∧ r 0 = -1
  step : ∀ i, i + 1 < iy →
    if nfine ≤ i + 1 ∧ 3 * w i ≤ height g (i + 1) ∧ 3 * w i ∣ nelx ∧ height g (i + 1) + w i < nmin then
      r (i + 1) = 0 ∧ w (i + 1) = 3 * w i ∧ g (i + 1) = 2 * w i
    else r (i + 1) = -1 ∧ w (i + 1) = w i ∧ g (i + 1) = w i
  fits : ∀ i, w i ∣ nelx
  wpos : ∀ i, 0 < w i
  tail : ∀ k, iy ≤ k → w k = w (iy - 1) ∧ g k = w (iy - 1) ∧ r k = -1
  ntot : ntot = height g iy
  low : iy ≤ height g iy
  minimal : ∀ i, nfine ≤ i → i < iy → height g i < nmin

theorem grow_spec (nelx nmin nely nfine : Nat) (hmin : nmin ≤ nely) (fuel iy ntot : Nat) (H : Half)
    (w g : Nat → Nat) (r : Nat → Int) (hH : HalfIs H nely w g r)
    (hinv : GrowInv nelx nmin nfine iy ntot w g r) (hfuel : nely + 1 ≤ iy + fuel) (hle : iy ≤ nely) :
    ∃ n H' w' g' r', grow nelx nmin nely fuel iy ntot H = .ok (n, H') ∧ n ≤ nely ∧
      HalfIs H' nely w' g' r' ∧ HalfLayers nelx nmin nfine n w' g' r' := by
  induction fuel generalizing iy ntot H w g r with
  | zero => omega
  | succ fuel ih =>
    unfold grow
    by_cases hstop : nely ≤ iy ∨ nmin ≤ ntot
    · rw [if_pos hstop]
      refine ⟨iy, H, w, g, r, rfl, hle, hH, ⟨hinv.pos, hinv.fine, hinv.mid, hinv.step, fun i _ => hinv.fits i, ?_, hinv.minimal⟩⟩
      have h1 := hinv.ntot
      have h2 := hinv.low
      omega
    · rw [if_neg hstop]
      have hlt : iy < nely := by omega
      obtain ⟨t1, t2, t3⟩ := hinv.tail iy (le_refl _)
      have hp := hinv.pos
      unfold tryCoarsen
      rw [hH.nhy.get hlt, Res.ok_bind, hH.nhx.get hlt, Res.ok_bind]
      by_cases hc : 3 * g iy ≤ ntot ∧ nelx % (3 * w iy) = 0 ∧ ntot + g iy < nmin
      · rw [if_pos hc]
        unfold coarsen
        obtain ⟨rt, r1, r2⟩ := Is1.setAt hH.refine hlt 0
        obtain ⟨yt, y1, y2⟩ := Is1.setAt hH.nhy hlt (g iy * 2)
        rw [r1, Res.ok_bind, hH.nhy.get hlt, Res.ok_bind, y1, Res.ok_bind, Res.ok_bind]
        have y3 := scaleFrom_spec (a := iy + 1) (s := 3) y2
        have x3 := scaleFrom_spec (a := iy) (s := 3) hH.nhx
        simp only []
        rw [y3.get hlt, Res.ok_bind]
        rw [if_neg (by omega), if_pos rfl]
        refine ih (iy + 1) _ _ _ _ _ ⟨x3, y3, r2⟩ ?_ (by omega) (by omega)
        have hG : ∀ k, k ≤ iy → height (fun i => if iy + 1 ≤ i then (if i = iy then g iy * 2 else g i) * 3
            else if i = iy then g iy * 2 else g i) k = height g k := by
          intro k hk
          refine height_congr fun j hj => ?_
          rw [if_neg (by omega), if_neg (by omega)]
        have e1 : 3 * w iy ∣ nelx := Nat.dvd_of_mod_eq_zero hc.2.1
        constructor
        · omega
        · have := hinv.fine; omega
        · simp only [hinv.mid]
          rw [if_neg (by omega), if_neg (by omega), if_neg (by omega), if_neg (by omega)]
          simp
        · intro i hi
          by_cases hl : i + 1 < iy
          · have := hinv.step i hl
            rw [hG _ (by omega)]
            rw [if_neg (show ¬ iy ≤ i by omega), if_neg (show ¬ iy ≤ i + 1 by omega),
              if_neg (show ¬ iy + 1 ≤ i + 1 by omega), if_neg (show ¬ i + 1 = iy by omega),
              if_neg (show ¬ i + 1 = iy by omega)]
            exact this
          · have hii : i = iy - 1 := by omega
            have hi1 : i + 1 = iy := by omega
            rw [hG _ (by omega), if_neg (show ¬ iy ≤ i by omega), hi1]
            rw [if_pos (le_refl _), if_neg (show ¬ iy + 1 ≤ iy by omega), if_pos rfl, if_pos rfl]
            have hwi : w i = w (iy - 1) := by rw [hii]
            have hn := hinv.ntot
            rw [if_pos (by
              refine ⟨hinv.fine, ?_, ?_, ?_⟩
              · rw [← hn]; omega
              · rw [hwi, ← t1]; exact e1
              · rw [← hn]; omega)]
            exact ⟨rfl, by rw [hwi, t1]; omega, by rw [hwi, t2]; omega⟩
        · intro i
          by_cases hi : iy ≤ i
          · simp only [if_pos hi]
            rw [(hinv.tail i hi).1, ← t1, Nat.mul_comm]; exact e1
          · simp only [if_neg hi]; exact hinv.fits i
        · intro i
          have := hinv.wpos i
          split <;> omega
        · intro k hk
          obtain ⟨a1, a2, a3⟩ := hinv.tail k (by omega)
          simp only [Nat.add_sub_cancel, le_refl, if_true]
          rw [if_pos (by omega), if_pos hk, if_neg (by omega), if_neg (by omega)]
          exact ⟨by rw [a1, t1], by rw [a2, t1], a3⟩
        · rw [height_succ, hG _ (le_refl _), ← hinv.ntot]
          rw [if_neg (by omega), if_pos rfl]
        · rw [height_succ, hG _ (le_refl _), ← hinv.ntot]
          rw [if_neg (by omega), if_pos rfl]
          have := hinv.low
          have := hinv.ntot
          have := hinv.wpos (iy - 1)
          omega
        · intro i h1 h2
          rw [hG _ (by omega)]
          by_cases hi : i < iy
          · exact hinv.minimal i h1 hi
          · obtain rfl : i = iy := by omega
            rw [← hinv.ntot]; omega
      · rw [if_neg hc, Res.ok_bind, hH.nhy.get hlt, Res.ok_bind]
        refine ih (iy + 1) _ _ _ _ _ hH ?_ (by omega) (by omega)
        constructor
        · omega
        · have := hinv.fine; omega
        · exact hinv.mid
        · intro i hi
          by_cases hl : i + 1 < iy
          · exact hinv.step i hl
          · have hii : i = iy - 1 := by omega
            have hi1 : i + 1 = iy := by omega
            have hwi : w i = w (iy - 1) := by rw [hii]
            have hn := hinv.ntot
            rw [hi1, ← hn]
            rw [if_neg (by
              rintro ⟨b1, b2, b3, b4⟩
              apply hc
              refine ⟨by rw [t2, ← hwi]; exact b2, ?_, by rw [t2, ← hwi]; exact b4⟩
              rw [t1, ← hwi]
              exact Nat.mod_eq_zero_of_dvd b3)]
            exact ⟨t3, by rw [hwi, t1], by rw [hwi, t2]⟩
        · exact hinv.fits
        · exact hinv.wpos
        · intro k hk
          obtain ⟨a1, a2, a3⟩ := hinv.tail k (by omega)
          simp only [Nat.add_sub_cancel]
          exact ⟨by rw [a1, t1], by rw [a2, t1], a3⟩
        · rw [height_succ, ← hinv.ntot]
        · rw [height_succ]
          have := hinv.low
          have := hinv.wpos (iy - 1)
          omega
        · intro i h1 h2
          by_cases hi : i < iy
          · exact hinv.minimal i h1 hi
          · obtain rfl : i = iy := by omega
            rw [← hinv.ntot]; omega

theorem minHeight_eq (nely : Nat) : minHeight nely = (nely + 1) / 2 := by
  unfold minHeight; split <;> omega

theorem fineHeight_eq (nfine nmin : Nat) : fineHeight nfine nmin = min (nfine / 2 + 1) nmin := by
  unfold fineHeight
  simp only []
  split <;> split <;> split <;> omega

theorem half_spec (nelx nely nfine : Nat) (hy : 0 < nely) :
    ∃ n H w g r, half nelx nely nfine = .ok (n, H) ∧ n ≤ nely ∧ HalfIs H nely w g r ∧
      HalfLayers nelx ((nely + 1) / 2) (min (nfine / 2 + 1) ((nely + 1) / 2)) n w g r := by
  unfold half
  simp only [minHeight_eq, fineHeight_eq]
  generalize hf : min (nfine / 2 + 1) ((nely + 1) / 2) = f
  have hfp : 0 < f := by omega
  have hg : ∀ i, height (fun _ => 1) i = i := by intro i; simp [height]
  refine grow_spec nelx _ nely f (by omega) _ _ _ _ (fun _ => 1) (fun _ => 1) (fun _ => -1)
    ⟨⟨rfl, fun _ _ => rfl⟩, ⟨rfl, fun _ _ => rfl⟩, ⟨rfl, fun _ _ => rfl⟩⟩ ?_ (by omega) (by omega)
  refine ⟨hfp, le_refl _, ⟨rfl, rfl, rfl⟩, ?_, by simp, by simp, by simp, (hg f).symm, (hg f).ge, ?_⟩
  · intro i hi
    rw [if_neg (by omega)]
    simp
  · intro i h1 h2; omega

/-- invariant of a counting loop -/
theorem forEach_range {σ : Type} (m : Nat) (f : σ → Nat → Res σ) (I : Nat → σ → Prop) (s : σ) (h0 : I 0 s)
    (hs : ∀ k, k < m → ∀ s, I k s → ∃ s', f s k = .ok s' ∧ I (k + 1) s') :
    ∃ s', forEach (it1 m) f s = .ok s' ∧ I m s' := by
  induction m with
  | zero => exact ⟨s, rfl, h0⟩
  | succ m ih =>
    obtain ⟨s1, a1, a2⟩ := ih fun k hk => hs k (by omega)
    obtain ⟨s2, b1, b2⟩ := hs m (by omega) s1 a2
    exact ⟨s2, by rw [forEach_it1_succ, a1, Res.ok_bind']; exact b1, b2⟩

/-- a loop that assigns the entries `a + k`, `k < m`, of a 1-d array -/
theorem fillRange {β : Type} {t : Ten β} {N : Nat} (hs : t.shape = [N]) (a m : Nat) (hm : a + m ≤ N)
    (l : List Nat) (off : Nat → Nat) (hl : ∀ i, i ∈ l ↔ ∃ k, k < m ∧ i = off k)
    (pos : Nat → Nat) (hpos : ∀ k, k < m → pos (off k) = a + k)
    (f : Nat → β) (body : Ten β → Nat → Res (Ten β))
    (hb : ∀ k, k < m → ∀ s : Ten β, s.shape = [N] → body s (off k) = s.set [a + k] (f k)) :
    ∃ t', forEach l body t = .ok t' ∧ t'.shape = [N] ∧
      (∀ k, k < m → t'.v [a + k] = some (f k)) ∧
      ∀ i, i < a ∨ a + m ≤ i → t'.v [i] = t.v [i] := by
  have key : ∀ i ∈ l, ∃ k, k < m ∧ i = off k ∧ pos i - a = k ∧ pos i = a + k := by
    intro i hi
    obtain ⟨k, hk, rfl⟩ := (hl i).1 hi
    exact ⟨k, hk, rfl, by rw [hpos k hk]; omega, hpos k hk⟩
  obtain ⟨t', h1, h2, h3, h4⟩ := forEach_set l body (fun i => [pos i]) (fun i => f (pos i - a)) t
    (by
      intro i hi
      obtain ⟨k, hk, -, -, e⟩ := key i hi
      simp [hs, e]; omega)
    (by
      intro i hi s hsh
      obtain ⟨k, hk, e0, e1, e2⟩ := key i hi
      rw [e1, e2, e0]
      exact hb k hk s (by rw [hsh, hs]))
  refine ⟨t', h1, by rw [h2, hs], fun k hk => ?_, fun i hi => ?_⟩
  · obtain ⟨i, hi, e, hv⟩ := h3 [a + k] ⟨off k, (hl _).2 ⟨k, hk, rfl⟩, by rw [hpos k hk]⟩
    simp only [List.cons.injEq, and_true] at e
    rw [hv, e]; congr 2; omega
  · refine h4 [i] fun j hj => ?_
    obtain ⟨k, hk, -, -, e⟩ := key j hj
    simp only [ne_eq, List.cons.injEq, and_true]
    omega

theorem mem_itFrom {a b i : Nat} : i ∈ itFrom a b ↔ ∃ k, k < b - a ∧ i = a + k := by
  unfold itFrom
  rw [List.mem_range']
  simp

/-- `fillRange` for `for (i = 0; i < m; ++i)` -/
theorem fill0 {β : Type} {t : Ten β} {N : Nat} (hs : t.shape = [N]) (a m : Nat) (hm : a + m ≤ N)
    (f : Nat → β) (body : Ten β → Nat → Res (Ten β))
    (hb : ∀ k, k < m → ∀ s : Ten β, s.shape = [N] → body s k = s.set [a + k] (f k)) :
    ∃ t', forEach (it1 m) body t = .ok t' ∧ t'.shape = [N] ∧
      (∀ k, k < m → t'.v [a + k] = some (f k)) ∧
      ∀ i, i < a ∨ a + m ≤ i → t'.v [i] = t.v [i] :=
  fillRange hs a m hm _ id (by simp) (fun k => a + k) (fun _ _ => rfl) f body hb

theorem dist_lt {n i : Nat} (hi : i < 2 * n - 1) : dist n i < n := by
  unfold dist; split <;> omega

theorem mirror_spec {β : Type} {src : Ten β} {m n : Nat} {f : Nat → β} (h : Is1 src m f) (hn : 0 < n)
    (hm : n ≤ m) :
    ∃ t, mirror n src = .ok t ∧ Is1 t (2 * n - 1) (fun i => f (dist n i)) := by
  unfold mirror
  have e0 : n * 2 - 1 = 2 * n - 1 := by omega
  rw [e0]
  obtain ⟨t1, a1, a2, a3, a4⟩ := fill0 (t := (Ten.empty [2 * n - 1] : Ten β)) rfl 0 n (by omega)
    (fun k => f (n - k - 1)) (fun ret iy => do
      let a ← src.get [n - iy - 1]
      ret.set [iy] a) (by
      intro k hk s hs
      rw [h.get (by omega), Res.ok_bind, Nat.zero_add])
  obtain ⟨t2, b1, b2, b3, b4⟩ := fill0 a2 n (n - 1) (by omega)
    (fun k => f (k + 1)) (fun ret iy => do
      let a ← src.get [iy + 1]
      ret.set [iy + n] a) (by
      intro k hk s hs
      rw [h.get (by omega), Res.ok_bind, Nat.add_comm k n])
  rw [a1, Res.ok_bind]
  refine ⟨t2, b1, b2, fun i hi => ?_⟩
  by_cases hin : i < n
  · rw [b4 i (by omega)]
    have := a3 i hin
    rw [Nat.zero_add] at this
    rw [this]
    simp only [dist, if_pos hin]
    congr 2; omega
  · have := b3 (i - n) (by omega)
    rw [show n + (i - n) = i by omega] at this
    rw [this]
    simp only [dist, if_neg hin]
    congr 2; omega

theorem layerNelx_spec {nhx : Ten Nat} {nelx N : Nat} {w : Nat → Nat} (h : Is1 nhx N w)
    (hw : ∀ i, i < N → 0 < w i) :
    ∃ t, layerNelx nelx N nhx = .ok t ∧ Is1 t N (fun i => nelx / w i) := by
  unfold layerNelx
  obtain ⟨t1, a1, a2, a3, a4⟩ := fill0 (t := (Ten.empty [N] : Ten Nat)) rfl 0 N (by omega)
    (fun k => nelx / w k) (fun ret iy => do
      let a ← nhx.get [iy]
      if a = 0 then .ub else ret.set [iy] (nelx / a)) (by
      intro k hk s hs
      rw [h.get hk, Res.ok_bind, if_neg (hw k hk).ne', Nat.zero_add])
  refine ⟨t1, a1, a2, fun i hi => ?_⟩
  have := a3 i hi
  rwa [Nat.zero_add] at this

theorem rowNodes_spec {ln : Ten Nat} {n : Nat} {L : Nat → Nat} (hn : 0 < n) (h : Is1 ln (2 * n - 1) L) :
    ∃ t, rowNodes (2 * n - 1) ln = .ok t ∧
      Is1 t (2 * n) (fun i => if i < n then L i + 1 else L (i - 1) + 1) := by
  unfold rowNodes
  have e1 : (2 * n - 1 + 1) / 2 = n := by omega
  have e2 : (2 * n - 1 - 1) / 2 = n - 1 := by omega
  have e3 : 2 * n - 1 + 1 = 2 * n := by omega
  rw [e1, e2, e3]
  obtain ⟨t1, a1, a2, a3, a4⟩ := fill0 (t := (Ten.empty [2 * n] : Ten Nat)) rfl 0 n (by omega)
    (fun k => L k + 1) (fun ret iy => do
      let a ← ln.get [iy]
      ret.set [iy] (a + 1)) (by
      intro k hk s hs
      rw [h.get (by omega), Res.ok_bind, Nat.zero_add])
  obtain ⟨t2, b1, b2, b3, b4⟩ := fillRange a2 n n (by omega) (itFrom (n - 1) (2 * n - 1)) (fun k => n - 1 + k)
    (by
      intro i; rw [mem_itFrom]
      constructor
      · rintro ⟨k, hk, rfl⟩; exact ⟨k, by omega, rfl⟩
      · rintro ⟨k, hk, rfl⟩; exact ⟨k, by omega, rfl⟩) (fun i => i + 1) (by intro k hk; omega)
    (fun k => L (n - 1 + k) + 1) (fun ret iy => do
      let a ← ln.get [iy]
      ret.set [iy + 1] (a + 1)) (by
      intro k hk s hs
      beta_reduce
      rw [h.get (by omega), Res.ok_bind, show n - 1 + k + 1 = n + k by omega])
  rw [a1, Res.ok_bind]
  refine ⟨t2, b1, b2, fun i hi => ?_⟩
  beta_reduce
  by_cases hin : i < n
  · rw [b4 i (by omega), if_pos hin]
    have := a3 i hin
    rwa [Nat.zero_add] at this
  · have := b3 (i - n) (by omega)
    rw [show n + (i - n) = i by omega] at this
    rw [this, if_neg hin]
    congr 3; omega

/-- number of nodes between the bottom row of layer `i` and its top row, bottom row included -/
def rowCount (n : Nat) (R : Nat → Int) (L : Nat → Nat) (i : Nat) : Nat :=
  if i < n - 1 then (if R i = 0 then 3 * L i + 1 else L i + 1) else (if R i = 0 then 5 * L i + 1 else L i + 1)

/-- number of elements of layer `i` -/
def elemCount (R : Nat → Int) (L : Nat → Nat) (i : Nat) : Nat := if R i = 0 then 4 * L i else L i

/-- the counters after `i` layers -/
structure CountIs (N i : Nat) (cn ce : Nat → Nat) (c : Count) : Prop where
  es : c.startElem.shape = [N]
  ns : c.startNode.shape = [N + 1]
  e : ∀ k, k < i → c.startElem.v [k] = some (height ce k)
  n : ∀ k, k ≤ i → c.startNode.v [k] = some (height cn k)
  nn : c.nnode = height cn i
  ne : c.nelem = height ce i

theorem count_step {N i : Nat} (hi : i < N) {cn ce : Nat → Nat} {c : Count} (h : CountIs N i cn ce c)
    {a b : Nat} (ha : a = c.nnode + cn i) (hb : b = c.nelem + ce i) :
    ∃ c', (do
      let se ← c.startElem.set [i] c.nelem
      let sn ← c.startNode.set [i + 1] a
      Res.ok ({ startElem := se, startNode := sn, nnode := a, nelem := b } : Count)) = .ok c' ∧
      CountIs N (i + 1) cn ce c' := by
  rw [set1 h.es hi, Res.ok_bind, set1 h.ns (show i + 1 < N + 1 by omega), Res.ok_bind]
  refine ⟨_, rfl, ⟨h.es, h.ns, fun k hk => ?_, fun k hk => ?_, ?_, ?_⟩⟩
  · dsimp only
    by_cases hki : k = i
    · subst hki; simp [h.ne]
    · rw [Function.update_of_ne (by simpa using hki)]; exact h.e k (by omega)
  · dsimp only
    by_cases hki : k = i + 1
    · subst hki; simp [ha, h.nn, height_succ]
    · rw [Function.update_of_ne (by simpa using hki)]; exact h.n k (by omega)
  · rw [height_succ, ← h.nn]; exact ha
  · rw [height_succ, ← h.ne]; exact hb

theorem count_spec {ln : Ten Nat} {rf : Ten Int} {n : Nat} {L : Nat → Nat} {R : Nat → Int} (hn : 0 < n)
    (h : Is1 ln (2 * n - 1) L) (hr : Is1 rf (2 * n - 1) R) :
    ∃ c, count (2 * n - 1) rf ln = .ok c ∧
      CountIs (2 * n - 1) (2 * n - 1) (rowCount n R L) (elemCount R L) c := by
  unfold count
  have e1 : (2 * n - 1 - 1) / 2 = n - 1 := by omega
  have e2 : itFrom (n - 1) (2 * n - 1) = (it1 n).map (n - 1 + ·) := by
    rw [itFrom, show 2 * n - 1 - (n - 1) = n by omega, it1, List.range'_eq_map_range]
  rw [e1, e2, set1 (t := (Ten.empty [2 * n - 1 + 1] : Ten Nat)) rfl (by omega), Res.ok_bind]
  have low : ∀ i, i < n - 1 → ∀ c, CountIs (2 * n - 1) i (rowCount n R L) (elemCount R L) c →
      ∃ c', countBelow rf ln c i = .ok c' ∧ CountIs (2 * n - 1) (i + 1) (rowCount n R L) (elemCount R L) c' := by
    intro i hi c hc
    obtain ⟨c', h1, h2⟩ := count_step (i := i) (by omega) hc
      (a := c.nnode + (if R i = 0 then 3 * L i + 1 else L i + 1))
      (b := c.nelem + (if R i = 0 then 4 * L i else L i)) (by rw [rowCount, if_pos hi]) rfl
    refine ⟨c', ?_, h2⟩
    rw [← h1]
    unfold countBelow
    rw [set1 hc.es (by omega), Res.ok_bind, hr.get (by omega), Res.ok_bind, h.get (by omega), Res.ok_bind,
      Res.ok_bind]
  have high : ∀ i, n - 1 ≤ i → i < 2 * n - 1 → ∀ c, CountIs (2 * n - 1) i (rowCount n R L) (elemCount R L) c →
      ∃ c', countAbove rf ln c i = .ok c' ∧ CountIs (2 * n - 1) (i + 1) (rowCount n R L) (elemCount R L) c' := by
    intro i hi hi2 c hc
    obtain ⟨c', h1, h2⟩ := count_step (i := i) (by omega) hc
      (a := c.nnode + (if R i = 0 then 5 * L i + 1 else L i + 1))
      (b := c.nelem + (if R i = 0 then 4 * L i else L i)) (by rw [rowCount, if_neg (show ¬ i < n - 1 by omega)]) rfl
    refine ⟨c', ?_, h2⟩
    rw [← h1]
    unfold countAbove
    rw [set1 hc.es (by omega), Res.ok_bind, hr.get (by omega), Res.ok_bind, h.get (by omega), Res.ok_bind,
      Res.ok_bind]
  have loop : ∀ (f : Count → Nat → Res Count) (a m : Nat) (c : Count),
      (∀ k, k < m → ∀ c, CountIs (2 * n - 1) (a + k) (rowCount n R L) (elemCount R L) c →
        ∃ c', f c k = .ok c' ∧ CountIs (2 * n - 1) (a + k + 1) (rowCount n R L) (elemCount R L) c') →
      CountIs (2 * n - 1) a (rowCount n R L) (elemCount R L) c →
      ∃ c', forEach (it1 m) f c = .ok c' ∧ CountIs (2 * n - 1) (a + m) (rowCount n R L) (elemCount R L) c' := by
    intro f a m c hf hc
    exact forEach_range m f (fun k c => CountIs (2 * n - 1) (a + k) (rowCount n R L) (elemCount R L) c) c hc
      (fun k hk c hc => hf k hk c hc)
  obtain ⟨c1, a1, a2⟩ := loop (countBelow rf ln) 0 (n - 1)
    { startElem := Ten.empty [2 * n - 1], startNode := ⟨[2 * n - 1 + 1], Function.update (Ten.empty [2 * n - 1 + 1]).v [0] (some 0)⟩, nnode := 0, nelem := 0 }
    (fun k hk c hc => by rw [Nat.zero_add] at *; exact low k hk c hc)
    ⟨rfl, rfl, by intro k hk; omega, by intro k hk; obtain rfl : k = 0 := by omega
                                        simp [height], rfl, rfl⟩
  obtain ⟨c2, b1, b2⟩ := loop (fun c k => countAbove rf ln c (n - 1 + k)) (n - 1) n c1
    (fun k hk c hc => high _ (by omega) (by omega) c hc) (by rw [Nat.zero_add] at a2; exact a2)
  refine ⟨c2, ?_, by rw [show n - 1 + n = 2 * n - 1 by omega] at b2; exact b2⟩
  refine (congrArg (fun r => Res.bind r _) a1).trans ?_
  rw [Res.ok_bind', forEach_map]
  exact b1

end GF.FineLayer
