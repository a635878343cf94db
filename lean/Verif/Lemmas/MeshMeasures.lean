import Verif.Model.MeshMeasures
import Verif.Spec.MeshMeasures
import Verif.Lemmas.VectorPartitioned
import Verif.Lemmas.Element
import Mathlib.Algebra.Order.Field.Basic
import Mathlib.Algebra.BigOperators.Ring.Finset
import Mathlib.Tactic.Ring
import Mathlib.Tactic.FieldSimp

namespace GF
open Finset
variable {α : Type}

/-! ### edgesize -/

/-- filling column `col` of a 2-d array -/
theorem fillCol {n m col : Nat} (hcol : col < m) (f : Ten α → Nat → Res (Ten α)) (val : Nat → α)
    (hf : ∀ e, e < n → ∀ s : Ten α, s.shape = [n, m] → f s e = s.set [e, col] (val e)) (ret : Ten α)
    (hret : ret.shape = [n, m]) :
    ∃ y, forEach (it1 n) f ret = .ok y ∧ y.shape = [n, m] ∧
      ∀ e j, e < n → j < m → y.v [e, j] = if j = col then some (val e) else ret.v [e, j] := by
  obtain ⟨y, h1, h2, h3, h4⟩ := forEach_set (it1 n) f (fun e => [e, col]) val ret
    (by intro e he; rw [mem_it1] at he; simp [hret, he, hcol])
    (by intro e he s hs; exact hf e (mem_it1.1 he) s (hs.trans hret))
  refine ⟨y, h1, h2.trans hret, fun e j he hj => ?_⟩
  split_ifs with h
  · subst h
    obtain ⟨e', -, h6, h7⟩ := h3 [e, j] ⟨e, mem_it1.2 he, rfl⟩
    simp only [List.cons.injEq, and_true] at h6
    rw [h7, h6]
  · exact h4 _ fun e' _ hh => h (by simp only [List.cons.injEq, and_true] at hh; exact hh.2.symm)

/-- length of the side from corner `a` to corner `b` -/
def sideLen [Field α] (sqrt : α → α) (X : Nat → Nat → α) (a b : Nat) : α :=
  sqrt ((X b 0 - X a 0) ^ 2 + (X b 1 - X a 1) ^ 2)

theorem edgeCol_ok [Field α] (sqrt : α → α) {coor : Ten α} {conn : Ten Nat} {ne nnode : Nat} {C} {x}
    (hc : Is2 conn ne 4 C) (hx : Is2 coor nnode 2 x) (hlt : ∀ e m, e < ne → m < 4 → C e m < nnode)
    {col a b : Nat} (hcol : col < 4) (ha : a < 4) (hb : b < 4) (ret : Ten α) (hret : ret.shape = [ne, 4]) :
    ∃ y, edgeCol sqrt coor conn ne col a b ret = .ok y ∧ y.shape = [ne, 4] ∧
      ∀ e j, e < ne → j < 4 → y.v [e, j] =
        if j = col then some (sideLen sqrt (fun m => x (C e m)) a b) else ret.v [e, j] := by
  refine fillCol hcol _ (fun e => sideLen sqrt (fun m => x (C e m)) a b) (fun e he s hs => ?_) ret hret
  have h0 : (0 : Nat) < 2 := by omega
  have h1 : (1 : Nat) < 2 := by omega
  simp only [hc.get he ha, hc.get he hb, Res.ok_bind, hx.get (hlt e a he ha) h0, hx.get (hlt e a he ha) h1,
    hx.get (hlt e b he hb) h0, hx.get (hlt e b he hb) h1, sideLen]

theorem edgesize_ok [Field α] (sqrt : α → α) {coor : Ten α} {conn : Ten Nat} {ne nnode : Nat} {C} {x}
    (hc : Is2 conn ne 4 C) (hx : Is2 coor nnode 2 x) (hlt : ∀ e m, e < ne → m < 4 → C e m < nnode) :
    ∃ y, edgesize sqrt coor conn .Quad4 = .ok y ∧
      Is2 y ne 4 fun e m => sideLen sqrt (fun m => x (C e m)) m ((m + 1) % 4) := by
  obtain ⟨y0, a1, a2, a3⟩ := edgeCol_ok sqrt hc hx hlt (col := 0) (a := 0) (b := 1) (by omega) (by omega) (by omega)
    (Ten.empty [ne, 4]) rfl
  obtain ⟨y1, b1, b2, b3⟩ := edgeCol_ok sqrt hc hx hlt (col := 1) (a := 1) (b := 2) (by omega) (by omega) (by omega)
    y0 a2
  obtain ⟨y2, c1, c2, c3⟩ := edgeCol_ok sqrt hc hx hlt (col := 2) (a := 2) (b := 3) (by omega) (by omega) (by omega)
    y1 b2
  obtain ⟨y3, d1, d2, d3⟩ := edgeCol_ok sqrt hc hx hlt (col := 3) (a := 3) (b := 0) (by omega) (by omega) (by omega)
    y2 c2
  refine ⟨y3, ?_, d2, fun e j he hj => ?_⟩
  · rw [edgesize, if_pos rfl, hc.1]
    simp only [a1, b1, c1, d1, Res.ok_bind]
  · rw [d3 e j he hj]
    split_ifs with h3
    · subst h3; rfl
    rw [c3 e j he hj]
    split_ifs with h2
    · subst h2; rfl
    rw [b3 e j he hj]
    split_ifs with h1
    · subst h1; rfl
    rw [a3 e j he hj, if_pos (by omega)]
    obtain rfl : j = 0 := by omega
    rfl

/-! ### loops that update every cell once -/

theorem nodup_it2 (n m : Nat) : (it2 n m).Nodup := by
  rw [it2, List.nodup_flatMap]
  refine ⟨fun i _ => (List.nodup_range).map fun a b h => by simpa using h, ?_⟩
  refine List.nodup_range.imp fun {a b} h => ?_
  intro x hx hy
  simp only [List.mem_map] at hx hy
  obtain ⟨_, _, rfl⟩ := hx
  obtain ⟨_, _, hy⟩ := hy
  simp only [Prod.mk.injEq] at hy
  exact h hy.1.symm

/-- every iteration replaces the value of its own cell -/
theorem cellLoop {ι : Type} [DecidableEq ι] (l : List ι) (hl : l.Nodup) (pos : ι → List Nat)
    (hpos : ∀ a ∈ l, ∀ b ∈ l, pos a = pos b → a = b) (f : Ten α → ι → Res (Ten α)) (g : ι → α → α) (t : Ten α)
    (v : ι → α) (hv : ∀ a ∈ l, inb t.shape (pos a) = true ∧ t.v (pos a) = some (v a))
    (hf : ∀ a ∈ l, ∀ s : Ten α, s.shape = t.shape → s.v (pos a) = some (v a) →
      f s a = s.set (pos a) (g a (v a))) :
    ∃ y, forEach l f t = .ok y ∧ y.shape = t.shape ∧ (∀ a ∈ l, y.v (pos a) = some (g a (v a))) ∧
      ∀ p, (∀ a ∈ l, pos a ≠ p) → y.v p = t.v p := by
  obtain ⟨y, h1, h2, h3, h4⟩ := forEach_inv l f (fun pre s => s.shape = t.shape ∧
      (∀ a ∈ pre, s.v (pos a) = some (g a (v a))) ∧ ∀ p, (∀ a ∈ pre, pos a ≠ p) → s.v p = t.v p) t
    ⟨rfl, by simp, fun _ _ => rfl⟩ (by
      rintro pre a post s rfl ⟨h1, h2, h3⟩
      have ha : a ∈ pre ++ a :: post := by simp
      have hnot : a ∉ pre := by
        intro hm
        have := List.nodup_append.1 hl
        exact this.2.2 a hm a (by simp) rfl
      have hne : ∀ b ∈ pre, pos b ≠ pos a := fun b hb he =>
        hnot (hpos b (by simp [hb]) a ha he ▸ hb)
      have hs : s.v (pos a) = some (v a) := by rw [h3 _ hne, (hv a ha).2]
      refine ⟨⟨s.shape, Function.update s.v (pos a) (some (g a (v a)))⟩, ?_, h1, ?_, ?_⟩
      · rw [hf a ha s h1 hs, Ten.set, h1, if_pos (hv a ha).1]
      · intro b hb
        rcases List.mem_append.1 hb with hb | hb
        · show Function.update s.v (pos a) _ (pos b) = _
          rw [Function.update_of_ne (hne b hb), h2 b hb]
        · rw [List.mem_singleton] at hb
          subst hb
          show Function.update s.v (pos b) _ (pos b) = _
          rw [Function.update_self]
      · intro p hp
        show Function.update s.v (pos a) _ p = _
        rw [Function.update_of_ne (hp a (by simp)).symm, h3 p fun b hb => hp b (by simp [hb])])
  exact ⟨y, h1, h2, h3, h4⟩

theorem cellLoop2 {n m : Nat} (f : Ten α → Nat × Nat → Res (Ten α)) (g : Nat → Nat → α → α) {t : Ten α}
    {v : Nat → Nat → α} (hv : Is2 t n m v)
    (hf : ∀ i j, i < n → j < m → ∀ s : Ten α, s.shape = [n, m] → s.v [i, j] = some (v i j) →
      f s (i, j) = s.set [i, j] (g i j (v i j))) :
    ∃ y, forEach (it2 n m) f t = .ok y ∧ Is2 y n m fun i j => g i j (v i j) := by
  obtain ⟨y, h1, h2, h3, -⟩ := cellLoop (it2 n m) (nodup_it2 n m) (fun p => [p.1, p.2])
    (by rintro ⟨a, b⟩ - ⟨c, d⟩ - h; simpa using h) f (fun p => g p.1 p.2) t (fun p => v p.1 p.2)
    (by
      rintro ⟨i, j⟩ h
      simp only [mem_it2] at h
      exact ⟨by simp [hv.1, h.1, h.2], hv.2 i j h.1 h.2⟩)
    (by
      rintro ⟨i, j⟩ h s hs hsv
      simp only [mem_it2] at h
      exact hf i j h.1 h.2 s (hs.trans hv.1) hsv)
  exact ⟨y, h1, h2.trans hv.1, fun i j hi hj => h3 (i, j) (mem_it2.2 ⟨hi, hj⟩)⟩

theorem cellLoop1 {n : Nat} (f : Ten α → Nat → Res (Ten α)) (g : Nat → α → α) {t : Ten α}
    {v : Nat → α} (hv : Is1 t n v)
    (hf : ∀ i, i < n → ∀ s : Ten α, s.shape = [n] → s.v [i] = some (v i) →
      f s i = s.set [i] (g i (v i))) :
    ∃ y, forEach (it1 n) f t = .ok y ∧ Is1 y n fun i => g i (v i) := by
  obtain ⟨y, h1, h2, h3, -⟩ := cellLoop (it1 n) List.nodup_range (fun p => [p])
    (by rintro a - b - h; simpa using h) f g t v
    (by
      rintro i h
      rw [mem_it1] at h
      exact ⟨by simp [hv.1, h], hv.2 i h⟩)
    (by
      rintro i h s hs hsv
      rw [mem_it1] at h
      exact hf i h s (hs.trans hv.1) hsv)
  exact ⟨y, h1, h2.trans hv.1, fun i hi => h3 i (mem_it1.2 hi)⟩

theorem get_of_v {t : Ten α} {p : List Nat} {a : α} (h : inb t.shape p = true) (hv : t.v p = some a) :
    t.get p = .ok a := by
  rw [Ten.get, if_pos h, hv]

theorem addAt_of_v [Add α] {t : Ten α} {p : List Nat} {a b : α} (h : inb t.shape p = true) (hv : t.v p = some a) :
    t.addAt p b = t.set p (a + b) := by
  rw [Ten.addAt, get_of_v h hv]
  rfl

theorem forEach_it1_succ {σ : Type} (n : Nat) (f : σ → Nat → Res σ) (s : σ) :
    forEach (it1 (n + 1)) f s = (forEach (it1 n) f s).bind fun s => f s n := by
  rw [it1, List.range_succ, forEach_append, ← it1]
  congr 1
  funext s
  rw [forEach_cons]
  cases f s n <;> rfl

/-! ### centers -/

theorem centers_ok [Field α] {coor : Ten α} {conn : Ten Nat} {ne nnode nne nd : Nat} {C} {x}
    (hc : Is2 conn ne nne C) (hx : Is2 coor nnode nd x) (h4 : 4 ≤ nne) (hlt : ∀ e m, e < ne → m < 4 → C e m < nnode) :
    ∃ y, centers coor conn .Quad4 = .ok y ∧
      Is2 y ne nd fun e j => (∑ m ∈ range 4, x (C e m) j) / 4 := by
  have H : ∀ k, k ≤ 4 → ∃ y, forEach (it1 k) (fun ret i =>
        forEach (it2 ne nd) (fun ret ej => do
          let n ← conn.get [ej.1, i]
          let x ← coor.get [n, ej.2]
          ret.addAt [ej.1, ej.2] x) ret) (Ten.full [ne, nd] (0 : α)) = .ok y ∧
        Is2 y ne nd fun e j => ∑ m ∈ range k, x (C e m) j := by
    intro k
    induction k with
    | zero => exact fun _ => ⟨_, rfl, rfl, fun _ _ _ _ => by simp [Ten.full]⟩
    | succ k ih =>
      intro hk
      obtain ⟨y, h1, h2⟩ := ih (by omega)
      obtain ⟨y', h3, h5⟩ := cellLoop2 (fun (ret : Ten α) ej => do
          let n ← conn.get [ej.1, k]
          let x ← coor.get [n, ej.2]
          ret.addAt [ej.1, ej.2] x) (fun e j a => a + x (C e k) j) h2 (by
        intro e j he hj s hs hsv
        simp only [hc.get he (show k < nne by omega), hx.get (hlt e k he (by omega)) hj, Res.ok_bind]
        exact addAt_of_v (by simp [hs, he, hj]) hsv)
      refine ⟨y', ?_, h5.congr fun e j _ _ => (sum_range_succ _ _).symm⟩
      rw [forEach_it1_succ, h1]
      exact h3
  obtain ⟨y, h1, h2⟩ := H 4 (le_refl 4)
  obtain ⟨y', h3, h5⟩ := cellLoop2 (fun (ret : Ten α) ej => do
        let s ← ret.get [ej.1, ej.2]
        ret.set [ej.1, ej.2] (s / 4)) (fun _ _ a => a / 4) h2 (by
      intro e j he hj s hs hsv
      simp only [get_of_v (show inb s.shape [e, j] = true by simp [hs, he, hj]) hsv, Res.ok_bind])
  refine ⟨y', ?_, h5⟩
  simp only [centers, hc.1, hx.1, if_true, h1, Res.ok_bind]
  exact h3

/-! ### elemmap2nodemap -/

/-- first local index, and in that column the last element, at which node `n` occurs among the first `k` columns -/
structure FirstLast (C : Nat → Nat → Nat) (ne k n e i : Nat) : Prop where
  lt : e < ne
  col : i < k
  eq : C e i = n
  last : ∀ e', e < e' → e' < ne → C e' i ≠ n
  first : ∀ i' e', i' < i → e' < ne → C e' i' ≠ n

theorem nodemapT {conn elem_map : Ten Nat} {ne nne N : Nat} {C E}
    (hc : Is2 conn ne nne C) (hE : Is1 elem_map ne E) (hEl : ∀ e, e < ne → E e < ne)
    (hlt : ∀ e m, e < ne → m < nne → C e m < N) {i : Nat} (hi : i < nne) :
    ∃ t T, forEach (it1 ne) (fun t e => do
      let n ← conn.get [e, i]
      let e' ← elem_map.get [e]
      let n' ← conn.get [e', i]
      t.set [n] n') (Ten.full [N] N) = .ok t ∧ Is1 t N T ∧ ∀ n, n < N →
        ((∀ e, e < ne → C e i ≠ n) → T n = N) ∧
        (∀ e, e < ne → C e i = n → (∀ e', e < e' → e' < ne → C e' i ≠ n) → T n = C (E e) i) := by
  have H : ∀ k, k ≤ ne → ∃ t T, forEach (it1 k) (fun t e => do
      let n ← conn.get [e, i]
      let e' ← elem_map.get [e]
      let n' ← conn.get [e', i]
      t.set [n] n') (Ten.full [N] N) = .ok t ∧ Is1 t N T ∧ ∀ n, n < N →
        ((∀ e, e < k → C e i ≠ n) → T n = N) ∧
        (∀ e, e < k → C e i = n → (∀ e', e < e' → e' < k → C e' i ≠ n) → T n = C (E e) i) := by
    intro k
    induction k with
    | zero => exact fun _ => ⟨_, fun _ => N, rfl, ⟨rfl, fun _ _ => rfl⟩, fun n _ => ⟨fun _ => rfl, by simp⟩⟩
    | succ k ih =>
      intro hk
      obtain ⟨t, T, h1, h2, h3⟩ := ih (by omega)
      have hkn := hlt k i (by omega) hi
      refine ⟨⟨t.shape, Function.update t.v [C k i] (some (C (E k) i))⟩,
        fun n => if n = C k i then C (E k) i else T n, ?_, ⟨h2.1, fun n hn => ?_⟩, fun n hn => ⟨fun h => ?_, fun e he hC hl => ?_⟩⟩
      · rw [forEach_it1_succ, h1]
        simp only [Res.bind, hc.get (show k < ne by omega) hi, hE.get (show k < ne by omega),
          hc.get (hEl k (by omega)) hi, Res.ok_bind]
        rw [Ten.set, h2.1, if_pos (by simp [hkn])]
      · show Function.update t.v _ _ _ = _
        by_cases h : n = C k i
        · subst h; simp
        · rw [Function.update_of_ne (by simpa using h), h2.2 n hn, show (fun n => if n = C k i then C (E k) i else T n) n = T n from if_neg h]
      · beta_reduce
        rw [if_neg fun hh => h k (by omega) hh.symm]
        exact (h3 n hn).1 fun e he => h e (by omega)
      · beta_reduce
        by_cases hek : e = k
        · subst hek; rw [if_pos hC.symm]
        · rw [if_neg fun hh => hl k (by omega) (by omega) hh.symm]
          exact (h3 n hn).2 e (by omega) hC fun e' h1 h2 => hl e' h1 (by omega)
  exact H ne (le_refl _)

theorem exists_last {p : Nat → Prop} {n : Nat} (h : ∃ e, e < n ∧ p e) :
    ∃ e, e < n ∧ p e ∧ ∀ e', e < e' → e' < n → ¬ p e' := by
  induction n with
  | zero => obtain ⟨e, he, _⟩ := h; omega
  | succ n ih =>
    by_cases hn : p n
    · exact ⟨n, by omega, hn, fun e' h1 h2 => by omega⟩
    · obtain ⟨e, he, hp⟩ := h
      have : e ≠ n := fun hh => hn (hh ▸ hp)
      obtain ⟨e, he, hp, hl⟩ := ih ⟨e, by omega, hp⟩
      refine ⟨e, by omega, hp, fun e' h1 h2 => ?_⟩
      by_cases h3 : e' = n
      · rw [h3]; exact hn
      · exact hl e' h1 (by omega)

theorem elemmap2nodemap_ok {coor : Ten α} {conn elem_map : Ten Nat} {ne nne N nd : Nat} {C E} {x}
    (hc : Is2 conn ne nne C) (h4 : 4 ≤ nne) (hE : Is1 elem_map ne E) (hEl : ∀ e, e < ne → E e < ne)
    (hx : Is2 coor N nd x) (hlt : ∀ e m, e < ne → m < nne → C e m < N) :
    ∃ t r, elemmap2nodemap elem_map coor conn .Quad4 = .ok t ∧ Is1 t N r ∧ ∀ n, n < N →
      ((∀ e i, e < ne → i < 4 → C e i ≠ n) → r n = N) ∧
      ∀ e i, FirstLast C ne 4 n e i → r n = C (E e) i := by
  have H : ∀ k, k ≤ 4 → ∃ t r, forEach (it1 k) (fun ret i => nodemapCol elem_map conn N ne i ret) (Ten.full [N] N) = .ok t ∧
      Is1 t N r ∧ ∀ n, n < N → ((∀ e i, e < ne → i < k → C e i ≠ n) → r n = N) ∧
      ∀ e i, FirstLast C ne k n e i → r n = C (E e) i := by
    intro k
    induction k with
    | zero =>
      exact fun _ => ⟨_, fun _ => N, rfl, ⟨rfl, fun _ _ => rfl⟩, fun n _ => ⟨fun _ => rfl, fun e i h => by have := h.col; omega⟩⟩
    | succ k ih =>
      intro hk
      obtain ⟨t, r, h1, h2, h3⟩ := ih (by omega)
      obtain ⟨t', T, g1, g2, g3⟩ := nodemapT hc hE hEl hlt (show k < nne by omega)
      obtain ⟨y, y1, y2⟩ := cellLoop1 (fun (ret : Ten Nat) n => do
        let r ← ret.get [n]
        let a ← t'.get [n]
        ret.set [n] (if r = N then a else r)) (fun n a => if a = N then T n else a) h2 (by
          intro n hn s hs hsv
          simp only [get_of_v (show inb s.shape [n] = true by simp [hs, hn]) hsv, g2.get hn, Res.ok_bind])
      refine ⟨y, _, ?_, y2, fun n hn => ⟨fun h => ?_, fun e i h => ?_⟩⟩
      · rw [forEach_it1_succ, h1]
        simp only [Res.bind, nodemapCol, g1, Res.ok_bind]
        exact y1
      · beta_reduce
        rw [(h3 n hn).1 fun e i he hi => h e i he (by omega), if_pos rfl]
        exact (g3 n hn).1 fun e he => h e k he (by omega)
      · beta_reduce
        have hcol := h.col
        by_cases hik : i = k
        · subst hik
          rw [(h3 n hn).1 fun e' i' he' hi' => h.first i' e' hi' he', if_pos rfl]
          exact (g3 n hn).2 e h.lt h.eq h.last
        · have := (h3 n hn).2 e i ⟨h.lt, by omega, h.eq, h.last, h.first⟩
          have hb := hlt (E e) i (hEl e h.lt) (by omega)
          rw [this, if_neg (by omega)]
  obtain ⟨t, r, h1, h2, h3⟩ := H 4 (le_refl _)
  refine ⟨t, r, ?_, h2, h3⟩
  simp only [elemmap2nodemap, hx.1, hc.1, if_true]
  exact h1

theorem exists_firstLast {C : Nat → Nat → Nat} {ne k n : Nat} (h : ∃ e i, e < ne ∧ i < k ∧ C e i = n) :
    ∃ e i, FirstLast C ne k n e i := by
  classical
  have h' : ∃ i, i < k ∧ ∃ e, e < ne ∧ C e i = n := by
    obtain ⟨e, i, h1, h2, h3⟩ := h
    exact ⟨i, h2, e, h1, h3⟩
  have hm := Nat.find_spec h'
  obtain ⟨e, he, hC, hl⟩ := exists_last hm.2
  exact ⟨e, Nat.find h', he, hm.1, hC, hl, fun i' e' hi' he' hC' =>
    Nat.find_min h' hi' ⟨by omega, e', he', hC'⟩⟩

/-! ### average_axis_0 -/

theorem average_ok [Field α] {data weights : Ten α} {n m : Nat} {d w} (hd : Is2 data n m d) (hw : Is2 weights n m w) :
    ∃ y, average_axis_0 data weights = .ok y ∧
      Is1 y m fun j => (∑ i ∈ range n, d i j * w i j) / ∑ i ∈ range n, w i j := by
  have hcol : ∀ j, j < m → ∀ s : Ten α, s.shape = [m] → s.v [j] = some 0 →
      averageCol data weights n j s = s.set [j] ((∑ i ∈ range n, d i j * w i j) / ∑ i ∈ range n, w i j) := by
    intro j hj s hs hsv
    have H : ∀ k, k ≤ n → ∃ s', forEach (it1 k) (fun (s : Ten α × α) i => do
        let d ← data.get [i, j]
        let w ← weights.get [i, j]
        let r ← s.1.addAt [j] (d * w)
        .ok (r, s.2 + w)) (s, 0) = .ok (s', ∑ i ∈ range k, w i j) ∧ s'.shape = [m] ∧
        s'.v [j] = some (∑ i ∈ range k, d i j * w i j) ∧ ∀ p, p ≠ [j] → s'.v p = s.v p := by
      intro k
      induction k with
      | zero => exact fun _ => ⟨s, rfl, hs, by simpa using hsv, fun _ _ => rfl⟩
      | succ k ih =>
        intro hk
        obtain ⟨s', h1, h2, h3, h4⟩ := ih (by omega)
        refine ⟨⟨s'.shape, Function.update s'.v [j] (some ((∑ i ∈ range k, d i j * w i j) + d k j * w k j))⟩,
          ?_, h2, ?_, ?_⟩
        · rw [forEach_it1_succ, h1]
          simp only [Res.bind, hd.get (show k < n by omega) hj, hw.get (show k < n by omega) hj, Res.ok_bind]
          rw [addAt_of_v (by simp [h2, hj]) h3, Ten.set, if_pos (by simp [h2, hj]), sum_range_succ]
          rfl
        · show Function.update s'.v _ _ _ = _
          rw [Function.update_self, sum_range_succ]
        · intro p hp
          show Function.update s'.v _ _ _ = _
          rw [Function.update_of_ne hp, h4 p hp]
    obtain ⟨s', h1, h2, h3, h4⟩ := H n (le_refl _)
    rw [averageCol, h1]
    simp only [Res.ok_bind, get_of_v (show inb s'.shape [j] = true by simp [h2, hj]) h3]
    rw [Ten.set, Ten.set, hs, h2]
    congr 3
    funext p
    by_cases hp : p = [j]
    · subst hp; simp
    · rw [Function.update_of_ne hp, Function.update_of_ne hp, h4 p hp]
  obtain ⟨y, h1, h2⟩ := cellLoop1 (n := m) (fun ret j => averageCol data weights n j ret)
    (fun j _ => (∑ i ∈ range n, d i j * w i j) / ∑ i ∈ range n, w i j) (t := Ten.full [m] (0 : α))
    (v := fun _ => 0) ⟨rfl, fun _ _ => rfl⟩ (fun j hj s hs hsv => hcol j hj s hs hsv)
  refine ⟨y, ?_, h2⟩
  simp only [average_axis_0, hw.1]
  exact h1

end GF
