import Verif.Base
import Verif.Spec.Basic
import Mathlib.Algebra.BigOperators.Group.Finset.Basic
import Mathlib.Algebra.BigOperators.Group.Finset.Piecewise
import Mathlib.Algebra.BigOperators.Group.List.Basic
import Mathlib.Algebra.BigOperators.Intervals

/-! General lemmas on the machine model: arrays, loops, scatter loops. -/

namespace GF

namespace Res
variable {α β γ : Type}

@[simp] theorem ok_bind (a : α) (f : α → Res β) : (Res.ok a >>= f) = f a := rfl
@[simp] theorem throws_bind (f : α → Res β) : ((Res.throws : Res α) >>= f) = Res.throws := rfl
@[simp] theorem ub_bind (f : α → Res β) : ((Res.ub : Res α) >>= f) = Res.ub := rfl
@[simp] theorem ok_bind' (a : α) (f : α → Res β) : Res.bind (Res.ok a) f = f a := rfl
@[simp] theorem throws_bind' (f : α → Res β) : Res.bind (Res.throws : Res α) f = Res.throws := rfl
@[simp] theorem ub_bind' (f : α → Res β) : Res.bind (Res.ub : Res α) f = Res.ub := rfl
@[simp] theorem pure_eq (a : α) : (pure a : Res α) = Res.ok a := rfl
theorem bind_eq_bind (x : Res α) (f : α → Res β) : (x >>= f) = x.bind f := rfl

end Res

@[simp] theorem inb_nil : inb [] [] = true := rfl
@[simp] theorem inb_cons (n i : Nat) (sh ix : List Nat) :
    inb (n :: sh) (i :: ix) = (decide (i < n) && inb sh ix) := rfl
@[simp] theorem inb_nil_cons (i : Nat) (ix : List Nat) : inb [] (i :: ix) = false := rfl
@[simp] theorem inb_cons_nil (n : Nat) (sh : List Nat) : inb (n :: sh) [] = false := rfl

variable {α : Type}

theorem Is1.get {t : Ten α} {n f} (h : Is1 t n f) {i : Nat} (hi : i < n) :
    t.get [i] = .ok (f i) := by
  simp [Ten.get, h.1, h.2 i hi, hi]

theorem Is2.get {t : Ten α} {n m f} (h : Is2 t n m f) {i j : Nat} (hi : i < n) (hj : j < m) :
    t.get [i, j] = .ok (f i j) := by
  simp [Ten.get, h.1, h.2 i j hi hj, hi, hj]

theorem Is3.get {t : Ten α} {n m k f} (h : Is3 t n m k f) {i j l : Nat} (hi : i < n) (hj : j < m)
    (hl : l < k) : t.get [i, j, l] = .ok (f i j l) := by
  simp [Ten.get, h.1, h.2 i j l hi hj hl, hi, hj, hl]

theorem Is1.of_get {t : Ten α} {n f} (hs : t.shape = [n])
    (h : ∀ i, i < n → t.get [i] = .ok (f i)) : Is1 t n f := by
  refine ⟨hs, fun i hi => ?_⟩
  have := h i hi
  simp only [Ten.get, hs, inb_cons, hi, decide_true, inb_nil, Bool.and_self, if_true] at this
  split at this <;> simp_all

theorem Is1.congr {t : Ten α} {n f g} (h : Is1 t n f) (hfg : ∀ i, i < n → f i = g i) :
    Is1 t n g := ⟨h.1, fun i hi => by rw [h.2 i hi, hfg i hi]⟩

theorem Is2.congr {t : Ten α} {n m f g} (h : Is2 t n m f)
    (hfg : ∀ i j, i < n → j < m → f i j = g i j) :
    Is2 t n m g := ⟨h.1, fun i j hi hj => by rw [h.2 i j hi hj, hfg i j hi hj]⟩

theorem Is3.congr {t : Ten α} {n m k f g} (h : Is3 t n m k f)
    (hfg : ∀ i j l, i < n → j < m → l < k → f i j l = g i j l) :
    Is3 t n m k g := ⟨h.1, fun i j l hi hj hl => by rw [h.2 i j l hi hj hl, hfg i j l hi hj hl]⟩

theorem is1_of (n : Nat) (f : List Nat → α) : Is1 (Ten.of [n] f) n (fun i => f [i]) :=
  ⟨rfl, fun _ _ => rfl⟩
theorem is2_of (n m : Nat) (f : List Nat → α) :
    Is2 (Ten.of [n, m] f) n m (fun i j => f [i, j]) := ⟨rfl, fun _ _ _ _ => rfl⟩
theorem is3_of (n m k : Nat) (f : List Nat → α) :
    Is3 (Ten.of [n, m, k] f) n m k (fun i j l => f [i, j, l]) := ⟨rfl, fun _ _ _ _ _ _ => rfl⟩

/-- reshuffle of a bounded double quantifier (used to check concrete instances) -/
theorem ball2 {n k : Nat} {P : Nat → Nat → Prop} (h : ∀ e, e < n → ∀ m, m < k → P e m) :
    ∀ e m, e < n → m < k → P e m := fun e m he hm => h e he m hm

/-! ### loops -/

section loops
variable {σ ι : Type}

@[simp] theorem forEach_nil (f : σ → ι → Res σ) (s : σ) : forEach [] f s = .ok s := rfl
@[simp] theorem forEach_cons (i : ι) (l : List ι) (f : σ → ι → Res σ) (s : σ) :
    forEach (i :: l) f s = (f s i).bind (forEach l f) := rfl

theorem forEach_append (l₁ l₂ : List ι) (f : σ → ι → Res σ) (s : σ) :
    forEach (l₁ ++ l₂) f s = (forEach l₁ f s).bind (forEach l₂ f) := by
  induction l₁ generalizing s with
  | nil => rfl
  | cons i l ih =>
    simp only [List.cons_append, forEach_cons]
    cases h : f s i <;> simp [ih]

/-- Hoare rule: an invariant indexed by the list of processed iterations. -/
theorem forEach_inv (l : List ι) (f : σ → ι → Res σ) (I : List ι → σ → Prop) (s : σ)
    (h0 : I [] s)
    (hstep : ∀ pre i post s, l = pre ++ i :: post → I pre s →
      ∃ s', f s i = .ok s' ∧ I (pre ++ [i]) s') :
    ∃ s', forEach l f s = .ok s' ∧ I l s' := by
  suffices H : ∀ (post pre : List ι) (s : σ), l = pre ++ post → I pre s →
      ∃ s', forEach post f s = .ok s' ∧ I l s' by
    exact H l [] s rfl h0
  intro post
  induction post with
  | nil =>
    intro pre s hl hI
    refine ⟨s, rfl, ?_⟩
    simpa [hl] using hI
  | cons i post ih =>
    intro pre s hl hI
    obtain ⟨s1, h1, hI1⟩ := hstep pre i post s hl hI
    obtain ⟨s2, h2, hI2⟩ := ih (pre ++ [i]) s1 (by simp [hl]) hI1
    exact ⟨s2, by simp [h1, h2], hI2⟩

theorem forEach_congr (l : List ι) (f g : σ → ι → Res σ) (s : σ)
    (h : ∀ i ∈ l, ∀ s, f s i = g s i) : forEach l f s = forEach l g s := by
  induction l generalizing s with
  | nil => rfl
  | cons i l ih =>
    simp only [forEach_cons]
    rw [h i (by simp) s]
    cases g s i with
    | ok a => exact ih a (fun j hj => h j (by simp [hj]))
    | throws => rfl
    | ub => rfl

end loops

@[simp] theorem mem_it1 {n i : Nat} : i ∈ it1 n ↔ i < n := by simp [it1]
@[simp] theorem mem_it2 {n m : Nat} {p : Nat × Nat} : p ∈ it2 n m ↔ p.1 < n ∧ p.2 < m := by
  obtain ⟨i, j⟩ := p
  simp only [it2, List.mem_flatMap, List.mem_range, List.mem_map, Prod.mk.injEq]
  constructor
  · rintro ⟨a, ha, b, hb, rfl, rfl⟩; exact ⟨ha, hb⟩
  · rintro ⟨h1, h2⟩; exact ⟨i, h1, j, h2, rfl, rfl⟩
@[simp] theorem mem_it3 {n m k : Nat} {p : Nat × Nat × Nat} :
    p ∈ it3 n m k ↔ p.1 < n ∧ p.2.1 < m ∧ p.2.2 < k := by
  obtain ⟨i, j⟩ := p
  simp only [it3, List.mem_flatMap, List.mem_range, List.mem_map, Prod.mk.injEq]
  constructor
  · rintro ⟨a, ha, b, hb, rfl, rfl⟩; exact ⟨ha, mem_it2.1 hb⟩
  · rintro ⟨h1, h2⟩; exact ⟨i, h1, j, mem_it2.2 h2, rfl, rfl⟩
@[simp] theorem mem_it5 {n m k l o : Nat} {p : Nat × Nat × Nat × Nat × Nat} :
    p ∈ it5 n m k l o ↔ p.1 < n ∧ p.2.1 < m ∧ p.2.2.1 < k ∧ p.2.2.2.1 < l ∧ p.2.2.2.2 < o := by
  obtain ⟨i, j, q⟩ := p
  simp only [it5, List.mem_flatMap, List.mem_range, List.mem_map, Prod.mk.injEq]
  constructor
  · rintro ⟨a, ha, b, hb, c, hc, rfl, rfl, rfl⟩; exact ⟨ha, hb, mem_it3.1 hc⟩
  · rintro ⟨h1, h2, h3⟩; exact ⟨i, h1, j, h2, q, mem_it3.2 h3, rfl, rfl, rfl⟩

theorem mem_indices {sh ix : List Nat} : ix ∈ indices sh ↔ inb sh ix = true := by
  induction sh generalizing ix with
  | nil => cases ix <;> simp [indices]
  | cons n sh ih =>
    cases ix with
    | nil => simp [indices]
    | cons i ix =>
      simp only [indices, List.mem_flatMap, List.mem_range, List.mem_map, List.cons.injEq,
        inb_cons, Bool.and_eq_true, decide_eq_true_eq, ih]
      exact ⟨fun ⟨a, ha, b, hb, h1, h2⟩ => by subst h1 h2; exact ⟨ha, hb⟩,
        fun ⟨h1, h2⟩ => ⟨i, h1, ix, h2, rfl, rfl⟩⟩

@[simp] theorem mem_sched (σ : Sched) {ι : Type} {l : List ι} {i : ι} : i ∈ σ.run l ↔ i ∈ l :=
  (σ.perm l).mem_iff

theorem mapRes_ok {α β : Type} (f : α → Res β) (g : α → β) (l : List α)
    (h : ∀ a ∈ l, f a = .ok (g a)) : mapRes f l = .ok (l.map g) := by
  induction l with
  | nil => rfl
  | cons a l ih =>
    simp only [mapRes, List.map_cons]
    rw [h a (by simp), ih (fun b hb => h b (by simp [hb]))]
    rfl

theorem le_foldl_max (l : List Nat) (b : Nat) : b ≤ l.foldl max b ∧ ∀ a ∈ l, a ≤ l.foldl max b := by
  induction l generalizing b with
  | nil => simp
  | cons c l ih =>
    have := ih (max b c)
    simp only [List.foldl_cons, List.mem_cons, forall_eq_or_imp]
    exact ⟨le_trans (le_max_left _ _) this.1, le_trans (le_max_right _ _) this.1, this.2⟩

theorem foldl_max_mem (l : List Nat) (b : Nat) : l.foldl max b = b ∨ l.foldl max b ∈ l := by
  induction l generalizing b with
  | nil => simp
  | cons c l ih =>
    simp only [List.foldl_cons, List.mem_cons]
    rcases ih (max b c) with h | h
    · rw [h]
      rcases max_choice b c with h' | h' <;> rw [h'] <;> simp
    · exact Or.inr (Or.inr h)

/-- `flat` of a fully initialised array. -/
theorem flat_ok {t : Ten α} {f : List Nat → α}
    (h : ∀ ix, inb t.shape ix = true → t.v ix = some (f ix)) :
    t.flat = .ok ((indices t.shape).map f) := by
  apply mapRes_ok
  intro ix hix
  have := mem_indices.1 hix
  simp [Ten.get, this, h ix this]

theorem amax_ok {t : Ten Nat} {f : List Nat → Nat}
    (h : ∀ ix, inb t.shape ix = true → t.v ix = some (f ix)) :
    ∃ n, amax t = .ok n ∧ (∀ ix, inb t.shape ix = true → f ix ≤ n) ∧
      (n = 0 ∨ ∃ ix, inb t.shape ix = true ∧ f ix = n) := by
  refine ⟨_, by rw [amax, flat_ok h]; rfl, ?_, ?_⟩
  · intro ix hix
    exact (le_foldl_max _ 0).2 _ (List.mem_map.2 ⟨ix, mem_indices.2 hix, rfl⟩)
  · rcases foldl_max_mem ((indices t.shape).map f) 0 with h | h
    · exact Or.inl h
    · obtain ⟨ix, h1, h2⟩ := List.mem_map.1 h
      exact Or.inr ⟨ix, mem_indices.1 h1, h2⟩

theorem inb_iff_cons {n : Nat} {sh ix : List Nat} : inb (n :: sh) ix = true ↔
    ∃ i r, ix = i :: r ∧ i < n ∧ inb sh r = true := by
  cases ix <;> simp

theorem inb_iff_nil {ix : List Nat} : inb [] ix = true ↔ ix = [] := by
  cases ix <;> simp

theorem inb1 {n : Nat} {ix : List Nat} : inb [n] ix = true ↔ ∃ i, ix = [i] ∧ i < n := by
  simp [inb_iff_cons, inb_iff_nil]

theorem inb2 {n m : Nat} {ix : List Nat} :
    inb [n, m] ix = true ↔ ∃ i j, ix = [i, j] ∧ i < n ∧ j < m := by
  simp only [inb_iff_cons, inb_iff_nil]
  constructor
  · rintro ⟨i, r, rfl, hi, j, s, rfl, hj, rfl⟩; exact ⟨i, j, rfl, hi, hj⟩
  · rintro ⟨i, j, rfl, hi, hj⟩; exact ⟨i, _, rfl, hi, j, _, rfl, hj, rfl⟩

theorem inb3 {n m k : Nat} {ix : List Nat} :
    inb [n, m, k] ix = true ↔ ∃ i j l, ix = [i, j, l] ∧ i < n ∧ j < m ∧ l < k := by
  simp only [inb_iff_cons, inb_iff_nil]
  constructor
  · rintro ⟨i, r, rfl, hi, j, s, rfl, hj, l, q, rfl, hl, rfl⟩; exact ⟨i, j, l, rfl, hi, hj, hl⟩
  · rintro ⟨i, j, l, rfl, hi, hj, hl⟩; exact ⟨i, _, rfl, hi, j, _, rfl, hj, l, _, rfl, hl, rfl⟩

theorem Is2.flat_spec {t : Ten α} {n m : Nat} {f : Nat → Nat → α} (h : Is2 t n m f) :
    Full t (fun ix => f (ix.getD 0 0) (ix.getD 1 0)) := by
  intro ix hix
  rw [h.1] at hix
  obtain ⟨i, j, rfl, hi, hj⟩ := inb2.1 hix
  exact h.2 i j hi hj

theorem amax_is2 {t : Ten Nat} {n m : Nat} {f : Nat → Nat → Nat} (h : Is2 t n m f) :
    ∃ k, amax t = .ok k ∧ (∀ i j, i < n → j < m → f i j ≤ k) ∧
      (k = 0 ∨ ∃ i j, i < n ∧ j < m ∧ f i j = k) := by
  obtain ⟨k, h1, h2, h3⟩ := amax_ok h.flat_spec
  refine ⟨k, h1, fun i j hi hj => h2 [i, j] (by simp [h.1, hi, hj]), ?_⟩
  rcases h3 with h3 | ⟨ix, h3, h4⟩
  · exact Or.inl h3
  · rw [h.1] at h3
    obtain ⟨i, j, rfl, hi, hj⟩ := inb2.1 h3
    exact Or.inr ⟨i, j, hi, hj, h4⟩

/-! ### sums over iteration lists -/

section sums
variable {R : Type} [AddCommMonoid R]
open Finset

theorem sum_map_range (n : Nat) (f : Nat → R) :
    ((List.range n).map f).sum = ∑ i ∈ range n, f i := by
  induction n with
  | zero => rfl
  | succ n ih => simp [List.range_succ, Finset.sum_range_succ, ih]

theorem sum_it1 (n : Nat) (f : Nat → R) :
    ((it1 n).map f).sum = ∑ i ∈ range n, f i := sum_map_range n f

theorem sum_map_flatMap {ι κ : Type} (l : List ι) (g : ι → List κ) (f : κ → R) :
    ((l.flatMap g).map f).sum = (l.map fun i => ((g i).map f).sum).sum := by
  induction l with
  | nil => rfl
  | cons a l ih => simp [List.flatMap_cons, List.sum_append, ih]

theorem sum_it2 (n m : Nat) (f : Nat × Nat → R) :
    ((it2 n m).map f).sum = ∑ i ∈ range n, ∑ j ∈ range m, f (i, j) := by
  simp only [it2, sum_map_flatMap, List.map_map, sum_map_range]; rfl

theorem sum_it3 (n m k : Nat) (f : Nat × Nat × Nat → R) :
    ((it3 n m k).map f).sum = ∑ i ∈ range n, ∑ j ∈ range m, ∑ l ∈ range k, f (i, j, l) := by
  simp only [it3, sum_map_flatMap, List.map_map, sum_map_range, sum_it2]; rfl

theorem sum_it5 (n m k l o : Nat) (f : Nat × Nat × Nat × Nat × Nat → R) :
    ((it5 n m k l o).map f).sum = ∑ a ∈ range n, ∑ b ∈ range m, ∑ c ∈ range k, ∑ d ∈ range l,
      ∑ e ∈ range o, f (a, b, c, d, e) := by
  simp only [it5, sum_map_flatMap, List.map_map, sum_map_range, sum_it3]; rfl

end sums

/-! ### scatter loops -/

section scatter
variable {ι : Type}

/-- A loop whose iterations assign `val i` to cell `pos i`: afterwards every written cell holds the
value of one iteration that targets it (the last one), every other cell is unchanged. -/
theorem forEach_set (l : List ι) (body : Ten α → ι → Res (Ten α)) (pos : ι → List Nat)
    (val : ι → α) (t : Ten α)
    (hin : ∀ i ∈ l, inb t.shape (pos i) = true)
    (hbody : ∀ i ∈ l, ∀ s : Ten α, s.shape = t.shape → body s i = s.set (pos i) (val i)) :
    ∃ t', forEach l body t = .ok t' ∧ t'.shape = t.shape ∧
      (∀ p, (∃ i ∈ l, pos i = p) → ∃ i ∈ l, pos i = p ∧ t'.v p = some (val i)) ∧
      (∀ p, (∀ i ∈ l, pos i ≠ p) → t'.v p = t.v p) := by
  refine (forEach_inv l body (fun pre s => s.shape = t.shape ∧
      (∀ p, (∃ i ∈ pre, pos i = p) → ∃ i ∈ pre, pos i = p ∧ s.v p = some (val i)) ∧
      (∀ p, (∀ i ∈ pre, pos i ≠ p) → s.v p = t.v p)) t (by simp) ?_)
  rintro pre i post s hl ⟨hsh, hw, hu⟩
  have him : i ∈ l := by simp [hl]
  refine ⟨⟨s.shape, Function.update s.v (pos i) (some (val i))⟩, ?_, hsh, ?_, ?_⟩
  · rw [hbody i him s hsh, Ten.set, hsh, hin i him]; simp
  · rintro p ⟨j, hj, hjp⟩
    by_cases hp : pos i = p
    · exact ⟨i, by simp, hp, by simp [← hp]⟩
    · have hj' : j ∈ pre := by
        rcases List.mem_append.1 hj with h | h
        · exact h
        · simp at h; subst h; exact absurd hjp hp
      obtain ⟨i', h1, h2, h3⟩ := hw p ⟨j, hj', hjp⟩
      exact ⟨i', by simp [h1], h2, by simp [Function.update_of_ne (Ne.symm hp), h3]⟩
  · intro p hp
    have h1 : pos i ≠ p := hp i (by simp)
    simp only [Function.update_of_ne (Ne.symm h1)]
    exact hu p (fun j hj => hp j (by simp [hj]))

/-- A loop whose iterations add `val i` to cell `pos i`: afterwards every cell holds its initial
value plus the sum of the values of all iterations that target it. -/
theorem forEach_add [AddCommMonoid α] (l : List ι) (body : Ten α → ι → Res (Ten α))
    (pos : ι → List Nat) (val : ι → α) (t : Ten α) (f : List Nat → α)
    (hinit : ∀ p, inb t.shape p = true → t.v p = some (f p))
    (hin : ∀ i ∈ l, inb t.shape (pos i) = true)
    (hbody : ∀ i ∈ l, ∀ s : Ten α, s.shape = t.shape → body s i = s.addAt (pos i) (val i)) :
    ∃ t', forEach l body t = .ok t' ∧ t'.shape = t.shape ∧
      (∀ p, inb t.shape p = true →
        t'.v p = some (f p + (l.map fun i => if pos i = p then val i else 0).sum)) := by
  refine (forEach_inv l body (fun pre s => s.shape = t.shape ∧
      (∀ p, inb t.shape p = true →
        s.v p = some (f p + (pre.map fun i => if pos i = p then val i else 0).sum))) t
        (by simpa using hinit) ?_)
  rintro pre i post s hl ⟨hsh, hw⟩
  have him : i ∈ l := by simp [hl]
  have hi := hin i him
  refine ⟨⟨s.shape, Function.update s.v (pos i)
    (some (f (pos i) + (pre.map fun j => if pos j = pos i then val j else 0).sum + val i))⟩,
    ?_, hsh, ?_⟩
  · rw [hbody i him s hsh]; simp [Ten.addAt, Ten.get, Ten.set, hsh, hi, hw _ hi]
  · intro p hp
    by_cases h : pos i = p
    · subst h; simp [add_assoc]
    · simp [Function.update_of_ne (Ne.symm h), hw p hp, h]

end scatter

end GF
