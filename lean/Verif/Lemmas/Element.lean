import Verif.Lemmas.Rows
import Verif.Model.ElementAxi
import Verif.Model.ElementHex8
import Verif.Spec.Element

/-! Lemmas on element loops: parallel over elements, sums over everything inside. -/

namespace GF
open Finset

section basics
variable {α : Type}

theorem Is4.get {t : Ten α} {n m k l f} (h : Is4 t n m k l f) {a b c d : Nat} (ha : a < n) (hb : b < m)
    (hc : c < k) (hd : d < l) : t.get [a, b, c, d] = .ok (f a b c d) := by
  simp [Ten.get, h.1, h.2 a b c d ha hb hc hd, ha, hb, hc, hd]

theorem Is6.get {t : Ten α} {n m k l o p f} (h : Is6 t n m k l o p f) {a b c d i j : Nat} (ha : a < n)
    (hb : b < m) (hc : c < k) (hd : d < l) (hi : i < o) (hj : j < p) :
    t.get [a, b, c, d, i, j] = .ok (f a b c d i j) := by
  simp [Ten.get, h.1, h.2 a b c d i j ha hb hc hd hi hj, ha, hb, hc, hd, hi, hj]

theorem Is4.congr {t : Ten α} {n m k l f g} (h : Is4 t n m k l f)
    (hfg : ∀ a b c d, a < n → b < m → c < k → d < l → f a b c d = g a b c d) :
    Is4 t n m k l g :=
  ⟨h.1, fun a b c d ha hb hc hd => by rw [h.2 a b c d ha hb hc hd, hfg a b c d ha hb hc hd]⟩

theorem Is2.unique {t : Ten α} {n m f g} (h : Is2 t n m f) (h' : Is2 t n m g) {i j : Nat}
    (hi : i < n) (hj : j < m) : f i j = g i j := by
  have := h.2 i j hi hj
  rw [h'.2 i j hi hj] at this
  exact (Option.some.inj this).symm

theorem Is3.unique {t : Ten α} {n m k f g} (h : Is3 t n m k f) (h' : Is3 t n m k g) {i j l : Nat}
    (hi : i < n) (hj : j < m) (hl : l < k) : f i j l = g i j l := by
  have := h.2 i j l hi hj hl
  rw [h'.2 i j l hi hj hl] at this
  exact (Option.some.inj this).symm

theorem Is4.unique {t : Ten α} {n m k o f g} (h : Is4 t n m k o f) (h' : Is4 t n m k o g)
    {i j l p : Nat} (hi : i < n) (hj : j < m) (hl : l < k) (hp : p < o) :
    f i j l p = g i j l p := by
  have := h.2 i j l p hi hj hl hp
  rw [h'.2 i j l p hi hj hl hp] at this
  exact (Option.some.inj this).symm

/-! ### raw pointers -/

theorem getP2 {t : Ten α} {n k : Nat} {f} (h : Is2 t n k f) {e i : Nat} (he : e < n) (hi : i < k) :
    t.getP [e, 0] i = .ok (f e i) := by
  have : unravel t.shape (ravel t.shape [e, 0] + i) = [e, i] := by
    simp only [h.1, unravel, ravel, sizeOf', Nat.mul_one, Nat.add_zero, Nat.zero_mul]
    simp [grid_div hi, grid_mod hi]
  rw [Ten.getP, this, h.get he hi]

theorem unravel3 {n m k e i j : Nat} (hi : i < m) (hj : j < k) :
    unravel [n, m, k] (ravel [n, m, k] [e, 0, 0] + (i * k + j)) = [e, i, j] := by
  have h : i * k + j < m * k := grid_lt hi hj
  simp only [unravel, ravel, sizeOf', Nat.mul_one, Nat.add_zero, Nat.zero_mul]
  simp [grid_div h, grid_mod h, grid_div hj, grid_mod hj]

theorem unravel3' {n m k e i j : Nat} (hi : i < m) (hj : j < k) :
    unravel [n, m, k] (ravel [n, m, k] [e, i, 0] + j) = [e, i, j] := by
  have h : i * k + j < m * k := grid_lt hi hj
  simp only [unravel, ravel, sizeOf', Nat.mul_one, Nat.add_zero, Nat.zero_mul]
  rw [Nat.add_assoc]
  simp [grid_div h, grid_mod h, grid_div hj, grid_mod hj]

theorem getP3 {t : Ten α} {n m k : Nat} {f} (h : Is3 t n m k f) {e i j : Nat} (he : e < n) (hi : i < m)
    (hj : j < k) : t.getP [e, 0, 0] (i * k + j) = .ok (f e i j) := by
  rw [Ten.getP, h.1, unravel3 hi hj, h.get he hi hj]

theorem getP3' {t : Ten α} {n m k : Nat} {f} (h : Is3 t n m k f) {e i j : Nat} (he : e < n) (hi : i < m)
    (hj : j < k) : t.getP [e, i, 0] j = .ok (f e i j) := by
  rw [Ten.getP, h.1, unravel3' hi hj, h.get he hi hj]

end basics

/-! ### nested loops -/

section loops
variable {σ ι κ τ : Type}

theorem forEach_map (f : κ → ι) (L : List κ) (body : σ → ι → Res σ) (s : σ) :
    forEach (L.map f) body s = forEach L (fun s k => body s (f k)) s := by
  induction L generalizing s with
  | nil => rfl
  | cons k L ih =>
    simp only [List.map_cons, forEach_cons]
    congr 1
    funext s'
    exact ih s'

theorem forEach_nest (l : List ι) (L : List κ) (body : σ → ι × κ → Res σ) (s : σ) :
    forEach l (fun s e => forEach L (fun s k => body s (e, k)) s) s =
      forEach (l.flatMap fun e => L.map fun k => (e, k)) body s := by
  induction l generalizing s with
  | nil => rfl
  | cons e l ih =>
    rw [forEach_cons, List.flatMap_cons, forEach_append, forEach_map]
    congr 1
    funext s'
    exact ih s'

/-- two outputs that are written independently in the same loop -/
theorem forEach_pair (l : List ι) (body : σ × τ → ι → Res (σ × τ)) (f : σ → ι → Res σ)
    (g : τ → ι → Res τ) (a : σ) (b : τ) (a' : σ) (b' : τ)
    (hb : ∀ i ∈ l, ∀ a b, body (a, b) i = (f a i).bind fun a' => (g b i).bind fun b' => .ok (a', b'))
    (ha : forEach l f a = .ok a') (hg : forEach l g b = .ok b') :
    forEach l body (a, b) = .ok (a', b') := by
  induction l generalizing a b with
  | nil =>
    simp only [forEach_nil, Res.ok.injEq] at ha hg
    simp [ha, hg]
  | cons i l ih =>
    rw [forEach_cons] at ha hg ⊢
    rw [hb i (by simp)]
    cases hfa : f a i with
    | throws => rw [hfa] at ha; simp [Res.bind] at ha
    | ub => rw [hfa] at ha; simp [Res.bind] at ha
    | ok a₁ =>
      cases hgb : g b i with
      | throws => rw [hgb] at hg; simp [Res.bind] at hg
      | ub => rw [hgb] at hg; simp [Res.bind] at hg
      | ok b₁ =>
        rw [hfa] at ha
        rw [hgb] at hg
        exact ih a₁ b₁ (fun i hi => hb i (by simp [hi])) ha hg

end loops

/-! ### loops that are equivalent to a list of `+=` statements -/

section adds
variable {α ι : Type}

/-- execute the statements `t(st.1) += st.2` in order -/
def adds [Add α] (sts : List (List Nat × α)) (t : Ten α) : Res (Ten α) :=
  forEach sts (fun s st => s.addAt st.1 st.2) t

/-- on arrays of shape `sh`, `g` executes the given `+=` statements -/
def IsAdds [Add α] (sh : List Nat) (g : Ten α → Res (Ten α)) (sts : List (List Nat × α)) : Prop :=
  ∀ s, s.shape = sh → g s = adds sts s

theorem addAt_shape [Add α] {t t' : Ten α} {ix : List Nat} {a : α} (h : t.addAt ix a = .ok t') :
    t'.shape = t.shape := by
  unfold Ten.addAt at h
  cases hg : t.get ix with
  | ok b =>
    rw [hg] at h
    change t.set ix (b + a) = .ok t' at h
    unfold Ten.set at h
    split at h
    · injection h with h; rw [← h]
    · exact absurd h (by simp)
  | throws => rw [hg] at h; exact absurd h (by simp [Res.bind_eq_bind, Res.bind])
  | ub => rw [hg] at h; exact absurd h (by simp [Res.bind_eq_bind, Res.bind])

theorem adds_shape [Add α] {sts : List (List Nat × α)} {t t' : Ten α} (h : adds sts t = .ok t') :
    t'.shape = t.shape := by
  induction sts generalizing t with
  | nil => simp only [adds, forEach_nil, Res.ok.injEq] at h; rw [h]
  | cons st sts ih =>
    simp only [adds, forEach_cons] at h
    cases hb : t.addAt st.1 st.2 with
    | ok b => rw [hb] at h; rw [ih h, addAt_shape hb]
    | throws => rw [hb] at h; simp [Res.bind] at h
    | ub => rw [hb] at h; simp [Res.bind] at h

theorem isAdds_one [Add α] (sh : List Nat) (g : Ten α → Res (Ten α)) (p : List Nat) (a : α)
    (h : ∀ s, s.shape = sh → g s = s.addAt p a) : IsAdds sh g [(p, a)] := by
  intro s hs
  rw [h s hs]
  simp only [adds, forEach_cons]
  cases s.addAt p a <;> rfl

theorem isAdds_seq [Add α] {sh : List Nat} {g h k : Ten α → Res (Ten α)} {A B : List (List Nat × α)}
    (hg : IsAdds sh g A) (hh : IsAdds sh h B) (hk : ∀ s, s.shape = sh → k s = (g s).bind h) :
    IsAdds sh k (A ++ B) := by
  intro s hs
  rw [hk s hs, hg s hs, adds, adds, forEach_append]
  cases hb : forEach A (fun s st => s.addAt st.1 st.2) s with
  | ok b => exact hh b (by rw [adds_shape hb, hs])
  | throws => rfl
  | ub => rfl

theorem isAdds_loop [Add α] {sh : List Nat} (l : List ι) (body : Ten α → ι → Res (Ten α))
    (St : ι → List (List Nat × α)) (h : ∀ i ∈ l, IsAdds sh (fun s => body s i) (St i)) :
    IsAdds sh (forEach l body) (l.flatMap St) := by
  induction l with
  | nil => intro s _; rfl
  | cons i l ih =>
    rw [List.flatMap_cons]
    exact isAdds_seq (h i (by simp)) (ih fun j hj => h j (by simp [hj])) (fun s _ => rfl)

/-- effect of a list of `+=` statements on a zeroed array -/
theorem IsAdds.spec [AddCommMonoid α] {sh : List Nat} {g : Ten α → Res (Ten α)}
    {sts : List (List Nat × α)} (h : IsAdds sh g sts) (hin : ∀ st ∈ sts, inb sh st.1 = true) :
    ∃ t', g (Ten.full sh 0) = .ok t' ∧ t'.shape = sh ∧ ∀ p, inb sh p = true →
      t'.v p = some ((sts.map fun st => if st.1 = p then st.2 else 0).sum) := by
  obtain ⟨t', h1, h2, h3⟩ := forEach_add sts (fun s st => s.addAt st.1 st.2) (·.1) (·.2)
    (Ten.full sh 0) (fun _ => 0) (fun p _ => rfl) hin (fun _ _ _ _ => rfl)
  refine ⟨t', by rw [h _ rfl]; exact h1, h2, fun p hp => ?_⟩
  rw [h3 p hp, zero_add]

end adds

/-! ### loops that are equivalent to a list of assignments -/

section sets
variable {α ι : Type}

/-- execute the statements `t(st.1) = st.2` in order -/
def sets (sts : List (List Nat × α)) (t : Ten α) : Res (Ten α) :=
  forEach sts (fun s st => s.set st.1 st.2) t

/-- on arrays of shape `sh`, `g` executes the given assignments -/
def IsSets (sh : List Nat) (g : Ten α → Res (Ten α)) (sts : List (List Nat × α)) : Prop :=
  ∀ s, s.shape = sh → g s = sets sts s

theorem set_shape {t t' : Ten α} {ix : List Nat} {a : α} (h : t.set ix a = .ok t') :
    t'.shape = t.shape := by
  unfold Ten.set at h
  split at h
  · injection h with h; rw [← h]
  · exact absurd h (by simp)

theorem sets_shape {sts : List (List Nat × α)} {t t' : Ten α} (h : sets sts t = .ok t') :
    t'.shape = t.shape := by
  induction sts generalizing t with
  | nil => simp only [sets, forEach_nil, Res.ok.injEq] at h; rw [h]
  | cons st sts ih =>
    simp only [sets, forEach_cons] at h
    cases hb : t.set st.1 st.2 with
    | ok b => rw [hb] at h; rw [ih h, set_shape hb]
    | throws => rw [hb] at h; simp [Res.bind] at h
    | ub => rw [hb] at h; simp [Res.bind] at h

theorem isSets_one (sh : List Nat) (g : Ten α → Res (Ten α)) (p : List Nat) (a : α)
    (h : ∀ s, s.shape = sh → g s = s.set p a) : IsSets sh g [(p, a)] := by
  intro s hs
  rw [h s hs]
  simp only [sets, forEach_cons]
  cases s.set p a <;> rfl

theorem isSets_seq {sh : List Nat} {g h k : Ten α → Res (Ten α)} {A B : List (List Nat × α)}
    (hg : IsSets sh g A) (hh : IsSets sh h B) (hk : ∀ s, s.shape = sh → k s = (g s).bind h) :
    IsSets sh k (A ++ B) := by
  intro s hs
  rw [hk s hs, hg s hs, sets, sets, forEach_append]
  cases hb : forEach A (fun s st => s.set st.1 st.2) s with
  | ok b => exact hh b (by rw [sets_shape hb, hs])
  | throws => rfl
  | ub => rfl

theorem isSets_loop {sh : List Nat} (l : List ι) (body : Ten α → ι → Res (Ten α))
    (St : ι → List (List Nat × α)) (h : ∀ i ∈ l, IsSets sh (fun s => body s i) (St i)) :
    IsSets sh (forEach l body) (l.flatMap St) := by
  induction l with
  | nil => intro s _; rfl
  | cons i l ih =>
    rw [List.flatMap_cons]
    exact isSets_seq (h i (by simp)) (ih fun j hj => h j (by simp [hj])) (fun s _ => rfl)

/-- effect of a list of assignments whose values are determined by the cell -/
theorem IsSets.spec {sh : List Nat} {g : Ten α → Res (Ten α)}
    {sts : List (List Nat × α)} (h : IsSets sh g sts) (val : List Nat → α)
    (hin : ∀ st ∈ sts, inb sh st.1 = true ∧ st.2 = val st.1) (t : Ten α) (ht : t.shape = sh) :
    ∃ t', g t = .ok t' ∧ t'.shape = sh ∧ (∀ p, (∃ st ∈ sts, st.1 = p) → t'.v p = some (val p)) ∧
      ∀ p, (∀ st ∈ sts, st.1 ≠ p) → t'.v p = t.v p := by
  obtain ⟨t', h1, h2, h3, h4⟩ := forEach_set sts (fun s st => s.set st.1 st.2) (·.1) (·.2)
    t (fun st hst => by rw [ht]; exact (hin st hst).1) (fun _ _ _ _ => rfl)
  refine ⟨t', by rw [h _ ht]; exact h1, by rw [h2, ht], fun p hp => ?_, h4⟩
  obtain ⟨st, hst, h5, h6⟩ := h3 p hp
  rw [h6, (hin st hst).2, h5]

theorem covered {l : List ι} {St : ι → List (List Nat × α)} {i : ι} {p : List Nat} (hi : i ∈ l)
    (hp : p ∈ (St i).map Prod.fst) : ∃ st ∈ l.flatMap St, st.1 = p := by
  obtain ⟨st, h1, h2⟩ := List.mem_map.1 hp
  exact ⟨st, List.mem_flatMap.2 ⟨i, hi, h1⟩, h2⟩

end sets

/-! ### sums over a permuted element loop -/

section sums
variable {R : Type} [AddCommMonoid R]

theorem sum_sched (σ : Sched) (n : Nat) (f : Nat → R) :
    ((σ.run (it1 n)).map f).sum = ∑ i ∈ range n, f i := by
  rw [((σ.perm (it1 n)).map f).sum_eq, sum_it1]

theorem sum_pick {n k : Nat} (hk : k < n) (f : Nat → R) (h : ∀ i, i ≠ k → f i = 0) :
    ∑ i ∈ range n, f i = f k :=
  Finset.sum_eq_single k (fun i _ hi => h i hi) (fun hn => absurd (mem_range.2 hk) hn)

end sums
end GF
