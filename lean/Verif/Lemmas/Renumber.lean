import Verif.Model.Renumber
import Verif.Lemmas.Base
import Mathlib.Data.List.Nodup
import Mathlib.Data.List.Sort

namespace GF

theorem mem_unique {l : List Nat} {k : Nat} : k ∈ unique l ↔ k ∈ l := by
  simp only [unique, List.mem_filter, List.mem_range, List.contains_iff_mem, Nat.lt_succ_iff]
  exact ⟨fun h => h.2, fun h => ⟨(le_foldl_max l 0).2 k h, h⟩⟩

theorem range_pairwise (n : Nat) : (List.range n).Pairwise (· < ·) := List.pairwise_lt_range

theorem unique_sorted (l : List Nat) : (unique l).Pairwise (· < ·) :=
  (range_pairwise _).filter _

theorem unique_nodup (l : List Nat) : (unique l).Nodup :=
  (unique_sorted l).imp fun h => Nat.ne_of_lt h

theorem mem_setdiff1d {a b : List Nat} {k : Nat} : k ∈ setdiff1d a b ↔ k ∈ a ∧ k ∉ b := by
  simp [setdiff1d, mem_unique]

theorem setdiff1d_sorted (a b : List Nat) : (setdiff1d a b).Pairwise (· < ·) :=
  (unique_sorted a).filter _

theorem setdiff1d_nodup (a b : List Nat) : (setdiff1d a b).Nodup :=
  (setdiff1d_sorted a b).imp fun h => Nat.ne_of_lt h

theorem lget_ok {α : Type} {l : List α} {i : Nat} (h : i < l.length) : lget l i = .ok l[i] := by
  simp [lget, h]

theorem forEach_flatten {σ ι : Type} (ls : List (List ι)) (f : σ → ι → Res σ) (s : σ) :
    forEach ls (fun s l => forEach l f s) s = forEach ls.flatten f s := by
  induction ls generalizing s with
  | nil => rfl
  | cons l ls ih =>
    simp only [forEach_cons, List.flatten_cons, forEach_append]
    cases forEach l f s <;> simp [ih]

/-- The enumeration loop: position of `j` in the list, unwritten cells elsewhere. -/
theorem enum_spec (l : List Nat) (n : Nat) (hl : l.Nodup) (hlt : ∀ j ∈ l, j < n) :
    ∃ r, forEach l enumBody (Ten.empty [n], 0) = .ok (r, l.length) ∧ r.shape = [n] ∧
      (∀ j ∈ l, r.v [j] = some (l.idxOf j)) ∧ (∀ j, j ∉ l → r.v [j] = none) := by
  obtain ⟨⟨r, k⟩, h1, h2, h3, h4, h5⟩ := forEach_inv l enumBody (fun pre s => s.1.shape = [n] ∧
    s.2 = pre.length ∧ (∀ j ∈ pre, s.1.v [j] = some (pre.idxOf j)) ∧
    (∀ j, j ∉ pre → s.1.v [j] = none)) (Ten.empty [n], 0) (by simp [Ten.empty]) (by
      rintro pre j post ⟨r, k⟩ hpre ⟨h1, h2, h3, h4⟩
      have hj : j < n := hlt j (by simp [hpre])
      have hjp : j ∉ pre := by
        rw [hpre] at hl
        intro hmem
        have := (List.nodup_append.1 hl).2.2 j hmem j (by simp)
        exact this rfl
      simp only at h1 h2 h3 h4
      refine ⟨(⟨[n], Function.update r.v [j] (some k)⟩, k + 1), ?_, rfl, by simp [h2], ?_, ?_⟩
      · simp [enumBody, Ten.set, h1, hj]
      · intro i hi
        by_cases hij : i = j
        · subst hij
          simp [List.idxOf_append, hjp, h2]
        · have hip : i ∈ pre := by simpa [hij] using hi
          have : ([i] : List Nat) ≠ [j] := by simpa using hij
          simp [Function.update_of_ne this, h3 i hip, List.idxOf_append, hip]
      · intro i hi
        simp only [List.mem_append, List.mem_singleton, not_or] at hi
        have : ([i] : List Nat) ≠ [j] := by simpa using hi.2
        simp [Function.update_of_ne this, h4 i hi.1])
  refine ⟨r, ?_, h2, h4, h5⟩
  rw [h1]; simp only at h3; rw [h3]

/-- entry-wise look-up of a fully initialised array -/
theorem renum_spec {arg mapping : Ten Nat} {f : List Nat → Nat} {g : Nat → Nat}
    (ha : ∀ ix, inb arg.shape ix = true → arg.v ix = some (f ix))
    (hm : ∀ ix, inb arg.shape ix = true → mapping.get [f ix] = .ok (g (f ix))) :
    ∃ r, renum arg mapping = .ok r ∧ r.shape = arg.shape ∧
      ∀ ix, inb arg.shape ix = true → r.v ix = some (g (f ix)) := by
  obtain ⟨r, h1, h2, h3, -⟩ := forEach_set (indices arg.shape) (fun ret ix => do
    let a ← arg.get ix
    let b ← mapping.get [a]
    ret.set ix b) (fun ix => ix) (fun ix => g (f ix)) (Ten.empty arg.shape)
    (fun ix hix => mem_indices.1 hix)
    (fun ix hix s _ => by
      have hix := mem_indices.1 hix
      have : arg.get ix = .ok (f ix) := by simp [Ten.get, hix, ha ix hix]
      simp [this, hm ix hix])
  refine ⟨r, h1, h2, fun ix hix => ?_⟩
  obtain ⟨i, _, h5, h6⟩ := h3 ix ⟨ix, mem_indices.2 hix, rfl⟩
  rw [h6, h5]

theorem sorted_ext {l l' : List Nat} (h : l.Pairwise (· < ·)) (h' : l'.Pairwise (· < ·))
    (hm : ∀ a, a ∈ l ↔ a ∈ l') : l = l' := by
  have n1 : l.Nodup := h.imp fun h => Nat.ne_of_lt h
  have n2 : l'.Nodup := h'.imp fun h => Nat.ne_of_lt h
  have hp : l.Perm l' := (List.perm_ext_iff_of_nodup n1 n2).2 hm
  refine hp.eq_of_pairwise (le := (· < ·)) ?_ h h'
  intro a b _ _ h1 h2
  exact absurd h1 (Nat.lt_asymm h2)

theorem Full.flat {t : Ten Nat} {f : List Nat → Nat} (h : Full t f) :
    t.flat = .ok ((indices t.shape).map f) := flat_ok h

/-- the index table of `Renumber` -/
theorem Renumber.index_spec {dofs : Ten Nat} {f : List Nat → Nat} (h : Full dofs f) :
    ∃ idx n, Renumber.index dofs = .ok idx ∧ idx.shape = [n] ∧
      (∀ j ∈ unique ((indices dofs.shape).map f), j < n ∧
        idx.v [j] = some ((unique ((indices dofs.shape).map f)).idxOf j)) ∧
      (∀ j, j ∉ unique ((indices dofs.shape).map f) → idx.v [j] = none) := by
  obtain ⟨n, h1, h2, -⟩ := amax_ok h
  have hlt : ∀ j ∈ unique ((indices dofs.shape).map f), j < n + 1 := by
    intro j hj
    obtain ⟨ix, hix, rfl⟩ := List.mem_map.1 (mem_unique.1 hj)
    exact Nat.lt_succ_of_le (h2 ix (mem_indices.1 hix))
  obtain ⟨r, h3, h4, h5, h6⟩ := enum_spec (unique ((indices dofs.shape).map f)) (n + 1)
    (unique_nodup _) hlt
  refine ⟨r, n + 1, ?_, h4, fun j hj => ⟨hlt j hj, h5 j hj⟩, h6⟩
  simp [Renumber.index, h1, h.flat, h3]

theorem Reorder.index_spec {args : List (List Nat)} (h : args.flatten.Nodup) :
    ∃ idx n, Reorder.index args = .ok idx ∧ idx.shape = [n] ∧
      (∀ j ∈ args.flatten, j < n ∧ idx.v [j] = some (args.flatten.idxOf j)) ∧
      (∀ j, j ∉ args.flatten → idx.v [j] = none) := by
  set n := args.foldl (fun n arg => if arg.length = 0 then n else max n (arg.foldl max 0 + 1)) 0
    with hn
  have hlt : ∀ j ∈ args.flatten, j < n := by
    have key : ∀ (args : List (List Nat)) (b : Nat),
        b ≤ args.foldl (fun n arg => if arg.length = 0 then n else max n (arg.foldl max 0 + 1)) b ∧
        ∀ j ∈ args.flatten, j < args.foldl (fun n arg => if arg.length = 0 then n
          else max n (arg.foldl max 0 + 1)) b := by
      intro args
      induction args with
      | nil => simp
      | cons a args ih =>
        intro b
        simp only [List.foldl_cons, List.flatten_cons, List.mem_append]
        obtain ⟨h1, h2⟩ := ih (if a.length = 0 then b else max b (a.foldl max 0 + 1))
        refine ⟨le_trans ?_ h1, ?_⟩
        · split
          · exact le_refl _
          · exact le_max_left _ _
        · rintro j (hj | hj)
          · refine lt_of_lt_of_le ?_ h1
            have : a.length ≠ 0 := by
              intro h0
              rw [List.length_eq_zero_iff] at h0
              simp [h0] at hj
            rw [if_neg this]
            exact lt_of_lt_of_le (Nat.lt_succ_of_le ((le_foldl_max a 0).2 j hj)) (le_max_right _ _)
          · exact h2 j hj
    exact (key args 0).2
  obtain ⟨r, h3, h4, h5, h6⟩ := enum_spec args.flatten n h hlt
  refine ⟨r, n, ?_, h4, fun j hj => ⟨hlt j hj, h5 j hj⟩, h6⟩
  simp only [Reorder.index, forEach_flatten, ← hn, h3, Res.ok_bind]

theorem forEach_eq_ub {σ ι : Type} (l : List ι) (f : σ → ι → Res σ) (I : σ → Prop) (s : σ)
    (h0 : I s) (hstep : ∀ i ∈ l, ∀ s, I s → (f s i = .ub ∨ ∃ s', f s i = .ok s' ∧ I s'))
    (hbad : ∃ i ∈ l, ∀ s, I s → f s i = .ub) : forEach l f s = .ub := by
  induction l generalizing s with
  | nil => simp at hbad
  | cons i l ih =>
    simp only [forEach_cons]
    rcases hstep i (by simp) s h0 with h | ⟨s', h, hI⟩
    · rw [h]; rfl
    · rw [h]
      obtain ⟨j, hj, hb⟩ := hbad
      rcases List.mem_cons.1 hj with rfl | hj
      · rw [hb s h0] at h; cases h
      · exact ih s' hI (fun i hi => hstep i (by simp [hi])) ⟨j, hj, hb⟩

/-- `idxOf` in a strictly increasing list counts the smaller elements. -/
theorem idxOf_sorted_lt {l : List Nat} (hl : l.Pairwise (· < ·)) {a b : Nat} (ha : a ∈ l)
    (hb : b ∈ l) : l.idxOf a < l.idxOf b ↔ a < b := by
  have hget : ∀ x ∈ l, ∃ h : l.idxOf x < l.length, l[l.idxOf x] = x := fun x hx =>
    ⟨List.idxOf_lt_length_of_mem hx, List.getElem_idxOf _⟩
  obtain ⟨h1, e1⟩ := hget a ha
  obtain ⟨h2, e2⟩ := hget b hb
  rw [List.pairwise_iff_getElem] at hl
  constructor
  · intro h
    have := hl _ _ h1 h2 h
    rwa [e1, e2] at this
  · intro h
    rcases Nat.lt_trichotomy (l.idxOf a) (l.idxOf b) with h' | h' | h'
    · exact h'
    · rw [← e1, ← e2] at h
      simp only [h'] at h
      omega
    · have := hl _ _ h2 h1 h'
      rw [e1, e2] at this
      omega

end GF
