import Verif.Lemmas.Renumber

/-! # Properties C09 - C11: `Renumber`, `renumber`, `Reorder` -/

namespace GF

/-- **C09**: `renumber` keeps the shape, preserves and reflects order (hence is one-to-one on the
distinct values), and its values are exactly `0 .. k-1`, with `k` the number of distinct values. -/
theorem C09_renumber {dofs : Ten Nat} {f : List Nat → Nat} (h : Full dofs f) :
    ∃ y g, renumber dofs = .ok y ∧ y.shape = dofs.shape ∧ Full y g ∧
      (∀ ix jx, inb dofs.shape ix = true → inb dofs.shape jx = true →
        ((g ix < g jx ↔ f ix < f jx) ∧ (g ix = g jx ↔ f ix = f jx))) ∧
      (∀ v, (∃ ix, inb dofs.shape ix = true ∧ g ix = v) ↔
        v < ((indices dofs.shape).map f).toFinset.card) := by
  obtain ⟨idx, n, h1, h2, h3, -⟩ := Renumber.index_spec h
  set U := unique ((indices dofs.shape).map f) with hU
  have hmem : ∀ ix, inb dofs.shape ix = true → f ix ∈ U := fun ix hix =>
    mem_unique.2 (List.mem_map.2 ⟨ix, mem_indices.2 hix, rfl⟩)
  obtain ⟨y, h4, h5, h6⟩ := renum_spec (arg := dofs) (mapping := idx) (g := U.idxOf) h
    (fun ix hix => by
      obtain ⟨h7, h8⟩ := h3 _ (hmem ix hix)
      simp [Ten.get, h2, h7, h8])
  have hs := unique_sorted ((indices dofs.shape).map f)
  rw [← hU] at hs
  refine ⟨y, fun ix => U.idxOf (f ix), by simp [renumber, h1, h4], h5,
    fun ix hix => h6 ix (h5 ▸ hix), ?_, ?_⟩
  · intro ix jx hix hjx
    have a := hmem ix hix
    have b := hmem jx hjx
    have l1 := idxOf_sorted_lt hs a b
    have l2 := idxOf_sorted_lt hs b a
    refine ⟨l1, ?_⟩
    show U.idxOf (f ix) = U.idxOf (f jx) ↔ _
    omega
  · have hcard : ((indices dofs.shape).map f).toFinset.card = U.length := by
      rw [← List.toFinset_card_of_nodup (unique_nodup _)]
      congr 1
      ext a
      simp only [List.mem_toFinset]
      exact mem_unique.symm
    rw [hcard]
    intro v
    constructor
    · rintro ⟨ix, hix, rfl⟩
      exact List.idxOf_lt_length_of_mem (hmem ix hix)
    · intro hv
      have hm : U[v] ∈ U := List.getElem_mem hv
      obtain ⟨ix, hix, he⟩ := List.mem_map.1 (mem_unique.1 (show U[v] ∈ unique ((indices dofs.shape).map f) from hm))
      refine ⟨ix, mem_indices.1 hix, ?_⟩
      simp only
      rw [he]
      exact (unique_nodup _).idxOf_getElem _ _

/-- **C09** (idempotence): renumbering twice is the same as renumbering once. -/
theorem C09_idempotent {dofs : Ten Nat} {f : List Nat → Nat} (h : Full dofs f) :
    ∃ y z g, renumber dofs = .ok y ∧ Full y g ∧ renumber y = .ok z ∧ z.shape = y.shape ∧
      Full z g := by
  obtain ⟨y, g, h1, h2, h3, h4, h5⟩ := C09_renumber h
  obtain ⟨idx, n, i1, i2, i3, -⟩ := Renumber.index_spec h3
  have hU : unique ((indices y.shape).map g) =
      List.range ((indices dofs.shape).map f).toFinset.card := by
    apply sorted_ext (unique_sorted _) (range_pairwise _)
    intro a
    rw [mem_unique, List.mem_range, ← h5 a, h2]
    simp only [List.mem_map, mem_indices]
  obtain ⟨z, h6, h7, h8⟩ := renum_spec (arg := y) (mapping := idx) (g := id) h3
    (fun ix hix => by
      have hm : g ix ∈ unique ((indices y.shape).map g) :=
        mem_unique.2 (List.mem_map.2 ⟨ix, mem_indices.2 hix, rfl⟩)
      obtain ⟨h7, h8⟩ := i3 _ hm
      rw [hU] at h8 hm
      have hlt := List.mem_range.1 hm
      have : (List.range ((indices dofs.shape).map f).toFinset.card).idxOf (g ix) = g ix := by
        have := List.nodup_range.idxOf_getElem (g ix) (by simpa using hlt)
        simpa using this
      simp [Ten.get, i2, h7, h8, this])
  exact ⟨y, z, g, h1, h3, by simp [renumber, i1, h6], h7, fun ix hix => h8 ix (h7 ▸ hix)⟩

/-- the example of the documentation (Mesh.h:100-107) -/
example : ∃ y, renumber (lit2 2 [[0, 1], [5, 4]]) = .ok y ∧ y.get [0, 0] = .ok 0 ∧
    y.get [0, 1] = .ok 1 ∧ y.get [1, 0] = .ok 3 ∧ y.get [1, 1] = .ok 2 := ⟨_, rfl, rfl, rfl, rfl, rfl⟩

example : Full (lit2 2 [[0, 1], [5, 4]]) (fun ix => ([[0, 1], [5, 4]].getD (ix.getD 0 0) []).getD
    (ix.getD 1 0) default) := fun _ _ => rfl

/-- **C10**: `Renumber(dofs).apply(list)` is defined exactly if every entry of `list` occurs in
`dofs`; otherwise it reads a cell that is out of range or was never written. -/
theorem C10_apply_defined_iff {dofs list : Ten Nat} {f g : List Nat → Nat} (h : Full dofs f)
    (hl : Full list g) :
    ((∃ y, Renumber.apply dofs list = .ok y) ↔
      ∀ ix, inb list.shape ix = true → ∃ jx, inb dofs.shape jx = true ∧ f jx = g ix) ∧
    (¬ (∀ ix, inb list.shape ix = true → ∃ jx, inb dofs.shape jx = true ∧ f jx = g ix) →
      Renumber.apply dofs list = .ub) := by
  obtain ⟨idx, n, h1, h2, h3, h4⟩ := Renumber.index_spec h
  have hmem : ∀ a, a ∈ unique ((indices dofs.shape).map f) ↔
      ∃ jx, inb dofs.shape jx = true ∧ f jx = a := by
    intro a; rw [mem_unique]; simp [List.mem_map, mem_indices]
  have hub : ¬ (∀ ix, inb list.shape ix = true → ∃ jx, inb dofs.shape jx = true ∧ f jx = g ix) →
      Renumber.apply dofs list = .ub := by
    intro hn
    push Not at hn
    obtain ⟨ix, hix, hno⟩ := hn
    have hg : ∀ ix, inb list.shape ix = true → list.get ix = .ok (g ix) := fun ix hix => by
      simp [Ten.get, hix, hl ix hix]
    simp only [Renumber.apply, h1, Res.ok_bind, renum]
    apply forEach_eq_ub _ _ (fun s => s.shape = list.shape) _ rfl
    · intro jx hjx s hs
      have hjx := mem_indices.1 hjx
      rw [hg jx hjx]
      simp only [Res.ok_bind]
      cases hc : idx.get [g jx] with
      | ok a =>
        right
        exact ⟨⟨list.shape, Function.update s.v jx (some a)⟩, by simp [Ten.set, hs, hjx], rfl⟩
      | ub => left; rfl
      | throws =>
        exfalso
        simp only [Ten.get] at hc
        split at hc
        · split at hc <;> cases hc
        · cases hc
    · refine ⟨ix, mem_indices.2 hix, fun s _ => ?_⟩
      rw [hg ix hix]
      have hnm : g ix ∉ unique ((indices dofs.shape).map f) := by
        rw [hmem]; rintro ⟨jx, hj, he⟩; exact hno jx hj he
      have : idx.get [g ix] = .ub := by
        simp only [Ten.get, h4 _ hnm]
        split <;> rfl
      simp [this]
  refine ⟨⟨fun ⟨y, hy⟩ => ?_, fun hall => ?_⟩, hub⟩
  · by_contra hn
    rw [hub hn] at hy
    cases hy
  · obtain ⟨y, h5, -, -⟩ := renum_spec (arg := list) (mapping := idx)
      (g := (unique ((indices dofs.shape).map f)).idxOf) hl
      (fun ix hix => by
        obtain ⟨h7, h8⟩ := h3 _ ((hmem _).2 (hall ix hix))
        simp [Ten.get, h2, h7, h8])
    exact ⟨y, by simp [Renumber.apply, h1, h5]⟩

/-- both sides of C10 are inhabited -/
example : (∃ y, Renumber.apply (lit1 [0, 1, 5, 4]) (lit1 [4, 4]) = .ok y) ∧
    Renumber.apply (lit1 [0, 1, 5, 4]) (lit1 [2]) = .ub ∧
    Renumber.apply (lit1 [0, 1, 5, 4]) (lit1 [9]) = .ub := ⟨⟨_, rfl⟩, rfl, rfl⟩

/-- **C11** (blocks): with duplicate-free, disjoint lists, the `k`-th entry of the block `a` that
follows the blocks `pre` is numbered (total length of `pre`) + `k`. -/
theorem C11_reorder_block (pre post : List (List Nat)) (a : List Nat)
    (h : (pre ++ a :: post).flatten.Nodup) :
    ∃ idx, Reorder.index (pre ++ a :: post) = .ok idx ∧
      ∀ k (hk : k < a.length), idx.get [a[k]] = .ok (pre.flatten.length + k) := by
  obtain ⟨idx, n, h1, h2, h3, -⟩ := Reorder.index_spec h
  refine ⟨idx, h1, fun k hk => ?_⟩
  have hlen : pre.flatten.length + k < (pre ++ a :: post).flatten.length := by simp; omega
  have hget : (pre ++ a :: post).flatten[pre.flatten.length + k] = a[k] := by
    simp only [List.flatten_append, List.flatten_cons]
    rw [List.getElem_append_right (by omega), List.getElem_append_left (by omega)]
    simp
  have hidx := h.idxOf_getElem _ hlen
  rw [hget] at hidx
  obtain ⟨h4, h5⟩ := h3 a[k] (by simp [List.getElem_mem])
  rw [hidx] at h5
  simp [Ten.get, h2, h4, h5]

/-- **C11** (bijection): `apply` on an array whose entries all occur in the blocks gives, at each
entry, its position in the concatenation of the blocks; so it is injective and below the total
length. -/
theorem C11_reorder_apply {args : List (List Nat)} (h : args.flatten.Nodup) {t : Ten Nat}
    {f : List Nat → Nat} (ht : Full t f)
    (hm : ∀ ix, inb t.shape ix = true → f ix ∈ args.flatten) :
    ∃ y g, Reorder.apply args t = .ok y ∧ y.shape = t.shape ∧ Full y g ∧
      (∀ ix, inb t.shape ix = true → args.flatten[g ix]? = some (f ix)) ∧
      (∀ ix jx, inb t.shape ix = true → inb t.shape jx = true → (g ix = g jx ↔ f ix = f jx)) := by
  obtain ⟨idx, n, h1, h2, h3, -⟩ := Reorder.index_spec h
  obtain ⟨y, h4, h5, h6⟩ := renum_spec (arg := t) (mapping := idx) (g := args.flatten.idxOf) ht
    (fun ix hix => by
      obtain ⟨h7, h8⟩ := h3 _ (hm ix hix)
      simp [Ten.get, h2, h7, h8])
  have key : ∀ ix, inb t.shape ix = true → args.flatten[args.flatten.idxOf (f ix)]? = some (f ix) :=
    fun ix hix => by
      rw [List.getElem?_eq_getElem (List.idxOf_lt_length_of_mem (hm ix hix))]
      simp [List.getElem_idxOf]
  refine ⟨y, fun ix => args.flatten.idxOf (f ix), by simp [Reorder.apply, h1, h4], h5,
    fun ix hix => h6 ix (h5 ▸ hix), key, fun ix jx hix hjx => ⟨fun he => ?_, fun he => by simp [he]⟩⟩
  have a := key ix hix
  have b := key jx hjx
  simp only at he
  rw [he, b] at a
  exact (Option.some.inj a).symm

example : ([[3, 1], [0, 2]] : List (List Nat)).flatten.Nodup := by decide
example : ∃ y, Reorder.apply [[3, 1], [0, 2]] (lit2 2 [[0, 1], [2, 3]]) = .ok y ∧
    y.get [0, 0] = .ok 2 ∧ y.get [0, 1] = .ok 1 ∧ y.get [1, 0] = .ok 3 ∧ y.get [1, 1] = .ok 0 :=
  ⟨_, rfl, rfl, rfl, rfl, rfl⟩

end GF
