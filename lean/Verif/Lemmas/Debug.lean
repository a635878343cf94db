import Verif.Model.Debug
import Verif.Spec.Debug
import Verif.Lemmas.VectorPartitioned
import Verif.Lemmas.Rounding

/-! Lemmas about the build with assertions. -/

namespace GF
variable {α β : Type}

theorem gassert_bind {p : Prop} [Decidable p] {x : Unit → Res β} :
    (gassert p >>= x) = if p then x () else .throws := by
  unfold gassert
  split <;> rfl

theorem gassert_bind' {p : Prop} [Decidable p] {x : Unit → Res β} :
    (gassert p).bind x = if p then x () else .throws := gassert_bind

/-- arrays of rank one, two, ... with all cells filled -/
theorem Complete.is1 [Zero α] {t : Ten α} (h : Complete t) {n : Nat} (hs : t.shape = [n]) : ∃ f, Is1 t n f := by
  refine ⟨fun i => (t.v [i]).getD 0, hs, fun i hi => ?_⟩
  obtain ⟨a, ha⟩ := h [i] (by simp [hs, inb, hi])
  simp [ha]

theorem Complete.is2 [Zero α] {t : Ten α} (h : Complete t) {n m : Nat} (hs : t.shape = [n, m]) : ∃ f, Is2 t n m f := by
  refine ⟨fun i j => (t.v [i, j]).getD 0, hs, fun i j hi hj => ?_⟩
  obtain ⟨a, ha⟩ := h [i, j] (by simp [hs, inb, hi, hj])
  simp [ha]

theorem Complete.is3 [Zero α] {t : Ten α} (h : Complete t) {n m k : Nat} (hs : t.shape = [n, m, k]) : ∃ f, Is3 t n m k f := by
  refine ⟨fun i j l => (t.v [i, j, l]).getD 0, hs, fun i j l hi hj hl => ?_⟩
  obtain ⟨a, ha⟩ := h [i, j, l] (by simp [hs, inb, hi, hj, hl])
  simp [ha]

theorem Is1.complete {t : Ten α} {n : Nat} {f : Nat → α} (h : Is1 t n f) : CompleteOf [n] t := by
  refine ⟨h.1, fun ix hix => ?_⟩
  rw [h.1] at hix
  obtain ⟨i, rfl, hi⟩ := inb1.1 hix
  exact ⟨_, h.2 i hi⟩

theorem Is2.complete {t : Ten α} {n m : Nat} {f : Nat → Nat → α} (h : Is2 t n m f) : CompleteOf [n, m] t := by
  refine ⟨h.1, fun ix hix => ?_⟩
  rw [h.1] at hix
  obtain ⟨i, j, rfl, hi, hj⟩ := inb2.1 hix
  exact ⟨_, h.2 i j hi hj⟩

theorem Is3.complete {t : Ten α} {n m k : Nat} {f : Nat → Nat → Nat → α} (h : Is3 t n m k f) : CompleteOf [n, m, k] t := by
  refine ⟨h.1, fun ix hix => ?_⟩
  rw [h.1] at hix
  obtain ⟨i, j, l, rfl, hi, hj, hl⟩ := inb3.1 hix
  exact ⟨_, h.2 i j l hi hj hl⟩

/-- one assertion, then the same code -/
theorem Checked.of1 {p : Prop} [Decidable p] {x : Res β} {good : β → Prop} (h : p → IsOk x good) :
    Checked (gassert p >>= fun _ => x) x p good := by
  rw [gassert_bind]
  exact ⟨fun hp => ⟨if_pos hp, h hp⟩, fun hp => if_neg hp⟩

/-- two assertions, then the same code -/
theorem Checked.of2 {p q : Prop} [Decidable p] [Decidable q] {x : Res β} {good : β → Prop} (h : p → q → IsOk x good) :
    Checked (gassert p >>= fun _ => gassert q >>= fun _ => x) x (p ∧ q) good := by
  simp only [gassert_bind]
  refine ⟨fun hp => ⟨by rw [if_pos hp.1, if_pos hp.2], h hp.1 hp.2⟩, fun hp => ?_⟩
  by_cases h1 : p
  · rw [if_pos h1, if_neg fun h2 => hp ⟨h1, h2⟩]
  · exact if_neg h1

theorem Checked.congr {x y : Res β} {p q : Prop} {good : β → Prop} (h : Checked x y p good) (hpq : p ↔ q) : Checked x y q good := by
  rw [← hpq]
  exact h

/-- run-time dispatch on the rank -/
theorem Checked.dispatch {x : Ten α} {a b : Nat} {sa sb : List Nat} (ha : sa.length = a) (hb : sb.length = b)
    (hab : a ≠ b) {ca cb ua ub : Res β} {r : Prop} {good : β → Prop}
    (h1 : x.rank = a → Checked ca ua (x.shape = sa ∧ r) good) (h2 : x.rank = b → Checked cb ub (x.shape = sb ∧ r) good) :
    Checked (if x.rank = a then ca else if x.rank = b then cb else .throws)
      (if x.rank = a then ua else if x.rank = b then ub else .throws) ((x.shape = sa ∨ x.shape = sb) ∧ r) good := by
  by_cases r1 : x.rank = a
  · simp only [if_pos r1]
    refine (h1 r1).congr ⟨fun h => ⟨Or.inl h.1, h.2⟩, fun h => ⟨h.1.resolve_right fun h' => hab ?_, h.2⟩⟩
    rw [← r1, ← hb, ← h']; rfl
  · simp only [if_neg r1]
    by_cases r2 : x.rank = b
    · simp only [if_pos r2]
      refine (h2 r2).congr ⟨fun h => ⟨Or.inr h.1, h.2⟩, fun h => ⟨h.1.resolve_left fun h' => r1 ?_, h.2⟩⟩
      rw [← ha, ← h']; rfl
    · simp only [if_neg r2]
      refine ⟨fun h => ?_, fun _ => rfl⟩
      rcases h.1 with h' | h'
      · exact absurd (by rw [← ha, ← h']; rfl) r1
      · exact absurd (by rw [← hb, ← h']; rfl) r2

/-- the cells of `t` that a program fills do not depend on the numbers: runs with numbers of another kind -/
theorem CompleteOf.of_sim {α' : Type} {R : α → α' → Prop} {s : Ten α} {t : Ten α'} (h : TenSim R s t) {sh : List Nat}
    (ht : CompleteOf sh t) : CompleteOf sh s := by
  refine ⟨h.1.trans ht.1, fun ix hix => ?_⟩
  obtain ⟨b, hb⟩ := ht.2 ix (by rw [← h.1]; exact hix)
  obtain ⟨a, ha, -⟩ := h.2 ix b hb
  exact ⟨a, ha⟩

/-- forget the numbers, keep which cells are filled -/
theorem TenSim.blank (t : Ten α) : TenSim (fun (_ : α) (_ : Nat) => True) t (t.map' fun _ => 0) :=
  TenSim.map' (fun _ => trivial) t

theorem Complete.blank {t : Ten α} (h : Complete t) : Complete (t.map' fun _ => (0 : Nat)) := fun ix hix => by
  obtain ⟨a, ha⟩ := h ix hix
  exact ⟨0, by simp [Ten.map', ha]⟩

namespace VectorPartitioned

/-- the constructor without the assumption that the prescribed DOFs occur -/
theorem new_ok {conn dofs : Ten Nat} {nelem nne nnode ndim : Nat} {c d : Nat → Nat → Nat}
    {iip : List Nat} (hc : Is2 conn nelem nne c) (hd : Is2 dofs nnode ndim d)
    (hlt : ∀ e m, e < nelem → m < nne → c e m < nnode) (hip : iip.Nodup) :
    ∃ P, VectorPartitioned.new conn dofs iip = .ok P ∧ Vector.new conn dofs = .ok P.V ∧ P.iip = iip := by
  obtain ⟨V, h1, h2, h3, h4, h5, h6, -⟩ := Vector.new_spec hc hd hlt
  have hfull := hd.flat_spec
  set F : List Nat → Nat := fun ix => d (ix.getD 0 0) (ix.getD 1 0) with hF
  have hmem : ∀ k, k ∈ (indices dofs.shape).map F ↔ ∃ m i, m < nnode ∧ i < ndim ∧ d m i = k := by
    intro k
    simp only [List.mem_map, mem_indices, hd.1]
    constructor
    · rintro ⟨ix, hix, rfl⟩
      obtain ⟨i, j, rfl, hi, hj⟩ := inb2.1 hix
      exact ⟨i, j, hi, hj, rfl⟩
    · rintro ⟨m, i, hm, hi, rfl⟩
      exact ⟨[m, i], by simp [hm, hi], rfl⟩
  set iiu := setdiff1d ((indices dofs.shape).map F) iip with hiiu
  have hiiumem : ∀ k, k ∈ iiu ↔ (∃ m i, m < nnode ∧ i < ndim ∧ d m i = k) ∧ k ∉ iip := by
    intro k; rw [hiiu, mem_setdiff1d, hmem]
  have hnd : ([iiu, iip] : List (List Nat)).flatten.Nodup := by
    simp only [List.flatten_cons, List.flatten_nil, List.append_nil]
    refine List.nodup_append.2 ⟨setdiff1d_nodup _ _, hip, ?_⟩
    intro a ha b hb hab
    subst hab
    exact ((hiiumem a).1 ha).2 hb
  obtain ⟨idx, n, i1, i2, i3, -⟩ := Reorder.index_spec hnd
  have hallmem : ∀ m i, m < nnode → i < ndim → d m i ∈ ([iiu, iip] : List (List Nat)).flatten := by
    intro m i hm hi
    simp only [List.flatten_cons, List.flatten_nil, List.append_nil, List.mem_append]
    by_cases h : d m i ∈ iip
    · exact Or.inr h
    · exact Or.inl ((hiiumem _).2 ⟨⟨m, i, hm, hi, rfl⟩, h⟩)
  obtain ⟨part, p1, p2, p3⟩ := renum_spec (arg := dofs) (mapping := idx)
    (g := ([iiu, iip] : List (List Nat)).flatten.idxOf) hfull
    (fun ix hix => by
      rw [hd.1] at hix
      obtain ⟨i, j, rfl, hi, hj⟩ := inb2.1 hix
      obtain ⟨h7, h8⟩ := i3 _ (hallmem i j hi hj)
      show idx.get [d i j] = .ok (([iiu, iip] : List (List Nat)).flatten.idxOf (d i j))
      simp [Ten.get, i2, h7, h8])
  refine ⟨⟨V, iiu, iip, iiu.length, iip.length, part⟩, ?_, h1, rfl⟩
  rw [VectorPartitioned.new, h1]
  simp only [Res.ok_bind]
  rw [flat_ok hfull]
  simp only [Res.ok_bind]
  rw [← hiiu, Reorder.apply, i1]
  simp only [Res.ok_bind]
  rw [p1]
  rfl

end VectorPartitioned
end GF
