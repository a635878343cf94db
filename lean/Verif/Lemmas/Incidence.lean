import Verif.Model.Incidence
import Verif.Lemmas.Vector
import Verif.Lemmas.Renumber
import Mathlib.Tactic.IntervalCases

/-! Lemmas on the incidence functions. -/

namespace GF
open Finset

theorem lset_ok {β : Type} {l : List β} {i : Nat} (h : i < l.length) (a : β) : lset l i a = .ok (l.set i a) := by
  simp [lset, h]

theorem lget_eq {β : Type} {l : List β} {i : Nat} {a : β} (h : l[i]? = some a) : lget l i = .ok a := by
  simp [lget, h]

theorem sortNat_perm (l : List Nat) : (sortNat l).Perm l := List.mergeSort_perm _ _

theorem sortNat_sorted (l : List Nat) : (sortNat l).Pairwise (· ≤ ·) := by
  have := List.pairwise_mergeSort (le := fun a b : Nat => decide (a ≤ b)) (fun a b c h1 h2 => by
    simp at *; omega) (fun a b => by simp; omega) l
  refine this.imp ?_
  intro a b h
  simpa using h

theorem sortNat_id {l : List Nat} (h : l.Pairwise (· ≤ ·)) : sortNat l = l :=
  List.mergeSort_of_pairwise (h.imp fun h => by simpa using h)

theorem sorted_eq {l l' : List Nat} (h : l.Perm l') (h1 : l.Pairwise (· ≤ ·)) (h2 : l'.Pairwise (· ≤ ·)) : l = l' :=
  h.eq_of_pairwise (fun a b _ _ h1 h2 => Nat.le_antisymm h1 h2) h1 h2

/-- pushing values on selected rows -/
theorem push_rows {ι : Type} (l : List ι) (n : Nat) (key val : ι → Nat) (f : List (List Nat) → ι → Res (List (List Nat)))
    (hk : ∀ i ∈ l, key i < n)
    (hf : ∀ i ∈ l, ∀ r : List (List Nat), r.length = n → f r i = (lget r (key i)).bind fun row => lset r (key i) (row ++ [val i])) :
    ∃ r, forEach l f (List.replicate n []) = .ok r ∧ r.length = n ∧
      ∀ k, k < n → r[k]? = some ((l.filter fun i => key i = k).map val) := by
  refine forEach_inv l f (fun pre r => r.length = n ∧
    ∀ k, k < n → r[k]? = some ((pre.filter fun i => key i = k).map val)) _ ?_ ?_
  · refine ⟨by simp, fun k hk => ?_⟩
    simp [hk]
  · rintro pre i post r rfl ⟨h1, h2⟩
    have hi : i ∈ pre ++ i :: post := by simp
    have hk' := hk i hi
    refine ⟨r.set (key i) (((pre.filter fun j => key j = key i).map val) ++ [val i]), ?_, by simp [h1], fun k hk2 => ?_⟩
    · rw [hf i hi r h1, lget_eq (h2 _ hk')]
      change lset _ _ _ = _
      rw [lset_ok (by omega)]
    · rw [List.getElem?_set]
      split
      · next h => subst h; simp [h1, hk']
      · next h => rw [h2 k hk2]; simp [h]

theorem count_it2 (ne nne : Nat) (C : Nat → Nat → Nat) (n e : Nat) :
    (((it2 ne nne).filter fun em => C em.1 em.2 = n).map Prod.fst).count e =
      if e < ne then ((range nne).filter fun m => C e m = n).card else 0 := by
  rw [List.count_eq_countP, List.countP_map, List.countP_filter, List.countP_eq_length_filter]
  have h : ∀ l : List (Nat × Nat), (l.filter fun a => ((fun x => x == e) ∘ Prod.fst) a && decide (C a.1 a.2 = n)).length =
      (l.map fun a => if a.1 = e ∧ C a.1 a.2 = n then 1 else 0).sum := by
    intro l
    induction l with
    | nil => rfl
    | cons a l ih =>
      rw [List.filter_cons, List.map_cons, List.sum_cons, ← ih]
      obtain ⟨a1, a2⟩ := a
      by_cases h1 : a1 = e
      · subst h1
        by_cases h2 : C a1 a2 = n
        · simp [h2, Nat.add_comm]
        · simp [h2]
      · simp [h1]
  rw [h, sum_it2]
  split
  · next he =>
    rw [Finset.sum_eq_single e]
    · rw [Finset.card_filter]; simp
    · intro e' _ hne; simp [hne]
    · intro h; exact absurd (mem_range.2 he) h
  · next he =>
    refine Finset.sum_eq_zero fun e' he' => Finset.sum_eq_zero fun m _ => ?_
    rw [mem_range] at he'
    rw [if_neg]
    simp only
    omega

theorem sorted_it2 (ne nne : Nat) : ((it2 ne nne).map Prod.fst).Pairwise (· ≤ ·) := by
  rw [it2]
  induction ne with
  | zero => simp
  | succ n ih =>
    rw [List.range_succ, List.flatMap_append, List.map_append, List.pairwise_append]
    refine ⟨ih, ?_, ?_⟩
    · simp [List.pairwise_map]
    · intro a ha b hb
      simp only [List.mem_map, List.mem_flatMap, List.mem_range, List.mem_singleton, List.flatMap_singleton] at ha hb
      obtain ⟨x, ⟨i, hi, y, -, rfl⟩, rfl⟩ := ha
      simp at hb
      obtain ⟨-, rfl⟩ := hb
      simp; omega

theorem sorted_row (ne nne : Nat) (p : Nat × Nat → Bool) :
    (((it2 ne nne).filter p).map Prod.fst).Pairwise (· ≤ ·) :=
  (sorted_it2 ne nne).sublist ((List.filter_sublist).map _)

theorem indices2 (n m : Nat) : indices [n, m] = (it2 n m).map fun p => [p.1, p.2] := by
  simp [indices, it2, List.map_flatMap, Function.comp_def, List.flatMap_map]
  congr 1
  funext i
  rw [List.map_eq_flatMap]

theorem coordination_ok {conn : Ten Nat} {ne nne : Nat} {C} (h : Is2 conn ne nne C) :
    ∃ N t, amax conn = .ok N ∧ (∀ e m, e < ne → m < nne → C e m ≤ N) ∧
      (N = 0 ∨ ∃ e m, e < ne ∧ m < nne ∧ C e m = N) ∧ coordination conn = .ok t ∧
      Is1 t (N + 1) fun n => ∑ e ∈ range ne, ((range nne).filter fun m => C e m = n).card := by
  obtain ⟨N, h1, h2, h3⟩ := amax_is2 h
  have hf := flat_ok h.flat_spec
  obtain ⟨t, h4, h5⟩ := Vector.scatterAdd1 ((indices conn.shape).map fun ix => C (ix.getD 0 0) (ix.getD 1 0))
    (fun (N : Ten Nat) n => N.addAt [n] 1) (N + 1) (fun n => n) (fun _ => 1) (by
      intro i hi
      simp only [List.mem_map, mem_indices, h.1, inb2] at hi
      obtain ⟨ix, ⟨a, b, rfl, ha, hb⟩, rfl⟩ := hi
      have := h2 a b ha hb
      simp; omega) (fun _ _ _ => rfl)
  refine ⟨N, t, h1, h2, h3, by rw [coordination, h1, Res.ok_bind, hf, Res.ok_bind]; exact h4, h5.congr fun n _ => ?_⟩
  rw [h.1, indices2, List.map_map, List.map_map, sum_it2]
  refine sum_congr rfl fun e _ => ?_
  rw [card_filter]
  rfl

/-- rows of `elem2node` -/
theorem elem2node_ok {conn : Ten Nat} {ne nne : Nat} {C} (h : Is2 conn ne nne C) (b : Bool) :
    ∃ N R, amax conn = .ok N ∧ (∀ e m, e < ne → m < nne → C e m ≤ N) ∧
      (N = 0 ∨ ∃ e m, e < ne ∧ m < nne ∧ C e m = N) ∧ elem2node conn b = .ok R ∧ R.length = N + 1 ∧
      ∀ n, n ≤ N → R[n]? = some (((it2 ne nne).filter fun em => C em.1 em.2 = n).map Prod.fst) := by
  obtain ⟨N, t, h1, h2, h3, h4, h5⟩ := coordination_ok h
  obtain ⟨R, h6, h7, h8⟩ := push_rows (it2 ne nne) (N + 1) (fun em => C em.1 em.2) Prod.fst
    (fun ret em => do
      let n ← conn.get [em.1, em.2]
      let row ← lget ret n
      lset ret n (row ++ [em.1])) (by
      intro em hem
      rw [mem_it2] at hem
      have := h2 em.1 em.2 hem.1 hem.2
      omega) (by
      intro em hem r _
      rw [mem_it2] at hem
      rw [h.get hem.1 hem.2]
      rfl)
  refine ⟨N, if b then R.map sortNat else R, h1, h2, h3, ?_, ?_, ?_⟩
  · rw [elem2node, h.1]
    dsimp only
    rw [h4, Res.ok_bind, h5.1]
    change (elem2nodeLoop conn ne nne (List.replicate (N + 1) [])).bind _ = _
    rw [elem2nodeLoop, h6]
    rfl
  · split <;> simp [h7]
  · intro n hn
    have := h8 n (by omega)
    split
    · rw [List.getElem?_map, this]
      simp only [Option.map_some]
      rw [sortNat_id (sorted_row _ _ _)]
    · exact this

end GF
