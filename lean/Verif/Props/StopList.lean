import Verif.Spec.StopList
import Verif.Spec.Basic
import Verif.Lemmas.Base

/-! C30: the stop list is a sliding window over the inserted residuals. -/

namespace GF
namespace StopList

variable {β : Type}

theorem window_length (n : Nat) (l : List (Dbl β)) : (window n l).length = n := by
  simp [window]

theorem window_nil (n : Nat) : window n ([] : List (Dbl β)) = List.replicate n .inf := by
  simp [window]

theorem roll_insert_window {n : Nat} (hn : 0 < n) (l : List (Dbl β)) (r : Dbl β) :
    roll_insert ⟨window n l⟩ r = .ok ⟨window n (l ++ [r])⟩ := by
  have hlen := window_length n l
  have hw : window n (l ++ [r]) = (window n l).tail ++ [r] := by
    rw [window, window, List.tail_drop, ← List.append_assoc, List.length_append]
    rw [List.drop_append_of_le_length (by simp; omega)]
    rfl
  rw [hw]
  cases hc : window n l with
  | nil => rw [hc] at hlen; simp at hlen; omega
  | cons a t =>
    cases t with
    | nil => rfl
    | cons b t =>
      have : setBack ((b :: t) ++ [a]) r = .ok ((b :: t) ++ [r]) := by
        simp [setBack, List.dropLast_append_of_ne_nil, List.dropLast_cons_of_ne_nil]
      simp only [roll_insert, rotate1, Res.ok_bind, this, List.tail_cons]

theorem reset_window (n : Nat) (s : StopList β) (h : s.res.length = n) : s.reset = ⟨window n []⟩ := by
  rw [window_nil, reset, List.map_const', h]

theorem resetN_window [Zero β] (n : Nat) (s : StopList β) : s.resetN n = ⟨window n []⟩ := by
  apply reset_window
  simp [resize]; omega

/-- the whole history, from a state that already is a window -/
theorem run_window [Zero β] (h : List (Op β)) : ∀ (n : Nat) (l : List (Dbl β)), 0 < n → positive h →
    forEach h step ⟨window n l⟩ = .ok ⟨window (size n h) (since h l)⟩ := by
  induction h with
  | nil => intros; rfl
  | cons o h ih =>
    intro n l hn hp
    rw [forEach]
    cases o with
    | reset =>
      rw [step, reset_window n ⟨window n l⟩ (window_length n l)]
      exact ih n [] hn hp
    | resetN m =>
      rw [step, resetN_window]
      exact ih m [] hp.1 hp.2
    | roll_insert r =>
      rw [step, roll_insert_window hn]
      exact ih n (l ++ [r]) hn hp

/-- **C30** After any history of `reset`, `reset(n)` (with `n > 0`) and `roll_insert` on a
`StopList(n)`, `n > 0`, no call has undefined behaviour and `data()` is exactly the window of the last
residuals inserted since the last reset, padded in front with infinity. -/
theorem C30_window [Zero β] [LinearOrder β] (n : Nat) (hn : 0 < n) (h : List (Op β)) (hp : positive h) :
    ∃ s, forEach h step (new n) = .ok s ∧ s.data = window (size n h) (since h []) := by
  refine ⟨_, ?_, rfl⟩
  rw [show (new n : StopList β) = ⟨window n []⟩ from resetN_window n ⟨[]⟩]
  exact run_window h n [] hn hp

/-- **C30** the window read backwards: the entry at distance `i` from the end is the `i`-th most recent
residual, or infinity if fewer were inserted. -/
theorem C30_window_entries (n i : Nat) (hi : i < n) (l : List (Dbl β)) :
    (window n l).reverse[i]? = some (l.reverse.getD i .inf) := by
  have h1 : (window n l).reverse = (l.reverse ++ List.replicate n Dbl.inf).take n := by
    rw [window, List.reverse_drop]
    simp
  rw [h1, List.getElem?_take_of_lt hi, List.getElem?_append]
  split
  · rename_i h; rw [List.getD_eq_getElem?_getD, List.getElem?_eq_getElem h]; rfl
  · rename_i h
    have h2 : l.reverse.getD i Dbl.inf = .inf := by
      rw [List.getD_eq_getElem?_getD, List.getElem?_eq_none (by omega)]; rfl
    rw [h2, List.getElem?_replicate_of_lt (by omega)]

/-- **C30** `all_less(tol)` is true exactly when every residual in the window is below `tol`, provided
neither is not-a-number. -/
theorem C30_all_less [LinearOrder β] (s : StopList β) (tol : Dbl β) (ht : tol ≠ .nan)
    (hs : ∀ r ∈ s.data, r ≠ .nan) : s.all_less tol = true ↔ ∀ r ∈ s.data, lt r tol := by
  simp only [all_less, data, Bool.not_eq_true', List.any_eq_false] at *
  refine forall₂_congr fun r hr => ?_
  have := hs r hr
  cases r <;> cases tol <;> simp_all [Dbl.ge, lt]

/-- **C30** a not-a-number residual is *not* detected: it passes `all_less` for every tolerance. -/
theorem C30_all_less_nan [LinearOrder β] [Zero β] (tol : Dbl β) :
    ∃ s, roll_insert (new 1) .nan = .ok s ∧ s.all_less tol = true := by
  refine ⟨⟨[.nan]⟩, rfl, ?_⟩
  simp [all_less, Dbl.ge]

/-- **C30** `descending()` is true exactly when the window is non-increasing. -/
theorem C30_descending [LinearOrder β] (s : StopList β) (hs : ∀ r ∈ s.data, r ≠ .nan) :
    s.descending = true ↔ s.data.Pairwise (fun a b => le b a) := by
  obtain ⟨l⟩ := s
  simp only [descending, data] at *
  have htr : ∀ a b c : Dbl β, le b a → le c b → le c a := by
    intro a b c
    cases a <;> cases b <;> cases c <;> simp [le]
    exact fun h1 h2 => le_trans h2 h1
  induction l with
  | nil => simp [isSorted]
  | cons a l ih =>
    cases l with
    | nil => simp [isSorted]
    | cons b l =>
      have h1 : (Dbl.gt b a) = false ↔ le b a := by
        have ha := hs a (by simp)
        have hb := hs b (by simp)
        cases a <;> cases b <;> simp_all [Dbl.gt, le]
      have h4 := ih (fun r hr => hs r (List.mem_cons_of_mem _ hr))
      rw [isSorted, Bool.and_eq_true, Bool.not_eq_true', h1, List.pairwise_cons]
      constructor
      · rintro ⟨h2, h3⟩
        replace h3 := h4.1 h3
        refine ⟨fun c hc => ?_, h3⟩
        rcases List.mem_cons.1 hc with rfl | hc
        · exact h2
        · exact htr _ _ _ h2 ((List.pairwise_cons.1 h3).1 c hc)
      · rintro ⟨h2, h3⟩
        exact ⟨h2 b (by simp), h4.2 h3⟩

/-- **C30** with an empty window (`StopList(0)` or `reset(0)`) inserting is undefined behaviour. -/
theorem C30_empty [Zero β] (r : Dbl β) : roll_insert (new 0) r = .ub := rfl

/-- C30 on a concrete history: three inserts, a reset, two more -/
example : ∃ s, forEach ([.roll_insert (.num 5), .roll_insert (.num 3), .roll_insert (.num 2), .reset,
      .roll_insert (.num 9), .roll_insert (.num 4)] : List (Op Nat)) step (new 3) = .ok s ∧
    s.data = [.inf, .num 9, .num 4] ∧ s.descending = true ∧ s.all_less (.num 5) = false := by
  exact ⟨⟨[.inf, .num 9, .num 4]⟩, rfl, rfl, rfl, rfl⟩

example : positive ([.roll_insert (.num 5), .resetN 2, .roll_insert (.num 3)] : List (Op Nat)) := by
  simp [positive]

end StopList
end GF
