import Verif.Lemmas.Reorder

/-! Parallel loops whose iterations assign (at most) one cell, of their own. -/

namespace GF
variable {α β : Type}
open Prog

/-- the body assigns at most one cell, in `T`; cell and value do not depend on what is in the array -/
def Own (T : List Nat → Prop) (g : Ten α → Res (Ten α)) : Prop :=
  ∃ w : Res (Option (List Nat × α)), (∀ ix a, w = .ok (some (ix, a)) → T ix) ∧
    ∀ t, g t = w.bind fun p => match p with | none => .ok t | some p => t.set p.1 p.2

theorem Own.set {T : List Nat → Prop} {ix : List Nat} {a : α} (h : T ix) : Own T fun t => t.set ix a :=
  ⟨.ok (some (ix, a)), fun _ _ e => by cases e; exact h, fun _ => rfl⟩

theorem Own.skip {T : List Nat → Prop} : Own T fun t : Ten α => .ok t := ⟨.ok none, fun _ _ e => (by cases e), fun _ => rfl⟩

theorem Own.bind {T : List Nat → Prop} {r : Res β} {g : Ten α → β → Res (Ten α)} (h : ∀ b, r = .ok b → Own T fun t => g t b) : Own T fun t => r >>= g t := by
  cases r with
  | ok b => exact h b rfl
  | throws => exact ⟨.throws, fun _ _ e => (by cases e), fun _ => rfl⟩
  | ub => exact ⟨.ub, fun _ _ e => (by cases e), fun _ => rfl⟩

theorem Own.ite {T : List Nat → Prop} {c : Prop} [Decidable c] {f g : Ten α → Res (Ten α)} (hf : Own T f) (hg : Own T g) :
    Own T fun t => if c then f t else g t := by
  by_cases hc : c
  · simpa [hc] using hf
  · simpa [hc] using hg

/-- such a loop does not depend on the schedule -/
theorem indep_own {ι : Type} {its : List ι} {f : Ten α → ι → Res (Ten α)} {t0 : Ten α} (T : ι → List Nat → Prop) (hn : its.Nodup)
    (h : ∀ i ∈ its, Own (T i) fun t => f t i) (hT : ∀ i ∈ its, ∀ j ∈ its, ∀ l, T i l → T j l → i = j) :
    Indep fun σ : Sched => forEach (σ.run its) f t0 := by
  classical
  refine indep_loop (P := fun i => if hi : i ∈ its then (liftM (h i hi).choose >>= fun p => match p with | none => pure () | some p => put p.1 p.2) else pure ()) T hn ?_ ?_ hT
  · intro i hi
    have := (h i hi).choose_spec.2
    simp only [hi, dif_pos]
    have e : (fun t => f t i) = fun t => (h i hi).choose >>= fun p => (match p with | none => .ok t | some p => t.set p.1 p.2 : Res (Ten α)) := funext this
    rw [e]
    refine Sim.lift fun p => ?_
    cases p with
    | none => sim
    | some p => sim
  · intro i hi
    simp only [hi, dif_pos]
    refine Within.lift fun p hp => ?_
    cases p with
    | none => within
    | some p =>
      have := (h i hi).choose_spec.1 p.1 p.2 hp
      exact Within.put this

theorem nodup_pairs (n m : Nat) : (it2 n m).Nodup := by
  unfold it2
  simp only [List.nodup_flatMap]
  refine ⟨fun i _ => (List.nodup_map_iff fun a b h => by simpa using h).2 List.nodup_range, ?_⟩
  refine List.nodup_range.imp fun {a b} hab => ?_
  simp only [Function.onFun, List.disjoint_left, List.mem_map]
  rintro x ⟨i, _, rfl⟩ ⟨j, _, e⟩
  exact hab (congrArg Prod.fst e).symm

theorem nodup_triples (n m k : Nat) : (it3 n m k).Nodup := by
  unfold it3
  simp only [List.nodup_flatMap]
  refine ⟨fun i _ => (List.nodup_map_iff fun a b h => by simpa using h).2 (nodup_pairs m k), ?_⟩
  refine List.nodup_range.imp fun {a b} hab => ?_
  simp only [Function.onFun, List.disjoint_left, List.mem_map]
  rintro x ⟨i, _, rfl⟩ ⟨j, _, e⟩
  exact hab (congrArg Prod.fst e).symm

/-- the iterations of a double loop assign the cell with their own indices -/
theorem indep_own2 {n m : Nat} {f : Ten α → Nat × Nat → Res (Ten α)} {t0 : Ten α} (h : ∀ i j, Own (fun ix => ix = [i, j]) fun t => f t (i, j)) :
    Indep fun σ : Sched => forEach (σ.run (it2 n m)) f t0 :=
  indep_own (fun p ix => ix = [p.1, p.2]) (nodup_pairs n m) (fun p _ => h p.1 p.2) fun p _ q _ l hp hq => by
    rw [hp] at hq
    simp only [List.cons.injEq, and_true] at hq
    exact Prod.ext hq.1 hq.2

theorem indep_own3 {n m k : Nat} {f : Ten α → Nat × Nat × Nat → Res (Ten α)} {t0 : Ten α} (h : ∀ i j l, Own (fun ix => ix = [i, j, l]) fun t => f t (i, j, l)) :
    Indep fun σ : Sched => forEach (σ.run (it3 n m k)) f t0 :=
  indep_own (fun p ix => ix = [p.1, p.2.1, p.2.2]) (nodup_triples n m k) (fun p _ => h p.1 p.2.1 p.2.2) fun p _ q _ l hp hq => by
    rw [hp] at hq
    simp only [List.cons.injEq, and_true] at hq
    exact Prod.ext hq.1 (Prod.ext hq.2.1 hq.2.2)

theorem indep_own1 {n : Nat} {f : Ten α → Nat → Res (Ten α)} {t0 : Ten α} (h : ∀ i < n, Own (fun ix => ix.head? = some i) fun t => f t i) :
    Indep fun σ : Sched => forEach (σ.run (it1 n)) f t0 :=
  indep_own (fun p ix => ix.head? = some p) (nodup_it1 n) (fun p hp => h p (by simpa [it1] using hp)) fun p _ q _ l hp hq => by
    rw [hp] at hq
    exact Option.some.inj hq

/-- the iterations assign the cells listed, without repetition, in `ii` -/
theorem indep_list {n : Nat} {ii : List Nat} {f : Ten α → Nat → Res (Ten α)} {t0 : Ten α} (hii : ii.Nodup)
    (h : ∀ d, Own (fun ix => ∃ k, lget ii d = .ok k ∧ ix.head? = some k) fun t => f t d) :
    Indep fun σ : Sched => forEach (σ.run (it1 n)) f t0 :=
  indep_own (fun d ix => ∃ k, lget ii d = .ok k ∧ ix.head? = some k) (nodup_it1 n) (fun d _ => h d) fun p _ q _ l ⟨a, hp, ha⟩ ⟨b, hq, hb⟩ => by
    rw [ha] at hb
    obtain rfl := Option.some.inj hb
    unfold lget at hp hq
    cases e1 : ii[p]? with
    | none => rw [e1] at hp; cases hp
    | some x =>
      cases e2 : ii[q]? with
      | none => rw [e2] at hq; cases hq
      | some y =>
        rw [e1] at hp; rw [e2] at hq
        cases hp; cases hq
        obtain ⟨h1, e1⟩ := List.getElem?_eq_some_iff.1 e1
        obtain ⟨h2, e2⟩ := List.getElem?_eq_some_iff.1 e2
        exact (hii.getElem_inj_iff (hi := h1) (hj := h2)).1 (e1.trans e2.symm)

/-- proves that the body of a loop assigns at most one cell, its own -/
macro "own" : tactic => `(tactic| (intros; repeat' first
  | exact Own.set rfl | exact Own.set ⟨_, ‹_›, rfl⟩ | exact Own.skip | refine Own.ite ?_ ?_ | (refine Own.bind ?_; intro _ _)))

end GF
