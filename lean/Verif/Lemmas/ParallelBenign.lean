import Verif.Lemmas.ParallelRace

/-! Parallel loops in which all writes of a cell write the same value. -/

namespace GF
variable {L α β γ : Type}

namespace Prog

/-- there are only writes, all of which satisfy `R` -/
def Puts (R : L → α → Prop) : Prog L α β → Prop
  | .ret _ => True
  | .read _ _ => False
  | .write l a k => R l a ∧ k.Puts R

theorem Puts.bind {R : L → α → Prop} {p : Prog L α β} {f : β → Prog L α γ} (hp : p.Puts R) (hf : ∀ b, (f b).Puts R) : (p.bind f).Puts R := by
  induction p with
  | ret r => cases r with
    | ok b => exact hf b
    | throws => trivial
    | ub => trivial
  | read => exact hp.elim
  | write l a k ih => exact ⟨hp.1, ih hp.2⟩

theorem Puts.lift {R : L → α → Prop} {r : Res β} {k : β → Prog L α Unit} (h : ∀ b, r = .ok b → (k b).Puts R) : (liftM r >>= k : Prog L α Unit).Puts R := by
  cases r with
  | ok b => exact h b rfl
  | throws => trivial
  | ub => trivial

theorem Puts.loop {R : L → α → Prop} {ι : Type} {P : ι → Prog L α Unit} {l : List ι} (h : ∀ i ∈ l, (P i).Puts R) : (loop P l).Puts R := by
  induction l with
  | nil => trivial
  | cons i l ih => exact Puts.bind (h i (by simp)) fun _ => ih fun j hj => h j (by simp [hj])

theorem Puts.put {R : L → α → Prop} {l : L} {a : α} (h : R l a) : (Prog.put l a).Puts R := ⟨h, trivial⟩

theorem Puts.done {R : L → α → Prop} : (pure () : Prog L α Unit).Puts R := trivial

theorem Puts.ite {R : L → α → Prop} {c : Prop} [Decidable c] {p q : Prog L α Unit} (hp : c → p.Puts R) (hq : ¬ c → q.Puts R) : (if c then p else q).Puts R := by
  by_cases hc : c
  · simpa [hc] using hp hc
  · simpa [hc] using hq hc

theorem Puts.mono {R R' : L → α → Prop} {p : Prog L α β} (h : ∀ l a, p.Hits l → R l a → R' l a) (hp : p.Puts R) : p.Puts R' := by
  induction p with
  | ret r => trivial
  | read => exact hp.elim
  | write l a k ih => exact ⟨h l a (Or.inl rfl) hp.1, ih (fun l' a' hl => h l' a' (Or.inr hl)) hp.2⟩

theorem Puts.noRead {R : L → α → Prop} {p : Prog L α β} (hp : p.Puts R) : p.NoRead := by
  induction p with
  | ret r => trivial
  | read => exact hp.elim
  | write l a k ih => exact ih hp.2

/-- number of writes -/
def size : Prog L α β → Nat
  | .ret _ => 0
  | .read _ _ => 0
  | .write _ _ k => k.size + 1

variable [DecidableEq L]

theorem Puts.exec {R : L → α → Prop} {valid : L → Bool} {p : Prog L α β} (hp : p.Puts R) {m F : L → Option α} {b : β} (he : p.exec valid m = .ok (F, b)) (l : L) :
    (¬ p.Hits l ∧ F l = m l) ∨ (p.Hits l ∧ ∃ a, F l = some a ∧ R l a) := by
  induction p generalizing m with
  | ret r => cases r with
    | ok c => injection he with he; injection he with h1 h2; subst h1; exact Or.inl ⟨id, rfl⟩
    | throws => cases he
    | ub => cases he
  | read => exact hp.elim
  | write l' a k ih =>
    simp only [Prog.exec] at he
    split at he
    · rcases ih hp.2 he with ⟨h1, h2⟩ | h
      · by_cases e : l = l'
        · subst e
          right
          exact ⟨Or.inl rfl, a, by rw [h2, Function.update_self], hp.1⟩
        · left
          refine ⟨fun h => ?_, by rw [h2, Function.update_of_ne e]⟩
          rcases h with h | h
          · exact e h.symm
          · exact h1 h
      · exact Or.inr ⟨Or.inr h.1, h.2⟩
    · cases he

theorem Puts.seq {ι : Type} {R : L → α → Prop} {valid : L → Bool} {P : ι → Prog L α Unit} {o : List ι} {m F : L → Option α} (hp : ∀ i ∈ o, (P i).Puts R)
    (h : forEach o (fun m i => ((P i).exec valid m).bind fun r => .ok r.1) m = .ok F) :
    (∀ i ∈ o, (P i).Writer valid) ∧ ∀ l, ((∀ i ∈ o, ¬ (P i).Hits l) ∧ F l = m l) ∨ ((∃ i ∈ o, (P i).Hits l) ∧ ∃ a, F l = some a ∧ R l a) := by
  induction o generalizing m with
  | nil => injection h with h; subst h; simp
  | cons i o ih =>
    simp only [forEach] at h
    cases he : (P i).exec valid m with
    | ok r =>
      rw [he] at h
      obtain ⟨h1, h2⟩ := ih (fun j hj => hp j (by simp [hj])) h
      have hi := hp i (by simp)
      refine ⟨fun j hj => ?_, fun l => ?_⟩
      · rcases List.mem_cons.1 hj with rfl | hj
        · exact hi.noRead.writer he
        · exact h1 j hj
      · rcases h2 l with ⟨h3, h4⟩ | h3
        · rcases hi.exec (F := r.1) (b := r.2) he l with ⟨h5, h6⟩ | h5
          · left
            refine ⟨fun j hj => ?_, h4.trans h6⟩
            rcases List.mem_cons.1 hj with rfl | hj
            · exact h5
            · exact h3 j hj
          · right
            obtain ⟨h7, a, h5, h6⟩ := h5
            exact ⟨⟨i, by simp, h7⟩, a, h4.trans h5, h6⟩
        · obtain ⟨⟨j, hj, h7⟩, h8⟩ := h3
          exact Or.inr ⟨⟨j, by simp [hj], h7⟩, h8⟩
    | throws => rw [he] at h; cases h
    | ub => rw [he] at h; cases h

/-- what holds in the middle of a loop in which the writes agree -/
structure Agreeing (valid : L → Bool) (F : L → Option α) (c : Config L α) : Prop where
  writer : ∀ p ∈ c.threads, p.Writer valid
  puts : ∀ p ∈ c.threads, p.Puts fun l a => F l = some a
  rest : ∀ l, c.mem l = F l ∨ ∃ p ∈ c.threads, p.Hits l

theorem Agreeing.step {valid : L → Bool} {F : L → Option α} {c c' : Config L α} (h : Agreeing valid F c) (hc : Access valid c c') :
    Agreeing valid F c' ∧ (c.threads.map size).sum = (c'.threads.map size).sum + 1 := by
  cases hc with
  | @read m ts i l k a hi hv hm => exact (h.writer _ (List.mem_of_getElem? hi)).elim
  | @write m ts i l a k hi hv =>
    have hmem := List.mem_of_getElem? hi
    have lt := (List.getElem?_eq_some_iff.1 hi).1
    refine ⟨⟨fun p hp => ?_, fun p hp => ?_, fun l' => ?_⟩, ?_⟩
    · rcases List.mem_or_eq_of_mem_set hp with hp | rfl
      · exact h.writer p hp
      · exact (h.writer _ hmem).2
    · rcases List.mem_or_eq_of_mem_set hp with hp | rfl
      · exact h.puts p hp
      · exact (h.puts _ hmem).2
    · by_cases e : l' = l
      · subst e
        left
        show Function.update m l' (some a) l' = F l'
        rw [Function.update_self, (h.puts _ hmem).1]
      · rcases h.rest l' with h' | ⟨p, hp, hh⟩
        · left
          show Function.update m l (some a) l' = F l'
          rw [Function.update_of_ne e]
          exact h'
        · right
          obtain ⟨j, hj⟩ := List.mem_iff_getElem?.1 hp
          by_cases ij : j = i
          · subst ij
            have := hj.symm.trans hi
            injection this with this
            subst this
            rcases hh with hh | hh
            · exact (e hh.symm).elim
            · exact ⟨k, List.mem_iff_getElem?.2 ⟨j, by simp [lt]⟩, hh⟩
          · exact ⟨p, List.mem_iff_getElem?.2 ⟨j, by rw [List.getElem?_set_ne (Ne.symm ij)]; exact hj⟩, hh⟩
    · exact sum_set size size ts i _ k hi (fun _ _ _ _ => rfl) rfl

theorem Agreeing.steps {valid : L → Bool} {F : L → Option α} {c c' : Config L α} {n : Nat} (h : Agreeing valid F c) (hc : Accesses valid n c c') :
    Agreeing valid F c' ∧ (c.threads.map size).sum = (c'.threads.map size).sum + n := by
  induction hc with
  | none => exact ⟨h, rfl⟩
  | more _ h2 ih =>
    obtain ⟨h3, h4⟩ := ih h
    obtain ⟨h5, h6⟩ := h3.step h2
    exact ⟨h5, by omega⟩

theorem Agreeing.sameResult {valid : L → Bool} {F : L → Option α} {c : Config L α} (h : Agreeing valid F c) : SameResult valid c.mem c.threads F := by
  refine ⟨fun n c' hc => ?_, (c.threads.map size).sum, fun n c' hc => ?_⟩
  · obtain ⟨h', -⟩ := h.steps hc
    refine ⟨?_, fun hd => ?_, fun hd => ?_⟩
    · rintro ⟨p, hp, hw⟩
      have := h'.writer p hp
      cases p with
      | ret r => obtain ⟨b, rfl⟩ := this; exact hw rfl
      | read => exact this
      | write l a k =>
        dsimp only at hw
        rw [this.1] at hw
        cases hw
    · funext l
      rcases h'.rest l with h1 | ⟨p, hp, hh⟩
      · exact h1
      · rw [hd p hp] at hh
        exact hh.elim
    · simp only [Config.Done, not_forall] at hd
      obtain ⟨p, hp, hne⟩ := hd
      obtain ⟨i, hi⟩ := List.mem_iff_getElem?.1 hp
      have := h'.writer p hp
      cases p with
      | ret r => obtain ⟨b, rfl⟩ := this; exact (hne rfl).elim
      | read => exact this.elim
      | write l a k =>
        obtain ⟨m, ts⟩ := c'
        exact ⟨_, .write hi this.1⟩
  · have := (h.steps hc).2
    omega

/-- a parallel loop over iterations that only write, and that write the same values to the cells they share -/
theorem same_result {ι : Type} {its : List ι} {P : ι → Prog (List Nat) α Unit} {f : Ten α → ι → Res (Ten α)} {t0 t : Ten α} (R : List Nat → α → Prop)
    (hs : ∀ i ∈ its, SimT t0.shape (P i) fun t => f t i) (hR : ∀ l a b, R l a → R l b → a = b) (hp : ∀ i ∈ its, (P i).Puts R)
    (h : forEach its f t0 = .ok t) : SameResult (inb t0.shape) t0.v (its.map P) t.v := by
  have key : ∀ (l : List ι) (m : List Nat → Option α), (∀ i ∈ l, i ∈ its) →
      forEach l f ⟨t0.shape, m⟩ = (forEach l (fun m i => ((P i).exec (inb t0.shape) m).bind fun r => .ok r.1) m).bind fun m' => .ok ⟨t0.shape, m'⟩ := by
    intro l
    induction l with
    | nil => intro m _; rfl
    | cons i l ih =>
      intro m hl
      simp only [forEach]
      have hi := hs i (hl i (by simp)) m
      beta_reduce at hi
      rw [hi]
      cases (P i).exec (inb t0.shape) m with
      | ok r => exact ih r.1 fun j hj => hl j (by simp [hj])
      | throws => rfl
      | ub => rfl
  have h' := key its t0.v fun i hi => hi
  rw [show (⟨t0.shape, t0.v⟩ : Ten α) = t0 from rfl, h] at h'
  cases hF : forEach its (fun m i => ((P i).exec (inb t0.shape) m).bind fun r => .ok r.1) t0.v with
  | ok F =>
    rw [hF] at h'
    injection h' with h'
    subst h'
    obtain ⟨h1, h2⟩ := Puts.seq hp hF
    have hA : Agreeing (inb t0.shape) F ⟨t0.v, its.map P⟩ := by
      refine ⟨fun p hp' => ?_, fun p hp' => ?_, fun l => ?_⟩
      · obtain ⟨i, hi, rfl⟩ := List.mem_map.1 hp'
        exact h1 i hi
      · obtain ⟨i, hi, rfl⟩ := List.mem_map.1 hp'
        refine (hp i hi).mono fun l a hl hr => ?_
        rcases h2 l with ⟨h3, -⟩ | ⟨-, b, h3, h4⟩
        · exact (h3 i hi hl).elim
        · rw [h3, hR l b a h4 hr]
      · rcases h2 l with ⟨-, h3⟩ | ⟨⟨i, hi, hh⟩, -⟩
        · exact Or.inl h3.symm
        · exact Or.inr ⟨P i, List.mem_map_of_mem hi, hh⟩
    exact hA.sameResult
  | throws => rw [hF] at h'; cases h'
  | ub => rw [hF] at h'; cases h'

end Prog
end GF
