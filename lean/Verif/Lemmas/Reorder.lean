import Verif.Spec.Reproducible
import Verif.Lemmas.ParallelRace

/-! Loops whose iterations touch different cells do the same in every order. -/

namespace GF
variable {L α β γ : Type} {S : Type*}

theorem Indep.const (r : Res β) : Indep (S := S) fun _ => r := fun _ _ _ h => h

theorem Indep.bind {f : S → Res β} {g : S → β → Res γ} (hf : Indep f) (hg : ∀ b, Indep fun σ => g σ b) : Indep fun σ => f σ >>= g σ := by
  intro σ τ t h
  dsimp only at h ⊢
  cases hb : f σ with
  | ok b => rw [hb] at h; rw [hf σ τ b hb]; exact hg b σ τ t h
  | throws => rw [hb] at h; cases h
  | ub => rw [hb] at h; cases h

theorem Indep.comp {T : Type*} {f : S → Res β} (hf : Indep f) (k : T → S) : Indep fun σ => f (k σ) := fun σ τ t h => hf (k σ) (k τ) t h

theorem Indep.ite {c : Prop} [Decidable c] {f g : S → Res β} (hf : c → Indep f) (hg : ¬ c → Indep g) : Indep fun σ => if c then f σ else g σ := by
  by_cases hc : c
  · simpa [hc] using hf hc
  · simpa [hc] using hg hc

theorem Indep.forEach {ι : Type} {l : List ι} {f : S → β → ι → Res β} (hf : ∀ s i, Indep fun σ => f σ s i) (s : β) : Indep fun σ => GF.forEach l (f σ) s := by
  induction l generalizing s with
  | nil => exact Indep.const _
  | cons i l ih => exact Indep.bind (hf s i) fun b => ih b

namespace Prog
variable [DecidableEq L]

theorem exec_all {valid : L → Bool} {ι : Type} {prog : ι → Prog L α Unit} {T : ι → L → Prop} {F : L → Option α} :
    ∀ {o : List ι} {m : L → Option α}, o.Nodup → (∀ i ∈ o, ∀ j ∈ o, ∀ l, T i l → T j l → i = j) → (∀ i ∈ o, (prog i).Within (T i)) →
    (∀ i ∈ o, ∃ m1, (prog i).exec valid m = .ok (m1, ()) ∧ ∀ l, T i l → m1 l = F l) → (∀ l, (∀ i ∈ o, ¬ T i l) → m l = F l) →
    forEach o (fun m i => ((prog i).exec valid m).bind fun r => .ok r.1) m = .ok F
  | [], m, _, _, _, _, h => by
    have : m = F := funext fun l => h l (by simp)
    rw [this]
    rfl
  | i :: o, m, hn, hS, hw, h1, h2 => by
    rw [List.nodup_cons] at hn
    obtain ⟨m1, e1, e2⟩ := h1 i (by simp)
    have out := Prog.exec_outside (hw i (by simp)) e1
    unfold forEach
    dsimp only
    rw [e1]
    refine exec_all (m := m1) hn.2 (fun a ha b hb => hS a (by simp [ha]) b (by simp [hb])) (fun a ha => hw a (by simp [ha])) (fun j hj => ?_) fun l hl => ?_
    · obtain ⟨m2, f1, f2⟩ := h1 j (by simp [hj])
      obtain ⟨m2', g1, g2, -⟩ := Prog.exec_frame (hw j (by simp [hj])) (m' := m1) (fun l hl => out l fun hs => by
        have := hS j (by simp [hj]) i (by simp) l hl hs
        exact hn.1 (this ▸ hj)) f1
      exact ⟨m2', g1, fun l hl => (g2 l hl).trans (f2 l hl)⟩
    · by_cases hi : T i l
      · exact e2 l hi
      · rw [out l hi]
        refine h2 l fun j hj => ?_
        rcases List.mem_cons.1 hj with rfl | hj
        · exact hi
        · exact hl j hj

/-- the state is a function of the memory -/
theorem reorderS {σ : Type} {ι : Type} {valid : L → Bool} {mk : (L → Option α) → σ} {o o' its : List ι} {P : ι → Prog L α Unit} {f : σ → ι → Res σ} {m : L → Option α} {t : σ}
    (T : ι → L → Prop) (ho : o.Perm its) (ho' : o'.Perm its) (hn : its.Nodup) (hs : ∀ i ∈ its, Sim valid mk (P i) fun t => f t i) (hw : ∀ i ∈ its, (P i).Within (T i))
    (hS : ∀ i ∈ its, ∀ j ∈ its, ∀ l, T i l → T j l → i = j) (h : forEach o f (mk m) = .ok t) : forEach o' f (mk m) = .ok t := by
  have key : ∀ (l : List ι) (m : L → Option α), (∀ i ∈ l, i ∈ its) →
      forEach l f (mk m) = (forEach l (fun m i => ((P i).exec valid m).bind fun r => .ok r.1) m).bind fun m' => .ok (mk m') := by
    intro l
    induction l with
    | nil => intro m _; rfl
    | cons i l ih =>
      intro m hl
      simp only [forEach]
      have hi := hs i (hl i (by simp)) m
      beta_reduce at hi
      rw [hi]
      cases (P i).exec valid m with
      | ok r => exact ih r.1 fun j hj => hl j (by simp [hj])
      | throws => rfl
      | ub => rfl
  have m1 : ∀ i ∈ o, i ∈ its := fun i hi => ho.mem_iff.1 hi
  have m2 : ∀ i ∈ o', i ∈ its := fun i hi => ho'.mem_iff.1 hi
  rw [key o m m1] at h
  rw [key o' m m2]
  cases hF : forEach o (fun m i => ((P i).exec valid m).bind fun r => .ok r.1) m with
  | ok F =>
    rw [hF] at h
    obtain ⟨h1, h2⟩ := seq_exec (ho.nodup_iff.2 hn) (fun i hi j hj => hS i (m1 i hi) j (m1 j hj)) (fun i hi => hw i (m1 i hi)) hF
    rw [exec_all (ho'.nodup_iff.2 hn) (fun i hi j hj => hS i (m2 i hi) j (m2 j hj)) (fun i hi => hw i (m2 i hi))
      (fun i hi => h1 i (ho.mem_iff.2 (m2 i hi))) fun l hl => h2 l fun i hi => hl i (ho'.mem_iff.2 (m1 i hi))]
    exact h
  | throws => rw [hF] at h; cases h
  | ub => rw [hF] at h; cases h

/-- a loop over iterations that touch different cells does not depend on the schedule -/
theorem indep_loop {ι : Type} {its : List ι} {P : ι → Prog (List Nat) α Unit} {f : Ten α → ι → Res (Ten α)} {t0 : Ten α} (T : ι → List Nat → Prop)
    (hn : its.Nodup) (hs : ∀ i ∈ its, SimT t0.shape (P i) fun t => f t i) (hw : ∀ i ∈ its, (P i).Within (T i))
    (hS : ∀ i ∈ its, ∀ j ∈ its, ∀ l, T i l → T j l → i = j) : Indep fun σ : Sched => forEach (σ.run its) f t0 :=
  fun σ τ _ h => reorderS (m := t0.v) T (σ.perm its) (τ.perm its) hn hs hw hS h

/-- the iterations touch cells whose first index is their own -/
theorem indep_head {n : Nat} {P : Nat → Prog (List Nat) α Unit} {f : Ten α → Nat → Res (Ten α)} {t0 : Ten α}
    (hs : ∀ e < n, SimT t0.shape (P e) fun t => f t e) (hw : ∀ e < n, (P e).Within fun ix => ix.head? = some e) :
    Indep fun σ : Sched => forEach (σ.run (it1 n)) f t0 :=
  indep_loop (fun e ix => ix.head? = some e) (nodup_it1 n) (fun e he => hs e (by simpa [it1] using he)) (fun e he => hw e (by simpa [it1] using he))
    (fun i _ j _ l hi hj => by rw [hi] at hj; exact Option.some.inj hj)

/-- two arrays -/
theorem indep_two {n : Nat} {P : Nat → Prog (Bool × List Nat) α Unit} {f : Ten α × Ten α → Nat → Res (Ten α × Ten α)} {a b : Ten α}
    (hs : ∀ e < n, Sim (inBoth a.shape b.shape) (mk2 a.shape b.shape) (P e) fun t => f t e) (hw : ∀ e < n, (P e).Within fun l => l.2.head? = some e) :
    Indep fun σ : Sched => forEach (σ.run (it1 n)) f (a, b) :=
  fun σ τ _ h => reorderS (m := both a b) (mk := mk2 a.shape b.shape) (fun e l => l.2.head? = some e) (σ.perm _) (τ.perm _) (nodup_it1 n)
    (fun e he => hs e (by simpa [it1] using he)) (fun e he => hw e (by simpa [it1] using he))
    (fun i _ j _ l hi hj => by rw [hi] at hj; exact Option.some.inj hj) h

end Prog
end GF
