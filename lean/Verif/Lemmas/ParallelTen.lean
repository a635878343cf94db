import Verif.Lemmas.Parallel
import Verif.Lemmas.Base
import Verif.Model.Parallel

/-! Linking iterations written access by access (`Prog`) to the bodies of the loops of the model. -/

namespace GF
variable {L α β γ σ : Type}


namespace Prog
variable [DecidableEq L]

/-- running `p` on the memory has the effect of `f` on the state that the memory stands for -/
def Sim (valid : L → Bool) (mk : (L → Option α) → σ) (p : Prog L α Unit) (f : σ → Res σ) : Prop :=
  ∀ m, f (mk m) = (p.exec valid m).bind fun r => .ok (mk r.1)

theorem Sim.done (valid : L → Bool) (mk : (L → Option α) → σ) : Sim valid mk (pure ()) fun t => .ok t := fun _ => rfl

theorem Sim.lift {valid : L → Bool} {mk : (L → Option α) → σ} {r : Res β} {k : β → Prog L α Unit} {g : σ → β → Res σ}
    (h : ∀ b, Sim valid mk (k b) fun t => g t b) : Sim valid mk (liftM r >>= k) fun t => r >>= g t := by
  intro m
  cases r with
  | ok b => exact h b m
  | throws => rfl
  | ub => rfl

theorem Sim.seq {valid : L → Bool} {mk : (L → Option α) → σ} {p q : Prog L α Unit} {f g : σ → Res σ} (hp : Sim valid mk p f)
    (hq : Sim valid mk q g) : Sim valid mk (p >>= fun _ => q) fun t => f t >>= g := by
  intro m
  show (f (mk m)).bind g = ((p.bind fun _ => q).exec valid m).bind _
  rw [hp m, exec_bind]
  cases p.exec valid m with
  | ok r => exact hq r.1
  | throws => rfl
  | ub => rfl

theorem Sim.loop {ι : Type} {valid : L → Bool} {mk : (L → Option α) → σ} {P : ι → Prog L α Unit} {f : σ → ι → Res σ} {l : List ι}
    (h : ∀ i ∈ l, Sim valid mk (P i) fun t => f t i) : Sim valid mk (loop P l) fun t => forEach l f t := by
  induction l with
  | nil => exact Sim.done valid mk
  | cons i l ih => exact Sim.seq (h i (by simp)) (ih fun j hj => h j (by simp [hj]))

theorem Sim.ite {valid : L → Bool} {mk : (L → Option α) → σ} {c : Prop} [Decidable c] {p q : Prog L α Unit} {f g : σ → Res σ}
    (hp : Sim valid mk p f) (hq : Sim valid mk q g) : Sim valid mk (if c then p else q) fun t => if c then f t else g t := by
  by_cases hc : c
  · simpa [hc] using hp
  · simpa [hc] using hq

omit [DecidableEq L] in
theorem Within.lift {S : L → Prop} {r : Res β} {k : β → Prog L α Unit} (h : ∀ b, r = .ok b → (k b).Within S) : (liftM r >>= k : Prog L α Unit).Within S := by
  cases r with
  | ok b => exact h b rfl
  | throws => trivial
  | ub => trivial

omit [DecidableEq L] in
theorem Within.seq {S : L → Prop} {p q : Prog L α Unit} (hp : p.Within S) (hq : q.Within S) : (p >>= fun _ => q).Within S := within_bind hp fun _ => hq

omit [DecidableEq L] in
theorem Within.fetch {S : L → Prop} {l : L} {k : α → Prog L α Unit} (hl : S l) (h : ∀ a, (k a).Within S) : (fetch l >>= k).Within S := ⟨hl, h⟩

omit [DecidableEq L] in
theorem Within.put {S : L → Prop} {l : L} {a : α} (hl : S l) : (put l a).Within S := ⟨hl, trivial⟩

omit [DecidableEq L] in
theorem Within.add [Add α] {S : L → Prop} {l : L} {a : α} (hl : S l) : (add l a).Within S := ⟨hl, fun _ => ⟨hl, trivial⟩⟩

omit [DecidableEq L] in
theorem Within.done {S : L → Prop} : (pure () : Prog L α Unit).Within S := trivial

omit [DecidableEq L] in
theorem Within.ite {S : L → Prop} {c : Prop} [Decidable c] {p q : Prog L α Unit} (hp : c → p.Within S) (hq : ¬ c → q.Within S) : (if c then p else q).Within S := by
  by_cases hc : c
  · simpa [hc] using hp hc
  · simpa [hc] using hq hc

/-- for one array -/
abbrev SimT (sh : List Nat) (p : Prog (List Nat) α Unit) (f : Ten α → Res (Ten α)) : Prop := Sim (inb sh) (Ten.mk sh) p f

theorem SimT.put (sh ix : List Nat) (a : α) : SimT sh (put ix a) fun t => t.set ix a := by
  intro m
  simp only [Ten.set, Prog.put, exec]
  split <;> rfl

theorem SimT.add [Add α] (sh ix : List Nat) (a : α) : SimT sh (add ix a) fun t => t.addAt ix a := by
  intro m
  simp only [Ten.addAt, Ten.get, Ten.set, Prog.add, exec, bind]
  by_cases h : inb sh ix
  · simp only [h, if_true]
    cases m ix with
    | none => rfl
    | some b => rfl
  · simp only [h]
    rfl

theorem SimT.fetch {sh ix : List Nat} {k : α → Prog (List Nat) α Unit} {g : Ten α → α → Res (Ten α)}
    (h : ∀ a, SimT sh (k a) fun t => g t a) : SimT sh (fetch ix >>= k) fun t => t.get ix >>= g t := by
  intro m
  show (Ten.get ⟨sh, m⟩ ix).bind _ = (((Prog.fetch ix).bind k).exec (inb sh) m).bind _
  simp only [Ten.get, Prog.fetch, exec, bind]
  by_cases hi : inb sh ix
  · simp only [hi, if_true]
    cases m ix with
    | none => rfl
    | some b => exact h b m
  · simp only [hi]
    rfl

theorem SimT.putP (sh ix : List Nat) (k : Nat) (a : α) : SimT sh (putP sh ix k a) fun t => t.setP ix k a := fun m => SimT.put sh _ a m

theorem SimT.addP [Add α] (sh ix : List Nat) (k : Nat) (a : α) : SimT sh (addP sh ix k a) fun t => t.addP ix k a := fun m => by
  have := SimT.add sh (unravel sh (ravel sh ix + k)) a m
  exact this

/-- a parallel loop is free of races when no two of its iterations touch the same cell -/
theorem race_free {ι : Type} {its : List ι} {P : ι → Prog (List Nat) α Unit} {f : Ten α → ι → Res (Ten α)} {t0 t : Ten α} (S : ι → List Nat → Prop)
    (hn : its.Nodup) (hs : ∀ i ∈ its, SimT t0.shape (P i) fun t => f t i) (hw : ∀ i ∈ its, (P i).Within (S i))
    (hS : ∀ i ∈ its, ∀ j ∈ its, ∀ l, S i l → S j l → i = j) (h : forEach its f t0 = .ok t) :
    RaceFree (inb t0.shape) t0.v (its.map P) t.v ∧ t.shape = t0.shape := by
  have key : ∀ (l : List ι) (m : List Nat → Option α), (∀ i ∈ l, i ∈ its) →
      forEach l f ⟨t0.shape, m⟩ = (forEach l (fun m i => ((P i).exec (inb t0.shape) m).bind fun r => .ok r.1) m).bind fun m' => .ok ⟨t0.shape, m'⟩ := by
    intro l
    induction l with
    | nil => intro m _; rfl
    | cons i l ih =>
      intro m hl
      simp only [forEach]
      have hi := hs i (hl i (by simp)) m
      beta_reduce at hi
      rw [hi]
      cases (P i).exec (inb t0.shape) m with
      | ok r => exact ih r.1 fun j hj => hl j (by simp [hj])
      | throws => rfl
      | ub => rfl
  have h' := key its t0.v fun _ h => h
  rw [show (⟨t0.shape, t0.v⟩ : Ten α) = t0 from rfl, h] at h'
  cases hF : forEach its (fun m i => ((P i).exec (inb t0.shape) m).bind fun r => .ok r.1) t0.v with
  | ok F =>
    rw [hF] at h'
    injection h' with h'
    subst h'
    exact ⟨raceFree_of S (List.Perm.refl _) hn hS hw hF, rfl⟩
  | throws => rw [hF] at h'; cases h'
  | ub => rw [hF] at h'; cases h'

theorem nodup_it1 (n : Nat) : (it1 n).Nodup := List.nodup_range

/-- the iterations touch cells whose first index is their own -/
theorem race_free_head {n : Nat} {P : Nat → Prog (List Nat) α Unit} {f : Ten α → Nat → Res (Ten α)} {t0 t : Ten α}
    (hs : ∀ e < n, SimT t0.shape (P e) fun t => f t e) (hw : ∀ e < n, (P e).Within fun ix => ix.head? = some e)
    (h : forEach (it1 n) f t0 = .ok t) : RaceFree (inb t0.shape) t0.v ((it1 n).map P) t.v :=
  (race_free (fun e ix => ix.head? = some e) (nodup_it1 n) (fun e he => hs e (by simpa [it1] using he)) (fun e he => hw e (by simpa [it1] using he))
    (fun i _ j _ l hi hj => by rw [hi] at hj; exact Option.some.inj hj) h).1

/-- nested loops are the outer loop over the inner one -/
theorem forEach_it2 {σ : Type} (n m : Nat) (f : σ → Nat × Nat → Res σ) (s : σ) :
    forEach (it2 n m) f s = forEach (it1 n) (fun s i => forEach (it1 m) (fun s j => f s (i, j)) s) s := by
  simp only [it2, it1]
  induction List.range n generalizing s with
  | nil => rfl
  | cons i l ih =>
    simp only [List.flatMap_cons, forEach_append, forEach]
    congr 1
    · clear ih
      induction List.range m generalizing s with
      | nil => rfl
      | cons j l ih => simp only [List.map_cons, forEach]; congr 1; funext s'; exact ih s'
    · funext s'; exact ih s'

theorem forEach_it3 {σ : Type} (n m k : Nat) (f : σ → Nat × Nat × Nat → Res σ) (s : σ) :
    forEach (it3 n m k) f s = forEach (it1 n) (fun s i => forEach (it2 m k) (fun s j => f s (i, j)) s) s := by
  simp only [it3, it1]
  induction List.range n generalizing s with
  | nil => rfl
  | cons i l ih =>
    simp only [List.flatMap_cons, forEach_append, forEach]
    congr 1
    · clear ih
      induction it2 m k generalizing s with
      | nil => rfl
      | cons j l ih => simp only [List.map_cons, forEach]; congr 1; funext s'; exact ih s'
    · funext s'; exact ih s'

end Prog
end GF
