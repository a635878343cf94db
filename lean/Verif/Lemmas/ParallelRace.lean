import Verif.Lemmas.ParallelTen

/-! When a parallel loop does have a data race; loops that write two arrays. -/

namespace GF
variable {L α β γ σ : Type}

namespace Prog
variable [DecidableEq L]

/-! ### iterations that only write -/

/-- no accesses but writes, to existing cells, and a normal end -/
def Writer (valid : L → Bool) : Prog L α β → Prop
  | .ret r => ∃ b, r = .ok b
  | .read _ _ => False
  | .write l _ k => valid l = true ∧ k.Writer valid

/-- writes the cell `l` -/
def Hits (l : L) : Prog L α β → Prop
  | .ret _ => False
  | .read _ _ => False
  | .write l' _ k => l' = l ∨ k.Hits l

omit [DecidableEq L] in
theorem Writer.bind {valid : L → Bool} {p : Prog L α β} {f : β → Prog L α γ} (hp : p.Writer valid) (hf : ∀ b, p = .ret (.ok b) ∨ True → (f b).Writer valid) :
    (p.bind f).Writer valid := by
  induction p with
  | ret r => obtain ⟨b, rfl⟩ := hp; exact hf b (Or.inr trivial)
  | read => exact hp.elim
  | write l a k ih => exact ⟨hp.1, ih hp.2 fun b _ => hf b (Or.inr trivial)⟩

omit [DecidableEq L] in
theorem Hits.left {l : L} {p : Prog L α β} {f : β → Prog L α γ} (hp : p.Hits l) : (p.bind f).Hits l := by
  induction p with
  | ret r => exact hp.elim
  | read => exact hp.elim
  | write l' a k ih => exact hp.imp id ih

omit [DecidableEq L] in
theorem Hits.right {valid : L → Bool} {l : L} {p : Prog L α β} {f : β → Prog L α γ} (hp : p.Writer valid) (hf : ∀ b, (f b).Hits l) : (p.bind f).Hits l := by
  induction p with
  | ret r => obtain ⟨b, rfl⟩ := hp; exact hf b
  | read => exact hp.elim
  | write l' a k ih => exact Or.inr (ih hp.2)

omit [DecidableEq L] in
theorem Writer.loop {ι : Type} {valid : L → Bool} {P : ι → Prog L α Unit} {l : List ι} (h : ∀ i ∈ l, (P i).Writer valid) : (loop P l).Writer valid := by
  induction l with
  | nil => exact ⟨(), rfl⟩
  | cons i l ih => exact Writer.bind (h i (by simp)) fun _ _ => ih fun j hj => h j (by simp [hj])

omit [DecidableEq L] in
theorem Hits.loop {ι : Type} {valid : L → Bool} {c : L} {P : ι → Prog L α Unit} {l : List ι} (h : ∀ i ∈ l, (P i).Writer valid) {i : ι} (hi : i ∈ l)
    (hc : (P i).Hits c) : (loop P l).Hits c := by
  induction l with
  | nil => simp at hi
  | cons j l ih =>
    rcases List.mem_cons.1 hi with rfl | hi
    · exact Hits.left hc
    · exact Hits.right (h j (by simp)) fun _ => ih (fun j hj => h j (by simp [hj])) hi

theorem Accesses.trans {valid : L → Bool} {n n' : Nat} {c c' c'' : Config L α} (h : Accesses valid n c c') (h' : Accesses valid n' c' c'') :
    Accesses valid (n + n') c c'' := by
  induction h' with
  | none => exact h
  | more _ h2 ih => exact .more (ih h) h2

theorem Writer.run {valid : L → Bool} {l : L} {p : Prog L α Unit} (hp : p.Writer valid) (hl : p.Hits l) {m : L → Option α} {ts : List (Prog L α Unit)} {i : Nat}
    (hi : ts[i]? = some p) : ∃ n m' a k, Accesses valid n ⟨m, ts⟩ ⟨m', ts.set i (.write l a k)⟩ := by
  induction p generalizing m ts with
  | ret r => exact hl.elim
  | read => exact hp.elim
  | write l' a k ih =>
    rcases hl with rfl | hl
    · refine ⟨0, m, a, k, ?_⟩
      rw [List.getElem?_eq_some_iff] at hi
      obtain ⟨h1, h2⟩ := hi
      rw [← h2, List.set_getElem_self]
      exact .none
    · have lt := (List.getElem?_eq_some_iff.1 hi).1
      obtain ⟨n, m', a', k', h⟩ := ih hp.2 hl (m := Function.update m l' (some a)) (ts := ts.set i k) (by simp [lt])
      rw [List.set_set] at h
      exact ⟨_, m', a', k', Accesses.trans (.more .none (.write hi hp.1)) h⟩

/-- two iterations that write the same cell race -/
theorem Writer.race {valid : L → Bool} {l : L} {m : L → Option α} {ts : List (Prog L α Unit)} {i j : Nat} {p q : Prog L α Unit} (hij : i ≠ j)
    (hi : ts[i]? = some p) (hj : ts[j]? = some q) (hp : p.Writer valid) (hq : q.Writer valid) (hpl : p.Hits l) (hql : q.Hits l) : HasRace valid m ts := by
  obtain ⟨n, m', a, k, h⟩ := hp.run hpl (m := m) hi
  obtain ⟨n', m'', a', k', h'⟩ := hq.run hql (m := m') (ts := ts.set i (.write l a k)) (i := j) (by rw [List.getElem?_set_ne hij]; exact hj)
  refine ⟨_, _, Accesses.trans h h', i, j, .write l a k, .write l a' k', l, hij, ?_, ?_, rfl, rfl, trivial⟩
  · have := (List.getElem?_eq_some_iff.1 hi).1
    simp [List.getElem?_set, Ne.symm hij, this]
  · have := (List.getElem?_eq_some_iff.1 hj).1
    simp [this]

/-- a loop of the model that succeeds does so in every iteration -/
theorem forEach_each {ι σ : Type} {f : σ → ι → Res σ} {l : List ι} {s t : σ} (h : forEach l f s = .ok t) : ∀ i ∈ l, ∃ s' t', f s' i = .ok t' := by
  induction l generalizing s with
  | nil => simp
  | cons i l ih =>
    simp only [forEach] at h
    cases hs : f s i with
    | ok s1 =>
      rw [hs] at h
      intro j hj
      rcases List.mem_cons.1 hj with rfl | hj
      · exact ⟨s, s1, hs⟩
      · exact ih h j hj
    | throws => rw [hs] at h; cases h
    | ub => rw [hs] at h; cases h

theorem forEach_shape {ι : Type} {f : Ten α → ι → Res (Ten α)} {l : List ι} {s t : Ten α} (hf : ∀ s i t, f s i = .ok t → t.shape = s.shape) (h : forEach l f s = .ok t) :
    t.shape = s.shape ∧ ∀ i ∈ l, ∃ s' t', s'.shape = s.shape ∧ f s' i = .ok t' := by
  induction l generalizing s with
  | nil => injection h with h; subst h; simp
  | cons i l ih =>
    simp only [forEach] at h
    cases hs : f s i with
    | ok s1 =>
      rw [hs] at h
      have e := hf _ _ _ hs
      obtain ⟨h1, h2⟩ := ih h
      refine ⟨h1.trans e, fun j hj => ?_⟩
      rcases List.mem_cons.1 hj with rfl | hj
      · exact ⟨s, s1, rfl, hs⟩
      · obtain ⟨s', t', h3, h4⟩ := h2 j hj
        exact ⟨s', t', h3.trans e, h4⟩
    | throws => rw [hs] at h; cases h
    | ub => rw [hs] at h; cases h

/-! ### two arrays -/

/-- the state of two arrays -/
def mk2 (a b : List Nat) (m : Bool × List Nat → Option α) : Ten α × Ten α := (⟨a, fun ix => m (false, ix)⟩, ⟨b, fun ix => m (true, ix)⟩)

/-- for an operation on the first of two arrays -/
abbrev SimF (a b : List Nat) (p : Prog (Bool × List Nat) α Unit) (f : Ten α → Res (Ten α)) : Prop :=
  Sim (inBoth a b) (mk2 a b) p fun s => f s.1 >>= fun t => .ok (t, s.2)

theorem SimF.put (a b ix : List Nat) (v : α) : SimF a b (put (false, ix) v) fun t => t.set ix v := by
  intro m
  show (if inb a ix then Res.ok _ else Res.ub : Res (Ten α)).bind _ = (if inb a ix then Res.ok _ else Res.ub : Res ((Bool × List Nat → Option α) × Unit)).bind _
  by_cases h : inb a ix
  · rw [if_pos h, if_pos h]
    simp only [Res.bind, Res.ok.injEq, mk2, Prod.mk.injEq, Ten.mk.injEq, true_and]
    refine ⟨?_, ?_⟩
    · funext jx
      by_cases hj : jx = ix
      · subst hj; simp
      · rw [Function.update_of_ne hj, Function.update_of_ne (by simpa using hj)]
    · funext jx
      rw [Function.update_of_ne (by simp)]
  · rw [if_neg h, if_neg h]; rfl

theorem SimF.add [Add α] (a b ix : List Nat) (v : α) : SimF a b (add (false, ix) v) fun t => t.addAt ix v := by
  intro m
  by_cases h : inb a ix
  · cases hm : m (false, ix) with
    | none => simp [Ten.addAt, Ten.get, Prog.add, exec, mk2, inBoth, h, hm, Bind.bind, Res.bind]
    | some c =>
      have := SimF.put a b ix (c + v) m
      have e1 : (mk2 a b m).1.addAt ix v = (mk2 a b m).1.set ix (c + v) := by simp [Ten.addAt, Ten.get, mk2, h, hm, Bind.bind, Res.bind]
      have e2 : (Prog.add (false, ix) v).exec (inBoth a b) m = (Prog.put (false, ix) (c + v)).exec (inBoth a b) m := by
        simp [Prog.add, Prog.put, exec, inBoth, h, hm]
      beta_reduce
      rw [e1, e2]
      exact this
  · simp [Ten.addAt, Ten.get, Prog.add, exec, mk2, inBoth, h, Bind.bind, Res.bind]

theorem SimF.lift {a b : List Nat} {r : Res β} {k : β → Prog (Bool × List Nat) α Unit} {g : Ten α → β → Res (Ten α)}
    (h : ∀ c, SimF a b (k c) fun t => g t c) : SimF a b (liftM r >>= k) fun t => r >>= g t := by
  intro m
  cases r with
  | ok c => exact h c m
  | throws => rfl
  | ub => rfl

theorem SimF.seq {a b : List Nat} {p q : Prog (Bool × List Nat) α Unit} {f g : Ten α → Res (Ten α)} (hp : SimF a b p f) (hq : SimF a b q g) :
    SimF a b (p >>= fun _ => q) fun t => f t >>= g := by
  intro m
  have := Sim.seq hp hq m
  rw [← this]
  show Res.bind (Res.bind _ _) _ = Res.bind (Res.bind _ _) _
  cases f (mk2 a b m).1 <;> rfl

theorem SimF.loop {ι : Type} {a b : List Nat} {P : ι → Prog (Bool × List Nat) α Unit} {f : Ten α → ι → Res (Ten α)} {l : List ι}
    (h : ∀ i ∈ l, SimF a b (P i) fun t => f t i) : SimF a b (loop P l) fun t => forEach l f t := by
  induction l with
  | nil => intro m; rfl
  | cons i l ih => exact SimF.seq (h i (by simp)) (ih fun j hj => h j (by simp [hj]))

theorem Sim.second (a b ix : List Nat) (v : α) :
    Sim (inBoth a b) (mk2 a b) (Prog.put (true, ix) v) fun s => s.2.set ix v >>= fun t => .ok (s.1, t) := by
  intro m
  show (if inb b ix then Res.ok _ else Res.ub : Res (Ten α)).bind _ = (if inb b ix then Res.ok _ else Res.ub : Res ((Bool × List Nat → Option α) × Unit)).bind _
  by_cases h : inb b ix
  · rw [if_pos h, if_pos h]
    simp only [Res.bind, Res.ok.injEq, mk2, Prod.mk.injEq, Ten.mk.injEq, true_and]
    refine ⟨?_, ?_⟩
    · funext jx
      rw [Function.update_of_ne (by simp)]
    · funext jx
      by_cases hj : jx = ix
      · subst hj; simp
      · rw [Function.update_of_ne hj, Function.update_of_ne (by simpa using hj)]
  · rw [if_neg h, if_neg h]; rfl

/-- an operation on the first of two arrays, followed by an assignment to the second -/
theorem Sim.pair {a b : List Nat} {p : Prog (Bool × List Nat) α Unit} {f : Ten α → Res (Ten α)} {r : Res β} {ix : List Nat} {v : β → α} (hp : SimF a b p f) :
    Sim (inBoth a b) (mk2 a b) (p >>= fun _ => liftM r >>= fun w => Prog.put (true, ix) (v w)) fun s => f s.1 >>= fun d => r >>= fun w =>
      s.2.set ix (v w) >>= fun t => .ok (d, t) := by
  intro m
  rw [← Sim.seq hp (Sim.lift (r := r) fun w => Sim.second a b ix (v w)) m]
  show Res.bind _ _ = Res.bind (Res.bind _ _) _
  cases f (mk2 a b m).1 <;> rfl

/-- a parallel loop over elements that writes two arrays -/
theorem race_free_two {n : Nat} {P : Nat → Prog (Bool × List Nat) α Unit} {f : Ten α × Ten α → Nat → Res (Ten α × Ten α)} {a b : Ten α} {s : Ten α × Ten α}
    (hs : ∀ e < n, Sim (inBoth a.shape b.shape) (mk2 a.shape b.shape) (P e) fun t => f t e) (hw : ∀ e < n, (P e).Within fun l => l.2.head? = some e)
    (h : forEach (it1 n) f (a, b) = .ok s) : RaceFree (inBoth a.shape b.shape) (both a b) ((it1 n).map P) (both s.1 s.2) := by
  have key : ∀ (l : List Nat) (m : Bool × List Nat → Option α), (∀ i ∈ l, i < n) →
      forEach l f (mk2 a.shape b.shape m) = (forEach l (fun m i => ((P i).exec (inBoth a.shape b.shape) m).bind fun r => .ok r.1) m).bind fun m' =>
        .ok (mk2 a.shape b.shape m') := by
    intro l
    induction l with
    | nil => intro m _; rfl
    | cons i l ih =>
      intro m hl
      simp only [forEach]
      have hi := hs i (hl i (by simp)) m
      beta_reduce at hi
      rw [hi]
      cases (P i).exec (inBoth a.shape b.shape) m with
      | ok r => exact ih r.1 fun j hj => hl j (by simp [hj])
      | throws => rfl
      | ub => rfl
  have h' := key (it1 n) (both a b) fun i hi => by simpa [it1] using hi
  rw [show mk2 a.shape b.shape (both a b) = (a, b) from rfl, h] at h'
  cases hF : forEach (it1 n) (fun m i => ((P i).exec (inBoth a.shape b.shape) m).bind fun r => .ok r.1) (both a b) with
  | ok F =>
    rw [hF] at h'
    injection h' with h'
    subst h'
    have e : both (mk2 a.shape b.shape F).1 (mk2 a.shape b.shape F).2 = F := by
      funext l
      obtain ⟨c, ix⟩ := l
      cases c <;> rfl
    rw [e]
    exact raceFree_of (fun e l => l.2.head? = some e) (List.Perm.refl _) (nodup_it1 n)
      (fun i _ j _ l hi hj => by rw [hi] at hj; exact Option.some.inj hj) (fun e he => hw e (by simpa [it1] using he)) hF
  | throws => rw [hF] at h'; cases h'
  | ub => rw [hF] at h'; cases h'

/-! ### raw pointers -/

/-- the first index of the cell at an offset -/
theorem head_unravel {n : Nat} {sh : List Nat} {e k : Nat} (h1 : e * sizeOf' sh ≤ k) (h2 : k < (e + 1) * sizeOf' sh) :
    (unravel (n :: sh) k).head? = some e := by
  simp only [unravel, List.head?_cons, Option.some.injEq]
  exact Nat.div_eq_of_lt_le h1 h2

/-! ### read-free iterations -/

/-- no reads of the arrays that are written -/
def NoRead : Prog L α β → Prop
  | .ret _ => True
  | .read _ _ => False
  | .write _ _ k => k.NoRead

omit [DecidableEq L] in
theorem NoRead.bind {p : Prog L α β} {f : β → Prog L α γ} (hp : p.NoRead) (hf : ∀ b, (f b).NoRead) : (p.bind f).NoRead := by
  induction p with
  | ret r => cases r with
    | ok b => exact hf b
    | throws => trivial
    | ub => trivial
  | read => exact hp.elim
  | write l a k ih => exact ih hp

omit [DecidableEq L] in
theorem NoRead.lift {r : Res β} {k : β → Prog L α Unit} (h : ∀ b, (k b).NoRead) : (liftM r >>= k : Prog L α Unit).NoRead := by
  cases r with
  | ok b => exact h b
  | throws => trivial
  | ub => trivial

omit [DecidableEq L] in
theorem NoRead.loop {ι : Type} {P : ι → Prog L α Unit} {l : List ι} (h : ∀ i ∈ l, (P i).NoRead) : (loop P l).NoRead := by
  induction l with
  | nil => trivial
  | cons i l ih => exact NoRead.bind (h i (by simp)) fun _ => ih fun j hj => h j (by simp [hj])

omit [DecidableEq L] in
theorem NoRead.ite {c : Prop} [Decidable c] {p q : Prog L α Unit} (hp : p.NoRead) (hq : q.NoRead) : (if c then p else q).NoRead := by
  by_cases hc : c
  · simpa [hc] using hp
  · simpa [hc] using hq

omit [DecidableEq L] in
theorem NoRead.put {l : L} {a : α} : (Prog.put l a).NoRead := trivial

omit [DecidableEq L] in
theorem NoRead.done : (pure () : Prog L α Unit).NoRead := trivial

theorem NoRead.writer {valid : L → Bool} {p : Prog L α β} (hp : p.NoRead) {m : L → Option α} {r} (h : p.exec valid m = .ok r) : p.Writer valid := by
  induction p generalizing m with
  | ret r' => cases r' with
    | ok b => exact ⟨b, rfl⟩
    | throws => cases h
    | ub => cases h
  | read => exact hp.elim
  | write l a k ih =>
    simp only [exec] at h
    split at h
    · exact ⟨by assumption, ih hp h⟩
    · cases h

/-- the iterations of a loop of the model that succeeds, all of which only write -/
theorem writers {ι : Type} {sh : List Nat} {P : ι → Prog (List Nat) α Unit} {f : Ten α → ι → Res (Ten α)} {l : List ι} (hs : ∀ i ∈ l, SimT sh (P i) fun t => f t i)
    (hr : ∀ i ∈ l, (P i).NoRead) {s t : Ten α} (hsh : s.shape = sh) (h : forEach l f s = .ok t) :
    ∀ i ∈ l, (P i).Writer (inb sh) ∧ ∃ s' t', s'.shape = sh ∧ f s' i = .ok t' := by
  induction l generalizing s with
  | nil => simp
  | cons i l ih =>
    simp only [forEach] at h
    obtain ⟨ssh, sv⟩ := s
    subst hsh
    have hi := hs i (by simp) sv
    beta_reduce at hi
    rw [hi] at h
    cases he : (P i).exec (inb ssh) sv with
    | ok r =>
      rw [he] at h hi
      intro j hj
      rcases List.mem_cons.1 hj with rfl | hj
      · exact ⟨(hr j (by simp)).writer he, _, _, rfl, hi⟩
      · exact ih (fun j hj => hs j (by simp [hj])) (fun j hj => hr j (by simp [hj])) (s := ⟨ssh, r.1⟩) rfl h j hj
    | throws => rw [he] at h; cases h
    | ub => rw [he] at h; cases h

end Prog

open Prog

/-- proves that an iteration written access by access does what the body of the loop of the model does -/
macro "sim" : tactic => `(tactic| (intros; repeat' first
  | exact Sim.done _ _ | exact SimT.put _ _ _ | exact SimT.add _ _ _ | exact SimT.addP _ _ _ _ | exact SimT.putP _ _ _ _
  | (refine SimT.fetch ?_; intro) | (refine Sim.lift ?_; intro) | refine Sim.ite ?_ ?_ | (refine Sim.loop ?_; intros) | refine Sim.seq ?_ ?_))

/-- proves that an iteration only touches certain cells -/
macro "within" : tactic => `(tactic| (intros; repeat' first
  | exact Within.done | exact Within.put rfl | exact Within.add rfl | refine Within.put ?_ | refine Within.add ?_ | refine Within.seq ?_ ?_ | (refine Within.fetch rfl ?_; intro)
  | (refine Within.lift ?_; intro _ _) | refine Within.ite ?_ ?_ | (intro; assumption) | (refine within_loop ?_; intros) | intro))

/-- proves that an iteration reads none of the arrays that are written -/
macro "noread" : tactic => `(tactic| (intros; repeat' first
  | exact NoRead.done | exact NoRead.put | (refine NoRead.lift ?_; intro) | refine NoRead.ite ?_ ?_ | (refine NoRead.loop ?_; intros)))

end GF
