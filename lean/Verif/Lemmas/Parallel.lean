import Verif.Spec.Parallel
import Mathlib.Algebra.BigOperators.Fin
import Mathlib.Tactic.Linarith

/-! Race freedom from disjoint footprints. -/

namespace GF
variable {L α β γ : Type} [DecidableEq L]

namespace Prog

/-- sequential execution of one iteration -/
def exec (valid : L → Bool) : Prog L α β → (L → Option α) → Res ((L → Option α) × β)
  | .ret (.ok b), m => .ok (m, b)
  | .ret .throws, _ => .throws
  | .ret .ub, _ => .ub
  | .read l k, m => if valid l then match m l with
      | some a => (k a).exec valid m
      | none => .ub
    else .ub
  | .write l a k, m => if valid l then k.exec valid (Function.update m l (some a)) else .ub

/-- number of accesses -/
def count : Prog L α β → (L → Option α) → Nat
  | .ret _, _ => 0
  | .read l k, m => match m l with
      | some a => (k a).count m + 1
      | none => 0
  | .write l a k, m => k.count (Function.update m l (some a)) + 1

/-- all accesses are to cells of `S` -/
def Within (S : L → Prop) : Prog L α β → Prop
  | .ret _ => True
  | .read l k => S l ∧ ∀ a, (k a).Within S
  | .write l _ k => S l ∧ k.Within S

omit [DecidableEq L] in
theorem within_bind {S : L → Prop} {p : Prog L α β} {f : β → Prog L α γ} (hp : p.Within S) (hf : ∀ b, (f b).Within S) :
    (p.bind f).Within S := by
  induction p with
  | ret r => cases r with
    | ok b => exact hf b
    | throws => trivial
    | ub => trivial
  | read l k ih => exact ⟨hp.1, fun a => ih a (hp.2 a)⟩
  | write l a k ih => exact ⟨hp.1, ih hp.2⟩

omit [DecidableEq L] in
theorem within_loop {S : L → Prop} {ι : Type} {f : ι → Prog L α Unit} {l : List ι} (h : ∀ i ∈ l, (f i).Within S) : (loop f l).Within S := by
  induction l with
  | nil => trivial
  | cons i l ih => exact within_bind (h i (by simp)) fun _ => ih fun j hj => h j (by simp [hj])

theorem exec_bind (valid : L → Bool) (p : Prog L α β) (f : β → Prog L α γ) (m : L → Option α) :
    (p.bind f).exec valid m = (p.exec valid m).bind fun r => (f r.2).exec valid r.1 := by
  induction p generalizing m with
  | ret r => cases r <;> rfl
  | read l k ih =>
    simp only [bind, exec]
    split
    · cases m l with
      | none => rfl
      | some a => exact ih a m
    · rfl
  | write l a k ih =>
    simp only [bind, exec]
    split
    · exact ih _
    · rfl

/-- the outcome depends on, and changes, only the cells of the footprint -/
theorem exec_frame {valid : L → Bool} {S : L → Prop} {p : Prog L α β} (hp : p.Within S) {m m' m1 : L → Option α} {b : β}
    (h : ∀ l, S l → m' l = m l) (he : p.exec valid m = .ok (m1, b)) :
    ∃ m1', p.exec valid m' = .ok (m1', b) ∧ (∀ l, S l → m1' l = m1 l) ∧ (∀ l, ¬ S l → m1' l = m' l) ∧ p.count m' = p.count m := by
  induction p generalizing m m' with
  | ret r =>
    cases r with
    | ok b' =>
      have he' : Res.ok (m, b') = Res.ok (m1, b) := he
      injection he' with he'
      obtain ⟨rfl, rfl⟩ := Prod.mk.inj he'
      exact ⟨m', rfl, h, fun _ _ => rfl, rfl⟩
    | throws => cases he
    | ub => cases he
  | read l k ih =>
    simp only [exec] at he ⊢
    by_cases hv : valid l = true
    · rw [if_pos hv] at he
      cases hm : m l with
      | none => rw [hm] at he; cases he
      | some a =>
        rw [hm] at he
        obtain ⟨m1', h1, h2, h3, h4⟩ := ih a (hp.2 a) h he
        have hm' : m' l = some a := (h l hp.1).trans hm
        refine ⟨m1', ?_, h2, h3, ?_⟩
        · rw [if_pos hv, hm']; exact h1
        · simp only [count, hm, hm', h4]
    · rw [if_neg hv] at he; cases he
  | write l a k ih =>
    simp only [exec] at he ⊢
    by_cases hv : valid l = true
    · rw [if_pos hv] at he
      obtain ⟨m1', h1, h2, h3, h4⟩ := ih hp.2 (m' := Function.update m' l (some a)) (fun l' hl' => by
        by_cases e : l' = l
        · subst e; simp
        · rw [Function.update_of_ne e, Function.update_of_ne e, h l' hl']) he
      refine ⟨m1', ?_, h2, fun l' hl' => ?_, ?_⟩
      · rw [if_pos hv]; exact h1
      · rw [h3 l' hl', Function.update_of_ne]
        rintro rfl
        exact hl' hp.1
      · simp only [count, h4]
    · rw [if_neg hv] at he; cases he

theorem exec_outside {valid : L → Bool} {S : L → Prop} {p : Prog L α β} (hp : p.Within S) {m m1 : L → Option α} {b : β}
    (he : p.exec valid m = .ok (m1, b)) (l : L) (hl : ¬ S l) : m1 l = m l := by
  obtain ⟨m', h1, -, h3, -⟩ := exec_frame hp (m' := m) (fun _ _ => rfl) he
  rw [h1] at he
  injection he with he
  rw [← (Prod.mk.inj he).1, h3 l hl]

end Prog

/-- what remains to be done, for an interleaving that has reached the memory `m`; `F` is the memory at the end -/
structure Remains (valid : L → Bool) (F : L → Option α) (S : Nat → L → Prop) (c : Config L α) : Prop where
  within : ∀ (i : Nat) (p : Prog L α Unit), c.threads[i]? = some p → p.Within (S i)
  exec : ∀ (i : Nat) (p : Prog L α Unit), c.threads[i]? = some p → ∃ m1, p.exec valid c.mem = .ok (m1, ()) ∧ ∀ l, S i l → m1 l = F l
  rest : ∀ l, (∀ i, i < c.threads.length → ¬ S i l) → c.mem l = F l

/-- number of accesses that remain -/
def Config.left (c : Config L α) : Nat := (c.threads.map fun p => p.count c.mem).sum

theorem sum_set {A : Type} (f g : A → Nat) : ∀ (ts : List A) (i : Nat) (p q : A), ts[i]? = some p → (∀ j r, j ≠ i → ts[j]? = some r → g r = f r) →
    f p = g q + 1 → (ts.map f).sum = ((ts.set i q).map g).sum + 1
  | [], i, p, q, h, _, _ => by simp at h
  | t :: ts, 0, p, q, h, hj, e => by
    simp only [List.getElem?_cons_zero, Option.some.injEq] at h
    subst h
    have : ts.map g = ts.map f := List.map_congr_left fun r hr => by
      obtain ⟨j, hj'⟩ := List.getElem?_of_mem hr
      exact hj (j + 1) r (by omega) hj'
    simp only [List.set_cons_zero, List.map_cons, List.sum_cons, e, this]
    omega
  | t :: ts, i + 1, p, q, h, hj, e => by
    have ih := sum_set f g ts i p q h (fun j r hne hr => hj (j + 1) r (by omega) hr) e
    have h0 := hj 0 t (by omega) rfl
    simp only [List.set_cons_succ, List.map_cons, List.sum_cons, ih, h0]
    omega

theorem Remains.step {valid : L → Bool} {F : L → Option α} {S : Nat → L → Prop} (hS : ∀ i j l, S i l → S j l → i = j) {c c' : Config L α}
    (h : Remains valid F S c) (hc : Access valid c c') : Remains valid F S c' ∧ c.left = c'.left + 1 := by
  cases hc with
  | @read m ts i l k a hi hv hm =>
    have hlt : i < ts.length := (List.getElem?_eq_some_iff.1 hi).1
    have w := h.within i _ hi
    refine ⟨⟨fun j p hj => ?_, fun j p hj => ?_, fun l' hl' => h.rest l' (by simpa using hl')⟩, ?_⟩
    · rw [List.getElem?_set] at hj
      split at hj
      · next e =>
        subst e
        injection hj with hj
        subst hj
        exact w.2 a
      · exact h.within j p hj
    · rw [List.getElem?_set] at hj
      split at hj
      · next e =>
        subst e
        injection hj with hj
        subst hj
        obtain ⟨m1, e1, e2⟩ := h.exec i _ hi
        simp only [Prog.exec, hv, hm, if_true] at e1
        exact ⟨m1, e1, e2⟩
      · exact h.exec j p hj
    · refine sum_set _ _ ts i _ _ hi (fun j r _ _ => rfl) ?_
      simp only [Prog.count, hm]
  | @write m ts i l a k hi hv =>
    have hlt : i < ts.length := (List.getElem?_eq_some_iff.1 hi).1
    have w := h.within i _ hi
    have agree : ∀ j, j ≠ i → ∀ l', S j l' → Function.update m l (some a) l' = m l' := by
      intro j hj l' hl'
      rw [Function.update_of_ne]
      rintro rfl
      exact hj (hS j i _ hl' w.1)
    have frame : ∀ j, j ≠ i → ∀ p, ts[j]? = some p → ∃ m1, p.exec valid (Function.update m l (some a)) = .ok (m1, ()) ∧ (∀ l', S j l' → m1 l' = F l') ∧
        p.count (Function.update m l (some a)) = p.count m := by
      intro j hj p hp
      obtain ⟨m1, e1, e2⟩ := h.exec j p hp
      obtain ⟨m1', f1, f2, f3, f4⟩ := Prog.exec_frame (h.within j p hp) (agree j hj) e1
      exact ⟨m1', f1, fun l' hl' => (f2 l' hl').trans (e2 l' hl'), f4⟩
    refine ⟨⟨fun j p hj => ?_, fun j p hj => ?_, fun l' hl' => ?_⟩, ?_⟩
    · rw [List.getElem?_set] at hj
      split at hj
      · next e =>
        subst e
        injection hj with hj
        subst hj
        exact w.2
      · exact h.within j p hj
    · rw [List.getElem?_set] at hj
      split at hj
      · next e =>
        subst e
        injection hj with hj
        subst hj
        obtain ⟨m1, e1, e2⟩ := h.exec i _ hi
        simp only [Prog.exec, hv, if_true] at e1
        exact ⟨m1, e1, e2⟩
      · next e =>
        obtain ⟨m1, f1, f2, -⟩ := frame j (fun e' => e e'.symm) p hj
        exact ⟨m1, f1, f2⟩
    · have hl'' : ∀ i, i < ts.length → ¬ S i l' := by simpa using hl'
      rw [← h.rest l' hl'']
      change Function.update m l (some a) l' = m l'
      rw [Function.update_of_ne]
      rintro rfl
      exact hl'' i hlt w.1
    · refine sum_set _ _ ts i _ _ hi (fun j r hj hr => ?_) ?_
      · obtain ⟨-, -, -, f⟩ := frame j hj r hr
        exact f
      · simp only [Prog.count]

theorem Remains.steps {valid : L → Bool} {F : L → Option α} {S : Nat → L → Prop} (hS : ∀ i j l, S i l → S j l → i = j) {c c' : Config L α} {n : Nat}
    (h : Remains valid F S c) (hc : Accesses valid n c c') : Remains valid F S c' ∧ c.left = c'.left + n := by
  induction hc with
  | none => exact ⟨h, rfl⟩
  | more _ h2 ih =>
    obtain ⟨i1, i2⟩ := ih h
    obtain ⟨j1, j2⟩ := i1.step hS h2
    exact ⟨j1, by omega⟩

theorem Remains.raceFree {valid : L → Bool} {F : L → Option α} {S : Nat → L → Prop} (hS : ∀ i j l, S i l → S j l → i = j) {c : Config L α}
    (h : Remains valid F S c) : RaceFree valid c.mem c.threads F := by
  refine ⟨fun n c' hc => ?_, c.left, fun n c' hc => ?_⟩
  · obtain ⟨h', -⟩ := h.steps hS hc
    have nw : ¬ c'.Wrong valid := by
      rintro ⟨p, hp, hw⟩
      obtain ⟨i, hi⟩ := List.getElem?_of_mem hp
      obtain ⟨m1, e1, -⟩ := h'.exec i p hi
      cases p with
      | ret r => cases r with
        | ok b => exact hw rfl
        | throws => cases e1
        | ub => cases e1
      | read l k =>
        simp only [Prog.exec] at e1
        rcases hw with hw | hw
        · simp [hw] at e1
        · rw [hw] at e1
          split at e1 <;> cases e1
      | write l a k =>
        have hw' : valid l = false := hw
        simp [Prog.exec, hw'] at e1
    refine ⟨?_, nw, fun hd => ?_, fun hd => ?_⟩
    · rintro ⟨i, j, p, q, l, hij, hp, hq, np, nq, -⟩
      have w1 := h'.within i p hp
      have w2 := h'.within j q hq
      have f : ∀ {i : Nat} {p : Prog L α Unit}, p.Within (S i) → p.next = some l → S i l := by
        intro i p hp hn
        cases p with
        | ret r => cases hn
        | read l' k => injection hn with hn; subst hn; exact hp.1
        | write l' a k => injection hn with hn; subst hn; exact hp.1
      exact hij (hS i j l (f w1 np) (f w2 nq))
    · funext l
      by_cases hl : ∃ i, i < c'.threads.length ∧ S i l
      · obtain ⟨i, hi, hl⟩ := hl
        obtain ⟨m1, e1, e2⟩ := h'.exec i _ (List.getElem?_eq_getElem hi)
        rw [hd _ (List.getElem_mem hi)] at e1
        have e1' : Res.ok (c'.mem, ()) = Res.ok (m1, ()) := e1
        injection e1' with e1'
        rw [(Prod.mk.inj e1').1, e2 l hl]
      · exact h'.rest l fun i hi hs => hl ⟨i, hi, hs⟩
    · obtain ⟨p, hp, hne⟩ : ∃ p ∈ c'.threads, p ≠ .ret (.ok ()) := by
        by_contra hcon
        exact hd fun p hp => by_contra fun hne => hcon ⟨p, hp, hne⟩
      obtain ⟨i, hi⟩ := List.getElem?_of_mem hp
      have nw' : ∀ q ∈ c'.threads, _ := fun q hq hw => nw ⟨q, hq, hw⟩
      have := nw' p hp
      cases p with
      | ret r =>
        refine absurd (fun e => hne ?_) this
        exact congrArg _ e
      | read l k =>
        have hv : valid l = true := by
          cases hh : valid l with
          | true => rfl
          | false => exact absurd (Or.inl hh) this
        cases hm : c'.mem l with
        | none => exact absurd (Or.inr hm) this
        | some a => exact ⟨_, Access.read (m := c'.mem) (ts := c'.threads) hi hv hm⟩
      | write l a k =>
        have hv : valid l = true := by
          cases hh : valid l with
          | true => rfl
          | false => exact absurd hh this
        exact ⟨_, Access.write (m := c'.mem) (ts := c'.threads) hi hv⟩
  · obtain ⟨-, e⟩ := h.steps hS hc
    omega

/-- sequential execution, in any order, gives what every interleaving gives -/
theorem seq_exec {valid : L → Bool} {ι : Type} {prog : ι → Prog L α Unit} {S : ι → L → Prop} {F : L → Option α} :
    ∀ {o : List ι} {m : L → Option α}, o.Nodup → (∀ i ∈ o, ∀ j ∈ o, ∀ l, S i l → S j l → i = j) → (∀ i ∈ o, (prog i).Within (S i)) →
    forEach o (fun m i => ((prog i).exec valid m).bind fun r => .ok r.1) m = .ok F →
    (∀ i ∈ o, ∃ m1, (prog i).exec valid m = .ok (m1, ()) ∧ ∀ l, S i l → m1 l = F l) ∧ ∀ l, (∀ i ∈ o, ¬ S i l) → m l = F l
  | [], m, _, _, _, h => by
    injection h with h
    subst h
    exact ⟨by simp, fun _ _ => rfl⟩
  | i :: o, m, hn, hS, hw, h => by
    rw [List.nodup_cons] at hn
    unfold forEach at h
    dsimp only at h
    cases he : (prog i).exec valid m with
    | throws => rw [he] at h; cases h
    | ub => rw [he] at h; cases h
    | ok r =>
      rw [he] at h
      obtain ⟨m1, ⟨⟩⟩ := r
      have h' : forEach o (fun m i => ((prog i).exec valid m).bind fun r => .ok r.1) m1 = .ok F := h
      obtain ⟨h1, h2⟩ := seq_exec hn.2 (fun a ha b hb => hS a (by simp [ha]) b (by simp [hb])) (fun a ha => hw a (by simp [ha])) h'
      have out := Prog.exec_outside (hw i (by simp)) he
      refine ⟨fun j hj => ?_, fun l hl => ?_⟩
      · rcases List.mem_cons.1 hj with rfl | hj
        · refine ⟨m1, he, fun l hl => h2 l fun a ha hs => ?_⟩
          exact hn.1 (hS j (by simp) a (by simp [ha]) l hl hs ▸ ha)
        · obtain ⟨m2, e1, e2⟩ := h1 j hj
          obtain ⟨m2', f1, f2, -⟩ := Prog.exec_frame (hw j (by simp [hj])) (m' := m) (fun l hl => (out l fun hs => by
            have := hS j (by simp [hj]) i (by simp) l hl hs
            exact hn.1 (this ▸ hj)).symm) e1
          exact ⟨m2', f1, fun l hl => (f2 l hl).trans (e2 l hl)⟩
      · rw [← h2 l fun a ha => hl a (by simp [ha])]
        exact (out l (hl i (by simp))).symm

/-- disjoint footprints: no data race, and every interleaving gives what the sequential execution (in any order) gives -/
theorem raceFree_of {valid : L → Bool} {ι : Type} {prog : ι → Prog L α Unit} (S : ι → L → Prop) {m F : L → Option α} {o its : List ι}
    (hp : o.Perm its) (hn : its.Nodup) (hS : ∀ i ∈ its, ∀ j ∈ its, ∀ l, S i l → S j l → i = j) (hw : ∀ i ∈ its, (prog i).Within (S i))
    (h : forEach o (fun m i => ((prog i).exec valid m).bind fun r => .ok r.1) m = .ok F) : RaceFree valid m (its.map prog) F := by
  obtain ⟨h1, h2⟩ := seq_exec (hp.nodup_iff.2 hn) (fun i hi j hj => hS i (hp.mem_iff.1 hi) j (hp.mem_iff.1 hj)) (fun i hi => hw i (hp.mem_iff.1 hi)) h
  have key : ∀ (i : Nat) p, (its.map prog)[i]? = some p → ∃ a, its[i]? = some a ∧ prog a = p := by
    intro i p hi
    rw [List.getElem?_map] at hi
    exact Option.map_eq_some_iff.1 hi
  refine Remains.raceFree (S := fun (i : Nat) l => ∃ a, its[i]? = some a ∧ S a l) ?_ (c := ⟨m, its.map prog⟩) ⟨fun i p hi => ?_, fun i p hi => ?_, fun l hl => ?_⟩
  · rintro i j l ⟨a, ha, sa⟩ ⟨b, hb, sb⟩
    have := hS a (List.mem_of_getElem? ha) b (List.mem_of_getElem? hb) l sa sb
    subst this
    obtain ⟨hi, ei⟩ := List.getElem?_eq_some_iff.1 ha
    obtain ⟨hj, ej⟩ := List.getElem?_eq_some_iff.1 hb
    exact (List.Nodup.getElem_inj_iff hn).1 (ei.trans ej.symm)
  · obtain ⟨a, ha, rfl⟩ := key i p hi
    have := hw a (List.mem_of_getElem? ha)
    have mono : ∀ {p : Prog L α Unit} {S S' : L → Prop}, (∀ l, S l → S' l) → p.Within S → p.Within S' := by
      intro p S S' hss
      induction p with
      | ret r => exact fun _ => trivial
      | read l k ih => exact fun h => ⟨hss _ h.1, fun a => ih a (h.2 a)⟩
      | write l a k ih => exact fun h => ⟨hss _ h.1, ih h.2⟩
    exact mono (fun l hl => ⟨a, ha, hl⟩) this
  · obtain ⟨a, ha, rfl⟩ := key i p hi
    obtain ⟨m1, e1, e2⟩ := h1 a (hp.mem_iff.2 (List.mem_of_getElem? ha))
    refine ⟨m1, e1, ?_⟩
    rintro l ⟨b, hb, hl⟩
    rw [ha] at hb
    injection hb with hb
    subst hb
    exact e2 l hl
  · refine h2 l fun a ha hs => ?_
    obtain ⟨i, hi⟩ := List.getElem?_of_mem (hp.mem_iff.1 ha)
    refine hl i ?_ ⟨a, hi, hs⟩
    have := (List.getElem?_eq_some_iff.1 hi).1
    simpa using this

end GF
