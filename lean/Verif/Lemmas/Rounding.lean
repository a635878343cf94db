import Verif.Spec.Rounding
import Verif.Base
import Mathlib.Algebra.BigOperators.Group.Finset.Basic
import Mathlib.Data.Finset.Lattice.Fold

/-! Error analysis by a second run of the same program: next to the rounded program we run it on `Bound`s, that carry the
exact result, a bound of its size, and the number of roundings that it may have accumulated. -/

namespace GF
open Finset

/-- exact value, size (the value with all terms replaced by their absolute values), number of summands and number of
roundings of each summand -/
@[ext] structure Bound (α : Type) where
  exact : α
  size : α
  terms : Nat
  depth : Nat

namespace Bound
variable {α : Type} [Field α] [LinearOrder α] [IsStrictOrderedRing α]

/-- the number of successive roundings -/
def roundings (b : Bound α) : Nat := b.terms - 1 + b.depth

instance : Add (Bound α) :=
  ⟨fun a b => ⟨a.exact + b.exact, a.size + b.size, a.terms + b.terms, max a.depth b.depth⟩⟩
instance : Zero (Bound α) := ⟨⟨0, 0, 0, 0⟩⟩

instance : AddCommMonoid (Bound α) where
  add_assoc a b c := Bound.ext (add_assoc _ _ _) (add_assoc _ _ _) (add_assoc _ _ _) (max_assoc _ _ _)
  zero_add a := Bound.ext (zero_add _) (zero_add _) (zero_add _) (Nat.zero_max _)
  add_zero a := Bound.ext (add_zero _) (add_zero _) (add_zero _) (Nat.max_zero _)
  add_comm a b := Bound.ext (add_comm _ _) (add_comm _ _) (add_comm _ _) (max_comm _ _)
  nsmul := nsmulRec

instance : One (Bound α) := ⟨⟨1, 1, 1, 0⟩⟩
instance : NatCast (Bound α) := ⟨fun n => ⟨n, n, 1, 1⟩⟩
instance : Mul (Bound α) := ⟨fun a b => ⟨a.exact * b.exact, a.size * b.size, 1, a.roundings + b.roundings + 1⟩⟩
instance : Div (Bound α) := ⟨fun a b => ⟨a.exact / b.exact, a.size / |b.exact|, 1, a.roundings + 1⟩⟩
instance : Sub (Bound α) := ⟨fun a b => ⟨a.exact - b.exact, a.size + b.size, 1, max a.roundings b.roundings + 1⟩⟩
instance : Neg (Bound α) := ⟨fun a => ⟨-a.exact, a.size, 1, a.roundings + 1⟩⟩

@[simp] theorem zero_exact : (0 : Bound α).exact = 0 := rfl
@[simp] theorem zero_size : (0 : Bound α).size = 0 := rfl
@[simp] theorem zero_terms : (0 : Bound α).terms = 0 := rfl
@[simp] theorem zero_depth : (0 : Bound α).depth = 0 := rfl
@[simp] theorem add_exact (a b : Bound α) : (a + b).exact = a.exact + b.exact := rfl
@[simp] theorem add_size (a b : Bound α) : (a + b).size = a.size + b.size := rfl
@[simp] theorem add_terms (a b : Bound α) : (a + b).terms = a.terms + b.terms := rfl
@[simp] theorem add_depth (a b : Bound α) : (a + b).depth = max a.depth b.depth := rfl
@[simp] theorem mul_exact (a b : Bound α) : (a * b).exact = a.exact * b.exact := rfl
@[simp] theorem mul_size (a b : Bound α) : (a * b).size = a.size * b.size := rfl
@[simp] theorem mul_terms (a b : Bound α) : (a * b).terms = 1 := rfl
@[simp] theorem mul_depth (a b : Bound α) : (a * b).depth = a.roundings + b.roundings + 1 := rfl
@[simp] theorem div_exact (a b : Bound α) : (a / b).exact = a.exact / b.exact := rfl
@[simp] theorem div_size (a b : Bound α) : (a / b).size = a.size / |b.exact| := rfl
@[simp] theorem div_terms (a b : Bound α) : (a / b).terms = 1 := rfl
@[simp] theorem div_depth (a b : Bound α) : (a / b).depth = a.roundings + 1 := rfl
@[simp] theorem one_exact : (1 : Bound α).exact = 1 := rfl
@[simp] theorem one_size : (1 : Bound α).size = 1 := rfl
@[simp] theorem one_terms : (1 : Bound α).terms = 1 := rfl
@[simp] theorem one_depth : (1 : Bound α).depth = 0 := rfl
@[simp] theorem two_exact : (2 : Bound α).exact = 2 := by
  change ((2 : ℕ) : α) = 2
  norm_num

theorem sum_exact {ι : Type*} (s : Finset ι) (f : ι → Bound α) : (∑ i ∈ s, f i).exact = ∑ i ∈ s, (f i).exact :=
  map_sum (⟨⟨Bound.exact, rfl⟩, fun _ _ => rfl⟩ : Bound α →+ α) f s

theorem sum_size {ι : Type*} (s : Finset ι) (f : ι → Bound α) : (∑ i ∈ s, f i).size = ∑ i ∈ s, (f i).size :=
  map_sum (⟨⟨Bound.size, rfl⟩, fun _ _ => rfl⟩ : Bound α →+ α) f s

theorem sum_terms {ι : Type*} (s : Finset ι) (f : ι → Bound α) : (∑ i ∈ s, f i).terms = ∑ i ∈ s, (f i).terms :=
  map_sum (⟨⟨Bound.terms, rfl⟩, fun _ _ => rfl⟩ : Bound α →+ Nat) f s

theorem sum_depth {ι : Type*} {s : Finset ι} {f : ι → Bound α} {d : Nat} (h : ∀ i ∈ s, (f i).depth ≤ d) :
    (∑ i ∈ s, f i).depth ≤ d := by
  classical
  induction s using Finset.induction_on with
  | empty => simp
  | insert a s ha ih =>
    rw [Finset.sum_insert ha, add_depth]
    exact max_le (h a (by simp)) (ih fun i hi => h i (by simp [hi]))

/-- an exactly known number -/
def of (x : α) : Bound α := ⟨x, |x|, 1, 0⟩

@[simp] theorem of_exact (x : α) : (of x).exact = x := rfl
@[simp] theorem of_size (x : α) : (of x).size = |x| := rfl
@[simp] theorem of_terms (x : α) : (of x).terms = 1 := rfl
@[simp] theorem of_depth (x : α) : (of x).depth = 0 := rfl

end Bound

variable {α : Type} [Field α] [LinearOrder α] [IsStrictOrderedRing α] {r : Rounding α}

theorem Rounding.acc_mono (r : Rounding α) {n m : Nat} (h : n ≤ m) : r.acc n ≤ r.acc m :=
  sub_le_sub_right (pow_le_pow_right₀ (by have := r.u_nonneg; linarith) h) 1

theorem Rounding.acc_nonneg (r : Rounding α) (n : Nat) : 0 ≤ r.acc n := by
  have := r.acc_mono (Nat.zero_le n)
  simpa [Rounding.acc] using this

/-- one more rounding -/
theorem Rounding.step (r : Rounding α) {z x m : α} {n : Nat} (hx : |x| ≤ m) (h : |z - x| ≤ r.acc n * m) :
    |r.fl z - x| ≤ r.acc (n + 1) * m := by
  have hz : |z| ≤ (r.acc n + 1) * m := by
    calc |z| = |(z - x) + x| := by ring_nf
      _ ≤ |z - x| + |x| := abs_add_le _ _
      _ ≤ _ := by linarith
  calc |r.fl z - x| = |(r.fl z - z) + (z - x)| := by ring_nf
    _ ≤ |r.fl z - z| + |z - x| := abs_add_le _ _
    _ ≤ r.u * |z| + |z - x| := by linarith [r.err z]
    _ ≤ r.u * ((r.acc n + 1) * m) + r.acc n * m := add_le_add (mul_le_mul_of_nonneg_left hz r.u_nonneg) h
    _ = r.acc (n + 1) * m := by simp only [Rounding.acc]; ring

/-- the rounded number `x` is within the accumulated error of the bound `b` -/
structure Rounds (r : Rounding α) (x : r.Num) (b : Bound α) : Prop where
  size : |b.exact| ≤ b.size
  err : |x.val - b.exact| ≤ r.acc b.roundings * b.size
  none : b.terms = 0 → x.val = 0 ∧ b.exact = 0

namespace Rounds
variable {x y : r.Num} {a b : Bound α}

theorem size_nonneg (h : Rounds r x a) : 0 ≤ a.size := (abs_nonneg _).trans h.size

theorem of (x : r.Num) : Rounds r x (Bound.of x.val) :=
  ⟨le_rfl, by simp [Bound.roundings, Rounding.acc], by simp⟩

theorem zero : Rounds r 0 0 := ⟨by simp, by simp [Bound.roundings, Rounding.acc]; rfl, fun _ => ⟨rfl, rfl⟩⟩

theorem one : Rounds r 1 1 := ⟨by simp, by
  have : (1 : r.Num).val = 1 := rfl
  simp [this, Bound.roundings, Rounding.acc], by simp⟩

theorem mono (h : Rounds r x a) {n : Nat} (hn : a.roundings ≤ n) : |x.val - a.exact| ≤ r.acc n * a.size :=
  h.err.trans (mul_le_mul_of_nonneg_right (r.acc_mono hn) h.size_nonneg)

theorem add (hx : Rounds r x a) (hy : Rounds r y b) : Rounds r (x + y) (a + b) := by
  have hs : |(a + b).exact| ≤ (a + b).size := (abs_add_le _ _).trans (add_le_add hx.size hy.size)
  have hv : (x + y).val = r.fl (x.val + y.val) := rfl
  rcases Nat.eq_zero_or_pos a.terms with ha | ha
  · obtain ⟨h1, h2⟩ := hx.none ha
    refine ⟨hs, ?_, fun h => ?_⟩
    · rw [hv, h1, zero_add, y.rep, Bound.add_exact, h2, zero_add]
      refine (hy.mono (n := (a + b).roundings) ?_).trans ?_
      · simp only [Bound.roundings, Bound.add_terms, Bound.add_depth, ha, zero_add]
        omega
      · exact mul_le_mul_of_nonneg_left (by rw [Bound.add_size]; linarith [hx.size_nonneg]) (r.acc_nonneg _)
    · simp only [Bound.add_terms] at h
      obtain ⟨h3, h4⟩ := hy.none (by omega)
      rw [hv, h1, h3, Bound.add_exact, h2, h4, add_zero]
      exact ⟨r.zero, rfl⟩
  rcases Nat.eq_zero_or_pos b.terms with hb | hb
  · obtain ⟨h1, h2⟩ := hy.none hb
    refine ⟨hs, ?_, fun h => ?_⟩
    · rw [hv, h1, add_zero, x.rep, Bound.add_exact, h2, add_zero]
      refine (hx.mono (n := (a + b).roundings) ?_).trans ?_
      · simp only [Bound.roundings, Bound.add_terms, Bound.add_depth, hb, add_zero]
        omega
      · exact mul_le_mul_of_nonneg_left (by rw [Bound.add_size]; linarith [hy.size_nonneg]) (r.acc_nonneg _)
    · simp only [Bound.add_terms] at h
      omega
  · refine ⟨hs, ?_, fun h => by simp only [Bound.add_terms] at h; omega⟩
    have h1 : |x.val + y.val - (a + b).exact| ≤ r.acc (max a.roundings b.roundings) * (a + b).size := by
      calc |x.val + y.val - (a + b).exact| = |(x.val - a.exact) + (y.val - b.exact)| := by
            rw [Bound.add_exact]; ring_nf
        _ ≤ |x.val - a.exact| + |y.val - b.exact| := abs_add_le _ _
        _ ≤ r.acc (max a.roundings b.roundings) * a.size + r.acc (max a.roundings b.roundings) * b.size :=
            add_le_add (hx.mono (le_max_left _ _)) (hy.mono (le_max_right _ _))
        _ = _ := by rw [Bound.add_size]; ring
    refine (r.step hs h1).trans (mul_le_mul_of_nonneg_right (r.acc_mono ?_) ((abs_nonneg _).trans hs))
    simp only [Bound.roundings, Bound.add_terms, Bound.add_depth]
    omega

theorem mul (hx : Rounds r x a) (hy : Rounds r y b) : Rounds r (x * y) (a * b) := by
  have hs : |(a * b).exact| ≤ (a * b).size := by
    rw [Bound.mul_exact, abs_mul]
    exact mul_le_mul hx.size hy.size (abs_nonneg _) hx.size_nonneg
  refine ⟨hs, ?_, by simp⟩
  have hxv : |x.val| ≤ (r.acc a.roundings + 1) * a.size := by
    calc |x.val| = |(x.val - a.exact) + a.exact| := by ring_nf
      _ ≤ |x.val - a.exact| + |a.exact| := abs_add_le _ _
      _ ≤ _ := by linarith [hx.err, hx.size]
  have h1 : |x.val * y.val - (a * b).exact| ≤ r.acc (a.roundings + b.roundings) * (a * b).size := by
    calc |x.val * y.val - (a * b).exact| = |x.val * (y.val - b.exact) + (x.val - a.exact) * b.exact| := by
          rw [Bound.mul_exact]; ring_nf
      _ ≤ |x.val| * |y.val - b.exact| + |x.val - a.exact| * |b.exact| := by
          rw [← abs_mul, ← abs_mul]; exact abs_add_le _ _
      _ ≤ (r.acc a.roundings + 1) * a.size * (r.acc b.roundings * b.size) + r.acc a.roundings * a.size * b.size :=
          add_le_add (mul_le_mul hxv hy.err (abs_nonneg _)
            (mul_nonneg (by linarith [r.acc_nonneg a.roundings]) hx.size_nonneg))
            (mul_le_mul hx.err hy.size (abs_nonneg _) (mul_nonneg (r.acc_nonneg _) hx.size_nonneg))
      _ = _ := by rw [Bound.mul_size]; simp only [Rounding.acc, pow_add]; ring
  refine (r.step hs h1).trans (mul_le_mul_of_nonneg_right (r.acc_mono ?_) ((abs_nonneg _).trans hs))
  simp only [Bound.roundings, Bound.mul_terms, Bound.mul_depth]
  omega

/-- division by an exactly stored number -/
theorem div (hx : Rounds r x a) (hy : y.val = b.exact) : Rounds r (x / y) (a / b) := by
  have hs : |(a / b).exact| ≤ (a / b).size := by
    rw [Bound.div_exact, abs_div]
    exact div_le_div_of_nonneg_right hx.size (abs_nonneg _)
  refine ⟨hs, ?_, by simp⟩
  have h1 : |x.val / y.val - (a / b).exact| ≤ r.acc a.roundings * (a / b).size := by
    rw [Bound.div_exact, hy, ← sub_div, abs_div, Bound.div_size, ← mul_div_assoc]
    exact div_le_div_of_nonneg_right hx.err (abs_nonneg _)
  refine (r.step hs h1).trans (mul_le_mul_of_nonneg_right (r.acc_mono ?_) ((abs_nonneg _).trans hs))
  simp only [Bound.roundings, Bound.div_terms, Bound.div_depth]
  omega

theorem two_val : (2 : r.Num).val = 2 := by
  change r.fl ((2 : ℕ) : α) = 2
  rw [Nat.cast_ofNat, r.two]

theorem half : Rounds r (1 / 2) (1 / 2) := one.div (by rw [two_val, Bound.two_exact])

end Rounds

/-! ### two runs of the same program -/

section sim
variable {A B C D ι : Type} {R : A → B → Prop} {P : C → D → Prop}

/-- if the second run completes so does the first, with related results -/
def Sim (P : C → D → Prop) (x : Res C) (y : Res D) : Prop := ∀ d, y = .ok d → ∃ c, x = .ok c ∧ P c d

/-- arrays of the same shape with related entries -/
def TenSim (R : A → B → Prop) (s : Ten A) (t : Ten B) : Prop :=
  s.shape = t.shape ∧ ∀ p b, t.v p = some b → ∃ a, s.v p = some a ∧ R a b

theorem Sim.ok {c : C} {d : D} (h : P c d) : Sim P (.ok c) (.ok d) := by
  intro d' hd
  cases hd
  exact ⟨c, rfl, h⟩

theorem Sim.throws : Sim P .throws .throws := by
  intro d hd
  cases hd

theorem Sim.ub : Sim P .ub .ub := by
  intro d hd
  cases hd

theorem Sim.bind {E F : Type} {P' : E → F → Prop} {x : Res C} {y : Res D} {f : C → Res E} {g : D → Res F}
    (h : Sim P x y) (h' : ∀ c d, P c d → Sim P' (f c) (g d)) : Sim P' (x >>= f) (y >>= g) := by
  intro d' hd
  cases y with
  | ok d =>
    obtain ⟨c, rfl, hp⟩ := h d rfl
    exact h' c d hp d' hd
  | throws => cases hd
  | ub => cases hd

theorem Sim.same {E F : Type} {P' : E → F → Prop} {x : Res C} {f : C → Res E} {g : C → Res F}
    (h' : ∀ c, Sim P' (f c) (g c)) : Sim P' (x >>= f) (x >>= g) := by
  intro d' hd
  cases x with
  | ok d => exact h' d d' hd
  | throws => cases hd
  | ub => cases hd

theorem Sim.forEach {l : List ι} {f : C → ι → Res C} {g : D → ι → Res D}
    (h : ∀ i ∈ l, ∀ c d, P c d → Sim P (f c i) (g d i)) : ∀ {c d}, P c d → Sim P (forEach l f c) (forEach l g d) := by
  induction l with
  | nil => intro c d h; exact Sim.ok h
  | cons i l ih =>
    intro c d hcd
    exact Sim.bind (h i (by simp) c d hcd) fun c' d' h' => ih (fun i hi => h i (by simp [hi])) h'

theorem Sim.mono {P' : C → D → Prop} {x : Res C} {y : Res D} (h : Sim P x y) (h' : ∀ c d, P c d → P' c d) : Sim P' x y :=
  fun d hd => (h d hd).imp fun c hc => ⟨hc.1, h' c d hc.2⟩

namespace TenSim
variable {s : Ten A} {t : Ten B}

theorem get (h : TenSim R s t) (p : List Nat) : Sim R (s.get p) (t.get p) := by
  unfold Ten.get
  rw [h.1]
  by_cases hp : inb t.shape p = true
  · rw [if_pos hp, if_pos hp]
    cases hb : t.v p with
    | none => exact fun d hd => nomatch hd
    | some b =>
      obtain ⟨a, ha, hr⟩ := h.2 p b hb
      rw [ha]
      exact Sim.ok hr
  · rw [if_neg hp, if_neg hp]
    exact Sim.ub

theorem set (h : TenSim R s t) (p : List Nat) {a : A} {b : B} (hab : R a b) :
    Sim (TenSim R) (s.set p a) (t.set p b) := by
  unfold Ten.set
  rw [h.1]
  by_cases hp : inb t.shape p = true
  · rw [if_pos hp, if_pos hp]
    refine Sim.ok ⟨rfl, fun q b' hb' => ?_⟩
    by_cases hq : q = p
    · subst hq
      dsimp only at hb' ⊢
      rw [Function.update_self] at hb' ⊢
      cases hb'
      exact ⟨a, rfl, hab⟩
    · dsimp only at hb' ⊢
      rw [Function.update_of_ne hq] at hb' ⊢
      exact h.2 q b' hb'
  · rw [if_neg hp, if_neg hp]
    exact Sim.ub

theorem addAt [Add A] [Add B] (hadd : ∀ a b a' b', R a b → R a' b' → R (a + a') (b + b')) (h : TenSim R s t)
    (p : List Nat) {a : A} {b : B} (hab : R a b) : Sim (TenSim R) (s.addAt p a) (t.addAt p b) :=
  Sim.bind (h.get p) fun _ _ h' => h.set p (hadd _ _ _ _ h' hab)

theorem empty (sh : List Nat) : TenSim R (Ten.empty sh) (Ten.empty sh) := ⟨rfl, fun _ _ h => nomatch h⟩

theorem full (sh : List Nat) {a : A} {b : B} (h : R a b) : TenSim R (Ten.full sh a) (Ten.full sh b) :=
  ⟨rfl, fun _ _ hb => ⟨a, rfl, by cases hb; exact h⟩⟩

end TenSim
end sim

/-- apply a function to all entries -/
def Ten.map' {A B : Type} (f : A → B) (t : Ten A) : Ten B := ⟨t.shape, fun p => (t.v p).map f⟩

theorem TenSim.map' {A B : Type} {R : A → B → Prop} {f : A → B} (h : ∀ a, R a (f a)) (t : Ten A) : TenSim R t (t.map' f) := by
  refine ⟨rfl, fun p b hb => ?_⟩
  simp only [Ten.map', Option.map_eq_some_iff] at hb
  obtain ⟨a, ha, rfl⟩ := hb
  exact ⟨a, ha, h a⟩

end GF
