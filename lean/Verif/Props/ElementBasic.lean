import Verif.Lemmas.ElementQuad4
import Verif.Lemmas.Vector
import Mathlib.LinearAlgebra.Matrix.NonsingularInverse
import Mathlib.Algebra.Order.Ring.Abs
import Mathlib.Tactic.LinearCombination

/-!
# Properties C42 and C51: small matrices, and the free functions of `Element.h`
-/

namespace GF.Element
open Finset

variable {α : Type}

/-! ### C42 -/

/-- the array `t` holds the `n x n` matrix `M` -/
def IsMat {n : Nat} (t : Ten α) (M : Matrix (Fin n) (Fin n) α) : Prop :=
  t.shape = [n, n] ∧ ∀ i j : Fin n, t.v [i.1, j.1] = some (M i j)

/-- entries of a matrix by natural numbers -/
def ent {n : Nat} [Zero α] (M : Matrix (Fin n) (Fin n) α) (i j : Nat) : α :=
  if h : i < n ∧ j < n then M ⟨i, h.1⟩ ⟨j, h.2⟩ else 0

theorem ent_fin {n : Nat} [Zero α] (M : Matrix (Fin n) (Fin n) α) (i j : Fin n) : ent M i.1 j.1 = M i j := by
  simp [ent, i.2, j.2]

theorem IsMat.is2 {n : Nat} [Zero α] {t : Ten α} {M : Matrix (Fin n) (Fin n) α} (h : IsMat t M) :
    Is2 t n n (ent M) :=
  ⟨h.1, fun i j hi hj => by
    have := h.2 ⟨i, hi⟩ ⟨j, hj⟩
    simpa [ent, hi, hj] using this⟩

variable [Field α]

/-- **C42** (2 x 2): `detail::tensor<2>::inv` returns the determinant of every matrix, and, if that is
non-zero, stores its two-sided inverse. -/
theorem C42_inverse_2x2 (M : Matrix (Fin 2) (Fin 2) α) (A Ainv : Ten α) (hA : IsMat A M)
    (hs : Ainv.shape = [2, 2]) :
    ∃ (t : Ten α) (B : Matrix (Fin 2) (Fin 2) α), inv2 A Ainv = .ok (M.det, t) ∧ IsMat t B ∧
      (M.det ≠ 0 → M * B = 1 ∧ B * M = 1) := by
  obtain ⟨t, h1, h2⟩ := inv2_ok hA.is2 hs
  have hd : M.det = ent M 0 0 * ent M 1 1 - ent M 0 1 * ent M 1 0 := by
    rw [Matrix.det_fin_two]
    simp [ent]
  refine ⟨t, Matrix.of fun i j => inv2f (ent M) i.1 j.1, by rw [hd]; exact h1, ⟨h2.1, fun i j => h2.2 _ _ i.2 j.2⟩, ?_⟩
  intro h
  have h3 : M * (Matrix.of fun i j : Fin 2 => inv2f (ent M) i.1 j.1) = 1 := by
    rw [hd] at h
    ext i j
    rw [Matrix.mul_apply, Fin.sum_univ_two, ← ent_fin M i, ← ent_fin M i]
    fin_cases i <;> fin_cases j <;> simp [inv2f] <;>
      first | (field_simp; ring1) | linear_combination mul_inv_cancel₀ h
  exact ⟨h3, mul_eq_one_comm.1 h3⟩

/-- **C42** (3 x 3): the same for `detail::tensor<3>::inv`. -/
theorem C42_inverse_3x3 (M : Matrix (Fin 3) (Fin 3) α) (A Ainv : Ten α) (hA : IsMat A M)
    (hs : Ainv.shape = [3, 3]) :
    ∃ (t : Ten α) (B : Matrix (Fin 3) (Fin 3) α), inv3 A Ainv = .ok (M.det, t) ∧ IsMat t B ∧
      (M.det ≠ 0 → M * B = 1 ∧ B * M = 1) := by
  obtain ⟨t, h1, h2⟩ := inv3_ok hA.is2 hs
  have hd : M.det = det3 (ent M 0 0) (ent M 0 1) (ent M 0 2) (ent M 1 0) (ent M 1 1) (ent M 1 2)
      (ent M 2 0) (ent M 2 1) (ent M 2 2) := by
    rw [Matrix.det_fin_three]
    simp [ent, det3]
    ring
  refine ⟨t, Matrix.of fun i j => inv3f (ent M) i.1 j.1, by rw [hd]; exact h1, ⟨h2.1, fun i j => h2.2 _ _ i.2 j.2⟩, ?_⟩
  intro h
  have h3 : M * (Matrix.of fun i j : Fin 3 => inv3f (ent M) i.1 j.1) = 1 := by
    rw [hd] at h
    ext i j
    rw [Matrix.mul_apply, Fin.sum_univ_three, ← ent_fin M i, ← ent_fin M i, ← ent_fin M i]
    fin_cases i <;> fin_cases j <;> simp [inv3f] <;> field_simp <;> rw [det3] <;> ring
  exact ⟨h3, mul_eq_one_comm.1 h3⟩

/-- a concrete matrix with non-zero determinant -/
example : (!![2, 1; 1, 3] : Matrix (Fin 2) (Fin 2) ℚ).det ≠ 0 ∧
    IsMat (Ten.of [2, 2] fun ix => if ix = [0, 0] then 2 else if ix = [1, 1] then 3 else 1)
      (!![2, 1; 1, 3] : Matrix (Fin 2) (Fin 2) ℚ) :=
  ⟨by rw [Matrix.det_fin_two]; simp; norm_num, rfl, fun i j => by fin_cases i <;> fin_cases j <;> simp [Ten.of]⟩

example : (!![2, 1, 0; 1, 3, 0; 0, 1, 1] : Matrix (Fin 3) (Fin 3) ℚ).det ≠ 0 := by
  rw [Matrix.det_fin_three]; simp; norm_num

/-- **C42** (singular): for a singular matrix no inverse exists, so the returned determinant `0` is the only
useful output; the call itself still terminates normally in exact arithmetic. -/
theorem C42_singular (M : Matrix (Fin 2) (Fin 2) α) (h : M.det = 0) :
    ¬ ∃ B : Matrix (Fin 2) (Fin 2) α, M * B = 1 := by
  rintro ⟨B, hB⟩
  have := congrArg Matrix.det hB
  rw [Matrix.det_mul, h, zero_mul, Matrix.det_one] at this
  exact zero_ne_one this

end GF.Element

namespace GF.Element
open Finset

variable {α : Type}

/-! ### C51 -/

/-- **C51** (`asElementVector`): entry `(e, m, i)` is component `i` of node `conn(e, m)`, for every schedule. -/
theorem C51_asElementVector (σ : Sched) {conn : Ten Nat} {nodevec : Ten α} {nelem nne nnode ndim : Nat} {c u}
    (hc : Is2 conn nelem nne c) (hu : Is2 nodevec nnode ndim u)
    (hlt : ∀ e m, e < nelem → m < nne → c e m < nnode) :
    IsOk (asElementVector σ conn nodevec) fun t => Is3 t nelem nne ndim fun e m i => u (c e m) i := by
  have H : IsSets [nelem, nne, ndim] (fun t : Ten α => forEach (σ.run (it1 nelem)) (fun ret e =>
      forEach (it2 nne ndim) (fun ret mi => do
        let n ← conn.get [e, mi.1]
        let a ← nodevec.get [n, mi.2]
        ret.set [e, mi.1, mi.2] a) ret) t)
      ((σ.run (it1 nelem)).flatMap fun e => (it2 nne ndim).flatMap fun k =>
        [([e, k.1, k.2], u (c e k.1) k.2)]) := by
    refine isSets_loop _ _ _ fun e he => isSets_loop _ _ _ fun k hk => isSets_one _ _ _ _ fun s hs => ?_
    rw [mem_run] at he
    rw [mem_it2] at hk
    rw [hc.get he hk.1, Res.ok_bind, hu.get (hlt _ _ he hk.1) hk.2, Res.ok_bind]
  obtain ⟨t, h1, h2, h3, -⟩ := H.spec (fun p => u (c (p.getD 0 0) (p.getD 1 0)) (p.getD 2 0)) (by
    simp only [List.mem_flatMap, mem_run, List.mem_singleton, Prod.exists]
    rintro st ⟨e, he, m, i, hk, rfl⟩
    rw [mem_it2] at hk
    simp [he, hk.1, hk.2]) (Ten.empty [nelem, nne, ndim]) rfl
  refine ⟨t, ?_, h2, fun e m i he hm hi => ?_⟩
  · rw [← h1, asElementVector, hc.1, hu.1]
  · rw [h3 [e, m, i] ?_]
    · simp
    · simp only [List.mem_map, List.mem_flatMap, mem_run, List.mem_singleton, Prod.exists]
      exact ⟨_, _, ⟨e, he, m, i, mem_it2.2 ⟨hm, hi⟩, rfl⟩, rfl⟩

/-- **C51** (`assembleNodeVector`): component `i` of node `n` is the sum over all occurrences of `n` in the
connectivity; the result has one row more than the highest node number that occurs. -/
theorem C51_assembleNodeVector [AddCommMonoid α] {conn : Ten Nat} {elemvec : Ten α} {nelem nne ndim : Nat} {c f}
    (hc : Is2 conn nelem nne c) (hf : Is3 elemvec nelem nne ndim f) :
    ∃ k, (∀ e m, e < nelem → m < nne → c e m ≤ k) ∧
      (0 < nelem → 0 < nne → ∃ e m, e < nelem ∧ m < nne ∧ c e m = k) ∧
      IsOk (assembleNodeVector conn elemvec) fun t => Is2 t (k + 1) ndim fun n i =>
        ∑ e ∈ range nelem, ∑ m ∈ range nne, if c e m = n then f e m i else 0 := by
  obtain ⟨k, h1, h2, h3⟩ := amax_is2 hc
  refine ⟨k, h2, fun a b => ?_, ?_⟩
  · rcases h3 with h3 | h3
    · exact ⟨0, 0, a, b, by have := h2 0 0 a b; omega⟩
    · exact h3
  have H : IsAdds [k + 1, ndim] (fun t : Ten α => forEach (it3 nelem nne ndim) (fun ret emi => do
      let n ← conn.get [emi.1, emi.2.1]
      let a ← elemvec.get [emi.1, emi.2.1, emi.2.2]
      ret.addAt [n, emi.2.2] a) t)
      ((it3 nelem nne ndim).flatMap fun p => [([c p.1 p.2.1, p.2.2], f p.1 p.2.1 p.2.2)]) := by
    refine isAdds_loop _ _ _ fun p hp => isAdds_one _ _ _ _ fun s hs => ?_
    rw [mem_it3] at hp
    rw [hc.get hp.1 hp.2.1, Res.ok_bind, hf.get hp.1 hp.2.1 hp.2.2, Res.ok_bind]
  obtain ⟨t, ht1, ht2, ht3⟩ := H.spec (by
    simp only [List.mem_flatMap, List.mem_singleton, Prod.exists]
    rintro st ⟨e, m, i, hk, rfl⟩
    rw [mem_it3] at hk
    simp [Nat.lt_succ_of_le (h2 _ _ hk.1 hk.2.1), hk.2.2])
  refine ⟨t, ?_, ht2, fun n i hn hi => ?_⟩
  · rw [← ht1, assembleNodeVector, hc.1, hf.1]
    dsimp only
    rw [h1, Res.ok_bind]
  rw [ht3 _ (by simp [hn, hi]), sum_map_flatMap, sum_it3]
  congr 1
  refine sum_congr rfl fun e _ => sum_congr rfl fun m _ => ?_
  rw [sum_pick hi _ (by intro i' hi'; simp [hi'])]
  simp

/-! `isSequential` -/

theorem allSeen_true {ex : Ten Nat} {l : List Nat} (h : ∀ i ∈ l, ∃ c, ex.get [i] = .ok c ∧ c ≠ 0) :
    allSeen ex l = .ok true := by
  induction l with
  | nil => rfl
  | cons i l ih =>
    obtain ⟨c, h1, h2⟩ := h i (by simp)
    rw [allSeen, h1, Res.ok_bind, if_neg h2]
    exact ih fun j hj => h j (by simp [hj])

/-- **C51** (`isSequential`): the function returns `true` for every fully initialised array, of any shape:
it looks up the counts of the numbers that occur, so it never finds a number that is missing. -/
theorem C51_isSequential_always_true {dofs : Ten Nat} {d : List Nat → Nat} (h : Full dofs d) :
    isSequential dofs = .ok true := by
  obtain ⟨k, h1, h2, -⟩ := amax_ok h
  rw [isSequential, h1, Res.ok_bind, flat_ok h, Res.ok_bind]
  obtain ⟨t', h3, h4, h5⟩ := forEach_add ((indices dofs.shape).map d) (fun ex i => ex.addAt [i] 1)
    (fun i => [i]) (fun _ => 1) (Ten.full [k + 1] 0) (fun _ => 0) (fun _ _ => rfl) (by
      intro i hi
      obtain ⟨ix, hix, rfl⟩ := List.mem_map.1 hi
      simp [Ten.full, Nat.lt_succ_of_le (h2 ix (mem_indices.1 hix))]) (fun _ _ _ _ => rfl)
  rw [h3, Res.ok_bind]
  refine allSeen_true fun i hi => ?_
  obtain ⟨ix, hix, rfl⟩ := List.mem_map.1 hi
  have hlt : d ix < k + 1 := Nat.lt_succ_of_le (h2 ix (mem_indices.1 hix))
  have hin : inb (Ten.full [k + 1] (0 : Nat)).shape [d ix] = true := by simp [Ten.full, hlt]
  refine ⟨_, by rw [Ten.get, h4, if_pos hin, h5 _ hin], ?_⟩
  rw [zero_add]
  have : 1 ≤ (((indices dofs.shape).map d).map fun i => if [i] = [d ix] then 1 else 0).sum :=
    List.single_le_sum (by simp) 1 (List.mem_map.2 ⟨d ix, hi, by simp⟩)
  omega

/-- what `isSequential` documents ("check that DOFs leave no holes") -/
def NoHoles (sh : List Nat) (d : List Nat → Nat) : Prop :=
  ∀ k, (∃ ix, inb sh ix = true ∧ k ≤ d ix) → ∃ ix, inb sh ix = true ∧ d ix = k

/-- **C51** (`isSequential`, discrepancy): it does not decide what its documentation says: the DOFs `{0, 2}` leave
a hole and are accepted. -/
theorem C51_isSequential_wrong : ∃ (dofs : Ten Nat) (d : List Nat → Nat), Full dofs d ∧
    ¬ NoHoles dofs.shape d ∧ isSequential dofs = .ok true := by
  have h : Full (Ten.of [2, 1] fun ix => 2 * ix.getD 0 0) (fun ix => 2 * ix.getD 0 0) := fun _ _ => rfl
  refine ⟨_, _, h, fun hn => ?_, C51_isSequential_always_true h⟩
  obtain ⟨ix, -, h1⟩ := hn 1 ⟨[1, 0], by decide, by decide⟩
  change 2 * ix.getD 0 0 = 1 at h1
  omega

/-! `isDiagonal` -/

section
variable [AddCommGroup α] [LinearOrder α]

theorem isDiagonalLoop_ok {eps : α} {m : Ten α} {f : Nat → Nat → Nat → α} (l : List (Nat × Nat × Nat))
    (h : ∀ p ∈ l, m.get [p.1, p.2.1, p.2.2] = .ok (f p.1 p.2.1 p.2.2)) :
    ∃ b, isDiagonalLoop eps m l = .ok b ∧
      (b = true ↔ ∀ p ∈ l, p.2.1 ≠ p.2.2 → |f p.1 p.2.1 p.2.2| ≤ eps) := by
  induction l with
  | nil => exact ⟨true, rfl, by simp⟩
  | cons p l ih =>
    obtain ⟨e, i, j⟩ := p
    obtain ⟨b, h1, h2⟩ := ih fun p hp => h p (by simp [hp])
    rw [isDiagonalLoop]
    by_cases hij : i = j
    · refine ⟨b, by simp [hij, h1], ?_⟩
      rw [h2]
      simp [hij]
    · rw [if_pos hij, h (e, i, j) (by simp), Res.ok_bind]
      by_cases hgt : max (f e i j) (-(f e i j)) > eps
      · refine ⟨false, by rw [if_pos hgt], ?_⟩
        simp only [Bool.false_eq_true, List.mem_cons, forall_eq_or_imp, false_iff, not_and]
        intro hc
        exact absurd (hc hij) (not_le.2 hgt)
      · refine ⟨b, by rw [if_neg hgt, h1], ?_⟩
        rw [h2]
        simp only [List.mem_cons, forall_eq_or_imp]
        exact ⟨fun hh => ⟨fun _ => not_lt.1 hgt, hh⟩, fun hh => hh.2⟩

/-- **C51** (`isDiagonal`): for square element matrices the function returns `true` exactly if every off-diagonal
entry is at most `eps` (the machine epsilon) in absolute value. -/
theorem C51_isDiagonal {eps : α} {m : Ten α} {nelem n : Nat} {f} (hm : Is3 m nelem n n f) :
    IsOk (isDiagonal eps m) fun b => b = true ↔
      ∀ e i j, e < nelem → i < n → j < n → i ≠ j → |f e i j| ≤ eps := by
  obtain ⟨b, h1, h2⟩ := isDiagonalLoop_ok (eps := eps) (m := m) (f := f) (it3 nelem n n) (by
    intro p hp
    rw [mem_it3] at hp
    exact hm.get hp.1 hp.2.1 hp.2.2)
  refine ⟨b, by rw [isDiagonal, hm.1]; exact h1, h2.trans ?_⟩
  exact ⟨fun h e i j he hi hj hij => h (e, i, j) (mem_it3.2 ⟨he, hi, hj⟩) hij,
    fun h p hp hij => by rw [mem_it3] at hp; exact h _ _ _ hp.1 hp.2.1 hp.2.2 hij⟩

end

/-- concrete data meeting the hypotheses: two quadrilaterals that share an edge, and 2 x 2 matrices -/
example : ∃ c u, Is2 (lit2 4 [[0, 1, 4, 3], [1, 2, 5, 4]]) 2 4 c ∧
    Is2 (Ten.of [6, 2] fun ix => ix.sum) 6 2 u ∧ (∀ e m, e < 2 → m < 4 → c e m < 6) ∧ c 0 1 = c 1 0 :=
  ⟨_, _, is2_of 2 4 _, is2_of 6 2 _, ball2 (by decide), by decide⟩

example : ∃ f, Is3 (Ten.of [3, 2, 2] fun ix => if ix.getD 1 0 = ix.getD 2 0 then 1 else (0 : ℚ)) 3 2 2 f ∧
    ∀ e i j, e < 3 → i < 2 → j < 2 → i ≠ j → |f e i j| ≤ (1 / 1024 : ℚ) :=
  ⟨_, is3_of 3 2 2 _, fun e i j _ _ _ h => by simp [h]⟩

end GF.Element
