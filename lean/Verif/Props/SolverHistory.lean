import Verif.Spec.SolverHistory
import Verif.Props.MatrixPartitioned

/-! # Property C22: the cached factorisation over histories of calls -/

namespace GF
open Finset
variable {α β : Type}

theorem Res.bind_eq_ok {γ δ : Type} {x : Res γ} {f : γ → Res δ} {b : δ} (h : (x >>= f) = .ok b) :
    ∃ a, x = .ok a ∧ f a = .ok b := by
  cases x with
  | ok a => exact ⟨a, rfl, h⟩
  | throws => cases h
  | ub => cases h

theorem SolverState.factorize_fresh (s : SolverState α) {ch : Bool} {A : Mat α}
    (h : s.Fresh ch A) : (s.factorize ch A).1.Fresh (s.factorize ch A).2 A :=
  Or.inr (Or.inr (SolverState.factorize_spec s h))

/-- **C22** (invariant): if initially every solver is unused, or every matrix is marked as changed, and
the history uses every solver on its own matrix only, then after the history every
solver is up to date for its matrix: the next `Solve` uses a factorisation of the current
matrix. -/
theorem C22_fresh {C : SolverClass β α} (hC : C.Lawful) {R : Nat → Nat → Prop} (hR : Paired R)
    (h : List (World.Op C)) (hh : Disciplined C R h) {w w' : World β α}
    (hw : ∀ j i, R j i → (w.sol j).Fresh (C.changed (w.mat i)) (C.block (w.mat i)))
    (hrun : w.run C h = .ok w') :
    ∀ j i, R j i → (w'.sol j).Fresh (C.changed (w'.mat i)) (C.block (w'.mat i)) := by
  induction h generalizing w with
  | nil => cases hrun; exact hw
  | cons op h ih =>
    simp only [World.run] at hrun
    obtain ⟨w1, h1, h2⟩ := Res.bind_eq_ok (x := World.step C w op) hrun
    refine ih (fun j i o ho => hh j i o (by simp [ho])) ?_ h2
    cases op with
    | modify i o =>
      obtain ⟨m, e1, e2⟩ := Res.bind_eq_ok h1
      cases e2
      intro j i' hji
      by_cases hi : i' = i
      · subst hi
        left
        simpa using hC.modify_changed _ _ _ e1
      · simpa [Function.update_of_ne hi] using hw j i' hji
    | solve j i o =>
      obtain ⟨⟨s', m', x⟩, e1, e2⟩ := Res.bind_eq_ok h1
      cases e2
      have hji := hh j i o (by simp)
      obtain ⟨e3, e4⟩ := hC.solve_factorize _ _ _ _ _ _ e1
      have hf := SolverState.factorize_fresh _ (hw j i hji)
      rw [← e3, ← e4] at hf
      intro j' i' hj'
      by_cases hj : j' = j
      · subst hj
        have := hR.one_matrix _ _ _ hj' hji
        subst this
        simpa using hf
      · by_cases hi : i' = i
        · subst hi; exact absurd (hR.one_solver _ _ _ hj' hji) hj
        · simpa [Function.update_of_ne hi, Function.update_of_ne hj] using hw j' i' hj'

theorem SMatrix.solverClass_lawful [Zero α] [Add α] (S : LinSolver α) :
    (SMatrix.solverClass S).Lawful where
  modify_changed := by
    intro m o m' h
    cases o with
    | assemble K =>
      obtain ⟨_, _, h⟩ := Res.bind_eq_ok h
      obtain ⟨_, _, h⟩ := Res.bind_eq_ok h
      cases h; rfl
    | set rows cols B =>
      obtain ⟨_, _, h⟩ := Res.bind_eq_ok h
      obtain ⟨_, _, h⟩ := Res.bind_eq_ok h
      cases h; rfl
    | add rows cols B =>
      obtain ⟨_, _, h⟩ := Res.bind_eq_ok h
      obtain ⟨_, _, h⟩ := Res.bind_eq_ok h
      cases h; rfl
  solve_factorize := by
    intro s m o s' m' x h
    cases o with
    | dofval b =>
      obtain ⟨_, _, h⟩ := Res.bind_eq_ok h
      cases h; exact ⟨rfl, rfl⟩
    | nodevec σ τ b =>
      obtain ⟨_, _, h⟩ := Res.bind_eq_ok h
      obtain ⟨_, _, h⟩ := Res.bind_eq_ok h
      obtain ⟨_, _, h⟩ := Res.bind_eq_ok h
      cases h; exact ⟨rfl, rfl⟩

theorem MatrixPartitioned.solverClass_lawful [NonUnitalNonAssocRing α] (S : LinSolver α) :
    (MatrixPartitioned.solverClass S).Lawful where
  modify_changed := by
    intro m o m' h
    cases o with
    | assemble K =>
      obtain ⟨_, _, h⟩ := Res.bind_eq_ok h
      obtain ⟨_, _, h⟩ := Res.bind_eq_ok h
      cases h; rfl
    | set rows cols B =>
      obtain ⟨_, _, h⟩ := Res.bind_eq_ok h
      obtain ⟨_, _, h⟩ := Res.bind_eq_ok h
      cases h; rfl
    | add rows cols B =>
      obtain ⟨_, _, h⟩ := Res.bind_eq_ok h
      obtain ⟨_, _, h⟩ := Res.bind_eq_ok h
      cases h; rfl
  solve_factorize := by
    intro s m o s' m' x h
    cases o with
    | dofval σ b x =>
      obtain ⟨_, _, h⟩ := Res.bind_eq_ok h
      obtain ⟨_, _, h⟩ := Res.bind_eq_ok h
      obtain ⟨_, _, h⟩ := Res.bind_eq_ok h
      obtain ⟨_, _, h⟩ := Res.bind_eq_ok h
      cases h; exact ⟨rfl, rfl⟩
    | nodevec σ b x =>
      obtain ⟨_, _, h⟩ := Res.bind_eq_ok h
      obtain ⟨_, _, h⟩ := Res.bind_eq_ok h
      obtain ⟨_, _, h⟩ := Res.bind_eq_ok h
      obtain ⟨_, _, h⟩ := Res.bind_eq_ok h
      cases h; exact ⟨rfl, rfl⟩
    | u bu xp =>
      obtain ⟨_, _, h⟩ := Res.bind_eq_ok h
      cases h; exact ⟨rfl, rfl⟩

/-- **C22** (`Matrix`): after any disciplined history that starts with unused solvers, `Solve(A, b)`
returns a solution of the linear system with the *current* matrix. -/
theorem C22_matrix [NonUnitalNonAssocSemiring α] (S : LinSolver α) {R : Nat → Nat → Prop}
    (hR : Paired R) (h : List (World.Op (SMatrix.solverClass S)))
    (hh : Disciplined (SMatrix.solverClass S) R h) {w w' : World (SMatrix α) α}
    (hw : ∀ j, w.sol j = SolverState.init) (hrun : w.run (SMatrix.solverClass S) h = .ok w')
    {j i : Nat} (hji : R j i) {n : Nat} (hdim : (w'.mat i).A.nr = n ∧ (w'.mat i).A.nc = n)
    (hS : S.ExactOn (w'.mat i).A) {b : Ten α} {f : Nat → α} (hb : Is1 b n f) :
    ∃ s' M' x g, (w'.sol j).solve_dofval S (w'.mat i) b = .ok (s', M', x) ∧ Is1 x n g ∧
      ∀ r, r < n → ∑ k ∈ range n, (w'.mat i).A.e r k * g k = f r := by
  have hf := C22_fresh (SMatrix.solverClass_lawful S) hR h hh
    (fun j i _ => by rw [hw]; exact Or.inr (Or.inl rfl)) hrun j i hji
  obtain ⟨y, g, h1, h2, h3⟩ := MatrixPartitioned.solve_ok S (SolverState.factorize_spec _ hf) (b := b)
    (f := f) (by simpa [SMatrix.solverClass, hdim.1] using hb)
  simp only [SMatrix.solverClass] at h1 h2 h3
  rw [hdim.2] at h2
  refine ⟨_, _, y, _, by simp only [SolverState.solve_dofval, h1, Res.ok_bind]; rfl, h2,
    fun r hr => ?_⟩
  rw [← hdim.2, hS g r (by rw [hdim.1]; exact hr), h3 r (by rw [hdim.1]; exact hr)]

/-- **C22** (`MatrixPartitioned`): after any disciplined history that starts with unused solvers,
`Solve(A, b, x)` solves the linear system with the *current* matrix `D` on the unknown DOFs. -/
theorem C22_matrixPartitioned [NonUnitalNonAssocRing α] (S : LinSolver α) {R : Nat → Nat → Prop}
    (hR : Paired R) (h : List (World.Op (MatrixPartitioned.solverClass S)))
    (hh : Disciplined (MatrixPartitioned.solverClass S) R h) {w w' : World (MatrixPartitioned α) α}
    (hw : ∀ j, w.sol j = SolverState.init) (hrun : w.run (MatrixPartitioned.solverClass S) h = .ok w')
    {j i : Nat} (hji : R j i) {c d q : Nat → Nat → Nat} {D : Nat → Nat → α}
    (hM : (w'.mat i).Holds c d q D) (hS : S.ExactOn (w'.mat i).A.uu) (σ : Nat → Sched)
    {b x : Ten α} {g f : Nat → α} (hb : Is1 b (w'.mat i).P.V.ndof g)
    (hx : Is1 x (w'.mat i).P.V.ndof f) :
    ∃ s' M' y f', (w'.mat i).solve_dofval S (w'.sol j) σ b x = .ok (s', M', y) ∧
      Is1 y (w'.mat i).P.V.ndof f' ∧ (∀ k ∈ (w'.mat i).P.iip, f' k = f k) ∧
      (∀ r, r < (w'.mat i).P.V.ndof → r ∉ (w'.mat i).P.iip →
        ∑ k ∈ range (w'.mat i).P.V.ndof, D r k * f' k = g r) := by
  have hf := C22_fresh (MatrixPartitioned.solverClass_lawful S) hR h hh
    (fun j i _ => by rw [hw]; exact Or.inr (Or.inl rfl)) hrun j i hji
  exact C21_solve_dofval S _ hM hf hS σ hb hx

/-! ### what goes wrong without the discipline -/

/-- one node with one DOF -/
def exV1 : Vector := ⟨lit2 1 [[0]], lit2 1 [[0]], 1, 1, 1, 1, 1⟩

/-- a `Matrix` on one DOF -/
def exM1 (a : Int) : SMatrix Int := ⟨exV1, ⟨1, 1, fun _ _ => a⟩, true⟩

/-- a solver that is exact on the 1 x 1 matrices `[1]` and `[-1]` -/
def exS1 : LinSolver Int := ⟨fun A b _ => A.e 0 0 * b 0⟩

theorem exS1_exact : exS1.ExactOn (exM1 1).A ∧ exS1.ExactOn (exM1 (-1)).A := by
  constructor <;> intro b r hr <;> simp only [exM1] at hr ⊢ <;> obtain rfl : r = 0 := by omega
  · simp [exS1]
  · simp [exS1]

/-- the solution vector of a call -/
def solOf (r : Res (SolverState Int × SMatrix Int × Ten Int)) : Option Int :=
  match r with
  | .ok (_, _, x) => x.v [0]
  | _ => none

/-- **C22** (two solvers share a matrix): solver 0 solves, the matrix changes from `[1]` to `[-1]`,
solver 1 solves (and clears the flag); solver 0 then returns `5` for the right-hand side `5` although
`-1 * 5 ≠ 5`: its factorisation is outdated. -/
theorem C22_two_solvers_stale :
    ∃ w' : World (SMatrix Int) Int,
      World.run (SMatrix.solverClass exS1) ⟨fun _ => exM1 1, fun _ => SolverState.init⟩
        [.solve 0 0 (.dofval (lit1 [5])), .modify 0 (.set [0] [0] (lit2 1 [[-1]])),
         .solve 1 0 (.dofval (lit1 [5]))] = .ok w' ∧
      (w'.mat 0).A.e 0 0 = -1 ∧ exS1.ExactOn (w'.mat 0).A ∧
      solOf ((w'.sol 0).solve_dofval exS1 (w'.mat 0) (lit1 [5])) = some 5 := by
  refine ⟨_, rfl, by decide, ?_, by decide⟩
  intro b r hr
  obtain rfl : r = 0 := Nat.lt_one_iff.1 hr
  change ∑ c ∈ range 1, (-1 + 0 : Int) * ((-1 + 0 : Int) * b 0) = b 0
  simp

/-- **C22** (one solver on two matrices): the solver solves with matrix 0 (`[1]`), then with matrix 1
(`[-1]`); used again on the unchanged matrix 0 it returns `-5` for the right-hand side `5`. -/
theorem C22_two_matrices_stale :
    ∃ w' : World (SMatrix Int) Int,
      World.run (SMatrix.solverClass exS1)
        ⟨fun i => if i = 0 then exM1 1 else exM1 (-1), fun _ => SolverState.init⟩
        [.solve 0 0 (.dofval (lit1 [5])), .solve 0 1 (.dofval (lit1 [5]))] = .ok w' ∧
      (w'.mat 0).A = (exM1 1).A ∧
      solOf ((w'.sol 0).solve_dofval exS1 (w'.mat 0) (lit1 [5])) = some (-5) :=
  ⟨_, rfl, rfl, by decide⟩

/-- the discipline is met by one solver per matrix -/
example : Paired (fun j i => j = i) ∧ ∃ w',
    Disciplined (SMatrix.solverClass exS1) (fun j i => j = i)
      [.solve 0 0 (.dofval (lit1 [5])), .modify 0 (.set [0] [0] (lit2 1 [[-1]])),
       .solve 1 1 (.dofval (lit1 [5]))] ∧
    World.run (SMatrix.solverClass exS1) ⟨fun _ => exM1 1, fun _ => SolverState.init⟩
      [.solve 0 0 (.dofval (lit1 [5])), .modify 0 (.set [0] [0] (lit2 1 [[-1]])),
       .solve 1 1 (.dofval (lit1 [5]))] = .ok w' ∧
    solOf ((w'.sol 0).solve_dofval exS1 (w'.mat 0) (lit1 [5])) = some (-5) := by
  refine ⟨⟨by rintro j i i' rfl rfl; rfl, by rintro j j' i rfl rfl; rfl⟩, _, ?_, rfl, by decide⟩
  intro j i o h
  rcases List.mem_cons.1 h with h | h
  · cases h; rfl
  rcases List.mem_cons.1 h with h | h
  · cases h
  rcases List.mem_cons.1 h with h | h
  · cases h; rfl
  · cases h

end GF
