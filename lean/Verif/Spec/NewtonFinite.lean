import Verif.Spec.Newton
import Verif.Model.ElementQuad4

/-! The Newton loop of docs/examples/statics/periodic_elastoplastic_finite-strain.py, with the mesh, the material, the load, the history of
the shear, the tolerance and the numbers of iterations left open. -/

namespace GF
open Finset
variable {α : Type} [Field α] [LinearOrder α]

/-- `mat.F += I2`, with `I2` the unit tensor at each integration point -/
def addI2 (t : Ten α) : Ten α where
  shape := t.shape
  v ix := match ix with
    | [e, q, i, j] => (t.v [e, q, i, j]).map fun a => a + if i = j then 1 else 0
    | ix => t.v ix

/-- the tensor of the call is the same at all integration points -/
def MatCall.Uniform (ne : Nat) : MatCall α → Prop
  | .increment => True
  | .refresh F => ∃ M, Is4 F ne 4 3 3 fun _ _ => M

/-- The material is homogeneous: as long as the history is the same at all points, so is the response; the tangent is elastic, and such that
the linear solver fits. (The stress may depend on the history and on the strain in any way.) -/
def HistoryMaterial.Homogeneous (ne : Nat) (S : LinSolver α) (material : HistoryMaterial α) : Prop :=
  ∀ calls F, (∀ c ∈ calls, MatCall.Uniform ne c) → MatCall.Uniform ne (.refresh F) → IsOk (material (.refresh F :: calls)) fun r =>
    ∃ T C, Is4 r.1 ne 4 3 3 (fun _ _ => T) ∧ Is6 r.2 ne 4 3 3 3 3 (fun _ _ => C) ∧ Elastic C ∧ S.Suits (Major 2 C)

/-- the variables of the program; `elem0` is the `elem` of the cell -/
structure NewtonFinite (α : Type) where
  disp : Ten α
  fint : Ten α
  elem : Element.Quadrature α
  K : MatrixPartitionedTyings α
  solver : SolverState α
  calls : List (MatCall α)

/-- The loop over the iterations of one increment, periodic_elastoplastic_finite-strain.py:99-156, from iteration `iiter`; the first
argument is the number of iterations that `range` still allows.

    for iiter in range(100):
        vector.asElement(disp, ue); elem0.symGradN_vector(ue, mat.F); mat.F += I2; mat.refresh()
        elem.int_gradN_dot_tensor2_dV(mat.Sig, fe); vector.assembleNode(fe, fint)
        elem.int_gradN_dot_tensor4_dot_gradNT_dV(mat.C, Ke); K.assemble(Ke)
        fres = fext - fint
        if iiter > 0:
            res = ...
            if res < tol: break
            if iiter > maxit: raise OSError
        du.fill(0.0)
        if iiter == 0: du[control_nodes[0], 1] = dgamma[inc]
        Solver.solve(K, fres, du)
        disp += du
        elem.update_x(vector.AsElement(coor + disp)) -/
def NewtonFinite.loop (Z : PeriodicCell α) (thick : α) (S : LinSolver α) (material : HistoryMaterial α) (fext : Ten α) (tol : α) (maxit : Nat)
    (dgamma : α) (σ : Nat → Nat → Nat → Sched) : Nat → Nat → NewtonFinite α → Res (NewtonFinite α)
  | 0, _, N => .ok N
  | n + 1, iiter, N => do
    let Eps ← Z.strain (σ iiter 0 0) (σ iiter 0 1) N.disp
    let calls := .refresh (addI2 Eps) :: N.calls
    let (Sig, C) ← material calls
    let fint ← ({ Z with elem := N.elem } : PeriodicCell α).nodeForce (σ iiter 0 2) (σ iiter 0 3) Sig
    let Ke ← N.elem.Int_gradN_dot_tensor4_dot_gradNT_dV (σ iiter 0 4) C
    let K ← N.K.assemble Ke
    let fres ← nodeExpr (fun f g _ => f - g) fext fint fint
    let stop ← if iiter = 0 then .ok false else do
      let res ← Z.residual (σ iiter) fext fint
      if res < tol then .ok true else if maxit < iiter then .throws else .ok false
    if stop then .ok ⟨N.disp, fint, N.elem, K, N.solver, calls⟩
    else do
      let node ← match Z.control.control_nodes with | m :: _ => .ok m | [] => .throws
      let du ← if iiter = 0 then (Ten.full N.disp.shape 0).set [node, 1] dgamma else .ok (Ten.full N.disp.shape 0)
      let (solver, K, du) ← K.solve_nodevec S N.solver (σ iiter 3) fres du
      let disp ← nodeExpr (fun u d _ => u + d) N.disp du du
      let pos ← nodeExpr (fun x u _ => x + u) Z.control.coor disp disp
      let xe ← Z.vector.V.AsElement (σ iiter 0 6) pos
      let elem ← Element.Quad4.update_x thick (σ iiter 0 7) N.elem xe
      NewtonFinite.loop Z thick S material fext tol maxit dgamma σ n (iiter + 1) ⟨disp, fint, elem, K, solver, calls⟩

/-- the loop over the increments `dgamma`, from increment `inc`; `iters` is the argument of `range` -/
def NewtonFinite.run (Z : PeriodicCell α) (thick : α) (S : LinSolver α) (material : HistoryMaterial α) (fext : Ten α) (tol : α) (maxit iters : Nat)
    (σ : Nat → Nat → Nat → Nat → Sched) : List α → Nat → NewtonFinite α → Res (NewtonFinite α)
  | [], _, N => .ok N
  | dgamma :: rest, inc, N => do
    let N ← NewtonFinite.loop Z thick S material fext tol maxit dgamma (σ inc) iters 0 { N with calls := .increment :: N.calls }
    NewtonFinite.run Z thick S material fext tol maxit iters σ rest (inc + 1) N

/-- The program. `elem0` and `elem` are made from the same positions. -/
def newtonFiniteProgram (s thick : α) (σ τ : Sched) (conn dofs : Ten Nat) (coor : Ten α) (pairs : Ten Nat) (origin : Nat) (S : LinSolver α)
    (material : HistoryMaterial α) (fext : Ten α) (tol : α) (maxit iters : Nat) (υ : Nat → Nat → Nat → Nat → Sched) (dgamma : List α) :
    Res (PeriodicCell α × NewtonFinite α) := do
  let Z ← PeriodicCell.newPlanar s thick σ τ conn dofs coor pairs origin
  let xe ← Z.vector.V.AsElement σ Z.control.coor
  let elem ← Element.Quad4.newPlanarGauss s τ xe thick
  let zero := Ten.full Z.control.coor.shape 0
  let N ← NewtonFinite.run Z thick S material fext tol maxit iters υ dgamma 0 ⟨zero, zero, elem, Z.K, SolverState.init, []⟩
  return (Z, N)

end GF
