import Verif.Spec.PeriodicCell
import Verif.Spec.Static
import Mathlib.Algebra.Order.Group.Abs

/-! The Newton loop of docs/examples/statics/periodic_elastoplastic.py, with the mesh, the material, the load, the history of the
shear, the tolerance and the numbers of iterations left open. -/

namespace GF
open Finset
variable {α : Type} [Field α] [LinearOrder α]

/-- what the program tells the material: `mat.increment()`, or `mat.refresh()` after `mat.Eps` has been overwritten -/
inductive MatCall (α : Type) where
  | increment
  | refresh (Eps : Ten α)

/-- A material is any function of the calls until now, the last call first; it gives `mat.Sig` and `mat.C`. So the stress may
depend on the history in any way (as in elasto-plasticity). -/
abbrev HistoryMaterial (α : Type) := List (MatCall α) → Res (Ten α × Ten α)

/-- the material gives a stress and a tangent (3 x 3) at each of the four integration points of `ne` elements -/
def HistoryMaterial.Responds (ne : Nat) (material : HistoryMaterial α) : Prop :=
  ∀ calls Eps E, Is4 Eps ne 4 3 3 E → IsOk (material (.refresh Eps :: calls)) fun r => ∃ S C, Is4 r.1 ne 4 3 3 S ∧ Is6 r.2 ne 4 3 3 3 3 C

/-- the material is linear and has no memory: `Sig = C : Eps` -/
def HistoryMaterial.Linear (ne : Nat) (C : Nat → Nat → Nat → Nat → Nat → Nat → α) (material : HistoryMaterial α) : Prop :=
  ∀ calls Eps E, Is4 Eps ne 4 3 3 E → IsOk (material (.refresh Eps :: calls)) fun r =>
    Is4 r.1 ne 4 3 3 (fun e q => Element.Quad4.ddot 3 (C e q) (E e q)) ∧ Is6 r.2 ne 4 3 3 3 3 C

/-- The objects of the program, periodic_elastoplastic.py:12-50 and 82: those of `PeriodicCell.new`, with
`elem = Element.Quad4.QuadraturePlanar(vector.AsElement(coor), thick)` (in the example `thick = 1`). -/
def PeriodicCell.newPlanar (s thick : α) (σ τ : Sched) (conn dofs : Ten Nat) (coor : Ten α) (pairs : Ten Nat) (origin : Nat) :
    Res (PeriodicCell α) := do
  let control ← Control.new coor dofs
  let a ← control.control_dofs.flat
  let b ← mapRes (fun i => control.dofs.get [origin, i]) (List.range 2)
  let tyings ← Periodic.new control.coor control.dofs control.control_dofs pairs (a ++ b)
  let Cdu ← tyings.Cdu
  let Cdp ← tyings.Cdp
  let Cdi ← tyings.Cdi
  let vector ← VectorPartitionedTyings.new conn tyings.dofs Cdu Cdp Cdi
  let xe ← vector.V.AsElement σ control.coor
  let elem ← Element.Quad4.newPlanarGauss s τ xe thick
  let K ← MatrixPartitionedTyings.new conn tyings.dofs Cdu Cdp
  return ⟨control, tyings, vector, elem, K⟩

/-- `vector.asElement(disp, ue); elem.symGradN_vector(ue, mat.Eps)` -/
def PeriodicCell.strain (Z : PeriodicCell α) (σ τ : Sched) (disp : Ten α) : Res (Ten α) := do
  let ue ← Z.vector.V.AsElement σ disp
  Element.Quad4.PlanarSymGradN_vector Z.elem τ ue

/-- `elem.int_gradN_dot_tensor2_dV(mat.Sig, fe); vector.assembleNode(fe, fint)` -/
def PeriodicCell.nodeForce (Z : PeriodicCell α) (σ τ : Sched) (Sig : Ten α) : Res (Ten α) := do
  let fe ← Element.Quad4.Int_gradN_dot_tensor2_dV Z.elem σ Sig
  Z.vector.V.AssembleNode τ fe

/-- `np.sum(np.abs(t))` -/
def npSumAbs (t : Ten α) : Res α := do
  let l ← t.flat
  return (l.map fun a => |a|).sum

/-- The norm of the residual relative to that of the forces, periodic_elastoplastic.py:117-131.

    vector.asDofs_i(fext, Fext); vector.asDofs_i(fint, Fint); vector.copy_p(Fint, Fext)
    nfres = np.sum(np.abs(Fext - Fint)); nfext = np.sum(np.abs(Fext))
    if nfext: res = nfres / nfext
    else: res = nfres -/
def PeriodicCell.residual (Z : PeriodicCell α) (σ : Nat → Nat → Sched) (fext fint : Ten α) : Res α := do
  let Fext ← Z.vector.AsDofs_i (σ 1) fext
  let Fint ← Z.vector.AsDofs_i (σ 2) fint
  let Fext ← Z.vector.copy_p (σ 0 5) Fint Fext
  let Fres ← vzip (· - ·) Fext Fint
  let nfres ← npSumAbs Fres
  let nfext ← npSumAbs Fext
  return if nfext ≠ 0 then nfres / nfext else nfres

/-- What the residual measures: `G` are the external forces on the independent DOFs, `H` the internal forces; the first `nnu` DOFs
are unknown, the next `nnp` are prescribed. -/
def relativeResidual (nnu nnp : Nat) (G H : Nat → α) : α :=
  let nfres := ∑ k ∈ range nnu, |G k - H k|
  let nfext := ∑ k ∈ range nnu, |G k| + ∑ k ∈ range nnp, |H (nnu + k)|
  if nfext ≠ 0 then nfres / nfext else nfres

/-- `γ e q i j` is the gradient `∂w_j/∂x_i` (3 x 3) of the node vector `W` at the Gauss points of the planar quadrature -/
def PeriodicCell.PlanarGradient (Z : PeriodicCell α) (n ne : Nat) (W : Nat → Nat → α) (γ : Nat → Nat → Nat → Nat → α) : Prop :=
  ∀ (σ τ : Sched) (u : Ten α), Is2 u n 2 W →
    IsOk (do let ue ← Z.vector.V.AsElement σ u; Element.Quad4.PlanarGradN_vector Z.elem τ ue) fun t => Is4 t ne 4 3 3 γ

/-- the virtual work of a stress (3 x 3): the integral of `S_ij γ_ij` -/
def planarWork (ne : Nat) (vol : Nat → Nat → α) (S γ : Nat → Nat → Nat → Nat → α) : α :=
  ∑ e ∈ range ne, ∑ q ∈ range 4, Element.Quad4.power 3 (S e q) (γ e q) * vol e q

/-- `E` is the strain (3 x 3) of the node vector `U` -/
def PeriodicCell.PlanarStrain (Z : PeriodicCell α) (n ne : Nat) (U : Nat → Nat → α) (E : Nat → Nat → Nat → Nat → α) : Prop :=
  ∀ (σ τ : Sched) (u : Ten α), Is2 u n 2 U → IsOk (Z.strain σ τ u) fun t => Is4 t ne 4 3 3 E

/-- `Y` solves the problem of the linear periodic cell in simple shear `∂u_x/∂y = γ`: node `o` does not move, the displacement is
periodic up to the macroscopic gradient, and the stress `C : E` is in equilibrium with the load `B`. -/
structure PeriodicCell.SolvesShear (Z : PeriodicCell α) (nn ne np : Nat) (P : Nat → Nat → Nat) (x : Nat → Nat → α) (o : Nat)
    (C : Nat → Nat → Nat → Nat → Nat → Nat → α) (vol : Nat → Nat → α) (B : Nat → Nat → α) (γ : α) (Y : Nat → Nat → α) : Prop where
  shear : ∀ j l, j < 2 → l < 2 → Y (nn + j) l = if j = 0 ∧ l = 1 then γ else 0
  fixed : ∀ i, i < 2 → Y o i = 0
  periodic : PeriodicField nn np P x Y
  weak : ∀ E g W, Z.PlanarStrain (nn + 2) ne Y E → Z.PlanarGradient (nn + 2) ne W g →
    (∀ j l, j < 2 → l < 2 → W (nn + j) l = 0) → (∀ i, i < 2 → W o i = 0) → PeriodicField nn np P x W →
    planarWork ne vol (fun e q => Element.Quad4.ddot 3 (C e q) (E e q)) g = ∑ m ∈ range nn, ∑ i ∈ range 2, B m i * W m i

/-- the variables of the program -/
structure Newton (α : Type) where
  disp : Ten α
  fint : Ten α
  K : MatrixPartitionedTyings α
  solver : SolverState α
  calls : List (MatCall α)

/-- The loop over the iterations of one increment, periodic_elastoplastic.py:94-149, from iteration `iiter`; the first argument is
the number of iterations that `range` still allows. In the example `tol = 1e-5`, `maxit = 20` and `range(100)`.

    for iiter in range(100):
        vector.asElement(disp, ue); elem.symGradN_vector(ue, mat.Eps); mat.refresh()
        elem.int_gradN_dot_tensor2_dV(mat.Sig, fe); vector.assembleNode(fe, fint)
        elem.int_gradN_dot_tensor4_dot_gradNT_dV(mat.C, Ke); K.assemble(Ke)
        fres = fext - fint
        if iiter > 0:
            res = ...
            if res < tol: break
            if iiter > maxit: raise OSError
        du.fill(0.0)
        if iiter == 0: du[control_nodes[0], 1] = dgamma[inc]
        Solver.solve(K, fres, du)
        disp += du -/
def Newton.loop (Z : PeriodicCell α) (S : LinSolver α) (material : HistoryMaterial α) (fext : Ten α) (tol : α) (maxit : Nat) (dgamma : α)
    (σ : Nat → Nat → Nat → Sched) : Nat → Nat → Newton α → Res (Newton α)
  | 0, _, N => .ok N
  | n + 1, iiter, N => do
    let Eps ← Z.strain (σ iiter 0 0) (σ iiter 0 1) N.disp
    let calls := .refresh Eps :: N.calls
    let (Sig, C) ← material calls
    let fint ← Z.nodeForce (σ iiter 0 2) (σ iiter 0 3) Sig
    let Ke ← Z.elem.Int_gradN_dot_tensor4_dot_gradNT_dV (σ iiter 0 4) C
    let K ← N.K.assemble Ke
    let fres ← nodeExpr (fun f g _ => f - g) fext fint fint
    let stop ← if iiter = 0 then .ok false else do
      let res ← Z.residual (σ iiter) fext fint
      if res < tol then .ok true else if maxit < iiter then .throws else .ok false
    if stop then .ok ⟨N.disp, fint, K, N.solver, calls⟩
    else do
      let node ← match Z.control.control_nodes with | m :: _ => .ok m | [] => .throws
      let du ← if iiter = 0 then (Ten.full N.disp.shape 0).set [node, 1] dgamma else .ok (Ten.full N.disp.shape 0)
      let (solver, K, du) ← K.solve_nodevec S N.solver (σ iiter 3) fres du
      let disp ← nodeExpr (fun u d _ => u + d) N.disp du du
      Newton.loop Z S material fext tol maxit dgamma σ n (iiter + 1) ⟨disp, fint, K, solver, calls⟩

/-- the loop over the increments `dgamma`, from increment `inc`; `iters` is the argument of `range` -/
def Newton.run (Z : PeriodicCell α) (S : LinSolver α) (material : HistoryMaterial α) (fext : Ten α) (tol : α) (maxit iters : Nat)
    (σ : Nat → Nat → Nat → Nat → Sched) : List α → Nat → Newton α → Res (Newton α)
  | [], _, N => .ok N
  | dgamma :: rest, inc, N => do
    let N ← Newton.loop Z S material fext tol maxit dgamma (σ inc) iters 0 { N with calls := .increment :: N.calls }
    Newton.run Z S material fext tol maxit iters σ rest (inc + 1) N

/-- The program. -/
def newtonProgram (s thick : α) (σ τ : Sched) (conn dofs : Ten Nat) (coor : Ten α) (pairs : Ten Nat) (origin : Nat) (S : LinSolver α)
    (material : HistoryMaterial α) (fext : Ten α) (tol : α) (maxit iters : Nat) (υ : Nat → Nat → Nat → Nat → Sched) (dgamma : List α) :
    Res (PeriodicCell α × Newton α) := do
  let Z ← PeriodicCell.newPlanar s thick σ τ conn dofs coor pairs origin
  let zero := Ten.full Z.control.coor.shape 0
  let N ← Newton.run Z S material fext tol maxit iters υ dgamma 0 ⟨zero, zero, Z.K, SolverState.init, []⟩
  return (Z, N)

end GF
