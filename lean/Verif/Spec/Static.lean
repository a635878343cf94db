import Verif.Spec.System
import Verif.Spec.Dynamics
import Verif.Model.Renumber

/-! Specification vocabulary for statics: the programs of docs/examples/statics/fixed-displacement_elastic.py and
docs/examples/statics/partial-periodic_elastic.py, with the mesh, the DOFs, the material, the load and the prescribed
displacements left open. -/

namespace GF
open Finset
variable {α : Type} [Field α]

/-- A linear material: `Sig = C : Eps` at each of the four integration points of `ne` elements (`Eps` and `Sig` are 3 x 3), and
`C` as tangent. The material takes the strain `mat.Eps` and returns `mat.Sig` and `mat.C` (`mat.refresh()`). -/
def LinearMaterial (ne : Nat) (C : Nat → Nat → Nat → Nat → Nat → Nat → α) (material : Ten α → Res (Ten α × Ten α)) : Prop :=
  ∀ (t : Ten α) (E : Nat → Nat → Nat → Nat → α), Is4 t ne 4 3 3 E → IsOk (material t) fun r =>
    Is4 r.1 ne 4 3 3 (fun e q => Element.Quad4.ddot 3 (C e q) (E e q)) ∧ Is6 r.2 ne 4 3 3 3 3 C

/-- Strain, stress and internal force.

    vector.asElement(disp, ue); elem.symGradN_vector(ue, mat.Eps); mat.refresh()
    fe = elem.Int_gradN_dot_tensor2_dV(mat.Sig); fint = vector.AssembleNode(fe) -/
def staticResponse (P : VectorPartitioned) (Q : Element.Quadrature α) (material : Ten α → Res (Ten α × Ten α)) (σ : Nat → Sched)
    (disp : Ten α) : Res (Ten α × Ten α) := do
  let ue ← P.V.AsElement (σ 0) disp
  let Eps ← Element.Quad4.PlanarSymGradN_vector Q (σ 1) ue
  let (Sig, C) ← material Eps
  let fe ← Element.Quad4.Int_gradN_dot_tensor2_dV Q (σ 2) Sig
  let fint ← P.V.AssembleNode (σ 3) fe
  return (fint, C)

/-- the arrays at the end of the program -/
structure StaticResult (α : Type) where
  disp : Ten α
  fext : Ten α
  fint : Ten α
  fres : Ten α

/-- The program. `disp0` are the displacements at the start (`np.zeros_like(coor)`), `disp1` those after the user has set the
prescribed ones (`disp[mesh.nodesTopEdge, 0] = +0.1`); `S` is Eigen's solver; `σ` are the schedules of the parallel loops.

    vector = VectorPartitioned(conn, dofs, iip)
    K = MatrixPartitioned(conn, dofs, iip);  Solver = MatrixPartitionedSolver()
    elem = QuadraturePlanar(vector.AsElement(coor), thick)
    ... strain, stress and internal force of disp0 ...
    K.assemble(elem.Int_gradN_dot_tensor4_dot_gradNT_dV(mat.C))
    fres = fext - fint
    Solver.solve(K, fres, disp)
    ... strain, stress and internal force of disp ...
    vector.copy_p(fint, fext)
    fres = fext - fint -/
def staticProgram (s thick : α) (S : LinSolver α) (σ : Nat → Nat → Sched) (conn dofs : Ten Nat) (iip : List Nat) (coor : Ten α)
    (material : Ten α → Res (Ten α × Ten α)) (fext disp0 disp1 : Ten α) : Res (StaticResult α) := do
  let P ← VectorPartitioned.new conn dofs iip
  let K ← MatrixPartitioned.new conn dofs iip
  let xe ← P.V.AsElement (σ 0 0) coor
  let Q ← Element.Quad4.newPlanarGauss s (σ 0 1) xe thick
  let (fint, C) ← staticResponse P Q material (σ 1) disp0
  let Ke ← Q.Int_gradN_dot_tensor4_dot_gradNT_dV (σ 0 2) C
  let K ← K.assemble Ke
  let fres ← nodeExpr (fun f g _ => f - g) fext fint fint
  let (_, _, disp) ← K.solve_nodevec S SolverState.init (σ 2) fres disp1
  let (fint, _) ← staticResponse P Q material (σ 3) disp
  let fext ← P.copy_p (σ 0 3) fint fext
  let fres ← nodeExpr (fun f g _ => f - g) fext fint fint
  return ⟨disp, fext, fint, fres⟩

/-! NumPy indexing, as far as the examples use it. -/

/-- `dofs[nodes, i]` -/
def npColumn (dofs nodes : Ten Nat) (i : Nat) : Res (List Nat) :=
  mapRes (fun k => do let m ← nodes.get [k]; dofs.get [m, i]) (it1 (nodes.shape.headD 0))

/-- `disp[nodes, i] = v` -/
def npSetColumn {α : Type} (nodes : Ten Nat) (i : Nat) (v : α) (disp : Ten α) : Res (Ten α) :=
  forEach (it1 (nodes.shape.headD 0)) (fun t k => do let m ← nodes.get [k]; t.set [m, i] v) disp

/-- `dofs[to] = dofs[from]` (two columns; the right-hand side is evaluated first) -/
def npCopyRows (to' from' dofs : Ten Nat) : Res (Ten Nat) :=
  forEach (it2 (to'.shape.headD 0) 2) (fun t k => do
    let m ← from'.get [k.1]
    let v ← dofs.get [m, k.2]
    let m' ← to'.get [k.1]
    t.set [m', k.2] v) dofs

/-- docs/examples/statics/fixed-displacement_elastic.py: the normal displacement is prescribed on all sides, `a` on the right,
`b` on the top, zero on the left and the bottom (in the example `a = 0.2`, `b = -0.2`). -/
def fixedDisplacement (s thick : α) (S : LinSolver α) (σ : Nat → Nat → Sched) (conn dofs : Ten Nat) (coor : Ten α)
    (bottom right top left : Ten Nat) (material : Ten α → Res (Ten α × Ten α)) (a b : α) : Res (StaticResult α) := do
  let zero := Ten.full coor.shape 0
  let p₁ ← npColumn dofs right 0
  let p₂ ← npColumn dofs top 1
  let p₃ ← npColumn dofs left 0
  let p₄ ← npColumn dofs bottom 1
  let disp ← npSetColumn right 0 a zero
  let disp ← npSetColumn top 1 b disp
  let disp ← npSetColumn left 0 0 disp
  let disp ← npSetColumn bottom 1 0 disp
  staticProgram s thick S σ conn dofs (p₁ ++ p₂ ++ p₃ ++ p₄) coor material zero zero disp

/-- docs/examples/statics/partial-periodic_elastic.py: periodic in horizontal direction, the top is moved by `a` in that direction
(in the example `a = 0.1`), the bottom is fixed. -/
def partialPeriodic (s thick : α) (S : LinSolver α) (σ : Nat → Nat → Sched) (conn dofs : Ten Nat) (coor : Ten α)
    (bottom top leftOpen rightOpen : Ten Nat) (material : Ten α → Res (Ten α × Ten α)) (a : α) : Res (StaticResult α) := do
  let zero := Ten.full coor.shape 0
  let dofs ← npCopyRows rightOpen leftOpen dofs
  let dofs ← renumber dofs
  let p₁ ← npColumn dofs bottom 0
  let p₂ ← npColumn dofs bottom 1
  let p₃ ← npColumn dofs top 0
  let p₄ ← npColumn dofs top 1
  let disp ← npSetColumn top 0 a zero
  staticProgram s thick S σ conn dofs (p₁ ++ p₂ ++ p₃ ++ p₄) coor material zero zero disp

/-! The same with the partition done by hand: docs/examples/statics/fixed-displacement_elastic_manual-partition.py. -/

/-- `t[idx] = v` for one-dimensional arrays (an array `v` of length one, which NumPy would broadcast, is not needed) -/
def npPut {α : Type} (idx : List Nat) (v t : Ten α) : Res (Ten α) :=
  if v.shape = [idx.length] then
    forEach (it1 idx.length) (fun t a => do
      let k ← lget idx a
      let y ← v.get [a]
      t.set [k] y) t
  else .throws

/-- a list of numbers as array: `np.concatenate` of constant arrays -/
def npArray {α : Type} [Zero α] (l : List α) : Ten α := Ten.of [l.length] fun ix => l.getD (ix.getD 0 0) 0

/-- solve for the unknown DOFs, and put the two parts together

    fres_u = vector.AsDofs_u(fres);  u_u = Solver.Solve_u(K, fres_u, u_p)
    u = np.empty(vector.shape_dofval);  u[vector.iiu] = u_u;  u[vector.iip] = u_p
    disp = vector.AsNode(u) -/
def manualSolve (P : VectorPartitioned) (K : MatrixPartitioned α) (S : LinSolver α) (σ : Nat → Sched) (fres u_p : Ten α) : Res (Ten α) := do
  let fres_u ← P.AsDofs_u_nodevec (σ 0) fres
  let (_, _, u_u) ← K.solve_u S SolverState.init fres_u u_p
  let u ← npPut P.iiu u_u (Ten.empty P.V.shape_dofval)
  let u ← npPut P.iip u_p u
  P.V.AsNode (σ 1) u

/-- `staticProgram` with `manualSolve` in the place of `Solver.solve(K, fres, disp)` -/
def manualProgram (s thick : α) (S : LinSolver α) (σ : Nat → Nat → Sched) (conn dofs : Ten Nat) (iip : List Nat) (coor : Ten α)
    (material : Ten α → Res (Ten α × Ten α)) (fext disp0 u_p : Ten α) : Res (StaticResult α) := do
  let P ← VectorPartitioned.new conn dofs iip
  let K ← MatrixPartitioned.new conn dofs iip
  let xe ← P.V.AsElement (σ 0 0) coor
  let Q ← Element.Quad4.newPlanarGauss s (σ 0 1) xe thick
  let (fint, C) ← staticResponse P Q material (σ 1) disp0
  let Ke ← Q.Int_gradN_dot_tensor4_dot_gradNT_dV (σ 0 2) C
  let K ← K.assemble Ke
  let fres ← nodeExpr (fun f g _ => f - g) fext fint fint
  let disp ← manualSolve P K S (σ 2) fres u_p
  let (fint, _) ← staticResponse P Q material (σ 3) disp
  let fext ← P.copy_p (σ 0 3) fint fext
  let fres ← nodeExpr (fun f g _ => f - g) fext fint fint
  return ⟨disp, fext, fint, fres⟩

/-- docs/examples/statics/fixed-displacement_elastic_manual-partition.py: as `fixedDisplacement`; the prescribed displacements are
listed in the order of `iip`. -/
def fixedDisplacementManual (s thick : α) (S : LinSolver α) (σ : Nat → Nat → Sched) (conn dofs : Ten Nat) (coor : Ten α)
    (bottom right top left : Ten Nat) (material : Ten α → Res (Ten α × Ten α)) (a b : α) : Res (StaticResult α) := do
  let zero := Ten.full coor.shape 0
  let p₁ ← npColumn dofs right 0
  let p₂ ← npColumn dofs top 1
  let p₃ ← npColumn dofs left 0
  let p₄ ← npColumn dofs bottom 1
  let u_p := npArray (List.replicate (right.shape.headD 0) a ++ List.replicate (top.shape.headD 0) b ++
    List.replicate (left.shape.headD 0) 0 ++ List.replicate (bottom.shape.headD 0) 0)
  manualProgram s thick S σ conn dofs (p₁ ++ p₂ ++ p₃ ++ p₄) coor material zero zero u_p

end GF
