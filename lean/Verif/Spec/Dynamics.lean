import Verif.Spec.System
import Verif.Model.MatrixDiagonal

/-! Specification vocabulary for dynamics: the program of docs/examples/dynamics/Elastic-Verlet/main.cpp, with the mesh, the
density, the time step, the load and the material left open. -/

namespace GF
open Finset
variable {α : Type} [Field α]

/-- entry by entry evaluation of an expression `f(a, b, c)` on three node vectors of the same shape (xtensor arithmetic such as
`u + dt * v + 0.5 * dt * dt * a`); a mismatch of shapes is outside of the model -/
def nodeExpr {α : Type} (f : α → α → α → α) (a b c : Ten α) : Res (Ten α) :=
  match a.shape with
  | [n, m] =>
    if b.shape = [n, m] ∧ c.shape = [n, m] then
      forEach (it2 n m) (fun r k => do
        let x ← a.get [k.1, k.2]
        let y ← b.get [k.1, k.2]
        let z ← c.get [k.1, k.2]
        r.set [k.1, k.2] (f x y z)) (Ten.empty [n, m])
    else .ub
  | _ => .ub

/-- the objects that do not change during the simulation -/
structure Dynamics (α : Type) where
  vector : Vector
  quad : Element.Quadrature α

/-- what changes: displacement, velocity, acceleration, mass matrix (`solve` stores its inverse), and the strains so far (last
one first; a material may depend on the history) -/
structure Motion (α : Type) where
  u : Ten α
  v : Ten α
  a : Ten α
  M : MatrixDiagonal α
  strains : List (Ten α)

/-- The first part of the program.

    GF::Vector vector(conn, dofs);
    QD::Quadrature quad(vector.AsElement(coor));
    QD::Quadrature nodalQuad(vector.AsElement(coor), QD::Nodal::xi(), QD::Nodal::w());
    GF::MatrixDiagonal M(conn, dofs);
    M.assemble(nodalQuad.Int_N_scalar_NT_dV(rho)); -/
def Dynamics.new {α : Type} [Zero α] [One α] [Add α] [Sub α] [Mul α] [Div α] [Neg α] [NatCast α] (s : α) (σ : Nat → Sched) (conn dofs : Ten Nat) (coor rho : Ten α) : Res (Dynamics α × MatrixDiagonal α) := do
  let (V, Q) ← setup s (σ 0) (σ 1) conn dofs coor
  let xe ← V.AsElement (σ 2) coor
  let xi ← Element.Quad4.Nodal.xi
  let w ← Element.Quad4.Nodal.w
  let nodal ← Element.Quad4.new (σ 3) xe xi w
  let M ← MatrixDiagonal.new conn dofs
  let me ← Element.Quad4.Int_N_scalar_NT_dV nodal (σ 4) rho
  let M ← M.assemble me
  return (⟨V, Q⟩, M)

/-- `vector.asElement(u, ue); quad.symGradN_vector(ue, Eps);` -/
def Dynamics.strain {α : Type} [Zero α] [One α] [Add α] [Sub α] [Mul α] [Div α] [Neg α] [NatCast α] (D : Dynamics α) (σ τ : Sched) (u : Ten α) : Res (Ten α) := do
  let ue ← D.vector.AsElement σ u
  Element.Quad4.SymGradN_vector D.quad τ ue

/-- One increment.

    u = u + dt * v + 0.5 * dt * dt * a
    vector.asElement(u, ue); quad.symGradN_vector(ue, Eps); material.setStrain(Eps); material.stress(Sig);
    quad.int_gradN_dot_tensor2_dV(Sig, fe); vector.assembleNode(fe, fint);
    fres = fext - fint;  M.solve(fres, a);
    v = v_n + 0.5 * dt * (a_n + a)

The expressions for the new displacement `nu u v a` and the new velocity `nv v a_n a` are arguments. -/
def Dynamics.stepWith {α : Type} [Zero α] [One α] [Add α] [Sub α] [Mul α] [Div α] [Neg α] [NatCast α] (D : Dynamics α) (nu nv : α → α → α → α)
    (material : List (Ten α) → Res (Ten α)) (fext : Ten α) (σ : Nat → Sched) (S : Motion α) : Res (Motion α) := do
  let u ← nodeExpr nu S.u S.v S.a
  let Eps ← D.strain (σ 0) (σ 1) u
  let Sig ← material (Eps :: S.strains)
  let fe ← Element.Quad4.Int_gradN_dot_tensor2_dV D.quad (σ 2) Sig
  let fint ← D.vector.AssembleNode (σ 3) fe
  let fres ← nodeExpr (fun f g _ => f - g) fext fint fint
  let (M, a) ← S.M.solve_nodevec (fun i => σ (4 + i)) fres
  let v ← nodeExpr nv S.v S.a a
  return ⟨u, v, a, M, Eps :: S.strains⟩

/-- One increment, with the expressions of velocity Verlet -/
def Dynamics.step (D : Dynamics α) (dt : α) (material : List (Ten α) → Res (Ten α)) (fext : Ten α) (σ : Nat → Sched) (S : Motion α) :
    Res (Motion α) :=
  D.stepWith (fun u v a => u + dt * v + 1 / 2 * dt ^ 2 * a) (fun v a a' => v + 1 / 2 * dt * (a + a')) material fext σ S

/-- `n` increments; `σ k` are the schedules of increment `k` -/
def Dynamics.runWith {α : Type} [Zero α] [One α] [Add α] [Sub α] [Mul α] [Div α] [Neg α] [NatCast α] (D : Dynamics α) (nu nv : α → α → α → α)
    (material : List (Ten α) → Res (Ten α)) (fext : Ten α) (σ : Nat → Nat → Sched) : Nat → Motion α → Res (Motion α)
  | 0, S => .ok S
  | n + 1, S => do
    let S ← D.runWith nu nv material fext σ n S
    D.stepWith nu nv material fext (σ n) S

/-- `n` increments; `σ k` are the schedules of increment `k` -/
def Dynamics.run (D : Dynamics α) (dt : α) (material : List (Ten α) → Res (Ten α)) (fext : Ten α) (σ : Nat → Nat → Sched) :
    Nat → Motion α → Res (Motion α)
  | 0, S => .ok S
  | n + 1, S => do
    let S ← D.run dt material fext σ n S
    D.step dt material fext (σ n) S

/-- the same motion, with the velocity reversed -/
def Motion.reverse (S : Motion α) : Res (Motion α) := do
  let v ← nodeExpr (fun v _ _ => -v) S.v S.v S.v
  return { S with v := v }

/-- the DOFs of component `i` -/
def compDofs (nn : Nat) (d : Nat → Nat → Nat) (i : Nat) : Finset Nat := (range nn).image fun m => d m i

/-- a material that returns a stress for every history of strains (it may depend on the history in any way) -/
def Responds (ne : Nat) (material : List (Ten α) → Res (Ten α)) : Prop :=
  ∀ l : List (Ten α), l ≠ [] → (∀ t ∈ l, ∃ E, Is4 t ne 4 2 2 E) → IsOk (material l) fun t => ∃ S, Is4 t ne 4 2 2 S

/-- the stress is the function `Φ` of the last strain -/
def HistoryFree (ne : Nat) (material : List (Ten α) → Res (Ten α)) (Φ : (Nat → Nat → Nat → Nat → α) → Nat → Nat → Nat → Nat → α) : Prop :=
  ∀ (t : Ten α) (l : List (Ten α)) E, Is4 t ne 4 2 2 E → IsOk (material (t :: l)) fun s => Is4 s ne 4 2 2 (Φ E)

/-- twice the elastic energy: the integral of `E : C : E` -/
def elasticWork (ne : Nat) (vol : Nat → Nat → α) (C : Nat → Nat → Nat → Nat → Nat → Nat → α) (E : Nat → Nat → Nat → Nat → α) : α :=
  ∑ e ∈ range ne, ∑ q ∈ range 4, Element.Quad4.power 2 (Element.Quad4.ddot 2 (C e q) (E e q)) (E e q) * vol e q

end GF
