import Verif.Spec.Dynamics
import Verif.Spec.Axi

/-! Specification vocabulary for axisymmetric dynamics: the program of docs/examples/dynamics/Elastic-Verlet/main.cpp with
`Element::Quad4::QuadratureAxisymmetric` instead of `Element::Quad4::Quadrature`. -/

namespace GF
open Finset ElemSpec
variable {α : Type} [Field α]

/-- A mesh of quadrilaterals of any shape in the half-plane `r ≥ 0`: `c e 0, .., c e 3` are the nodes of element `e`, node `m` is at
`(z, r) = (y m 0, y m 1)`; every node is a corner of an element, and the Jacobian determinant of every element is positive at its
corners. -/
structure RingMesh {α : Type} [Field α] [LinearOrder α] (nn ne : Nat) (c : Nat → Nat → Nat) (y : Nat → Nat → α) : Prop where
  pos : 0 < nn
  valid : ∀ e m, e < ne → m < 4 → c e m < nn
  used : ∀ m, m < nn → ∃ e a, e < ne ∧ a < 4 ∧ c e a = m
  corners : ∀ e m, e < ne → m < 4 → 0 < det4 (fun m i => y (c e m) i) (corner4 m 0) (corner4 m 1)
  radius : ∀ m, m < nn → 0 ≤ y m 1

/-- the objects that do not change during the simulation -/
structure DynamicsAxi (α : Type) where
  vector : Vector
  quad : Element.QuadratureAxi α

/-- The first part of the program.

    GF::Vector vector(conn, dofs);
    QD::QuadratureAxisymmetric quad(vector.AsElement(coor));
    QD::QuadratureAxisymmetric nodalQuad(vector.AsElement(coor), QD::Nodal::xi(), QD::Nodal::w());
    GF::MatrixDiagonal M(conn, dofs);
    M.assemble(nodalQuad.Int_N_scalar_NT_dV(rho)); -/
def DynamicsAxi.new (s pi : α) (σ : Nat → Sched) (conn dofs : Ten Nat) (coor rho : Ten α) : Res (DynamicsAxi α × MatrixDiagonal α) := do
  let (V, Q) ← setupAxi s pi (σ 0) (σ 1) conn dofs coor
  let xe ← V.AsElement (σ 2) coor
  let xi ← Element.Quad4.Nodal.xi
  let w ← Element.Quad4.Nodal.w
  let nodal ← Element.Axi.new pi (σ 3) xe xi w
  let M ← MatrixDiagonal.new conn dofs
  let me ← Element.Axi.Int_N_scalar_NT_dV nodal (σ 4) rho
  let M ← M.assemble me
  return (⟨V, Q⟩, M)

/-- `vector.asElement(u, ue); quad.symGradN_vector(ue, Eps);` -/
def DynamicsAxi.strain (D : DynamicsAxi α) (σ τ : Sched) (u : Ten α) : Res (Ten α) := do
  let ue ← D.vector.AsElement σ u
  Element.Axi.SymGradN_vector D.quad τ ue

/-- One increment of velocity Verlet, compare `Dynamics.stepWith`. -/
def DynamicsAxi.step (D : DynamicsAxi α) (dt : α) (material : List (Ten α) → Res (Ten α)) (fext : Ten α) (σ : Nat → Sched) (S : Motion α) :
    Res (Motion α) := do
  let u ← nodeExpr (fun u v a => u + dt * v + 1 / 2 * dt ^ 2 * a) S.u S.v S.a
  let Eps ← D.strain (σ 0) (σ 1) u
  let Sig ← material (Eps :: S.strains)
  let fe ← Element.Axi.Int_gradN_dot_tensor2_dV D.quad (σ 2) Sig
  let fint ← D.vector.AssembleNode (σ 3) fe
  let fres ← nodeExpr (fun f g _ => f - g) fext fint fint
  let (M, a) ← S.M.solve_nodevec (fun i => σ (4 + i)) fres
  let v ← nodeExpr (fun v a a' => v + 1 / 2 * dt * (a + a')) S.v S.a a
  return ⟨u, v, a, M, Eps :: S.strains⟩

/-- `n` increments; `σ k` are the schedules of increment `k` -/
def DynamicsAxi.run (D : DynamicsAxi α) (dt : α) (material : List (Ten α) → Res (Ten α)) (fext : Ten α) (σ : Nat → Nat → Sched) :
    Nat → Motion α → Res (Motion α)
  | 0, S => .ok S
  | n + 1, S => do
    let S ← D.run dt material fext σ n S
    D.step dt material fext (σ n) S

/-- a material that returns a stress for every history of strains (it may depend on the history in any way) -/
def RespondsAxi (ne : Nat) (material : List (Ten α) → Res (Ten α)) : Prop :=
  ∀ l : List (Ten α), l ≠ [] → (∀ t ∈ l, ∃ E, Is4 t ne 4 3 3 E) → IsOk (material l) fun t => ∃ S, Is4 t ne 4 3 3 S

/-- the stress is the function `Φ` of the last strain -/
def HistoryFreeAxi (ne : Nat) (material : List (Ten α) → Res (Ten α)) (Φ : (Nat → Nat → Nat → Nat → α) → Nat → Nat → Nat → Nat → α) : Prop :=
  ∀ (t : Ten α) (l : List (Ten α)) E, Is4 t ne 4 3 3 E → IsOk (material (t :: l)) fun s => Is4 s ne 4 3 3 (Φ E)

/-- twice the elastic energy: the integral of `E : C : E` -/
def elasticWorkAxi (ne : Nat) (vol : Nat → Nat → α) (C : Nat → Nat → Nat → Nat → Nat → Nat → α) (E : Nat → Nat → Nat → Nat → α) : α :=
  ∑ e ∈ range ne, ∑ q ∈ range 4, Element.Quad4.power 3 (Element.Quad4.ddot 3 (C e q) (E e q)) (E e q) * vol e q

end GF
