import Verif.Spec.Dynamics
import Verif.Spec.Box
import Verif.Spec.Hexahedron

/-! Specification vocabulary for dynamics in three dimensions: the program of docs/examples/dynamics/Elastic-Verlet/main.cpp with
`Element::Hex8` instead of `Element::Quad4`. -/

namespace GF
open Finset ElemSpec
variable {α : Type} [Field α]

/-- A mesh of hexahedra (not necessarily boxes): `c e 0, .., c e 7` are the nodes of element `e`, node `m` is at `x m`; every node is
a corner of an element, and the Jacobian determinant of every element is positive at its corners. -/
structure HexMesh {α : Type} [Field α] [LT α] (nn ne : Nat) (c : Nat → Nat → Nat) (x : Nat → Nat → α) : Prop where
  pos : 0 < nn
  valid : ∀ e m, e < ne → m < 8 → c e m < nn
  used : ∀ m, m < nn → ∃ e a, e < ne ∧ a < 8 ∧ c e a = m
  corners : ∀ e m, e < ne → m < 8 → 0 < det8 (fun m i => x (c e m) i) (corner8 m 0) (corner8 m 1) (corner8 m 2)

/-- The first part of the program.

    GF::Vector vector(conn, dofs);
    H8::Quadrature quad(vector.AsElement(coor));
    H8::Quadrature nodalQuad(vector.AsElement(coor), H8::Nodal::xi(), H8::Nodal::w());
    GF::MatrixDiagonal M(conn, dofs);
    M.assemble(nodalQuad.Int_N_scalar_NT_dV(rho)); -/
def Dynamics.new3 (s : α) (σ : Nat → Sched) (conn dofs : Ten Nat) (coor rho : Ten α) : Res (Dynamics α × MatrixDiagonal α) := do
  let (V, Q) ← setup3 s (σ 0) (σ 1) conn dofs coor
  let xe ← V.AsElement (σ 2) coor
  let xi ← Element.Hex8.Nodal.xi
  let w ← Element.Hex8.Nodal.w
  let nodal ← Element.Hex8.new (σ 3) xe xi w
  let M ← MatrixDiagonal.new conn dofs
  let me ← Element.Hex8.Int_N_scalar_NT_dV nodal (σ 4) rho
  let M ← M.assemble me
  return (⟨V, Q⟩, M)

/-- `vector.asElement(u, ue); quad.symGradN_vector(ue, Eps);` -/
def Dynamics.strain3 (D : Dynamics α) (σ τ : Sched) (u : Ten α) : Res (Ten α) := do
  let ue ← D.vector.AsElement σ u
  Element.Hex8.SymGradN_vector D.quad τ ue

/-- One increment of velocity Verlet, compare `Dynamics.stepWith`. -/
def Dynamics.step3 (D : Dynamics α) (dt : α) (material : List (Ten α) → Res (Ten α)) (fext : Ten α) (σ : Nat → Sched) (S : Motion α) :
    Res (Motion α) := do
  let u ← nodeExpr (fun u v a => u + dt * v + 1 / 2 * dt ^ 2 * a) S.u S.v S.a
  let Eps ← D.strain3 (σ 0) (σ 1) u
  let Sig ← material (Eps :: S.strains)
  let fe ← Element.Hex8.Int_gradN_dot_tensor2_dV D.quad (σ 2) Sig
  let fint ← D.vector.AssembleNode (σ 3) fe
  let fres ← nodeExpr (fun f g _ => f - g) fext fint fint
  let (M, a) ← S.M.solve_nodevec (fun i => σ (4 + i)) fres
  let v ← nodeExpr (fun v a a' => v + 1 / 2 * dt * (a + a')) S.v S.a a
  return ⟨u, v, a, M, Eps :: S.strains⟩

/-- `n` increments; `σ k` are the schedules of increment `k` -/
def Dynamics.run3 (D : Dynamics α) (dt : α) (material : List (Ten α) → Res (Ten α)) (fext : Ten α) (σ : Nat → Nat → Sched) :
    Nat → Motion α → Res (Motion α)
  | 0, S => .ok S
  | n + 1, S => do
    let S ← D.run3 dt material fext σ n S
    D.step3 dt material fext (σ n) S

/-- a material that returns a stress for every history of strains (it may depend on the history in any way) -/
def Responds3 (ne : Nat) (material : List (Ten α) → Res (Ten α)) : Prop :=
  ∀ l : List (Ten α), l ≠ [] → (∀ t ∈ l, ∃ E, Is4 t ne 8 3 3 E) → IsOk (material l) fun t => ∃ S, Is4 t ne 8 3 3 S

/-- the stress is the function `Φ` of the last strain -/
def HistoryFree3 (ne : Nat) (material : List (Ten α) → Res (Ten α)) (Φ : (Nat → Nat → Nat → Nat → α) → Nat → Nat → Nat → Nat → α) : Prop :=
  ∀ (t : Ten α) (l : List (Ten α)) E, Is4 t ne 8 3 3 E → IsOk (material (t :: l)) fun s => Is4 s ne 8 3 3 (Φ E)

/-- twice the elastic energy: the integral of `E : C : E` -/
def elasticWork3 (ne : Nat) (vol : Nat → Nat → α) (C : Nat → Nat → Nat → Nat → Nat → Nat → α) (E : Nat → Nat → Nat → Nat → α) : α :=
  ∑ e ∈ range ne, ∑ q ∈ range 8, Element.Quad4.power 3 (Element.Quad4.ddot 3 (C e q) (E e q)) (E e q) * vol e q

end GF
