import Verif.Spec.System
import Verif.Spec.Mesh3d
import Verif.Model.ElementHex8

/-! Specification vocabulary for whole three-dimensional systems (mesh, DOFs, quadrature together). -/

namespace GF
open Finset

/-- a grid of `nx · ny · nz` cells: `node i j k` is the number of the node at grid point `(i, j, k)`, `cell i j k` that of
the element in cell `(i, j, k)` -/
structure BoxGrid where
  nx : Nat
  ny : Nat
  nz : Nat
  node : Nat → Nat → Nat → Nat
  cell : Nat → Nat → Nat → Nat

/-- entry `a` of `(i, j, k)` -/
def idx3 (i j k a : Nat) : Nat := if a = 0 then i else if a = 1 then j else k

/-- A mesh of a box with `ne` rectangular hexahedra (element `e` has the nodes `c e 0, .., c e 7`, in the standard order) and
`nn` nodes (node `m` at `(x m 0, x m 1, x m 2)`): the cells and points of a grid with lines at `p 0 i`, `p 1 j`, `p 2 k`,
numbered in any order. -/
structure BoxMesh {α : Type} [LT α] (nn ne : Nat) (c : Nat → Nat → Nat) (x : Nat → Nat → α) (g : BoxGrid) (p : Nat → Nat → α) :
    Prop where
  size : 0 < g.nx ∧ 0 < g.ny ∧ 0 < g.nz
  mono : ∀ i, (i < g.nx → p 0 i < p 0 (i + 1)) ∧ (i < g.ny → p 1 i < p 1 (i + 1)) ∧ (i < g.nz → p 2 i < p 2 (i + 1))
  node_lt : ∀ i j k, i ≤ g.nx → j ≤ g.ny → k ≤ g.nz → g.node i j k < nn
  node_surj : ∀ m, m < nn → ∃ i j k, i ≤ g.nx ∧ j ≤ g.ny ∧ k ≤ g.nz ∧ g.node i j k = m
  cell_lt : ∀ i j k, i < g.nx → j < g.ny → k < g.nz → g.cell i j k < ne
  cell_surj : ∀ e, e < ne → ∃ i j k, i < g.nx ∧ j < g.ny ∧ k < g.nz ∧ g.cell i j k = e
  cell_inj : ∀ i j k i' j' k', i < g.nx → j < g.ny → k < g.nz → i' < g.nx → j' < g.ny → k' < g.nz →
    g.cell i j k = g.cell i' j' k' → i = i' ∧ j = j' ∧ k = k'
  position : ∀ i j k, i ≤ g.nx → j ≤ g.ny → k ≤ g.nz →
    x (g.node i j k) 0 = p 0 i ∧ x (g.node i j k) 1 = p 1 j ∧ x (g.node i j k) 2 = p 2 k
  conn : ∀ i j k m, i < g.nx → j < g.ny → k < g.nz → m < 8 →
    c (g.cell i j k) m = g.node (i + hexOffset m 0) (j + hexOffset m 1) (k + hexOffset m 2)

variable {α : Type} [Field α]

/-- the force on DOF `r` due to the constant traction `S a 0, S a 1, S a 2` (stress on a plane with normal `a`) on a rectangle
of area `A` with corners `m 0, .., m 3`: a quarter of the force acts on each corner; `d m j` is the DOF of component `j` of
node `m` -/
def faceForce (d : Nat → Nat → Nat) (S : Nat → Nat → α) (r a : Nat) (A : α) (m : Nat → Nat) : α :=
  ∑ b ∈ range 3, A * S a b / 4 * ∑ l ∈ range 4, if d (m l) b = r then 1 else 0

/-- the corners of a rectangle given by two bits -/
def bits (f : Nat → Nat → Nat) (l : Nat) : Nat := f (l % 2) (l / 2)

/-- The force on DOF `r` due to tractions on the six faces of the box: the normal points outwards, so the sign is positive on
the faces at the end of the grid lines, and negative on those at their start. -/
def surfaceForce (g : BoxGrid) (p : Nat → Nat → α) (d : Nat → Nat → Nat) (S : Nat → Nat → α) (r : Nat) : α :=
  (∑ j ∈ range g.ny, ∑ k ∈ range g.nz,
    (faceForce d S r 0 ((p 1 (j + 1) - p 1 j) * (p 2 (k + 1) - p 2 k)) (bits fun u v => g.node g.nx (j + u) (k + v)) -
     faceForce d S r 0 ((p 1 (j + 1) - p 1 j) * (p 2 (k + 1) - p 2 k)) (bits fun u v => g.node 0 (j + u) (k + v)))) +
  (∑ i ∈ range g.nx, ∑ k ∈ range g.nz,
    (faceForce d S r 1 ((p 0 (i + 1) - p 0 i) * (p 2 (k + 1) - p 2 k)) (bits fun u v => g.node (i + u) g.ny (k + v)) -
     faceForce d S r 1 ((p 0 (i + 1) - p 0 i) * (p 2 (k + 1) - p 2 k)) (bits fun u v => g.node (i + u) 0 (k + v)))) +
  ∑ i ∈ range g.nx, ∑ j ∈ range g.ny,
    (faceForce d S r 2 ((p 0 (i + 1) - p 0 i) * (p 1 (j + 1) - p 1 j)) (bits fun u v => g.node (i + u) (j + v) g.nz) -
     faceForce d S r 2 ((p 0 (i + 1) - p 0 i) * (p 1 (j + 1) - p 1 j)) (bits fun u v => g.node (i + u) (j + v) 0))

/-- `n` is the number of DOFs: one more than the highest DOF of `nn` nodes with three components -/
def NumDofs3 (nn : Nat) (d : Nat → Nat → Nat) (n : Nat) : Prop :=
  (∀ m i, m < nn → i < 3 → d m i < n) ∧ ∃ m i, m < nn ∧ i < 3 ∧ n = d m i + 1

/-! User programs, compare Spec/System.lean. -/

/-- `vector = Vector(conn, dofs); elem = Element::Hex8::Quadrature(vector.AsElement(coor))` -/
def setup3 (s : α) (σ τ : Sched) (conn dofs : Ten Nat) (coor : Ten α) : Res (Vector × Element.Quadrature α) := do
  let V ← Vector.new conn dofs
  let xe ← V.AsElement σ coor
  let Q ← Element.Hex8.newGauss s τ xe
  return (V, Q)

/-- `vector.AssembleDofs(elem.Int_gradN_dot_tensor2_dV(Sig))` -/
def internalForce3 (σ : Sched) (V : Vector) (Q : Element.Quadrature α) (sig : Ten α) : Res (Ten α) := do
  let fe ← Element.Hex8.Int_gradN_dot_tensor2_dV Q σ sig
  V.AssembleDofs fe

/-- `elem.GradN_vector(vector.AsElement(u))` -/
def gradient3 (σ τ : Sched) (V : Vector) (Q : Element.Quadrature α) (u : Ten α) : Res (Ten α) := do
  let ue ← V.AsElement σ u
  Element.Hex8.GradN_vector Q τ ue

/-- a tangent `C` that responds to the strain only, and whose energy is positive unless the strain is zero
(`g` is the gradient of the displacement; its symmetric part is the strain) -/
structure Elastic3 [LE α] (C : Nat → Nat → Nat → Nat → α) : Prop where
  minor : ∀ i j k l, i < 3 → j < 3 → k < 3 → l < 3 → C i j k l = C i j l k
  nonneg : ∀ g, 0 ≤ Element.Quad4.power 3 (Element.Quad4.ddot 3 C g) g
  pos : ∀ g, Element.Quad4.power 3 (Element.Quad4.ddot 3 C g) g = 0 → ∀ i j, i < 3 → j < 3 → g i j + g j i = 0

/-- the DOFs `f` are those of an infinitesimal rigid motion: translation `b` and rotation vector `θ` (about the origin) -/
def RigidMotion3 (nn : Nat) (d : Nat → Nat → Nat) (x : Nat → Nat → α) (f : Nat → α) (θ b : Nat → α) : Prop :=
  ∀ m, m < nn → f (d m 0) = b 0 + (θ 1 * x m 2 - θ 2 * x m 1) ∧ f (d m 1) = b 1 + (θ 2 * x m 0 - θ 0 * x m 2) ∧
    f (d m 2) = b 2 + (θ 0 * x m 1 - θ 1 * x m 0)

/-- the prescribed DOFs `iip` admit no rigid motion -/
def Supported3 (nn : Nat) (d : Nat → Nat → Nat) (x : Nat → Nat → α) (iip : List Nat) : Prop :=
  ∀ f θ b, RigidMotion3 nn d x f θ b → (∀ k ∈ iip, f k = 0) → ∀ i, i < 3 → θ i = 0 ∧ b i = 0

end GF
