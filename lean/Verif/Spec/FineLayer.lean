import Verif.Spec.Mesh
import Mathlib.Algebra.BigOperators.Group.Finset.Basic

/-! Specification vocabulary for the `FineLayer` meshes. -/

namespace GF.FineLayerSpec
open Finset

/-- height of the first `i` layers -/
def height (g : Nat → Nat) (i : Nat) : Nat := ∑ k ∈ range i, g k

/-- distance (in layers) between layer `i` of `2 n - 1` layers and the middle layer -/
def dist (n i : Nat) : Nat := if i < n then n - 1 - i else i - (n - 1)

/-- The layers of one half of the mesh, counted outwards from the middle layer: `n` layers, layer `i` consists of
blocks of `w i` times `g i` fine elements; `r i = 0` for a transition layer (coarser than the previous one),
`r i = -1` otherwise. -/
structure HalfLayers (nelx nmin nfine n : Nat) (w g : Nat → Nat) (r : Nat → Int) : Prop where
  pos : 0 < n
  /-- at least `nfine` layers -/
  fine : nfine ≤ n
  /-- the middle layer has the finest elements -/
  mid : w 0 = 1 ∧ g 0 = 1 ∧ r 0 = -1
  /-- a layer keeps the size of the previous one, or the size triples in a transition layer; this happens
  exactly outside the fine layers, if the new size does not exceed the distance to the middle, divides the
  mesh, and the requested height is not reached by one more layer of the current size -/
  step : ∀ i, i + 1 < n →
    if nfine ≤ i + 1 ∧ 3 * w i ≤ height g (i + 1) ∧ 3 * w i ∣ nelx ∧ height g (i + 1) + w i < nmin then
      r (i + 1) = 0 ∧ w (i + 1) = 3 * w i ∧ g (i + 1) = 2 * w i
    else r (i + 1) = -1 ∧ w (i + 1) = w i ∧ g (i + 1) = w i
  /-- every layer fits the width of the mesh -/
  fits : ∀ i, i < n → w i ∣ nelx
  /-- the layers reach the requested (half) height, and no layer could be omitted -/
  reach : nmin ≤ height g n
  minimal : ∀ i, nfine ≤ i → i < n → height g i < nmin

/-- the three kinds of layers: a normal layer, a transition layer below the middle (finer at its top), a
transition layer above the middle (finer at its bottom) -/
inductive Kind where
  | normal | below | above
deriving DecidableEq

/-- number of elements per block -/
def Kind.tiles : Kind → Nat
  | .normal => 1
  | _ => 4

/-- number of units of length along the width of a block: a normal block is one unit wide and high, a transition
block is three units wide and two units high -/
def Kind.cols : Kind → Nat
  | .normal => 1
  | _ => 3

def Kind.rows : Kind → Nat
  | .normal => 1
  | _ => 2

/-- corners (counter-clockwise) of element `q` of a block, in units of length, relative to the lower left corner
of the block -/
def Kind.corners : Kind → List (List (Nat × Nat))
  | .normal => [[(0, 0), (1, 0), (1, 1), (0, 1)]]
  | .below => [[(0, 0), (3, 0), (2, 1), (1, 1)], [(3, 0), (3, 2), (2, 2), (2, 1)],
      [(1, 1), (2, 1), (2, 2), (1, 2)], [(0, 0), (1, 1), (1, 2), (0, 2)]]
  | .above => [[(0, 0), (1, 0), (1, 1), (0, 2)], [(1, 0), (2, 0), (2, 1), (1, 1)],
      [(2, 0), (3, 0), (3, 2), (2, 1)], [(1, 1), (2, 1), (3, 2), (0, 2)]]

/-- corner `j` of element `q` -/
def Kind.corner (K : Kind) (q j : Nat) : Nat × Nat := (K.corners.getD q []).getD j (0, 0)

/-- kind of layer `i` of `2 n - 1` layers, for given type of the layers counted from the middle -/
def kind (n : Nat) (r : Nat → Int) (i : Nat) : Kind :=
  if r (dist n i) = -1 then .normal else if i < n then .below else .above

/-- The mesh described by the layers: `n` layers (of blocks of `w` times `g`, type `r`) in each half, node `m` at
`(x m 0, x m 1)`, element `e` has the nodes `c e 0, .., c e 3`; the elements of layer `i` are numbered from
`s i`, block by block. -/
structure FineMesh {α : Type} [Mul α] [NatCast α] (nelx n : Nat) (w g : Nat → Nat) (r : Nat → Int) (h : α)
    (nnode nelem : Nat) (x : Nat → Nat → α) (c : Nat → Nat → Nat) (s : Nat → Nat) : Prop where
  /-- the layers partition the elements -/
  first : s 0 = 0
  next : ∀ i, i < 2 * n - 1 → s (i + 1) = s i + nelx / w (dist n i) * (kind n r i).tiles
  last : s (2 * n - 1) = nelem
  /-- the connectivity refers to nodes of the mesh -/
  valid : ∀ e j, e < nelem → j < 4 → c e j < nnode
  /-- element `q` of block `b` of layer `i` has its corners at the documented positions -/
  pos : ∀ i b q j, i < 2 * n - 1 → b < nelx / w (dist n i) → q < (kind n r i).tiles → j < 4 →
    x (c (s i + b * (kind n r i).tiles + q) j) 0 =
      h * ((b * w (dist n i) + ((kind n r i).corner q j).1 * (w (dist n i) / (kind n r i).cols) : Nat) : α) ∧
    x (c (s i + b * (kind n r i).tiles + q) j) 1 =
      h * ((height (fun k => g (dist n k)) i +
        ((kind n r i).corner q j).2 * (w (dist n i) / (kind n r i).cols) : Nat) : α)

end GF.FineLayerSpec
