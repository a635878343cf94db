import Verif.Spec.FineLayer
import Verif.Spec.Hexahedron

/-! Specification vocabulary for the three-dimensional `FineLayer` mesh. -/

namespace GF.FineLayerSpec

/-- The layers of one half of the mesh, counted outwards from the middle layer: `n` layers, layer `i` consists of
blocks of `wx i` times `g i` times `wz i` fine elements; `r i = 0` for a transition layer that is coarser than the
previous one in x-direction, `r i = 2` for one that is coarser in z-direction, `r i = -1` otherwise. -/
structure HalfLayers3 (nelx nelz nmin nfine n : Nat) (wx wz g : Nat → Nat) (r : Nat → Int) : Prop where
  pos : 0 < n
  /-- at least `nfine` layers -/
  fine : nfine ≤ n
  /-- the middle layer has the finest elements -/
  mid : wx 0 = 1 ∧ wz 0 = 1 ∧ g 0 = 1 ∧ r 0 = -1
  /-- A layer that is coarser in x-direction is followed by one that is coarser in z-direction, as high as itself,
  if the size fits the mesh and the requested height is not reached by two layers of that height.
  Otherwise the size in x-direction triples exactly outside the fine layers, if three times the current size
  does not exceed the distance to the middle, the requested height is not reached by one more layer of the
  current size, and the new size divides the mesh; if (only) the last condition fails and the new size does
  divide the mesh in z-direction, the size in z-direction triples.
  Otherwise the layer keeps the size of the previous one, and is as high as wide. -/
  step : ∀ i, i + 1 < n →
    if r i = 0 ∧ height g i + 2 * g i < nmin ∧ 3 * wz i ∣ nelz then
      r (i + 1) = 2 ∧ wx (i + 1) = wx i ∧ wz (i + 1) = 3 * wz i ∧ g (i + 1) = g i
    else if nfine ≤ i + 1 ∧ 3 * max (wx i) (wz i) ≤ height g (i + 1) ∧
        height g (i + 1) + max (wx i) (wz i) < nmin ∧ 3 * wx i ∣ nelx then
      r (i + 1) = 0 ∧ wx (i + 1) = 3 * wx i ∧ wz (i + 1) = wz i ∧ g (i + 1) = 2 * max (wx i) (wz i)
    else if nfine ≤ i + 1 ∧ 3 * max (wx i) (wz i) ≤ height g (i + 1) ∧
        height g (i + 1) + max (wx i) (wz i) < nmin ∧ 3 * wz i ∣ nelz then
      r (i + 1) = 2 ∧ wx (i + 1) = wx i ∧ wz (i + 1) = 3 * wz i ∧ g (i + 1) = 2 * max (wx i) (wz i)
    else r (i + 1) = -1 ∧ wx (i + 1) = wx i ∧ wz (i + 1) = wz i ∧ g (i + 1) = max (wx i) (wz i)
  /-- every layer fits the mesh -/
  fits : ∀ i, i < n → wx i ∣ nelx ∧ wz i ∣ nelz
  /-- the layers reach the requested (half) height, and no layer could be omitted -/
  reach : nmin ≤ height g n
  minimal : ∀ i, nfine ≤ i → i < n → height g i < nmin

/-- the five kinds of layers: a normal layer; a transition layer in x-direction below the middle (finer at its
top) and above the middle (finer at its bottom); the same in z-direction -/
inductive Kind3 where
  | normal | xBelow | xAbove | zBelow | zAbove
deriving DecidableEq

namespace Kind3

/-- number of elements per block -/
def tiles : Kind3 → Nat
  | .normal => 1
  | _ => 4

/-- number of units of length of a block in x-direction: a normal block is one unit, a transition block is three
units long in the direction of the transition, two units high, and one unit long in the remaining direction -/
def nx : Kind3 → Nat
  | .xBelow => 3
  | .xAbove => 3
  | _ => 1

/-- number of units of a block in y-direction -/
def ny : Kind3 → Nat
  | .normal => 1
  | _ => 2

/-- number of units of a block in z-direction -/
def nz : Kind3 → Nat
  | .zBelow => 3
  | .zAbove => 3
  | _ => 1

/-- corners (`x, y, z`, in units of length, relative to the lower left corner of the block; numbered as in
`Hex8`) of the elements of a block -/
def corners : Kind3 → List (List (List Nat))
  | .normal => [
      [[0, 0, 0], [1, 0, 0], [1, 1, 0], [0, 1, 0], [0, 0, 1], [1, 0, 1], [1, 1, 1], [0, 1, 1]]]
  | .xBelow => [
      [[0, 0, 0], [3, 0, 0], [2, 1, 0], [1, 1, 0], [0, 0, 1], [3, 0, 1], [2, 1, 1], [1, 1, 1]],
      [[3, 0, 0], [3, 2, 0], [2, 2, 0], [2, 1, 0], [3, 0, 1], [3, 2, 1], [2, 2, 1], [2, 1, 1]],
      [[1, 1, 0], [2, 1, 0], [2, 2, 0], [1, 2, 0], [1, 1, 1], [2, 1, 1], [2, 2, 1], [1, 2, 1]],
      [[0, 0, 0], [1, 1, 0], [1, 2, 0], [0, 2, 0], [0, 0, 1], [1, 1, 1], [1, 2, 1], [0, 2, 1]]]
  | .xAbove => [
      [[0, 0, 0], [1, 0, 0], [1, 1, 0], [0, 2, 0], [0, 0, 1], [1, 0, 1], [1, 1, 1], [0, 2, 1]],
      [[1, 0, 0], [2, 0, 0], [2, 1, 0], [1, 1, 0], [1, 0, 1], [2, 0, 1], [2, 1, 1], [1, 1, 1]],
      [[2, 0, 0], [3, 0, 0], [3, 2, 0], [2, 1, 0], [2, 0, 1], [3, 0, 1], [3, 2, 1], [2, 1, 1]],
      [[1, 1, 0], [2, 1, 0], [3, 2, 0], [0, 2, 0], [1, 1, 1], [2, 1, 1], [3, 2, 1], [0, 2, 1]]]
  | .zBelow => [
      [[0, 0, 0], [0, 0, 3], [1, 0, 3], [1, 0, 0], [0, 1, 1], [0, 1, 2], [1, 1, 2], [1, 1, 1]],
      [[0, 1, 2], [1, 1, 2], [1, 2, 2], [0, 2, 2], [0, 0, 3], [1, 0, 3], [1, 2, 3], [0, 2, 3]],
      [[0, 1, 1], [1, 1, 1], [1, 2, 1], [0, 2, 1], [0, 1, 2], [1, 1, 2], [1, 2, 2], [0, 2, 2]],
      [[0, 0, 0], [1, 0, 0], [1, 2, 0], [0, 2, 0], [0, 1, 1], [1, 1, 1], [1, 2, 1], [0, 2, 1]]]
  | .zAbove => [
      [[0, 0, 0], [1, 0, 0], [1, 2, 0], [0, 2, 0], [0, 0, 1], [1, 0, 1], [1, 1, 1], [0, 1, 1]],
      [[0, 0, 1], [1, 0, 1], [1, 1, 1], [0, 1, 1], [0, 0, 2], [1, 0, 2], [1, 1, 2], [0, 1, 2]],
      [[0, 0, 2], [1, 0, 2], [1, 1, 2], [0, 1, 2], [0, 0, 3], [1, 0, 3], [1, 2, 3], [0, 2, 3]],
      [[0, 1, 1], [1, 1, 1], [1, 2, 0], [0, 2, 0], [0, 1, 2], [1, 1, 2], [1, 2, 3], [0, 2, 3]]]

/-- coordinate `d` of corner `j` of element `q` -/
def corner (K : Kind3) (q j d : Nat) : Nat := ((K.corners.getD q []).getD j []).getD d 0

end Kind3

/-- kind of layer `i` of `2 n - 1` layers, for given type of the layers counted from the middle -/
def kind3 (n : Nat) (r : Nat → Int) (i : Nat) : Kind3 :=
  if r (dist n i) = 0 then (if i < n then .xBelow else .xAbove)
  else if r (dist n i) = 2 then (if i < n then .zBelow else .zAbove)
  else .normal

/-- The mesh described by the layers: `n` layers (of blocks of `wx` times `g` times `wz`, type `r`) in each half,
node `m` at `(x m 0, x m 1, x m 2)`, element `e` has the nodes `c e 0, .., c e 7`; the elements of layer `i` are
numbered from `s i`, block by block, first along `x`, then along `z`. -/
structure FineMesh3 {α : Type} [Mul α] [NatCast α] (nelx nelz n : Nat) (wx wz g : Nat → Nat) (r : Nat → Int) (h : α)
    (nnode nelem : Nat) (x : Nat → Nat → α) (c : Nat → Nat → Nat) (s : Nat → Nat) : Prop where
  /-- the layers partition the elements -/
  first : s 0 = 0
  next : ∀ i, i < 2 * n - 1 →
    s (i + 1) = s i + nelx / wx (dist n i) * (nelz / wz (dist n i)) * (kind3 n r i).tiles
  last : s (2 * n - 1) = nelem
  /-- the connectivity refers to nodes of the mesh -/
  valid : ∀ e j, e < nelem → j < 8 → c e j < nnode
  /-- element `q` of block `bx, bz` of layer `i` has its corners at the documented positions -/
  pos : ∀ i bx bz q j, i < 2 * n - 1 → bx < nelx / wx (dist n i) → bz < nelz / wz (dist n i) →
    q < (kind3 n r i).tiles → j < 8 →
    x (c (s i + (bx + bz * (nelx / wx (dist n i))) * (kind3 n r i).tiles + q) j) 0 =
      h * ((bx * wx (dist n i) + (kind3 n r i).corner q j 0 * (wx (dist n i) / (kind3 n r i).nx) : Nat) : α) ∧
    x (c (s i + (bx + bz * (nelx / wx (dist n i))) * (kind3 n r i).tiles + q) j) 1 =
      h * ((height (fun k => g (dist n k)) i +
        (kind3 n r i).corner q j 1 * (g (dist n i) / (kind3 n r i).ny) : Nat) : α) ∧
    x (c (s i + (bx + bz * (nelx / wx (dist n i))) * (kind3 n r i).tiles + q) j) 2 =
      h * ((bz * wz (dist n i) + (kind3 n r i).corner q j 2 * (wz (dist n i) / (kind3 n r i).nz) : Nat) : α)

end GF.FineLayerSpec
