import Verif.Tests.Check
import Verif.Model.MeshRegular2d
import Verif.Model.FineLayer
import Verif.Model.FineLayerMapping
import Verif.Model.FineLayer2Regular
import Verif.Model.RefineRegular
import Verif.Model.Stitch
import Verif.Model.Incidence
import Verif.Model.MeshMeasures
import Mathlib.Algebra.Field.Rat
import Mathlib.Algebra.Order.Ring.Rat
import Mathlib.Data.Rat.Floor
import Mathlib.Data.List.Sort

/-! `/repo/tests/basic/Mesh.cpp`, `/repo/tests/test_Mesh.py`, and the sections on `replica`, `Map::RefineRegular` and
`Map::FineLayer2Regular` of `/repo/tests/basic/MeshQuad4.cpp` (random data is replaced by fixed data; in the sections on stitching the
meshes are 2 x 2 instead of 5 x 5, to keep the evaluation by the kernel fast). -/

namespace GF.Tests

def eqQ (a b : ℚ) : Bool := decide (a = b)

/-- both calls return arrays with the same shape and entries -/
def sameTen {β : Type} [DecidableEq β] (r s : Res (Ten β)) : Bool :=
  match s with
  | .ok t => (match t.flat with
    | .ok l => isTen r t.shape l
    | _ => false)
  | _ => false

def reg (nx ny : Nat) (h : ℚ) : Regular2d ℚ := Quad4.Regular.new nx ny h
def regCoor (nx ny : Nat) (h : ℚ) : Res (Ten ℚ) := (reg nx ny h).coor
def regConn (nx ny : Nat) : Res (Ten Nat) := Quad4.Regular.conn (reg nx ny 1)

/-- `coor(:, 1) += s` -/
def up (s : ℚ) (r : Res (Ten ℚ)) : Res (Ten ℚ) :=
  r.bind fun t => .ok ⟨t.shape, fun ix => (t.v ix).map fun a => if ix.getD 1 0 = 1 then a + s else a⟩

theorem sortNat_eq : sortNat = fun l => l.insertionSort (· ≤ ·) := by
  funext l
  unfold sortNat
  exact List.mergeSort_eq_insertionSort (· ≤ ·) l

/-- section "overlapping", Mesh.cpp:10 -/
example : isVal ((regCoor 2 2 1).bind fun a => (up 2 (regCoor 2 2 1)).bind fun b => overlapping eqQ a b)
    ([6, 7, 8], [0, 1, 2]) = true := by
  decide +kernel

def stitchM : Res (ManualStitch ℚ) :=
  (regCoor 2 2 1).bind fun a => (up 2 (regCoor 2 2 1)).bind fun b => (regConn 2 2).bind fun c =>
    ManualStitch.new eqQ a c [6, 7, 8] b c [0, 1, 2] true

/-- section "ManualStitch", Mesh.cpp:27 -/
example : sameTen (stitchM.bind fun S => .ok S.coor) (regCoor 2 4 1) = true := by
  decide +kernel

example : sameTen (stitchM.bind fun S => .ok S.conn) (regConn 2 4) = true := by
  decide +kernel

example : isTen (stitchM.bind fun S => .ok (S.nodemap 0)) [9] (List.range 9) = true := by
  decide +kernel

example : isTen (stitchM.bind fun S => .ok (S.nodemap 1)) [9] (List.range' 6 9) = true := by
  decide +kernel

example : isTen (stitchM.bind fun S => .ok (S.elemmap 0)) [4] (List.range 4) = true := by
  decide +kernel

example : isTen (stitchM.bind fun S => .ok (S.elemmap 1)) [4] (List.range' 4 4) = true := by
  decide +kernel

example : isTen (stitchM.bind fun S => S.nodeset (arange 0 9) 1) [9] (List.range' 6 9) = true := by
  decide +kernel

example : isTen (stitchM.bind fun S => S.elemset (arange 0 4) 1) [4] (List.range' 4 4) = true := by
  decide +kernel

def stitch2 : Res (Stitch ℚ) :=
  (regCoor 2 2 1).bind fun a => (up 2 (regCoor 2 2 1)).bind fun b => (regConn 2 2).bind fun c =>
    (Stitch.new.push_back eqQ a c).bind fun S => S.push_back eqQ b c

/-- section "Stitch", Mesh.cpp:72 -/
example : sameTen (stitch2.bind fun S => .ok S.coor) (regCoor 2 4 1) = true := by
  decide +kernel

example : sameTen (stitch2.bind fun S => .ok S.conn) (regConn 2 4) = true := by
  decide +kernel

example : isTen (stitch2.bind fun S => S.nodemap 1) [9] (List.range' 6 9) = true := by
  decide +kernel

example : isTen (stitch2.bind fun S => S.elemmap 1) [4] (List.range' 4 4) = true := by
  decide +kernel

example : isVal (stitch2.bind fun S => S.elemsets [arange 0 4, arange 0 4]) (List.range 8) = true := by
  decide +kernel

def vstack (k : Nat) : Res (Vstack ℚ) :=
  (regCoor 2 2 1).bind fun a => (regConn 2 2).bind fun c =>
    forEach (List.range k) (fun V _ => V.push_back eqQ a c [0, 1, 2] [6, 7, 8]) (Vstack.new true)

/-- section "Vstack", Mesh.cpp:126 -/
example : sameTen ((vstack 2).bind fun S => .ok S.base.coor) (regCoor 2 4 1) = true := by
  decide +kernel

example : sameTen ((vstack 2).bind fun S => .ok S.base.conn) (regConn 2 4) = true := by
  decide +kernel

/-- section "Vstack - several layers", Mesh.cpp:170 (three layers instead of five) -/
example : sameTen ((vstack 3).bind fun S => .ok S.base.conn) (regConn 2 6) = true := by
  decide +kernel

example : isVal ((vstack 3).bind fun S => .ok S.base.nmesh) 3 = true := by
  decide +kernel

/-- section "coordination", Mesh.cpp:199 -/
example : isTen ((regConn 3 3).bind fun c => coordination c) [16] [1, 2, 2, 1, 2, 4, 4, 2, 2, 4, 4, 2, 1, 2, 2, 1] =
    true := by
  decide +kernel

/-- section "centers", Mesh.cpp:207 -/
example : isTen ((regCoor 2 2 2).bind fun x => (regConn 2 2).bind fun c => centersDefault x c) [4, 2]
    [1, 1, 3, 1, 1, 3, 3, 3] = true := by
  decide +kernel

/-- section "elem2node", Mesh.cpp:215 -/
example : isVal ((regConn 3 3).bind fun c => elem2node c false)
    [[0], [0, 1], [1, 2], [2], [0, 3], [0, 1, 3, 4], [1, 2, 4, 5], [2, 5], [3, 6], [3, 4, 6, 7], [4, 5, 7, 8], [5, 8],
      [6], [6, 7], [7, 8], [8]] = true := by
  decide +kernel

def nodemap (elmap : List Nat) : Res (Ten Nat) :=
  (regCoor 3 3 1).bind fun x => (regConn 3 3).bind fun c => elemmap2nodemapDefault (lit [9] elmap) x c

/-- section "elemmap2nodemap", Mesh.cpp:238 -/
example : isTen (nodemap [0, 1, 2, 3, 4, 5, 6, 7, 8]) [16] (List.range 16) = true := by
  decide +kernel

example : isTen (nodemap [2, 0, 1, 5, 3, 4, 8, 6, 7]) [16] [2, 0, 1, 2, 6, 4, 5, 6, 10, 8, 9, 10, 14, 15, 13, 14] =
    true := by
  decide +kernel

example : isTen (nodemap [1, 2, 0, 4, 5, 3, 7, 8, 6]) [16] [1, 2, 0, 1, 5, 6, 4, 5, 9, 10, 8, 9, 13, 14, 15, 13] =
    true := by
  decide +kernel

/-- sections "elemmap2nodemap - example 1/2", Mesh.cpp:261, 320: the node values seen through the map of `roll(n)` -/
def rolled (n : Nat) (nodeval : List Nat) : Res (List Nat) :=
  (FineLayer.new 3 3 (1 : ℚ) 1).bind fun M => M.coor.bind fun x => M.conn.bind fun c => (M.roll n).bind fun e =>
    (elemmap2nodemapDefault e x c).bind fun m => m.flat.bind fun l => .ok (l.map fun i => nodeval.getD i 7)

def val1 : List Nat := [1, 0, 0, 1, 1, 0, 0, 1, 1, 0, 0, 1, 1, 0, 0, 1]
def val2 : List Nat := [1, 0, 0, 1, 0, 1, 0, 0, 0, 0, 1, 0, 1, 0, 0, 1]

example : isVal (rolled 0 val1) val1 = true := by decide +kernel
example : isVal (rolled 1 val1) [0, 1, 0, 0, 0, 1, 0, 0, 0, 1, 0, 0, 0, 1, 0, 0] = true := by decide +kernel
example : isVal (rolled 2 val1) [0, 0, 1, 0, 0, 0, 1, 0, 0, 0, 1, 0, 0, 0, 1, 0] = true := by decide +kernel
example : isVal (rolled 5 val1) [0, 0, 1, 0, 0, 0, 1, 0, 0, 0, 1, 0, 0, 0, 1, 0] = true := by decide +kernel
example : isVal (rolled 0 val2) val2 = true := by decide +kernel
example : isVal (rolled 1 val2) [0, 1, 0, 0, 0, 0, 1, 0, 1, 0, 0, 1, 0, 1, 0, 0] = true := by decide +kernel
example : isVal (rolled 2 val2) [0, 0, 1, 0, 1, 0, 0, 1, 0, 1, 0, 0, 0, 0, 1, 0] = true := by decide +kernel
example : isVal (rolled 4 val2) [0, 1, 0, 0, 0, 0, 1, 0, 1, 0, 0, 1, 0, 1, 0, 0] = true := by decide +kernel

/-- `test_coordination_dofs`, test_Mesh.py:23 -/
example : isTen ((Quad4.Regular.dofsPeriodic (reg 4 4 1)).bind coordination) [32]
    [4, 4, 2, 2, 2, 2, 2, 2, 2, 2, 1, 1, 1, 1, 1, 1, 2, 2, 1, 1, 1, 1, 1, 1, 2, 2, 1, 1, 1, 1, 1, 1] = true := by
  decide +kernel

/-- `test_coordination_node2dof`, test_Mesh.py:51 -/
example : isVal ((Quad4.Regular.dofsPeriodic (reg 4 4 1)).bind fun d => node2dof d false)
    [[0, 4, 20, 24], [0, 4, 20, 24], [1, 21], [1, 21], [2, 22], [2, 22], [3, 23], [3, 23], [5, 9], [5, 9], [6], [6],
      [7], [7], [8], [8], [10, 14], [10, 14], [11], [11], [12], [12], [13], [13], [15, 19], [15, 19], [16], [16], [17],
      [17], [18], [18]] = true := by
  decide +kernel

/-- `test_coordination_nodaltyings`, test_Mesh.py:96 -/
example : isVal ((Quad4.Regular.dofsPeriodic (reg 4 4 1)).bind fun d => nodaltyings d)
    [[0, 4, 20, 24], [1, 21], [2, 22], [3, 23], [0, 4, 20, 24], [5, 9], [6], [7], [8], [5, 9], [10, 14], [11], [12],
      [13], [10, 14], [15, 19], [16], [17], [18], [15, 19], [0, 4, 20, 24], [1, 21], [2, 22], [3, 23],
      [0, 4, 20, 24]] = true := by
  simp only [nodaltyings, node2dof, elem2node, sortNat_eq]
  decide +kernel

/-- `test_elem2node_periodic`, test_Mesh.py:134 -/
example : isVal ((Quad4.Regular.dofsPeriodic (reg 4 4 1)).bind fun d => (regConn 4 4).bind fun c =>
      elem2nodeTied c d true)
    ([[15, 12, 3, 0], [12, 13, 0, 1], [13, 14, 1, 2], [14, 15, 2, 3], [15, 12, 3, 0], [3, 0, 7, 4], [0, 1, 4, 5],
      [1, 2, 5, 6], [2, 3, 6, 7], [3, 0, 7, 4], [7, 4, 11, 8], [4, 5, 8, 9], [5, 6, 9, 10], [6, 7, 10, 11],
      [7, 4, 11, 8], [11, 8, 15, 12], [8, 9, 12, 13], [9, 10, 13, 14], [10, 11, 14, 15], [11, 8, 15, 12],
      [15, 12, 3, 0], [12, 13, 0, 1], [13, 14, 1, 2], [14, 15, 2, 3], [15, 12, 3, 0]].map
        (·.insertionSort (· ≤ ·))) = true := by
  simp only [elem2nodeTied, mergeTied, nodaltyings, node2dof, elem2node, sortNat_eq]
  decide +kernel

/-- `FineLayer(coor, conn)` of the mesh -/
def replica (nx ny : Nat) : Res (FineLayer ℚ) :=
  (FineLayer.new nx ny (1 : ℚ) 1).bind fun M => M.coor.bind fun x => M.conn.bind fun c =>
    FineLayer.ofMesh eqQ (fun q => q.floor.toNat) x c

/-- sections "FineLayer - replica", MeshQuad4.cpp:400, 408 -/
example : sameTen ((replica 1 1).bind fun M => M.conn) ((FineLayer.new 1 1 (1 : ℚ) 1).bind fun M => M.conn) = true := by
  decide +kernel

example : sameTen ((replica 4 4).bind fun M => M.coor) ((FineLayer.new 4 4 (1 : ℚ) 1).bind fun M => M.coor) = true := by
  decide +kernel

/-- sections "Map::RefineRegular", MeshQuad4.cpp:513-588, on a smaller mesh and fixed data -/
def refine : Res (RefineRegular ℚ) := RefineRegular.new (reg 3 2 1) 2 2
def data6 : Ten ℚ := lit [6] [3, 1, 4, 1, 5, 9]
def ones6 : Ten ℚ := Ten.full [6] 1

example : isTen (refine.bind fun R => R.mapToFine ones6) [24] (List.replicate 24 1) = true := by
  decide +kernel

example : isTen (refine.bind fun R => (R.mapToFine data6).bind R.meanToCoarse) [6] [3, 1, 4, 1, 5, 9] = true := by
  decide +kernel

example : isTen (refine.bind fun R => (R.mapToFine data6).bind fun a => (R.mapToFine ones6).bind fun w =>
    R.averageToCoarse a w) [6] [3, 1, 4, 1, 5, 9] = true := by
  decide +kernel

/-- section "Map::FineLayer2Regular", MeshQuad4.cpp:590, on a 3 x 3 mesh and fixed data -/
example : isTen ((FineLayer.new 3 3 (1 : ℚ) 1).bind fun M => (FineLayer2Regular.new M).bind fun F =>
    F.mapToRegular (lit [9] [3, 1, 4, 1, 5, 9, 2, 6, 5])) [9] [3, 1, 4, 1, 5, 9, 2, 6, 5] = true := by
  decide +kernel

end GF.Tests
