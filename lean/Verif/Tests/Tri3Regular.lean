import Verif.Tests.Check
import Verif.Model.MeshRegular2d
import Verif.Model.MeshHex8
import Verif.Model.FineLayer
import Verif.Model.FineLayer3
import Verif.Model.FineLayer3Sets
import Mathlib.Algebra.Field.Rat

/-! `/repo/tests/basic/MeshTri3.cpp`, section "Regular" (line 6) -/

namespace GF.Tests

/-- `nelem()` -/
example : isVal (.ok (Tri3.Regular.new 5 3 (1 : ℚ)).nelem) 30 = true := by
  decide +kernel

/-- `nnode()` -/
example : isVal (.ok (Tri3.Regular.new 5 3 (1 : ℚ)).nnode) 24 = true := by
  decide +kernel

/-- `nne()` -/
example : isVal (.ok (Tri3.Regular.new 5 3 (1 : ℚ)).nne) 3 = true := by
  decide +kernel

/-- `ndim()` -/
example : isVal (.ok (Tri3.Regular.new 5 3 (1 : ℚ)).ndim) 2 = true := by
  decide +kernel

/-- `nodesBottomLeftCorner()` -/
example : isVal (.ok (Tri3.Regular.nodesBottomLeftCorner (Tri3.Regular.new 5 3 (1 : ℚ)))) 0 = true := by
  decide +kernel

/-- `nodesBottomRightCorner()` -/
example : isVal (.ok (Tri3.Regular.nodesBottomRightCorner (Tri3.Regular.new 5 3 (1 : ℚ)))) 5 = true := by
  decide +kernel

/-- `nodesTopLeftCorner()` -/
example : isVal (.ok (Tri3.Regular.nodesTopLeftCorner (Tri3.Regular.new 5 3 (1 : ℚ)))) 18 = true := by
  decide +kernel

/-- `nodesTopRightCorner()` -/
example : isVal (.ok (Tri3.Regular.nodesTopRightCorner (Tri3.Regular.new 5 3 (1 : ℚ)))) 23 = true := by
  decide +kernel

/-- `nodesOrigin()` -/
example : isVal (.ok (Tri3.Regular.nodesBottomLeftCorner (Tri3.Regular.new 5 3 (1 : ℚ)))) 0 = true := by
  decide +kernel

/-- `coor()` -/
example : isTen (β := ℚ) (Regular2d.coor (Tri3.Regular.new 5 3 (1 : ℚ))) [24, 2] [0, 0, 1, 0, 2, 0, 3, 0, 4,
    0, 5, 0, 0, 1, 1, 1, 2, 1, 3, 1, 4, 1, 5, 1, 0, 2, 1, 2, 2, 2, 3, 2, 4, 2, 5, 2, 0, 3, 1, 3, 2, 3, 3, 3,
    4, 3, 5, 3] = true := by
  decide +kernel

/-- `conn()` -/
example : isTen (β := Nat) (Tri3.Regular.conn (Tri3.Regular.new 5 3 (1 : ℚ))) [30, 3] [0, 1, 6, 1, 7, 6, 1, 2,
    7, 2, 8, 7, 2, 3, 8, 3, 9, 8, 3, 4, 9, 4, 10, 9, 4, 5, 10, 5, 11, 10, 6, 7, 12, 7, 13, 12, 7, 8, 13, 8,
    14, 13, 8, 9, 14, 9, 15, 14, 9, 10, 15, 10, 16, 15, 10, 11, 16, 11, 17, 16, 12, 13, 18, 13, 19, 18, 13,
    14, 19, 14, 20, 19, 14, 15, 20, 15, 21, 20, 15, 16, 21, 16, 22, 21, 16, 17, 22, 17, 23, 22] = true := by
  decide +kernel

/-- `dofs()` -/
example : isTen (β := Nat) (.ok (meshDofs (Tri3.Regular.new 5 3 (1 : ℚ)).nnode (Tri3.Regular.new 5 3 (1 :
    ℚ)).ndim)) [24, 2] [0, 1, 2, 3, 4, 5, 6, 7, 8, 9, 10, 11, 12, 13, 14, 15, 16, 17, 18, 19, 20, 21, 22, 23,
    24, 25, 26, 27, 28, 29, 30, 31, 32, 33, 34, 35, 36, 37, 38, 39, 40, 41, 42, 43, 44, 45, 46, 47] = true :=
    by
  decide +kernel

/-- `nodesBottomEdge()` -/
example : isTen (β := Nat) (Tri3.Regular.nodesBottomEdge (Tri3.Regular.new 5 3 (1 : ℚ))) [6] [0, 1, 2, 3, 4,
    5] = true := by
  decide +kernel

/-- `nodesTopEdge()` -/
example : isTen (β := Nat) (Tri3.Regular.nodesTopEdge (Tri3.Regular.new 5 3 (1 : ℚ))) [6] [18, 19, 20, 21, 22,
    23] = true := by
  decide +kernel

/-- `nodesLeftEdge()` -/
example : isTen (β := Nat) (Tri3.Regular.nodesLeftEdge (Tri3.Regular.new 5 3 (1 : ℚ))) [4] [0, 6, 12, 18] =
    true := by
  decide +kernel

/-- `nodesRightEdge()` -/
example : isTen (β := Nat) (Tri3.Regular.nodesRightEdge (Tri3.Regular.new 5 3 (1 : ℚ))) [4] [5, 11, 17, 23] =
    true := by
  decide +kernel

/-- `nodesBottomOpenEdge()` -/
example : isTen (β := Nat) (Tri3.Regular.nodesBottomOpenEdge (Tri3.Regular.new 5 3 (1 : ℚ))) [4] [1, 2, 3, 4]
    = true := by
  decide +kernel

/-- `nodesTopOpenEdge()` -/
example : isTen (β := Nat) (Tri3.Regular.nodesTopOpenEdge (Tri3.Regular.new 5 3 (1 : ℚ))) [4] [19, 20, 21, 22]
    = true := by
  decide +kernel

/-- `nodesLeftOpenEdge()` -/
example : isTen (β := Nat) (Tri3.Regular.nodesLeftOpenEdge (Tri3.Regular.new 5 3 (1 : ℚ))) [2] [6, 12] = true
    := by
  decide +kernel

/-- `nodesRightOpenEdge()` -/
example : isTen (β := Nat) (Tri3.Regular.nodesRightOpenEdge (Tri3.Regular.new 5 3 (1 : ℚ))) [2] [11, 17] =
    true := by
  decide +kernel

/-- `nodesPeriodic()` -/
example : isTen (β := Nat) (Tri3.Regular.nodesPeriodic (Tri3.Regular.new 5 3 (1 : ℚ))) [9, 2] [0, 5, 0, 23, 0,
    18, 1, 19, 2, 20, 3, 21, 4, 22, 6, 11, 12, 17] = true := by
  decide +kernel

/-- `dofsPeriodic()` -/
example : isTen (β := Nat) (Tri3.Regular.dofsPeriodic (Tri3.Regular.new 5 3 (1 : ℚ))) [24, 2] [0, 1, 2, 3, 4,
    5, 6, 7, 8, 9, 0, 1, 10, 11, 12, 13, 14, 15, 16, 17, 18, 19, 10, 11, 20, 21, 22, 23, 24, 25, 26, 27, 28,
    29, 20, 21, 0, 1, 2, 3, 4, 5, 6, 7, 8, 9, 0, 1] = true := by
  decide +kernel

end GF.Tests
