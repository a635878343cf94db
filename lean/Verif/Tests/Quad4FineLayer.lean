import Verif.Tests.Check
import Verif.Model.MeshRegular2d
import Verif.Model.MeshHex8
import Verif.Model.FineLayer
import Verif.Model.FineLayer3
import Verif.Model.FineLayer3Sets
import Mathlib.Algebra.Field.Rat

/-! `/repo/tests/basic/MeshQuad4.cpp`, section "FineLayer" (line 103) -/

namespace GF.Tests

/-- `nelem()` -/
example : isVal ((FineLayer.new 9 18 (1 : ℚ) 1).bind fun M => .ok M.nelem) 81 = true := by
  decide +kernel

/-- `nnode()` -/
example : isVal ((FineLayer.new 9 18 (1 : ℚ) 1).bind fun M => .ok M.nnode) 96 = true := by
  decide +kernel

/-- `nne()` -/
example : isVal ((FineLayer.new 9 18 (1 : ℚ) 1).bind fun M => .ok M.nne) 4 = true := by
  decide +kernel

/-- `ndim()` -/
example : isVal ((FineLayer.new 9 18 (1 : ℚ) 1).bind fun M => .ok M.ndim) 2 = true := by
  decide +kernel

/-- `nelx()` -/
example : isVal ((FineLayer.new 9 18 (1 : ℚ) 1).bind fun M => FineLayer.nelx M) 9 = true := by
  decide +kernel

/-- `nely()` -/
example : isVal ((FineLayer.new 9 18 (1 : ℚ) 1).bind fun M => FineLayer.nely M) 21 = true := by
  decide +kernel

/-- `nodesBottomLeftCorner()` -/
example : isVal ((FineLayer.new 9 18 (1 : ℚ) 1).bind fun M => FineLayer.nodesBottomLeftCorner M) 0 = true := by
  decide +kernel

/-- `nodesBottomRightCorner()` -/
example : isVal ((FineLayer.new 9 18 (1 : ℚ) 1).bind fun M => FineLayer.nodesBottomRightCorner M) 3 = true := by
  decide +kernel

/-- `nodesTopLeftCorner()` -/
example : isVal ((FineLayer.new 9 18 (1 : ℚ) 1).bind fun M => FineLayer.nodesTopLeftCorner M) 92 = true := by
  decide +kernel

/-- `nodesTopRightCorner()` -/
example : isVal ((FineLayer.new 9 18 (1 : ℚ) 1).bind fun M => FineLayer.nodesTopRightCorner M) 95 = true := by
  decide +kernel

/-- `nodesOrigin()` -/
example : isVal ((FineLayer.new 9 18 (1 : ℚ) 1).bind fun M => FineLayer.nodesOrigin M) 0 = true := by
  decide +kernel

/-- `coor()` -/
example : isTen (β := ℚ) ((FineLayer.new 9 18 (1 : ℚ) 1).bind fun M => FineLayer.coor M) [96, 2] [0, 0, 3, 0,
    6, 0, 9, 0, 0, 3, 3, 3, 6, 3, 9, 3, 0, 6, 3, 6, 6, 6, 9, 6, 1, 7, 2, 7, 4, 7, 5, 7, 7, 7, 8, 7, 0, 8, 1,
    8, 2, 8, 3, 8, 4, 8, 5, 8, 6, 8, 7, 8, 8, 8, 9, 8, 0, 9, 1, 9, 2, 9, 3, 9, 4, 9, 5, 9, 6, 9, 7, 9, 8, 9,
    9, 9, 0, 10, 1, 10, 2, 10, 3, 10, 4, 10, 5, 10, 6, 10, 7, 10, 8, 10, 9, 10, 0, 11, 1, 11, 2, 11, 3, 11, 4,
    11, 5, 11, 6, 11, 7, 11, 8, 11, 9, 11, 0, 12, 1, 12, 2, 12, 3, 12, 4, 12, 5, 12, 6, 12, 7, 12, 8, 12, 9,
    12, 0, 13, 1, 13, 2, 13, 3, 13, 4, 13, 5, 13, 6, 13, 7, 13, 8, 13, 9, 13, 1, 14, 2, 14, 4, 14, 5, 14, 7,
    14, 8, 14, 0, 15, 3, 15, 6, 15, 9, 15, 0, 18, 3, 18, 6, 18, 9, 18, 0, 21, 3, 21, 6, 21, 9, 21] = true :=
    by
  decide +kernel

/-- `elementsMiddleLayer()` -/
example : isTen (β := Nat) ((FineLayer.new 9 18 (1 : ℚ) 1).bind fun M => FineLayer.elementsMiddleLayer M) [9]
    [36, 37, 38, 39, 40, 41, 42, 43, 44] = true := by
  decide +kernel

/-- `conn()` -/
example : isTen (β := Nat) ((FineLayer.new 9 18 (1 : ℚ) 1).bind fun M => FineLayer.conn M) [81, 4] [0, 1, 5,
    4, 1, 2, 6, 5, 2, 3, 7, 6, 4, 5, 9, 8, 5, 6, 10, 9, 6, 7, 11, 10, 8, 9, 13, 12, 9, 21, 20, 13, 12, 13, 20,
    19, 8, 12, 19, 18, 9, 10, 15, 14, 10, 24, 23, 15, 14, 15, 23, 22, 9, 14, 22, 21, 10, 11, 17, 16, 11, 27,
    26, 17, 16, 17, 26, 25, 10, 16, 25, 24, 18, 19, 29, 28, 19, 20, 30, 29, 20, 21, 31, 30, 21, 22, 32, 31,
    22, 23, 33, 32, 23, 24, 34, 33, 24, 25, 35, 34, 25, 26, 36, 35, 26, 27, 37, 36, 28, 29, 39, 38, 29, 30,
    40, 39, 30, 31, 41, 40, 31, 32, 42, 41, 32, 33, 43, 42, 33, 34, 44, 43, 34, 35, 45, 44, 35, 36, 46, 45,
    36, 37, 47, 46, 38, 39, 49, 48, 39, 40, 50, 49, 40, 41, 51, 50, 41, 42, 52, 51, 42, 43, 53, 52, 43, 44,
    54, 53, 44, 45, 55, 54, 45, 46, 56, 55, 46, 47, 57, 56, 48, 49, 59, 58, 49, 50, 60, 59, 50, 51, 61, 60,
    51, 52, 62, 61, 52, 53, 63, 62, 53, 54, 64, 63, 54, 55, 65, 64, 55, 56, 66, 65, 56, 57, 67, 66, 58, 59,
    69, 68, 59, 60, 70, 69, 60, 61, 71, 70, 61, 62, 72, 71, 62, 63, 73, 72, 63, 64, 74, 73, 64, 65, 75, 74,
    65, 66, 76, 75, 66, 67, 77, 76, 68, 69, 78, 84, 69, 70, 79, 78, 70, 71, 85, 79, 78, 79, 85, 84, 71, 72,
    80, 85, 72, 73, 81, 80, 73, 74, 86, 81, 80, 81, 86, 85, 74, 75, 82, 86, 75, 76, 83, 82, 76, 77, 87, 83,
    82, 83, 87, 86, 84, 85, 89, 88, 85, 86, 90, 89, 86, 87, 91, 90, 88, 89, 93, 92, 89, 90, 94, 93, 90, 91,
    95, 94] = true := by
  decide +kernel

/-- `dofs()` -/
example : isTen (β := Nat) ((FineLayer.new 9 18 (1 : ℚ) 1).bind fun M => .ok (meshDofs M.nnode M.ndim)) [96,
    2] [0, 1, 2, 3, 4, 5, 6, 7, 8, 9, 10, 11, 12, 13, 14, 15, 16, 17, 18, 19, 20, 21, 22, 23, 24, 25, 26, 27,
    28, 29, 30, 31, 32, 33, 34, 35, 36, 37, 38, 39, 40, 41, 42, 43, 44, 45, 46, 47, 48, 49, 50, 51, 52, 53,
    54, 55, 56, 57, 58, 59, 60, 61, 62, 63, 64, 65, 66, 67, 68, 69, 70, 71, 72, 73, 74, 75, 76, 77, 78, 79,
    80, 81, 82, 83, 84, 85, 86, 87, 88, 89, 90, 91, 92, 93, 94, 95, 96, 97, 98, 99, 100, 101, 102, 103, 104,
    105, 106, 107, 108, 109, 110, 111, 112, 113, 114, 115, 116, 117, 118, 119, 120, 121, 122, 123, 124, 125,
    126, 127, 128, 129, 130, 131, 132, 133, 134, 135, 136, 137, 138, 139, 140, 141, 142, 143, 144, 145, 146,
    147, 148, 149, 150, 151, 152, 153, 154, 155, 156, 157, 158, 159, 160, 161, 162, 163, 164, 165, 166, 167,
    168, 169, 170, 171, 172, 173, 174, 175, 176, 177, 178, 179, 180, 181, 182, 183, 184, 185, 186, 187, 188,
    189, 190, 191] = true := by
  decide +kernel

/-- `nodesBottomEdge()` -/
example : isTen (β := Nat) ((FineLayer.new 9 18 (1 : ℚ) 1).bind fun M => FineLayer.nodesBottomEdge M) [4] [0,
    1, 2, 3] = true := by
  decide +kernel

/-- `nodesTopEdge()` -/
example : isTen (β := Nat) ((FineLayer.new 9 18 (1 : ℚ) 1).bind fun M => FineLayer.nodesTopEdge M) [4] [92,
    93, 94, 95] = true := by
  decide +kernel

/-- `nodesLeftEdge()` -/
example : isTen (β := Nat) ((FineLayer.new 9 18 (1 : ℚ) 1).bind fun M => FineLayer.nodesLeftEdge M) [12] [0,
    4, 8, 18, 28, 38, 48, 58, 68, 84, 88, 92] = true := by
  decide +kernel

/-- `nodesRightEdge()` -/
example : isTen (β := Nat) ((FineLayer.new 9 18 (1 : ℚ) 1).bind fun M => FineLayer.nodesRightEdge M) [12] [3,
    7, 11, 27, 37, 47, 57, 67, 77, 87, 91, 95] = true := by
  decide +kernel

/-- `nodesBottomOpenEdge()` -/
example : isTen (β := Nat) ((FineLayer.new 9 18 (1 : ℚ) 1).bind fun M => FineLayer.nodesBottomOpenEdge M) [2]
    [1, 2] = true := by
  decide +kernel

/-- `nodesTopOpenEdge()` -/
example : isTen (β := Nat) ((FineLayer.new 9 18 (1 : ℚ) 1).bind fun M => FineLayer.nodesTopOpenEdge M) [2]
    [93, 94] = true := by
  decide +kernel

/-- `nodesLeftOpenEdge()` -/
example : isTen (β := Nat) ((FineLayer.new 9 18 (1 : ℚ) 1).bind fun M => FineLayer.nodesLeftOpenEdge M) [10]
    [4, 8, 18, 28, 38, 48, 58, 68, 84, 88] = true := by
  decide +kernel

/-- `nodesRightOpenEdge()` -/
example : isTen (β := Nat) ((FineLayer.new 9 18 (1 : ℚ) 1).bind fun M => FineLayer.nodesRightOpenEdge M) [10]
    [7, 11, 27, 37, 47, 57, 67, 77, 87, 91] = true := by
  decide +kernel

/-- `nodesPeriodic()` -/
example : isTen (β := Nat) ((FineLayer.new 9 18 (1 : ℚ) 1).bind fun M => FineLayer.nodesPeriodic M) [15, 2]
    [0, 3, 0, 95, 0, 92, 1, 93, 2, 94, 4, 7, 8, 11, 18, 27, 28, 37, 38, 47, 48, 57, 58, 67, 68, 77, 84, 87,
    88, 91] = true := by
  decide +kernel

/-- `dofsPeriodic()` -/
example : isTen (β := Nat) ((FineLayer.new 9 18 (1 : ℚ) 1).bind fun M => FineLayer.dofsPeriodic M) [96, 2] [0,
    1, 2, 3, 4, 5, 0, 1, 6, 7, 8, 9, 10, 11, 6, 7, 12, 13, 14, 15, 16, 17, 12, 13, 18, 19, 20, 21, 22, 23, 24,
    25, 26, 27, 28, 29, 30, 31, 32, 33, 34, 35, 36, 37, 38, 39, 40, 41, 42, 43, 44, 45, 46, 47, 30, 31, 48,
    49, 50, 51, 52, 53, 54, 55, 56, 57, 58, 59, 60, 61, 62, 63, 64, 65, 48, 49, 66, 67, 68, 69, 70, 71, 72,
    73, 74, 75, 76, 77, 78, 79, 80, 81, 82, 83, 66, 67, 84, 85, 86, 87, 88, 89, 90, 91, 92, 93, 94, 95, 96,
    97, 98, 99, 100, 101, 84, 85, 102, 103, 104, 105, 106, 107, 108, 109, 110, 111, 112, 113, 114, 115, 116,
    117, 118, 119, 102, 103, 120, 121, 122, 123, 124, 125, 126, 127, 128, 129, 130, 131, 132, 133, 134, 135,
    136, 137, 120, 121, 138, 139, 140, 141, 142, 143, 144, 145, 146, 147, 148, 149, 150, 151, 152, 153, 154,
    155, 150, 151, 156, 157, 158, 159, 160, 161, 156, 157, 0, 1, 2, 3, 4, 5, 0, 1] = true := by
  decide +kernel

end GF.Tests
