import Verif.Tests.Check
import Verif.Model.MeshRegular2d
import Verif.Model.MeshHex8
import Verif.Model.FineLayer
import Verif.Model.FineLayer3
import Verif.Model.FineLayer3Sets
import Mathlib.Algebra.Field.Rat

/-! `/repo/tests/basic/MeshHex8.cpp`, section "Regular" (line 6) -/

namespace GF.Tests

/-- `coor()` -/
example : isTen (β := ℚ) (Hex8.Regular.coor (Hex8.Regular.new 3 3 3 (1 : ℚ))) [64, 3] [0, 0, 0, 1, 0, 0, 2, 0,
    0, 3, 0, 0, 0, 1, 0, 1, 1, 0, 2, 1, 0, 3, 1, 0, 0, 2, 0, 1, 2, 0, 2, 2, 0, 3, 2, 0, 0, 3, 0, 1, 3, 0, 2,
    3, 0, 3, 3, 0, 0, 0, 1, 1, 0, 1, 2, 0, 1, 3, 0, 1, 0, 1, 1, 1, 1, 1, 2, 1, 1, 3, 1, 1, 0, 2, 1, 1, 2, 1,
    2, 2, 1, 3, 2, 1, 0, 3, 1, 1, 3, 1, 2, 3, 1, 3, 3, 1, 0, 0, 2, 1, 0, 2, 2, 0, 2, 3, 0, 2, 0, 1, 2, 1, 1,
    2, 2, 1, 2, 3, 1, 2, 0, 2, 2, 1, 2, 2, 2, 2, 2, 3, 2, 2, 0, 3, 2, 1, 3, 2, 2, 3, 2, 3, 3, 2, 0, 0, 3, 1,
    0, 3, 2, 0, 3, 3, 0, 3, 0, 1, 3, 1, 1, 3, 2, 1, 3, 3, 1, 3, 0, 2, 3, 1, 2, 3, 2, 2, 3, 3, 2, 3, 0, 3, 3,
    1, 3, 3, 2, 3, 3, 3, 3, 3] = true := by
  decide +kernel

/-- `conn()` -/
example : isTen (β := Nat) (Hex8.Regular.conn (Hex8.Regular.new 3 3 3 (1 : ℚ))) [27, 8] [0, 1, 5, 4, 16, 17,
    21, 20, 1, 2, 6, 5, 17, 18, 22, 21, 2, 3, 7, 6, 18, 19, 23, 22, 4, 5, 9, 8, 20, 21, 25, 24, 5, 6, 10, 9,
    21, 22, 26, 25, 6, 7, 11, 10, 22, 23, 27, 26, 8, 9, 13, 12, 24, 25, 29, 28, 9, 10, 14, 13, 25, 26, 30, 29,
    10, 11, 15, 14, 26, 27, 31, 30, 16, 17, 21, 20, 32, 33, 37, 36, 17, 18, 22, 21, 33, 34, 38, 37, 18, 19,
    23, 22, 34, 35, 39, 38, 20, 21, 25, 24, 36, 37, 41, 40, 21, 22, 26, 25, 37, 38, 42, 41, 22, 23, 27, 26,
    38, 39, 43, 42, 24, 25, 29, 28, 40, 41, 45, 44, 25, 26, 30, 29, 41, 42, 46, 45, 26, 27, 31, 30, 42, 43,
    47, 46, 32, 33, 37, 36, 48, 49, 53, 52, 33, 34, 38, 37, 49, 50, 54, 53, 34, 35, 39, 38, 50, 51, 55, 54,
    36, 37, 41, 40, 52, 53, 57, 56, 37, 38, 42, 41, 53, 54, 58, 57, 38, 39, 43, 42, 54, 55, 59, 58, 40, 41,
    45, 44, 56, 57, 61, 60, 41, 42, 46, 45, 57, 58, 62, 61, 42, 43, 47, 46, 58, 59, 63, 62] = true := by
  decide +kernel

/-- `nodesBottom()` -/
example : isTen (β := Nat) (Hex8.Regular.nodesBottom (Hex8.Regular.new 3 3 3 (1 : ℚ))) [16] [0, 1, 2, 3, 16,
    17, 18, 19, 32, 33, 34, 35, 48, 49, 50, 51] = true := by
  decide +kernel

/-- `nodesTop()` -/
example : isTen (β := Nat) (Hex8.Regular.nodesTop (Hex8.Regular.new 3 3 3 (1 : ℚ))) [16] [12, 13, 14, 15, 28,
    29, 30, 31, 44, 45, 46, 47, 60, 61, 62, 63] = true := by
  decide +kernel

/-- `nodesLeft()` -/
example : isTen (β := Nat) (Hex8.Regular.nodesLeft (Hex8.Regular.new 3 3 3 (1 : ℚ))) [16] [0, 4, 8, 12, 16,
    20, 24, 28, 32, 36, 40, 44, 48, 52, 56, 60] = true := by
  decide +kernel

/-- `nodesRight()` -/
example : isTen (β := Nat) (Hex8.Regular.nodesRight (Hex8.Regular.new 3 3 3 (1 : ℚ))) [16] [3, 7, 11, 15, 19,
    23, 27, 31, 35, 39, 43, 47, 51, 55, 59, 63] = true := by
  decide +kernel

/-- `nodesFront()` -/
example : isTen (β := Nat) (Hex8.Regular.nodesFront (Hex8.Regular.new 3 3 3 (1 : ℚ))) [16] [0, 1, 2, 3, 4, 5,
    6, 7, 8, 9, 10, 11, 12, 13, 14, 15] = true := by
  decide +kernel

/-- `nodesBack()` -/
example : isTen (β := Nat) (Hex8.Regular.nodesBack (Hex8.Regular.new 3 3 3 (1 : ℚ))) [16] [48, 49, 50, 51, 52,
    53, 54, 55, 56, 57, 58, 59, 60, 61, 62, 63] = true := by
  decide +kernel

/-- `nodesFrontTopEdge()` -/
example : isTen (β := Nat) (Hex8.Regular.nodesFrontTopEdge (Hex8.Regular.new 3 3 3 (1 : ℚ))) [4] [12, 13, 14,
    15] = true := by
  decide +kernel

/-- `nodesFrontLeftEdge()` -/
example : isTen (β := Nat) (Hex8.Regular.nodesFrontLeftEdge (Hex8.Regular.new 3 3 3 (1 : ℚ))) [4] [0, 4, 8,
    12] = true := by
  decide +kernel

/-- `nodesFrontRightEdge()` -/
example : isTen (β := Nat) (Hex8.Regular.nodesFrontRightEdge (Hex8.Regular.new 3 3 3 (1 : ℚ))) [4] [3, 7, 11,
    15] = true := by
  decide +kernel

/-- `nodesBackBottomEdge()` -/
example : isTen (β := Nat) (Hex8.Regular.nodesBackBottomEdge (Hex8.Regular.new 3 3 3 (1 : ℚ))) [4] [48, 49,
    50, 51] = true := by
  decide +kernel

/-- `nodesBackTopEdge()` -/
example : isTen (β := Nat) (Hex8.Regular.nodesBackTopEdge (Hex8.Regular.new 3 3 3 (1 : ℚ))) [4] [60, 61, 62,
    63] = true := by
  decide +kernel

/-- `nodesBackLeftEdge()` -/
example : isTen (β := Nat) (Hex8.Regular.nodesBackLeftEdge (Hex8.Regular.new 3 3 3 (1 : ℚ))) [4] [48, 52, 56,
    60] = true := by
  decide +kernel

/-- `nodesBackRightEdge()` -/
example : isTen (β := Nat) (Hex8.Regular.nodesBackRightEdge (Hex8.Regular.new 3 3 3 (1 : ℚ))) [4] [51, 55, 59,
    63] = true := by
  decide +kernel

/-- `nodesBottomLeftEdge()` -/
example : isTen (β := Nat) (Hex8.Regular.nodesBottomLeftEdge (Hex8.Regular.new 3 3 3 (1 : ℚ))) [4] [0, 16, 32,
    48] = true := by
  decide +kernel

/-- `nodesBottomRightEdge()` -/
example : isTen (β := Nat) (Hex8.Regular.nodesBottomRightEdge (Hex8.Regular.new 3 3 3 (1 : ℚ))) [4] [3, 19,
    35, 51] = true := by
  decide +kernel

/-- `nodesTopLeftEdge()` -/
example : isTen (β := Nat) (Hex8.Regular.nodesTopLeftEdge (Hex8.Regular.new 3 3 3 (1 : ℚ))) [4] [12, 28, 44,
    60] = true := by
  decide +kernel

/-- `nodesTopRightEdge()` -/
example : isTen (β := Nat) (Hex8.Regular.nodesTopRightEdge (Hex8.Regular.new 3 3 3 (1 : ℚ))) [4] [15, 31, 47,
    63] = true := by
  decide +kernel

/-- `nodesFrontFace()` -/
example : isTen (β := Nat) (Hex8.Regular.nodesFrontFace (Hex8.Regular.new 3 3 3 (1 : ℚ))) [4] [5, 6, 9, 10] =
    true := by
  decide +kernel

/-- `nodesBackFace()` -/
example : isTen (β := Nat) (Hex8.Regular.nodesBackFace (Hex8.Regular.new 3 3 3 (1 : ℚ))) [4] [53, 54, 57, 58]
    = true := by
  decide +kernel

/-- `nodesLeftFace()` -/
example : isTen (β := Nat) (Hex8.Regular.nodesLeftFace (Hex8.Regular.new 3 3 3 (1 : ℚ))) [4] [20, 24, 36, 40]
    = true := by
  decide +kernel

/-- `nodesRightFace()` -/
example : isTen (β := Nat) (Hex8.Regular.nodesRightFace (Hex8.Regular.new 3 3 3 (1 : ℚ))) [4] [23, 27, 39, 43]
    = true := by
  decide +kernel

/-- `nodesBottomFace()` -/
example : isTen (β := Nat) (Hex8.Regular.nodesBottomFace (Hex8.Regular.new 3 3 3 (1 : ℚ))) [4] [17, 18, 33,
    34] = true := by
  decide +kernel

/-- `nodesTopFace()` -/
example : isTen (β := Nat) (Hex8.Regular.nodesTopFace (Hex8.Regular.new 3 3 3 (1 : ℚ))) [4] [29, 30, 45, 46] =
    true := by
  decide +kernel

/-- `nodesFrontBottomOpenEdge()` -/
example : isTen (β := Nat) (Hex8.Regular.nodesFrontBottomOpenEdge (Hex8.Regular.new 3 3 3 (1 : ℚ))) [2] [1, 2]
    = true := by
  decide +kernel

/-- `nodesFrontTopOpenEdge()` -/
example : isTen (β := Nat) (Hex8.Regular.nodesFrontTopOpenEdge (Hex8.Regular.new 3 3 3 (1 : ℚ))) [2] [13, 14]
    = true := by
  decide +kernel

/-- `nodesFrontLeftOpenEdge()` -/
example : isTen (β := Nat) (Hex8.Regular.nodesFrontLeftOpenEdge (Hex8.Regular.new 3 3 3 (1 : ℚ))) [2] [4, 8] =
    true := by
  decide +kernel

/-- `nodesFrontRightOpenEdge()` -/
example : isTen (β := Nat) (Hex8.Regular.nodesFrontRightOpenEdge (Hex8.Regular.new 3 3 3 (1 : ℚ))) [2] [7, 11]
    = true := by
  decide +kernel

/-- `nodesBackBottomOpenEdge()` -/
example : isTen (β := Nat) (Hex8.Regular.nodesBackBottomOpenEdge (Hex8.Regular.new 3 3 3 (1 : ℚ))) [2] [49,
    50] = true := by
  decide +kernel

/-- `nodesBackTopOpenEdge()` -/
example : isTen (β := Nat) (Hex8.Regular.nodesBackTopOpenEdge (Hex8.Regular.new 3 3 3 (1 : ℚ))) [2] [61, 62] =
    true := by
  decide +kernel

/-- `nodesBackLeftOpenEdge()` -/
example : isTen (β := Nat) (Hex8.Regular.nodesBackLeftOpenEdge (Hex8.Regular.new 3 3 3 (1 : ℚ))) [2] [52, 56]
    = true := by
  decide +kernel

/-- `nodesBackRightOpenEdge()` -/
example : isTen (β := Nat) (Hex8.Regular.nodesBackRightOpenEdge (Hex8.Regular.new 3 3 3 (1 : ℚ))) [2] [55, 59]
    = true := by
  decide +kernel

/-- `nodesBottomLeftOpenEdge()` -/
example : isTen (β := Nat) (Hex8.Regular.nodesBottomLeftOpenEdge (Hex8.Regular.new 3 3 3 (1 : ℚ))) [2] [16,
    32] = true := by
  decide +kernel

/-- `nodesBottomRightOpenEdge()` -/
example : isTen (β := Nat) (Hex8.Regular.nodesBottomRightOpenEdge (Hex8.Regular.new 3 3 3 (1 : ℚ))) [2] [19,
    35] = true := by
  decide +kernel

/-- `nodesTopLeftOpenEdge()` -/
example : isTen (β := Nat) (Hex8.Regular.nodesTopLeftOpenEdge (Hex8.Regular.new 3 3 3 (1 : ℚ))) [2] [28, 44] =
    true := by
  decide +kernel

/-- `nodesTopRightOpenEdge()` -/
example : isTen (β := Nat) (Hex8.Regular.nodesTopRightOpenEdge (Hex8.Regular.new 3 3 3 (1 : ℚ))) [2] [31, 47]
    = true := by
  decide +kernel

/-- `nodesFrontBottomLeftCorner()` -/
example : isVal (.ok (Hex8.Regular.nodesFrontBottomLeftCorner (Hex8.Regular.new 3 3 3 (1 : ℚ)))) 0 = true := by
  decide +kernel

/-- `nodesFrontBottomRightCorner()` -/
example : isVal (.ok (Hex8.Regular.nodesFrontBottomRightCorner (Hex8.Regular.new 3 3 3 (1 : ℚ)))) 3 = true := by
  decide +kernel

/-- `nodesFrontTopLeftCorner()` -/
example : isVal (.ok (Hex8.Regular.nodesFrontTopLeftCorner (Hex8.Regular.new 3 3 3 (1 : ℚ)))) 12 = true := by
  decide +kernel

/-- `nodesFrontTopRightCorner()` -/
example : isVal (.ok (Hex8.Regular.nodesFrontTopRightCorner (Hex8.Regular.new 3 3 3 (1 : ℚ)))) 15 = true := by
  decide +kernel

/-- `nodesBackBottomLeftCorner()` -/
example : isVal (.ok (Hex8.Regular.nodesBackBottomLeftCorner (Hex8.Regular.new 3 3 3 (1 : ℚ)))) 48 = true := by
  decide +kernel

/-- `nodesBackBottomRightCorner()` -/
example : isVal (.ok (Hex8.Regular.nodesBackBottomRightCorner (Hex8.Regular.new 3 3 3 (1 : ℚ)))) 51 = true := by
  decide +kernel

/-- `nodesBackTopLeftCorner()` -/
example : isVal (.ok (Hex8.Regular.nodesBackTopLeftCorner (Hex8.Regular.new 3 3 3 (1 : ℚ)))) 60 = true := by
  decide +kernel

/-- `nodesBackTopRightCorner()` -/
example : isVal (.ok (Hex8.Regular.nodesBackTopRightCorner (Hex8.Regular.new 3 3 3 (1 : ℚ)))) 63 = true := by
  decide +kernel

/-- `dofs()` -/
example : isTen (β := Nat) (.ok (meshDofs (Hex8.Regular.new 3 3 3 (1 : ℚ)).nnode (Hex8.Regular.new 3 3 3 (1 :
    ℚ)).ndim)) [64, 3] [0, 1, 2, 3, 4, 5, 6, 7, 8, 9, 10, 11, 12, 13, 14, 15, 16, 17, 18, 19, 20, 21, 22, 23,
    24, 25, 26, 27, 28, 29, 30, 31, 32, 33, 34, 35, 36, 37, 38, 39, 40, 41, 42, 43, 44, 45, 46, 47, 48, 49,
    50, 51, 52, 53, 54, 55, 56, 57, 58, 59, 60, 61, 62, 63, 64, 65, 66, 67, 68, 69, 70, 71, 72, 73, 74, 75,
    76, 77, 78, 79, 80, 81, 82, 83, 84, 85, 86, 87, 88, 89, 90, 91, 92, 93, 94, 95, 96, 97, 98, 99, 100, 101,
    102, 103, 104, 105, 106, 107, 108, 109, 110, 111, 112, 113, 114, 115, 116, 117, 118, 119, 120, 121, 122,
    123, 124, 125, 126, 127, 128, 129, 130, 131, 132, 133, 134, 135, 136, 137, 138, 139, 140, 141, 142, 143,
    144, 145, 146, 147, 148, 149, 150, 151, 152, 153, 154, 155, 156, 157, 158, 159, 160, 161, 162, 163, 164,
    165, 166, 167, 168, 169, 170, 171, 172, 173, 174, 175, 176, 177, 178, 179, 180, 181, 182, 183, 184, 185,
    186, 187, 188, 189, 190, 191] = true := by
  decide +kernel

/-- `dofsPeriodic()` -/
example : isTen (β := Nat) (Hex8.Regular.dofsPeriodic (Hex8.Regular.new 3 3 3 (1 : ℚ))) [64, 3] [0, 1, 2, 3,
    4, 5, 6, 7, 8, 0, 1, 2, 9, 10, 11, 12, 13, 14, 15, 16, 17, 9, 10, 11, 18, 19, 20, 21, 22, 23, 24, 25, 26,
    18, 19, 20, 0, 1, 2, 3, 4, 5, 6, 7, 8, 0, 1, 2, 27, 28, 29, 30, 31, 32, 33, 34, 35, 27, 28, 29, 36, 37,
    38, 39, 40, 41, 42, 43, 44, 36, 37, 38, 45, 46, 47, 48, 49, 50, 51, 52, 53, 45, 46, 47, 27, 28, 29, 30,
    31, 32, 33, 34, 35, 27, 28, 29, 54, 55, 56, 57, 58, 59, 60, 61, 62, 54, 55, 56, 63, 64, 65, 66, 67, 68,
    69, 70, 71, 63, 64, 65, 72, 73, 74, 75, 76, 77, 78, 79, 80, 72, 73, 74, 54, 55, 56, 57, 58, 59, 60, 61,
    62, 54, 55, 56, 0, 1, 2, 3, 4, 5, 6, 7, 8, 0, 1, 2, 9, 10, 11, 12, 13, 14, 15, 16, 17, 9, 10, 11, 18, 19,
    20, 21, 22, 23, 24, 25, 26, 18, 19, 20, 0, 1, 2, 3, 4, 5, 6, 7, 8, 0, 1, 2] = true := by
  decide +kernel

/-- `nodesPeriodic()` -/
example : isTen (β := Nat) (Hex8.Regular.nodesPeriodic (Hex8.Regular.new 3 3 3 (1 : ℚ))) [37, 2] [0, 3, 0, 51,
    0, 48, 0, 12, 0, 15, 0, 63, 0, 60, 1, 49, 2, 50, 1, 61, 2, 62, 1, 13, 2, 14, 16, 19, 32, 35, 16, 31, 32,
    47, 16, 28, 32, 44, 4, 7, 8, 11, 4, 55, 8, 59, 4, 52, 8, 56, 5, 53, 6, 54, 9, 57, 10, 58, 20, 23, 24, 27,
    36, 39, 40, 43, 17, 29, 18, 30, 33, 45, 34, 46] = true := by
  decide +kernel

/-- `nodesOrigin()` -/
example : isVal (.ok (Hex8.Regular.nodesOrigin (Hex8.Regular.new 3 3 3 (1 : ℚ)))) 0 = true := by
  decide +kernel

end GF.Tests
