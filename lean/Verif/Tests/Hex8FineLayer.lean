import Verif.Tests.Check
import Verif.Model.MeshRegular2d
import Verif.Model.MeshHex8
import Verif.Model.FineLayer
import Verif.Model.FineLayer3
import Verif.Model.FineLayer3Sets
import Mathlib.Algebra.Field.Rat

/-! `/repo/tests/basic/MeshHex8.cpp`, section "FineLayer - basic" (line 192) -/

namespace GF.Tests

/-- `coor()` -/
example : isTen (β := ℚ) ((FineLayer3.new 3 3 3 (1 : ℚ) 1).bind fun M => FineLayer3.coor M) [64, 3] [0, 0, 0,
    1, 0, 0, 2, 0, 0, 3, 0, 0, 0, 0, 1, 1, 0, 1, 2, 0, 1, 3, 0, 1, 0, 0, 2, 1, 0, 2, 2, 0, 2, 3, 0, 2, 0, 0,
    3, 1, 0, 3, 2, 0, 3, 3, 0, 3, 0, 1, 0, 1, 1, 0, 2, 1, 0, 3, 1, 0, 0, 1, 1, 1, 1, 1, 2, 1, 1, 3, 1, 1, 0,
    1, 2, 1, 1, 2, 2, 1, 2, 3, 1, 2, 0, 1, 3, 1, 1, 3, 2, 1, 3, 3, 1, 3, 0, 2, 0, 1, 2, 0, 2, 2, 0, 3, 2, 0,
    0, 2, 1, 1, 2, 1, 2, 2, 1, 3, 2, 1, 0, 2, 2, 1, 2, 2, 2, 2, 2, 3, 2, 2, 0, 2, 3, 1, 2, 3, 2, 2, 3, 3, 2,
    3, 0, 3, 0, 1, 3, 0, 2, 3, 0, 3, 3, 0, 0, 3, 1, 1, 3, 1, 2, 3, 1, 3, 3, 1, 0, 3, 2, 1, 3, 2, 2, 3, 2, 3,
    3, 2, 0, 3, 3, 1, 3, 3, 2, 3, 3, 3, 3, 3] = true := by
  decide +kernel

/-- `conn()` -/
example : isTen (β := Nat) ((FineLayer3.new 3 3 3 (1 : ℚ) 1).bind fun M => FineLayer3.conn M) [27, 8] [0, 1,
    17, 16, 4, 5, 21, 20, 1, 2, 18, 17, 5, 6, 22, 21, 2, 3, 19, 18, 6, 7, 23, 22, 4, 5, 21, 20, 8, 9, 25, 24,
    5, 6, 22, 21, 9, 10, 26, 25, 6, 7, 23, 22, 10, 11, 27, 26, 8, 9, 25, 24, 12, 13, 29, 28, 9, 10, 26, 25,
    13, 14, 30, 29, 10, 11, 27, 26, 14, 15, 31, 30, 16, 17, 33, 32, 20, 21, 37, 36, 17, 18, 34, 33, 21, 22,
    38, 37, 18, 19, 35, 34, 22, 23, 39, 38, 20, 21, 37, 36, 24, 25, 41, 40, 21, 22, 38, 37, 25, 26, 42, 41,
    22, 23, 39, 38, 26, 27, 43, 42, 24, 25, 41, 40, 28, 29, 45, 44, 25, 26, 42, 41, 29, 30, 46, 45, 26, 27,
    43, 42, 30, 31, 47, 46, 32, 33, 49, 48, 36, 37, 53, 52, 33, 34, 50, 49, 37, 38, 54, 53, 34, 35, 51, 50,
    38, 39, 55, 54, 36, 37, 53, 52, 40, 41, 57, 56, 37, 38, 54, 53, 41, 42, 58, 57, 38, 39, 55, 54, 42, 43,
    59, 58, 40, 41, 57, 56, 44, 45, 61, 60, 41, 42, 58, 57, 45, 46, 62, 61, 42, 43, 59, 58, 46, 47, 63, 62] =
    true := by
  decide +kernel

/-- `nodesBottom()` -/
example : isTen (β := Nat) ((FineLayer3.new 3 3 3 (1 : ℚ) 1).bind fun M => FineLayer3.nodesBottom M) [16] [0,
    4, 8, 12, 1, 5, 9, 13, 2, 6, 10, 14, 3, 7, 11, 15] = true := by
  decide +kernel

/-- `nodesTop()` -/
example : isTen (β := Nat) ((FineLayer3.new 3 3 3 (1 : ℚ) 1).bind fun M => FineLayer3.nodesTop M) [16] [48,
    52, 56, 60, 49, 53, 57, 61, 50, 54, 58, 62, 51, 55, 59, 63] = true := by
  decide +kernel

/-- `nodesLeft()` -/
example : isTen (β := Nat) ((FineLayer3.new 3 3 3 (1 : ℚ) 1).bind fun M => FineLayer3.nodesLeft M) [16] [0, 4,
    8, 12, 16, 20, 24, 28, 32, 36, 40, 44, 48, 52, 56, 60] = true := by
  decide +kernel

/-- `nodesRight()` -/
example : isTen (β := Nat) ((FineLayer3.new 3 3 3 (1 : ℚ) 1).bind fun M => FineLayer3.nodesRight M) [16] [3,
    7, 11, 15, 19, 23, 27, 31, 35, 39, 43, 47, 51, 55, 59, 63] = true := by
  decide +kernel

/-- `nodesFront()` -/
example : isTen (β := Nat) ((FineLayer3.new 3 3 3 (1 : ℚ) 1).bind fun M => FineLayer3.nodesFront M) [16] [0,
    1, 2, 3, 16, 17, 18, 19, 32, 33, 34, 35, 48, 49, 50, 51] = true := by
  decide +kernel

/-- `nodesBack()` -/
example : isTen (β := Nat) ((FineLayer3.new 3 3 3 (1 : ℚ) 1).bind fun M => FineLayer3.nodesBack M) [16] [12,
    13, 14, 15, 28, 29, 30, 31, 44, 45, 46, 47, 60, 61, 62, 63] = true := by
  decide +kernel

/-- `nodesFrontTopEdge()` -/
example : isTen (β := Nat) ((FineLayer3.new 3 3 3 (1 : ℚ) 1).bind fun M => FineLayer3.nodesFrontTopEdge M) [4]
    [48, 49, 50, 51] = true := by
  decide +kernel

/-- `nodesFrontLeftEdge()` -/
example : isTen (β := Nat) ((FineLayer3.new 3 3 3 (1 : ℚ) 1).bind fun M => FineLayer3.nodesFrontLeftEdge M)
    [4] [0, 16, 32, 48] = true := by
  decide +kernel

/-- `nodesFrontRightEdge()` -/
example : isTen (β := Nat) ((FineLayer3.new 3 3 3 (1 : ℚ) 1).bind fun M => FineLayer3.nodesFrontRightEdge M)
    [4] [3, 19, 35, 51] = true := by
  decide +kernel

/-- `nodesBackBottomEdge()` -/
example : isTen (β := Nat) ((FineLayer3.new 3 3 3 (1 : ℚ) 1).bind fun M => FineLayer3.nodesBackBottomEdge M)
    [4] [12, 13, 14, 15] = true := by
  decide +kernel

/-- `nodesBackTopEdge()` -/
example : isTen (β := Nat) ((FineLayer3.new 3 3 3 (1 : ℚ) 1).bind fun M => FineLayer3.nodesBackTopEdge M) [4]
    [60, 61, 62, 63] = true := by
  decide +kernel

/-- `nodesBackLeftEdge()` -/
example : isTen (β := Nat) ((FineLayer3.new 3 3 3 (1 : ℚ) 1).bind fun M => FineLayer3.nodesBackLeftEdge M) [4]
    [12, 28, 44, 60] = true := by
  decide +kernel

/-- `nodesBackRightEdge()` -/
example : isTen (β := Nat) ((FineLayer3.new 3 3 3 (1 : ℚ) 1).bind fun M => FineLayer3.nodesBackRightEdge M)
    [4] [15, 31, 47, 63] = true := by
  decide +kernel

/-- `nodesBottomLeftEdge()` -/
example : isTen (β := Nat) ((FineLayer3.new 3 3 3 (1 : ℚ) 1).bind fun M => FineLayer3.nodesBottomLeftEdge M)
    [4] [0, 4, 8, 12] = true := by
  decide +kernel

/-- `nodesBottomRightEdge()` -/
example : isTen (β := Nat) ((FineLayer3.new 3 3 3 (1 : ℚ) 1).bind fun M => FineLayer3.nodesBottomRightEdge M)
    [4] [3, 7, 11, 15] = true := by
  decide +kernel

/-- `nodesTopLeftEdge()` -/
example : isTen (β := Nat) ((FineLayer3.new 3 3 3 (1 : ℚ) 1).bind fun M => FineLayer3.nodesTopLeftEdge M) [4]
    [48, 52, 56, 60] = true := by
  decide +kernel

/-- `nodesTopRightEdge()` -/
example : isTen (β := Nat) ((FineLayer3.new 3 3 3 (1 : ℚ) 1).bind fun M => FineLayer3.nodesTopRightEdge M) [4]
    [51, 55, 59, 63] = true := by
  decide +kernel

/-- `nodesFrontFace()` -/
example : isTen (β := Nat) ((FineLayer3.new 3 3 3 (1 : ℚ) 1).bind fun M => FineLayer3.nodesFrontFace M) [4]
    [17, 18, 33, 34] = true := by
  decide +kernel

/-- `nodesBackFace()` -/
example : isTen (β := Nat) ((FineLayer3.new 3 3 3 (1 : ℚ) 1).bind fun M => FineLayer3.nodesBackFace M) [4]
    [29, 30, 45, 46] = true := by
  decide +kernel

/-- `nodesLeftFace()` -/
example : isTen (β := Nat) ((FineLayer3.new 3 3 3 (1 : ℚ) 1).bind fun M => FineLayer3.nodesLeftFace M) [4]
    [20, 24, 36, 40] = true := by
  decide +kernel

/-- `nodesRightFace()` -/
example : isTen (β := Nat) ((FineLayer3.new 3 3 3 (1 : ℚ) 1).bind fun M => FineLayer3.nodesRightFace M) [4]
    [23, 27, 39, 43] = true := by
  decide +kernel

/-- `nodesBottomFace()` -/
example : isTen (β := Nat) ((FineLayer3.new 3 3 3 (1 : ℚ) 1).bind fun M => FineLayer3.nodesBottomFace M) [4]
    [5, 9, 6, 10] = true := by
  decide +kernel

/-- `nodesTopFace()` -/
example : isTen (β := Nat) ((FineLayer3.new 3 3 3 (1 : ℚ) 1).bind fun M => FineLayer3.nodesTopFace M) [4] [53,
    57, 54, 58] = true := by
  decide +kernel

/-- `nodesFrontBottomOpenEdge()` -/
example : isTen (β := Nat) ((FineLayer3.new 3 3 3 (1 : ℚ) 1).bind fun M => FineLayer3.nodesFrontBottomOpenEdge
    M) [2] [1, 2] = true := by
  decide +kernel

/-- `nodesFrontTopOpenEdge()` -/
example : isTen (β := Nat) ((FineLayer3.new 3 3 3 (1 : ℚ) 1).bind fun M => FineLayer3.nodesFrontTopOpenEdge M)
    [2] [49, 50] = true := by
  decide +kernel

/-- `nodesFrontLeftOpenEdge()` -/
example : isTen (β := Nat) ((FineLayer3.new 3 3 3 (1 : ℚ) 1).bind fun M => FineLayer3.nodesFrontLeftOpenEdge
    M) [2] [16, 32] = true := by
  decide +kernel

/-- `nodesFrontRightOpenEdge()` -/
example : isTen (β := Nat) ((FineLayer3.new 3 3 3 (1 : ℚ) 1).bind fun M => FineLayer3.nodesFrontRightOpenEdge
    M) [2] [19, 35] = true := by
  decide +kernel

/-- `nodesBackBottomOpenEdge()` -/
example : isTen (β := Nat) ((FineLayer3.new 3 3 3 (1 : ℚ) 1).bind fun M => FineLayer3.nodesBackBottomOpenEdge
    M) [2] [13, 14] = true := by
  decide +kernel

/-- `nodesBackTopOpenEdge()` -/
example : isTen (β := Nat) ((FineLayer3.new 3 3 3 (1 : ℚ) 1).bind fun M => FineLayer3.nodesBackTopOpenEdge M)
    [2] [61, 62] = true := by
  decide +kernel

/-- `nodesBackLeftOpenEdge()` -/
example : isTen (β := Nat) ((FineLayer3.new 3 3 3 (1 : ℚ) 1).bind fun M => FineLayer3.nodesBackLeftOpenEdge M)
    [2] [28, 44] = true := by
  decide +kernel

/-- `nodesBackRightOpenEdge()` -/
example : isTen (β := Nat) ((FineLayer3.new 3 3 3 (1 : ℚ) 1).bind fun M => FineLayer3.nodesBackRightOpenEdge
    M) [2] [31, 47] = true := by
  decide +kernel

/-- `nodesBottomLeftOpenEdge()` -/
example : isTen (β := Nat) ((FineLayer3.new 3 3 3 (1 : ℚ) 1).bind fun M => FineLayer3.nodesBottomLeftOpenEdge
    M) [2] [4, 8] = true := by
  decide +kernel

/-- `nodesBottomRightOpenEdge()` -/
example : isTen (β := Nat) ((FineLayer3.new 3 3 3 (1 : ℚ) 1).bind fun M => FineLayer3.nodesBottomRightOpenEdge
    M) [2] [7, 11] = true := by
  decide +kernel

/-- `nodesTopLeftOpenEdge()` -/
example : isTen (β := Nat) ((FineLayer3.new 3 3 3 (1 : ℚ) 1).bind fun M => FineLayer3.nodesTopLeftOpenEdge M)
    [2] [52, 56] = true := by
  decide +kernel

/-- `nodesTopRightOpenEdge()` -/
example : isTen (β := Nat) ((FineLayer3.new 3 3 3 (1 : ℚ) 1).bind fun M => FineLayer3.nodesTopRightOpenEdge M)
    [2] [55, 59] = true := by
  decide +kernel

/-- `nodesFrontBottomLeftCorner()` -/
example : isVal ((FineLayer3.new 3 3 3 (1 : ℚ) 1).bind fun M => FineLayer3.nodesFrontBottomLeftCorner M) 0 =
    true := by
  decide +kernel

/-- `nodesFrontBottomRightCorner()` -/
example : isVal ((FineLayer3.new 3 3 3 (1 : ℚ) 1).bind fun M => FineLayer3.nodesFrontBottomRightCorner M) 3 =
    true := by
  decide +kernel

/-- `nodesFrontTopLeftCorner()` -/
example : isVal ((FineLayer3.new 3 3 3 (1 : ℚ) 1).bind fun M => FineLayer3.nodesFrontTopLeftCorner M) 48 =
    true := by
  decide +kernel

/-- `nodesFrontTopRightCorner()` -/
example : isVal ((FineLayer3.new 3 3 3 (1 : ℚ) 1).bind fun M => FineLayer3.nodesFrontTopRightCorner M) 51 =
    true := by
  decide +kernel

/-- `nodesBackBottomLeftCorner()` -/
example : isVal ((FineLayer3.new 3 3 3 (1 : ℚ) 1).bind fun M => FineLayer3.nodesBackBottomLeftCorner M) 12 =
    true := by
  decide +kernel

/-- `nodesBackBottomRightCorner()` -/
example : isVal ((FineLayer3.new 3 3 3 (1 : ℚ) 1).bind fun M => FineLayer3.nodesBackBottomRightCorner M) 15 =
    true := by
  decide +kernel

/-- `nodesBackTopLeftCorner()` -/
example : isVal ((FineLayer3.new 3 3 3 (1 : ℚ) 1).bind fun M => FineLayer3.nodesBackTopLeftCorner M) 60 = true
    := by
  decide +kernel

/-- `nodesBackTopRightCorner()` -/
example : isVal ((FineLayer3.new 3 3 3 (1 : ℚ) 1).bind fun M => FineLayer3.nodesBackTopRightCorner M) 63 =
    true := by
  decide +kernel

/-- `dofs()` -/
example : isTen (β := Nat) ((FineLayer3.new 3 3 3 (1 : ℚ) 1).bind fun M => .ok (meshDofs M.nnode M.ndim)) [64,
    3] [0, 1, 2, 3, 4, 5, 6, 7, 8, 9, 10, 11, 12, 13, 14, 15, 16, 17, 18, 19, 20, 21, 22, 23, 24, 25, 26, 27,
    28, 29, 30, 31, 32, 33, 34, 35, 36, 37, 38, 39, 40, 41, 42, 43, 44, 45, 46, 47, 48, 49, 50, 51, 52, 53,
    54, 55, 56, 57, 58, 59, 60, 61, 62, 63, 64, 65, 66, 67, 68, 69, 70, 71, 72, 73, 74, 75, 76, 77, 78, 79,
    80, 81, 82, 83, 84, 85, 86, 87, 88, 89, 90, 91, 92, 93, 94, 95, 96, 97, 98, 99, 100, 101, 102, 103, 104,
    105, 106, 107, 108, 109, 110, 111, 112, 113, 114, 115, 116, 117, 118, 119, 120, 121, 122, 123, 124, 125,
    126, 127, 128, 129, 130, 131, 132, 133, 134, 135, 136, 137, 138, 139, 140, 141, 142, 143, 144, 145, 146,
    147, 148, 149, 150, 151, 152, 153, 154, 155, 156, 157, 158, 159, 160, 161, 162, 163, 164, 165, 166, 167,
    168, 169, 170, 171, 172, 173, 174, 175, 176, 177, 178, 179, 180, 181, 182, 183, 184, 185, 186, 187, 188,
    189, 190, 191] = true := by
  decide +kernel

/-- `dofsPeriodic()` -/
example : isTen (β := Nat) ((FineLayer3.new 3 3 3 (1 : ℚ) 1).bind fun M => FineLayer3.dofsPeriodic M) [64, 3]
    [0, 1, 2, 3, 4, 5, 6, 7, 8, 0, 1, 2, 9, 10, 11, 12, 13, 14, 15, 16, 17, 9, 10, 11, 18, 19, 20, 21, 22, 23,
    24, 25, 26, 18, 19, 20, 0, 1, 2, 3, 4, 5, 6, 7, 8, 0, 1, 2, 27, 28, 29, 30, 31, 32, 33, 34, 35, 27, 28,
    29, 36, 37, 38, 39, 40, 41, 42, 43, 44, 36, 37, 38, 45, 46, 47, 48, 49, 50, 51, 52, 53, 45, 46, 47, 27,
    28, 29, 30, 31, 32, 33, 34, 35, 27, 28, 29, 54, 55, 56, 57, 58, 59, 60, 61, 62, 54, 55, 56, 63, 64, 65,
    66, 67, 68, 69, 70, 71, 63, 64, 65, 72, 73, 74, 75, 76, 77, 78, 79, 80, 72, 73, 74, 54, 55, 56, 57, 58,
    59, 60, 61, 62, 54, 55, 56, 0, 1, 2, 3, 4, 5, 6, 7, 8, 0, 1, 2, 9, 10, 11, 12, 13, 14, 15, 16, 17, 9, 10,
    11, 18, 19, 20, 21, 22, 23, 24, 25, 26, 18, 19, 20, 0, 1, 2, 3, 4, 5, 6, 7, 8, 0, 1, 2] = true := by
  decide +kernel

/-- `nodesPeriodic()` -/
example : isTen (β := Nat) ((FineLayer3.new 3 3 3 (1 : ℚ) 1).bind fun M => FineLayer3.nodesPeriodic M) [37, 2]
    [0, 3, 0, 15, 0, 12, 0, 48, 0, 51, 0, 63, 0, 60, 1, 13, 2, 14, 1, 61, 2, 62, 1, 49, 2, 50, 4, 7, 8, 11, 4,
    55, 8, 59, 4, 52, 8, 56, 16, 19, 32, 35, 16, 31, 32, 47, 16, 28, 32, 44, 17, 29, 18, 30, 33, 45, 34, 46,
    20, 23, 24, 27, 36, 39, 40, 43, 5, 53, 9, 57, 6, 54, 10, 58] = true := by
  decide +kernel

/-- `nodesOrigin()` -/
example : isVal ((FineLayer3.new 3 3 3 (1 : ℚ) 1).bind fun M => FineLayer3.nodesFrontBottomLeftCorner M) 0 =
    true := by
  decide +kernel

end GF.Tests
