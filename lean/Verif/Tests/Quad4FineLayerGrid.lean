import Verif.Tests.Check
import Verif.Model.FineLayerGrid
import Verif.Model.Incidence
import Mathlib.Data.List.Sort
import Mathlib.Algebra.Field.Rat

/-! `/repo/tests/basic/MeshQuad4.cpp`, sections on `elementgrid_ravel`, `elementgrid_around_ravel`,
`elementgrid_leftright`, `roll` (lines 258-511).  The default of the argument `periodic` is `true`. -/

namespace GF.Tests

/-- `xt::sort` of the result -/
def sorted (r : Res (Ten Nat)) : Res (Ten Nat) :=
  r.bind fun t => t.flat.bind fun l => .ok (lit [l.length] (l.insertionSort (· ≤ ·)))

/-! section "FineLayer::elementgrid_ravel - uniform", line 258 -/

/-- `elementgrid_ravel({0, 5}, {0, 5})` -/
example : isTen ((FineLayer.new 5 5 (1 : ℚ) 1).bind fun M => M.elementgrid_ravel [0, 5] [0, 5]) [25] [0, 1, 2,
    3, 4, 5, 6, 7, 8, 9, 10, 11, 12, 13, 14, 15, 16, 17, 18, 19, 20, 21, 22, 23, 24] = true := by
  decide +kernel

/-- `elementgrid_ravel({0, 5}, {})` -/
example : isTen ((FineLayer.new 5 5 (1 : ℚ) 1).bind fun M => M.elementgrid_ravel [0, 5] []) [25] [0, 1, 2, 3,
    4, 5, 6, 7, 8, 9, 10, 11, 12, 13, 14, 15, 16, 17, 18, 19, 20, 21, 22, 23, 24] = true := by
  decide +kernel

/-- `elementgrid_ravel({}, {0, 5})` -/
example : isTen ((FineLayer.new 5 5 (1 : ℚ) 1).bind fun M => M.elementgrid_ravel [] [0, 5]) [25] [0, 1, 2, 3,
    4, 5, 6, 7, 8, 9, 10, 11, 12, 13, 14, 15, 16, 17, 18, 19, 20, 21, 22, 23, 24] = true := by
  decide +kernel

/-- `elementgrid_ravel({}, {})` -/
example : isTen ((FineLayer.new 5 5 (1 : ℚ) 1).bind fun M => M.elementgrid_ravel [] []) [25] [0, 1, 2, 3, 4,
    5, 6, 7, 8, 9, 10, 11, 12, 13, 14, 15, 16, 17, 18, 19, 20, 21, 22, 23, 24] = true := by
  decide +kernel

/-- `elementgrid_ravel({1, 4}, {0, 5})` -/
example : isTen ((FineLayer.new 5 5 (1 : ℚ) 1).bind fun M => M.elementgrid_ravel [1, 4] [0, 5]) [15] [5, 6, 7,
    8, 9, 10, 11, 12, 13, 14, 15, 16, 17, 18, 19] = true := by
  decide +kernel

/-- `elementgrid_ravel({1, 4}, {1, 4})` -/
example : isTen ((FineLayer.new 5 5 (1 : ℚ) 1).bind fun M => M.elementgrid_ravel [1, 4] [1, 4]) [9] [6, 7, 8,
    11, 12, 13, 16, 17, 18] = true := by
  decide +kernel

/-! section "FineLayer::elementgrid_ravel - refined", line 275 -/

/-- `elementgrid_ravel({9, 12}, {1, 5})` -/
example : isTen ((FineLayer.new 6 18 (1 : ℚ) 1).bind fun M => M.elementgrid_ravel [9, 12] [1, 5]) [12] [19,
    20, 21, 22, 25, 26, 27, 28, 31, 32, 33, 34] = true := by
  decide +kernel

/-- `elementgrid_ravel({0, 6}, {0, 6})` -/
example : isTen ((FineLayer.new 6 18 (1 : ℚ) 1).bind fun M => M.elementgrid_ravel [0, 6] [0, 6]) [4] [0, 1, 2,
    3] = true := by
  decide +kernel

/-- `elementgrid_ravel({15, 21}, {0, 6})` -/
example : isTen ((FineLayer.new 6 18 (1 : ℚ) 1).bind fun M => M.elementgrid_ravel [15, 21] [0, 6]) [4] [50,
    51, 52, 53] = true := by
  decide +kernel

/-- `elementgrid_ravel({6, 8}, {0, 6})` -/
example : isTen ((FineLayer.new 6 18 (1 : ℚ) 1).bind fun M => M.elementgrid_ravel [6, 8] [0, 6]) [8] [4, 5, 6,
    7, 8, 9, 10, 11] = true := by
  decide +kernel

/-! section "FineLayer::elementgrid_ravel - uniform", line 291 -/

/-- `elementgrid_around_ravel(10, 2)` -/
example : isTen (sorted ((FineLayer.new 5 5 (1 : ℚ) 1).bind fun M => M.elementgrid_around_ravel 10 2 true))
    [25] [0, 1, 2, 3, 4, 5, 6, 7, 8, 9, 10, 11, 12, 13, 14, 15, 16, 17, 18, 19, 20, 21, 22, 23, 24] = true :=
    by
  decide +kernel

/-- `elementgrid_around_ravel(11, 2)` -/
example : isTen (sorted ((FineLayer.new 5 5 (1 : ℚ) 1).bind fun M => M.elementgrid_around_ravel 11 2 true))
    [25] [0, 1, 2, 3, 4, 5, 6, 7, 8, 9, 10, 11, 12, 13, 14, 15, 16, 17, 18, 19, 20, 21, 22, 23, 24] = true :=
    by
  decide +kernel

/-- `elementgrid_around_ravel(12, 2)` -/
example : isTen (sorted ((FineLayer.new 5 5 (1 : ℚ) 1).bind fun M => M.elementgrid_around_ravel 12 2 true))
    [25] [0, 1, 2, 3, 4, 5, 6, 7, 8, 9, 10, 11, 12, 13, 14, 15, 16, 17, 18, 19, 20, 21, 22, 23, 24] = true :=
    by
  decide +kernel

/-- `elementgrid_around_ravel(13, 2)` -/
example : isTen (sorted ((FineLayer.new 5 5 (1 : ℚ) 1).bind fun M => M.elementgrid_around_ravel 13 2 true))
    [25] [0, 1, 2, 3, 4, 5, 6, 7, 8, 9, 10, 11, 12, 13, 14, 15, 16, 17, 18, 19, 20, 21, 22, 23, 24] = true :=
    by
  decide +kernel

/-- `elementgrid_around_ravel(14, 2)` -/
example : isTen (sorted ((FineLayer.new 5 5 (1 : ℚ) 1).bind fun M => M.elementgrid_around_ravel 14 2 true))
    [25] [0, 1, 2, 3, 4, 5, 6, 7, 8, 9, 10, 11, 12, 13, 14, 15, 16, 17, 18, 19, 20, 21, 22, 23, 24] = true :=
    by
  decide +kernel

/-- `elementgrid_around_ravel(10, 1)` -/
example : isTen (sorted ((FineLayer.new 5 5 (1 : ℚ) 1).bind fun M => M.elementgrid_around_ravel 10 1 true))
    [9] [5, 6, 9, 10, 11, 14, 15, 16, 19] = true := by
  decide +kernel

/-- `elementgrid_around_ravel(11, 1)` -/
example : isTen (sorted ((FineLayer.new 5 5 (1 : ℚ) 1).bind fun M => M.elementgrid_around_ravel 11 1 true))
    [9] [5, 6, 7, 10, 11, 12, 15, 16, 17] = true := by
  decide +kernel

/-- `elementgrid_around_ravel(12, 1)` -/
example : isTen (sorted ((FineLayer.new 5 5 (1 : ℚ) 1).bind fun M => M.elementgrid_around_ravel 12 1 true))
    [9] [6, 7, 8, 11, 12, 13, 16, 17, 18] = true := by
  decide +kernel

/-- `elementgrid_around_ravel(13, 1)` -/
example : isTen (sorted ((FineLayer.new 5 5 (1 : ℚ) 1).bind fun M => M.elementgrid_around_ravel 13 1 true))
    [9] [7, 8, 9, 12, 13, 14, 17, 18, 19] = true := by
  decide +kernel

/-- `elementgrid_around_ravel(14, 1)` -/
example : isTen (sorted ((FineLayer.new 5 5 (1 : ℚ) 1).bind fun M => M.elementgrid_around_ravel 14 1 true))
    [9] [5, 8, 9, 10, 13, 14, 15, 18, 19] = true := by
  decide +kernel

/-- `elementgrid_around_ravel(10, 0)` -/
example : isTen (sorted ((FineLayer.new 5 5 (1 : ℚ) 1).bind fun M => M.elementgrid_around_ravel 10 0 true))
    [1] [10] = true := by
  decide +kernel

/-- `elementgrid_around_ravel(11, 0)` -/
example : isTen (sorted ((FineLayer.new 5 5 (1 : ℚ) 1).bind fun M => M.elementgrid_around_ravel 11 0 true))
    [1] [11] = true := by
  decide +kernel

/-- `elementgrid_around_ravel(12, 0)` -/
example : isTen (sorted ((FineLayer.new 5 5 (1 : ℚ) 1).bind fun M => M.elementgrid_around_ravel 12 0 true))
    [1] [12] = true := by
  decide +kernel

/-- `elementgrid_around_ravel(13, 0)` -/
example : isTen (sorted ((FineLayer.new 5 5 (1 : ℚ) 1).bind fun M => M.elementgrid_around_ravel 13 0 true))
    [1] [13] = true := by
  decide +kernel

/-- `elementgrid_around_ravel(14, 0)` -/
example : isTen (sorted ((FineLayer.new 5 5 (1 : ℚ) 1).bind fun M => M.elementgrid_around_ravel 14 0 true))
    [1] [14] = true := by
  decide +kernel

/-! section "FineLayer::elementgrid_around_ravel", line 326 -/

/-- `elementgrid_around_ravel(48, 1)` -/
example : isTen (sorted ((FineLayer.new 12 18 (1 : ℚ) 1).bind fun M => M.elementgrid_around_ravel 48 1 true))
    [9] [36, 37, 47, 48, 49, 59, 60, 61, 71] = true := by
  decide +kernel

/-- `elementgrid_around_ravel(49, 1)` -/
example : isTen (sorted ((FineLayer.new 12 18 (1 : ℚ) 1).bind fun M => M.elementgrid_around_ravel 49 1 true))
    [9] [36, 37, 38, 48, 49, 50, 60, 61, 62] = true := by
  decide +kernel

/-- `elementgrid_around_ravel(50, 1)` -/
example : isTen (sorted ((FineLayer.new 12 18 (1 : ℚ) 1).bind fun M => M.elementgrid_around_ravel 50 1 true))
    [9] [37, 38, 39, 49, 50, 51, 61, 62, 63] = true := by
  decide +kernel

/-- `elementgrid_around_ravel(51, 1)` -/
example : isTen (sorted ((FineLayer.new 12 18 (1 : ℚ) 1).bind fun M => M.elementgrid_around_ravel 51 1 true))
    [9] [38, 39, 40, 50, 51, 52, 62, 63, 64] = true := by
  decide +kernel

/-- `elementgrid_around_ravel(52, 1)` -/
example : isTen (sorted ((FineLayer.new 12 18 (1 : ℚ) 1).bind fun M => M.elementgrid_around_ravel 52 1 true))
    [9] [39, 40, 41, 51, 52, 53, 63, 64, 65] = true := by
  decide +kernel

/-- `elementgrid_around_ravel(53, 1)` -/
example : isTen (sorted ((FineLayer.new 12 18 (1 : ℚ) 1).bind fun M => M.elementgrid_around_ravel 53 1 true))
    [9] [40, 41, 42, 52, 53, 54, 64, 65, 66] = true := by
  decide +kernel

/-- `elementgrid_around_ravel(54, 1)` -/
example : isTen (sorted ((FineLayer.new 12 18 (1 : ℚ) 1).bind fun M => M.elementgrid_around_ravel 54 1 true))
    [9] [41, 42, 43, 53, 54, 55, 65, 66, 67] = true := by
  decide +kernel

/-- `elementgrid_around_ravel(55, 1)` -/
example : isTen (sorted ((FineLayer.new 12 18 (1 : ℚ) 1).bind fun M => M.elementgrid_around_ravel 55 1 true))
    [9] [42, 43, 44, 54, 55, 56, 66, 67, 68] = true := by
  decide +kernel

/-- `elementgrid_around_ravel(56, 1)` -/
example : isTen (sorted ((FineLayer.new 12 18 (1 : ℚ) 1).bind fun M => M.elementgrid_around_ravel 56 1 true))
    [9] [43, 44, 45, 55, 56, 57, 67, 68, 69] = true := by
  decide +kernel

/-- `elementgrid_around_ravel(57, 1)` -/
example : isTen (sorted ((FineLayer.new 12 18 (1 : ℚ) 1).bind fun M => M.elementgrid_around_ravel 57 1 true))
    [9] [44, 45, 46, 56, 57, 58, 68, 69, 70] = true := by
  decide +kernel

/-- `elementgrid_around_ravel(58, 1)` -/
example : isTen (sorted ((FineLayer.new 12 18 (1 : ℚ) 1).bind fun M => M.elementgrid_around_ravel 58 1 true))
    [9] [45, 46, 47, 57, 58, 59, 69, 70, 71] = true := by
  decide +kernel

/-- `elementgrid_around_ravel(59, 1)` -/
example : isTen (sorted ((FineLayer.new 12 18 (1 : ℚ) 1).bind fun M => M.elementgrid_around_ravel 59 1 true))
    [9] [36, 46, 47, 48, 58, 59, 60, 70, 71] = true := by
  decide +kernel

/-! section "FineLayer::elementgrid_leftright", line 372 -/

/-- `elementgrid_leftright(48, 1, 1)` -/
example : isTen (sorted ((FineLayer.new 12 18 (1 : ℚ) 1).bind fun M => M.elementgrid_leftright 48 1 1 true))
    [3] [48, 49, 59] = true := by
  decide +kernel

/-- `elementgrid_leftright(49, 1, 1)` -/
example : isTen (sorted ((FineLayer.new 12 18 (1 : ℚ) 1).bind fun M => M.elementgrid_leftright 49 1 1 true))
    [3] [48, 49, 50] = true := by
  decide +kernel

/-- `elementgrid_leftright(50, 1, 1)` -/
example : isTen (sorted ((FineLayer.new 12 18 (1 : ℚ) 1).bind fun M => M.elementgrid_leftright 50 1 1 true))
    [3] [49, 50, 51] = true := by
  decide +kernel

/-- `elementgrid_leftright(51, 1, 1)` -/
example : isTen (sorted ((FineLayer.new 12 18 (1 : ℚ) 1).bind fun M => M.elementgrid_leftright 51 1 1 true))
    [3] [50, 51, 52] = true := by
  decide +kernel

/-- `elementgrid_leftright(52, 1, 1)` -/
example : isTen (sorted ((FineLayer.new 12 18 (1 : ℚ) 1).bind fun M => M.elementgrid_leftright 52 1 1 true))
    [3] [51, 52, 53] = true := by
  decide +kernel

/-- `elementgrid_leftright(53, 1, 1)` -/
example : isTen (sorted ((FineLayer.new 12 18 (1 : ℚ) 1).bind fun M => M.elementgrid_leftright 53 1 1 true))
    [3] [52, 53, 54] = true := by
  decide +kernel

/-- `elementgrid_leftright(54, 1, 1)` -/
example : isTen (sorted ((FineLayer.new 12 18 (1 : ℚ) 1).bind fun M => M.elementgrid_leftright 54 1 1 true))
    [3] [53, 54, 55] = true := by
  decide +kernel

/-- `elementgrid_leftright(55, 1, 1)` -/
example : isTen (sorted ((FineLayer.new 12 18 (1 : ℚ) 1).bind fun M => M.elementgrid_leftright 55 1 1 true))
    [3] [54, 55, 56] = true := by
  decide +kernel

/-- `elementgrid_leftright(56, 1, 1)` -/
example : isTen (sorted ((FineLayer.new 12 18 (1 : ℚ) 1).bind fun M => M.elementgrid_leftright 56 1 1 true))
    [3] [55, 56, 57] = true := by
  decide +kernel

/-- `elementgrid_leftright(57, 1, 1)` -/
example : isTen (sorted ((FineLayer.new 12 18 (1 : ℚ) 1).bind fun M => M.elementgrid_leftright 57 1 1 true))
    [3] [56, 57, 58] = true := by
  decide +kernel

/-- `elementgrid_leftright(58, 1, 1)` -/
example : isTen (sorted ((FineLayer.new 12 18 (1 : ℚ) 1).bind fun M => M.elementgrid_leftright 58 1 1 true))
    [3] [57, 58, 59] = true := by
  decide +kernel

/-- `elementgrid_leftright(59, 1, 1)` -/
example : isTen (sorted ((FineLayer.new 12 18 (1 : ℚ) 1).bind fun M => M.elementgrid_leftright 59 1 1 true))
    [3] [48, 58, 59] = true := by
  decide +kernel

/-! section "FineLayer - roll - trivial", line 443 -/

/-- `roll(0)` -/
example : isTen ((FineLayer.new 3 3 (1 : ℚ) 1).bind fun M => M.roll 0) [9] [0, 1, 2, 3, 4, 5, 6, 7, 8] = true
    := by
  decide +kernel

/-- `roll(1)` -/
example : isTen ((FineLayer.new 3 3 (1 : ℚ) 1).bind fun M => M.roll 1) [9] [2, 0, 1, 5, 3, 4, 8, 6, 7] = true
    := by
  decide +kernel

/-- `roll(2)` -/
example : isTen ((FineLayer.new 3 3 (1 : ℚ) 1).bind fun M => M.roll 2) [9] [1, 2, 0, 4, 5, 3, 7, 8, 6] = true
    := by
  decide +kernel

/-- `roll(3)` -/
example : isTen ((FineLayer.new 3 3 (1 : ℚ) 1).bind fun M => M.roll 3) [9] [0, 1, 2, 3, 4, 5, 6, 7, 8] = true
    := by
  decide +kernel

/-- `roll(4)` -/
example : isTen ((FineLayer.new 3 3 (1 : ℚ) 1).bind fun M => M.roll 4) [9] [2, 0, 1, 5, 3, 4, 8, 6, 7] = true
    := by
  decide +kernel

/-- `roll(5)` -/
example : isTen ((FineLayer.new 3 3 (1 : ℚ) 1).bind fun M => M.roll 5) [9] [1, 2, 0, 4, 5, 3, 7, 8, 6] = true
    := by
  decide +kernel

/-! section "FineLayer - roll - a", line 467 -/

/-- `roll(0)` -/
example : isTen ((FineLayer.new 6 18 (1 : ℚ) 1).bind fun M => M.roll 0) [54] [0, 1, 2, 3, 4, 5, 6, 7, 8, 9,
    10, 11, 12, 13, 14, 15, 16, 17, 18, 19, 20, 21, 22, 23, 24, 25, 26, 27, 28, 29, 30, 31, 32, 33, 34, 35,
    36, 37, 38, 39, 40, 41, 42, 43, 44, 45, 46, 47, 48, 49, 50, 51, 52, 53] = true := by
  decide +kernel

/-- `roll(1)` -/
example : isTen ((FineLayer.new 6 18 (1 : ℚ) 1).bind fun M => M.roll 1) [54] [1, 0, 3, 2, 8, 9, 10, 11, 4, 5,
    6, 7, 15, 16, 17, 12, 13, 14, 21, 22, 23, 18, 19, 20, 27, 28, 29, 24, 25, 26, 33, 34, 35, 30, 31, 32, 39,
    40, 41, 36, 37, 38, 46, 47, 48, 49, 42, 43, 44, 45, 51, 50, 53, 52] = true := by
  decide +kernel

/-- `roll(2)` -/
example : isTen ((FineLayer.new 6 18 (1 : ℚ) 1).bind fun M => M.roll 2) [54] [0, 1, 2, 3, 4, 5, 6, 7, 8, 9,
    10, 11, 12, 13, 14, 15, 16, 17, 18, 19, 20, 21, 22, 23, 24, 25, 26, 27, 28, 29, 30, 31, 32, 33, 34, 35,
    36, 37, 38, 39, 40, 41, 42, 43, 44, 45, 46, 47, 48, 49, 50, 51, 52, 53] = true := by
  decide +kernel

/-- `roll(3)` -/
example : isTen ((FineLayer.new 6 18 (1 : ℚ) 1).bind fun M => M.roll 3) [54] [1, 0, 3, 2, 8, 9, 10, 11, 4, 5,
    6, 7, 15, 16, 17, 12, 13, 14, 21, 22, 23, 18, 19, 20, 27, 28, 29, 24, 25, 26, 33, 34, 35, 30, 31, 32, 39,
    40, 41, 36, 37, 38, 46, 47, 48, 49, 42, 43, 44, 45, 51, 50, 53, 52] = true := by
  decide +kernel

/-! section "FineLayer - roll - b", line 484 -/

/-- `roll(0)` -/
example : isTen ((FineLayer.new 9 18 (1 : ℚ) 1).bind fun M => M.roll 0) [81] [0, 1, 2, 3, 4, 5, 6, 7, 8, 9,
    10, 11, 12, 13, 14, 15, 16, 17, 18, 19, 20, 21, 22, 23, 24, 25, 26, 27, 28, 29, 30, 31, 32, 33, 34, 35,
    36, 37, 38, 39, 40, 41, 42, 43, 44, 45, 46, 47, 48, 49, 50, 51, 52, 53, 54, 55, 56, 57, 58, 59, 60, 61,
    62, 63, 64, 65, 66, 67, 68, 69, 70, 71, 72, 73, 74, 75, 76, 77, 78, 79, 80] = true := by
  decide +kernel

/-- `roll(1)` -/
example : isTen ((FineLayer.new 9 18 (1 : ℚ) 1).bind fun M => M.roll 1) [81] [2, 0, 1, 5, 3, 4, 14, 15, 16,
    17, 6, 7, 8, 9, 10, 11, 12, 13, 24, 25, 26, 18, 19, 20, 21, 22, 23, 33, 34, 35, 27, 28, 29, 30, 31, 32,
    42, 43, 44, 36, 37, 38, 39, 40, 41, 51, 52, 53, 45, 46, 47, 48, 49, 50, 60, 61, 62, 54, 55, 56, 57, 58,
    59, 71, 72, 73, 74, 63, 64, 65, 66, 67, 68, 69, 70, 77, 75, 76, 80, 78, 79] = true := by
  decide +kernel

/-- `roll(2)` -/
example : isTen ((FineLayer.new 9 18 (1 : ℚ) 1).bind fun M => M.roll 2) [81] [1, 2, 0, 4, 5, 3, 10, 11, 12,
    13, 14, 15, 16, 17, 6, 7, 8, 9, 21, 22, 23, 24, 25, 26, 18, 19, 20, 30, 31, 32, 33, 34, 35, 27, 28, 29,
    39, 40, 41, 42, 43, 44, 36, 37, 38, 48, 49, 50, 51, 52, 53, 45, 46, 47, 57, 58, 59, 60, 61, 62, 54, 55,
    56, 67, 68, 69, 70, 71, 72, 73, 74, 63, 64, 65, 66, 76, 77, 75, 79, 80, 78] = true := by
  decide +kernel

/-- `roll(3)` -/
example : isTen ((FineLayer.new 9 18 (1 : ℚ) 1).bind fun M => M.roll 3) [81] [0, 1, 2, 3, 4, 5, 6, 7, 8, 9,
    10, 11, 12, 13, 14, 15, 16, 17, 18, 19, 20, 21, 22, 23, 24, 25, 26, 27, 28, 29, 30, 31, 32, 33, 34, 35,
    36, 37, 38, 39, 40, 41, 42, 43, 44, 45, 46, 47, 48, 49, 50, 51, 52, 53, 54, 55, 56, 57, 58, 59, 60, 61,
    62, 63, 64, 65, 66, 67, 68, 69, 70, 71, 72, 73, 74, 75, 76, 77, 78, 79, 80] = true := by
  decide +kernel

/-- `roll(4)` -/
example : isTen ((FineLayer.new 9 18 (1 : ℚ) 1).bind fun M => M.roll 4) [81] [2, 0, 1, 5, 3, 4, 14, 15, 16,
    17, 6, 7, 8, 9, 10, 11, 12, 13, 24, 25, 26, 18, 19, 20, 21, 22, 23, 33, 34, 35, 27, 28, 29, 30, 31, 32,
    42, 43, 44, 36, 37, 38, 39, 40, 41, 51, 52, 53, 45, 46, 47, 48, 49, 50, 60, 61, 62, 54, 55, 56, 57, 58,
    59, 71, 72, 73, 74, 63, 64, 65, 66, 67, 68, 69, 70, 77, 75, 76, 80, 78, 79] = true := by
  decide +kernel

/-- `roll(5)` -/
example : isTen ((FineLayer.new 9 18 (1 : ℚ) 1).bind fun M => M.roll 5) [81] [1, 2, 0, 4, 5, 3, 10, 11, 12,
    13, 14, 15, 16, 17, 6, 7, 8, 9, 21, 22, 23, 24, 25, 26, 18, 19, 20, 30, 31, 32, 33, 34, 35, 27, 28, 29,
    39, 40, 41, 42, 43, 44, 36, 37, 38, 48, 49, 50, 51, 52, 53, 45, 46, 47, 57, 58, 59, 60, 61, 62, 54, 55,
    56, 67, 68, 69, 70, 71, 72, 73, 74, 63, 64, 65, 66, 76, 77, 75, 79, 80, 78] = true := by
  decide +kernel

end GF.Tests
