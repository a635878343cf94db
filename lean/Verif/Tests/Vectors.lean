import Verif.Tests.Check
import Verif.Model.MeshRegular2d
import Verif.Model.Vector
import Verif.Model.VectorPartitioned
import Verif.Model.StopList
import Mathlib.Algebra.Field.Rat
import Mathlib.Algebra.Order.Ring.Rat

/-! `/repo/tests/basic/Vector.cpp`, `/repo/tests/basic/VectorPartitioned.cpp`, `/repo/tests/basic/Iterate.cpp` -/

namespace GF.Tests

/-- `Vector(mesh.conn(), mesh.dofsPeriodic())` on `Quad4::Regular mesh(2, 2)` -/
def vec : Res Vector :=
  (Quad4.Regular.conn (Quad4.Regular.new 2 2 (1 : ℚ))).bind fun c =>
    (Quad4.Regular.dofsPeriodic (Quad4.Regular.new 2 2 (1 : ℚ))).bind fun d => Vector.new c d

def v9 : Ten ℚ := lit [9, 2] [1, 0, 1, 0, 1, 0, 3/2, 0, 3/2, 0, 3/2, 0, 1, 0, 1, 0, 1, 0]
def f9 : Ten ℚ := lit [9, 2] [-1, -1, 0, -1, 1, -1, -1, 0, 0, 0, 1, 0, -1, 1, 0, 1, 1, 1]

/-- section "asDofs - nodevec", Vector.cpp:11 -/
example : isTen (vec.bind fun V => V.AsDofs Sched.seq v9) [8] [1, 0, 1, 0, 3/2, 0, 3/2, 0] = true := by
  decide +kernel

example : isVal (vec.bind fun V => .ok (V.shape_dofval, V.shape_nodevec, V.shape_elemvec)) ([8], [9, 2], [4, 4, 2]) =
    true := by
  decide +kernel

/-- section "asDofs - elemvec", Vector.cpp:55 -/
example : isTen (vec.bind fun V => (V.AsDofs Sched.seq v9).bind fun a => (V.AsElement Sched.seq a).bind fun b =>
    V.AsDofs Sched.seq b) [8] [1, 0, 1, 0, 3/2, 0, 3/2, 0] = true := by
  decide +kernel

/-- section "asDofs - assembleDofs", Vector.cpp:93 -/
example : isTen (vec.bind fun V => V.AssembleDofs f9) [8] [0, 0, 0, 0, 0, 0, 0, 0] = true := by
  decide +kernel

/-- section "asDofs - assembleNode", Vector.cpp:131 -/
example : isTen (vec.bind fun V => (V.AsElement Sched.seq f9).bind fun a => V.AssembleDofs a) [8]
    [0, 0, 0, 0, 0, 0, 0, 0] = true := by
  decide +kernel

/-- `VectorPartitioned(mesh.conn(), mesh.dofs(), arange(8))` on `Quad4::Regular mesh(3, 3)` -/
def part : Res VectorPartitioned :=
  (Quad4.Regular.conn (Quad4.Regular.new 3 3 (1 : ℚ))).bind fun c =>
    VectorPartitioned.new c (meshDofs 16 2) (List.range 8)

/-- section "basic", VectorPartitioned.cpp:11 -/
example : isTen (part.bind fun P => P.dofs_is_p Sched.seq) [16, 2]
    (List.replicate 8 true ++ List.replicate 24 false) = true := by
  decide +kernel

example : isTen (part.bind fun P => P.dofs_is_u Sched.seq) [16, 2]
    (List.replicate 8 false ++ List.replicate 24 true) = true := by
  decide +kernel

/-- `dofs` of `Quad4::Regular mesh(3, 3)` with the DOFs of the open right edge replaced by those of the open left edge,
and the DOFs of the top and bottom prescribed -/
def part3 : Res VectorPartitioned :=
  (Quad4.Regular.conn (Quad4.Regular.new 3 3 (1 : ℚ))).bind fun c =>
    VectorPartitioned.new c
      (lit [16, 2] [0, 1, 2, 3, 4, 5, 6, 7, 8, 9, 10, 11, 12, 13, 8, 9, 16, 17, 18, 19, 20, 21, 16, 17, 24, 25, 26, 27,
        28, 29, 30, 31])
      [24, 26, 28, 30, 25, 27, 29, 31, 0, 2, 4, 6, 1, 3, 5, 7]

/-- a nodal vector, periodic in horizontal direction -/
def u16 : List ℚ := [3, 1, 4, 1, 5, 9, 2, 6, 5, 3, 5, 8, 9, 7, 5, 3, 9, 3, 2, 3, 8, 4, 9, 3, 6, 2, 6, 4, 3, 3, 8, 3]

/-- section "asDofs", VectorPartitioned.cpp:40 (on a 3 x 3 mesh, fixed data) -/
example : isTen (part3.bind fun P => (P.AsDofs_u_nodevec Sched.seq (lit [16, 2] u16)).bind fun a =>
    (P.AsDofs_p_nodevec Sched.seq (lit [16, 2] u16)).bind fun b => P.NodeFromPartitioned Sched.seq a b) [16, 2] u16 =
    true := by
  decide +kernel

/-- section "copy_u, copy_p", VectorPartitioned.cpp:68 (on a 3 x 3 mesh, fixed data) -/
example : isTen (part3.bind fun P => (P.copy_u Sched.seq (lit [16, 2] u16) (Ten.empty [16, 2])).bind fun a =>
    P.copy_p Sched.seq (lit [16, 2] u16) a) [16, 2] u16 = true := by
  decide +kernel

/-- the answers of the test after each `roll_insert` -/
def answers (f : StopList ℚ → Bool) : StopList ℚ → List ℚ → Res (List Bool)
  | _, [] => .ok []
  | s, r :: l => (s.roll_insert (.num r)).bind fun s => (answers f s l).bind fun t => .ok (f s :: t)

def less (s : StopList ℚ) : Bool := s.all_less (.num (1/1000))
def desc (s : StopList ℚ) : Bool := s.descending && less s
def nine : List Bool := [false, false, false, false, false, false, false, false, false]

/-- Iterate.cpp:11 -/
example : isVal (answers less (StopList.new 5) [5, 50, 1/2, 1/20, 1/200, 1/2000, 4/10000, 3/10000, 2/10000, 1/10000])
    (nine ++ [true]) = true := by
  decide +kernel

/-- Iterate.cpp:26 -/
example : isVal (answers less (StopList.new 5) [5, 50, 1/2, 1/20, 1/200, 1/2000, 4/10000, 5/10000, 4/10000, 4/10000])
    (nine ++ [true]) = true := by
  decide +kernel

/-- Iterate.cpp:41 -/
example : isVal (answers desc (StopList.new 5) [5, 50, 1/2, 1/20, 1/200, 1/2000, 4/10000, 3/10000, 2/10000, 1/10000])
    (nine ++ [true]) = true := by
  decide +kernel

/-- Iterate.cpp:56 -/
example : isVal (answers desc (StopList.new 5) [5, 50, 1/2, 1/20, 1/200, 1/2000, 4/10000, 3/10000, 2/10000, 3/10000,
      2/10000, 1/10000, 9/100000, 8/100000])
    (nine ++ [false, false, false, false, true]) = true := by
  decide +kernel

end GF.Tests
