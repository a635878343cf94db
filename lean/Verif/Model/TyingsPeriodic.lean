import Verif.Model.Renumber
import Verif.Model.Matrix

/-! Model of `include/GooseFEM/TyingsPeriodic.h` (classes `Tyings::Periodic` and `Tyings::Control`). -/

namespace GF

/-- members of `Tyings::Periodic`, TyingsPeriodic.h:346-355 -/
structure Periodic (α : Type) where
  nnu : Nat
  nnp : Nat
  nni : Nat
  nnd : Nat
  ndim : Nat
  nties : Nat
  dofs : Ten Nat
  control : Ten Nat
  tyings : Ten Nat
  coor : Ten α

namespace Periodic
variable {α : Type}

/-- `flatten(view(dofs, keep(view(nodal_tyings, all, 1)), all))`, TyingsPeriodic.h:105-108; `ncol` is
the number of columns of `dofs` -/
def dependentDofs (dofs tyings : Ten Nat) (nties ncol : Nat) : Res (List Nat) :=
  mapRes (fun (x : Nat × Nat) => do
    let nd ← tyings.get [x.1, 1]
    dofs.get [nd, x.2]) (it2 nties ncol)

/-- Constructor, TyingsPeriodic.h:83-121 (assertions off).  The constructor without `iip` (lines
62-66) is the case `iip = []`. -/
def new (coor : Ten α) (dofs control_dofs nodal_tyings : Ten Nat) (iip : List Nat) :
    Res (Periodic α) := do
  let ndim := coor.shape.getD 1 0
  let nties := nodal_tyings.shape.getD 0 0
  let iid ← dependentDofs dofs nodal_tyings nties (dofs.shape.getD 1 0)
  let l ← dofs.flat
  let iii := setdiff1d l iid
  let iiu := setdiff1d iii iip
  let d ← Reorder.apply [iiu, iip, iid] dofs
  let c ← Reorder.apply [iiu, iip, iid] control_dofs
  .ok ⟨iiu.length, iip.length, iii.length, iid.length, ndim, nties, d, c, nodal_tyings, coor⟩

/-- `iid()`, TyingsPeriodic.h:189-192 -/
def iid (T : Periodic α) : List Nat := (List.range T.nnd).map (T.nni + ·)
/-- `iii()`, TyingsPeriodic.h:199-202 -/
def iii (T : Periodic α) : List Nat := List.range T.nni
/-- `iiu()`, TyingsPeriodic.h:209-212 -/
def iiu (T : Periodic α) : List Nat := List.range T.nnu
/-- `iip()`, TyingsPeriodic.h:219-222 -/
def iip (T : Periodic α) : List Nat := (List.range T.nnp).map (· + T.nnu)

/-- The double loop shared by `Cdi`, `Cdu` and `Cdp` (TyingsPeriodic.h:244-258, 278-296, 316-336):
the entries of row `i * ndim + j`.  `keep` is the `if` around `push_back` (none in `Cdi`) and `off` is
subtracted from the column. -/
def triplets [One α] [Sub α] (T : Periodic α) (keep : Nat → Bool) (off : Nat) :
    Res (List (Trip α)) := do
  let rows ← mapRes (fun (x : Nat × Nat) => do
    let (i, j) := x
    let ni ← T.tyings.get [i, 0]
    let nd ← T.tyings.get [i, 1]
    let c0 ← T.dofs.get [ni, j]
    let first : List (Trip α) := if keep c0 then [⟨i * T.ndim + j, c0 - off, 1⟩] else []
    let rest ← mapRes (fun k => do
      let c ← T.control.get [j, k]
      if keep c then
        let xd ← T.coor.get [nd, k]
        let xi ← T.coor.get [ni, k]
        .ok [(⟨i * T.ndim + j, c - off, xd - xi⟩ : Trip α)]
      else .ok []) (List.range T.ndim)
    .ok (first ++ rest.flatten)) (it2 T.nties T.ndim)
  .ok rows.flatten

/-- `Cdi()`, TyingsPeriodic.h:238-265 -/
def Cdi [One α] [Zero α] [Add α] [Sub α] (T : Periodic α) : Res (Mat α) := do
  let t ← T.triplets (fun _ => true) 0
  Mat.setFromTriplets T.nnd T.nni t

/-- `Cdu()`, TyingsPeriodic.h:272-303 -/
def Cdu [One α] [Zero α] [Add α] [Sub α] (T : Periodic α) : Res (Mat α) := do
  let t ← T.triplets (fun c => decide (c < T.nnu)) 0
  Mat.setFromTriplets T.nnd T.nnu t

/-- `Cdp()`, TyingsPeriodic.h:310-343 -/
def Cdp [One α] [Zero α] [Add α] [Sub α] (T : Periodic α) : Res (Mat α) := do
  let t ← T.triplets (fun c => decide (T.nnu ≤ c)) T.nnu
  Mat.setFromTriplets T.nnd T.nnp t

end Periodic

/-- `xt::concatenate(xtuple(a, b))` of two matrices with the same number of columns -/
def concat0 {α : Type} (a b : Ten α) : Res (Ten α) :=
  match a.shape, b.shape with
  | [n, m], [n', m'] =>
    if m = m' then .ok ⟨[n + n', m], fun ix =>
      if ix.getD 0 0 < n then a.v ix else b.v [ix.getD 0 0 - n, ix.getD 1 0]⟩
    else .throws
  | _, _ => .throws

/-- members of `Tyings::Control`, TyingsPeriodic.h:435-438 -/
structure Control (α : Type) where
  coor : Ten α
  dofs : Ten Nat
  control_dofs : Ten Nat
  control_nodes : List Nat

/-- Constructor of `Tyings::Control`, TyingsPeriodic.h:374-392 -/
def Control.new {α : Type} [Zero α] (coor : Ten α) (dofs : Ten Nat) : Res (Control α) := do
  let nnode := coor.shape.getD 0 0
  let ndim := coor.shape.getD 1 0
  let n ← amax dofs
  let cd : Ten Nat := Ten.of [ndim, ndim] fun ix => ix.getD 0 0 * ndim + ix.getD 1 0 + (n + 1)
  let cn := (List.range ndim).map (nnode + ·)
  let coor' ← concat0 coor (Ten.full [ndim, ndim] 0)
  let dofs' ← concat0 dofs cd
  .ok ⟨coor', dofs', cd, cn⟩

end GF
