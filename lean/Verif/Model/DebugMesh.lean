import Verif.Model.Debug
import Verif.Model.Stitch
import Verif.Model.RefineRegular
import Verif.Model.MeshMeasures
import Verif.Model.MeshTri3
import Verif.Model.MeshHex8
import Verif.Model.TyingsPeriodic

/-! The build with assertions (`GOOSEFEM_ENABLE_ASSERT`), continued: the mesh classes and functions.  See Model/Debug. -/

namespace GF
variable {α : Type}

/-- Constructor of `Mesh::Quad4::Regular`, MeshQuad4.h:44-57 -/
def Quad4.Regular.new_checked (nelx nely : Nat) (h : α) : Res (Regular2d α) := do
  gassert (1 ≤ nelx)
  gassert (1 ≤ nely)
  .ok (Quad4.Regular.new nelx nely h)

/-- Constructor of `Mesh::Tri3::Regular`, MeshTri3.h:36-49 -/
def Tri3.Regular.new_checked (nelx nely : Nat) (h : α) : Res (Regular2d α) := do
  gassert (1 ≤ nelx)
  gassert (1 ≤ nely)
  .ok (Tri3.Regular.new nelx nely h)

/-- Constructor of `Mesh::Hex8::Regular`, MeshHex8.h:36-54 -/
def Hex8.Regular.new_checked (nelx nely nelz : Nat) (h : α) : Res (Regular3d α) := do
  gassert (1 ≤ nelx)
  gassert (1 ≤ nely)
  gassert (1 ≤ nelz)
  .ok (Hex8.Regular.new nelx nely nelz h)

/-- `overlapping(coor_a, coor_b, rtol, atol)`, Mesh.h:1716-1744 -/
def overlapping_checked (close : α → α → Bool) (coor_a coor_b : Ten α) : Res (List Nat × List Nat) := do
  gassert (coor_a.rank = 2)
  gassert (coor_b.rank = 2)
  gassert (coor_a.shape.getD 1 0 = coor_b.shape.getD 1 0)
  overlapping close coor_a coor_b

namespace ManualStitch

/-- Constructor, Mesh.h:1765-1827.  The lists of overlapping nodes have rank one. -/
def new_checked (close : α → α → Bool) (coor_a : Ten α) (conn_a : Ten Nat) (ov_a : List Nat) (coor_b : Ten α)
    (conn_b : Ten Nat) (ov_b : List Nat) (check_position : Bool) : Res (ManualStitch α) := do
  gassert (coor_a.rank = 2)
  gassert (conn_a.rank = 2)
  gassert (coor_b.rank = 2)
  gassert (conn_b.rank = 2)
  gassert (ov_a.length = ov_b.length)
  gassert (coor_a.shape.getD 1 0 = coor_b.shape.getD 1 0)
  gassert (conn_a.shape.getD 1 0 = conn_b.shape.getD 1 0)
  new close coor_a conn_a ov_a coor_b conn_b ov_b check_position

/-- `nodemap(mesh_index)`, Mesh.h:1933-1942 -/
def nodemap_checked (S : ManualStitch α) (i : Nat) : Res (Ten Nat) := do
  gassert (i ≤ 1)
  .ok (S.nodemap i)

/-- `elemmap(mesh_index)`, Mesh.h:1948-1957 -/
def elemmap_checked (S : ManualStitch α) (i : Nat) : Res (Ten Nat) := do
  gassert (i ≤ 1)
  .ok (S.elemmap i)

/-- `nodeset(set, mesh_index)`, Mesh.h:1967-1978 -/
def nodeset_checked (S : ManualStitch α) (set : Ten Nat) (i : Nat) : Res (Ten Nat) := do
  gassert (i ≤ 1)
  let a ← amax set
  if i = 0 then do
    gassert (a < S.nnd_a)
    S.nodeset set i
  else do
    gassert (a < S.map_b.shape.prod)
    S.nodeset set i

/-- `elemset(set, mesh_index)`, Mesh.h:1988-1999 -/
def elemset_checked (S : ManualStitch α) (set : Ten Nat) (i : Nat) : Res (Ten Nat) := do
  gassert (i ≤ 1)
  let a ← amax set
  if i = 0 then do
    gassert (a < S.nel_a)
    S.elemset set i
  else do
    gassert (a < S.nel_b)
    S.elemset set i

end ManualStitch

namespace Stitch

/-- `push_back(coor, conn)`, Mesh.h:2032-2064 -/
def push_back_checked (close : α → α → Bool) (S : Stitch α) (coor : Ten α) (conn : Ten Nat) : Res (Stitch α) := do
  gassert (coor.rank = 2)
  gassert (conn.rank = 2)
  if S.map.length = 0 then .ok (first coor conn)
  else do
    let ov ← overlapping_checked close S.coor coor
    let st ← ManualStitch.new_checked close S.coor S.conn ov.1 coor conn ov.2 false
    let m ← st.nodemap_checked 1
    S.append { st with map_b := m } conn

/-- `nodemap(mesh_index)`, Mesh.h:2172-2176 -/
def nodemap_checked (S : Stitch α) (i : Nat) : Res (Ten Nat) := do
  gassert (i < S.map.length)
  S.nodemap i

/-- `elemmap(mesh_index)`, Mesh.h:2184-2188 -/
def elemmap_checked (S : Stitch α) (i : Nat) : Res (Ten Nat) := do
  gassert (i < S.map.length)
  S.elemmap i

/-- `nodeset(set, mesh_index)`, Mesh.h:2198-2203 -/
def nodeset_checked (S : Stitch α) (set : Ten Nat) (i : Nat) : Res (Ten Nat) := do
  gassert (i < S.map.length)
  let a ← amax set
  let m ← lget S.map i
  gassert (a < m.shape.prod)
  S.nodeset set i

/-- `elemset(set, mesh_index)`, Mesh.h:2213-2218 -/
def elemset_checked (S : Stitch α) (set : Ten Nat) (i : Nat) : Res (Ten Nat) := do
  gassert (i < S.map.length)
  let a ← amax set
  let n ← lget S.nel i
  gassert (a < n)
  S.elemset set i

/-- `nodeset(sets)`, Mesh.h:2227-2247 -/
def nodesets_checked (S : Stitch α) (sets : List (Ten Nat)) : Res (List Nat) := do
  gassert (sets.length = S.map.length)
  let l ← gatherSets S.nodeset_checked sets
  .ok (unique l)

/-- `elemset(sets)`, Mesh.h:2265-2285 -/
def elemsets_checked (S : Stitch α) (sets : List (Ten Nat)) : Res (List Nat) := do
  gassert (sets.length = S.map.length)
  gatherSets S.elemset_checked sets

/-- a call sequence: the object after `push_back` of the meshes `0 .. K - 1` -/
def history_checked (close : α → α → Bool) (co : Nat → Ten α) (cn : Nat → Ten Nat) (K : Nat) : Res (Stitch α) :=
  forEach (it1 K) (fun S i => S.push_back_checked close (co i) (cn i)) new

end Stitch

namespace Vstack

/-- `push_back(coor, conn, nodes_bot, nodes_top)`, Mesh.h:2333-2366: the size of the edge, the assertions of `ManualStitch`
and of its `nodeset` for both edges -/
def push_back_checked [LinearOrder α] [Add α] (close : α → α → Bool) (V : Vstack α) (coor : Ten α) (conn : Ten Nat)
    (bot top : List Nat) : Res (Vstack α) :=
  if V.base.map.length = 0 then .ok ⟨Stitch.first coor conn, [bot], [top], V.check⟩
  else do
    let t ← lget V.nodes_top (V.nodes_top.length - 1)
    gassert (bot.length = t.length)
    let s ← amaxY V.base.coor
    let x ← shiftY coor s
    let st ← ManualStitch.new_checked close V.base.coor V.base.conn t x conn bot V.check
    gassert (bot.foldl max 0 < st.map_b.shape.prod)
    let b' ← mapRes (fun n => st.map_b.get [n]) bot
    gassert (top.foldl max 0 < st.map_b.shape.prod)
    let t' ← mapRes (fun n => st.map_b.get [n]) top
    let B ← V.base.append st conn
    .ok ⟨B, V.nodes_bot ++ [b'], V.nodes_top ++ [t'], V.check⟩

end Vstack

/-- Constructor of `Reorder`, Mesh.h:2391-2420: every list is unique (`is_unique`, assertions.h:13-20) -/
def Reorder.index_checked (args : List (List Nat)) : Res (Ten Nat) := do
  let _ ← forEach args (fun _ arg => gassert arg.Nodup) ()
  Reorder.index args

namespace RefineRegular

/-- `meanToCoarse(data)`, MeshQuad4.h:1261-1278 -/
def meanToCoarse_checked [Field α] (R : RefineRegular α) (data : Ten α) : Res (Ten α) := do
  gassert (data.shape.getD 0 0 = R.c2f.shape.prod)
  R.meanToCoarse data

/-- `averageToCoarse(data, weights)`, MeshQuad4.h:1291-1312 -/
def averageToCoarse_checked [Field α] (R : RefineRegular α) (data weights : Ten α) : Res (Ten α) := do
  gassert (data.shape.getD 0 0 = R.c2f.shape.prod)
  R.averageToCoarse data weights

/-- `mapToFine(data)`, MeshQuad4.h:1327-1344 -/
def mapToFine_checked (R : RefineRegular α) (data : Ten α) : Res (Ten α) := do
  gassert (data.shape.getD 0 0 = R.c2f.shape.getD 0 0)
  R.mapToFine data

end RefineRegular

/-- the assertions at the start of `edgesize`, `centers`, `elemmap2nodemap`, for example Mesh.h:2573-2575 -/
def assertMesh (coor : Ten α) (conn : Ten Nat) : Res Unit := do
  gassert (coor.rank = 2)
  gassert (conn.rank = 2)
  let a ← amax conn
  gassert (a < coor.shape.getD 0 0)

/-- the assertions of the branch for `ElementType::Quad4`, for example Mesh.h:2578-2579 -/
def assertQuad4 (coor : Ten α) (conn : Ten Nat) (type : ElementType) : Res Unit :=
  if type = .Quad4 then do
    gassert (coor.shape.getD 1 0 = 2)
    gassert (conn.shape.getD 1 0 = 4)
  else .ok ()

/-- `edgesize(coor, conn, type)`, Mesh.h:2571-2601 -/
def edgesize_checked [Field α] (sqrt : α → α) (coor : Ten α) (conn : Ten Nat) (type : ElementType) : Res (Ten α) := do
  assertMesh coor conn
  assertQuad4 coor conn type
  edgesize sqrt coor conn type

/-- `centers(coor, conn, type)`, Mesh.h:2626-2645 -/
def centers_checked [Field α] (coor : Ten α) (conn : Ten Nat) (type : ElementType) : Res (Ten α) := do
  assertMesh coor conn
  assertQuad4 coor conn type
  centers coor conn type

/-- `elemmap2nodemap(elem_map, coor, conn, type)`, Mesh.h:2672-2699 -/
def elemmap2nodemap_checked (elem_map : Ten Nat) (coor : Ten α) (conn : Ten Nat) (type : ElementType) : Res (Ten Nat) := do
  gassert (elem_map.rank = 1)
  assertMesh coor conn
  gassert (elem_map.shape.prod = conn.shape.getD 0 0)
  assertQuad4 coor conn type
  elemmap2nodemap elem_map coor conn type

/-- `Reorder(args).apply(list)`, Mesh.h:2428-2440 (without assertions of its own) -/
def Reorder.apply_checked (args : List (List Nat)) (list : Ten Nat) : Res (Ten Nat) := do
  let idx ← Reorder.index_checked args
  renum list idx

/-- `xt::amin(a)() >= xt::amin(b)()`: every entry of `a` is at least some entry of `b` (the minimum of an empty array is the largest
representable number) -/
def aminGe (a b : List Nat) : Prop := ∀ x ∈ a, ∃ y ∈ b, y ≤ x

instance (a b : List Nat) : Decidable (aminGe a b) := by unfold aminGe; infer_instance

/-- Constructor of `Tyings::Periodic`, TyingsPeriodic.h:83-121 -/
def Periodic.new_checked (coor : Ten α) (dofs control_dofs nodal_tyings : Ten Nat) (iip : List Nat) : Res (Periodic α) := do
  let ndim := coor.shape.getD 1 0
  let nties := nodal_tyings.shape.getD 0 0
  gassert (nodal_tyings.shape = [nties, 2])
  gassert (control_dofs.shape = [ndim, ndim])
  gassert (dofs.shape = coor.shape)
  let l ← dofs.flat
  let lc ← control_dofs.flat
  let lt ← nodal_tyings.flat
  gassert (lc.foldl max 0 ≤ l.foldl max 0)
  gassert (aminGe lc l)
  gassert (iip.foldl max 0 ≤ l.foldl max 0)
  gassert (aminGe iip l)
  gassert (lt.foldl max 0 < coor.shape.getD 0 0)
  let iid ← dependentDofs dofs nodal_tyings nties (dofs.shape.getD 1 0)
  let iii := setdiff1d l iid
  let iiu := setdiff1d iii iip
  let d ← Reorder.apply_checked [iiu, iip, iid] dofs
  let c ← Reorder.apply_checked [iiu, iip, iid] control_dofs
  .ok ⟨iiu.length, iip.length, iii.length, iid.length, ndim, nties, d, c, nodal_tyings, coor⟩

/-- Constructor of `Tyings::Control`, TyingsPeriodic.h:374-392 -/
def Control.new_checked [Zero α] (coor : Ten α) (dofs : Ten Nat) : Res (Control α) := do
  gassert (coor.rank = 2)
  gassert (coor.shape = dofs.shape)
  Control.new coor dofs

end GF
