import Verif.Model.Renumber
import Mathlib.Order.Defs.LinearOrder

/-! Model of `GooseFEM::Mesh::overlapping`, `ManualStitch`, `Stitch` and `Vstack`,
`include/GooseFEM/Mesh.h`:1700-2374 (assertions off).

`xt::isclose(a, b, rtol, atol)` (library function) is a parameter `close a b`: nothing below depends on its formula.
One-dimensional node lists are lists, except where a set may have any rank (`nodeset`, `elemset`).  An assignment
between views of different shape is `ub`. -/

namespace GF
variable {α : Type}

/-- `xt::prod(xt::isclose(x, y), 1)` for row `i` of `x` and row `j` of `y`, Mesh.h:1727-1729 and
`xt::allclose`, Mesh.h:1791-1796 (one pair of rows) -/
def rowsClose (close : α → α → Bool) (x y : Ten α) (ndim i j : Nat) : Res Bool :=
  forEach (it1 ndim) (fun b k => do
    let p ← x.get [i, k]
    let q ← y.get [j, k]
    .ok (b && close p q)) true

/-- `overlapping(coor_a, coor_b, rtol, atol)`, Mesh.h:1716-1744: the two rows of the returned array -/
def overlapping (close : α → α → Bool) (coor_a coor_b : Ten α) : Res (List Nat × List Nat) :=
  match coor_a.shape, coor_b.shape with
  | [na, ndim], [nb, ndim'] =>
    if ndim = ndim' then
      forEach (it2 na nb) (fun s ij => do
        let c ← rowsClose close coor_b coor_a ndim ij.2 ij.1
        if c then .ok (s.1 ++ [ij.1], s.2 ++ [ij.2]) else .ok s) ([], [])
    else .ub
  | _, _ => .ub

/-- members of `ManualStitch`, Mesh.h:2002-2007 -/
structure ManualStitch (α : Type) where
  coor : Ten α
  conn : Ten Nat
  map_b : Ten Nat
  nnd_a : Nat
  nel_a : Nat
  nel_b : Nat

namespace ManualStitch

/-- the check of the positions, Mesh.h:1790-1797 -/
def check (close : α → α → Bool) (coor_a coor_b : Ten α) (ndim : Nat) (ov_a ov_b : List Nat) : Res Unit := do
  let c ← forEach (ov_a.zip ov_b) (fun b p => do
    let c ← rowsClose close coor_a coor_b ndim p.1 p.2
    .ok (b && c)) true
  if c then .ok () else .throws

/-- the conditional check of the positions, Mesh.h:1790-1797 -/
def positions (close : α → α → Bool) (coor_a coor_b : Ten α) (ndim : Nat) (ov_a ov_b : List Nat)
    (check_position : Bool) : Res Unit :=
  if check_position then check close coor_a coor_b ndim ov_a ov_b else .ok ()

/-- `m_map_b`, Mesh.h:1815-1817 -/
def mapB (nnda nndb : Nat) (ov_a ov_b keep_b : List Nat) : Res (Ten Nat) := do
  let m ← forEach (ov_b.zip ov_a) (fun m p => m.set [p.1] p.2) (Ten.empty [nndb])
  forEach (it1 keep_b.length) (fun m k => do
    let n ← lget keep_b k
    m.set [n] (k + nnda)) m

/-- `m_conn`, Mesh.h:1819-1821 -/
def mkConn (conn_a conn_b map_b : Ten Nat) (nela nelb nne : Nat) : Res (Ten Nat) := do
  let c ← forEach (it2 nela nne) (fun c em => do
    let n ← conn_a.get [em.1, em.2]
    c.set [em.1, em.2] n) (Ten.empty [nela + nelb, nne])
  let r ← renum conn_b map_b
  forEach (it2 nelb nne) (fun c em => do
    let n ← r.get [em.1, em.2]
    c.set [nela + em.1, em.2] n) c

/-- `m_coor`, Mesh.h:1823-1826.  The second assignment needs `keep_b.size() == nndb - nelim`. -/
def mkCoor (coor_a coor_b : Ten α) (nnda nndb nelim ndim : Nat) (keep_b : List Nat) : Res (Ten α) :=
  if keep_b.length + nelim = nndb then do
    let x ← forEach (it2 nnda ndim) (fun x nj => do
      let a ← coor_a.get [nj.1, nj.2]
      x.set [nj.1, nj.2] a) (Ten.empty [nnda + nndb - nelim, ndim])
    forEach (it2 keep_b.length ndim) (fun x kj => do
      let n ← lget keep_b kj.1
      let a ← coor_b.get [n, kj.2]
      x.set [nnda + kj.1, kj.2] a) x
  else .ub

/-- Constructor, Mesh.h:1765-1827 -/
def new (close : α → α → Bool) (coor_a : Ten α) (conn_a : Ten Nat) (ov_a : List Nat) (coor_b : Ten α)
    (conn_b : Ten Nat) (ov_b : List Nat) (check_position : Bool) : Res (ManualStitch α) :=
  match coor_a.shape, conn_a.shape, coor_b.shape, conn_b.shape with
  | [nnda, ndim], [nela, nne], [nndb, ndim'], [nelb, nne'] =>
    if ov_a.length = ov_b.length ∧ ndim = ndim' ∧ nne = nne' then do
      let _ ← positions close coor_a coor_b ndim ov_a ov_b check_position
      let keep_b := setdiff1d (List.range nndb) ov_b
      let map_b ← mapB nnda nndb ov_a ov_b keep_b
      let conn ← mkConn conn_a conn_b map_b nela nelb nne
      let coor ← mkCoor coor_a coor_b nnda nndb ov_a.length ndim keep_b
      .ok ⟨coor, conn, map_b, nnda, nela, nelb⟩
    else .ub
  | _, _, _, _ => .ub

/-- `xt::arange<size_t>(n) + o` -/
def arangeFrom (n o : Nat) : Ten Nat := Ten.of [n] fun ix => ix.getD 0 0 + o

/-- `set + o` for a set of any rank -/
def shift (set : Ten Nat) (o : Nat) : Res (Ten Nat) :=
  forEach (indices set.shape) (fun r ix => do
    let a ← set.get ix
    r.set ix (a + o)) (Ten.empty set.shape)

/-- `nodemap(mesh_index)`, Mesh.h:1933-1942 -/
def nodemap (S : ManualStitch α) (i : Nat) : Ten Nat := if i = 0 then arangeFrom S.nnd_a 0 else S.map_b

/-- `elemmap(mesh_index)`, Mesh.h:1948-1957 -/
def elemmap (S : ManualStitch α) (i : Nat) : Ten Nat :=
  if i = 0 then arangeFrom S.nel_a 0 else arangeFrom S.nel_b S.nel_a

/-- `nodeset(set, mesh_index)`, Mesh.h:1967-1978 -/
def nodeset (S : ManualStitch α) (set : Ten Nat) (i : Nat) : Res (Ten Nat) :=
  if i = 0 then .ok set else renum set S.map_b

/-- `elemset(set, mesh_index)`, Mesh.h:1988-1999 -/
def elemset (S : ManualStitch α) (set : Ten Nat) (i : Nat) : Res (Ten Nat) :=
  if i = 0 then .ok set else shift set S.nel_a

end ManualStitch

/-- members of `Stitch`, Mesh.h:2297-2303 (the tolerances are in `close`) -/
structure Stitch (α : Type) where
  coor : Ten α
  conn : Ten Nat
  map : List (Ten Nat)
  nel : List Nat
  el_offset : List Nat

namespace Stitch

/-- Constructor, Mesh.h:2019-2023 -/
def new : Stitch α := ⟨Ten.empty [0, 0], Ten.empty [0, 0], [], [], []⟩

/-- bookkeeping of the first mesh, Mesh.h:2038-2042 (and 2336-2340) -/
def first (coor : Ten α) (conn : Ten Nat) : Stitch α :=
  ⟨coor, conn, [ManualStitch.arangeFrom (coor.shape.getD 0 0) 0], [conn.shape.getD 0 0], [0]⟩

/-- bookkeeping of a further mesh, Mesh.h:2059-2063 (and 2361-2365); `index` = `m_map.size()` -/
def append (S : Stitch α) (st : ManualStitch α) (conn : Ten Nat) : Res (Stitch α) := do
  let o ← lget S.el_offset (S.map.length - 1)
  let n ← lget S.nel (S.map.length - 1)
  .ok ⟨st.coor, st.conn, S.map ++ [st.nodemap 1], S.nel ++ [conn.shape.getD 0 0], S.el_offset ++ [o + n]⟩

/-- `push_back(coor, conn)`, Mesh.h:2032-2064 -/
def push_back (close : α → α → Bool) (S : Stitch α) (coor : Ten α) (conn : Ten Nat) : Res (Stitch α) :=
  if S.map.length = 0 then .ok (first coor conn)
  else do
    let ov ← overlapping close S.coor coor
    let st ← ManualStitch.new close S.coor S.conn ov.1 coor conn ov.2 false
    S.append st conn

/-- `nmesh()`, Mesh.h:2070-2073 -/
def nmesh (S : Stitch α) : Nat := S.map.length

/-- `nodemap(mesh_index)`, Mesh.h:2172-2176 -/
def nodemap (S : Stitch α) (i : Nat) : Res (Ten Nat) := lget S.map i

/-- `elemmap(mesh_index)`, Mesh.h:2184-2188 -/
def elemmap (S : Stitch α) (i : Nat) : Res (Ten Nat) := do
  let n ← lget S.nel i
  let o ← lget S.el_offset i
  .ok (ManualStitch.arangeFrom n o)

/-- `nodeset(set, mesh_index)`, Mesh.h:2198-2203 -/
def nodeset (S : Stitch α) (set : Ten Nat) (i : Nat) : Res (Ten Nat) := do
  let m ← lget S.map i
  renum set m

/-- `elemset(set, mesh_index)`, Mesh.h:2213-2218 -/
def elemset (S : Stitch α) (set : Ten Nat) (i : Nat) : Res (Ten Nat) := do
  let o ← lget S.el_offset i
  ManualStitch.shift set o

/-- the buffer that is filled from front to back with the converted sets, Mesh.h:2231-2244 and 2269-2282 -/
def gatherSets (conv : Ten Nat → Nat → Res (Ten Nat)) (sets : List (Ten Nat)) : Res (List Nat) := do
  let s ← forEach sets (fun s set => do
    let t ← conv set s.2
    let l ← t.flat
    .ok (s.1 ++ l, s.2 + 1)) ([], 0)
  .ok s.1

/-- `nodeset(sets)`, Mesh.h:2227-2247 -/
def nodesets (S : Stitch α) (sets : List (Ten Nat)) : Res (List Nat) := do
  let l ← gatherSets S.nodeset sets
  .ok (unique l)

/-- `elemset(sets)`, Mesh.h:2265-2285 -/
def elemsets (S : Stitch α) (sets : List (Ten Nat)) : Res (List Nat) := gatherSets S.elemset sets

/-- a call sequence: the object after `push_back` of the meshes `0 .. K - 1` -/
def history (close : α → α → Bool) (co : Nat → Ten α) (cn : Nat → Ten Nat) (K : Nat) : Res (Stitch α) :=
  forEach (it1 K) (fun S i => S.push_back close (co i) (cn i)) new

end Stitch

/-- members of `Vstack`, Mesh.h:2369-2373, on top of those of `Stitch` -/
structure Vstack (α : Type) where
  base : Stitch α
  nodes_bot : List (List Nat)
  nodes_top : List (List Nat)
  check : Bool

namespace Vstack

/-- Constructor, Mesh.h:2316-2321 -/
def new (check : Bool) : Vstack α := ⟨Stitch.new, [], [], check⟩

/-- `xt::amax(xt::view(coor, xt::all(), 1))()`, Mesh.h:2350, for a non-empty column -/
def amaxY [LinearOrder α] (coor : Ten α) : Res α := do
  let a ← coor.get [0, 1]
  forEach (it1 (coor.shape.getD 0 0)) (fun s n => do
    let y ← coor.get [n, 1]
    .ok (max s y)) a

/-- `xt::view(x, xt::all(), 1) += shift`, Mesh.h:2351-2352 -/
def shiftY [Add α] (x : Ten α) (s : α) : Res (Ten α) :=
  forEach (it1 (x.shape.getD 0 0)) (fun x n => x.addAt [n, 1] s) x

/-- `push_back(coor, conn, nodes_bot, nodes_top)`, Mesh.h:2333-2366 -/
def push_back [LinearOrder α] [Add α] (close : α → α → Bool) (V : Vstack α) (coor : Ten α) (conn : Ten Nat)
    (bot top : List Nat) : Res (Vstack α) :=
  if V.base.map.length = 0 then .ok ⟨Stitch.first coor conn, [bot], [top], V.check⟩
  else do
    let s ← amaxY V.base.coor
    let x ← shiftY coor s
    let t ← lget V.nodes_top (V.nodes_top.length - 1)
    let st ← ManualStitch.new close V.base.coor V.base.conn t x conn bot V.check
    let b' ← mapRes (fun n => st.map_b.get [n]) bot
    let t' ← mapRes (fun n => st.map_b.get [n]) top
    let B ← V.base.append st conn
    .ok ⟨B, V.nodes_bot ++ [b'], V.nodes_top ++ [t'], V.check⟩

/-- a call sequence: the object after `push_back` of the meshes `0 .. K - 1` -/
def history [LinearOrder α] [Add α] (close : α → α → Bool) (check : Bool) (co : Nat → Ten α) (cn : Nat → Ten Nat)
    (bot top : Nat → List Nat) (K : Nat) : Res (Vstack α) :=
  forEach (it1 K) (fun V i => V.push_back close (co i) (cn i) (bot i) (top i)) (new check)

end Vstack
end GF
