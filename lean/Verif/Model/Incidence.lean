import Verif.Base

/-! Model of the incidence functions of `include/GooseFEM/Mesh.h`: `coordination`, `elem2node`, `node2dof`,
`nodaltyings`.  A `std::vector<std::vector<size_t>>` is modelled as a list of lists. -/

namespace GF

/-- assignment to an element of a `std::vector`; out of bounds is undefined behaviour -/
def lset {β : Type} (l : List β) (i : Nat) (a : β) : Res (List β) :=
  if i < l.length then .ok (l.set i a) else .ub

/-- `std::sort` on a `std::vector<size_t>` (library function, modelled by merge sort) -/
def sortNat (l : List Nat) : List Nat := l.mergeSort (fun a b => decide (a ≤ b))

/-- `coordination(conn)`, Mesh.h:2463-2476 -/
def coordination (conn : Ten Nat) : Res (Ten Nat) := do
  let mx ← amax conn
  let entries ← conn.flat
  forEach entries (fun N n => N.addAt [n] 1) (Ten.full [mx + 1] 0)

/-- the loop of `elem2node` that fills the rows, Mesh.h:2496-2500 -/
def elem2nodeLoop (conn : Ten Nat) (ne nne : Nat) (ret : List (List Nat)) : Res (List (List Nat)) :=
  forEach (it2 ne nne) (fun ret em => do
    let n ← conn.get [em.1, em.2]
    let row ← lget ret n
    lset ret n (row ++ [em.1])) ret

/-- `elem2node(conn, sorted)`, Mesh.h:2486-2509 (`reserve` has no observable effect) -/
def elem2node (conn : Ten Nat) (sorted : Bool) : Res (List (List Nat)) :=
  match conn.shape with
  | [ne, nne] => do
    let N ← coordination conn
    let nnode := N.shape.getD 0 0
    let ret ← elem2nodeLoop conn ne nne (List.replicate nnode [])
    .ok (if sorted then ret.map sortNat else ret)
  | _ => .ub

/-- `node2dof(dofs, sorted)`, Mesh.h:2557-2560 -/
def node2dof (dofs : Ten Nat) (sorted : Bool) : Res (List (List Nat)) := elem2node dofs sorted

/-- `nodaltyings(dofs)`, Mesh.h:2840-2861 (assertions off) -/
def nodaltyings (dofs : Ten Nat) : Res (List (List Nat)) :=
  match dofs.shape with
  | [nnode, _] => do
    let nodemap ← node2dof dofs true
    forEach (it1 nnode) (fun ret m => do
      let d ← dofs.get [m, 0]
      let r ← lget nodemap d
      lset ret m (sortNat r)) (List.replicate nnode [])
  | _ => .ub

/-- body of the loop of `elem2node(conn, dofs, sorted)`, Mesh.h:2524-2543 -/
def mergeTied (nties : List (List Nat)) (sorted : Bool) (ret : List (List Nat)) (m : Nat) :
    Res (List (List Nat)) := do
  let t ← lget nties m
  if t.length ≤ 1 then .ok ret
  else do
    let t0 ← lget t 0
    if m > t0 then .ok ret
    else do
      let ret ← forEach (t.drop 1) (fun ret j => do
        let row ← lget ret m
        let add ← lget ret j
        lset ret m (row ++ add)) ret
      let ret ← (if sorted then do
          let row ← lget ret m
          lset ret m (sortNat row)
        else .ok ret)
      forEach (t.drop 1) (fun ret j => do
        let row ← lget ret m
        lset ret j row) ret

/-- `elem2node(conn, dofs, sorted)`, Mesh.h:2517-2547 -/
def elem2nodeTied (conn dofs : Ten Nat) (sorted : Bool) : Res (List (List Nat)) :=
  match dofs.shape with
  | [nnode, _] => do
    let ret ← elem2node conn sorted
    let nties ← nodaltyings dofs
    forEach (it1 nnode) (fun ret m => mergeTied nties sorted ret m) ret
  | _ => .ub

end GF
