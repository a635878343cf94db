import Verif.Base

/-! Model of `GooseFEM::Mesh::Renumber`, `renumber`, `Reorder` (Mesh.h). -/

namespace GF

/-- `detail::renum(arg, mapping)`, Mesh.h:66-78, and `Reorder::apply`, Mesh.h:2426-2437: entry-wise
look-up, for an argument of any rank. -/
def renum (arg mapping : Ten Nat) : Res (Ten Nat) :=
  forEach (indices arg.shape) (fun ret ix => do
    let a ← arg.get ix
    let b ← mapping.get [a]
    ret.set ix b) (Ten.empty arg.shape)

/-- Loop body shared by the constructors of `Renumber` (Mesh.h:131-134) and `Reorder`
(Mesh.h:2413-2418): `m_renum(j) = i; ++i;` -/
def enumBody (s : Ten Nat × Nat) (j : Nat) : Res (Ten Nat × Nat) := do
  let r ← s.1.set [j] s.2
  .ok (r, s.2 + 1)

/-- Constructor of `Renumber`, Mesh.h:121-135: the index table.  It is allocated uninitialised. -/
def Renumber.index (dofs : Ten Nat) : Res (Ten Nat) := do
  let n ← amax dofs
  let l ← dofs.flat
  let s ← forEach (unique l) enumBody (Ten.empty [n + 1], 0)
  .ok s.1

/-- `renumber(dofs)`, Mesh.h:172-175 -/
def renumber (dofs : Ten Nat) : Res (Ten Nat) := do
  let idx ← Renumber.index dofs
  renum dofs idx

/-- `Renumber(dofs).apply(list)`, Mesh.h:143-147 -/
def Renumber.apply (dofs list : Ten Nat) : Res (Ten Nat) := do
  let idx ← Renumber.index dofs
  renum list idx

/-- Constructor of `Reorder`, Mesh.h:2391-2420.  The 1-d arguments are lists. -/
def Reorder.index (args : List (List Nat)) : Res (Ten Nat) := do
  let n := args.foldl (fun n arg => if arg.length = 0 then n else max n (arg.foldl max 0 + 1)) 0
  let s ← forEach args (fun s arg => forEach arg enumBody s) (Ten.empty [n], 0)
  .ok s.1

/-- `Reorder(args).apply(list)`, Mesh.h:2428-2440 -/
def Reorder.apply (args : List (List Nat)) (list : Ten Nat) : Res (Ten Nat) := do
  let idx ← Reorder.index args
  renum list idx

end GF
