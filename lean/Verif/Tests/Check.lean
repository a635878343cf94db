import Verif.Base

/-! # Conformance of the model with the test-suite of GooseFEM

The files in this directory transcribe assertions of `/repo/tests` that compare a result of the C++ code with a
literal, and evaluate the *model* on the same input.  They are tests, not proofs of any property (and no claim of
`MANIFEST.json` refers to them): they show that, on these inputs, the transcription C++ → Lean returns what the
authors of GooseFEM say their code returns. -/

namespace GF.Tests

/-- the call returns an array of shape `sh` with the entries `l` (row-major) -/
def isTen {β : Type} [DecidableEq β] (r : Res (Ten β)) (sh : List Nat) (l : List β) : Bool :=
  match r with
  | .ok t => decide (t.shape = sh) && (match t.flat with
    | .ok l' => decide (l' = l)
    | _ => false)
  | _ => false

/-- the call returns `a` -/
def isVal {β : Type} [DecidableEq β] (r : Res β) (a : β) : Bool :=
  match r with
  | .ok b => decide (b = a)
  | _ => false

/-- a literal array -/
def lit {β : Type} (sh : List Nat) (l : List β) : Ten β :=
  ⟨sh, fun ix => l[(ix.zip sh).foldl (fun p q => p * q.2 + q.1) 0]?⟩

end GF.Tests
