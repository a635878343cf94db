import Verif.Model.Python
import Mathlib.Data.List.Perm.Basic
import Mathlib.Tactic.NormNum

/-! **C105** The sets of DOFs of a matrix with tyings, in C++ and in Python. -/

namespace GF
open MatrixPartitionedTyings
variable {α : Type} [Zero α] {conn dofs : Ten Nat} {Cdu Cdp : Mat α} {M : MatrixPartitionedTyings α}

/-- the sets follow from the sizes of the tyings -/
theorem tyings_sets (h : MatrixPartitionedTyings.new conn dofs Cdu Cdp = .ok M) :
    M.nnu = Cdu.nc ∧ M.nnp = Cdp.nc ∧ M.nnd = Cdp.nr ∧ M.nni = M.nnu + M.nnp ∧ M.V.ndof = M.nni + M.nnd ∧
      M.iiu = List.range M.nnu ∧ M.iip = (List.range M.nnp).map (M.nnu + ·) ∧ M.iii = List.range M.nni ∧
      M.iid = (List.range M.nnd).map (M.nni + ·) := by
  unfold MatrixPartitionedTyings.new at h
  split at h
  · obtain rfl := Res.ok.inj h
    exact ⟨rfl, rfl, rfl, rfl, rfl, rfl, rfl, rfl, rfl⟩
  · cases h

/-- **C105.** C++: the independent DOFs are the unknown followed by the prescribed ones; together with the dependent DOFs they are all
DOFs, in order; the counts are the lengths of the lists. -/
theorem C105_sets (h : MatrixPartitionedTyings.new conn dofs Cdu Cdp = .ok M) :
    M.iii = M.iiu ++ M.iip ∧ M.iii ++ M.iid = List.range M.V.ndof ∧ M.iiu.length = M.nnu ∧ M.iip.length = M.nnp ∧
      M.iii.length = M.nni ∧ M.iid.length = M.nnd := by
  obtain ⟨-, -, -, e4, e5, e6, e7, e8, e9⟩ := tyings_sets h
  rw [e6, e7, e8, e9, e5, List.range_add, e4, List.range_add]
  simp

/-- **C105.** Python: `iii` and `iid` together are the independent DOFs only, not all DOFs. -/
theorem C105_python (h : MatrixPartitionedTyings.new conn dofs Cdu Cdp = .ok M) :
    Python.iii M ++ Python.iid M = M.iii ∧ Python.nni M + Python.nnd M = M.nni ∧
      Python.iii M = Python.iiu M ∧ Python.iid M = Python.iip M :=
  ⟨(C105_sets h).1.symm, (tyings_sets h).2.2.2.1.symm, rfl, rfl⟩

/-- **C105.** The Python attributes are the sets of that name only in trivial cases: `nni` and `iii` if nothing is prescribed, `nnd` if
there are as many dependent as prescribed DOFs, `iid` (whose DOFs are never dependent) if there are neither. -/
theorem C105_python_misses (h : MatrixPartitionedTyings.new conn dofs Cdu Cdp = .ok M) :
    (Python.nni M = M.nni ↔ M.nnp = 0) ∧ (Python.iii M = M.iii ↔ M.nnp = 0) ∧ (Python.nnd M = M.nnd ↔ M.nnp = M.nnd) ∧
      (Python.iid M = M.iid ↔ M.nnp = 0 ∧ M.nnd = 0) ∧ (∀ k ∈ Python.iid M, k ∉ M.iid) ∧
      ((Python.iii M ++ Python.iid M).Perm (List.range M.V.ndof) ↔ M.nnd = 0) := by
  obtain ⟨-, -, -, e4, e5, e6, e7, e8, e9⟩ := tyings_sets h
  have disj : ∀ k ∈ Python.iid M, k ∉ M.iid := by
    intro k hk hk'
    change k ∈ M.iip at hk
    rw [e7, List.mem_map] at hk
    rw [e9, List.mem_map] at hk'
    obtain ⟨a, ha, rfl⟩ := hk
    obtain ⟨b, hb, hb'⟩ := hk'
    rw [List.mem_range] at ha
    omega
  refine ⟨?_, ?_, Iff.rfl, ?_, disj, ?_⟩
  · change M.nnu = M.nni ↔ _
    omega
  · change M.iiu = M.iii ↔ _
    rw [e6, e8]
    constructor
    · intro e
      have := congrArg List.length e
      simp only [List.length_range] at this
      omega
    · intro e
      rw [e4, e, Nat.add_zero]
  · change M.iip = M.iid ↔ _
    rw [e7, e9]
    constructor
    · intro e
      have hl := congrArg List.length e
      simp only [List.length_map, List.length_range] at hl
      have : M.nnp = 0 := by
        by_contra hne
        have h0 : M.nnu + 0 ∈ (List.range M.nnp).map (M.nnu + ·) := List.mem_map.2 ⟨0, List.mem_range.2 (by omega), rfl⟩
        have h1 := disj (M.nnu + 0) (by change _ ∈ M.iip; rw [e7]; exact h0)
        rw [e] at h0
        exact h1 (by rw [e9]; exact h0)
      exact ⟨this, by omega⟩
    · rintro ⟨e, e'⟩
      rw [e, e']
      rfl
  · rw [(C105_python h).1]
    constructor
    · intro e
      have := e.length_eq
      rw [e8] at this
      simp only [List.length_range] at this
      omega
    · intro e
      rw [e8, e5, e, Nat.add_zero]

/-- one unknown, one prescribed and one dependent DOF: `iid` is DOF 2; Python's `iid` is DOF 1 -/
example : ∃ M : MatrixPartitionedTyings ℤ, MatrixPartitionedTyings.new (Ten.of [1, 3] fun i => i.getD 1 0) (Ten.of [3, 1] fun i => i.getD 0 0)
    ⟨1, 1, fun _ _ => 1⟩ ⟨1, 1, fun _ _ => 0⟩ = .ok M ∧ M.iid = [2] ∧ Python.iid M = [1] ∧ M.nni = 2 ∧ Python.nni M = 1 :=
  ⟨_, rfl, rfl, rfl, rfl, rfl⟩

end GF
