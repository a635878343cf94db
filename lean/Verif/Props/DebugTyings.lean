import Verif.Props.DebugMatrix
import Verif.Props.VectorPartitionedTyings

/-! C108: the build with assertions; `VectorPartitionedTyings`, and what the assertions do not catch. -/

namespace GF
variable {α : Type}

/-- The window loop writes out of bounds, for every schedule, if a DOF that it keeps is beyond the window. -/
theorem windowLoop_ub {V : Vector} {c d : Nat → Nat → Nat} (hV : V.Holds c d) (σ : Sched) (keep : Nat → Bool) (lo w : Nat)
    {x ret : Ten α} {g : Nat → Nat → α} (hx : Is2 x V.nnode V.ndim g) (hret : ret.shape = [w])
    (hb : ∃ m i, m < V.nnode ∧ i < V.ndim ∧ keep (d m i) = true ∧ w ≤ d m i - lo) :
    windowLoop V σ keep lo x ret = .ub := by
  apply forEach_eq_ub _ _ (fun s => s.shape = [w]) _ hret
  · rintro ⟨m, i⟩ hmi s hs
    simp only [mem_sched, mem_it2] at hmi
    simp only [hV.dofs.get hmi.1 hmi.2, hx.get hmi.1 hmi.2, Res.ok_bind]
    by_cases hk : keep (d m i) = true
    · rw [if_pos hk]
      by_cases hw : d m i - lo < w
      · right
        exact ⟨⟨s.shape, Function.update s.v [d m i - lo] (some (g m i))⟩, by simp [Ten.set, hs, hw], hs⟩
      · left
        simp [Ten.set, hs, hw]
    · rw [if_neg hk]
      exact .inr ⟨s, rfl, hs⟩
  · obtain ⟨m, i, hm, hi, hk, hw⟩ := hb
    refine ⟨(m, i), by simp [hm, hi], fun s hs => ?_⟩
    simp only [hV.dofs.get hm hi, hx.get hm hi, Res.ok_bind, if_pos hk]
    simp [Ten.set, hs, hw]

namespace VectorPartitionedTyings
variable {c d : Nat → Nat → Nat}

/-- **C108** (constructor of `VectorPartitionedTyings`): throws unless the arguments are valid for `Vector` and the three tying
matrices have sizes that fit each other.  The sizes are not compared to the DOF numbers. -/
theorem C108_new {conn dofs : Ten Nat} {nelem nne nnode ndim : Nat} (hc : Is2 conn nelem nne c) (hd : Is2 dofs nnode ndim d)
    (Cdu Cdp Cdi : Mat α) :
    Checked (VectorPartitionedTyings.new_checked conn dofs Cdu Cdp Cdi) (VectorPartitionedTyings.new conn dofs Cdu Cdp Cdi)
      ((0 < nnode ∧ 0 < ndim ∧ (∀ e m, e < nelem → m < nne → c e m < nnode) ∧
        ∀ m i, m < nnode → i < ndim → d m i < nnode * ndim) ∧ Cdu.nr = Cdp.nr ∧ Cdi.nr = Cdp.nr ∧ Cdi.nc = Cdu.nc + Cdp.nc)
      fun P => P.V.Holds c d ∧ Vector.new conn dofs = .ok P.V ∧ P.nni = Cdi.nc ∧ P.nnd = Cdi.nr := by
  have h0 := Vector.C108_new hc hd
  unfold VectorPartitionedTyings.new_checked
  by_cases h1 : 0 < nnode ∧ 0 < ndim ∧ (∀ e m, e < nelem → m < nne → c e m < nnode) ∧
        ∀ m i, m < nnode → i < ndim → d m i < nnode * ndim
  · obtain ⟨e1, V, e2, hV, v1, v2, v3, v4⟩ := h0.1 h1
    have e3 : VectorPartitionedTyings.new conn dofs Cdu Cdp Cdi = .ok ⟨V, List.range Cdu.nc, (List.range Cdp.nc).map (Cdu.nc + ·),
      List.range (Cdu.nc + Cdp.nc), (List.range Cdp.nr).map (Cdu.nc + Cdp.nc + ·), Cdu.nc, Cdp.nc, Cdu.nc + Cdp.nc, Cdp.nr,
      Cdi.transpose⟩ := by
      rw [VectorPartitionedTyings.new, e2]; rfl
    rw [e1, e2, e3]
    simp only [Res.ok_bind, gassert_bind]
    have e4 : ∃ a, amax V.dofs = .ok a ∧ V.ndof = a + 1 := by
      obtain ⟨k, k1, -⟩ := amax_is2 hd
      have h : Vector.new conn dofs = .ok ⟨conn, dofs, nelem, nne, nnode, ndim, k + 1⟩ := by simp [Vector.new, hc.1, hd.1, k1]
      obtain rfl := Res.ok.inj (e2.symm.trans h)
      exact ⟨k, k1, rfl⟩
    obtain ⟨a, e4, e5⟩ := e4
    rw [e4]
    simp only [Res.ok_bind, gassert_bind]
    refine ⟨fun h => ?_, fun h => ?_⟩
    · rw [if_pos h.2.1, if_pos h.2.2.1, if_pos h.2.2.2, if_pos e5]
      exact ⟨rfl, _, rfl, hV, rfl, h.2.2.2.symm, h.2.2.1.symm⟩
    · by_cases g1 : Cdu.nr = Cdp.nr
      · rw [if_pos g1]
        by_cases g2 : Cdi.nr = Cdp.nr
        · rw [if_pos g2, if_neg fun g3 => h ⟨h1, g1, g2, g3⟩]
        · rw [if_neg g2]
      · rw [if_neg g1]
  · rw [h0.2 h1]
    exact ⟨fun h => absurd h.1 h1, fun _ => rfl⟩

variable {P : VectorPartitionedTyings α} {C : Nat → Nat → α}

/-- **C108** (`copy_p`): an array of independent DOFs is accepted too. -/
theorem C108_copy_p [Zero α] (hP : P.Holds c d C) (σ : Sched) {x y : Ten α} (hx : Complete x) (hy : Complete y) :
    Checked (P.copy_p_checked σ x y) (P.copy_p σ x y)
      ((x.shape = [P.V.ndof] ∨ x.shape = [P.nni]) ∧ (y.shape = [P.V.ndof] ∨ y.shape = [P.nni])) (CompleteOf y.shape) := by
  have hs : ∀ t : Ten α, (t.rank = 1 ∧ (t.shape.prod = P.V.ndof ∨ t.shape.prod = P.nni)) ↔
      (t.shape = [P.V.ndof] ∨ t.shape = [P.nni]) := by
    intro t
    constructor
    · rintro ⟨h1, h2⟩
      obtain ⟨n, hn⟩ := List.length_eq_one_iff.1 h1
      rw [hn] at h2 ⊢
      simpa using h2
    · rintro (h | h) <;> simp [Ten.rank, h]
  have hnd := hP.ndof
  refine Checked.congr (p := (x.rank = 1 ∧ (x.shape.prod = P.V.ndof ∨ x.shape.prod = P.nni)) ∧
    (y.rank = 1 ∧ (y.shape.prod = P.V.ndof ∨ y.shape.prod = P.nni))) ?_ (by rw [hs, hs])
  refine ⟨fun h => ⟨?_, ?_⟩, fun h => ?_⟩
  · unfold copy_p_checked
    simp only [gassert_bind]
    rw [if_pos h.1.1, if_pos h.2.1, if_pos h.1.2, if_pos h.2.2]
  · obtain ⟨h1, h2⟩ := h
    rw [hs] at h1 h2
    have aux : ∀ t : Ten α, t.shape = [P.V.ndof] ∨ t.shape = [P.nni] → ∃ n, P.nni ≤ n ∧ t.shape = [n] := by
      rintro t (h | h)
      · exact ⟨_, by omega, h⟩
      · exact ⟨_, le_rfl, h⟩
    obtain ⟨n, hn, hxs⟩ := aux x h1
    obtain ⟨n', hn', hys⟩ := aux y h2
    obtain ⟨f, hf⟩ := hx.is1 hxs
    obtain ⟨g, hg⟩ := hy.is1 hys
    obtain ⟨z, e, hz⟩ := C27_copy_p hP σ hf hg hn hn'
    exact ⟨z, e, by rw [hys]; exact hz.complete⟩
  · unfold copy_p_checked
    simp only [gassert_bind]
    by_cases g1 : x.rank = 1
    · by_cases g2 : y.rank = 1
      · by_cases g3 : x.shape.prod = P.V.ndof ∨ x.shape.prod = P.nni
        · rw [if_pos g1, if_pos g2, if_pos g3, if_neg fun g4 => h ⟨⟨g1, g3⟩, g2, g4⟩]
        · rw [if_pos g1, if_pos g2, if_neg g3]
      · rw [if_pos g1, if_neg g2]
    · rw [if_neg g1]

/-- The window loop completes whatever the values, and writes every cell for which there is a DOF. -/
theorem windowLoop_any {V : Vector} (hV : V.Holds c d) (σ : Sched) (keep : Nat → Bool) (lo w : Nat)
    (hk : ∀ k, k < V.ndof → keep k = true → lo ≤ k ∧ k < lo + w) {x ret : Ten α} {g : Nat → Nat → α}
    (hx : Is2 x V.nnode V.ndim g) (hret : ret.shape = [w]) :
    ∃ y, windowLoop V σ keep lo x ret = .ok y ∧ y.shape = [w] ∧
      ∀ a, a < w → (∃ m i, m < V.nnode ∧ i < V.ndim ∧ d m i = lo + a ∧ keep (d m i) = true) → ∃ b, y.v [a] = some b := by
  rw [windowLoop, forEach_filter _ (fun mi => keep (d mi.1 mi.2)) _
    (fun ret mi => do
      let k ← V.dofs.get [mi.1, mi.2]
      let a ← x.get [mi.1, mi.2]
      ret.set [k - lo] a)]
  · obtain ⟨y, h1, h2, h3, -⟩ := forEach_set
      ((σ.run (it2 V.nnode V.ndim)).filter (fun mi => keep (d mi.1 mi.2)))
      (fun (ret : Ten α) mi => do
      let k ← V.dofs.get [mi.1, mi.2]
      let a ← x.get [mi.1, mi.2]
      ret.set [k - lo] a) (fun mi => [d mi.1 mi.2 - lo]) (fun mi => g mi.1 mi.2) ret
      (by
        rintro ⟨m, i⟩ hmi
        simp only [List.mem_filter, mem_sched, mem_it2] at hmi
        obtain ⟨⟨hm, hi⟩, hkk⟩ := hmi
        have := hk _ (hV.dofs_lt m i hm hi) hkk
        simp [hret]; omega)
      (by
        rintro ⟨m, i⟩ hmi s _
        simp only [List.mem_filter, mem_sched, mem_it2] at hmi
        obtain ⟨⟨hm, hi⟩, hkk⟩ := hmi
        simp [hV.dofs.get hm hi, hx.get hm hi])
    refine ⟨y, h1, by rw [h2, hret], ?_⟩
    rintro a ha ⟨m, i, hm, hi, e, hkk⟩
    obtain ⟨⟨m', i'⟩, h4, h5, h6⟩ := h3 [a] ⟨(m, i), by simp [hm, hi, hkk], by simp [e]⟩
    exact ⟨_, h6⟩
  · rintro ⟨m, i⟩ hmi s
    simp only [mem_sched, mem_it2] at hmi
    simp only [hV.dofs.get hmi.1 hmi.2, Res.ok_bind]

/-- **C108** (`AsDofs_i`): throws if the shape is wrong, and completes if the tying matrices fit the DOF numbers; but if a DOF number
is not smaller than `nni() + nnd()`, which no assertion excludes, the function writes out of bounds. -/
theorem C108_AsDofs_i [CommSemiring α] (hP : P.V.Holds c d) (σ : Nat → Sched) {x : Ten α} (hx : Complete x) :
    (x.shape ≠ [P.V.nnode, P.V.ndim] → P.AsDofs_i_checked σ x = .throws) ∧
    (x.shape = [P.V.nnode, P.V.ndim] → P.AsDofs_i_checked σ x = P.AsDofs_i σ x ∧
      (∀ C, P.Holds c d C → IsOk (P.AsDofs_i σ x) (CompleteOf [P.nni])) ∧
      ((∃ m i, m < P.V.nnode ∧ i < P.V.ndim ∧ P.nni + P.nnd ≤ d m i) → P.AsDofs_i σ x = .ub)) := by
  refine ⟨fun h => ?_, fun h => ⟨?_, ?_, ?_⟩⟩
  · unfold AsDofs_i_checked
    rw [gassert_bind]
    exact if_neg h
  · unfold AsDofs_i_checked
    rw [gassert_bind]
    exact if_pos h
  · intro C hC
    obtain ⟨g, hg⟩ := hx.is2 h
    have hnd := hC.ndof
    obtain ⟨y, h1, h2, h3⟩ := windowLoop_any hP (σ 0) (fun k => decide (k < P.nni)) 0 P.nni (by intro k _; simp) hg
      (ret := Ten.full [P.nni] 0) rfl
    obtain ⟨z, z1, z2, z3⟩ := windowLoop_any hP (σ 1) (fun k => decide (P.nni ≤ k)) P.nni P.nnd
      (by intro k _; simp; omega) hg (ret := Ten.empty [P.nnd]) rfl
    have hy : ∃ f, Is1 y P.nni f := by
      refine Complete.is1 (fun ix hix => ?_) h2
      rw [h2] at hix
      obtain ⟨a, rfl, ha⟩ := inb1.1 hix
      obtain ⟨m, i, hm, hi, e⟩ := hC.surj a (by omega)
      exact h3 a ha ⟨m, i, hm, hi, by omega, by simp; omega⟩
    have hz : ∃ f, Is1 z P.nnd f := by
      refine Complete.is1 (fun ix hix => ?_) z2
      rw [z2] at hix
      obtain ⟨a, rfl, ha⟩ := inb1.1 hix
      obtain ⟨m, i, hm, hi, e⟩ := hC.surj (P.nni + a) (by omega)
      exact z3 a ha ⟨m, i, hm, hi, e, by simp; omega⟩
    obtain ⟨fy, hy⟩ := hy
    obtain ⟨fz, hz⟩ := hz
    obtain ⟨w, w1, w2⟩ := P.Cid.mulVec_spec (x := z) (f := fz) (by rw [hC.dim.2]; exact hz)
    rw [hC.dim.1] at w2
    obtain ⟨v, v1, v2, v3⟩ := forEach_add ((σ 2).run (it1 P.nni)) (fun (ret : Ten α) i => do
      let a ← w.get [i]
      ret.addAt [i] a) (fun i => [i]) (fun k => ∑ r ∈ Finset.range P.Cid.nc, P.Cid.e k r * fz r) y
      (fun ix => fy (ix.getD 0 0))
      (by
        intro ix hix
        rw [hy.1] at hix
        obtain ⟨i, rfl, hi⟩ := inb1.1 hix
        exact hy.2 i hi)
      (by intro i hi; simp only [mem_sched, mem_it1] at hi; simp [hy.1, hi])
      (by
        intro i hi s _
        simp only [mem_sched, mem_it1] at hi
        rw [w2.get hi]; rfl)
    refine ⟨v, ?_, by rw [v2, hy.1], fun ix hix => ⟨_, v3 ix (by rw [v2] at hix; exact hix)⟩⟩
    rw [AsDofs_i, asDofs_i]
    show (windowLoop P.V (σ 0) (fun k => decide (k < P.nni)) 0 x (Ten.full [P.nni] 0) >>= _) = _
    rw [h1]
    simp only [Res.ok_bind, if_true]
    rw [asDofs_d, z1]
    simp only [Res.ok_bind, w1]
    exact v1
  · rintro ⟨m, i, hm, hi, hge⟩
    obtain ⟨g, hg⟩ := hx.is2 h
    have key : P.asDofs_d (σ 1) x = .ub :=
      windowLoop_ub hP (σ 1) _ P.nni P.nnd hg rfl ⟨m, i, hm, hi, by simp; omega, by omega⟩
    obtain ⟨y, h1, -⟩ := windowLoop_any hP (σ 0) (fun k => decide (k < P.nni)) 0 P.nni (by intro k _; simp) hg
      (ret := Ten.full [P.nni] 0) rfl
    rw [AsDofs_i, asDofs_i]
    show (windowLoop P.V (σ 0) (fun k => decide (k < P.nni)) 0 x (Ten.full [P.nni] 0) >>= _) = _
    rw [h1]
    simp only [Res.ok_bind, if_true]
    rw [key]
    rfl

end VectorPartitionedTyings

/-! ### What no assertion catches -/

/-- **C108** (`MatrixDiagonal` before `assemble`): the diagonal is allocated, not written; `Dot` and `Solve` read it, with assertions
too. -/
theorem MatrixDiagonal.C108_unassembled [Field α] {conn dofs : Ten Nat} {M : MatrixDiagonal α} {c d : Nat → Nat → Nat}
    (hM : MatrixDiagonal.new conn dofs = .ok M) (hV : M.V.Holds c d) (hn : 0 < M.V.ndof) (hm : 0 < M.V.nnode) (hi : 0 < M.V.ndim)
    (σ : Nat → Sched) {x y : Ten α} (hx : CompleteOf [M.V.ndof] x) (hy : CompleteOf [M.V.nnode, M.V.ndim] y) :
    M.dot_dofval_checked x = .ub ∧ M.dot_nodevec_checked (σ 0) y = .ub ∧ M.solve_dofval_checked (σ 0) x = .ub := by
  have hA : M.A = Ten.empty [M.V.ndof] ∧ M.changed = true := by
    unfold MatrixDiagonal.new at hM
    cases h : Vector.new conn dofs with
    | ok V => rw [h] at hM; cases Res.ok.inj hM; exact ⟨rfl, rfl⟩
    | ub => rw [h] at hM; cases hM
    | throws => rw [h] at hM; cases hM
  have hget : ∀ ix, M.A.get ix = .ub := by
    intro ix
    rw [hA.1]
    unfold Ten.get Ten.empty
    dsimp only
    split <;> rfl
  obtain ⟨f, hf⟩ := hx.2.is1 hx.1
  obtain ⟨g, hg⟩ := hy.2.is2 hy.1
  refine ⟨?_, ?_, ?_⟩
  · unfold MatrixDiagonal.dot_dofval_checked
    rw [gassert_bind, if_pos hx.1]
    unfold MatrixDiagonal.dot_dofval vzip
    rw [if_pos (by rw [hA.1, hx.1]; rfl)]
    have : M.A.flat = .ub := by
      obtain ⟨k, hk⟩ : ∃ k, M.V.ndof = k + 1 := ⟨M.V.ndof - 1, by omega⟩
      rw [hA.1, hk]
      unfold Ten.flat
      simp [Ten.empty, indices, List.range_succ_eq_map, mapRes, Ten.get]
    rw [this]
    rfl
  · unfold MatrixDiagonal.dot_nodevec_checked
    rw [gassert_bind, if_pos hy.1]
    apply forEach_eq_ub _ _ (fun _ => True) _ trivial
    · rintro ⟨m, i⟩ hmi s -
      simp only [mem_sched, mem_it2] at hmi
      left
      simp only [hV.dofs.get hmi.1 hmi.2, hget, Res.ok_bind]
      rfl
    · refine ⟨(0, 0), by simp [hm, hi], fun s _ => ?_⟩
      simp only [hV.dofs.get hm hi, hget, Res.ok_bind]
      rfl
  · unfold MatrixDiagonal.solve_dofval_checked
    rw [gassert_bind, if_pos hx.1]
    unfold MatrixDiagonal.solve_dofval MatrixDiagonal.factorize
    rw [hA.2]
    have : invLoop (σ 0) M.V.ndof M.A M.inv = .ub := by
      apply forEach_eq_ub _ _ (fun _ => True) _ trivial
      · intro k hk s _
        left
        simp only [hget]
        rfl
      · refine ⟨0, by simp [hn], fun s _ => ?_⟩
        simp only [hget]
        rfl
    simp [this]

/-! ### Concrete cases -/

/-- the assertions accept the periodic mesh, and throw if a node does not exist or if a DOF number is too large -/
example : (∃ V, Vector.new_checked exConn exDofs = .ok V ∧ V.ndof = 8) ∧
    Vector.new_checked (lit2 4 [[0, 1, 4, 6]]) exDofs = .throws ∧
    Vector.new_checked exConn (lit2 2 [[0, 1], [2, 3], [0, 1], [4, 5], [6, 7], [4, 12]]) = .throws :=
  ⟨⟨_, rfl, rfl⟩, rfl, rfl⟩

/-- with the prescribed DOFs: twice the same, and one that is too large -/
example : (∃ P, VectorPartitioned.new_checked exConn exDofs [5, 0] = .ok P ∧ P.nnu = 6) ∧
    VectorPartitioned.new_checked exConn exDofs [5, 5] = .throws ∧
    VectorPartitioned.new_checked exConn exDofs [5, 8] = .throws :=
  ⟨⟨_, rfl, rfl⟩, rfl, rfl⟩

/-- an array of the right shape passes, one with a row too many throws -/
example : ∃ V, Vector.new exConn exDofs = .ok V ∧ (∃ y, V.AsDofs_checked .rev (Ten.full [6, 2] (7 : Int)) = .ok y ∧ y.shape = [8]) ∧
    V.AsDofs_checked .rev (Ten.full [7, 2] (7 : Int)) = .throws ∧ V.AsDofs_checked .rev (Ten.full [8] (7 : Int)) = .throws := by
  obtain ⟨V, c, d, h1, h2, -⟩ := exVector
  have hV : V = ⟨exConn, exDofs, 2, 4, 6, 2, 8⟩ := by
    have : Vector.new exConn exDofs = .ok ⟨exConn, exDofs, 2, 4, 6, 2, 8⟩ := rfl
    exact Res.ok.inj (h1.symm.trans this)
  have h := fun n : List Nat => Vector.C108_asDofs h2 .rev (x := Ten.full n (7 : Int)) fun ix hix => ⟨7, by
    simpa [Ten.full, Ten.of] using hix⟩
  subst hV
  refine ⟨_, h1, ?_, ?_, ?_⟩
  · obtain ⟨e, y, e', hy⟩ := (h [6, 2]).2.1 (.inl rfl)
    exact ⟨y, e.trans e', hy.1⟩
  · exact (h [7, 2]).2.2 (by simp [Ten.full])
  · exact (h [8]).2.2 (by simp [Ten.full])

/-- `MatrixPartitioned`, a DOF number that is skipped: no assertion throws, the constructor reads memory that was not written -/
example : MatrixPartitioned.new_checked (α := Int) (lit2 2 [[0, 1], [1, 2]]) (lit2 1 [[0], [2], [2]]) [] = .ub := by
  have h := MatrixPartitioned.C108_new (α := Int) (conn := lit2 2 [[0, 1], [1, 2]]) (dofs := lit2 1 [[0], [2], [2]])
    (is2_of 2 2 _) (is2_of 3 1 _) []
  obtain ⟨e, -, h2⟩ := h.2 ⟨⟨by decide, by decide, ball2 (by decide), ball2 (by decide)⟩, by decide, by simp⟩
  rw [e]
  exact h2 ⟨1, 0, 1, by decide, by decide, by decide, by simp, ball2 (by decide)⟩

/-- `VectorPartitionedTyings`, tying matrices that are too small for the DOFs: the constructor does not throw, and `AsDofs_i` writes
out of bounds -/
example : ∃ P, VectorPartitionedTyings.new_checked exConn exDofs (⟨1, 2, fun _ _ => 1⟩ : Mat Int) ⟨1, 1, fun _ _ => 1⟩
      ⟨1, 3, fun _ _ => 1⟩ = .ok P ∧ ∀ σ, P.AsDofs_i_checked σ (Ten.full [6, 2] 1) = .ub := by
  obtain ⟨e, P, e', h1, h2, h3, h4⟩ := (VectorPartitionedTyings.C108_new (α := Int) (conn := exConn) (dofs := exDofs) (is2_of 2 4 _)
    (is2_of 6 2 _) ⟨1, 2, fun _ _ => 1⟩ ⟨1, 1, fun _ _ => 1⟩ ⟨1, 3, fun _ _ => 1⟩).1
    ⟨⟨by decide, by decide, ball2 (by decide), ball2 (by decide)⟩, rfl, rfl, rfl⟩
  have hV : P.V = ⟨exConn, exDofs, 2, 4, 6, 2, 8⟩ := by
    have : Vector.new exConn exDofs = .ok ⟨exConn, exDofs, 2, 4, 6, 2, 8⟩ := rfl
    exact Res.ok.inj (h2.symm.trans this)
  refine ⟨P, e.trans e', fun σ => ?_⟩
  have h := (VectorPartitionedTyings.C108_AsDofs_i h1 σ (x := Ten.full [6, 2] (1 : Int)) fun ix hix => ⟨1, by
    simpa [Ten.full, Ten.of] using hix⟩).2 (by rw [hV]; rfl)
  rw [h.1]
  exact h.2.2 ⟨4, 1, by rw [hV]; decide, by rw [hV]; decide, by rw [h3, h4]; decide⟩

end GF
