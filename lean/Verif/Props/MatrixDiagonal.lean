import Verif.Lemmas.MatrixDiagonal
import Verif.Props.MatrixPartitioned
import Mathlib.Algebra.Field.Rat
import Mathlib.Tactic.IntervalCases

/-! # Properties C23 (`MatrixDiagonal`) and C24 (`MatrixDiagonalPartitioned`) -/

namespace GF
open Finset
variable {α : Type} {c d q : Nat → Nat → Nat}

section C23
variable {M : MatrixDiagonal α}

/-- **C23** (constructor): the object is usable; its diagonal has no value yet. -/
theorem C23_constructor [Field α] {conn dofs : Ten Nat} {nelem nne nnode ndim : Nat}
    (hc : Is2 conn nelem nne c) (hd : Is2 dofs nnode ndim d)
    (hlt : ∀ e m, e < nelem → m < nne → c e m < nnode) :
    ∃ M : MatrixDiagonal α, MatrixDiagonal.new conn dofs = .ok M ∧ Vector.new conn dofs = .ok M.V ∧
      M.Holds c d none := by
  obtain ⟨V, h1, h2, h3, h4, h5, h6, -⟩ := Vector.new_spec hc hd hlt
  exact ⟨⟨V, Ten.empty [V.ndof], Ten.empty [V.ndof], true⟩, by simp only [MatrixDiagonal.new, h1, Res.ok_bind], h1, h6, rfl,
    by simp, rfl, Or.inl rfl⟩

/-- **C23** (assemble): every DOF receives the sum of the diagonal entries of the element matrices
that belong to it. -/
theorem C23_assemble [Field α] {o} (hM : M.Holds c d o) {K : Ten α} {k : Nat → Nat → Nat → α}
    (hK : Is3 K M.V.nelem (M.V.nne * M.V.ndim) (M.V.nne * M.V.ndim) k) :
    ∃ M', M.assemble K = .ok M' ∧ M'.V = M.V ∧ M'.Holds c d (some (diagAssembled M.V c d k)) ∧
      Is1 M'.A M.V.ndof (diagAssembled M.V c d k) := by
  obtain ⟨A, h1, h2⟩ := MatrixDiagonal.assemble_spec hM hK
  exact ⟨_, h1, rfl, hM.of_A h2, h2⟩

/-- **C23** (assemble, relation to `Matrix`): if the element matrices are diagonal, the dense matrix
that `Matrix::assemble` produces is the diagonal matrix of `MatrixDiagonal::assemble`. -/
theorem C23_agrees_with_Matrix [AddCommMonoid α] {V : Vector} {k : Nat → Nat → Nat → α}
    (hdiag : ∀ e a b, a ≠ b → k e a b = 0) (r s : Nat) :
    SMatrix.assembled V c d k r s = if r = s then diagAssembled V c d k r else 0 := by
  have key : ∀ e m i, m ∈ range V.nne → i ∈ range V.ndim →
      (∑ n ∈ range V.nne, ∑ j ∈ range V.ndim, if d (c e m) i = r ∧ d (c e n) j = s then
        k e (m * V.ndim + i) (n * V.ndim + j) else 0) =
      if r = s then (if d (c e m) i = r then k e (m * V.ndim + i) (m * V.ndim + i) else 0) else 0 := by
    intro e m i hm hi
    have hi' := mem_range.1 hi
    rw [sum_eq_single m, sum_eq_single i]
    · by_cases h : r = s
      · subst h; simp
      · simp only [h, if_false]
        refine if_neg ?_
        rintro ⟨h1, h2⟩
        exact h (h1.symm.trans h2)
    · intro j hj hne
      rw [hdiag _ _ _ (by omega)]; simp
    · exact fun h => absurd hi h
    · intro n hn hne
      refine sum_eq_zero fun j hj => ?_
      have hj' := mem_range.1 hj
      rw [hdiag, ite_self]
      intro h
      apply hne
      have e1 : (m * V.ndim + i) / V.ndim = m := by
        rw [mul_comm, Nat.mul_add_div (by omega), Nat.div_eq_of_lt hi', add_zero]
      have e2 : (n * V.ndim + j) / V.ndim = n := by
        rw [mul_comm, Nat.mul_add_div (by omega), Nat.div_eq_of_lt hj', add_zero]
      rw [← e1, ← e2, h]
    · exact fun h => absurd hm h
  unfold SMatrix.assembled diagAssembled
  rw [sum_congr rfl fun e _ => sum_congr rfl fun m hm => sum_congr rfl fun i hi => key e m i hm hi]
  by_cases h : r = s
  · simp [h]
  · simp [h]

/-- **C23** (`set`) -/
theorem C23_set [Field α] {o} (hM : M.Holds c d o) {B : Ten α} {f : Nat → α}
    (hB : Is1 B M.V.ndof f) :
    ∃ M', M.set B = .ok M' ∧ M'.V = M.V ∧ M'.Holds c d (some f) ∧ Is1 M'.A M.V.ndof f := by
  obtain ⟨A, h1, h2⟩ := MatrixDiagonal.set_spec hM hB
  exact ⟨_, h1, rfl, hM.of_A h2, h2⟩

/-- **C23** (`Todense`) -/
theorem C23_todense [Field α] {a : Nat → α} (hM : M.Holds c d (some a)) (σ : Sched) :
    ∃ y, M.todense σ = .ok y ∧ Is2 y M.V.ndof M.V.ndof (fun r s => if r = s then a r else 0) := by
  obtain ⟨y, h1, h2, h3, h4⟩ := forEach_set (σ.run (it1 M.V.ndof)) (fun (r : Ten α) d => do
    let a ← M.A.get [d]
    r.set [d, d] a) (fun d => [d, d]) a (Ten.full [M.V.ndof, M.V.ndof] 0)
    (by intro d hd; simp only [mem_sched, mem_it1] at hd; simp [Ten.full, hd])
    (by
      intro d hd s _
      simp only [mem_sched, mem_it1] at hd
      simp only [(hM.A a rfl).get hd, Res.ok_bind])
  refine ⟨y, h1, h2, fun r s hr hs => ?_⟩
  by_cases h : r = s
  · subst h
    obtain ⟨i, -, h5, h6⟩ := h3 [r, r] ⟨r, by simp [hr], rfl⟩
    simp only [List.cons.injEq, and_true, and_self] at h5
    subst h5
    simp [h6]
  · rw [h4]
    · simp [Ten.full, h]
    · intro i _ e
      simp only [List.cons.injEq, and_true] at e
      exact h (e.1.symm.trans e.2)

/-- **C23** (`Dot` on DOF vectors) -/
theorem C23_dot_dofval [Field α] {a : Nat → α} (hM : M.Holds c d (some a)) {x : Ten α} {f : Nat → α}
    (hx : Is1 x M.V.ndof f) :
    ∃ b, M.dot_dofval x = .ok b ∧ Is1 b M.V.ndof (fun k => a k * f k) :=
  vzip_spec (· * ·) (hM.A a rfl) hx

/-- **C23** (`Dot` on node vectors) -/
theorem C23_dot_nodevec [Field α] {a : Nat → α} (hM : M.Holds c d (some a)) (σ : Sched) {x : Ten α}
    {g : Nat → Nat → α} (hx : Is2 x M.V.nnode M.V.ndim g) :
    ∃ b, M.dot_nodevec σ x = .ok b ∧ Is2 b M.V.nnode M.V.ndim (fun m i => a (d m i) * g m i) := by
  refine Vector.gather2 (σ.run (it2 M.V.nnode M.V.ndim)) _ _ _ (Ten.empty x.shape) hx.1 _ (by simp) ?_
  intro m i hm hi s
  simp only [hM.base.dofs.get hm hi, (hM.A a rfl).get (hM.base.dofs_lt _ _ hm hi), hx.get hm hi,
    Res.ok_bind]

/-- **C23** (history): after any history of `assemble`, `set` and `Solve` calls the object holds the
diagonal of the last `assemble` or `set`, and its cached inverse is either flagged as outdated or the
inverse of exactly this diagonal (`Holds`). -/
theorem C23_history [Field α] {o o' : Option (Nat → α)} {ops : List (DiagOp α)} (hM : M.Holds c d o)
    (h : DiagRunSpec M.V c d ops o o') :
    ∃ M', M.run ops = .ok M' ∧ M'.V = M.V ∧ M'.Holds c d o' := by
  generalize hV : M.V = V at h
  induction h generalizing M with
  | nil => exact ⟨M, rfl, hV, hM⟩
  | cons hop _ ih =>
    subst hV
    obtain ⟨M1, h1, h2, h3⟩ := MatrixDiagonal.step_spec hM hop
    obtain ⟨M2, h4, h5, h6⟩ := ih h3 h2
    refine ⟨M2, ?_, h5, h6⟩
    simp only [MatrixDiagonal.run, forEach] at h4 ⊢
    rw [h1]; exact h4

/-- **C23** (`Solve` after any history): the result is `b / a` for the *current* diagonal `a`; the
cache is never stale. -/
theorem C23_solve_dofval [Field α] {o : Option (Nat → α)} {a : Nat → α} {ops : List (DiagOp α)}
    (hM : M.Holds c d o) (h : DiagRunSpec M.V c d ops o (some a)) (σ : Sched) {b : Ten α}
    {f : Nat → α} (hb : Is1 b M.V.ndof f) :
    ∃ M1 M2 x, M.run ops = .ok M1 ∧ M1.solve_dofval σ b = .ok (M2, x) ∧ M2.Holds c d (some a) ∧
      Is1 x M.V.ndof (fun k => f k / a k) := by
  obtain ⟨M1, h1, h2, h3⟩ := C23_history hM h
  obtain ⟨M2, x, h4, h5, h6, h7, h8⟩ := MatrixDiagonal.solve_dofval_spec h3 σ
    (by rw [h2]; exact hb)
  exact ⟨M1, M2, x, h1, h4, h7, by rw [← h2]; exact h8⟩

/-- **C23** (`Solve` on node vectors after any history) -/
theorem C23_solve_nodevec [Field α] {o : Option (Nat → α)} {a : Nat → α} {ops : List (DiagOp α)}
    (hM : M.Holds c d o) (h : DiagRunSpec M.V c d ops o (some a)) (σ : Nat → Sched) {b : Ten α}
    {g : Nat → Nat → α} (hb : Is2 b M.V.nnode M.V.ndim g) :
    ∃ M1 M2 x, M.run ops = .ok M1 ∧ M1.solve_nodevec σ b = .ok (M2, x) ∧ M2.Holds c d (some a) ∧
      Is2 x M.V.nnode M.V.ndim (fun m i => g m i / a (d m i)) := by
  obtain ⟨M1, h1, h2, h3⟩ := C23_history hM h
  obtain ⟨M2, x, h4, h5, h6, h7, h8⟩ := MatrixDiagonal.solve_nodevec_spec h3 σ
    (by rw [h2]; exact hb)
  exact ⟨M1, M2, x, h1, h4, h7, by rw [← h2]; exact h8⟩

/-- **C23** (`Solve(Dot(x)) = x` and `Dot(Solve(b)) = b`): on DOF vectors, for a diagonal without
zeros. -/
theorem C23_roundtrip_dofval [Field α] {a : Nat → α} (hM : M.Holds c d (some a))
    (ha : ∀ k, k < M.V.ndof → a k ≠ 0) (σ : Sched) {x : Ten α} {f : Nat → α}
    (hx : Is1 x M.V.ndof f) :
    (∃ b M' y, M.dot_dofval x = .ok b ∧ M.solve_dofval σ b = .ok (M', y) ∧ Is1 y M.V.ndof f) ∧
    (∃ M' y b, M.solve_dofval σ x = .ok (M', y) ∧ M'.dot_dofval y = .ok b ∧ Is1 b M.V.ndof f) := by
  constructor
  · obtain ⟨b, h1, h2⟩ := C23_dot_dofval hM hx
    obtain ⟨M', y, h3, -, -, -, h4⟩ := MatrixDiagonal.solve_dofval_spec hM σ h2
    exact ⟨b, M', y, h1, h3, h4.congr fun k hk => by simp [mul_div_cancel_left₀, ha k hk]⟩
  · obtain ⟨M', y, h3, hV, -, hM', h4⟩ := MatrixDiagonal.solve_dofval_spec hM σ hx
    rw [← hV] at h4
    obtain ⟨b, h1, h2⟩ := C23_dot_dofval hM' h4
    rw [hV] at h2
    exact ⟨M', y, b, h3, h1, h2.congr fun k hk => mul_div_cancel₀ _ (ha k hk)⟩

/-- **C23** (`Solve(Dot(x)) = x` and `Dot(Solve(b)) = b`): on node vectors. -/
theorem C23_roundtrip_nodevec [Field α] {a : Nat → α} (hM : M.Holds c d (some a))
    (ha : ∀ k, k < M.V.ndof → a k ≠ 0) (τ : Sched) (σ : Nat → Sched) {x : Ten α}
    {g : Nat → Nat → α} (hx : Is2 x M.V.nnode M.V.ndim g) :
    (∃ b M' y, M.dot_nodevec τ x = .ok b ∧ M.solve_nodevec σ b = .ok (M', y) ∧
      Is2 y M.V.nnode M.V.ndim g) ∧
    (∃ M' y b, M.solve_nodevec σ x = .ok (M', y) ∧ M'.dot_nodevec τ y = .ok b ∧
      Is2 b M.V.nnode M.V.ndim g) := by
  have ha' : ∀ m i, m < M.V.nnode → i < M.V.ndim → a (d m i) ≠ 0 :=
    fun m i hm hi => ha _ (hM.base.dofs_lt _ _ hm hi)
  constructor
  · obtain ⟨b, h1, h2⟩ := C23_dot_nodevec hM τ hx
    obtain ⟨M', y, h3, -, -, -, h4⟩ := MatrixDiagonal.solve_nodevec_spec hM σ h2
    exact ⟨b, M', y, h1, h3, h4.congr fun m i hm hi => by
      simp [mul_div_cancel_left₀, ha' m i hm hi]⟩
  · obtain ⟨M', y, h3, hV, -, hM', h4⟩ := MatrixDiagonal.solve_nodevec_spec hM σ hx
    rw [← hV] at h4
    obtain ⟨b, h1, h2⟩ := C23_dot_nodevec hM' τ h4
    rw [hV] at h2
    exact ⟨M', y, b, h3, h1, h2.congr fun m i hm hi => mul_div_cancel₀ _ (ha' m i hm hi)⟩

/-- The hypotheses are met by a chain of two one-dimensional elements on three nodes: the assembled
diagonal of unit element matrices is `1, 2, 1`. -/
example : ∃ (M : MatrixDiagonal Rat) (V : Vector),
    MatrixDiagonal.new (lit2 2 [[0, 1], [1, 2]]) (lit2 1 [[0], [1], [2]]) = .ok M ∧ M.V = V ∧
    V.nelem = 2 ∧ V.nne = 2 ∧ V.ndim = 1 ∧ V.ndof = 3 ∧
    DiagRunSpec V (fun e m => e + m) (fun m _ => m)
      [.assemble (Ten.of [2, 2, 2] fun ix => if ix.getD 1 0 = ix.getD 2 0 then (1 : Rat) else 0),
       .solve_dofval (fun _ => Sched.seq) (lit1 [4, 4, 4]) (lit1 [0, 0, 0])] none
      (some (diagAssembled V (fun e m => e + m) (fun m _ => m)
        fun _ a b => if a = b then (1 : Rat) else 0)) ∧
    (List.range 3).map (diagAssembled V (fun e m => e + m) (fun m _ => m)
        fun _ a b => if a = b then (1 : Rat) else 0) = [1, 2, 1] := by
  refine ⟨_, _, rfl, rfl, rfl, rfl, rfl, rfl, ?_, by decide +kernel⟩
  refine .cons (.assemble ⟨rfl, fun _ _ _ _ _ _ => rfl⟩) (.cons (.solve_dofval (f := fun _ => 4)
    (g := fun _ => 0) ⟨rfl, ?_⟩ ⟨rfl, ?_⟩) .nil)
  · intro i hi
    have : i < 3 := hi
    interval_cases i <;> rfl
  · intro i hi
    have : i < 3 := hi
    interval_cases i <;> rfl

end C23

section C24
variable {M : MatrixDiagonalPartitioned α}

/-- **C24** (constructor) -/
theorem C24_constructor [Field α] {conn dofs : Ten Nat} {nelem nne nnode ndim : Nat}
    {iip : List Nat} (hc : Is2 conn nelem nne c) (hd : Is2 dofs nnode ndim d)
    (hlt : ∀ e m, e < nelem → m < nne → c e m < nnode) (hip : iip.Nodup)
    (hipd : ∀ k ∈ iip, ∃ m i, m < nnode ∧ i < ndim ∧ k ≤ d m i)
    (hs : ∀ m i, m < nnode → i < ndim → ∀ k, k ≤ d m i →
      ∃ n j, n < nnode ∧ j < ndim ∧ d n j = k) (hpos : 0 < nnode ∧ 0 < ndim) :
    ∃ (M : MatrixDiagonalPartitioned α) (q : Nat → Nat → Nat),
      MatrixDiagonalPartitioned.new conn dofs iip = .ok M ∧
      VectorPartitioned.new conn dofs iip = .ok M.P ∧ M.P.iip = iip ∧ M.Holds c d q none ∧
      M.base_nnp = none := by
  obtain ⟨P, q, h1, h2, h3, h4, h5, h6, h7, h8⟩ := C12_constructor hc hd hlt hip hipd
  obtain ⟨V, v1, v2, v3, v4, v5, -, v6⟩ := Vector.new_spec hc hd hlt
  have hPV : P.V = V := by rw [h3] at v1; exact Res.ok.inj v1
  obtain ⟨m, i, hm, hi, hn⟩ := v6 hpos.1 hpos.2
  refine ⟨⟨P, Ten.empty [P.nnu], Ten.empty [P.nnp], Ten.empty [P.nnu], true, none⟩, q, by simp only [MatrixDiagonalPartitioned.new, h1, Res.ok_bind],
    h1, h2, ⟨h8, ?_, ⟨rfl, rfl⟩, by simp, by simp, rfl, Or.inl rfl⟩, rfl⟩
  intro k hk
  simp only [hPV, v4, v5] at hk ⊢
  exact hs m i hm hi k (by omega)

/-- **C24** (assemble): the diagonal is that of `MatrixDiagonal` (`C23_assemble`), for every list of
prescribed DOFs. -/
theorem C24_assemble [Field α] {o} (hM : M.Holds c d q o) {K : Ten α} {k : Nat → Nat → Nat → α}
    (hK : Is3 K M.P.V.nelem (M.P.V.nne * M.P.V.ndim) (M.P.V.nne * M.P.V.ndim) k) :
    ∃ M', M.assemble K = .ok M' ∧ M'.P = M.P ∧ M'.Holds c d q (some (diagAssembled M.P.V c d k)) :=
  MatrixDiagonalPartitioned.assemble_spec hM hK

/-- **C24** (`data`): returns the diagonal. -/
theorem C24_data [Field α] {a : Nat → α} (hM : M.Holds c d q (some a)) (σ : Nat → Sched) :
    ∃ y, M.data σ = .ok y ∧ Is1 y M.P.V.ndof a := by
  have hP := hM.base
  have hu := hM.Auu a rfl
  have hp := hM.App a rfl
  rw [hP.nnu] at hu
  rw [hP.nnp] at hp
  obtain ⟨r, h1, h2, h3, h4⟩ := MatrixPartitioned.putDofs_spec (σ 0) hP.iiu_nodup
    (fun k hk => hP.iiu_lt hk) hu (ret := Ten.full [M.P.V.ndof] 0) rfl
  obtain ⟨y, h5, h6, h7, h8⟩ := MatrixPartitioned.putDofs_spec (σ 1) hP.iip_nodup hP.iip_lt hp h2
  refine ⟨y, by simp only [MatrixDiagonalPartitioned.data, hP.nnu, hP.nnp, h1, h5, Res.ok_bind], h6,
    fun k hk => ?_⟩
  by_cases hkp : k ∈ M.P.iip
  · obtain ⟨b, hb⟩ := List.getElem?_of_mem hkp
    rw [h7 b k hb]; simp [List.getD, hb]
  · rw [h8 k hkp]
    have hku := (hM.mem hk).resolve_right hkp
    obtain ⟨b, hb⟩ := List.getElem?_of_mem hku
    rw [h3 b k hb]; simp [List.getD, hb]

theorem putDiag_spec (σ : Sched) {ii : List Nat} {N : Nat} (hlt : ∀ k ∈ ii, k < N)
    (hn : ii.Nodup) {val ret : Ten α} {f : Nat → α} (hv : Is1 val ii.length f)
    (hret : ret.shape = [N, N]) :
    ∃ y, MatrixDiagonalPartitioned.putDiag σ ii ii.length val ret = .ok y ∧ y.shape = [N, N] ∧
      (∀ a k, ii[a]? = some k → y.v [k, k] = some (f a)) ∧
      (∀ r s, (r ≠ s ∨ r ∉ ii) → y.v [r, s] = ret.v [r, s]) := by
  obtain ⟨y, h1, h2, h3, h4⟩ := forEach_set (σ.run (it1 ii.length)) (fun (ret : Ten α) d => do
    let k ← lget ii d
    let a ← val.get [d]
    ret.set [k, k] a) (fun a => [ii.getD a 0, ii.getD a 0]) f ret
    (by
      intro a ha
      simp only [mem_sched, mem_it1] at ha
      have := hlt _ (SMatrix.getD_mem ha)
      simp only [hret, inb_cons, this, inb_nil, decide_true, Bool.and_self])
    (by
      intro a ha s _
      simp only [mem_sched, mem_it1] at ha
      simp only [lget_of (MatrixPartitioned.getElem?_getD ha), hv.get ha, Res.ok_bind])
  refine ⟨y, h1, by rw [h2, hret], fun a k hk => ?_, fun r s hrs => h4 _ ?_⟩
  · have ha : a < ii.length := (List.getElem?_eq_some_iff.1 hk).1
    have hka : ii.getD a 0 = k := by simp [List.getD, hk]
    obtain ⟨b, hb, hb1, hb2⟩ := h3 [k, k] ⟨a, by simp [ha], by rw [hka]⟩
    simp only [mem_sched, mem_it1] at hb
    simp only [List.cons.injEq, and_true, and_self] at hb1
    have : b = a := VectorPartitioned.nodup_idx hn
      (by rw [MatrixPartitioned.getElem?_getD hb, hb1]) hk
    rw [hb2, this]
  · intro a ha e
    simp only [mem_sched, mem_it1] at ha
    simp only [List.cons.injEq, and_true] at e
    rcases hrs with h | h
    · exact h (e.1.symm.trans e.2)
    · exact h (e.1 ▸ SMatrix.getD_mem ha)

/-- **C24** (`Todense`): the dense diagonal matrix, as for `MatrixDiagonal` (`C23_todense`). -/
theorem C24_todense [Field α] {a : Nat → α} (hM : M.Holds c d q (some a)) (σ : Nat → Sched) :
    ∃ y, M.todense σ = .ok y ∧ Is2 y M.P.V.ndof M.P.V.ndof (fun r s => if r = s then a r else 0) := by
  have hP := hM.base
  have hu := hM.Auu a rfl
  have hp := hM.App a rfl
  rw [hP.nnu] at hu
  rw [hP.nnp] at hp
  obtain ⟨r, h1, h2, h3, h4⟩ := putDiag_spec (σ 0) (fun k hk => hP.iiu_lt hk) hP.iiu_nodup hu
    (ret := Ten.full [M.P.V.ndof, M.P.V.ndof] 0) rfl
  obtain ⟨y, h5, h6, h7, h8⟩ := putDiag_spec (σ 1) hP.iip_lt hP.iip_nodup hp h2
  refine ⟨y, by simp only [MatrixDiagonalPartitioned.todense, hP.nnu, hP.nnp, h1, h5, Res.ok_bind], h6,
    fun k s hk hs => ?_⟩
  by_cases h : k = s
  · subst h
    simp only [if_true]
    by_cases hkp : k ∈ M.P.iip
    · obtain ⟨b, hb⟩ := List.getElem?_of_mem hkp
      rw [h7 b k hb]; simp [List.getD, hb]
    · rw [h8 k k (Or.inr hkp)]
      have hku := (hM.mem hk).resolve_right hkp
      obtain ⟨b, hb⟩ := List.getElem?_of_mem hku
      rw [h3 b k hb]; simp [List.getD, hb]
  · rw [h8 _ _ (Or.inl h), h4 _ _ (Or.inl h)]
    simp [Ten.full, h]

/-- **C24** (`Dot` on DOF vectors) -/
theorem C24_dot_dofval [Field α] {a : Nat → α} (hM : M.Holds c d q (some a)) (σ : Nat → Sched)
    {x : Ten α} {f : Nat → α} (hx : Is1 x M.P.V.ndof f) :
    ∃ b, M.dot_dofval σ x = .ok b ∧ Is1 b M.P.V.ndof (fun k => a k * f k) := by
  have hP := hM.base
  have hu := hM.Auu a rfl
  have hp := hM.App a rfl
  rw [hP.nnu] at hu
  rw [hP.nnp] at hp
  obtain ⟨r, h1, h2, h3, h4⟩ := MatrixDiagonalPartitioned.mulDofs_spec (σ 0) hP.iiu_nodup
    (fun k hk => hP.iiu_lt hk) hu (x := x) (g := f) (fun k hk => hx.get (hP.iiu_lt hk))
    (b := Ten.empty x.shape) hx.1
  obtain ⟨y, h5, h6, h7, h8⟩ := MatrixDiagonalPartitioned.mulDofs_spec (σ 1) hP.iip_nodup hP.iip_lt hp
    (x := x) (g := f) (fun k hk => hx.get (hP.iip_lt k hk)) h2
  refine ⟨y, by simp only [MatrixDiagonalPartitioned.dot_dofval, hP.nnu, hP.nnp, h1, h5,
    Res.ok_bind], h6, fun k hk => ?_⟩
  by_cases hkp : k ∈ M.P.iip
  · obtain ⟨b, hb⟩ := List.getElem?_of_mem hkp
    rw [h7 b k hb]; simp [List.getD, hb]
  · rw [h8 k hkp]
    have hku := (hM.mem hk).resolve_right hkp
    obtain ⟨b, hb⟩ := List.getElem?_of_mem hku
    rw [h3 b k hb]; simp [List.getD, hb]

/-- **C24** (`Dot` on node vectors) -/
theorem C24_dot_nodevec [Field α] {a : Nat → α} (hM : M.Holds c d q (some a)) (σ : Sched)
    {x : Ten α} {g : Nat → Nat → α} (hx : Is2 x M.P.V.nnode M.P.V.ndim g) :
    ∃ b, M.dot_nodevec σ x = .ok b ∧
      Is2 b M.P.V.nnode M.P.V.ndim (fun m i => a (d m i) * g m i) := by
  have hP := hM.base
  refine Vector.gather2 (σ.run (it2 M.P.V.nnode M.P.V.ndim)) _ _ _ (Ten.empty x.shape) hx.1 _ (by simp) ?_
  intro m i hm hi s
  simp only [hP.part.get hm hi, Res.ok_bind]
  by_cases h : q m i < M.P.nnu
  · simp only [h, if_true, (hM.Auu a rfl).get h, hx.get hm hi, Res.ok_bind,
      MatrixDiagonalPartitioned.u_getD hP hm hi h]
  · have h' : M.P.nnu ≤ q m i := by omega
    simp only [h, if_false, (hM.App a rfl).get (hP.p_lt hm hi h'), hx.get hm hi, Res.ok_bind,
      MatrixDiagonalPartitioned.p_getD hP hm hi h']

/-- **C24** (`Dot_u`, `Dot_p`): the unknown and the prescribed part of `A x`. -/
theorem C24_dot_up [Field α] {a : Nat → α} (hM : M.Holds c d q (some a)) (σ : Sched) {xu xp : Ten α}
    {f g : Nat → α} (hu : Is1 xu M.P.nnu f) (hp : Is1 xp M.P.nnp g) :
    (∃ b, M.dot_u σ xu xp = .ok b ∧ Is1 b M.P.nnu (fun k => a (M.P.iiu.getD k 0) * f k)) ∧
    (∃ b, M.dot_p σ xu xp = .ok b ∧ Is1 b M.P.nnp (fun k => a (M.P.iip.getD k 0) * g k)) :=
  ⟨MatrixDiagonalPartitioned.mulLoop_spec σ (hM.Auu a rfl) hu rfl,
   MatrixDiagonalPartitioned.mulLoop_spec σ (hM.App a rfl) hp rfl⟩

/-- **C24** (history): as for `MatrixDiagonal`, the cached inverse is never stale. -/
theorem C24_history [Field α] {o o' : Option (Nat → α)} {ops : List (DiagOp α)}
    (hM : M.Holds c d q o) (h : DiagRunSpec M.P.V c d ops o o') :
    ∃ M', M.run ops = .ok M' ∧ M'.P = M.P ∧ M'.Holds c d q o' := by
  generalize hV : M.P.V = V at h
  induction h generalizing M with
  | nil => exact ⟨M, rfl, rfl, hM⟩
  | cons hop _ ih =>
    subst hV
    obtain ⟨M1, h1, h2, h3⟩ := MatrixDiagonalPartitioned.step_spec hM hop
    obtain ⟨M2, h4, h5, h6⟩ := ih h3 (by rw [h2])
    refine ⟨M2, ?_, by rw [h5, h2], h6⟩
    simp only [MatrixDiagonalPartitioned.run, forEach] at h4 ⊢
    rw [h1]; exact h4

/-- **C24** (`solve(b, x)` on DOF vectors after any history): the result agrees with `x` on the
prescribed DOFs and satisfies `a(k) x(k) = b(k)` on every unknown DOF with a non-zero diagonal. -/
theorem C24_solve_dofval [Field α] {o : Option (Nat → α)} {a : Nat → α} {ops : List (DiagOp α)}
    (hM : M.Holds c d q o) (h : DiagRunSpec M.P.V c d ops o (some a)) (σ : Nat → Sched)
    {b x : Ten α} {f g : Nat → α} (hb : Is1 b M.P.V.ndof f) (hx : Is1 x M.P.V.ndof g) :
    ∃ M1 M2 y f', M.run ops = .ok M1 ∧ M1.solve_dofval σ b x = .ok (M2, y) ∧
      M2.Holds c d q (some a) ∧ Is1 y M.P.V.ndof f' ∧ (∀ k ∈ M.P.iip, f' k = g k) ∧
      (∀ k, k < M.P.V.ndof → k ∉ M.P.iip → a k ≠ 0 → a k * f' k = f k) := by
  obtain ⟨M1, h1, h2, h3⟩ := C24_history hM h
  obtain ⟨M2, y, h4, h5, h6, h7, h8, h9⟩ := MatrixDiagonalPartitioned.solve_dofval_spec h3 σ
    (by rw [h2]; exact hb) (by rw [h2]; exact hx.1)
  rw [h2] at h7 h8 h9
  refine ⟨M1, M2, y, fun k => if k ∈ M.P.iip then g k else f k / a k, h1, h4, h6, ⟨h7, ?_⟩, ?_, ?_⟩
  · intro k hk
    by_cases hkp : k ∈ M.P.iip
    · simp only [hkp, if_true, h9 k hkp, hx.2 k hk]
    · simp only [hkp, if_false, h8 k ((hM.mem hk).resolve_right hkp)]
  · intro k hk; simp only [hk, if_true]
  · intro k hk hkp ha
    simp only [hkp, if_false]
    exact mul_div_cancel₀ _ ha

/-- **C24** (`solve(b, x)` on node vectors after any history) -/
theorem C24_solve_nodevec [Field α] {o : Option (Nat → α)} {a : Nat → α} {ops : List (DiagOp α)}
    (hM : M.Holds c d q o) (h : DiagRunSpec M.P.V c d ops o (some a)) (σ : Nat → Sched)
    {b x : Ten α} {f g : Nat → Nat → α} (hb : Is2 b M.P.V.nnode M.P.V.ndim f)
    (hx : Is2 x M.P.V.nnode M.P.V.ndim g) :
    ∃ M1 M2 y f', M.run ops = .ok M1 ∧ M1.solve_nodevec σ b x = .ok (M2, y) ∧
      M2.Holds c d q (some a) ∧ Is2 y M.P.V.nnode M.P.V.ndim f' ∧
      (∀ m i, m < M.P.V.nnode → i < M.P.V.ndim →
        (d m i ∈ M.P.iip → f' m i = g m i) ∧
        (d m i ∉ M.P.iip → a (d m i) ≠ 0 → a (d m i) * f' m i = f m i)) := by
  obtain ⟨M1, h1, h2, h3⟩ := C24_history hM h
  obtain ⟨M2, y, h4, h5, h6, h7, h8, h9⟩ := MatrixDiagonalPartitioned.solve_nodevec_spec h3 σ
    (by rw [h2]; exact hb) (by rw [h2]; exact hx.1)
  rw [h2] at h7 h8 h9
  refine ⟨M1, M2, y, fun m i => if d m i ∈ M.P.iip then g m i else f m i / a (d m i), h1, h4, h6,
    ⟨h7, ?_⟩, ?_⟩
  · intro m i hm hi
    by_cases hkp : d m i ∈ M.P.iip
    · simp only [hkp, if_true, h9 m i hm hi hkp, hx.2 m i hm hi]
    · simp only [hkp, if_false, h8 m i hm hi hkp]
  · intro m i hm hi
    refine ⟨fun h => by simp only [h, if_true], fun h ha => ?_⟩
    simp only [h, if_false]
    exact mul_div_cancel₀ _ ha

/-- **C24** (`Solve_u`) -/
theorem C24_solve_u [Field α] {a : Nat → α} (hM : M.Holds c d q (some a)) (σ : Nat → Sched)
    {bu xp : Ten α} {f : Nat → α} (hb : Is1 bu M.P.nnu f) :
    ∃ M' y, M.solve_u σ bu xp = .ok (M', y) ∧ M'.Holds c d q (some a) ∧
      Is1 y M.P.nnu (fun k => f k / a (M.P.iiu.getD k 0)) := by
  obtain ⟨M', h1, h2, h3, h4⟩ := MatrixDiagonalPartitioned.factorize_spec hM (σ 0)
  obtain ⟨y, h5, h6⟩ := MatrixDiagonalPartitioned.mulLoop_spec (σ 1) h3 hb
    (b := Ten.empty [M.P.nnu]) rfl
  exact ⟨M', y, by simp only [MatrixDiagonalPartitioned.solve_u, h1, h2, h5, Res.ok_bind], h4,
    h6.congr fun k _ => by simp [div_eq_mul_inv, mul_comm]⟩

/-- **C24** (`Solve(b)` leaves prescribed entries undefined): `Solve(b)` passes a freshly allocated
`x`; afterwards no prescribed entry has a value. -/
theorem C24_solve_undefined [Field α] {a : Nat → α} (hM : M.Holds c d q (some a)) (σ : Nat → Sched)
    {b : Ten α} {f : Nat → α} (hb : Is1 b M.P.V.ndof f) :
    ∃ M' y, M.solve_dofval σ b (Ten.empty b.shape) = .ok (M', y) ∧
      (∀ k ∈ M.P.iip, y.get [k] = .ub) ∧ (∀ k ∈ M.P.iiu, y.get [k] = .ok (f k / a k)) := by
  have hP := hM.base
  obtain ⟨M', y, h1, h2, h3, h4, h5, h6⟩ := MatrixDiagonalPartitioned.solve_dofval_spec hM σ hb
    (x := Ten.empty b.shape) hb.1
  refine ⟨M', y, h1, fun k hk => ?_, fun k hk => ?_⟩
  · simp [Ten.get, h6 k hk, Ten.empty]
  · have := hP.iiu_lt hk
    simp [Ten.get, h4, this, h5 k hk]

/-- **C24** (`Solve(b)` on node vectors leaves prescribed entries undefined) -/
theorem C24_solve_nodevec_undefined [Field α] {a : Nat → α} (hM : M.Holds c d q (some a))
    (σ : Nat → Sched) {b : Ten α} {g : Nat → Nat → α} (hb : Is2 b M.P.V.nnode M.P.V.ndim g) :
    ∃ M' y, M.solve_nodevec σ b (Ten.empty b.shape) = .ok (M', y) ∧
      (∀ m i, m < M.P.V.nnode → i < M.P.V.ndim → d m i ∈ M.P.iip → y.get [m, i] = .ub) := by
  obtain ⟨M', y, h1, h2, h3, h4, h5, h6⟩ := MatrixDiagonalPartitioned.solve_nodevec_spec hM σ hb
    (x := Ten.empty b.shape) hb.1
  refine ⟨M', y, h1, fun m i hm hi hk => ?_⟩
  simp [Ten.get, h6 m i hm hi hk, Ten.empty]

/-- **C24** (`Reaction` on DOF vectors): `b` on unknown DOFs, `A x` on prescribed DOFs. -/
theorem C24_reaction_dofval [Field α] {a : Nat → α} (hM : M.Holds c d q (some a)) (σ : Sched)
    {x b : Ten α} {f g : Nat → α} (hx : Is1 x M.P.V.ndof f) (hb : Is1 b M.P.V.ndof g) :
    ∃ y, M.reaction_dofval σ x b = .ok y ∧
      Is1 y M.P.V.ndof (fun k => if k ∈ M.P.iip then a k * f k else g k) := by
  have hP := hM.base
  have hp := hM.App a rfl
  rw [hP.nnp] at hp
  obtain ⟨y, h5, h6, h7, h8⟩ := MatrixDiagonalPartitioned.mulDofs_spec σ hP.iip_nodup hP.iip_lt hp
    (x := x) (g := f) (fun k hk => hx.get (hP.iip_lt k hk)) hb.1
  refine ⟨y, by simp only [MatrixDiagonalPartitioned.reaction_dofval, hP.nnp, h5], h6,
    fun k hk => ?_⟩
  by_cases hkp : k ∈ M.P.iip
  · obtain ⟨b, hb⟩ := List.getElem?_of_mem hkp
    rw [h7 b k hb]; simp only [hkp, if_true]; simp [List.getD, hb]
  · rw [h8 k hkp, hb.2 k hk]; simp only [hkp, if_false]

/-- **C24** (`Reaction` on node vectors) -/
theorem C24_reaction_nodevec [Field α] {a : Nat → α} (hM : M.Holds c d q (some a)) (σ : Sched)
    {x b : Ten α} {f g : Nat → Nat → α} (hx : Is2 x M.P.V.nnode M.P.V.ndim f)
    (hb : Is2 b M.P.V.nnode M.P.V.ndim g) :
    ∃ y, M.reaction_nodevec σ x b = .ok y ∧ Is2 y M.P.V.nnode M.P.V.ndim (fun m i =>
      if d m i ∈ M.P.iip then a (d m i) * f m i else g m i) := by
  have hP := hM.base
  obtain ⟨y, h1, h2⟩ := VectorPartitioned.masked_spec σ M.P.V.nnode M.P.V.ndim
    (fun m i => decide (M.P.nnu ≤ q m i)) (fun b mi => do
      let k ← M.P.part.get [mi.1, mi.2]
      if M.P.nnu ≤ k then
        let a ← M.App.get [k - M.P.nnu]
        let v ← x.get [mi.1, mi.2]
        b.set [mi.1, mi.2] (a * v)
      else .ok b) (g := fun m i => a (d m i) * f m i) hb (by
      intro m i hm hi s
      simp only [hP.part.get hm hi, Res.ok_bind]
      by_cases h : M.P.nnu ≤ q m i
      · simp only [h, if_true, (hM.App a rfl).get (hP.p_lt hm hi h), hx.get hm hi, Res.ok_bind,
          MatrixDiagonalPartitioned.p_getD hP hm hi h, decide_true]
      · simp [h])
  refine ⟨y, h1, h2.congr fun m i hm hi => ?_⟩
  have := hP.u_iff hm hi
  by_cases h : d m i ∈ M.P.iip
  · have h' : M.P.nnu ≤ q m i := by
      by_contra h'
      exact this.1 (by omega) h
    simp [h, h']
  · have h' : ¬ M.P.nnu ≤ q m i := by have := this.2 h; omega
    simp [h, h']

/-- **C24** (`Reaction_p`): `reaction_p` with an allocated result is correct, but `Reaction_p` on a
constructed object reads a member that was never given a value. -/
theorem C24_reaction_p [Field α] {a : Nat → α} (hM : M.Holds c d q (some a)) (σ : Sched)
    {xu xp bp : Ten α} {g : Nat → α} (hp : Is1 xp M.P.nnp g) (hb : bp.shape = [M.P.nnp]) :
    (∃ y, M.reaction_p σ xu xp bp = .ok y ∧
      Is1 y M.P.nnp (fun k => a (M.P.iip.getD k 0) * g k)) ∧
    (M.base_nnp = none → M.Reaction_p σ xu xp = .ub) := by
  refine ⟨MatrixDiagonalPartitioned.mulLoop_spec σ (hM.App a rfl) hp hb, fun h => ?_⟩
  simp [MatrixDiagonalPartitioned.Reaction_p, h]

/-- the value of an entry, for concrete checks -/
def entry1 (r : Res (Ten Rat)) (k : Nat) : Option Rat :=
  match r with
  | .ok t => t.v [k]
  | _ => none

/-- A concrete instance: three nodes, the middle DOF prescribed, a history of `assemble` and `solve`. -/
example : ∃ (M : MatrixDiagonalPartitioned Rat) (q : Nat → Nat → Nat),
    MatrixDiagonalPartitioned.new (lit2 2 [[0, 1], [1, 2]]) (lit2 1 [[0], [1], [2]]) [1] = .ok M ∧
    M.Holds (fun e m => e + m) (fun m _ => m) q none := by
  obtain ⟨M, q, h1, h2, h3, h4, h5⟩ := C24_constructor (α := Rat) (iip := [1])
    (conn := lit2 2 [[0, 1], [1, 2]]) (dofs := lit2 1 [[0], [1], [2]]) (nelem := 2) (nne := 2)
    (nnode := 3) (ndim := 1) (c := fun e m => e + m) (d := fun m _ => m)
    ⟨rfl, ball2 (by decide)⟩
    ⟨rfl, ball2 (by decide)⟩
    (by intro e m he hm; show e + m < 3; omega) (by simp)
    (by
      intro k hk
      simp at hk
      exact ⟨1, 0, by omega, by omega, by simp [hk]⟩)
    (by
      intro m i hm hi k hk
      exact ⟨k, 0, by omega, by omega, rfl⟩) (by omega)
  exact ⟨M, q, h1, h4⟩

end C24
end GF
