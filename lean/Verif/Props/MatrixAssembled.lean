import Verif.Props.Matrix

/-! **C17** for node vectors: the product with the assembled matrix is the assembly, to a node vector, of the element products. -/

namespace GF
open Finset
variable {α : Type} {M : SMatrix α} {c d : Nat → Nat → Nat}

/-- **C17** (assembled, node vectors): `Dot` of a node vector is `AssembleNode` of the element products `K_e u_e`. -/
theorem C17_dot_nodevec_assembled [CommSemiring α] {D : Nat → Nat → α} (hM : M.Holds c d D) (hs : Surj M.V d) (σ τ ρ : Sched)
    {K x F : Ten α} {k : Nat → Nat → Nat → α} {u : Nat → Nat → α}
    (hK : Is3 K M.V.nelem (M.V.nne * M.V.ndim) (M.V.nne * M.V.ndim) k) (hx : Is2 x M.V.nnode M.V.ndim u) (hu : Consistent M.V d u)
    (hF : Is3 F M.V.nelem M.V.nne M.V.ndim fun e m i =>
      ∑ n ∈ range M.V.nne, ∑ j ∈ range M.V.ndim, k e (m * M.V.ndim + i) (n * M.V.ndim + j) * u (c e n) j) :
    ∃ M' b b' g, M.assemble K = .ok M' ∧ M'.dot_nodevec σ τ x = .ok b ∧ M.V.AssembleNode ρ F = .ok b' ∧
      Is2 b M.V.nnode M.V.ndim g ∧ Is2 b' M.V.nnode M.V.ndim g := by
  have e1 := SMatrix.assemble_spec hM.base hK
  have hM' : SMatrix.Holds (⟨M.V, ⟨M.V.ndof, M.V.ndof, SMatrix.assembled M.V c d k⟩, true⟩ : SMatrix α)
    c d (SMatrix.assembled M.V c d k) := ⟨hM.base, rfl, rfl, fun _ _ => rfl⟩
  classical
  let f : Nat → α := fun r => if h : ∃ m i, m < M.V.nnode ∧ i < M.V.ndim ∧ d m i = r then u h.choose h.choose_spec.choose else 0
  have hf : ∀ m i, m < M.V.nnode → i < M.V.ndim → u m i = f (d m i) := by
    intro m i hm hi
    have h : ∃ m' i', m' < M.V.nnode ∧ i' < M.V.ndim ∧ d m' i' = d m i := ⟨m, i, hm, hi, rfl⟩
    simp only [f, dif_pos h]
    obtain ⟨h1, h2, h3⟩ := h.choose_spec.choose_spec
    exact hu m i _ _ hm hi h1 h2 h3.symm
  have hx' : Is2 x M.V.nnode M.V.ndim (fun m i => f (d m i)) := hx.congr fun m i hm hi => hf m i hm hi
  obtain ⟨b, h1, h2⟩ := C17_dot_nodevec hM' hs σ τ hx'
  obtain ⟨b', h3, h4⟩ := C06_assembleNode hM.base ρ hF
  obtain ⟨M2, y, q1, q2, q3⟩ := C17_dot_assembled hM hK (x := Ten.of [M.V.ndof] fun ix => f (ix.getD 0 0)) (f := f) (is1_of _ _)
  obtain rfl : _ = M2 := Res.ok.inj (e1.symm.trans q1)
  obtain ⟨y', q4, q5⟩ := C17_dot_dofval hM' (x := Ten.of [M.V.ndof] fun ix => f (ix.getD 0 0)) (f := f) (is1_of _ _)
  obtain rfl : y = y' := Res.ok.inj (q2.symm.trans q4)
  refine ⟨_, b, b', _, e1, h1, h3, h2, h4.congr fun n j hn hj => ?_⟩
  have hd := hM.base.dofs_lt n j hn hj
  have := Option.some.inj ((q3.2 (d n j) hd).symm.trans (q5.2 (d n j) hd))
  dsimp only at this ⊢
  rw [← this]
  refine sum_congr rfl fun e he => sum_congr rfl fun m hm => sum_congr rfl fun i hi => ?_
  split
  · refine sum_congr rfl fun n' hn' => sum_congr rfl fun j' hj' => ?_
    rw [hf _ _ (hM.base.conn_lt e n' (mem_range.1 he) (mem_range.1 hn')) (mem_range.1 hj')]
  · rfl

/-- Beside `C17_dot_nodevec_assembled`: two elements that share an edge, a consistent node vector and non-zero element matrices. -/
example : ∃ (M : SMatrix Int) (c d : Nat → Nat → Nat) (K x F : Ten Int) (k : Nat → Nat → Nat → Int) (u : Nat → Nat → Int),
    SMatrix.new exConn exDofs = .ok M ∧ M.Holds c d (fun _ _ => 0) ∧ Surj M.V d ∧
    Is3 K M.V.nelem (M.V.nne * M.V.ndim) (M.V.nne * M.V.ndim) k ∧ k 1 2 3 ≠ 0 ∧
    Is2 x M.V.nnode M.V.ndim u ∧ Consistent M.V d u ∧
    (Is3 F M.V.nelem M.V.nne M.V.ndim fun e m i =>
      ∑ n ∈ range M.V.nne, ∑ j ∈ range M.V.ndim, k e (m * M.V.ndim + i) (n * M.V.ndim + j) * u (c e n) j) := by
  obtain ⟨V, c, d, h1, h2, h3, -⟩ := exVector
  refine ⟨⟨V, Mat.zero V.ndof V.ndof, true⟩, c, d, Ten.of _ (fun ix => (ix.getD 2 0 : Int)),
    Ten.of _ (fun ix => (d (ix.getD 0 0) (ix.getD 1 0) : Int)), Ten.of _ (fun ix =>
      ∑ n ∈ range V.nne, ∑ j ∈ range V.ndim, ((ix.getD 0 0, n * V.ndim + j).2 : Int) * (d (c (ix.getD 0 0) n) j : Int)),
    fun _ _ b => (b : Int), fun m i => (d m i : Int), by simp [SMatrix.new, h1], ⟨h2, rfl, rfl, fun _ _ => rfl⟩, h3,
    is3_of _ _ _ _, by decide, is2_of _ _ _, ?_, is3_of _ _ _ _⟩
  intro m i m' i' _ _ _ _ h
  exact congrArg _ h

end GF
