import Verif.Lemmas.Debug
import Verif.Lemmas.RoundingNew
import Verif.Props.VectorPartitioned

/-! **C108**: the build with assertions (`GOOSEFEM_ENABLE_ASSERT`) throws exactly on the invalid arguments; on the valid ones it
does the same as the build without assertions, which then completes without undefined behaviour.

The arguments are arbitrary arrays, of any shape, all cells of which hold a number (`Complete`).  No law of arithmetic is used,
so the statements hold for floating-point numbers. -/

namespace GF
variable {α : Type}

namespace Vector

/-! ### `Vector` -/

/-- **C108** (constructor of `Vector`): throws unless there are nodes and components, all node numbers in `conn` exist and there
are at most as many DOFs as components. -/
theorem C108_new {conn dofs : Ten Nat} {nelem nne nnode ndim : Nat} {c d : Nat → Nat → Nat} (hc : Is2 conn nelem nne c)
    (hd : Is2 dofs nnode ndim d) :
    Checked (Vector.new_checked conn dofs) (Vector.new conn dofs)
      (0 < nnode ∧ 0 < ndim ∧ (∀ e m, e < nelem → m < nne → c e m < nnode) ∧
        ∀ m i, m < nnode → i < ndim → d m i < nnode * ndim) fun V => V.Holds c d ∧ V.nelem = nelem ∧ V.nne = nne ∧ V.nnode = nnode ∧ V.ndim = ndim := by
  obtain ⟨a, a1, a2, a3⟩ := amax_is2 hc
  obtain ⟨b, b1, b2, b3⟩ := amax_is2 hd
  have hV : Vector.new conn dofs = .ok ⟨conn, dofs, nelem, nne, nnode, ndim, b + 1⟩ := by
    rw [Vector.new, hc.1, hd.1]
    simp only [b1, Res.ok_bind]
  have key : (a + 1 ≤ nnode ∧ b + 1 ≤ nnode * ndim) ↔ (0 < nnode ∧ 0 < ndim ∧ (∀ e m, e < nelem → m < nne → c e m < nnode) ∧
        ∀ m i, m < nnode → i < ndim → d m i < nnode * ndim) := by
    constructor
    · rintro ⟨h1, h2⟩
      refine ⟨by omega, ?_, fun e m he hm => by have := a2 e m he hm; omega, fun m i hm hi => by
        have := b2 m i hm hi; omega⟩
      rcases Nat.eq_zero_or_pos ndim with rfl | h
      · omega
      · exact h
    · rintro ⟨h1, h2, h3, h4⟩
      refine ⟨?_, ?_⟩
      · rcases a3 with rfl | ⟨e, m, he, hm, rfl⟩
        · exact h1
        · exact h3 e m he hm
      · rcases b3 with rfl | ⟨m, i, hm, hi, rfl⟩
        · exact Nat.mul_pos h1 h2
        · exact h4 m i hm hi
  unfold Vector.new_checked
  rw [hV]
  simp only [Res.ok_bind, a1, gassert_bind]
  refine ⟨fun h => ?_, fun h => ?_⟩
  · have h' := key.2 h
    refine ⟨by rw [if_pos h'.1, if_pos h'.2], _, rfl, ⟨hc, hd, h.2.2.1, fun m i hm hi => ?_⟩, rfl, rfl, rfl, rfl⟩
    have := b2 m i hm hi
    change d m i < b + 1
    omega
  · rw [← key] at h
    by_cases h1 : a + 1 ≤ nnode
    · rw [if_pos h1, if_neg fun h2 => h ⟨h1, h2⟩]
    · rw [if_neg h1]

variable {V : Vector} {c d : Nat → Nat → Nat}

/-- **C108** (`asDofs`, `AsDofs`). -/
theorem C108_asDofs [Zero α] (hV : V.Holds c d) (σ : Sched) {x : Ten α} (hx : Complete x) :
    (∀ ret : Ten α, Checked (V.asDofs_checked σ x ret) (V.asDofs σ x ret)
      ((x.shape = [V.nnode, V.ndim] ∨ x.shape = [V.nelem, V.nne, V.ndim]) ∧ ret.shape = [V.ndof]) (CompleteOf [V.ndof])) ∧
    Checked (V.AsDofs_checked σ x) (V.AsDofs σ x) (x.shape = [V.nnode, V.ndim] ∨ x.shape = [V.nelem, V.nne, V.ndim])
      (CompleteOf [V.ndof]) := by
  have key : ∀ ret : Ten α, Checked (V.asDofs_checked σ x ret) (V.asDofs σ x ret)
      ((x.shape = [V.nnode, V.ndim] ∨ x.shape = [V.nelem, V.nne, V.ndim]) ∧ ret.shape = [V.ndof]) (CompleteOf [V.ndof]) := by
    intro ret
    refine Checked.dispatch rfl rfl (by simp) (fun _ => Checked.of2 fun h1 h2 => ?_) (fun _ => Checked.of2 fun h1 h2 => ?_)
    · obtain ⟨f, hf⟩ := hx.is2 h1
      obtain ⟨y, e, g, hy, -⟩ := asDofs_nodevec_spec hV σ h2 hf
      exact ⟨y, e, hy.complete⟩
    · obtain ⟨f, hf⟩ := hx.is3 h1
      obtain ⟨y, e, g, hy, -⟩ := asDofs_elemvec_spec hV σ h2 hf
      exact ⟨y, e, hy.complete⟩
  exact ⟨key, (key (Ten.empty [V.ndof])).congr (and_iff_left rfl)⟩

/-- **C108** (`asNode`, `AsNode`). -/
theorem C108_asNode [Zero α] (hV : V.Holds c d) (σ : Sched) {x : Ten α} (hx : Complete x) :
    (∀ ret : Ten α, Checked (V.asNode_checked σ x ret) (V.asNode σ x ret)
      ((x.shape = [V.ndof] ∨ x.shape = [V.nelem, V.nne, V.ndim]) ∧ ret.shape = [V.nnode, V.ndim])
      (CompleteOf [V.nnode, V.ndim])) ∧
    Checked (V.AsNode_checked σ x) (V.AsNode σ x) (x.shape = [V.ndof] ∨ x.shape = [V.nelem, V.nne, V.ndim])
      (CompleteOf [V.nnode, V.ndim]) := by
  have key : ∀ ret : Ten α, Checked (V.asNode_checked σ x ret) (V.asNode σ x ret)
      ((x.shape = [V.ndof] ∨ x.shape = [V.nelem, V.nne, V.ndim]) ∧ ret.shape = [V.nnode, V.ndim])
      (CompleteOf [V.nnode, V.ndim]) := by
    intro ret
    refine Checked.dispatch rfl rfl (by simp) (fun _ => Checked.of2 fun h1 h2 => ?_) (fun _ => Checked.of2 fun h1 h2 => ?_)
    · obtain ⟨f, hf⟩ := hx.is1 h1
      obtain ⟨y, e, hy⟩ := asNode_dofval_spec hV σ h2 hf
      exact ⟨y, e, hy.complete⟩
    · obtain ⟨f, hf⟩ := hx.is3 h1
      obtain ⟨y, e, g, hy, -⟩ := asNode_elemvec_spec hV σ h2 hf
      exact ⟨y, e, hy.complete⟩
  exact ⟨key, (key (Ten.empty [V.nnode, V.ndim])).congr (and_iff_left rfl)⟩

/-- **C108** (`asElement`, `AsElement`). -/
theorem C108_asElement [Zero α] (hV : V.Holds c d) (σ : Sched) {x : Ten α} (hx : Complete x) :
    (∀ ret : Ten α, Checked (V.asElement_checked σ x ret) (V.asElement σ x ret)
      ((x.shape = [V.ndof] ∨ x.shape = [V.nnode, V.ndim]) ∧ ret.shape = [V.nelem, V.nne, V.ndim])
      (CompleteOf [V.nelem, V.nne, V.ndim])) ∧
    Checked (V.AsElement_checked σ x) (V.AsElement σ x) (x.shape = [V.ndof] ∨ x.shape = [V.nnode, V.ndim])
      (CompleteOf [V.nelem, V.nne, V.ndim]) := by
  have key : ∀ ret : Ten α, Checked (V.asElement_checked σ x ret) (V.asElement σ x ret)
      ((x.shape = [V.ndof] ∨ x.shape = [V.nnode, V.ndim]) ∧ ret.shape = [V.nelem, V.nne, V.ndim])
      (CompleteOf [V.nelem, V.nne, V.ndim]) := by
    intro ret
    have sz : x.rank = 1 → (x.shape.prod = V.ndof ↔ x.shape = [V.ndof]) := fun h => by
      obtain ⟨n, hn⟩ := List.length_eq_one_iff.1 h
      simp [hn]
    refine Checked.dispatch rfl rfl (by simp) (fun hr => (Checked.of2 fun h1 h2 => ?_).congr (and_congr_left' (sz hr)))
      (fun _ => Checked.of2 fun h1 h2 => ?_)
    · obtain ⟨f, hf⟩ := hx.is1 ((sz hr).1 h1)
      obtain ⟨y, e, hy⟩ := asElement_dofval_spec hV σ h2 hf
      exact ⟨y, e, hy.complete⟩
    · obtain ⟨f, hf⟩ := hx.is2 h1
      obtain ⟨y, e, hy⟩ := asElement_nodevec_spec hV σ h2 hf
      exact ⟨y, e, hy.complete⟩
  exact ⟨key, (key (Ten.empty [V.nelem, V.nne, V.ndim])).congr (and_iff_left rfl)⟩

section
variable {A B : Type} [Zero A] [Add A] [Zero B] [Add B] {s s0 : Ten A} {t t0 : Ten B}
open Element (Any)

theorem assembleDofs_nodevec_any (h : TenSim (Any A B) s t) (h0 : s0.shape = t0.shape) :
    Sim (TenSim (Any A B)) (V.assembleDofs_nodevec s s0) (V.assembleDofs_nodevec t t0) := by
  unfold assembleDofs_nodevec
  rw [h0]
  lockstep_any

theorem assembleDofs_elemvec_any (h : TenSim (Any A B) s t) (h0 : s0.shape = t0.shape) :
    Sim (TenSim (Any A B)) (V.assembleDofs_elemvec s s0) (V.assembleDofs_elemvec t t0) := by
  unfold assembleDofs_elemvec
  rw [h0]
  lockstep_any

end

/-- **C108** (`assembleDofs`, `AssembleDofs`). -/
theorem C108_assembleDofs [Zero α] [Add α] (hV : V.Holds c d) {x : Ten α} (hx : Complete x) :
    (∀ ret : Ten α, Checked (V.assembleDofs_checked x ret) (V.assembleDofs x ret)
      ((x.shape = [V.nnode, V.ndim] ∨ x.shape = [V.nelem, V.nne, V.ndim]) ∧ ret.shape = [V.ndof]) (CompleteOf [V.ndof])) ∧
    Checked (V.AssembleDofs_checked x) (V.AssembleDofs x) (x.shape = [V.nnode, V.ndim] ∨ x.shape = [V.nelem, V.nne, V.ndim])
      (CompleteOf [V.ndof]) := by
  have key : ∀ ret : Ten α, Checked (V.assembleDofs_checked x ret) (V.assembleDofs x ret)
      ((x.shape = [V.nnode, V.ndim] ∨ x.shape = [V.nelem, V.nne, V.ndim]) ∧ ret.shape = [V.ndof]) (CompleteOf [V.ndof]) := by
    intro ret
    refine Checked.dispatch rfl rfl (by simp) (fun _ => Checked.of2 fun h1 h2 => ?_) (fun _ => Checked.of2 fun h1 h2 => ?_)
    · obtain ⟨f, hf⟩ := hx.blank.is2 h1
      obtain ⟨y, e, hy⟩ := assembleDofs_nodevec_spec hV (ret := Ten.empty [V.ndof]) rfl hf
      obtain ⟨z, e', hz⟩ := assembleDofs_nodevec_any (TenSim.blank x) (s0 := ret) (by rw [h2]; rfl) y e
      exact ⟨z, e', CompleteOf.of_sim hz hy.complete⟩
    · obtain ⟨f, hf⟩ := hx.blank.is3 h1
      obtain ⟨y, e, hy⟩ := assembleDofs_elemvec_spec hV (ret := Ten.empty [V.ndof]) rfl hf
      obtain ⟨z, e', hz⟩ := assembleDofs_elemvec_any (TenSim.blank x) (s0 := ret) (by rw [h2]; rfl) y e
      exact ⟨z, e', CompleteOf.of_sim hz hy.complete⟩
  exact ⟨key, (key (Ten.empty [V.ndof])).congr (and_iff_left rfl)⟩

/-- **C108** (`assembleNode`, `AssembleNode`): with the assertions of the functions that it calls. -/
theorem C108_assembleNode [Zero α] [Add α] (hV : V.Holds c d) (σ : Sched) {x : Ten α} (hx : Complete x) :
    (∀ ret : Ten α, Checked (V.assembleNode_checked σ x ret) (V.assembleNode σ x ret)
      (x.shape = [V.nelem, V.nne, V.ndim] ∧ ret.shape = [V.nnode, V.ndim]) (CompleteOf [V.nnode, V.ndim])) ∧
    Checked (V.AssembleNode_checked σ x) (V.AssembleNode σ x) (x.shape = [V.nelem, V.nne, V.ndim])
      (CompleteOf [V.nnode, V.ndim]) := by
  have key : ∀ ret : Ten α, Checked (V.assembleNode_checked σ x ret) (V.assembleNode σ x ret)
      (x.shape = [V.nelem, V.nne, V.ndim] ∧ ret.shape = [V.nnode, V.ndim]) (CompleteOf [V.nnode, V.ndim]) := by
    intro ret
    unfold assembleNode_checked assembleNode
    by_cases hr : x.rank = 3
    · rw [if_pos hr, if_pos hr, assembleNode_elemvec_checked, assembleNode_elemvec]
      simp only [gassert_bind]
      refine ⟨fun h => ?_, fun h => ?_⟩
      · obtain ⟨e1, y, e2, e3, e4⟩ := (C108_assembleDofs hV hx).2.1 (Or.inr h.1)
        obtain ⟨e5, z, e6, e7⟩ := ((C108_asNode hV σ e4).1 ret).1 ⟨Or.inl e3, h.2⟩
        refine ⟨by
          rw [if_pos (show x.shape = V.shape_elemvec from h.1), if_pos (show ret.shape = V.shape_nodevec from h.2), e1, e2]
          exact e5, z, by rw [e2]; exact e6, e7⟩
      · by_cases h1 : x.shape = [V.nelem, V.nne, V.ndim]
        · rw [if_pos (show x.shape = V.shape_elemvec from h1)]
          exact if_neg fun h2 => h ⟨h1, h2⟩
        · exact if_neg h1
    · rw [if_neg hr, if_neg hr]
      refine ⟨fun h => absurd ?_ hr, fun _ => rfl⟩
      rw [Ten.rank, h.1]; rfl
  exact ⟨key, (key (Ten.empty [V.nnode, V.ndim])).congr (and_iff_left rfl)⟩

/-- **C108** (`copy`). -/
theorem C108_copy (V : Vector) {x ret : Ten α} (hx : Complete x) : Checked (V.copy_checked x ret) (V.copy x ret)
    (x.shape = [V.nnode, V.ndim] ∧ ret.shape = [V.nnode, V.ndim]) (CompleteOf [V.nnode, V.ndim]) :=
  Checked.of2 fun h1 _ => ⟨x, rfl, h1, hx⟩

end Vector

namespace VectorPartitioned

/-! ### `VectorPartitioned` -/

/-- **C108** (constructor of `VectorPartitioned`): throws unless the arguments are valid for `Vector`, and the prescribed DOFs are
different and not larger than the largest DOF. -/
theorem C108_new {conn dofs : Ten Nat} {nelem nne nnode ndim : Nat} {c d : Nat → Nat → Nat} (hc : Is2 conn nelem nne c)
    (hd : Is2 dofs nnode ndim d) (iip : List Nat) :
    Checked (VectorPartitioned.new_checked conn dofs iip) (VectorPartitioned.new conn dofs iip)
      ((0 < nnode ∧ 0 < ndim ∧ (∀ e m, e < nelem → m < nne → c e m < nnode) ∧
        ∀ m i, m < nnode → i < ndim → d m i < nnode * ndim) ∧ iip.Nodup ∧
        ∀ k ∈ iip, ∃ m i, m < nnode ∧ i < ndim ∧ k ≤ d m i) fun P => ∃ q, P.Holds c d q ∧ Vector.new conn dofs = .ok P.V := by
  have h0 := Vector.C108_new hc hd
  unfold VectorPartitioned.new_checked
  by_cases h1 : 0 < nnode ∧ 0 < ndim ∧ (∀ e m, e < nelem → m < nne → c e m < nnode) ∧
        ∀ m i, m < nnode → i < ndim → d m i < nnode * ndim
  · obtain ⟨e1, V, e2, hV, v1, v2, v3, v4⟩ := h0.1 h1
    rw [e1, e2]
    simp only [Res.ok_bind, gassert_bind]
    by_cases h2 : iip.Nodup
    · obtain ⟨P, p1, p2, p3⟩ := VectorPartitioned.new_ok hc hd h1.2.2.1 h2
      rw [e2] at p2
      obtain rfl := Res.ok.inj p2
      rw [p1]
      simp only [Res.ok_bind, if_pos h2, gassert_bind]
      obtain ⟨V', q1, -, -, -, -, -, q2⟩ := Vector.new_spec hc hd h1.2.2.1
      obtain rfl := Res.ok.inj (e2.symm.trans q1)
      obtain ⟨m, i, hm, hi, hmi⟩ := q2 h1.1 h1.2.1
      have key : iip.foldl max 0 + 1 ≤ P.V.ndof ↔ ∀ k ∈ iip, ∃ m i, m < nnode ∧ i < ndim ∧ k ≤ d m i := by
        constructor
        · intro h k hk
          exact ⟨m, i, hm, hi, by have := (le_foldl_max iip 0).2 k hk; omega⟩
        · intro h
          rcases foldl_max_mem iip 0 with h' | h'
          · rw [h', hmi]; omega
          · obtain ⟨m', i', hm', hi', hle⟩ := h _ h'
            have := hV.dofs_lt m' i' (by rw [v3]; exact hm') (by rw [v4]; exact hi')
            omega
      refine ⟨fun h => ?_, fun h => ?_⟩
      · rw [if_pos (key.2 h.2.2)]
        obtain ⟨P', q', r1, r2, r3, -, -, -, -, r4⟩ := VectorPartitioned.new_spec hc hd h1.2.2.1 h2 h.2.2
        obtain rfl := Res.ok.inj (p1.symm.trans r1)
        exact ⟨rfl, P, rfl, q', r4, rfl⟩
      · rw [if_neg fun h' => h ⟨h1, h2, key.1 h'⟩]
    · rw [if_neg h2]
      exact ⟨fun h => absurd h.2.1 h2, fun _ => rfl⟩
  · rw [h0.2 h1]
    exact ⟨fun h => absurd h.1 h1, fun _ => rfl⟩

variable {P : VectorPartitioned} {c d q : Nat → Nat → Nat}

/-- **C108** (`copy_u`, `copy_p`). -/
theorem C108_copy [Zero α] (hP : P.Holds c d q) (σ : Sched) {x y : Ten α} (hx : Complete x) (hy : Complete y) :
    Checked (P.copy_u_checked σ x y) (P.copy_u σ x y)
      (x.shape = [P.V.nnode, P.V.ndim] ∧ y.shape = [P.V.nnode, P.V.ndim]) (CompleteOf [P.V.nnode, P.V.ndim]) ∧
    Checked (P.copy_p_checked σ x y) (P.copy_p σ x y)
      (x.shape = [P.V.nnode, P.V.ndim] ∧ y.shape = [P.V.nnode, P.V.ndim]) (CompleteOf [P.V.nnode, P.V.ndim]) := by
  refine ⟨Checked.of2 fun h1 h2 => ?_, Checked.of2 fun h1 h2 => ?_⟩
  all_goals
    obtain ⟨f, hf⟩ := hx.is2 h1
    obtain ⟨g, hg⟩ := hy.is2 h2
  · obtain ⟨z, e, hz⟩ := (C14_copy hP σ hf hg).1
    exact ⟨z, e, hz.complete⟩
  · obtain ⟨z, e, hz⟩ := (C14_copy hP σ hf hg).2
    exact ⟨z, e, hz.complete⟩

/-- **C108** (`DofsFromParitioned`, `NodeFromPartitioned`, `ElementFromPartitioned`). -/
theorem C108_fromPartitioned [Zero α] (hP : P.Holds c d q) (σ : Sched) {u p : Ten α} (hu : Complete u) (hp : Complete p) :
    Checked (P.DofsFromParitioned_checked σ u p) (P.DofsFromParitioned σ u p)
      (u.shape = [P.nnu] ∧ p.shape = [P.nnp]) (CompleteOf [P.V.ndof]) ∧
    Checked (P.NodeFromPartitioned_checked σ u p) (P.NodeFromPartitioned σ u p)
      (u.shape = [P.nnu] ∧ p.shape = [P.nnp]) (CompleteOf [P.V.nnode, P.V.ndim]) ∧
    Checked (P.ElementFromPartitioned_checked σ u p) (P.ElementFromPartitioned σ u p)
      (u.shape = [P.nnu] ∧ p.shape = [P.nnp]) (CompleteOf [P.V.nelem, P.V.nne, P.V.ndim]) := by
  refine ⟨Checked.of2 fun h1 h2 => ?_, Checked.of2 fun h1 h2 => ?_, Checked.of2 fun h1 h2 => ?_⟩
  all_goals
    obtain ⟨f, hf⟩ := hu.is1 h1
    obtain ⟨g, hg⟩ := hp.is1 h2
  · obtain ⟨z, f', e, hz, -⟩ := DofsFromParitioned_spec hP σ hf hg
    exact ⟨z, e, hz.complete⟩
  · obtain ⟨z, e, hz⟩ := NodeFromPartitioned_spec hP σ hf hg
    exact ⟨z, e, hz.complete⟩
  · obtain ⟨z, e, hz⟩ := ElementFromPartitioned_spec hP σ hf hg
    exact ⟨z, e, hz.complete⟩

/-- **C108** (`AsDofs_u`, `AsDofs_p`). -/
theorem C108_asDofs_up [Zero α] (hP : P.Holds c d q) (σ : Sched) {x : Ten α} (hx : Complete x) :
    (Checked (P.AsDofs_u_dofval_checked σ x) (P.AsDofs_u_dofval σ x) (x.shape = [P.V.ndof]) (CompleteOf [P.nnu]) ∧
    Checked (P.AsDofs_u_nodevec_checked σ x) (P.AsDofs_u_nodevec σ x) (x.shape = [P.V.nnode, P.V.ndim]) (CompleteOf [P.nnu]) ∧
    Checked (P.AsDofs_u_elemvec_checked σ x) (P.AsDofs_u_elemvec σ x) (x.shape = [P.V.nelem, P.V.nne, P.V.ndim])
      (CompleteOf [P.nnu])) ∧
    (Checked (P.AsDofs_p_dofval_checked σ x) (P.AsDofs_p_dofval σ x) (x.shape = [P.V.ndof]) (CompleteOf [P.nnp]) ∧
    Checked (P.AsDofs_p_nodevec_checked σ x) (P.AsDofs_p_nodevec σ x) (x.shape = [P.V.nnode, P.V.ndim]) (CompleteOf [P.nnp]) ∧
    Checked (P.AsDofs_p_elemvec_checked σ x) (P.AsDofs_p_elemvec σ x) (x.shape = [P.V.nelem, P.V.nne, P.V.ndim])
      (CompleteOf [P.nnp])) := by
  refine ⟨⟨Checked.of1 fun h1 => ?_, Checked.of1 fun h1 => ?_, Checked.of1 fun h1 => ?_⟩,
    Checked.of1 fun h1 => ?_, Checked.of1 fun h1 => ?_, Checked.of1 fun h1 => ?_⟩
  · obtain ⟨f, hf⟩ := hx.is1 h1
    obtain ⟨z, e, hz⟩ := AsDofs_u_dofval_spec hP σ hf
    exact ⟨z, e, hz.complete⟩
  · obtain ⟨f, hf⟩ := hx.is2 h1
    obtain ⟨z, g, e, hz, -⟩ := AsDofs_u_nodevec_spec hP σ hf
    exact ⟨z, e, hz.complete⟩
  · obtain ⟨f, hf⟩ := hx.is3 h1
    obtain ⟨z, g, e, hz, -⟩ := AsDofs_u_elemvec_spec hP σ hf
    exact ⟨z, e, hz.complete⟩
  · obtain ⟨f, hf⟩ := hx.is1 h1
    obtain ⟨z, e, hz⟩ := AsDofs_p_dofval_spec hP σ hf
    exact ⟨z, e, hz.complete⟩
  · obtain ⟨f, hf⟩ := hx.is2 h1
    obtain ⟨z, g, e, hz, -⟩ := AsDofs_p_nodevec_spec hP σ hf
    exact ⟨z, e, hz.complete⟩
  · obtain ⟨f, hf⟩ := hx.is3 h1
    obtain ⟨z, g, e, hz, -⟩ := AsDofs_p_elemvec_spec hP σ hf
    exact ⟨z, e, hz.complete⟩

end VectorPartitioned
end GF
