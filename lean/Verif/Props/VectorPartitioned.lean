import Verif.Lemmas.VectorPartitioned
import Verif.Props.Vector

/-! # Properties C12 - C14: `GooseFEM::VectorPartitioned` -/

namespace GF
variable {α : Type} {P : VectorPartitioned} {c d q : Nat → Nat → Nat}

/-- **C12** (constructor): for a valid connectivity and a duplicate-free list of prescribed DOFs not
beyond the largest DOF, the constructor succeeds and the object holds the partition described by
`VectorPartitioned.Holds`. -/
theorem C12_constructor {conn dofs : Ten Nat} {nelem nne nnode ndim : Nat}
    {iip : List Nat} (hc : Is2 conn nelem nne c) (hd : Is2 dofs nnode ndim d)
    (hlt : ∀ e m, e < nelem → m < nne → c e m < nnode) (hip : iip.Nodup)
    (hipd : ∀ k ∈ iip, ∃ m i, m < nnode ∧ i < ndim ∧ k ≤ d m i) :
    ∃ P q, VectorPartitioned.new conn dofs iip = .ok P ∧ P.iip = iip ∧
      Vector.new conn dofs = .ok P.V ∧ P.V.nelem = nelem ∧ P.V.nne = nne ∧ P.V.nnode = nnode ∧
      P.V.ndim = ndim ∧ P.Holds c d q :=
  VectorPartitioned.new_spec hc hd hlt hip hipd

/-- **C12** (partition): every DOF in use is in exactly one of `iiu()`, `iip()`; `iiu()` is strictly
ascending; and the partitioned number of a component is below `nnu()` exactly if its DOF is
unknown, in which case it is its index in `iiu()`; otherwise it is `nnu()` plus its index in
`iip()`. -/
theorem C12_partition (hP : P.Holds c d q) :
    P.iiu.Pairwise (· < ·) ∧ P.iiu.length = P.nnu ∧ P.iip.length = P.nnp ∧
    (∀ k, k ∈ P.iiu → k ∉ P.iip) ∧
    (∀ m i, m < P.V.nnode → i < P.V.ndim → (d m i ∈ P.iiu ∨ d m i ∈ P.iip)) ∧
    (∀ k ∈ P.iiu, ∃ m i, m < P.V.nnode ∧ i < P.V.ndim ∧ d m i = k) ∧
    (∀ m i, m < P.V.nnode → i < P.V.ndim →
      (d m i ∉ P.iip → P.iiu[q m i]? = some (d m i)) ∧
      (d m i ∈ P.iip → P.nnu ≤ q m i ∧ P.iip[q m i - P.nnu]? = some (d m i))) := by
  refine ⟨hP.sorted, hP.nnu.symm, hP.nnp.symm, fun k hk => ((hP.iiu_mem k).1 hk).2, ?_,
    fun k hk => ((hP.iiu_mem k).1 hk).1, fun m i hm hi => ⟨fun h => ?_, fun h => ?_⟩⟩
  · intro m i hm hi
    by_cases h : d m i ∈ P.iip
    · exact Or.inr h
    · exact Or.inl ((hP.iiu_mem _).2 ⟨⟨m, i, hm, hi, rfl⟩, h⟩)
  · exact hP.u_get hm hi ((hP.u_iff hm hi).2 h)
  · have hle : P.nnu ≤ q m i := by
      by_contra hlt
      exact (hP.u_iff hm hi).1 (by omega) h
    exact ⟨hle, hP.p_get hm hi hle⟩

/-- **C12** (bijection): two components have the same partitioned number iff they share their DOF;
when every DOF number is in use, the numbers `0 .. ndof-1` are all taken and
`nnu() + nnp() = ndof()`. -/
theorem C12_bijection (hP : P.Holds c d q) (hs : Surj P.V d) :
    (∀ m i n j, m < P.V.nnode → i < P.V.ndim → n < P.V.nnode → j < P.V.ndim →
      (q m i = q n j ↔ d m i = d n j)) ∧
    P.nnu + P.nnp = P.V.ndof ∧
    (∀ a, a < P.V.ndof → ∃ m i, m < P.V.nnode ∧ i < P.V.ndim ∧ q m i = a) := by
  have hperm : (P.iiu ++ P.iip).Perm (List.range P.V.ndof) := by
    rw [List.perm_ext_iff_of_nodup hP.nodup List.nodup_range]
    intro k
    simp only [List.mem_append, List.mem_range]
    constructor
    · rintro (h | h)
      · exact hP.iiu_lt h
      · exact hP.iip_lt k h
    · intro h
      obtain ⟨m, i, hm, hi, rfl⟩ := hs k h
      by_cases h' : d m i ∈ P.iip
      · exact Or.inr h'
      · exact Or.inl ((hP.iiu_mem _).2 ⟨⟨m, i, hm, hi, rfl⟩, h'⟩)
  have hlen : (P.iiu ++ P.iip).length = P.V.ndof := by rw [hperm.length_eq, List.length_range]
  refine ⟨fun m i n j hm hi hn hj => ⟨fun h => ?_, fun h => ?_⟩, ?_, fun a ha => ?_⟩
  · have h1 := hP.pos m i hm hi
    have h2 := hP.pos n j hn hj
    rw [h, h2] at h1
    exact (Option.some.inj h1).symm
  · exact VectorPartitioned.nodup_idx hP.nodup (hP.pos m i hm hi)
      (by rw [h]; exact hP.pos n j hn hj)
  · rw [hP.nnu, hP.nnp, ← hlen, List.length_append]
  · have ha' : a < (P.iiu ++ P.iip).length := by rw [hlen]; exact ha
    have hk : (P.iiu ++ P.iip)[a] < P.V.ndof :=
      List.mem_range.1 (hperm.mem_iff.1 (List.getElem_mem ha'))
    obtain ⟨m, i, hm, hi, hd⟩ := hs _ hk
    exact ⟨m, i, hm, hi, VectorPartitioned.nodup_idx hP.nodup (hP.pos m i hm hi)
      (by rw [hd]; simp)⟩

/-- a concrete partitioned object: the periodic 2 x 1 mesh with DOFs 5, 0 prescribed -/
theorem exVectorPartitioned : ∃ P c d q, VectorPartitioned.new exConn exDofs [5, 0] = .ok P ∧
    P.Holds c d q ∧ Surj P.V d ∧ P.nnu = 6 ∧ P.nnp = 2 := by
  obtain ⟨P, q, h1, h2, h3, h4, h5, h6, h7, h8⟩ := C12_constructor (conn := exConn) (dofs := exDofs)
    (iip := [5, 0]) (is2_of 2 4 _) (is2_of 6 2 _) (ball2 (by decide)) (by decide) (by
      intro k hk
      have : k ≤ 7 := by simp at hk; omega
      exact ⟨4, 1, by decide, by decide, this⟩)
  obtain ⟨V, c', d', a1, a2, a3, -⟩ := exVector
  rw [a1] at h3; cases h3
  refine ⟨P, _, _, q, h1, h8, ?_, ?_, ?_⟩
  · intro k hk
    obtain ⟨m, i, hm, hi, he⟩ := a3 k hk
    refine ⟨m, i, hm, hi, ?_⟩
    have e1 := a2.dofs.2 m i hm hi
    have e2 := h8.base.dofs.2 m i hm hi
    rw [e1, he] at e2
    exact (Option.some.inj e2).symm
  · have : ∃ P', VectorPartitioned.new exConn exDofs [5, 0] = .ok P' ∧ P'.nnu = 6 := ⟨_, rfl, rfl⟩
    obtain ⟨P', b1, b2⟩ := this
    rw [h1] at b1; cases b1; exact b2
  · have : ∃ P', VectorPartitioned.new exConn exDofs [5, 0] = .ok P' ∧ P'.nnp = 2 := ⟨_, rfl, rfl⟩
    obtain ⟨P', b1, b2⟩ := this
    rw [h1] at b1; cases b1; exact b2

/-! ### C13 -/

/-- **C13** (split, then recombine): the DOF vector is recovered, for all schedules of the loops. -/
theorem C13_split_recombine [Zero α] (hP : P.Holds c d q) (hs : Surj P.V d) (σ τ υ : Sched)
    {x : Ten α} {f : Nat → α} (hx : Is1 x P.V.ndof f) :
    ∃ u p y, P.AsDofs_u_dofval σ x = .ok u ∧ P.AsDofs_p_dofval τ x = .ok p ∧
      P.DofsFromParitioned υ u p = .ok y ∧ Is1 y P.V.ndof f := by
  obtain ⟨u, h1, h2⟩ := VectorPartitioned.AsDofs_u_dofval_spec hP σ hx
  obtain ⟨p, h3, h4⟩ := VectorPartitioned.AsDofs_p_dofval_spec hP τ hx
  obtain ⟨y, g, h5, h6, h7, h8, -⟩ := VectorPartitioned.DofsFromParitioned_spec hP υ h2 h4
  refine ⟨u, p, y, h1, h3, h5, h6.congr fun k hk => ?_⟩
  obtain ⟨m, i, hm, hi, rfl⟩ := hs k hk
  rcases (C12_partition hP).2.2.2.2.1 m i hm hi with h | h
  · obtain ⟨a, ha, e⟩ := List.getElem_of_mem h
    rw [h7 a (d m i) (by simp [ha, e])]
    simp [ha, e]
  · obtain ⟨a, ha, e⟩ := List.getElem_of_mem h
    rw [h8 a (d m i) (by simp [ha, e])]
    simp [ha, e]

/-- **C13** (recombine, then split): the parts are recovered. -/
theorem C13_recombine_split [Zero α] (hP : P.Holds c d q) (σ τ υ : Sched)
    {u p : Ten α} {fu fp : Nat → α} (hu : Is1 u P.nnu fu) (hp : Is1 p P.nnp fp) :
    ∃ x u' p', P.DofsFromParitioned σ u p = .ok x ∧ P.AsDofs_u_dofval τ x = .ok u' ∧
      P.AsDofs_p_dofval υ x = .ok p' ∧ Is1 u' P.nnu fu ∧ Is1 p' P.nnp fp := by
  obtain ⟨x, g, h5, h6, h7, h8, -⟩ := VectorPartitioned.DofsFromParitioned_spec hP σ hu hp
  obtain ⟨u', h1, h2⟩ := VectorPartitioned.AsDofs_u_dofval_spec hP τ h6
  obtain ⟨p', h3, h4⟩ := VectorPartitioned.AsDofs_p_dofval_spec hP υ h6
  refine ⟨x, u', p', h5, h1, h3, h2.congr fun a ha => ?_, h4.congr fun a ha => ?_⟩
  · rw [hP.nnu] at ha
    exact h7 a _ (by simp [ha])
  · rw [hP.nnp] at ha
    exact h8 a _ (by simp [ha])

/-- **C13** (node vectors): `NodeFromPartitioned` equals `AsNode` of the recombined DOF vector, and
splitting it again gives back the parts; a prescribed DOF that is not in the DOF table has no node
and gives zero. -/
theorem C13_node [Zero α] (hP : P.Holds c d q) (σ₁ σ₂ σ₃ σ₄ σ₅ : Sched)
    {u p : Ten α} {fu fp : Nat → α} (hu : Is1 u P.nnu fu) (hp : Is1 p P.nnp fp) :
    ∃ x n n' u' p' g fp', P.DofsFromParitioned σ₁ u p = .ok x ∧
      P.NodeFromPartitioned σ₂ u p = .ok n ∧ P.V.AsNode σ₃ x = .ok n' ∧
      Is2 n P.V.nnode P.V.ndim g ∧ Is2 n' P.V.nnode P.V.ndim g ∧
      P.AsDofs_u_nodevec σ₄ n = .ok u' ∧ Is1 u' P.nnu fu ∧
      P.AsDofs_p_nodevec σ₅ n = .ok p' ∧ Is1 p' P.nnp fp' ∧
      (∀ a k, P.iip[a]? = some k → (∃ m i, m < P.V.nnode ∧ i < P.V.ndim ∧ d m i = k) →
        fp' a = fp a) := by
  obtain ⟨x, f, h5, h6, h7, h8, -⟩ := VectorPartitioned.DofsFromParitioned_spec hP σ₁ hu hp
  obtain ⟨n, h1, h2⟩ := VectorPartitioned.NodeFromPartitioned_spec hP σ₂ hu hp
  obtain ⟨n', h3, h4⟩ := Vector.asNode_dofval_spec hP.base σ₃ (ret := Ten.empty P.V.shape_nodevec)
    rfl h6
  obtain ⟨u', fu', a1, a2, a3⟩ := VectorPartitioned.AsDofs_u_nodevec_spec hP σ₄ h2
  obtain ⟨p', fp', b1, b2, b3⟩ := VectorPartitioned.AsDofs_p_nodevec_spec hP σ₅ h2
  refine ⟨x, n, n', u', p', _, fp', h5, h1, ?_, h2, h4.congr fun m i hm hi => ?_, a1,
    a2.congr fun a ha => ?_, b1, b2, ?_⟩
  · simp [Vector.AsNode, Vector.asNode, Ten.rank, h6.1, h3]
  · split
    next h => exact h7 _ _ (hP.u_get hm hi h)
    next h => exact h8 _ _ (hP.p_get hm hi (by omega))
  · obtain ⟨m, i, hm, hi, hq, he⟩ := a3 a ha
    rw [he, hq, if_pos ha]
  · rintro a k hk ⟨m, i, hm, hi, rfl⟩
    have ha : a < P.nnp := by rw [hP.nnp]; exact (List.getElem?_eq_some_iff.1 hk).1
    have hmem : d m i ∈ P.iip := List.mem_of_getElem? hk
    obtain ⟨hle, hget⟩ := ((C12_partition hP).2.2.2.2.2.2 m i hm hi).2 hmem
    have haq : q m i - P.nnu = a := VectorPartitioned.nodup_idx hP.iip_nodup hget hk
    obtain ⟨m', i', hm', hi', hq', he⟩ := (b3 a ha).1 ⟨m, i, hm, hi, by omega⟩
    rw [he, hq', if_neg (by omega)]
    congr 1; omega

/-- **C13** (element vectors): `ElementFromPartitioned` equals `AsElement` of the recombined DOF
vector, and splitting it again gives back the parts at every DOF reached by an element. -/
theorem C13_element [Zero α] (hP : P.Holds c d q) (σ₁ σ₂ σ₃ σ₄ σ₅ : Sched)
    {u p : Ten α} {fu fp : Nat → α} (hu : Is1 u P.nnu fu) (hp : Is1 p P.nnp fp) :
    ∃ x n n' u' p' g fu' fp', P.DofsFromParitioned σ₁ u p = .ok x ∧
      P.ElementFromPartitioned σ₂ u p = .ok n ∧ P.V.AsElement σ₃ x = .ok n' ∧
      Is3 n P.V.nelem P.V.nne P.V.ndim g ∧ Is3 n' P.V.nelem P.V.nne P.V.ndim g ∧
      P.AsDofs_u_elemvec σ₄ n = .ok u' ∧ Is1 u' P.nnu fu' ∧
      P.AsDofs_p_elemvec σ₅ n = .ok p' ∧ Is1 p' P.nnp fp' ∧
      (∀ a k, P.iiu[a]? = some k → (∃ e m i, e < P.V.nelem ∧ m < P.V.nne ∧ i < P.V.ndim ∧
        d (c e m) i = k) → fu' a = fu a) ∧
      (∀ a k, P.iip[a]? = some k → (∃ e m i, e < P.V.nelem ∧ m < P.V.nne ∧ i < P.V.ndim ∧
        d (c e m) i = k) → fp' a = fp a) := by
  obtain ⟨x, f, h5, h6, h7, h8, -⟩ := VectorPartitioned.DofsFromParitioned_spec hP σ₁ hu hp
  obtain ⟨n, h1, h2⟩ := VectorPartitioned.ElementFromPartitioned_spec hP σ₂ hu hp
  obtain ⟨n', h3, h4⟩ := C03_element_of_dofs hP.base σ₃ h6
  obtain ⟨u', fu', a1, a2, a3⟩ := VectorPartitioned.AsDofs_u_elemvec_spec hP σ₄ h2
  obtain ⟨p', fp', b1, b2, b3⟩ := VectorPartitioned.AsDofs_p_elemvec_spec hP σ₅ h2
  refine ⟨x, n, n', u', p', _, fu', fp', h5, h1, h3, h2, h4.congr fun e m i he hm hi => ?_, a1,
    a2, b1, b2, ?_, ?_⟩
  · have hc := hP.base.conn_lt e m he hm
    split
    next h => exact h7 _ _ (hP.u_get hc hi h)
    next h => exact h8 _ _ (hP.p_get hc hi (by omega))
  · rintro a k hk ⟨e, m, i, he, hm, hi, rfl⟩
    have hc := hP.base.conn_lt e m he hm
    have ha : a < P.nnu := by rw [hP.nnu]; exact (List.getElem?_eq_some_iff.1 hk).1
    have hmem : d (c e m) i ∈ P.iiu := List.mem_of_getElem? hk
    have hget := ((C12_partition hP).2.2.2.2.2.2 _ i hc hi).1 (((hP.iiu_mem _).1 hmem).2)
    have haq : q (c e m) i = a := VectorPartitioned.nodup_idx hP.iiu_nodup hget hk
    obtain ⟨e', m', i', he', hm', hi', hq', hv⟩ := (a3 a ha).1 ⟨e, m, i, he, hm, hi, haq⟩
    rw [hv, hq', if_pos ha]
  · rintro a k hk ⟨e, m, i, he, hm, hi, rfl⟩
    have hc := hP.base.conn_lt e m he hm
    have ha : a < P.nnp := by rw [hP.nnp]; exact (List.getElem?_eq_some_iff.1 hk).1
    have hmem : d (c e m) i ∈ P.iip := List.mem_of_getElem? hk
    obtain ⟨hle, hget⟩ := ((C12_partition hP).2.2.2.2.2.2 _ i hc hi).2 hmem
    have haq : q (c e m) i - P.nnu = a := VectorPartitioned.nodup_idx hP.iip_nodup hget hk
    obtain ⟨e', m', i', he', hm', hi', hq', hv⟩ := (b3 a ha).1 ⟨e, m, i, he, hm, hi, by omega⟩
    rw [hv, hq', if_neg (by omega)]
    congr 1; omega

/-- **C13** (consistent node vectors): for a node vector with one value per DOF, `AsDofs_u(nodevec)`
is `AsDofs_u(AsDofs(nodevec))`, for all schedules. -/
theorem C13_node_via_dofs [Zero α] (hP : P.Holds c d q) (σ₁ σ₂ σ₃ : Sched)
    {x : Ten α} {g : Nat → Nat → α} (hx : Is2 x P.V.nnode P.V.ndim g) (hg : Consistent P.V d g) :
    ∃ y u u' f, P.V.AsDofs σ₁ x = .ok y ∧ P.AsDofs_u_dofval σ₂ y = .ok u ∧
      P.AsDofs_u_nodevec σ₃ x = .ok u' ∧ Is1 u P.nnu f ∧ Is1 u' P.nnu f := by
  obtain ⟨y, f, h1, h2, h3⟩ := C02_some_owner hP.base σ₁ hx
  obtain ⟨u, h4, h5⟩ := VectorPartitioned.AsDofs_u_dofval_spec hP σ₂ h2
  obtain ⟨u', f', h6, h7, h8⟩ := VectorPartitioned.AsDofs_u_nodevec_spec hP σ₃ hx
  refine ⟨y, u, u', _, h1, h4, h6, h5, h7.congr fun a ha => ?_⟩
  obtain ⟨m, i, hm, hi, hq, he⟩ := h8 a ha
  have hget := hP.u_get hm hi (by omega)
  rw [hq] at hget
  obtain ⟨m', i', hm', hi', hd', he'⟩ := (h3 _ (hP.base.dofs_lt m i hm hi)).1 ⟨m, i, hm, hi, rfl⟩
  simp only [List.getD, hget, Option.getD_some]
  rw [he, he']
  exact hg _ _ _ _ hm hi hm' hi' hd'.symm

/-! ### C14 -/

/-- **C14**: `Copy_u` changes exactly the components with an unknown DOF, `Copy_p` exactly those with
a prescribed DOF. -/
theorem C14_copy (hP : P.Holds c d q) (σ : Sched) {src dest : Ten α} {g h : Nat → Nat → α}
    (hsrc : Is2 src P.V.nnode P.V.ndim g) (hdest : Is2 dest P.V.nnode P.V.ndim h) :
    (∃ y, P.copy_u σ src dest = .ok y ∧ Is2 y P.V.nnode P.V.ndim (fun m i =>
      if d m i ∈ P.iip then h m i else g m i)) ∧
    (∃ y, P.copy_p σ src dest = .ok y ∧ Is2 y P.V.nnode P.V.ndim (fun m i =>
      if d m i ∈ P.iip then g m i else h m i)) := by
  constructor
  · obtain ⟨y, h1, h2⟩ := VectorPartitioned.masked_spec σ P.V.nnode P.V.ndim
      (fun m i => decide (q m i < P.nnu)) (fun ret mi => do
        let k ← P.part.get [mi.1, mi.2]
        if k < P.nnu then
          let a ← src.get [mi.1, mi.2]
          ret.set [mi.1, mi.2] a
        else .ok ret) (g := g) hdest (by
        intro a b ha hb s
        simp [hP.part.get ha hb, hsrc.get ha hb])
    refine ⟨y, h1, h2.congr fun m i hm hi => ?_⟩
    have := hP.u_iff hm hi
    by_cases hh : d m i ∈ P.iip <;> simp_all
  · obtain ⟨y, h1, h2⟩ := VectorPartitioned.masked_spec σ P.V.nnode P.V.ndim
      (fun m i => decide (P.nnu ≤ q m i)) (fun ret mi => do
        let k ← P.part.get [mi.1, mi.2]
        if P.nnu ≤ k then
          let a ← src.get [mi.1, mi.2]
          ret.set [mi.1, mi.2] a
        else .ok ret) (g := g) hdest (by
        intro a b ha hb s
        simp [hP.part.get ha hb, hsrc.get ha hb])
    refine ⟨y, h1, h2.congr fun m i hm hi => ?_⟩
    have := hP.u_iff hm hi
    rw [← not_le] at this
    by_cases hh : d m i ∈ P.iip <;> simp_all

/-- **C14** (complement): first `Copy_u` and then `Copy_p` copies everything. -/
theorem C14_copy_both (hP : P.Holds c d q) (σ τ : Sched) {src dest : Ten α} {g h : Nat → Nat → α}
    (hsrc : Is2 src P.V.nnode P.V.ndim g) (hdest : Is2 dest P.V.nnode P.V.ndim h) :
    ∃ y z, P.copy_u σ src dest = .ok y ∧ P.copy_p τ src y = .ok z ∧
      Is2 z P.V.nnode P.V.ndim g := by
  obtain ⟨y, h1, h2⟩ := (C14_copy hP σ hsrc hdest).1
  obtain ⟨z, h3, h4⟩ := (C14_copy hP τ hsrc h2).2
  refine ⟨y, z, h1, h3, h4.congr fun m i _ _ => ?_⟩
  by_cases hh : d m i ∈ P.iip <;> simp [hh]

/-- **C14** (masks): `dofs_is_p` marks exactly the components with a prescribed DOF, `dofs_is_u` is
its complement. -/
theorem C14_masks (hP : P.Holds c d q) (σ τ : Sched) :
    ∃ u p, P.dofs_is_u σ = .ok u ∧ P.dofs_is_p τ = .ok p ∧
      Is2 p P.V.nnode P.V.ndim (fun m i => decide (d m i ∈ P.iip)) ∧
      Is2 u P.V.nnode P.V.ndim (fun m i => !decide (d m i ∈ P.iip)) := by
  obtain ⟨u, h1, h2⟩ := VectorPartitioned.masked_spec σ P.V.nnode P.V.ndim
    (fun m i => decide (q m i < P.nnu)) (fun ret mi => do
      let k ← P.part.get [mi.1, mi.2]
      if k < P.nnu then ret.set [mi.1, mi.2] true else .ok ret) (g := fun _ _ => true)
    (h := fun _ _ => false) (dest := Ten.full P.V.shape_nodevec false) ⟨rfl, fun _ _ _ _ => rfl⟩ (by
      intro a b ha hb s
      simp [hP.part.get ha hb])
  obtain ⟨p, h3, h4⟩ := VectorPartitioned.masked_spec τ P.V.nnode P.V.ndim
    (fun m i => decide (P.nnu ≤ q m i)) (fun ret mi => do
      let k ← P.part.get [mi.1, mi.2]
      if P.nnu ≤ k then ret.set [mi.1, mi.2] true else .ok ret) (g := fun _ _ => true)
    (h := fun _ _ => false) (dest := Ten.full P.V.shape_nodevec false) ⟨rfl, fun _ _ _ _ => rfl⟩ (by
      intro a b ha hb s
      simp [hP.part.get ha hb])
  refine ⟨u, p, h1, h3, h4.congr fun m i hm hi => ?_, h2.congr fun m i hm hi => ?_⟩
  · have := hP.u_iff hm hi
    rw [← not_le] at this
    by_cases hh : d m i ∈ P.iip <;> simp_all
  · have := hP.u_iff hm hi
    by_cases hh : d m i ∈ P.iip <;> simp_all

example : ∃ P c d q, VectorPartitioned.new exConn exDofs [5, 0] = .ok P ∧
    P.Holds c d q ∧ Is2 (Ten.of [P.V.nnode, P.V.ndim] fun ix => (ix.getD 0 0 : Int)) P.V.nnode
      P.V.ndim (fun m _ => (m : Int)) := by
  obtain ⟨P, c, d, q, h1, h2, -⟩ := exVectorPartitioned
  exact ⟨P, c, d, q, h1, h2, is2_of _ _ _⟩

end GF
