import Verif.Spec.VectorPartitioned
import Verif.Lemmas.Vector
import Verif.Lemmas.Renumber

namespace GF

theorem forEach_filter {σ ι : Type} (l : List ι) (cond : ι → Bool) (f g : σ → ι → Res σ) (s : σ)
    (h : ∀ i ∈ l, ∀ s, f s i = if cond i then g s i else .ok s) :
    forEach l f s = forEach (l.filter cond) g s := by
  induction l generalizing s with
  | nil => rfl
  | cons i l ih =>
    simp only [forEach_cons, List.filter_cons]
    rw [h i (by simp) s]
    have ih' := fun s => ih s (fun j hj => h j (by simp [hj]))
    split
    · rw [forEach_cons]
      cases g s i <;> simp [ih']
    · simp [ih']

/-- gather into a 1-d array -/
theorem gather1 {α : Type} (l : List Nat) (body : Ten α → Nat → Res (Ten α)) (n : Nat)
    (ret : Ten α) (hret : ret.shape = [n]) (val : Nat → α) (hl : ∀ p, p ∈ l ↔ p < n)
    (hbody : ∀ a, a < n → ∀ s : Ten α, body s a = s.set [a] (val a)) :
    ∃ t', forEach l body ret = .ok t' ∧ Is1 t' n val := by
  obtain ⟨t', h1, h2, h3, -⟩ := forEach_set l body (fun i => [i]) val
    ret (fun i hi => by simp [hret, (hl i).1 hi]) (fun i hi s _ => hbody i ((hl i).1 hi) s)
  refine ⟨t', h1, by rw [h2, hret], fun a ha => ?_⟩
  obtain ⟨i, _, h5, h6⟩ := h3 [a] ⟨a, (hl _).2 ha, rfl⟩
  simp only [List.cons.injEq, and_true] at h5
  rw [h6, h5]

namespace VectorPartitioned
variable {α : Type} {P : VectorPartitioned} {c d q : Nat → Nat → Nat}

theorem new_spec {conn dofs : Ten Nat} {nelem nne nnode ndim : Nat} {c d : Nat → Nat → Nat}
    {iip : List Nat} (hc : Is2 conn nelem nne c) (hd : Is2 dofs nnode ndim d)
    (hlt : ∀ e m, e < nelem → m < nne → c e m < nnode) (hip : iip.Nodup)
    (hipd : ∀ k ∈ iip, ∃ m i, m < nnode ∧ i < ndim ∧ k ≤ d m i) :
    ∃ P q, VectorPartitioned.new conn dofs iip = .ok P ∧ P.iip = iip ∧
      Vector.new conn dofs = .ok P.V ∧ P.V.nelem = nelem ∧ P.V.nne = nne ∧ P.V.nnode = nnode ∧
      P.V.ndim = ndim ∧ P.Holds c d q := by
  obtain ⟨V, h1, h2, h3, h4, h5, h6, -⟩ := Vector.new_spec hc hd hlt
  have hfull := hd.flat_spec
  set F : List Nat → Nat := fun ix => d (ix.getD 0 0) (ix.getD 1 0) with hF
  have hmem : ∀ k, k ∈ (indices dofs.shape).map F ↔ ∃ m i, m < nnode ∧ i < ndim ∧ d m i = k := by
    intro k
    simp only [List.mem_map, mem_indices, hd.1]
    constructor
    · rintro ⟨ix, hix, rfl⟩
      obtain ⟨i, j, rfl, hi, hj⟩ := inb2.1 hix
      exact ⟨i, j, hi, hj, rfl⟩
    · rintro ⟨m, i, hm, hi, rfl⟩
      exact ⟨[m, i], by simp [hm, hi], rfl⟩
  set iiu := setdiff1d ((indices dofs.shape).map F) iip with hiiu
  have hiiumem : ∀ k, k ∈ iiu ↔ (∃ m i, m < nnode ∧ i < ndim ∧ d m i = k) ∧ k ∉ iip := by
    intro k; rw [hiiu, mem_setdiff1d, hmem]
  have hnd : ([iiu, iip] : List (List Nat)).flatten.Nodup := by
    simp only [List.flatten_cons, List.flatten_nil, List.append_nil]
    refine List.nodup_append.2 ⟨setdiff1d_nodup _ _, hip, ?_⟩
    intro a ha b hb hab
    subst hab
    exact ((hiiumem a).1 ha).2 hb
  obtain ⟨idx, n, i1, i2, i3, -⟩ := Reorder.index_spec hnd
  have hallmem : ∀ m i, m < nnode → i < ndim → d m i ∈ ([iiu, iip] : List (List Nat)).flatten := by
    intro m i hm hi
    simp only [List.flatten_cons, List.flatten_nil, List.append_nil, List.mem_append]
    by_cases h : d m i ∈ iip
    · exact Or.inr h
    · exact Or.inl ((hiiumem _).2 ⟨⟨m, i, hm, hi, rfl⟩, h⟩)
  obtain ⟨part, p1, p2, p3⟩ := renum_spec (arg := dofs) (mapping := idx)
    (g := ([iiu, iip] : List (List Nat)).flatten.idxOf) hfull
    (fun ix hix => by
      rw [hd.1] at hix
      obtain ⟨i, j, rfl, hi, hj⟩ := inb2.1 hix
      obtain ⟨h7, h8⟩ := i3 _ (hallmem i j hi hj)
      show idx.get [d i j] = .ok (([iiu, iip] : List (List Nat)).flatten.idxOf (d i j))
      simp [Ten.get, i2, h7, h8])
  have hVm : V.nnode = nnode := h4
  refine ⟨⟨V, iiu, iip, iiu.length, iip.length, part⟩,
    fun m i => ([iiu, iip] : List (List Nat)).flatten.idxOf (d m i), ?_, rfl, h1, h2, h3, h4, h5,
    ⟨h6, rfl, rfl, setdiff1d_sorted _ _, by simpa using hnd, ?_, ?_, ?_, ?_⟩⟩
  · rw [VectorPartitioned.new, h1]
    simp only [Res.ok_bind]
    rw [flat_ok hfull]
    simp only [Res.ok_bind]
    rw [← hiiu, Reorder.apply, i1]
    simp only [Res.ok_bind]
    rw [p1]
    rfl
  · simpa [h4, h5] using hiiumem
  · intro k hk
    obtain ⟨m, i, hm, hi, hle⟩ := hipd k hk
    exact lt_of_le_of_lt hle (h6.dofs_lt m i (by rw [h4]; exact hm) (by rw [h5]; exact hi))
  · refine ⟨by rw [p2, hd.1]; simp [h4, h5], fun m i hm hi => ?_⟩
    simp only [h4, h5] at hm hi
    exact p3 [m, i] (by simp [hd.1, hm, hi])
  · intro m i hm hi
    simp only [h4, h5] at hm hi
    have := hallmem m i hm hi
    simp only [List.flatten_cons, List.flatten_nil, List.append_nil] at this ⊢
    rw [List.getElem?_eq_getElem (List.idxOf_lt_length_of_mem this)]
    simp [List.getElem_idxOf]

/-- unknown component: position in `iiu` -/
theorem Holds.u_iff (hP : P.Holds c d q) {m i : Nat} (hm : m < P.V.nnode) (hi : i < P.V.ndim) :
    q m i < P.nnu ↔ d m i ∉ P.iip := by
  have h := hP.pos m i hm hi
  rw [hP.nnu]
  constructor
  · intro hlt
    rw [List.getElem?_append_left hlt] at h
    exact ((hP.iiu_mem _).1 (List.mem_of_getElem? h)).2
  · intro hn
    by_contra hge
    rw [List.getElem?_append_right (by omega)] at h
    exact hn (List.mem_of_getElem? h)

theorem Holds.u_get (hP : P.Holds c d q) {m i : Nat} (hm : m < P.V.nnode) (hi : i < P.V.ndim)
    (h : q m i < P.nnu) : P.iiu[q m i]? = some (d m i) := by
  have h' := hP.pos m i hm hi
  rw [hP.nnu] at h
  rwa [List.getElem?_append_left h] at h'

theorem Holds.p_get (hP : P.Holds c d q) {m i : Nat} (hm : m < P.V.nnode) (hi : i < P.V.ndim)
    (h : P.nnu ≤ q m i) : P.iip[q m i - P.nnu]? = some (d m i) := by
  have h' := hP.pos m i hm hi
  rw [hP.nnu] at h ⊢
  rwa [List.getElem?_append_right h] at h'

theorem Holds.p_lt (hP : P.Holds c d q) {m i : Nat} (hm : m < P.V.nnode) (hi : i < P.V.ndim)
    (h : P.nnu ≤ q m i) : q m i - P.nnu < P.nnp := by
  have := hP.p_get hm hi h
  rw [hP.nnp]
  exact (List.getElem?_eq_some_iff.1 this).1

theorem Holds.iiu_lt (hP : P.Holds c d q) {k : Nat} (hk : k ∈ P.iiu) : k < P.V.ndof := by
  obtain ⟨⟨m, i, hm, hi, rfl⟩, -⟩ := (hP.iiu_mem k).1 hk
  exact hP.base.dofs_lt m i hm hi

theorem Holds.lget_u (hP : P.Holds c d q) {a : Nat} (ha : a < P.nnu) :
    ∃ k, lget P.iiu a = .ok k ∧ P.iiu[a]? = some k ∧ k < P.V.ndof := by
  rw [hP.nnu] at ha
  exact ⟨P.iiu[a], lget_ok ha, by simp [ha], hP.iiu_lt (List.getElem_mem ha)⟩

theorem Holds.lget_p (hP : P.Holds c d q) {a : Nat} (ha : a < P.nnp) :
    ∃ k, lget P.iip a = .ok k ∧ P.iip[a]? = some k ∧ k < P.V.ndof := by
  rw [hP.nnp] at ha
  exact ⟨P.iip[a], lget_ok ha, by simp [ha], hP.iip_lt _ (List.getElem_mem ha)⟩

theorem nodup_idx {l : List Nat} (h : l.Nodup) {a b k : Nat} (ha : l[a]? = some k)
    (hb : l[b]? = some k) : a = b := by
  obtain ⟨h1, e1⟩ := List.getElem?_eq_some_iff.1 ha
  obtain ⟨h2, e2⟩ := List.getElem?_eq_some_iff.1 hb
  exact (h.getElem_inj_iff).1 (e1.trans e2.symm)

theorem Holds.iiu_nodup (hP : P.Holds c d q) : P.iiu.Nodup := (List.nodup_append.1 hP.nodup).1
theorem Holds.iip_nodup (hP : P.Holds c d q) : P.iip.Nodup := (List.nodup_append.1 hP.nodup).2.1

/-- Both loops of `DofsFromParitioned`: DOF `iiu[a]` gets `u[a]`, DOF `iip[a]` gets `p[a]`,
all others zero. -/
theorem DofsFromParitioned_spec [Zero α] (hP : P.Holds c d q) (σ : Sched) {u p : Ten α}
    {fu fp : Nat → α} (hu : Is1 u P.nnu fu) (hp : Is1 p P.nnp fp) :
    ∃ x f, P.DofsFromParitioned σ u p = .ok x ∧ Is1 x P.V.ndof f ∧
      (∀ a k, P.iiu[a]? = some k → f k = fu a) ∧ (∀ a k, P.iip[a]? = some k → f k = fp a) ∧
      (∀ k, k < P.V.ndof → k ∉ P.iiu → k ∉ P.iip → f k = 0) := by
  obtain ⟨r, h1, g, h2, h3⟩ := Vector.scatter1 (σ.run (it1 P.nnu)) (fun (ret : Ten α) d => do
    let k ← lget P.iiu d
    let a ← u.get [d]
    ret.set [k] a) P.V.ndof (fun a => P.iiu.getD a 0) fu
    (by
      intro a ha
      simp only [mem_sched, mem_it1] at ha
      obtain ⟨k, -, hk, hlt⟩ := hP.lget_u ha
      simpa [List.getD, hk] using hlt)
    (by
      intro a ha s
      simp only [mem_sched, mem_it1] at ha
      obtain ⟨k, hk', hk, hlt⟩ := hP.lget_u ha
      simp [hk', hk, hu.get ha])
  obtain ⟨x, h4, h5, h6, h7⟩ := forEach_set (σ.run (it1 P.nnp)) (fun (ret : Ten α) d => do
    let k ← lget P.iip d
    let a ← p.get [d]
    ret.set [k] a) (fun a => [P.iip.getD a 0]) fp r
    (by
      intro a ha
      simp only [mem_sched, mem_it1] at ha
      obtain ⟨k, -, hk, hlt⟩ := hP.lget_p ha
      simpa [List.getD, hk, h2.1] using hlt)
    (by
      intro a ha s _
      simp only [mem_sched, mem_it1] at ha
      obtain ⟨k, hk', hk, hlt⟩ := hP.lget_p ha
      simp [hk', hk, hp.get ha])
  have hpcell : ∀ a k, P.iip[a]? = some k → x.v [k] = some (fp a) := by
    intro a k hk
    have hlt : a < P.nnp := by rw [hP.nnp]; exact (List.getElem?_eq_some_iff.1 hk).1
    obtain ⟨b, hb, h8, h9⟩ := h6 [k] ⟨a, by simp [hlt], by simp [hk]⟩
    simp only [mem_sched, mem_it1] at hb
    obtain ⟨k', -, hk', -⟩ := hP.lget_p hb
    simp [hk'] at h8
    subst h8
    rw [h9, nodup_idx hP.iip_nodup hk hk']
  have hncell : ∀ k, k ∉ P.iip → x.v [k] = r.v [k] := by
    intro k hk
    apply h7
    intro a ha
    simp only [mem_sched, mem_it1] at ha
    obtain ⟨k', -, hk', -⟩ := hP.lget_p ha
    simp only [List.getD, hk', Option.getD_some, ne_eq, List.cons.injEq, and_true]
    rintro rfl
    exact hk (List.mem_of_getElem? hk')
  have hcell : ∀ k, ∃ y, k < P.V.ndof → x.v [k] = some y := by
    intro k
    by_cases hk : k ∈ P.iip
    · obtain ⟨a, ha, rfl⟩ := List.getElem_of_mem hk
      exact ⟨_, fun _ => hpcell a _ (by simp [ha])⟩
    · exact ⟨g k, fun hlt => by rw [hncell k hk, h2.2 k hlt]⟩
  choose f hf using hcell
  refine ⟨x, f, ?_, ⟨by rw [h5, h2.1], hf⟩, ?_, ?_, ?_⟩
  · simp only [DofsFromParitioned, h1, Res.ok_bind, h4]
  · intro a k hk
    have hlt : a < P.nnu := by rw [hP.nnu]; exact (List.getElem?_eq_some_iff.1 hk).1
    have hkm : k ∈ P.iiu := List.mem_of_getElem? hk
    have hkn : k ∉ P.iip := ((hP.iiu_mem k).1 hkm).2
    have hkl := hP.iiu_lt hkm
    have e1 := hf k hkl
    rw [hncell k hkn, h2.2 k hkl] at e1
    obtain ⟨b, hb, h8, h9⟩ := (h3 k hkl).1 ⟨a, by simp [hlt], by simp [hk]⟩
    simp only [mem_sched, mem_it1] at hb
    obtain ⟨k', -, hk', -⟩ := hP.lget_u hb
    simp [hk'] at h8
    subst h8
    rw [← Option.some.inj e1, h9, nodup_idx hP.iiu_nodup hk hk']
  · intro a k hk
    have := hf k (hP.iip_lt k (List.mem_of_getElem? hk))
    rw [hpcell a k hk] at this
    exact (Option.some.inj this).symm
  · intro k hkl hku hkp
    have e1 := hf k hkl
    rw [hncell k hkp, h2.2 k hkl] at e1
    rw [← Option.some.inj e1]
    apply (h3 k hkl).2
    intro b hb h8
    simp only [mem_sched, mem_it1] at hb
    obtain ⟨k', -, hk', -⟩ := hP.lget_u hb
    simp [hk'] at h8
    subst h8
    exact hku (List.mem_of_getElem? hk')

theorem AsDofs_u_dofval_spec (hP : P.Holds c d q) (σ : Sched) {x : Ten α} {f : Nat → α}
    (hx : Is1 x P.V.ndof f) :
    ∃ y, P.AsDofs_u_dofval σ x = .ok y ∧ Is1 y P.nnu (fun a => f (P.iiu.getD a 0)) := by
  apply gather1 _ _ _ _ rfl _ (by simp)
  intro a ha s
  obtain ⟨k, hk', hk, hlt⟩ := hP.lget_u ha
  simp [hk', hk, hx.get hlt]

theorem AsDofs_p_dofval_spec (hP : P.Holds c d q) (σ : Sched) {x : Ten α} {f : Nat → α}
    (hx : Is1 x P.V.ndof f) :
    ∃ y, P.AsDofs_p_dofval σ x = .ok y ∧ Is1 y P.nnp (fun a => f (P.iip.getD a 0)) := by
  apply gather1 _ _ _ _ rfl _ (by simp)
  intro a ha s
  obtain ⟨k, hk', hk, hlt⟩ := hP.lget_p ha
  simp [hk', hk, hx.get hlt]

theorem NodeFromPartitioned_spec (hP : P.Holds c d q) (σ : Sched) {u p : Ten α}
    {fu fp : Nat → α} (hu : Is1 u P.nnu fu) (hp : Is1 p P.nnp fp) :
    ∃ y, P.NodeFromPartitioned σ u p = .ok y ∧ Is2 y P.V.nnode P.V.ndim (fun m i =>
      if q m i < P.nnu then fu (q m i) else fp (q m i - P.nnu)) := by
  apply Vector.gather2 _ _ _ _ _ rfl _ (by simp)
  intro m i hm hi s
  simp only [hP.part.get hm hi, Res.ok_bind]
  split
  next h => simp [hu.get h]
  next h => simp [hp.get (hP.p_lt hm hi (by omega))]

theorem ElementFromPartitioned_spec (hP : P.Holds c d q) (σ : Sched) {u p : Ten α}
    {fu fp : Nat → α} (hu : Is1 u P.nnu fu) (hp : Is1 p P.nnp fp) :
    ∃ y, P.ElementFromPartitioned σ u p = .ok y ∧ Is3 y P.V.nelem P.V.nne P.V.ndim (fun e m i =>
      if q (c e m) i < P.nnu then fu (q (c e m) i) else fp (q (c e m) i - P.nnu)) := by
  apply Vector.gather3 _ _ _ _ _ _ rfl _ (by simp)
  intro e m i he hm hi s
  have hc := hP.base.conn_lt e m he hm
  simp only [hP.base.conn.get he hm, hP.part.get hc hi, Res.ok_bind]
  split
  next h => simp [hu.get h]
  next h => simp [hp.get (hP.p_lt hc hi (by omega))]

theorem AsDofs_u_nodevec_spec [Zero α] (hP : P.Holds c d q) (σ : Sched) {x : Ten α}
    {g : Nat → Nat → α} (hx : Is2 x P.V.nnode P.V.ndim g) :
    ∃ y f, P.AsDofs_u_nodevec σ x = .ok y ∧ Is1 y P.nnu f ∧ ∀ a, a < P.nnu →
      ∃ m i, m < P.V.nnode ∧ i < P.V.ndim ∧ q m i = a ∧ f a = g m i := by
  obtain ⟨y, h1, f, h2, h3⟩ := Vector.scatter1
    ((σ.run (it2 P.V.nnode P.V.ndim)).filter fun mi => decide (q mi.1 mi.2 < P.nnu))
    (fun (ret : Ten α) mi => ret.set [q mi.1 mi.2] (g mi.1 mi.2)) P.nnu (fun mi => q mi.1 mi.2)
    (fun mi => g mi.1 mi.2)
    (by
      intro a ha
      simp only [List.mem_filter, decide_eq_true_eq] at ha
      exact ha.2)
    (fun _ _ _ => rfl)
  refine ⟨y, f, ?_, h2, fun a ha => ?_⟩
  · rw [← h1]
    apply forEach_filter
    rintro ⟨m, i⟩ hmi s
    simp only [mem_sched, mem_it2] at hmi
    simp [hP.part.get hmi.1 hmi.2, hx.get hmi.1 hmi.2]
  · have ha' := ha
    rw [hP.nnu] at ha'
    obtain ⟨⟨m, i, hm, hi, hd⟩, hn⟩ := (hP.iiu_mem P.iiu[a]).1 (List.getElem_mem ha')
    have hq : q m i < P.nnu := (hP.u_iff hm hi).2 (by rw [hd]; exact hn)
    have hqa : q m i = a := nodup_idx hP.iiu_nodup (hP.u_get hm hi hq) (by simp [ha', hd])
    obtain ⟨⟨m', i'⟩, h4, h5, h6⟩ := (h3 a ha).1 ⟨(m, i), by simp [hm, hi, hq], hqa⟩
    simp only [List.mem_filter, mem_sched, mem_it2] at h4
    exact ⟨m', i', h4.1.1, h4.1.2, h5, h6⟩

theorem AsDofs_p_nodevec_spec [Zero α] (hP : P.Holds c d q) (σ : Sched) {x : Ten α}
    {g : Nat → Nat → α} (hx : Is2 x P.V.nnode P.V.ndim g) :
    ∃ y f, P.AsDofs_p_nodevec σ x = .ok y ∧ Is1 y P.nnp f ∧ ∀ a, a < P.nnp →
      ((∃ m i, m < P.V.nnode ∧ i < P.V.ndim ∧ q m i = P.nnu + a) →
      ∃ m i, m < P.V.nnode ∧ i < P.V.ndim ∧ q m i = P.nnu + a ∧ f a = g m i) ∧
      ((∀ m i, m < P.V.nnode → i < P.V.ndim → q m i ≠ P.nnu + a) → f a = 0) := by
  obtain ⟨y, h1, f, h2, h3⟩ := Vector.scatter1
    ((σ.run (it2 P.V.nnode P.V.ndim)).filter fun mi => decide (P.nnu ≤ q mi.1 mi.2))
    (fun (ret : Ten α) mi => ret.set [q mi.1 mi.2 - P.nnu] (g mi.1 mi.2)) P.nnp
    (fun mi => q mi.1 mi.2 - P.nnu) (fun mi => g mi.1 mi.2)
    (by
      intro a ha
      simp only [List.mem_filter, decide_eq_true_eq, mem_sched, mem_it2] at ha
      exact hP.p_lt ha.1.1 ha.1.2 ha.2)
    (fun _ _ _ => rfl)
  refine ⟨y, f, ?_, h2, fun a ha => ⟨?_, ?_⟩⟩
  · rw [← h1]
    apply forEach_filter
    rintro ⟨m, i⟩ hmi s
    simp only [mem_sched, mem_it2] at hmi
    simp [hP.part.get hmi.1 hmi.2, hx.get hmi.1 hmi.2]
  · rintro ⟨m, i, hm, hi, hq⟩
    obtain ⟨⟨m', i'⟩, h4, h5, h6⟩ := (h3 a ha).1 ⟨(m, i), by simp [hm, hi, hq], by simp [hq]⟩
    simp only [List.mem_filter, mem_sched, mem_it2, decide_eq_true_eq] at h4 h5
    exact ⟨m', i', h4.1.1, h4.1.2, by omega, h6⟩
  · intro h
    apply (h3 a ha).2
    rintro ⟨m', i'⟩ h4 h5
    simp only [List.mem_filter, mem_sched, mem_it2, decide_eq_true_eq] at h4 h5
    exact h m' i' h4.1.1 h4.1.2 (by omega)

theorem AsDofs_u_elemvec_spec [Zero α] (hP : P.Holds c d q) (σ : Sched) {x : Ten α}
    {g : Nat → Nat → Nat → α} (hx : Is3 x P.V.nelem P.V.nne P.V.ndim g) :
    ∃ y f, P.AsDofs_u_elemvec σ x = .ok y ∧ Is1 y P.nnu f ∧ ∀ a, a < P.nnu →
      ((∃ e m i, e < P.V.nelem ∧ m < P.V.nne ∧ i < P.V.ndim ∧ q (c e m) i = a) →
      ∃ e m i, e < P.V.nelem ∧ m < P.V.nne ∧ i < P.V.ndim ∧ q (c e m) i = a ∧ f a = g e m i) ∧
      ((∀ e m i, e < P.V.nelem → m < P.V.nne → i < P.V.ndim → q (c e m) i ≠ a) → f a = 0) := by
  obtain ⟨y, h1, f, h2, h3⟩ := Vector.scatter1
    ((σ.run (it3 P.V.nelem P.V.nne P.V.ndim)).filter fun emi =>
      decide (q (c emi.1 emi.2.1) emi.2.2 < P.nnu))
    (fun (ret : Ten α) emi => ret.set [q (c emi.1 emi.2.1) emi.2.2] (g emi.1 emi.2.1 emi.2.2))
    P.nnu (fun emi => q (c emi.1 emi.2.1) emi.2.2) (fun emi => g emi.1 emi.2.1 emi.2.2)
    (by
      intro a ha
      simp only [List.mem_filter, decide_eq_true_eq] at ha
      exact ha.2)
    (fun _ _ _ => rfl)
  refine ⟨y, f, ?_, h2, fun a ha => ⟨?_, ?_⟩⟩
  · rw [← h1]
    apply forEach_filter
    rintro ⟨e, m, i⟩ h s
    simp only [mem_sched, mem_it3] at h
    simp [hP.base.conn.get h.1 h.2.1, hP.part.get (hP.base.conn_lt _ _ h.1 h.2.1) h.2.2,
      hx.get h.1 h.2.1 h.2.2]
  · rintro ⟨e, m, i, he, hm, hi, hq⟩
    obtain ⟨⟨e', m', i'⟩, h4, h5, h6⟩ := (h3 a ha).1 ⟨(e, m, i), by simp [he, hm, hi, hq, ha], hq⟩
    simp only [List.mem_filter, mem_sched, mem_it3] at h4
    exact ⟨e', m', i', h4.1.1, h4.1.2.1, h4.1.2.2, h5, h6⟩
  · intro h
    apply (h3 a ha).2
    rintro ⟨e', m', i'⟩ h4 h5
    simp only [List.mem_filter, mem_sched, mem_it3] at h4
    exact h e' m' i' h4.1.1 h4.1.2.1 h4.1.2.2 h5

theorem AsDofs_p_elemvec_spec [Zero α] (hP : P.Holds c d q) (σ : Sched) {x : Ten α}
    {g : Nat → Nat → Nat → α} (hx : Is3 x P.V.nelem P.V.nne P.V.ndim g) :
    ∃ y f, P.AsDofs_p_elemvec σ x = .ok y ∧ Is1 y P.nnp f ∧ ∀ a, a < P.nnp →
      ((∃ e m i, e < P.V.nelem ∧ m < P.V.nne ∧ i < P.V.ndim ∧ q (c e m) i = P.nnu + a) →
      ∃ e m i, e < P.V.nelem ∧ m < P.V.nne ∧ i < P.V.ndim ∧ q (c e m) i = P.nnu + a ∧
        f a = g e m i) ∧
      ((∀ e m i, e < P.V.nelem → m < P.V.nne → i < P.V.ndim → q (c e m) i ≠ P.nnu + a) →
        f a = 0) := by
  obtain ⟨y, h1, f, h2, h3⟩ := Vector.scatter1
    ((σ.run (it3 P.V.nelem P.V.nne P.V.ndim)).filter fun emi =>
      decide (P.nnu ≤ q (c emi.1 emi.2.1) emi.2.2))
    (fun (ret : Ten α) emi =>
      ret.set [q (c emi.1 emi.2.1) emi.2.2 - P.nnu] (g emi.1 emi.2.1 emi.2.2))
    P.nnp (fun emi => q (c emi.1 emi.2.1) emi.2.2 - P.nnu) (fun emi => g emi.1 emi.2.1 emi.2.2)
    (by
      intro a ha
      simp only [List.mem_filter, decide_eq_true_eq, mem_sched, mem_it3] at ha
      exact hP.p_lt (hP.base.conn_lt _ _ ha.1.1 ha.1.2.1) ha.1.2.2 ha.2)
    (fun _ _ _ => rfl)
  refine ⟨y, f, ?_, h2, fun a ha => ⟨?_, ?_⟩⟩
  · rw [← h1]
    apply forEach_filter
    rintro ⟨e, m, i⟩ h s
    simp only [mem_sched, mem_it3] at h
    simp [hP.base.conn.get h.1 h.2.1, hP.part.get (hP.base.conn_lt _ _ h.1 h.2.1) h.2.2,
      hx.get h.1 h.2.1 h.2.2]
  · rintro ⟨e, m, i, he, hm, hi, hq⟩
    obtain ⟨⟨e', m', i'⟩, h4, h5, h6⟩ := (h3 a ha).1 ⟨(e, m, i), by simp [he, hm, hi, hq],
      by simp [hq]⟩
    simp only [List.mem_filter, mem_sched, mem_it3, decide_eq_true_eq] at h4 h5
    exact ⟨e', m', i', h4.1.1, h4.1.2.1, h4.1.2.2, by omega, h6⟩
  · intro h
    apply (h3 a ha).2
    rintro ⟨e', m', i'⟩ h4 h5
    simp only [List.mem_filter, mem_sched, mem_it3, decide_eq_true_eq] at h4 h5
    exact h e' m' i' h4.1.1 h4.1.2.1 h4.1.2.2 (by omega)

/-- masked copy: common to `copy_u`, `copy_p`, `dofs_is_u`, `dofs_is_p` -/
theorem masked_spec (σ : Sched) (n m : Nat) (cond : Nat → Nat → Bool)
    (body : Ten α → Nat × Nat → Res (Ten α)) {dest : Ten α} {g h : Nat → Nat → α}
    (hdest : Is2 dest n m h)
    (hbody : ∀ a b, a < n → b < m → ∀ s : Ten α, body s (a, b) =
      if cond a b then s.set [a, b] (g a b) else .ok s) :
    ∃ y, forEach (σ.run (it2 n m)) body dest = .ok y ∧
      Is2 y n m (fun a b => if cond a b then g a b else h a b) := by
  obtain ⟨y, h1, h2, h3, h4⟩ := forEach_set
    ((σ.run (it2 n m)).filter fun mi => cond mi.1 mi.2)
    (fun (ret : Ten α) mi => ret.set [mi.1, mi.2] (g mi.1 mi.2)) (fun mi => [mi.1, mi.2])
    (fun mi => g mi.1 mi.2) dest
    (by
      intro a ha
      simp only [List.mem_filter, mem_sched, mem_it2] at ha
      simp [hdest.1, ha.1])
    (fun _ _ _ _ => rfl)
  refine ⟨y, ?_, by rw [h2, hdest.1], fun a b ha hb => ?_⟩
  · rw [← h1]
    apply forEach_filter
    rintro ⟨a, b⟩ hmi s
    simp only [mem_sched, mem_it2] at hmi
    rw [hbody a b hmi.1 hmi.2]
  · by_cases hc : cond a b = true
    · obtain ⟨⟨a', b'⟩, _, h6, h7⟩ := h3 [a, b] ⟨(a, b), by simp [ha, hb, hc], rfl⟩
      simp only [List.cons.injEq, and_true] at h6
      simp [h7, hc, h6.1, h6.2]
    · rw [h4 [a, b], hdest.2 a b ha hb]
      · simp [hc]
      · rintro ⟨a', b'⟩ h5 h6
        simp only [List.cons.injEq, and_true, List.mem_filter] at h5 h6
        rw [h6.1, h6.2] at h5
        exact hc h5.2

end VectorPartitioned
end GF
