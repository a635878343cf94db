import Verif.Lemmas.TyingsPeriodic

/-! C25: periodic tyings; C26: control nodes. -/

namespace GF
open Finset
variable {α : Type}

namespace Periodic
variable {T : Periodic α} {nnode ndim nties : Nat} {x : Nat → Nat → α} {q p t d c : Nat → Nat → Nat}

/-- **C25** The constructor renumbers the DOFs by a bijection: unknown DOFs (neither prescribed nor
dependent) come first in ascending order, then the prescribed DOFs in the given order, then the
dependent DOFs in the order of the pairs; control DOFs are renumbered by the same bijection. -/
theorem C25_constructor {coor : Ten α} {dofs control tyings : Ten Nat} {iip : List Nat}
    (hx : Is2 coor nnode ndim x) (hd : Is2 dofs nnode ndim d) (hc : Is2 control ndim ndim c)
    (ht : Is2 tyings nties 2 t) (hI : Input nnode ndim nties d c t iip) :
    ∃ T q p, Periodic.new coor dofs control tyings iip = .ok T ∧ T.Holds nnode x q p t ∧
      T.ndim = ndim ∧ T.nties = nties ∧ T.nnp = iip.length ∧
      -- a bijection on the DOF numbers in use
      (∀ m i m' i', m < nnode → i < ndim → m' < nnode → i' < ndim →
        (q m i = q m' i' ↔ d m i = d m' i')) ∧
      (∀ m i, m < nnode → i < ndim → q m i < T.nni + T.nnd) ∧
      (∀ k, k < T.nni + T.nnd → ∃ m i, m < nnode ∧ i < ndim ∧ q m i = k) ∧
      -- control DOFs follow the same renumbering
      (∀ j k m i, j < ndim → k < ndim → m < nnode → i < ndim → (p j k = q m i ↔ c j k = d m i)) ∧
      -- the three groups
      (∀ m i, m < nnode → i < ndim → (q m i < T.nnu ↔ d m i ∉ iip ∧
        ∀ i' j', i' < nties → j' < ndim → d m i ≠ d (t i' 1) j')) ∧
      (∀ m i, m < nnode → i < ndim → ∀ a, (q m i = T.nnu + a ∧ a < T.nnp ↔ iip[a]? = some (d m i))) ∧
      -- the order of the unknowns is kept
      (∀ m i m' i', m < nnode → i < ndim → m' < nnode → i' < ndim → q m i < T.nnu →
        q m' i' < T.nnu → (q m i < q m' i' ↔ d m i < d m' i')) := by
  have hdep : dependentDofs dofs tyings nties ndim =
      .ok ((it2 nties ndim).map fun y => d (t y.1 1) y.2) := by
    apply mapRes_ok
    rintro ⟨i, j⟩ hy
    rw [mem_it2] at hy
    obtain ⟨hi, hj⟩ := hy
    simp [ht.get hi (show 1 < 2 by omega), hd.get (hI.tie_lt i hi).2 hj]
  set iid := (it2 nties ndim).map fun y => d (t y.1 1) y.2 with hiid
  have hfull := hd.flat_spec
  set F : List Nat → Nat := fun ix => d (ix.getD 0 0) (ix.getD 1 0) with hF
  have hmem : ∀ k, k ∈ (indices dofs.shape).map F ↔ ∃ m i, m < nnode ∧ i < ndim ∧ d m i = k := by
    intro k
    simp only [List.mem_map, mem_indices, hd.1]
    constructor
    · rintro ⟨ix, hix, rfl⟩
      obtain ⟨i, j, rfl, hi, hj⟩ := inb2.1 hix
      exact ⟨i, j, hi, hj, rfl⟩
    · rintro ⟨m, i, hm, hi, rfl⟩
      exact ⟨[m, i], by simp [hm, hi], rfl⟩
  have hiidmem : ∀ k, k ∈ iid ↔ ∃ i j, i < nties ∧ j < ndim ∧ d (t i 1) j = k := by
    intro k
    simp only [hiid, List.mem_map, Prod.exists, mem_it2]
    constructor
    · rintro ⟨i, j, ⟨hi, hj⟩, e⟩; exact ⟨i, j, hi, hj, e⟩
    · rintro ⟨i, j, hi, hj, e⟩; exact ⟨i, j, ⟨hi, hj⟩, e⟩
  set iii := setdiff1d ((indices dofs.shape).map F) iid with hiii
  set iiu := setdiff1d iii iip with hiiu
  have hiiimem : ∀ k, k ∈ iii ↔ (∃ m i, m < nnode ∧ i < ndim ∧ d m i = k) ∧ k ∉ iid := by
    intro k; rw [hiii, mem_setdiff1d, hmem]
  have hiiumem : ∀ k, k ∈ iiu ↔ ((∃ m i, m < nnode ∧ i < ndim ∧ d m i = k) ∧ k ∉ iid) ∧ k ∉ iip := by
    intro k; rw [hiiu, mem_setdiff1d, hiiimem]
  have hiidnd : iid.Nodup := nodup_it2_map hI.dep_inj
  have hpd : ∀ k ∈ iip, k ∉ iid := by
    intro k hk hk'
    obtain ⟨i, j, hi, hj, rfl⟩ := (hiidmem k).1 hk'
    exact hI.iip_indep i j hi hj hk
  set L := ([iiu, iip, iid] : List (List Nat)).flatten with hL
  have hLe : L = iiu ++ (iip ++ iid) := by simp [hL]
  have hnd : L.Nodup := by
    rw [hLe]
    refine List.nodup_append.2 ⟨setdiff1d_nodup _ _, List.nodup_append.2 ⟨hI.iip_nodup, hiidnd, ?_⟩, ?_⟩
    · rintro a ha b hb rfl; exact hpd a ha hb
    · rintro a ha b hb rfl
      obtain ⟨⟨-, h1⟩, h2⟩ := (hiiumem a).1 ha
      rcases List.mem_append.1 hb with h | h
      · exact h2 h
      · exact h1 h
  have hlen : iii.length = iiu.length + iip.length := by
    have : iii.Perm (iiu ++ iip) := by
      rw [List.perm_ext_iff_of_nodup (setdiff1d_nodup _ _)]
      · intro k
        rw [List.mem_append, hiiumem, hiiimem]
        constructor
        · rintro h
          by_cases h' : k ∈ iip
          · exact Or.inr h'
          · exact Or.inl ⟨h, h'⟩
        · rintro (h | h)
          · exact h.1
          · exact ⟨hI.iip_mem k h, hpd k h⟩
      · rw [hLe, ← List.append_assoc] at hnd
        exact (List.nodup_append.1 hnd).1
    simpa using this.length_eq
  have hidl : iid.length = nties * ndim := by simp [hiid, length_it2]
  have hLlen : L.length = iiu.length + (iip.length + iid.length) := by simp [hLe]
  have hall : ∀ m i, m < nnode → i < ndim → d m i ∈ L := by
    intro m i hm hi
    rw [hLe, List.mem_append, List.mem_append, hiiumem]
    by_cases h1 : d m i ∈ iid
    · exact Or.inr (Or.inr h1)
    · by_cases h2 : d m i ∈ iip
      · exact Or.inr (Or.inl h2)
      · exact Or.inl ⟨⟨⟨m, i, hm, hi, rfl⟩, h1⟩, h2⟩
  have hctrl : ∀ j k, j < ndim → k < ndim → c j k ∈ L := by
    intro j k hj hk
    obtain ⟨m, i, hm, hi, e⟩ := hI.ctrl_mem j k hj hk
    rw [← e]; exact hall m i hm hi
  have hLmem : ∀ k ∈ L, ∃ m i, m < nnode ∧ i < ndim ∧ d m i = k := by
    intro k hk
    rw [hLe, List.mem_append, List.mem_append, hiiumem, hiidmem] at hk
    rcases hk with h | h | ⟨i, j, hi, hj, e⟩
    · exact h.1.1
    · exact hI.iip_mem k h
    · exact ⟨t i 1, j, (hI.tie_lt i hi).2, hj, e⟩
  have hpos : ∀ k ∈ L, ∀ a, L[a]? = some k ↔ L.idxOf k = a := by
    intro k hk a
    have h1 : L[L.idxOf k]? = some k := by
      rw [List.getElem?_eq_getElem (List.idxOf_lt_length_of_mem hk)]; simp [List.getElem_idxOf]
    constructor
    · intro h; exact VectorPartitioned.nodup_idx hnd h1 h
    · rintro rfl; exact h1
  have hidx : ∀ k ∈ L, ∀ k' ∈ L, (L.idxOf k = L.idxOf k' ↔ k = k') := by
    intro k hk k' hk'
    constructor
    · intro h
      have h1 := (hpos k hk _).2 rfl
      have h2 := (hpos k' hk' _).2 rfl
      rw [h] at h1
      exact Option.some.inj (h1.symm.trans h2)
    · rintro rfl; rfl
  have hii : ∀ k ∈ L, k ∉ iid → L.idxOf k < iii.length := by
    intro k hk hk'
    have h1 := (hpos k hk _).2 rfl
    by_contra hge
    generalize L.idxOf k = a at h1 hge
    rw [hLe, ← List.append_assoc, List.getElem?_append_right (by simp; omega)] at h1
    exact hk' (List.mem_of_getElem? h1)
  have hu : ∀ k ∈ L, (L.idxOf k < iiu.length ↔ k ∉ iip ∧ k ∉ iid) := by
    intro k hk
    have h1 := (hpos k hk _).2 rfl
    generalize L.idxOf k = a at h1
    rw [hLe] at h1
    constructor
    · intro hlt
      rw [List.getElem?_append_left hlt] at h1
      have := (hiiumem k).1 (List.mem_of_getElem? h1)
      exact ⟨this.2, this.1.2⟩
    · rintro ⟨h2, h3⟩
      by_contra hge
      rw [List.getElem?_append_right (by omega)] at h1
      rcases List.mem_append.1 (List.mem_of_getElem? h1) with h | h
      · exact h2 h
      · exact h3 h
  obtain ⟨idx, n, i1, i2, i3, -⟩ := Reorder.index_spec hnd
  have hget : ∀ k ∈ L, idx.get [k] = .ok (L.idxOf k) := by
    intro k hk
    obtain ⟨h7, h8⟩ := i3 k hk
    simp only [Ten.get, i2, inb_cons, h7, decide_true, inb_nil, Bool.and_self, if_true, h8]
    rfl
  obtain ⟨rd, d1, d2, d3⟩ := renum_spec (arg := dofs) (mapping := idx) (g := L.idxOf) hfull
    (fun ix hix => by
      rw [hd.1] at hix
      obtain ⟨i, j, rfl, hi, hj⟩ := inb2.1 hix
      exact hget _ (hall i j hi hj))
  obtain ⟨rc, c1, c2, c3⟩ := renum_spec (arg := control) (mapping := idx) (g := L.idxOf) hc.flat_spec
    (fun ix hix => by
      rw [hc.1] at hix
      obtain ⟨i, j, rfl, hi, hj⟩ := inb2.1 hix
      exact hget _ (hctrl i j hi hj))
  refine ⟨⟨iiu.length, iip.length, iii.length, iid.length, ndim, nties, rd, rc, tyings, coor⟩,
    fun m i => L.idxOf (d m i), fun j k => L.idxOf (c j k), ?_,
    ⟨hx, ⟨by rw [d2, hd.1], fun m i hm hi => d3 [m, i] (by simp [hd.1, hm, hi])⟩,
     ⟨by rw [c2, hc.1], fun m i hm hi => c3 [m, i] (by simp [hc.1, hm, hi])⟩, ht, hI.tie_lt, hidl,
     hlen, ?_, ?_, ?_⟩, rfl, rfl, rfl, ?_, ?_, ?_, ?_, ?_, ?_, ?_⟩
  · simp only [Periodic.new, hx.1, hd.1, ht.1, List.getD_cons_zero, List.getD_cons_succ, hdep,
      Res.ok_bind]
    rw [flat_ok hfull]
    simp only [Res.ok_bind]
    rw [← hiii, ← hiiu]
    simp only [Reorder.apply, i1, Res.ok_bind, d1, c1]
  · intro i j hi hj
    exact hii _ (hall _ _ (hI.tie_lt i hi).1 hj) (fun h => by
      obtain ⟨i', j', hi', hj', e⟩ := (hiidmem _).1 h
      exact hI.ind_indep i j i' j' hi hj hi' hj' e.symm)
  · intro j k hj hk
    exact hii _ (hctrl j k hj hk) (fun h => by
      obtain ⟨i', j', hi', hj', e⟩ := (hiidmem _).1 h
      exact hI.ctrl_indep j k i' j' hj hk hi' hj' e.symm)
  · intro i j hi hj
    dsimp only at hi hj ⊢
    rw [← hpos _ (hall _ _ (hI.tie_lt i hi).2 hj), hLe, ← List.append_assoc,
      List.getElem?_append_right (by simp; omega)]
    have e : iii.length + (i * ndim + j) - (iiu ++ iip).length = i * ndim + j := by simp; omega
    rw [e, hiid, List.getElem?_map, it2_getElem? hi hj]
    rfl
  · intro m i m' i' hm hi hm' hi'
    exact hidx _ (hall m i hm hi) _ (hall m' i' hm' hi')
  · intro m i hm hi
    have := List.idxOf_lt_length_of_mem (hall m i hm hi)
    dsimp only; omega
  · intro k hk
    dsimp only at hk
    have hk' : k < L.length := by omega
    obtain ⟨m, i, hm, hi, e⟩ := hLmem L[k] (List.getElem_mem hk')
    refine ⟨m, i, hm, hi, ?_⟩
    dsimp only
    rw [← hpos _ (hall m i hm hi), e, List.getElem?_eq_getElem hk']
  · intro j k m i hj hk hm hi
    exact hidx _ (hctrl j k hj hk) _ (hall m i hm hi)
  · intro m i hm hi
    dsimp only
    rw [hu _ (hall m i hm hi), hiidmem]
    refine and_congr Iff.rfl ⟨fun h i' j' hi' hj' e => h ⟨i', j', hi', hj', e.symm⟩, ?_⟩
    rintro h ⟨i', j', hi', hj', e⟩
    exact h i' j' hi' hj' e.symm
  · intro m i hm hi a
    dsimp only
    rw [← hpos _ (hall m i hm hi), hLe, List.getElem?_append_right (by omega),
      Nat.add_sub_cancel_left]
    constructor
    · rintro ⟨h1, h2⟩
      rwa [List.getElem?_append_left h2] at h1
    · intro h
      have ha := app_len h
      exact ⟨by rwa [List.getElem?_append_left ha], ha⟩
  · intro m i m' i' hm hi hm' hi' h1 h2
    dsimp only at h1 h2 ⊢
    have m1 := (hu _ (hall m i hm hi)).1 h1
    have m2 := (hu _ (hall m' i' hm' hi')).1 h2
    have k1 : d m i ∈ iiu := (hiiumem _).2 ⟨⟨⟨m, i, hm, hi, rfl⟩, m1.2⟩, m1.1⟩
    have k2 : d m' i' ∈ iiu := (hiiumem _).2 ⟨⟨⟨m', i', hm', hi', rfl⟩, m2.2⟩, m2.1⟩
    rw [hLe, List.idxOf_append_of_mem k1, List.idxOf_append_of_mem k2]
    exact idxOf_sorted_lt (setdiff1d_sorted _ _) k1 k2

/-- **C25** The index lists returned by the object partition the DOF numbers. -/
theorem C25_partition (hT : T.Holds nnode x q p t) :
    T.iiu ++ T.iip = T.iii ∧ T.iii ++ T.iid = List.range (T.nni + T.nnd) := by
  simp only [iiu, iip, iii, iid]
  rw [hT.nni]
  refine ⟨?_, ?_⟩
  · rw [List.range_add]; simp [Nat.add_comm]
  · rw [← hT.nni, List.range_add]

/-- **C25** The tying relation: applied to the independent DOF values `u`, row `i * ndim + j` of `Cdi`
gives the value at the independent node plus the control values times the distance between the
nodes. -/
theorem C25_Cdi [NonAssocRing α] (hT : T.Holds nnode x q p t) :
    ∃ M, T.Cdi = .ok M ∧ M.nr = T.nnd ∧ M.nc = T.nni ∧
      ∀ i j, i < T.nties → j < T.ndim → ∀ u : Nat → α,
        ∑ k ∈ range T.nni, M.e (i * T.ndim + j) k * u k =
          u (q (t i 0) j) + ∑ k ∈ range T.ndim, (x (t i 1) k - x (t i 0) k) * u (p j k) := by
  obtain ⟨M, h1, h2, h3, h4⟩ := mat_spec hT (fun _ => true) 0 T.nni (fun k hk _ => hk)
  refine ⟨M, h1, h2, h3, fun i j hi hj u => ?_⟩
  rw [h4 i j hi hj u]
  simp

/-- a matrix entry is the row applied to a unit vector -/
private theorem entry_of_sum [NonAssocRing α] (M : Nat → Nat → α) (n r k : Nat) (hk : k < n) :
    M r k = ∑ k' ∈ range n, M r k' * (if k' = k then 1 else 0) := by
  rw [Finset.sum_eq_single k]
  · simp
  · intro b _ hb; simp [hb]
  · intro h; exact absurd (mem_range.2 hk) h

/-- **C25** `Cdi = [Cdu Cdp]`: the tying matrices for unknown and prescribed DOFs are the column
blocks of the one for all independent DOFs. -/
theorem C25_blocks [NonAssocRing α] (hT : T.Holds nnode x q p t) :
    ∃ M Mu Mp, T.Cdi = .ok M ∧ T.Cdu = .ok Mu ∧ T.Cdp = .ok Mp ∧
      Mu.nr = T.nnd ∧ Mu.nc = T.nnu ∧ Mp.nr = T.nnd ∧ Mp.nc = T.nnp ∧
      (∀ r k, r < T.nnd → k < T.nnu → Mu.e r k = M.e r k) ∧
      (∀ r k, r < T.nnd → k < T.nnp → Mp.e r k = M.e r (T.nnu + k)) := by
  obtain ⟨M, h1, -, -, h4⟩ := mat_spec hT (fun _ => true) 0 T.nni (fun k hk _ => hk)
  obtain ⟨Mu, u1, u2, u3, u4⟩ := mat_spec hT (fun c => decide (c < T.nnu)) 0 T.nnu
    (fun k _ h => by simpa using h)
  obtain ⟨Mp, p1, p2, p3, p4⟩ := mat_spec hT (fun c => decide (T.nnu ≤ c)) T.nnu T.nnp
    (fun k hk h => by have := hT.nni; simp at h; omega)
  have hrow : ∀ r, r < T.nnd → ∃ i j, i < T.nties ∧ j < T.ndim ∧ r = i * T.ndim + j := by
    intro r hr
    rw [hT.nnd] at hr
    have hn : 0 < T.ndim := Nat.pos_of_ne_zero fun h => by rw [h, Nat.mul_zero] at hr; omega
    exact ⟨r / T.ndim, r % T.ndim, Nat.div_lt_of_lt_mul (by rw [Nat.mul_comm]; exact hr),
      Nat.mod_lt _ hn, by rw [Nat.mul_comm]; exact (Nat.div_add_mod r T.ndim).symm⟩
  refine ⟨M, Mu, Mp, h1, u1, p1, u2, u3, p2, p3, ?_, ?_⟩
  · intro r k hr hk
    obtain ⟨i, j, hi, hj, rfl⟩ := hrow r hr
    have hni := hT.nni
    rw [entry_of_sum Mu.e T.nnu _ k hk, entry_of_sum M.e T.nni _ k (by omega), u4 i j hi hj,
      h4 i j hi hj]
    congr 1
    · by_cases h : q (t i 0) j < T.nnu
      · simp [h]
      · have : q (t i 0) j ≠ k := by omega
        simp [h, this]
    · refine Finset.sum_congr rfl fun l _ => ?_
      by_cases h : p j l < T.nnu
      · simp [h]
      · have : p j l ≠ k := by omega
        simp [h, this]
  · intro r k hr hk
    obtain ⟨i, j, hi, hj, rfl⟩ := hrow r hr
    have hni := hT.nni
    rw [entry_of_sum Mp.e T.nnp _ k hk, entry_of_sum M.e T.nni _ (T.nnu + k) (by omega),
      p4 i j hi hj, h4 i j hi hj]
    congr 1
    · by_cases h : T.nnu ≤ q (t i 0) j
      · have e : (q (t i 0) j - T.nnu = k) ↔ (q (t i 0) j = T.nnu + k) := by omega
        simp [h, e]
      · have : q (t i 0) j ≠ T.nnu + k := by omega
        simp [h, this]
    · refine Finset.sum_congr rfl fun l _ => ?_
      by_cases h : T.nnu ≤ p j l
      · have e : (p j l - T.nnu = k) ↔ (p j l = T.nnu + k) := by omega
        simp [h, e]
      · have : p j l ≠ T.nnu + k := by omega
        simp [h, this]

/-- **C25** Consequence: DOF values `u` whose dependent part is `Cdi` times the independent part
satisfy, for every pair of nodes, `u_d - u_i = F (x_d - x_i)` where `F` is read from the control DOFs;
conversely such values are tied. -/
theorem C25_tied_iff [NonAssocRing α] (hT : T.Holds nnode x q p t) :
    ∃ M, T.Cdi = .ok M ∧ ∀ u : Nat → α,
      ((∀ r, r < T.nnd → u (T.nni + r) = ∑ k ∈ range T.nni, M.e r k * u k) ↔
      ∀ i j, i < T.nties → j < T.ndim → u (q (t i 1) j) - u (q (t i 0) j) =
        ∑ k ∈ range T.ndim, (x (t i 1) k - x (t i 0) k) * u (p j k)) := by
  obtain ⟨M, h1, h2, h3, h4⟩ := C25_Cdi hT
  refine ⟨M, h1, fun u => ⟨fun h i j hi hj => ?_, fun h r hr => ?_⟩⟩
  · rw [hT.dep i j hi hj, h _ (by rw [hT.nnd]; exact row_lt hi hj), h4 i j hi hj]
    simp
  · rw [hT.nnd] at hr
    have hn : 0 < T.ndim := Nat.pos_of_ne_zero fun h => by rw [h, Nat.mul_zero] at hr; omega
    have hi : r / T.ndim < T.nties := Nat.div_lt_of_lt_mul (by rw [Nat.mul_comm]; exact hr)
    have hj : r % T.ndim < T.ndim := Nat.mod_lt _ hn
    have e : r / T.ndim * T.ndim + r % T.ndim = r := by
      rw [Nat.mul_comm]; exact Nat.div_add_mod r T.ndim
    have h5 := h4 _ _ hi hj u
    have h6 := hT.dep _ _ hi hj
    rw [e] at h5 h6
    rw [h5, ← h6, ← h _ _ hi hj]
    simp

/-- **C25** Prescribed DOFs that are dependent are not supported: the object then reports
`nni ≠ nnu + nnp`. -/
theorem C25_prescribed_dependent :
    ∃ T, Periodic.new (lit2 1 [[(0 : Int)], [1]]) (lit2 1 [[0], [1]]) (lit2 1 [[0]])
      (lit2 2 [[0, 1]]) [1] = .ok T ∧ T.nni ≠ T.nnu + T.nnp := by
  refine ⟨_, rfl, ?_⟩
  decide

/-- the hypotheses hold for a bar with one tie and one control node -/
example : Input 3 1 1 (fun m _ => m) (fun _ _ => 2) (fun _ k => k) [2] where
  tie_lt := by decide
  dep_inj := by intro i j i' j' hi hj hi' hj' _; omega
  iip_nodup := by decide
  iip_mem := by intro k hk; simp at hk; exact ⟨2, 0, by decide, by decide, hk.symm⟩
  iip_indep := by intro i j hi hj; simp
  ind_indep := by intro i j i' j' _ _ _ _; simp
  ctrl_mem := by intro j k _ _; exact ⟨2, 0, by decide, by decide, rfl⟩
  ctrl_indep := by intro j k i j' _ _ _ _; simp

end Periodic

/-- **C26** `Control` appends `ndim` control nodes at the origin; their DOFs are fresh and consecutive
and existing nodes keep their coordinates and DOFs. -/
theorem Control.C26_control [Zero α] {coor : Ten α} {dofs : Ten Nat} {nnode ndim : Nat}
    {x : Nat → Nat → α} {d : Nat → Nat → Nat} (hx : Is2 coor nnode ndim x)
    (hd : Is2 dofs nnode ndim d) :
    ∃ K n, Control.new coor dofs = .ok K ∧
      -- `n` is larger than every DOF in use, and no larger than needed
      (∀ m i, m < nnode → i < ndim → d m i < n) ∧
      (n = 1 ∨ ∃ m i, m < nnode ∧ i < ndim ∧ d m i + 1 = n) ∧
      Is2 K.coor (nnode + ndim) ndim (fun m i => if m < nnode then x m i else 0) ∧
      Is2 K.dofs (nnode + ndim) ndim (fun m i => if m < nnode then d m i
        else n + ((m - nnode) * ndim + i)) ∧
      Is2 K.control_dofs ndim ndim (fun j k => n + (j * ndim + k)) ∧
      K.control_nodes = (List.range ndim).map (nnode + ·) := by
  obtain ⟨n, h1, h2, h3⟩ := amax_is2 hd
  refine ⟨_, n + 1, by
    simp only [Control.new, hx.1, List.getD_cons_zero, List.getD_cons_succ, h1, Res.ok_bind,
      concat0, Ten.full, if_true, hd.1, Ten.of]
    rfl, fun m i hm hi => Nat.lt_succ_of_le (h2 m i hm hi), ?_, ⟨rfl, ?_⟩, ⟨rfl, ?_⟩, ⟨rfl, ?_⟩, rfl⟩
  · rcases h3 with h | ⟨m, i, hm, hi, h⟩
    · exact Or.inl (by omega)
    · exact Or.inr ⟨m, i, hm, hi, by omega⟩
  · intro m i hm hi
    by_cases h : m < nnode
    · simp [h, hx.2 m i h hi]
    · simp [h]
  · intro m i hm hi
    by_cases h : m < nnode
    · simp [h, hd.2 m i h hi]
    · simp [h]; omega
  · intro j k hj hk
    simp; omega

/-- C26 on a concrete mesh -/
example : Is2 (lit2 2 [[(0 : Int), 0], [1, 0]]) 2 2 (fun m i => if m = 1 ∧ i = 0 then 1 else 0) ∧
    Is2 (lit2 2 [[0, 1], [2, 3]]) 2 2 (fun m i => 2 * m + i) :=
  ⟨⟨rfl, ball2 (by decide)⟩, ⟨rfl, ball2 (by decide)⟩⟩

end GF
