import Verif.Lemmas.IncidenceTied
import Verif.Props.MeshRegular2d

/-! C37: incidence lists (`coordination`, `elem2node`); C38: `nodaltyings`. -/

namespace GF
open Finset

/-- the largest node number in a connectivity -/
def MaxNode (ne nne : Nat) (C : Nat → Nat → Nat) (N : Nat) : Prop :=
  (∀ e m, e < ne → m < nne → C e m ≤ N) ∧ ∃ e m, e < ne ∧ m < nne ∧ C e m = N

theorem MaxNode.unique {ne nne N N' : Nat} {C : Nat → Nat → Nat} (h : MaxNode ne nne C N)
    (h1 : ∀ e m, e < ne → m < nne → C e m ≤ N')
    (h2 : N' = 0 ∨ ∃ e m, e < ne ∧ m < nne ∧ C e m = N') : N' = N := by
  obtain ⟨h3, e, m, he, hm, h4⟩ := h
  refine Nat.le_antisymm ?_ (h4 ▸ h1 e m he hm)
  rcases h2 with rfl | ⟨e', m', he', hm', rfl⟩
  · omega
  · exact h3 e' m' he' hm'

/-- **C37** `coordination(conn)`: the result has one entry per node number up to the largest in `conn`, and
entry `n` is the number of places `(e, m)` of `conn` that hold `n`. -/
theorem C37_coordination {conn : Ten Nat} {ne nne N : Nat} {C} (h : Is2 conn ne nne C)
    (hN : MaxNode ne nne C N) :
    IsOk (coordination conn) fun t => Is1 t (N + 1) fun n =>
      ((List.range ne).map fun e => countIf nne fun m => C e m == n).sum := by
  obtain ⟨N', t, -, h2, h3, h4, h5⟩ := coordination_ok h
  obtain rfl := hN.unique h2 h3
  refine ⟨t, h4, h5.congr fun n _ => ?_⟩
  rw [sum_map_range]
  refine sum_congr rfl fun e _ => ?_
  rw [countIf_card]
  simp

/-- **C37** `elem2node(conn, sorted)`, for any value of `sorted`: one row per node; row `n` contains every
element `e` exactly as many times as `n` occurs in the row of `e` in `conn` (in particular: not at all
if `e` is not an element), in ascending order. -/
theorem C37_elem2node {conn : Ten Nat} {ne nne N : Nat} {C} (h : Is2 conn ne nne C)
    (hN : MaxNode ne nne C N) (sorted : Bool) :
    IsOk (elem2node conn sorted) fun R =>
      RowsCount R (N + 1) (fun n e => if e < ne then countIf nne fun m => C e m == n else 0) ∧
      Ascending R := by
  obtain ⟨N', R, -, h2, h3, h4, h5, h6⟩ := elem2node_ok h sorted
  obtain rfl := hN.unique h2 h3
  refine ⟨R, h4, ⟨h5, fun n hn => ⟨_, h6 n (by omega), fun e => ?_⟩⟩, ?_⟩
  · rw [count_it2]
    simp only [countIf_card, beq_iff_eq]
  · intro row hrow
    obtain ⟨n, hn, rfl⟩ := List.getElem_of_mem hrow
    have := h6 n (by omega)
    rw [List.getElem?_eq_getElem hn] at this
    rw [Option.some.inj this]
    exact sorted_row _ _ _

/-- **C37** the size of row `n` of `elem2node` is the coordination number of `n` -/
theorem C37_sizes {conn : Ten Nat} {ne nne N : Nat} {C} (h : Is2 conn ne nne C)
    (hN : MaxNode ne nne C N) (sorted : Bool) :
    ∃ R t k, elem2node conn sorted = .ok R ∧ coordination conn = .ok t ∧ Is1 t (N + 1) k ∧
      ∀ n, n ≤ N → ∃ row, R[n]? = some row ∧ row.length = k n := by
  obtain ⟨N', R, -, h2, h3, h4, h5, h6⟩ := elem2node_ok h sorted
  obtain rfl := hN.unique h2 h3
  obtain ⟨N'', t, -, g2, g3, g4, g5⟩ := coordination_ok h
  obtain rfl := hN.unique g2 g3
  refine ⟨R, t, _, h4, g4, g5, fun n hn => ⟨_, h6 n hn, ?_⟩⟩
  rw [List.length_map]
  have hl : ∀ l : List (Nat × Nat), (l.filter fun em => decide (C em.1 em.2 = n)).length =
      (l.map fun em => if C em.1 em.2 = n then 1 else 0).sum := by
    intro l
    induction l with
    | nil => rfl
    | cons a l ih =>
      by_cases ha : C a.1 a.2 = n
      · simp [ha, ih, Nat.add_comm]
      · simp [ha, ih]
  rw [hl, sum_it2]
  refine sum_congr rfl fun e _ => ?_
  rw [card_filter]

/-- **C37** If every element has distinct nodes (as in any proper mesh), the row of node `n` is the strictly
ascending list of exactly the elements that contain `n`. -/
theorem C37_proper {conn : Ten Nat} {ne nne N : Nat} {C} (h : Is2 conn ne nne C)
    (hN : MaxNode ne nne C N)
    (hinj : ∀ e m m', e < ne → m < nne → m' < nne → C e m = C e m' → m = m') (sorted : Bool) :
    IsOk (elem2node conn sorted) fun R => R.length = N + 1 ∧ ∀ n, n ≤ N → ∃ row, R[n]? = some row ∧
      row.Pairwise (· < ·) ∧ ∀ e, e ∈ row ↔ e < ne ∧ ∃ m, m < nne ∧ C e m = n := by
  obtain ⟨R, h1, ⟨h2, h3⟩, h4⟩ := C37_elem2node h hN sorted
  refine ⟨R, h1, h2, fun n hn => ?_⟩
  obtain ⟨row, h5, h6⟩ := h3 n (by omega)
  have hcount : ∀ e, e < ne → (countIf nne fun m => C e m == n) ≤ 1 := by
    intro e he
    rw [countIf_card, Finset.card_le_one]
    simp only [Finset.mem_filter, Finset.mem_range, beq_iff_eq]
    rintro a ⟨ha, ha'⟩ b ⟨hb, hb'⟩
    exact hinj e a b he ha hb (ha'.trans hb'.symm)
  refine ⟨row, h5, ?_, fun e => ?_⟩
  · have hnd : row.Nodup := by
      rw [List.nodup_iff_count_le_one]
      intro e
      rw [h6 e]
      beta_reduce
      split_ifs with he
      · exact hcount e he
      · omega
    have hs := h4 row (List.mem_of_getElem? h5)
    exact (hs.and hnd).imp fun ⟨h, h'⟩ => by omega
  · rw [← List.count_pos_iff, h6 e]
    beta_reduce
    by_cases he : e < ne
    · rw [if_pos he, countIf_card, Finset.card_pos]
      simp [Finset.Nonempty, he]
    · simp [he]

theorem tied_comm (nd : Nat) (D : Nat → Nat → Nat) (m n : Nat) : tied nd D m n = tied nd D n m := by
  rw [Bool.eq_iff_iff, tied_iff, tied_iff]
  exact ⟨fun h k hk => (h k hk).symm, fun h k hk => (h k hk).symm⟩

/-- **C37** `elem2node(conn, dofs, sorted)` for a mesh in which some nodes are tied: row `n` contains every
element `e` exactly as many times as a node tied to `n` occurs in `e`; if `sorted`, in ascending order. -/
theorem C37_elem2node_tied {conn dofs : Ten Nat} {ne nne N nd : Nat} {C D} (hc : Is2 conn ne nne C)
    (hN : MaxNode ne nne C N) (hD : Is2 dofs (N + 1) nd D) (hd : 0 < nd)
    (hT : TiedTable (N + 1) nd D) (sorted : Bool) :
    IsOk (elem2nodeTied conn dofs sorted) fun R =>
      RowsCount R (N + 1) (fun n e => if e < ne then countIf nne fun m => tied nd D n (C e m) else 0) ∧
      (sorted = true → Ascending R) := by
  obtain ⟨R, h1, h2, h3⟩ := elem2nodeTied_ok hc hN.1 (Or.inr hN.2) hD hd hT sorted
  refine ⟨R, h1, ⟨h2, fun n hn => ⟨_, h3 n (by omega), fun e => ?_⟩⟩, ?_⟩
  · have hp : (mrow sorted ((cls (N + 1) nd D n).flatMap fun k =>
        ((it2 ne nne).filter fun em => C em.1 em.2 = k).map Prod.fst)).Perm
        ((cls (N + 1) nd D n).flatMap fun k =>
        ((it2 ne nne).filter fun em => C em.1 em.2 = k).map Prod.fst) := by
      cases sorted
      · exact List.Perm.refl _
      · exact sortNat_perm _
    rw [hp.count_eq, List.count_flatMap]
    beta_reduce
    by_cases he : e < ne
    · rw [if_pos he]
      have hs : ((cls (N + 1) nd D n).map (List.count e ∘ fun k =>
          ((it2 ne nne).filter fun em => C em.1 em.2 = k).map Prod.fst)).sum =
          ((List.range (N + 1)).map fun k => if tied nd D k n then
            ((range nne).filter fun m => C e m = k).card else 0).sum := by
        rw [cls]
        generalize List.range (N + 1) = l
        induction l with
        | nil => rfl
        | cons a l ih =>
          by_cases ha : tied nd D a n = true
          · simp only [List.filter_cons, ha, if_true, List.map_cons, List.sum_cons, ih,
              Function.comp_apply, count_it2, if_pos he]
          · simp only [List.filter_cons, ha, List.map_cons, List.sum_cons, ih, Bool.false_eq_true,
              if_false, Nat.zero_add]
      rw [hs, sum_map_range, countIf_card, card_filter]
      simp only [card_filter]
      simp_rw [← Finset.sum_filter]
      rw [Finset.sum_filter]
      have : ∀ k ∈ range (N + 1), (if tied nd D k n then ∑ m ∈ (range nne).filter (fun m => C e m = k), 1 else 0) =
          ∑ m ∈ range nne, if C e m = k then (if tied nd D n (C e m) then 1 else 0) else 0 := by
        intro k _
        rw [Finset.sum_filter]
        split_ifs with ht
        · refine sum_congr rfl fun m _ => ?_
          split_ifs with h1 h2
          · rfl
          · rw [h1, tied_comm] at h2; exact absurd ht h2
          · rfl
        · symm
          refine sum_eq_zero fun m _ => ?_
          split_ifs with h1 h2
          · rw [h1, tied_comm] at h2; exact absurd h2 ht
          · rfl
          · rfl
      rw [sum_congr rfl this, sum_comm, Finset.sum_filter]
      refine sum_congr rfl fun m hm => ?_
      rw [sum_ite_eq, if_pos]
      rw [mem_range]
      have := hN.1 e m he (mem_range.1 hm)
      omega
    · rw [if_neg he]
      refine List.sum_eq_zero fun x hx => ?_
      obtain ⟨k, -, rfl⟩ := List.mem_map.1 hx
      simp only [Function.comp_apply, count_it2, if_neg he]
  · rintro rfl row hrow
    obtain ⟨n, hn, rfl⟩ := List.getElem_of_mem hrow
    have := h3 n (by omega)
    rw [List.getElem?_eq_getElem hn] at this
    rw [Option.some.inj this]
    exact sortNat_sorted _

theorem lget_ub {β : Type} {l : List β} {i : Nat} (h : l.length ≤ i) : lget l i = .ub := by
  simp [lget, List.getElem?_eq_none h]

theorem lget_or {β γ : Type} (l : List β) (i : Nat) (f : β → Res γ) (Q : Res γ → Prop) (h0 : Q .ub)
    (h : ∀ a, Q (f a)) : Q ((lget l i).bind f) := by
  by_cases hi : i < l.length
  · rw [lget_eq (List.getElem?_eq_getElem hi)]
    exact h _
  · rw [lget_ub (by omega)]
    exact h0

theorem lset_or (l : List (List Nat)) (i : Nat) (a : List Nat) (N : Nat) (hl : l.length = N) :
    lset l i a = .ub ∨ ∃ r, lset l i a = .ok r ∧ r.length = N := by
  by_cases hi : i < l.length
  · exact Or.inr ⟨_, lset_ok hi a, by simpa using hl⟩
  · exact Or.inl (by simp [lset, hi])

theorem loop_or {ι : Type} (l : List ι) (f : List (List Nat) → ι → Res (List (List Nat))) (N : Nat)
    (hf : ∀ i r, r.length = N → (f r i = .ub ∨ ∃ r', f r i = .ok r' ∧ r'.length = N)) (r : List (List Nat))
    (hr : r.length = N) : forEach l f r = .ub ∨ ∃ r', forEach l f r = .ok r' ∧ r'.length = N := by
  induction l generalizing r with
  | nil => exact Or.inr ⟨r, rfl, hr⟩
  | cons i l ih =>
    simp only [forEach_cons]
    rcases hf i r hr with h | ⟨r', h, hr'⟩
    · rw [h]; exact Or.inl rfl
    · rw [h]; exact ih r' hr'

theorem mergeTied_or (nties : List (List Nat)) (sorted : Bool) (N : Nat) (ret : List (List Nat)) (m : Nat)
    (hr : ret.length = N) : mergeTied nties sorted ret m = .ub ∨
      ∃ r', mergeTied nties sorted ret m = .ok r' ∧ r'.length = N := by
  rw [mergeTied]
  refine lget_or _ _ _ (fun x => x = .ub ∨ ∃ r' : List (List Nat), x = .ok r' ∧ r'.length = N) (Or.inl rfl) fun t => ?_
  by_cases h1 : t.length ≤ 1
  · rw [if_pos h1]; exact Or.inr ⟨ret, rfl, hr⟩
  rw [if_neg h1]
  refine lget_or _ _ _ (fun x => x = .ub ∨ ∃ r' : List (List Nat), x = .ok r' ∧ r'.length = N) (Or.inl rfl) fun t0 => ?_
  by_cases h2 : m > t0
  · rw [if_pos h2]; exact Or.inr ⟨ret, rfl, hr⟩
  rw [if_neg h2]
  have hA := loop_or (t.drop 1) (fun ret j => do
        let row ← lget ret m
        let add ← lget ret j
        lset ret m (row ++ add)) N (fun j r hl => by
      refine lget_or _ _ _ (fun x => x = .ub ∨ ∃ r' : List (List Nat), x = .ok r' ∧ r'.length = N) (Or.inl rfl) fun row => ?_
      refine lget_or _ _ _ (fun x => x = .ub ∨ ∃ r' : List (List Nat), x = .ok r' ∧ r'.length = N) (Or.inl rfl) fun add => ?_
      exact lset_or _ _ _ _ hl) ret hr
  have hC := loop_or (t.drop 1) (fun ret j => do
        let row ← lget ret m
        lset ret j row) N (fun j r hl => by
      refine lget_or _ _ _ (fun x => x = .ub ∨ ∃ r' : List (List Nat), x = .ok r' ∧ r'.length = N) (Or.inl rfl) fun row => ?_
      exact lset_or _ _ _ _ hl)
  rcases hA with hA | ⟨r1, hA, hl1⟩
  · refine Or.inl ?_
    show Res.bind _ _ = _
    rw [hA]; rfl
  · show (Res.bind _ _ = _ ∨ ∃ r', Res.bind _ _ = _ ∧ _)
    rw [hA]
    show (Res.bind _ _ = _ ∨ ∃ r', Res.bind _ _ = _ ∧ _)
    cases sorted
    · exact hC r1 hl1
    · have hB : (lget r1 m).bind (fun row => lset r1 m (sortNat row)) = .ub ∨ ∃ r',
          (lget r1 m).bind (fun row => lset r1 m (sortNat row)) = .ok r' ∧ r'.length = N :=
        lget_or _ _ _ (fun x => x = .ub ∨ ∃ r' : List (List Nat), x = .ok r' ∧ r'.length = N) (Or.inl rfl)
          fun row => lset_or _ _ _ _ hl1
      rcases hB with hB | ⟨r2, hB, hl2⟩
      · refine Or.inl ?_
        show Res.bind ((lget r1 m).bind (fun row => lset r1 m (sortNat row))) _ = _
        rw [hB]; rfl
      · show (Res.bind ((lget r1 m).bind (fun row => lset r1 m (sortNat row))) _ = _ ∨ ∃ r',
          Res.bind ((lget r1 m).bind (fun row => lset r1 m (sortNat row))) _ = _ ∧ _)
        rw [hB]
        exact hC r2 hl2

/-- **C37** (limit of `elem2node(conn, dofs)`) the result is allocated for the nodes up to the largest one in
`conn`, but the loop runs over the rows of `dofs`: if a node of the mesh is tied to a node beyond the
largest in `conn` (a node not used by any element), memory outside the result is accessed. -/
theorem C37_tied_out_of_bounds {conn dofs : Ten Nat} {ne nne N nn nd : Nat} {C D} (hc : Is2 conn ne nne C)
    (hN : MaxNode ne nne C N) (hD : Is2 dofs nn nd D) (hd : 0 < nd) (hT : TiedTable nn nd D) (sorted : Bool)
    {m j : Nat} (hm : m ≤ N) (hj : N < j) (hj' : j < nn) (ht : ∀ k, k < nd → D m k = D j k) :
    elem2nodeTied conn dofs sorted = .ub := by
  obtain ⟨N', R0, -, g2, g3, h4, h5, -⟩ := elem2node_ok hc sorted
  obtain rfl := hN.unique g2 g3
  obtain ⟨T, h7, h8, h9⟩ := nodaltyings_ok hD hd hT
  simp only [elem2nodeTied, hD.1, h4, h7, Res.ok_bind]
  have hmc : m ∈ cls nn nd D m := self_mem_cls (by omega)
  have hjc : j ∈ cls nn nd D m := mem_cls.2 ⟨hj', fun k hk => (ht k hk).symm⟩
  have hso := cls_sorted nn nd D m
  obtain ⟨a, rest, hcl⟩ : ∃ a rest, cls nn nd D m = a :: rest := by
    cases hx : cls nn nd D m with
    | nil => rw [hx] at hmc; simp at hmc
    | cons a l => exact ⟨a, l, rfl⟩
  have hac : a ∈ cls nn nd D m := by rw [hcl]; simp
  have hacl := cls_congr hac
  rw [hcl, List.pairwise_cons] at hso
  have ham : a ≤ m := by
    rw [hcl, List.mem_cons] at hmc
    rcases hmc with rfl | hmc
    · exact Nat.le_refl _
    · exact Nat.le_of_lt (hso.1 m hmc)
  have hjr : j ∈ rest := by
    rw [hcl, List.mem_cons] at hjc
    rcases hjc with rfl | hjc
    · omega
    · exact hjc
  refine forEach_eq_ub _ _ (fun r => r.length = N' + 1) _ h5 (fun i _ s hs => mergeTied_or _ _ _ _ _ hs)
    ⟨a, mem_it1.2 (by omega), fun s hs => ?_⟩
  rw [mergeTied, lget_eq (h9 a (by omega)), hacl, hcl]
  have hlen : ¬ (a :: rest).length ≤ 1 := by
    have : rest ≠ [] := by rintro rfl; simp at hjr
    have := List.length_pos_iff.2 this
    simp; omega
  simp only [Res.ok_bind, if_neg hlen, lget_eq (show (a :: rest)[0]? = some a from rfl), gt_iff_lt,
    Nat.lt_irrefl, if_false, List.drop_succ_cons, List.drop_zero]
  have hA : forEach rest (fun (ret : List (List Nat)) j => do
        let row ← lget ret a
        let add ← lget ret j
        lset ret a (row ++ add)) s = .ub := by
    refine forEach_eq_ub _ _ (fun r => r.length = N' + 1) _ hs (fun i _ s hs => ?_) ⟨j, hjr, fun s hs => ?_⟩
    · refine lget_or _ _ _ (fun x => x = .ub ∨ ∃ r' : List (List Nat), x = .ok r' ∧ r'.length = N' + 1) (Or.inl rfl) fun row => ?_
      refine lget_or _ _ _ (fun x => x = .ub ∨ ∃ r' : List (List Nat), x = .ok r' ∧ r'.length = N' + 1) (Or.inl rfl) fun add => ?_
      exact lset_or _ _ _ _ hs
    · refine lget_or _ _ _ (fun x => x = .ub) rfl fun row => ?_
      show (lget s j).bind _ = _
      rw [lget_ub (by omega)]; rfl
  show Res.bind _ _ = _
  rw [hA]; rfl

/-- **C38** `nodaltyings(dofs)`: for a DOF table in which two nodes share all or none of their DOFs, row `m` is
the strictly ascending list of exactly the nodes with the same DOFs as node `m`. -/
theorem C38_nodaltyings {dofs : Ten Nat} {nn nd : Nat} {D} (h : Is2 dofs nn nd D) (hd : 0 < nd)
    (hT : TiedTable nn nd D) :
    IsOk (nodaltyings dofs) fun R => R.length = nn ∧ ∀ m, m < nn → ∃ row, R[m]? = some row ∧
      row.Pairwise (· < ·) ∧ ∀ n, n ∈ row ↔ n < nn ∧ ∀ k, k < nd → D n k = D m k := by
  obtain ⟨R, h1, h2, h3⟩ := nodaltyings_ok h hd hT
  exact ⟨R, h1, h2, fun m hm => ⟨_, h3 m hm, cls_sorted _ _ _ _, fun n => mem_cls⟩⟩

/-- **C38** The rows are equivalence classes: every node is in its own row, and all nodes of one row have the
same row; a node that shares no DOF with another node has the row `[m]`. -/
theorem C38_classes {dofs : Ten Nat} {nn nd : Nat} {D} (h : Is2 dofs nn nd D) (hd : 0 < nd)
    (hT : TiedTable nn nd D) :
    IsOk (nodaltyings dofs) fun R => ∀ m, m < nn → ∃ row, R[m]? = some row ∧ m ∈ row ∧
      (∀ n ∈ row, R[n]? = some row) ∧
      ((∀ n, n < nn → n ≠ m → D n 0 ≠ D m 0) → row = [m]) := by
  obtain ⟨R, h1, h2, h3⟩ := nodaltyings_ok h hd hT
  refine ⟨R, h1, fun m hm => ⟨_, h3 m hm, self_mem_cls hm, fun n hn => ?_, fun hu => ?_⟩⟩
  · rw [h3 n (mem_cls.1 hn).1, cls_congr hn]
  · refine sorted_ext (cls_sorted _ _ _ _) (by simp) fun n => ?_
    rw [mem_cls, List.mem_singleton]
    constructor
    · rintro ⟨h4, h5⟩
      by_contra hne
      exact hu n h4 hne (h5 0 hd)
    · rintro rfl
      exact ⟨hm, fun _ _ => rfl⟩

/-- **C38** For an arbitrary DOF table (no assumption on shared DOFs) row `m` lists, in ascending order, every
node as often as the *first* DOF of `m` occurs among its DOFs: if nodes share only some DOFs, the result
depends on the first component only. -/
theorem C38_any_table {dofs : Ten Nat} {nn nd : Nat} {D} (h : Is2 dofs nn nd D) (hd : 0 < nd) :
    IsOk (nodaltyings dofs) fun R => RowsCount R nn (fun m n =>
      if n < nn then countIf nd fun k => D n k == D m 0 else 0) ∧ Ascending R := by
  obtain ⟨R, h1, h2, h3⟩ := nodaltyings_gen h hd
  refine ⟨R, h1, ⟨h2, fun m hm => ⟨_, h3 m hm, fun e => ?_⟩⟩, ?_⟩
  · rw [count_it2]
    simp only [countIf_card, beq_iff_eq]
  · intro row hrow
    obtain ⟨n, hn, rfl⟩ := List.getElem_of_mem hrow
    have := h3 n (by omega)
    rw [List.getElem?_eq_getElem hn] at this
    rw [Option.some.inj this]
    exact sorted_row _ _ _

section periodic
variable {α : Type} [Field α] [LinearOrder α] [IsStrictOrderedRing α]

/-- **C38** For the periodic DOFs of a regular Quad4 mesh, row `m` of `nodaltyings(dofsPeriodic())` is exactly
the ascending list of the nodes whose position differs from that of `m` by a lattice vector of the
periodic cell. -/
theorem C38_quad4 (nelx nely : Nat) (hx : 0 < nelx) (hy : 0 < nely) {h : α} (hh : 0 < h) :
    let M := Quad4.Regular.new nelx nely h
    ∃ c x y R, M.coor = .ok c ∧ Is2 c M.nnode 2 x ∧ Quad4.Regular.dofsPeriodic M = .ok y ∧
      nodaltyings y = .ok R ∧ R.length = M.nnode ∧ ∀ m, m < M.nnode → ∃ row, R[m]? = some row ∧
        row.Pairwise (· < ·) ∧ ∀ n, n ∈ row ↔ n < M.nnode ∧
          LatticeEq2 (h * (nelx : α)) (h * (nely : α)) (x n) (x m) := by
  obtain ⟨c, x, y, d, h1, h2, h3, h4, h5, -⟩ := C33_quad4_dofsPeriodic nelx nely hx hy hh
  have hT : TiedTable (Quad4.Regular.new nelx nely h).nnode 2 d := by
    intro m n i j hm hn hi hj he
    rw [h5 m i n j hm hi hn hj] at he
    exact ⟨he.2, fun k hk => (h5 m k n k hm hk hn hk).2 ⟨he.1, rfl⟩⟩
  obtain ⟨R, h6, h7, h8⟩ := C38_nodaltyings h4 (by omega) hT
  refine ⟨c, x, y, R, h1, h2, h3, h6, h7, fun m hm => ?_⟩
  obtain ⟨row, h9, h10, h11⟩ := h8 m hm
  refine ⟨row, h9, h10, fun n => ?_⟩
  rw [h11]
  refine and_congr_right fun hn => ?_
  constructor
  · intro hk
    exact ((h5 n 0 m 0 hn (by omega) hm (by omega)).1 (hk 0 (by omega))).1
  · intro hl k hk
    exact (h5 n k m k hn hk hm hk).2 ⟨hl, rfl⟩

end periodic

/-- a 2 × 1 connectivity -/
def exConn37 : Ten Nat := lit2 4 [[0, 1, 4, 3], [1, 2, 5, 4]]
/-- DOFs, one per node, periodic in the horizontal direction -/
def exDofs37 : Ten Nat := lit2 1 [[0], [1], [0], [2], [3], [2]]

/-- C37, C38: two elements sharing an edge; the right nodes 2 and 5 tied to the left ones 0 and 3. -/
example : MaxNode 2 4 (fun e m => ([[0, 1, 4, 3], [1, 2, 5, 4]].getD e []).getD m 0) 5 :=
  ⟨fun e m he hm => by revert m; revert e; decide, 1, 2, by decide⟩
example : Is2 exConn37 2 4 (fun e m => ([[0, 1, 4, 3], [1, 2, 5, 4]].getD e []).getD m 0) := ⟨rfl, fun _ _ _ _ => rfl⟩
example : Is2 exDofs37 6 1 (fun e m => ([[0], [1], [0], [2], [3], [2]].getD e []).getD m 0) := ⟨rfl, fun _ _ _ _ => rfl⟩
example : TiedTable 6 1 (fun e m => ([[0], [1], [0], [2], [3], [2]].getD e []).getD m 0) := by
  intro m n i j hm hn hi hj he
  obtain rfl : i = 0 := by omega
  obtain rfl : j = 0 := by omega
  refine ⟨rfl, fun k hk => ?_⟩
  obtain rfl : k = 0 := by omega
  exact he

end GF
