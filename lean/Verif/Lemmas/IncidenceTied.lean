import Verif.Lemmas.Incidence
import Verif.Spec.Incidence

/-! Lemmas on tied nodes. -/

namespace GF
open Finset

theorem countIf_card (n : Nat) (p : Nat → Bool) : countIf n p = ((range n).filter fun m => p m).card := by
  induction n with
  | zero => rfl
  | succ n ih =>
    have : countIf (n + 1) p = countIf n p + if p n then 1 else 0 := by
      simp only [countIf, List.range_succ, List.filter_append, List.length_append]
      cases h : p n <;> simp [h]
    rw [this, ih, Finset.range_add_one, Finset.filter_insert]
    cases h : p n <;> simp

theorem tied_iff {ndim : Nat} {D : Nat → Nat → Nat} {m n : Nat} :
    tied ndim D m n = true ↔ ∀ k, k < ndim → D m k = D n k := by
  simp [tied]

/-- the class of a node as a list -/
def cls (nn ndim : Nat) (D : Nat → Nat → Nat) (m : Nat) : List Nat := (List.range nn).filter fun n => tied ndim D n m

theorem mem_cls {nn ndim : Nat} {D : Nat → Nat → Nat} {m n : Nat} :
    n ∈ cls nn ndim D m ↔ n < nn ∧ ∀ k, k < ndim → D n k = D m k := by
  simp [cls, tied_iff]

theorem cls_sorted (nn ndim : Nat) (D : Nat → Nat → Nat) (m : Nat) : (cls nn ndim D m).Pairwise (· < ·) :=
  List.pairwise_lt_range.sublist List.filter_sublist

theorem cls_congr {nn ndim : Nat} {D : Nat → Nat → Nat} {m n : Nat} (h : n ∈ cls nn ndim D m) :
    cls nn ndim D n = cls nn ndim D m := by
  rw [mem_cls] at h
  refine List.filter_congr fun k _ => ?_
  rw [Bool.eq_iff_iff, tied_iff, tied_iff]
  constructor
  · intro h' i hi; rw [h' i hi, h.2 i hi]
  · intro h' i hi; rw [h' i hi, h.2 i hi]

theorem self_mem_cls {nn ndim : Nat} {D : Nat → Nat → Nat} {m : Nat} (h : m < nn) : m ∈ cls nn ndim D m :=
  mem_cls.2 ⟨h, fun _ _ => rfl⟩

/-- the rows of `nodaltyings`, for any table -/
theorem nodaltyings_gen {dofs : Ten Nat} {nn nd : Nat} {D} (h : Is2 dofs nn nd D) (hd : 0 < nd) :
    ∃ R, nodaltyings dofs = .ok R ∧ R.length = nn ∧
      ∀ m, m < nn → R[m]? = some (((it2 nn nd).filter fun ni => D ni.1 ni.2 = D m 0).map Prod.fst) := by
  obtain ⟨N, R0, -, h2, -, h4, h5, h6⟩ := elem2node_ok h true
  have H := forEach_inv (it1 nn) (fun (ret : List (List Nat)) m => do
      let d ← dofs.get [m, 0]
      let r ← lget R0 d
      lset ret m (sortNat r)) (fun pre r => r.length = nn ∧
    ∀ m, m ∈ pre → r[m]? = some (((it2 nn nd).filter fun ni => D ni.1 ni.2 = D m 0).map Prod.fst))
    (List.replicate nn []) ⟨by simp, by simp⟩ (by
    rintro pre i post r hl ⟨h7, h8⟩
    have hi : i < nn := mem_it1.1 (by rw [hl]; simp)
    refine ⟨r.set i (((it2 nn nd).filter fun ni => D ni.1 ni.2 = D i 0).map Prod.fst), ?_, by simp [h7], ?_⟩
    · rw [h.get hi hd, Res.ok_bind, lget_eq (h6 _ (h2 i 0 hi hd)), Res.ok_bind, lset_ok (by omega),
        sortNat_id (sorted_row _ _ _)]
    · intro m hm
      rw [List.getElem?_set]
      split
      · next e => subst e; rw [if_pos (by omega)]
      · next e =>
        rw [List.mem_append, List.mem_singleton] at hm
        exact h8 m (hm.resolve_right fun h => e h.symm))
  obtain ⟨R, h9, h10, h11⟩ := H
  refine ⟨R, ?_, h10, fun m hm => h11 m (mem_it1.2 hm)⟩
  rw [nodaltyings, h.1]
  dsimp only
  rw [node2dof, h4, Res.ok_bind, h9]

theorem nodaltyings_ok {dofs : Ten Nat} {nn nd : Nat} {D} (h : Is2 dofs nn nd D) (hd : 0 < nd)
    (hT : TiedTable nn nd D) :
    ∃ R, nodaltyings dofs = .ok R ∧ R.length = nn ∧ ∀ m, m < nn → R[m]? = some (cls nn nd D m) := by
  obtain ⟨R, h1, h2, h3⟩ := nodaltyings_gen h hd
  refine ⟨R, h1, h2, fun m hm => ?_⟩
  rw [h3 m hm]
  congr 1
  refine sorted_eq (List.perm_iff_count.2 fun n => ?_) (sorted_row _ _ _)
    ((cls_sorted _ _ _ _).imp fun h => Nat.le_of_lt h)
  rw [count_it2]
  have hnd : (cls nn nd D m).Nodup := (cls_sorted _ _ _ _).imp fun h => Nat.ne_of_lt h
  by_cases hn : n < nn
  · rw [if_pos hn]
    by_cases ht : n ∈ cls nn nd D m
    · rw [List.count_eq_one_of_mem hnd ht]
      rw [mem_cls] at ht
      rw [Finset.card_eq_one]
      refine ⟨0, ?_⟩
      ext i
      simp only [mem_filter, mem_range, mem_singleton]
      constructor
      · rintro ⟨hi, he⟩; exact (hT n m i 0 hn hm hi hd he).1
      · rintro rfl; exact ⟨hd, ht.2 0 hd⟩
    · rw [List.count_eq_zero_of_not_mem ht, Finset.card_eq_zero, Finset.filter_eq_empty_iff]
      intro i hi he
      rw [mem_range] at hi
      exact ht (mem_cls.2 ⟨hn, (hT n m i 0 hn hm hi hd he).2⟩)
  · rw [if_neg hn, List.count_eq_zero_of_not_mem]
    intro h
    exact hn (mem_cls.1 h).1

theorem appendRows (rest : List Nat) (m : Nat) (R0 : Nat → List Nat) (r : List (List Nat)) (a : List Nat)
    (hm : r[m]? = some a) (hr : ∀ j ∈ rest, j ≠ m ∧ r[j]? = some (R0 j)) :
    forEach rest (fun (ret : List (List Nat)) j => do
        let row ← lget ret m
        let add ← lget ret j
        lset ret m (row ++ add)) r = .ok (r.set m (a ++ rest.flatMap R0)) := by
  induction rest generalizing r a with
  | nil =>
    have hm' : m < r.length := (List.getElem?_eq_some_iff.1 hm).1
    simp only [forEach_nil, List.flatMap_nil, List.append_nil]
    congr 1
    refine List.ext_getElem? fun k => ?_
    rw [List.getElem?_set]
    split
    · next h => subst h; simp [hm]
    · rfl
  | cons j l ih =>
    have hm' : m < r.length := (List.getElem?_eq_some_iff.1 hm).1
    obtain ⟨h1, h2⟩ := hr j (by simp)
    rw [forEach_cons, lget_eq hm, Res.ok_bind, lget_eq h2, Res.ok_bind, lset_ok hm']
    change forEach l _ _ = _
    rw [ih (r.set m (a ++ R0 j)) (a ++ R0 j) (by rw [List.getElem?_set, if_pos rfl, if_pos hm']) fun k hk => by
      obtain ⟨h3, h4⟩ := hr k (by simp [hk])
      exact ⟨h3, by rw [List.getElem?_set, if_neg (Ne.symm h3), h4]⟩]
    simp

theorem copyRows (rest : List Nat) (m : Nat) (r : List (List Nat)) (w : List Nat)
    (hm : r[m]? = some w) (hr : ∀ j ∈ rest, j ≠ m ∧ j < r.length) :
    ∃ r', forEach rest (fun (ret : List (List Nat)) j => do
        let row ← lget ret m
        lset ret j row) r = .ok r' ∧ r'.length = r.length ∧
      ∀ k, r'[k]? = if k ∈ rest then some w else r[k]? := by
  induction rest generalizing r with
  | nil => exact ⟨r, rfl, rfl, fun k => by simp⟩
  | cons j l ih =>
    obtain ⟨h1, h2⟩ := hr j (by simp)
    obtain ⟨r', h3, h4, h5⟩ := ih (r.set j w) (by rw [List.getElem?_set, if_neg h1, hm]) fun k hk => by
      obtain ⟨h3, h4⟩ := hr k (by simp [hk])
      exact ⟨h3, by simpa using h4⟩
    refine ⟨r', ?_, by rw [h4, List.length_set], fun k => ?_⟩
    · rw [forEach_cons, lget_eq hm, Res.ok_bind, lset_ok h2]
      exact h3
    · rw [h5 k, List.getElem?_set]
      by_cases hk : k ∈ l
      · simp [hk]
      · by_cases hkj : j = k
        · subst hkj; simp [h2, hk]
        · have : k ≠ j := fun h => hkj h.symm
          simp [hk, hkj, this]

/-- the merged row of a class -/
def mrow (b : Bool) (l : List Nat) : List Nat := if b then sortNat l else l

theorem elem2nodeTied_ok {conn dofs : Ten Nat} {ne nne N nd : Nat} {C D} (hc : Is2 conn ne nne C)
    (hN : ∀ e m, e < ne → m < nne → C e m ≤ N) (hN' : N = 0 ∨ ∃ e m, e < ne ∧ m < nne ∧ C e m = N)
    (hD : Is2 dofs (N + 1) nd D) (hd : 0 < nd)
    (hT : TiedTable (N + 1) nd D) (b : Bool) :
    ∃ R, elem2nodeTied conn dofs b = .ok R ∧ R.length = N + 1 ∧
      ∀ n, n ≤ N → R[n]? = some (mrow b ((cls (N + 1) nd D n).flatMap fun k =>
        ((it2 ne nne).filter fun em => C em.1 em.2 = k).map Prod.fst)) := by
  obtain ⟨N₁, R0, g1, g2, g3, h4, h5, h6⟩ := elem2node_ok hc b
  have hNN : N₁ = N := by
    refine Nat.le_antisymm ?_ ?_
    · rcases g3 with rfl | ⟨e, m, he, hm, rfl⟩
      · omega
      · exact hN e m he hm
    · rcases hN' with rfl | ⟨e, m, he, hm, rfl⟩
      · omega
      · exact g2 e m he hm
  subst hNN
  obtain ⟨T, t1, t2, t3⟩ := nodaltyings_ok hD hd hT
  set row : Nat → List Nat := fun k => ((it2 ne nne).filter fun em => C em.1 em.2 = k).map Prod.fst with hrow
  set K := cls (N₁ + 1) nd D with hK
  have single : ∀ n, n ≤ N₁ → K n = [n] → mrow b ((K n).flatMap row) = row n := by
    intro n hn h
    rw [h]
    simp only [List.flatMap_cons, List.flatMap_nil, List.append_nil, mrow]
    split
    · exact sortNat_id (sorted_row _ _ _)
    · rfl
  have main : ∀ M, M ≤ N₁ + 1 → ∃ r, forEach (it1 M) (fun ret m => mergeTied T b ret m) R0 = .ok r ∧ r.length = N₁ + 1 ∧
      ∀ n, n ≤ N₁ → r[n]? = some (if ∃ k ∈ K n, k < M then mrow b ((K n).flatMap row) else row n) := by
    intro M
    induction M with
    | zero =>
      intro _
      refine ⟨R0, rfl, h5, fun n hn => ?_⟩
      rw [if_neg (by rintro ⟨k, -, hk⟩; omega)]
      exact h6 n hn
    | succ M ih =>
      intro hM
      obtain ⟨r, r1, r2, r3⟩ := ih (by omega)
      have hstep : ∃ r', mergeTied T b r M = .ok r' ∧ r'.length = N₁ + 1 ∧
          ∀ n, n ≤ N₁ → r'[n]? = some (if ∃ k ∈ K n, k < M + 1 then mrow b ((K n).flatMap row) else row n) := by
        have hMs : M ∈ K M := self_mem_cls (by omega)
        have hTM : lget T M = .ok (K M) := lget_eq (t3 M (by omega))
        have hsort := cls_sorted (N₁ + 1) nd D M
        rw [← hK] at hsort
        rw [mergeTied, hTM, Res.ok_bind]
        split
        · next hlen =>
          have hKM : K M = [M] := by
            match hk : K M with
            | [] => rw [hk] at hMs; simp at hMs
            | [a] => rw [hk] at hMs; simp at hMs; rw [hMs]
            | a :: c :: l => rw [hk] at hlen; simp at hlen
          refine ⟨r, rfl, r2, fun n hn => ?_⟩
          rw [r3 n hn]
          congr 1
          by_cases hn2 : n = M
          · subst hn2
            rw [single n hn hKM]
            simp
          · have : (∃ k ∈ K n, k < M) ↔ (∃ k ∈ K n, k < M + 1) := by
              constructor
              · rintro ⟨k, h1, h2⟩; exact ⟨k, h1, by omega⟩
              · rintro ⟨k, h1, h2⟩
                refine ⟨k, h1, ?_⟩
                rcases Nat.lt_or_ge k M with h | h
                · exact h
                · have : k = M := by omega
                  subst this
                  have h3 : K k = K n := cls_congr h1
                  have h4 : n ∈ K n := self_mem_cls (by omega)
                  rw [← h3, hKM] at h4
                  simp at h4
                  exact absurd h4 hn2
            simp only [this]
        · next hlen =>
          match hk : K M with
          | [] => rw [hk] at hMs; simp at hMs
          | a :: l =>
            rw [hk] at hMs hsort
            change ∃ r', (if M > a then Res.ok r else _) = Res.ok r' ∧ _
            have hmin : ∀ k ∈ K M, a ≤ k := by
              rw [hk]
              intro k hk'
              rw [List.mem_cons] at hk'
              rcases hk' with rfl | hk'
              · exact Nat.le_refl _
              · exact Nat.le_of_lt ((List.pairwise_cons.1 hsort).1 k hk')
            split
            · next hgt =>
              refine ⟨r, rfl, r2, fun n hn => ?_⟩
              rw [r3 n hn]
              congr 1
              have : (∃ k ∈ K n, k < M) ↔ (∃ k ∈ K n, k < M + 1) := by
                constructor
                · rintro ⟨k, h1, h2⟩; exact ⟨k, h1, by omega⟩
                · rintro ⟨k, h1, h2⟩
                  rcases Nat.lt_or_ge k M with h | h
                  · exact ⟨k, h1, h⟩
                  · have : k = M := by omega
                    subst this
                    have h3 : K k = K n := cls_congr h1
                    exact ⟨a, by rw [← h3, hk]; simp, by omega⟩
              simp only [this]
            · next hgt =>
              have haM : a = M := by
                have := hmin M (by rw [hk]; exact hMs)
                omega
              subst haM
              have hnone : ∀ n ∈ K a, r[n]? = some (row n) := by
                intro n hn
                have hn' := (mem_cls.1 hn).1
                rw [r3 n (by omega), if_neg]
                rintro ⟨k, h1, h2⟩
                rw [show K n = K a from cls_congr hn] at h1
                have := hmin k h1
                omega
              have hl : ∀ j ∈ l, j ≠ a ∧ j ∈ K a := by
                intro j hj
                have := (List.pairwise_cons.1 hsort).1 j hj
                exact ⟨by omega, by rw [hk]; simp [hj]⟩
              have hra := hnone a (by rw [hk]; simp)
              have hal : a < r.length := by omega
              have e1 := appendRows l a row r (row a) hra fun j hj => ⟨(hl j hj).1, hnone j (hl j hj).2⟩
              have e2 : (row a ++ l.flatMap row) = (K a).flatMap row := by rw [hk]; rfl
              rw [e2] at e1
              have e3 : (if b = true then (lget (r.set a ((K a).flatMap row)) a).bind fun w =>
                  lset (r.set a ((K a).flatMap row)) a (sortNat w) else Res.ok (r.set a ((K a).flatMap row))) =
                  .ok (r.set a (mrow b ((K a).flatMap row))) := by
                cases b
                · rfl
                · rw [if_pos rfl, lget_eq (a := (K a).flatMap row) (by rw [List.getElem?_set, if_pos rfl, if_pos hal])]
                  change lset _ _ _ = _
                  rw [lset_ok (by simpa using hal), List.set_set]
                  rfl
              obtain ⟨r', e4, e5, e6⟩ := copyRows l a (r.set a (mrow b ((K a).flatMap row))) (mrow b ((K a).flatMap row))
                (by rw [List.getElem?_set, if_pos rfl, if_pos hal]) fun j hj => ⟨(hl j hj).1, by
                  have := (mem_cls.1 (hl j hj).2).1
                  simp; omega⟩
              refine ⟨r', ?_, by rw [e5, List.length_set, r2], fun n hn => ?_⟩
              · change (forEach l _ r).bind _ = _
                rw [e1]
                change (if b = true then (lget (r.set a ((K a).flatMap row)) a).bind fun w =>
                  lset (r.set a ((K a).flatMap row)) a (sortNat w) else
                    Res.ok (r.set a ((K a).flatMap row))).bind (fun ret => forEach l _ ret) = _
                rw [e3]
                exact e4
              · rw [e6 n, List.getElem?_set]
                by_cases hn1 : n ∈ K a
                · have hKn : K n = K a := cls_congr hn1
                  rw [hKn, if_pos (c := ∃ k ∈ K a, k < a + 1) ⟨a, by rw [hk]; simp, by omega⟩]
                  by_cases hnl : n ∈ l
                  · rw [if_pos hnl]
                  · rw [hk, List.mem_cons] at hn1
                    have hna := hn1.resolve_right hnl
                    subst hna
                    rw [if_neg hnl, if_pos rfl, if_pos hal]
                · have hnl : n ∉ l := fun h => hn1 (hl n h).2
                  have hna : a ≠ n := by rintro rfl; exact hn1 (by rw [hk]; simp)
                  rw [if_neg hnl, if_neg hna, r3 n hn]
                  congr 1
                  have : (∃ k ∈ K n, k < a) ↔ (∃ k ∈ K n, k < a + 1) := by
                    constructor
                    · rintro ⟨k, h1, h2⟩; exact ⟨k, h1, by omega⟩
                    · rintro ⟨k, h1, h2⟩
                      rcases Nat.lt_or_ge k a with h | h
                      · exact ⟨k, h1, h⟩
                      · have : k = a := by omega
                        subst this
                        have h3 : K k = K n := cls_congr h1
                        exact absurd (by rw [h3]; exact self_mem_cls (by omega)) hn1
                  simp only [this]
      obtain ⟨r', s1, s2, s3⟩ := hstep
      refine ⟨r', ?_, s2, s3⟩
      rw [it1, List.range_succ, forEach_append]
      change (forEach (it1 M) _ _).bind _ = _
      rw [r1]
      change forEach [M] _ r = _
      rw [forEach_cons, s1]
      rfl
  obtain ⟨r, r1, r2, r3⟩ := main (N₁ + 1) (Nat.le_refl _)
  refine ⟨r, ?_, r2, fun n hn => ?_⟩
  · rw [elem2nodeTied, hD.1]
    dsimp only
    rw [h4, Res.ok_bind, t1, Res.ok_bind]
    exact r1
  · rw [r3 n hn, if_pos ⟨n, self_mem_cls (by omega), by omega⟩]

end GF
