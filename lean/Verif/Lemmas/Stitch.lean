import Verif.Lemmas.Renumber
import Verif.Lemmas.MeshMeasures
import Verif.Model.Stitch
import Verif.Spec.Stitch
import Mathlib.Data.List.Dedup
import Mathlib.Tactic.Ring
import Mathlib.Tactic.Linarith

namespace GF
open Finset
variable {α : Type}

theorem getD_lt {β : Type} {l : List β} {d : β} {k : Nat} (h : k < l.length) : l.getD k d = l[k] := by
  simp [List.getD, h]

/-! ### closeness of rows, overlapping nodes -/

theorem rowsClose_ok (close : α → α → Bool) {x y : Ten α} {na nb nd : Nat} {xa xb} (hx : Is2 x na nd xa)
    (hy : Is2 y nb nd xb) {i j : Nat} (hi : i < na) (hj : j < nb) :
    ∃ b, rowsClose close x y nd i j = .ok b ∧ (b = true ↔ PtClose close nd (xa i) (xb j)) := by
  suffices H : ∀ k, k ≤ nd → ∃ b, forEach (it1 k) (fun b k => do
      let p ← x.get [i, k]
      let q ← y.get [j, k]
      (.ok (b && close p q) : Res Bool)) true = .ok b ∧ (b = true ↔ PtClose close k (xa i) (xb j)) from H nd le_rfl
  intro k
  induction k with
  | zero => intro _; exact ⟨true, rfl, by simp [PtClose]⟩
  | succ k ih =>
    intro hk
    obtain ⟨b, h1, h2⟩ := ih (by omega)
    refine ⟨b && close (xa i k) (xb j k), ?_, ?_⟩
    · rw [forEach_it1_succ, h1]
      simp only [hx.get hi (show k < nd by omega), hy.get hj (show k < nd by omega)]
      rfl
    · rw [Bool.and_eq_true, h2]
      constructor
      · rintro ⟨a, c⟩ l hl
        rcases Nat.lt_succ_iff_lt_or_eq.1 hl with h | rfl
        · exact a l h
        · exact c
      · intro h
        exact ⟨fun l hl => h l (by omega), h k (by omega)⟩

/-- the list of overlapping pairs -/
theorem overlapping_ok (close : α → α → Bool) {x y : Ten α} {na nb nd : Nat} {xa xb} (hx : Is2 x na nd xa)
    (hy : Is2 y nb nd xb) :
    ∃ (la lb : List Nat) (L : List (Nat × Nat)), overlapping close x y = .ok (la, lb) ∧ la = L.map Prod.fst ∧ lb = L.map Prod.snd ∧
      L.Sublist (it2 na nb) ∧
      ∀ i j, (i, j) ∈ L ↔ i < na ∧ j < nb ∧ PtClose close nd (xb j) (xa i) := by
  obtain ⟨s, h1, L, h2, h3, h4⟩ := forEach_inv (it2 na nb) (fun (s : List Nat × List Nat) (ij : Nat × Nat) => do
        let c ← rowsClose close y x nd ij.2 ij.1
        if c then (.ok (s.1 ++ [ij.1], s.2 ++ [ij.2]) : Res (List Nat × List Nat)) else .ok s)
    (fun pre s => ∃ L : List (Nat × Nat), s = (L.map Prod.fst, L.map Prod.snd) ∧ L.Sublist pre ∧
      ∀ p, p ∈ L ↔ p ∈ pre ∧ PtClose close nd (xb p.2) (xa p.1)) ([], [])
    ⟨[], rfl, List.Sublist.refl _, by simp⟩ (by
      rintro pre ⟨i, j⟩ post s hl ⟨L, rfl, hL, hm⟩
      have hij : i < na ∧ j < nb := (mem_it2 (p := (i, j))).1 (by rw [hl]; simp)
      obtain ⟨b, c1, c2⟩ := rowsClose_ok close hy hx hij.2 hij.1
      dsimp only
      rw [c1]
      cases b with
      | false =>
        have hn : ¬ PtClose close nd (xb j) (xa i) := fun h => by simpa using c2.2 h
        refine ⟨_, rfl, L, rfl, hL.trans (List.sublist_append_left _ _), fun p => ?_⟩
        rw [hm, List.mem_append, List.mem_singleton]
        constructor
        · rintro ⟨a, b⟩; exact ⟨Or.inl a, b⟩
        · rintro ⟨a | rfl, b⟩
          · exact ⟨a, b⟩
          · exact absurd b hn
      | true =>
        refine ⟨_, rfl, L ++ [(i, j)], by simp, hL.append (List.Sublist.refl _), fun p => ?_⟩
        rw [List.mem_append, hm, List.mem_append, List.mem_singleton]
        constructor
        · rintro (⟨a, b⟩ | rfl)
          · exact ⟨Or.inl a, b⟩
          · exact ⟨Or.inr rfl, c2.1 rfl⟩
        · rintro ⟨a | a, b⟩
          · exact Or.inl ⟨a, b⟩
          · exact Or.inr a)
  refine ⟨s.1, s.2, L, ?_, by rw [h2], by rw [h2], h3, fun i j => ?_⟩
  · simp only [overlapping, hx.1, hy.1, if_true]
    exact h1
  · rw [h4, mem_it2, and_assoc]

/-! ### constructor of `ManualStitch` -/

/-- copy of a block of rows -/
theorem rowsCopy {n m N o : Nat} (hN : o + n ≤ N) (body : Ten α → Nat × Nat → Res (Ten α)) (val : Nat → Nat → α)
    (t : Ten α) (ht : t.shape = [N, m])
    (hb : ∀ i j, i < n → j < m → ∀ s : Ten α, s.shape = [N, m] → body s (i, j) = s.set [o + i, j] (val i j)) :
    ∃ t', forEach (it2 n m) body t = .ok t' ∧ t'.shape = [N, m] ∧
      (∀ i j, i < n → j < m → t'.v [o + i, j] = some (val i j)) ∧
      (∀ r j, r < o → t'.v [r, j] = t.v [r, j]) := by
  obtain ⟨t', h1, h2, h3, h4⟩ := forEach_set (it2 n m) body (fun p => [o + p.1, p.2]) (fun p => val p.1 p.2) t
    (by
      rintro ⟨i, j⟩ hp
      have := mem_it2.1 hp
      simp only [ht, inb_cons, inb_nil, Bool.and_true, Bool.and_eq_true, decide_eq_true_eq]
      exact ⟨by omega, this.2⟩)
    (by
      rintro ⟨i, j⟩ hp s hs
      have := mem_it2.1 hp
      exact hb i j this.1 this.2 s (by rw [hs, ht]))
  refine ⟨t', h1, by rw [h2, ht], fun i j hi hj => ?_, fun r j hr => h4 _ ?_⟩
  · obtain ⟨⟨i', j'⟩, a1, a2, a3⟩ := h3 [o + i, j] ⟨(i, j), mem_it2.2 ⟨hi, hj⟩, rfl⟩
    simp only [List.cons.injEq, and_true] at a2
    obtain rfl : i' = i := by omega
    rw [a3, a2.2]
  · rintro ⟨i, j'⟩ _ h
    simp only [List.cons.injEq] at h
    omega

theorem keep_length {nb : Nat} {ov : List Nat} (hn : ov.Nodup) (hlt : ∀ p ∈ ov, p < nb) :
    (setdiff1d (List.range nb) ov).length + ov.length = nb := by
  have hp : (setdiff1d (List.range nb) ov ++ ov).Perm (List.range nb) := by
    refine (List.perm_ext_iff_of_nodup ?_ List.nodup_range).2 fun a => ?_
    · refine List.nodup_append.2 ⟨setdiff1d_nodup _ _, hn, ?_⟩
      rintro a ha b hb rfl
      exact (mem_setdiff1d.1 ha).2 hb
    · rw [List.mem_append, mem_setdiff1d, List.mem_range]
      constructor
      · rintro (h | h)
        · exact h.1
        · exact hlt a h
      · intro h
        by_cases ha : a ∈ ov
        · exact Or.inr ha
        · exact Or.inl ⟨h, ha⟩
  simpa using hp.length_eq

theorem keep_length_dup {nb : Nat} {ov : List Nat} (hn : ¬ ov.Nodup) (hlt : ∀ p ∈ ov, p < nb) :
    (setdiff1d (List.range nb) ov).length + ov.length ≠ nb := by
  have h1 := keep_length (nb := nb) ov.nodup_dedup fun p hp => hlt p (List.mem_dedup.1 hp)
  have h2 : setdiff1d (List.range nb) ov = setdiff1d (List.range nb) ov.dedup := by
    refine sorted_ext (setdiff1d_sorted _ _) (setdiff1d_sorted _ _) fun a => ?_
    simp [mem_setdiff1d]
  have h3 : ov.dedup.length < ov.length := by
    have h := (List.dedup_sublist ov)
    rcases Nat.lt_or_ge ov.dedup.length ov.length with h' | h'
    · exact h'
    · exact absurd (by rw [← h.eq_of_length_le h']; exact ov.nodup_dedup) hn
  rw [h2]; omega

namespace ManualStitch

/-- node map of the second mesh -/
def nodeMap (nnda : Nat) (ov_a ov_b keep_b : List Nat) (p : Nat) : Nat :=
  if p ∈ ov_b then ov_a.getD (ov_b.idxOf p) 0 else nnda + keep_b.idxOf p

theorem mapB_ok {nnda nndb : Nat} {ov_a ov_b : List Nat} (hlen : ov_a.length = ov_b.length) (hn : ov_b.Nodup)
    (hlt : ∀ p ∈ ov_b, p < nndb) :
    ∃ t, mapB nnda nndb ov_a ov_b (setdiff1d (List.range nndb) ov_b) = .ok t ∧
      Is1 t nndb (nodeMap nnda ov_a ov_b (setdiff1d (List.range nndb) ov_b)) := by
  set keep := setdiff1d (List.range nndb) ov_b with hk
  have hkn : keep.Nodup := setdiff1d_nodup _ _
  obtain ⟨t, h1, h2, h3, h4⟩ := forEach_set (ov_b.zip ov_a) (fun (m : Ten Nat) p => m.set [p.1] p.2) (fun p => [p.1])
    (fun p => p.2) (Ten.empty [nndb]) (by
      rintro ⟨p, a⟩ hp
      have := hlt p (List.of_mem_zip hp).1
      simp [Ten.empty, this]) (fun _ _ _ _ => rfl)
  have hs : t.shape = [nndb] := h2
  obtain ⟨t', g1, g2, g3, g4⟩ := forEach_set (it1 keep.length) (fun (m : Ten Nat) k => do
      let n ← lget keep k
      m.set [n] (k + nnda)) (fun k => [keep.getD k 0]) (fun k => k + nnda) t (by
      intro k hk'
      have hk'' : k < keep.length := mem_it1.1 hk'
      have : keep[k] ∈ keep := List.getElem_mem hk''
      have := (mem_setdiff1d.1 this).1
      rw [List.mem_range] at this
      rw [getD_lt hk'', hs]
      simp [this]) (by
      intro k hk' s _
      have hk'' : k < keep.length := mem_it1.1 hk'
      rw [lget_ok hk'', getD_lt hk'']; rfl)
  refine ⟨t', by rw [mapB, h1]; exact g1, by rw [g2, hs], fun p hp => ?_⟩
  rw [nodeMap]
  by_cases hpo : p ∈ ov_b
  · rw [if_pos hpo, g4 [p]]
    · have hi := List.idxOf_lt_length_of_mem hpo
      have hmem : (p, ov_a[ov_b.idxOf p]'(by omega)) ∈ ov_b.zip ov_a := by
        rw [List.mem_iff_getElem]
        exact ⟨ov_b.idxOf p, by simp [hi]; omega, by simp⟩
      obtain ⟨⟨q, a⟩, b1, b2, b3⟩ := h3 [p] ⟨_, hmem, rfl⟩
      simp only [List.cons.injEq, and_true] at b2
      subst b2
      rw [b3, getD_lt (by omega)]
      obtain ⟨k, hk1, hk2⟩ := List.mem_iff_getElem.1 b1
      simp only [List.getElem_zip, Prod.mk.injEq] at hk2
      have hk3 : k < ov_b.length := by simp at hk1; omega
      have : ov_b.idxOf q = k := by rw [← hk2.1]; exact List.Nodup.idxOf_getElem hn k hk3
      simp only [this, hk2.2]
    · intro k hk' h
      have hk'' : k < keep.length := mem_it1.1 hk'
      simp only [List.cons.injEq, and_true, getD_lt hk''] at h
      exact (mem_setdiff1d.1 (List.getElem_mem hk'')).2 (h ▸ hpo)
  · rw [if_neg hpo]
    have hpk : p ∈ keep := mem_setdiff1d.2 ⟨List.mem_range.2 hp, hpo⟩
    have hi := List.idxOf_lt_length_of_mem hpk
    obtain ⟨k, b1, b2, b3⟩ := g3 [p] ⟨keep.idxOf p, mem_it1.2 hi, by
      rw [getD_lt hi, List.getElem_idxOf]⟩
    have hk'' : k < keep.length := mem_it1.1 b1
    simp only [List.cons.injEq, and_true, getD_lt hk''] at b2
    rw [b3, ← b2, List.Nodup.idxOf_getElem hkn k hk'', Nat.add_comm]

theorem mkConn_ok {conn_a conn_b map_b : Ten Nat} {nela nelb nne nndb : Nat} {Ca Cb P} (ha : Is2 conn_a nela nne Ca)
    (hb : Is2 conn_b nelb nne Cb) (hm : Is1 map_b nndb P) (hlt : ∀ e i, e < nelb → i < nne → Cb e i < nndb) :
    ∃ t, mkConn conn_a conn_b map_b nela nelb nne = .ok t ∧
      Is2 t (nela + nelb) nne fun e i => if e < nela then Ca e i else P (Cb (e - nela) i) := by
  obtain ⟨c, c1, c2, c3, -⟩ := rowsCopy (n := nela) (m := nne) (N := nela + nelb) (o := 0) (by omega)
    (fun (c : Ten Nat) em => do
      let n ← conn_a.get [em.1, em.2]
      c.set [em.1, em.2] n) Ca (Ten.empty [nela + nelb, nne]) rfl (by
      intro i j hi hj s _
      dsimp only
      rw [ha.get hi hj, Nat.zero_add]; rfl)
  obtain ⟨r, r1, r2, r3⟩ := renum_spec (arg := conn_b) (mapping := map_b) hb.flat_spec (g := P) (by
    intro ix hix
    rw [hb.1] at hix
    obtain ⟨e, i, rfl, he, hi⟩ := inb2.1 hix
    exact hm.get (hlt e i he hi))
  have hr : Is2 r nelb nne fun e i => P (Cb e i) :=
    ⟨by rw [r2, hb.1], fun e i he hi => r3 [e, i] (by simp [hb.1, he, hi])⟩
  obtain ⟨d, d1, d2, d3, d4⟩ := rowsCopy (n := nelb) (m := nne) (N := nela + nelb) (o := nela) le_rfl
    (fun (c : Ten Nat) em => do
      let n ← r.get [em.1, em.2]
      c.set [nela + em.1, em.2] n) (fun e i => P (Cb e i)) c c2 (by
      intro i j hi hj s _
      dsimp only
      rw [hr.get hi hj]; rfl)
  refine ⟨d, ?_, d2, fun e i he hi => ?_⟩
  · rw [mkConn, c1, Res.ok_bind, r1]
    exact d1
  · beta_reduce
    by_cases h : e < nela
    · rw [if_pos h, d4 e i h]
      have := c3 e i h hi
      rwa [Nat.zero_add] at this
    · rw [if_neg h]
      have := d3 (e - nela) i (by omega) hi
      rwa [show nela + (e - nela) = e by omega] at this

theorem mkCoor_ok {coor_a coor_b : Ten α} {nnda nndb nelim nd : Nat} {xa xb} {keep : List Nat}
    (ha : Is2 coor_a nnda nd xa) (hb : Is2 coor_b nndb nd xb) (hk : keep.length + nelim = nndb)
    (hlt : ∀ p ∈ keep, p < nndb) :
    ∃ t, mkCoor coor_a coor_b nnda nndb nelim nd keep = .ok t ∧
      Is2 t (nnda + keep.length) nd fun r k => if r < nnda then xa r k else xb (keep.getD (r - nnda) 0) k := by
  have hN : nnda + nndb - nelim = nnda + keep.length := by omega
  obtain ⟨c, c1, c2, c3, -⟩ := rowsCopy (n := nnda) (m := nd) (N := nnda + keep.length) (o := 0) (by omega)
    (fun (x : Ten α) nj => do
      let a ← coor_a.get [nj.1, nj.2]
      x.set [nj.1, nj.2] a) xa (Ten.empty [nnda + keep.length, nd]) rfl (by
      intro i j hi hj s _
      dsimp only
      rw [ha.get hi hj, Nat.zero_add]; rfl)
  obtain ⟨d, d1, d2, d3, d4⟩ := rowsCopy (n := keep.length) (m := nd) (N := nnda + keep.length) (o := nnda) le_rfl
    (fun (x : Ten α) kj => do
      let n ← lget keep kj.1
      let a ← coor_b.get [n, kj.2]
      x.set [nnda + kj.1, kj.2] a) (fun k j => xb (keep.getD k 0) j) c c2 (by
      intro i j hi hj s _
      dsimp only
      rw [lget_ok hi, Res.ok_bind, hb.get (hlt _ (List.getElem_mem hi)) hj,
        getD_lt hi]; rfl)
  refine ⟨d, ?_, d2, fun r k hr hk' => ?_⟩
  · rw [mkCoor, if_pos hk, hN, c1]
    exact d1
  · beta_reduce
    by_cases h : r < nnda
    · rw [if_pos h, d4 r k h]
      have := c3 r k h hk'
      rwa [Nat.zero_add] at this
    · rw [if_neg h]
      have := d3 (r - nnda) k (by omega) hk'
      rwa [show nnda + (r - nnda) = r by omega] at this

/-- the position check -/
theorem check_ok (close : α → α → Bool) {x y : Ten α} {na nb nd : Nat} {xa xb} (hx : Is2 x na nd xa)
    (hy : Is2 y nb nd xb) {ov_a ov_b : List Nat} (ha : ∀ p ∈ ov_a, p < na) (hb : ∀ p ∈ ov_b, p < nb) :
    ∃ b : Bool, check close x y nd ov_a ov_b = (if b then .ok () else .throws) ∧
      (b = true ↔ ∀ p ∈ ov_a.zip ov_b, PtClose close nd (xa p.1) (xb p.2)) := by
  obtain ⟨b, h1, h2⟩ := forEach_inv (ov_a.zip ov_b) (fun b p => do
    let c ← rowsClose close x y nd p.1 p.2
    (.ok (b && c) : Res Bool)) (fun pre b => b = true ↔ ∀ p ∈ pre, PtClose close nd (xa p.1) (xb p.2)) true
    (by simp) (by
      rintro pre ⟨i, j⟩ post s hl hs
      have hm : (i, j) ∈ ov_a.zip ov_b := by rw [hl]; simp
      obtain ⟨c, c1, c2⟩ := rowsClose_ok close hx hy (ha i (List.of_mem_zip hm).1) (hb j (List.of_mem_zip hm).2)
      dsimp only
      rw [c1]
      refine ⟨_, rfl, ?_⟩
      rw [Bool.and_eq_true, hs, c2]
      simp only [List.mem_append, List.mem_singleton]
      constructor
      · rintro ⟨a, b⟩ p (h | rfl)
        · exact a p h
        · exact b
      · intro h
        exact ⟨fun p hp => h p (Or.inl hp), h (i, j) (Or.inr rfl)⟩)
  refine ⟨b, ?_, h2⟩
  rw [check, h1]
  cases b <;> rfl

/-- the constructor once the position check has passed (or is not requested) -/
theorem new_ok (close : α → α → Bool) {ca cb : Ten α} {na nb : Ten Nat} {a b : MeshData α} {nd nne : Nat}
    (ha : a.Held nd nne ca na) (hb : b.Held nd nne cb nb) {ov_a ov_b : List Nat} (hlen : ov_a.length = ov_b.length)
    (hn : ov_b.Nodup) (hlt : ∀ p ∈ ov_b, p < b.nn) {chk : Bool}
    (hc : chk = true → check close ca cb nd ov_a ov_b = .ok ()) :
    ∃ S, new close ca na ov_a cb nb ov_b chk = .ok S ∧ S.nnd_a = a.nn ∧ S.nel_a = a.ne ∧ S.nel_b = b.ne ∧
      Is1 S.map_b b.nn (nodeMap a.nn ov_a ov_b (setdiff1d (List.range b.nn) ov_b)) ∧
      (Is2 S.conn (a.ne + b.ne) nne fun e i => if e < a.ne then a.C e i else
        nodeMap a.nn ov_a ov_b (setdiff1d (List.range b.nn) ov_b) (b.C (e - a.ne) i)) ∧
      (Is2 S.coor (a.nn + (setdiff1d (List.range b.nn) ov_b).length) nd fun r k => if r < a.nn then a.x r k else
        b.x ((setdiff1d (List.range b.nn) ov_b).getD (r - a.nn) 0) k) := by
  obtain ⟨m, m1, m2⟩ := mapB_ok (nnda := a.nn) hlen hn hlt
  obtain ⟨c, c1, c2⟩ := mkConn_ok ha.2.1 hb.2.1 m2 hb.2.2
  obtain ⟨x, x1, x2⟩ := mkCoor_ok ha.1 hb.1 (keep_length hn hlt) (fun p hp => List.mem_range.1 (mem_setdiff1d.1 hp).1)
  refine ⟨⟨x, c, m, a.nn, a.ne, b.ne⟩, ?_, rfl, rfl, rfl, m2, c2, x2⟩
  have hchk : positions close ca cb nd ov_a ov_b chk = .ok () := by
    cases chk with
    | false => rfl
    | true => exact hc rfl
  simp only [new, ha.1.1, ha.2.1.1, hb.1.1, hb.2.1.1]
  rw [if_pos ⟨hlen, trivial, trivial⟩, hchk, Res.ok_bind, m1, Res.ok_bind, c1,
    Res.ok_bind, hlen, x1]
  rfl

end ManualStitch

theorem elemOffset_succ (m : Nat → MeshData α) (i : Nat) : elemOffset m (i + 1) = elemOffset m i + (m i).ne := by
  rw [elemOffset, Finset.sum_range_succ]; rfl

theorem elemOffset_mono (m : Nat → MeshData α) {i j : Nat} (h : i ≤ j) : elemOffset m i ≤ elemOffset m j := by
  induction h with
  | refl => exact le_rfl
  | step _ ih => rw [elemOffset_succ]; omega

theorem elemOffset_lt (m : Nat → MeshData α) {i j e : Nat} (h : i < j) (he : e < (m i).ne) :
    elemOffset m i + e < elemOffset m j := by
  have := elemOffset_mono m (show i + 1 ≤ j from h)
  rw [elemOffset_succ] at this
  omega

namespace Stitch

/-- how the object represents a combined mesh -/
structure Rep (nd nne K : Nat) (m : Nat → MeshData α) (S : Stitch α) (N : Nat) (X : Nat → Nat → α)
    (CC : Nat → Nat → Nat) (P : Nat → Nat → Nat) : Prop where
  coor : Is2 S.coor N nd X
  conn : Is2 S.conn (elemOffset m K) nne CC
  len : S.map.length = K
  map : ∀ i, i < K → ∃ t, S.map[i]? = some t ∧ Is1 t (m i).nn (P i)
  nel : S.nel = (List.range K).map fun i => (m i).ne
  off : S.el_offset = (List.range K).map (elemOffset m)

/-- a single mesh -/
theorem numbered_one (nn : Nat → Nat) : Numbered 1 nn fun _ n => n := by
  intro j p hj _ _ i n _ hE
  rcases hE with h | ⟨-, h⟩
  · omega
  · exact h

/-- a further mesh whose nodes are numbered after the existing ones, in their order, unless they are existing nodes -/
theorem numbered_succ {K N : Nat} {nn : Nat → Nat} {P : Nat → Nat → Nat} {Q : Nat → Nat} (h : Numbered K nn P)
    (lt : ∀ i n, i < K → n < nn i → P i n < N) (surj : ∀ r, r < N → ∃ i n, i < K ∧ n < nn i ∧ P i n = r)
    (mono : ∀ p p', p < p' → p' < nn K → N ≤ Q p → N ≤ Q p' → Q p < Q p') :
    Numbered (K + 1) nn fun i => if i < K then P i else Q := by
  intro j p hj hp hno i n hn hE
  beta_reduce at hno ⊢
  by_cases hjK : j < K
  · have hi : i < K := by rcases hE with h | ⟨h, -⟩ <;> omega
    rw [if_pos hjK, if_pos hi]
    refine h j p hjK hp (fun i' n' hn' hE' => ?_) i n hn hE
    have hi' : i' < K := by rcases hE' with h | ⟨h, -⟩ <;> omega
    have := hno i' n' hn' hE'
    rwa [if_pos hjK, if_pos hi'] at this
  · obtain rfl : j = K := by omega
    rw [if_neg hjK]
    have hQ : N ≤ Q p := by
      by_contra hlt
      obtain ⟨i', n', a1, a2, a3⟩ := surj (Q p) (by omega)
      have := hno i' n' a2 (Or.inl a1)
      rw [if_pos a1, if_neg hjK] at this
      exact this a3
    rcases hE with h' | ⟨rfl, h'⟩
    · rw [if_pos h']
      have := lt i n h' hn
      omega
    · rw [if_neg hjK]
      by_cases hq : N ≤ Q n
      · exact mono n p h' hp hq hQ
      · omega

/-- the first mesh -/
theorem first_ok (close : α → α → Bool) {nd nne : Nat} {m : Nat → MeshData α} {co : Ten α} {cn : Ten Nat}
    (h : (m 0).Held nd nne co cn) :
    Rep nd nne 1 m (first co cn) (m 0).nn (m 0).x (m 0).C (fun _ n => n) ∧
      Combined close nd nne 1 m (m 0).nn (m 0).x (m 0).C (fun _ n => n) := by
  have h1 : elemOffset m 1 = (m 0).ne := by simp [elemOffset]
  have h0 : elemOffset m 0 = 0 := by simp [elemOffset]
  refine ⟨⟨h.1, ?_, rfl, ?_, ?_, ?_⟩, ⟨?_, ?_, ?_, ?_, ?_, ?_, ?_, ?_⟩⟩
  · rw [h1]; exact h.2.1
  · intro i hi
    obtain rfl : i = 0 := by omega
    refine ⟨_, rfl, ?_, fun n hn => ?_⟩
    · simp [ManualStitch.arangeFrom, Ten.of, h.1.1]
    · simp [ManualStitch.arangeFrom, Ten.of]
  · simp [first, h.2.1.1, List.range_succ]
  · simp [first, h0, List.range_succ]
  · intro i n hi hn
    obtain rfl : i = 0 := by omega
    exact hn
  · intro e k he hk
    rw [h1] at he
    exact h.2.2 e k he hk
  · intro i e k hi _ _
    obtain rfl : i = 0 := by omega
    rw [h0, Nat.zero_add]
  · intro i n hi hn
    obtain rfl : i = 0 := by omega
    exact Or.inl fun _ _ => rfl
  · intro i j _ _ hi hj
    omega
  · intro i n n' _ _ _ h
    exact Or.inl h
  · intro r hr
    exact ⟨0, r, by omega, hr, rfl, fun _ _ => rfl⟩
  · exact numbered_one _

/-- a further mesh, glued with a given list of pairs of nodes `(node of the combined mesh, node of the new mesh)` -/
theorem glue_ok (close : α → α → Bool) {nd nne K : Nat} (hK : 0 < K) {m : Nat → MeshData α} {S : Stitch α} {N X CC P}
    (hR : Rep nd nne K m S N X CC P) {co : Ten α} {cn : Ten Nat} (h : (m K).Held nd nne co cn)
    (hlt : ∀ e k, e < elemOffset m K → k < nne → CC e k < N)
    {L : List (Nat × Nat)} (hn : (L.map Prod.snd).Nodup) (hL : ∀ p ∈ L, p.2 < (m K).nn) {chk : Bool}
    (hc : chk = true → ManualStitch.check close S.coor co nd (L.map Prod.fst) (L.map Prod.snd) = .ok ()) :
    ∃ st S' N' X' CC' Q, ManualStitch.new close S.coor S.conn (L.map Prod.fst) co cn (L.map Prod.snd) chk = .ok st ∧
      Is1 st.map_b (m K).nn Q ∧
      S.append st cn = .ok S' ∧ Rep nd nne (K + 1) m S' N' X' CC' (fun i => if i < K then P i else Q) ∧
      N ≤ N' ∧ (∀ r, r < N → X' r = X r) ∧
      (∀ e k, CC' e k = if e < elemOffset m K then CC e k else Q ((m K).C (e - elemOffset m K) k)) ∧
      (∀ p, p < (m K).nn → (∃ a, (a, p) ∈ L ∧ Q p = a) ∨
        ((∀ a, (a, p) ∉ L) ∧ N ≤ Q p ∧ Q p < N' ∧ X' (Q p) = (m K).x p)) ∧
      (∀ p p', p < p' → p' < (m K).nn → (∀ a, (a, p) ∉ L) → (∀ a, (a, p') ∉ L) → Q p < Q p') ∧
      (∀ r, N ≤ r → r < N' → ∃ p, p < (m K).nn ∧ (∀ a, (a, p) ∉ L) ∧ Q p = r ∧ X' r = (m K).x p) ∧
      N' + L.length = N + (m K).nn := by
  have hov : ∀ p, p ∈ L.map Prod.snd ↔ ∃ a, (a, p) ∈ L := fun p => by simp
  have hlt' : ∀ p ∈ L.map Prod.snd, p < (m K).nn := by
    intro p hp
    obtain ⟨a, ha⟩ := (hov p).1 hp
    exact hL _ ha
  obtain ⟨st, s1, -, -, -, s5, s6, s7⟩ := ManualStitch.new_ok close (a := ⟨N, elemOffset m K, X, CC⟩) (b := m K)
    ⟨hR.coor, hR.conn, hlt⟩ h (ov_a := L.map Prod.fst) (ov_b := L.map Prod.snd) (by simp) hn hlt' hc
  dsimp only at s5 s6 s7
  set keep := setdiff1d (List.range (m K).nn) (L.map Prod.snd) with hkeep
  set Q := ManualStitch.nodeMap N (L.map Prod.fst) (L.map Prod.snd) keep with hQ
  have hkn : keep.Nodup := setdiff1d_nodup _ _
  have hkm : ∀ p, p ∈ keep ↔ p < (m K).nn ∧ ∀ a, (a, p) ∉ L := by
    intro p
    rw [hkeep, mem_setdiff1d, List.mem_range, hov, not_exists]
  have hnew : ∀ p, p < (m K).nn → (∀ a, (a, p) ∉ L) → Q p = N + keep.idxOf p := by
    intro p hp hno
    rw [hQ, ManualStitch.nodeMap, if_neg]
    rw [hov]; push Not; exact hno
  have hXnew : ∀ k, k < keep.length → (fun k' => if N + k < N then X (N + k) k' else
      (m K).x (keep.getD (N + k - N) 0) k') = (m K).x (keep.getD k 0) := by
    intro k hk
    funext k'
    rw [if_neg (by omega), Nat.add_sub_cancel_left]
  have e1 : lget S.el_offset (S.map.length - 1) = .ok (elemOffset m (K - 1)) := by
    rw [hR.off, hR.len, lget_ok (by simp; omega)]
    simp
  have e2 : lget S.nel (S.map.length - 1) = .ok (m (K - 1)).ne := by
    rw [hR.nel, hR.len, lget_ok (by simp; omega)]
    simp
  have e3 : elemOffset m (K - 1) + (m (K - 1)).ne = elemOffset m K := by
    rw [← elemOffset_succ]; congr 1; omega
  refine ⟨st, ⟨st.coor, st.conn, S.map ++ [st.nodemap 1], S.nel ++ [cn.shape.getD 0 0],
    S.el_offset ++ [elemOffset m K]⟩, N + keep.length, (fun r k => if r < N then X r k else
      (m K).x (keep.getD (r - N) 0) k), _, Q, s1, s5, ?_, ⟨s7, ?_, ?_, ?_, ?_, ?_⟩, by omega, ?_, fun _ _ => rfl, ?_,
      ?_, ?_, ?_⟩
  · rw [append, e1, Res.ok_bind, e2, Res.ok_bind, e3]
  · rw [elemOffset_succ]; exact s6
  · simp [hR.len]
  · intro i hi
    by_cases hiK : i < K
    · obtain ⟨t, t1, t2⟩ := hR.map i hiK
      refine ⟨t, ?_, by rw [if_pos hiK]; exact t2⟩
      rw [List.getElem?_append_left (by rw [hR.len]; exact hiK)]
      exact t1
    · obtain rfl : i = K := by omega
      refine ⟨st.map_b, ?_, by rw [if_neg hiK]; exact s5⟩
      rw [List.getElem?_append_right (by rw [hR.len]), hR.len]
      simp [ManualStitch.nodemap]
  · simp [hR.nel, List.range_succ, h.2.1.1]
  · simp [hR.off, List.range_succ]
  · intro r hr
    funext k
    exact if_pos hr
  · intro p hp
    by_cases hin : ∃ a, (a, p) ∈ L
    · left
      have hmem := (hov p).2 hin
      have hi := List.idxOf_lt_length_of_mem hmem
      rw [List.length_map] at hi
      refine ⟨(L[(L.map Prod.snd).idxOf p]).1, ?_, ?_⟩
      · have : (L[(L.map Prod.snd).idxOf p]).2 = p := by
          have := List.getElem_idxOf (List.idxOf_lt_length_of_mem hmem)
          rwa [List.getElem_map] at this
        have h2 := List.getElem_mem (l := L) hi
        rwa [← Prod.eta (L[(L.map Prod.snd).idxOf p]), this] at h2
      · rw [hQ, ManualStitch.nodeMap, if_pos hmem, getD_lt (by simpa using hi), List.getElem_map]
    · right
      push Not at hin
      have hpk := (hkm p).2 ⟨hp, hin⟩
      have hi := List.idxOf_lt_length_of_mem hpk
      refine ⟨hin, by rw [hnew p hp hin]; omega, by rw [hnew p hp hin]; omega, ?_⟩
      rw [hnew p hp hin]
      refine (hXnew _ hi).trans ?_
      rw [getD_lt hi, List.getElem_idxOf]
  · intro p p' hpp hp' hno hno'
    rw [hnew p (by omega) hno, hnew p' hp' hno']
    have := (idxOf_sorted_lt (setdiff1d_sorted _ _) ((hkm p).2 ⟨by omega, hno⟩) ((hkm p').2 ⟨hp', hno'⟩)).2 hpp
    exact Nat.add_lt_add_left this N
  · intro r hr hr'
    have hi : r - N < keep.length := by omega
    have hp := (hkm _).1 (List.getElem_mem hi)
    refine ⟨keep[r - N], hp.1, hp.2, ?_, ?_⟩
    · rw [hnew _ hp.1 hp.2, List.Nodup.idxOf_getElem hkn _ hi]; omega
    · have := hXnew _ hi
      rw [getD_lt hi] at this
      rw [← this, show N + (r - N) = r by omega]
  · have := keep_length hn hlt'
    rw [List.length_map] at this
    rw [hkeep]; omega

end Stitch
end GF
