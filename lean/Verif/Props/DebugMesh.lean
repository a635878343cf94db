import Verif.Model.DebugMesh
import Verif.Lemmas.Debug
import Verif.Props.Stitch
import Verif.Props.StitchManual
import Verif.Props.Vstack
import Verif.Props.RefineRegular
import Verif.Props.MeshMeasures
import Verif.Props.TyingsPeriodic

/-! **C108** The build with assertions: the mesh classes and functions. -/

namespace GF
variable {α : Type}

/-- **C108.** The constructors of the regular meshes reject a mesh without elements, and nothing else. -/
theorem C108_regular (nelx nely nelz : Nat) (h : α) :
    Checked (Quad4.Regular.new_checked nelx nely h) (.ok (Quad4.Regular.new nelx nely h)) (0 < nelx ∧ 0 < nely)
      (fun M => 0 < M.nelem) ∧
    Checked (Tri3.Regular.new_checked nelx nely h) (.ok (Tri3.Regular.new nelx nely h)) (0 < nelx ∧ 0 < nely)
      (fun M => 0 < M.nelem) ∧
    Checked (Hex8.Regular.new_checked nelx nely nelz h) (.ok (Hex8.Regular.new nelx nely nelz h))
      (0 < nelx ∧ 0 < nely ∧ 0 < nelz) (fun M => 0 < M.nelem) := by
  refine ⟨Checked.of2 fun h1 h2 => ⟨_, rfl, ?_⟩, Checked.of2 fun h1 h2 => ⟨_, rfl, ?_⟩, ?_⟩
  · exact Nat.mul_pos h1 h2
  · exact Nat.mul_pos (Nat.mul_pos h1 h2) (by omega)
  · constructor
    · rintro ⟨h1, h2, h3⟩
      refine ⟨?_, _, rfl, Nat.mul_pos (Nat.mul_pos h1 h2) h3⟩
      simp only [Hex8.Regular.new_checked, gassert_bind]
      rw [if_pos (show 1 ≤ nelx from h1), if_pos (show 1 ≤ nely from h2), if_pos (show 1 ≤ nelz from h3)]
    · intro hn
      simp only [Hex8.Regular.new_checked, gassert_bind]
      split
      · split
        · split
          · exact absurd ⟨by assumption, by assumption, by assumption⟩ hn
          · rfl
        · rfl
      · rfl

/-- the largest entry of an array is below a positive bound if and only if all entries are -/
theorem amax_lt {t : Ten Nat} {f : List Nat → Nat} (h : Full t f) {n : Nat} (hn : 0 < n) :
    ∃ a, amax t = .ok a ∧ (a < n ↔ ∀ ix, inb t.shape ix = true → f ix < n) := by
  obtain ⟨a, h1, h2, h3⟩ := amax_ok h
  refine ⟨a, h1, fun ha ix hix => Nat.lt_of_le_of_lt (h2 ix hix) ha, fun hall => ?_⟩
  rcases h3 with rfl | ⟨ix, hix, rfl⟩
  · exact hn
  · exact hall ix hix

namespace ManualStitch

/-- what the assertions of the constructor demand: two meshes of two-dimensional arrays, with the same number of coordinates per
node and nodes per element, and lists of overlapping nodes of the same length -/
def Compatible (coor_a : Ten α) (conn_a : Ten Nat) (ov_a : List Nat) (coor_b : Ten α) (conn_b : Ten Nat) (ov_b : List Nat) : Prop :=
  ∃ na nb ea eb nd nne, coor_a.shape = [na, nd] ∧ coor_b.shape = [nb, nd] ∧ conn_a.shape = [ea, nne] ∧ conn_b.shape = [eb, nne] ∧
    ov_a.length = ov_b.length

theorem rank2 {β : Type} {t : Ten β} (h : t.rank = 2) : ∃ a b, t.shape = [a, b] := by
  rw [Ten.rank] at h
  exact List.length_eq_two.1 h

/-- **C108.** The constructor of `ManualStitch` with assertions: the same as without for meshes that fit together, otherwise an
exception where the build without assertions is undefined. -/
theorem C108_new (close : α → α → Bool) (coor_a : Ten α) (conn_a : Ten Nat) (ov_a : List Nat) (coor_b : Ten α) (conn_b : Ten Nat)
    (ov_b : List Nat) (check_position : Bool) :
    (Compatible coor_a conn_a ov_a coor_b conn_b ov_b →
      new_checked close coor_a conn_a ov_a coor_b conn_b ov_b check_position =
        new close coor_a conn_a ov_a coor_b conn_b ov_b check_position) ∧
    (¬ Compatible coor_a conn_a ov_a coor_b conn_b ov_b →
      new_checked close coor_a conn_a ov_a coor_b conn_b ov_b check_position = .throws ∧
      new close coor_a conn_a ov_a coor_b conn_b ov_b check_position = .ub) := by
  constructor
  · rintro ⟨na, nb, ea, eb, nd, nne, h1, h2, h3, h4, h5⟩
    simp only [new_checked, gassert_bind, Ten.rank, h1, h2, h3, h4, h5]
    simp
  · intro hn
    constructor
    · simp only [new_checked, gassert_bind]
      split
      · split
        · split
          · split
            · split
              · split
                · split
                  · rename_i r1 r2 r3 r4 r5 r6 r7
                    obtain ⟨a, b, h1⟩ := rank2 r1
                    obtain ⟨c, d, h2⟩ := rank2 r2
                    obtain ⟨e, f, h3⟩ := rank2 r3
                    obtain ⟨g, k, h4⟩ := rank2 r4
                    rw [h1, h3] at r6
                    rw [h2, h4] at r7
                    obtain rfl : b = f := r6
                    obtain rfl : d = k := r7
                    exact absurd ⟨_, _, _, _, _, _, h1, h3, h2, h4, r5⟩ hn
                  · rfl
                · rfl
              · rfl
            · rfl
          · rfl
        · rfl
      · rfl
    · unfold new
      split
      · rename_i h1 h2 h3 h4
        split
        · rename_i h5
          obtain ⟨h5, rfl, rfl⟩ := h5
          exact absurd ⟨_, _, _, _, _, _, h1, h3, h2, h4, h5⟩ hn
        · rfl
      · rfl

/-- **C108.** The maps and sets of `ManualStitch` with assertions, for a set of any rank: an exception for a mesh other than 0 and 1 and
for a set with a node or element that the mesh does not have; otherwise the result of the build without assertions, which is
the image of the set. -/
theorem C108_sets {a b : MeshData α} {nd nne : Nat} {ov : List (Nat × Nat)} {S : ManualStitch α} {N X CC P}
    (hJ : Joined nd nne a b ov S N X CC P) (h0 : 0 < a.nn ∧ 0 < b.nn ∧ 0 < a.ne ∧ 0 < b.ne) {set : Ten Nat} {f : List Nat → Nat}
    (hf : Full set f) (i : Nat) :
    Checked (S.nodemap_checked i) (.ok (S.nodemap i)) (i ≤ 1)
      (fun t => if i = 0 then Is1 t a.nn fun n => n else Is1 t b.nn P) ∧
    Checked (S.elemmap_checked i) (.ok (S.elemmap i)) (i ≤ 1)
      (fun t => if i = 0 then Is1 t a.ne fun e => e else Is1 t b.ne fun e => a.ne + e) ∧
    Checked (S.nodeset_checked set i) (S.nodeset set i)
      (i ≤ 1 ∧ ∀ ix, inb set.shape ix = true → f ix < if i = 0 then a.nn else b.nn)
      (fun r => r.shape = set.shape ∧ Full r fun ix => if i = 0 then f ix else P (f ix)) ∧
    Checked (S.elemset_checked set i) (S.elemset set i)
      (i ≤ 1 ∧ ∀ ix, inb set.shape ix = true → f ix < if i = 0 then a.ne else b.ne)
      (fun r => r.shape = set.shape ∧ Full r fun ix => if i = 0 then f ix else a.ne + f ix) := by
  obtain ⟨p1, p2, p3, p4⟩ := h0
  have e1 : S.nnd_a = a.nn := by simpa [nodemap, arangeFrom, Ten.of] using hJ.nodemap0.1
  have e2 : S.map_b.shape = [b.nn] := hJ.nodemap1.1
  have e3 : S.nel_a = a.ne := by simpa [elemmap, arangeFrom, Ten.of] using hJ.elemmap0.1
  have e4 : S.nel_b = b.ne := by simpa [elemmap, arangeFrom, Ten.of] using hJ.elemmap1.1
  obtain ⟨⟨s1, s2⟩, s3, s4⟩ := C57_sets hJ hf
  refine ⟨Checked.of1 fun h => ⟨_, rfl, ?_⟩, Checked.of1 fun h => ⟨_, rfl, ?_⟩, ?_, ?_⟩
  · split
    · rename_i hi
      rw [hi]; exact hJ.nodemap0
    · rename_i hi
      rw [show i = 1 by omega]; exact hJ.nodemap1
  · split
    · rename_i hi
      rw [hi]; exact hJ.elemmap0
    · rename_i hi
      rw [show i = 1 by omega]; exact hJ.elemmap1
  · by_cases h1 : i ≤ 1
    · rcases (show i = 0 ∨ i = 1 by omega) with rfl | rfl
      · obtain ⟨m, m1, m2⟩ := amax_lt hf p1
        have : S.nodeset_checked set 0 = (gassert (m < a.nn) >>= fun _ => S.nodeset set 0) := by
          rw [nodeset_checked, m1, e1]; rfl
        rw [this]
        refine (Checked.of1 fun h => ⟨_, s1, rfl, ?_⟩).congr (by rw [m2]; simp)
        simpa using hf
      · obtain ⟨m, m1, m2⟩ := amax_lt hf p2
        have : S.nodeset_checked set 1 = (gassert (m < b.nn) >>= fun _ => S.nodeset set 1) := by
          rw [nodeset_checked, m1, e2]; simp [gassert_bind]
        rw [this]
        refine (Checked.of1 fun h => ?_).congr (by rw [m2]; simp)
        simpa using s3 (m2.1 h)
    · refine ⟨fun h => absurd h.1 h1, fun _ => ?_⟩
      rw [nodeset_checked, gassert_bind, if_neg h1]
  · by_cases h1 : i ≤ 1
    · rcases (show i = 0 ∨ i = 1 by omega) with rfl | rfl
      · obtain ⟨m, m1, m2⟩ := amax_lt hf p3
        have : S.elemset_checked set 0 = (gassert (m < a.ne) >>= fun _ => S.elemset set 0) := by
          rw [elemset_checked, m1, e3]; rfl
        rw [this]
        refine (Checked.of1 fun h => ⟨_, s2, rfl, ?_⟩).congr (by rw [m2]; simp)
        simpa using hf
      · obtain ⟨m, m1, m2⟩ := amax_lt hf p4
        have : S.elemset_checked set 1 = (gassert (m < b.ne) >>= fun _ => S.elemset set 1) := by
          rw [elemset_checked, m1, e4]; rfl
        rw [this]
        refine (Checked.of1 fun h => ?_).congr (by rw [m2]; simp)
        simpa using s4
    · refine ⟨fun h => absurd h.1 h1, fun _ => ?_⟩
      rw [elemset_checked, gassert_bind, if_neg h1]

end ManualStitch

/-- **C108.** `overlapping` with assertions: an exception for arrays that do not fit together, where the build without assertions is
undefined. -/
theorem C108_overlapping (close : α → α → Bool) (x y : Ten α) :
    ((∃ na nb nd, x.shape = [na, nd] ∧ y.shape = [nb, nd]) → overlapping_checked close x y = overlapping close x y) ∧
    (¬ (∃ na nb nd, x.shape = [na, nd] ∧ y.shape = [nb, nd]) →
      overlapping_checked close x y = .throws ∧ overlapping close x y = .ub) := by
  constructor
  · rintro ⟨na, nb, nd, h1, h2⟩
    simp only [overlapping_checked, gassert_bind, Ten.rank, h1, h2]
    simp
  · intro hn
    constructor
    · simp only [overlapping_checked, gassert_bind]
      split
      · split
        · split
          · rename_i r1 r2 r3
            obtain ⟨a, b, h1⟩ := ManualStitch.rank2 r1
            obtain ⟨c, d, h2⟩ := ManualStitch.rank2 r2
            rw [h1, h2] at r3
            obtain rfl : b = d := r3
            exact absurd ⟨_, _, _, h1, h2⟩ hn
          · rfl
        · rfl
      · rfl
    · unfold overlapping
      split
      · rename_i h1 h2
        split
        · rename_i h3
          subst h3
          exact absurd ⟨_, _, _, h1, h2⟩ hn
        · rfl
      · rfl

namespace Stitch

/-- **C108.** `Stitch::push_back` with assertions raises no false alarm: for two-dimensional arrays it succeeds if and only if the
build without assertions does, with the same result. -/
theorem C108_push_back (close : α → α → Bool) (S W : Stitch α) {co : Ten α} {cn : Ten Nat} (h1 : co.rank = 2) (h2 : cn.rank = 2) :
    S.push_back_checked close co cn = .ok W ↔ S.push_back close co cn = .ok W := by
  rw [push_back_checked, gassert_bind, if_pos h1, gassert_bind, if_pos h2, push_back]
  split
  · rfl
  · by_cases hc : ∃ na nb nd, S.coor.shape = [na, nd] ∧ co.shape = [nb, nd]
    · rw [(C108_overlapping close S.coor co).1 hc]
      cases hov : overlapping close S.coor co with
      | ok ov =>
        rw [Res.ok_bind, Res.ok_bind]
        by_cases hm : ManualStitch.Compatible S.coor S.conn ov.1 co cn ov.2
        · rw [(ManualStitch.C108_new close S.coor S.conn ov.1 co cn ov.2 false).1 hm]
          cases ManualStitch.new close S.coor S.conn ov.1 co cn ov.2 false with
          | ok st => rfl
          | throws => rfl
          | ub => rfl
        · rw [((ManualStitch.C108_new close S.coor S.conn ov.1 co cn ov.2 false).2 hm).1,
            ((ManualStitch.C108_new close S.coor S.conn ov.1 co cn ov.2 false).2 hm).2]
          exact ⟨fun h => (nomatch h), fun h => (nomatch h)⟩
      | throws => exact ⟨fun h => (nomatch h), fun h => (nomatch h)⟩
      | ub => exact ⟨fun h => (nomatch h), fun h => (nomatch h)⟩
    · rw [((C108_overlapping close S.coor co).2 hc).1, ((C108_overlapping close S.coor co).2 hc).2]
      exact ⟨fun h => (nomatch h), fun h => (nomatch h)⟩

/-- **C108.** ... and it throws if the new mesh has a different number of coordinates per node, where the build without assertions is
undefined. -/
theorem C108_push_back_mismatch (close : α → α → Bool) (S : Stitch α) {co : Ten α} {cn : Ten Nat} (hS : S.map.length ≠ 0)
    {n nd n' nd' : Nat} (h1 : S.coor.shape = [n, nd]) (h2 : co.shape = [n', nd']) (h3 : cn.rank = 2) (h : nd ≠ nd') :
    S.push_back_checked close co cn = .throws ∧ S.push_back close co cn = .ub := by
  have hc : ¬ ∃ na nb nd, S.coor.shape = [na, nd] ∧ co.shape = [nb, nd] := by
    rintro ⟨a, b, c, e1, e2⟩
    rw [h1] at e1; rw [h2] at e2
    simp at e1 e2
    omega
  have hr : co.rank = 2 := by rw [Ten.rank, h2]; rfl
  constructor
  · rw [push_back_checked, gassert_bind, if_pos hr, gassert_bind, if_pos h3, if_neg hS, ((C108_overlapping close S.coor co).2 hc).1]
    rfl
  · rw [push_back, if_neg hS, ((C108_overlapping close S.coor co).2 hc).2]
    rfl

theorem history_checked_succ (close : α → α → Bool) (co : Nat → Ten α) (cn : Nat → Ten Nat) (K : Nat) :
    history_checked close co cn (K + 1) = (history_checked close co cn K).bind fun S => S.push_back_checked close (co K) (cn K) := by
  rw [history_checked, it1, List.range_succ, forEach_append, ← it1]
  show _ = (history_checked close co cn K) >>= _
  rw [history_checked]
  cases forEach (it1 K) (fun S i => S.push_back_checked close (co i) (cn i)) new with
  | ok a => simp only [Res.ok_bind]; cases h : a.push_back_checked close (co K) (cn K) <;> simp [forEach, h]
  | throws => rfl
  | ub => rfl

/-- **C108.** A whole sequence of calls of `push_back`: the build with assertions succeeds if and only if the one without does, with the
same object. -/
theorem C108_history (close : α → α → Bool) {co : Nat → Ten α} {cn : Nat → Ten Nat} (K : Nat)
    (h : ∀ i, i < K → (co i).rank = 2 ∧ (cn i).rank = 2) (W : Stitch α) :
    history_checked close co cn K = .ok W ↔ history close co cn K = .ok W := by
  induction K generalizing W with
  | zero => rfl
  | succ K ih =>
    have ih := ih fun i hi => h i (by omega)
    obtain ⟨r1, r2⟩ := h K (by omega)
    rw [history_checked_succ, history_succ]
    constructor
    · intro e
      cases hs : history_checked close co cn K with
      | ok S =>
        rw [hs] at e
        rw [(ih S).1 hs]
        exact (C108_push_back close S W r1 r2).1 e
      | throws => rw [hs] at e; exact (nomatch e)
      | ub => rw [hs] at e; exact (nomatch e)
    · intro e
      cases hs : history close co cn K with
      | ok S =>
        rw [hs] at e
        rw [(ih S).2 hs]
        exact (C108_push_back close S W r1 r2).2 e
      | throws => rw [hs] at e; exact (nomatch e)
      | ub => rw [hs] at e; exact (nomatch e)

/-- **C108.** The maps and sets of a stitched mesh with assertions, for sets of any rank: an exception for a sub-mesh that does not exist
and for a set with a node or element that the sub-mesh does not have, otherwise the image of the set, as without assertions. -/
theorem C108_sets (close : α → α → Bool) {nd nne : Nat} {m : Nat → MeshData α} {co : Nat → Ten α}
    {cn : Nat → Ten Nat} (K : Nat) (hK : 0 < K) (h : ∀ i, i < K → (m i).Held nd nne (co i) (cn i)) {S : Stitch α}
    (hS : history close co cn K = .ok S) (h0 : ∀ i, i < K → 0 < (m i).nn ∧ 0 < (m i).ne) {set : Ten Nat} {f : List Nat → Nat}
    (hf : Full set f) (i : Nat) :
    ∃ P : Nat → Nat → Nat,
    Checked (S.nodemap_checked i) (S.nodemap i) (i < K) (fun t => Is1 t (m i).nn (P i)) ∧
    Checked (S.elemmap_checked i) (S.elemmap i) (i < K) (fun t => Is1 t (m i).ne fun e => elemOffset m i + e) ∧
    Checked (S.nodeset_checked set i) (S.nodeset set i)
      (i < K ∧ ∀ ix, inb set.shape ix = true → f ix < (m i).nn)
      (fun r => r.shape = set.shape ∧ Full r fun ix => P i (f ix)) ∧
    Checked (S.elemset_checked set i) (S.elemset set i)
      (i < K ∧ ∀ ix, inb set.shape ix = true → f ix < (m i).ne)
      (fun r => r.shape = set.shape ∧ Full r fun ix => elemOffset m i + f ix) := by
  obtain ⟨S', N, X, CC, P, e, hR, -⟩ := history_ok close K hK h (history_of_ok close K h hS)
  rw [hS] at e
  obtain rfl : S = S' := Res.ok.inj e
  refine ⟨P, ?_⟩
  by_cases hi : i < K
  · obtain ⟨p1, p2⟩ := h0 i hi
    obtain ⟨t, t1, t2⟩ := hR.map i hi
    have hl : lget S.map i = .ok t := by rw [lget, t1]
    have hn : lget S.nel i = .ok (m i).ne := by rw [hR.nel, lget_ok (by simpa using hi)]; simp
    have ho : lget S.el_offset i = .ok (elemOffset m i) := by rw [hR.off, lget_ok (by simpa using hi)]; simp
    have hi' : i < S.map.length := by rw [hR.len]; exact hi
    obtain ⟨a, a1, a2⟩ := amax_lt hf p1
    obtain ⟨b, b1, b2⟩ := amax_lt hf p2
    have ea : a = b := Res.ok.inj (a1.symm.trans b1)
    subst ea
    refine ⟨⟨fun _ => ⟨by rw [nodemap_checked, gassert_bind, if_pos hi'], t, hl, t2⟩, fun hh => absurd hi hh⟩,
      ⟨fun _ => ⟨by rw [elemmap_checked, gassert_bind, if_pos hi'],
        ManualStitch.arangeFrom (m i).ne (elemOffset m i), by rw [elemmap, hn, ho]; rfl, rfl, fun e he => ?_⟩,
        fun hh => absurd hi hh⟩, ?_, ?_⟩
    · simp [ManualStitch.arangeFrom, Ten.of, inb, he, Nat.add_comm]
    · have : S.nodeset_checked set i = (gassert (a < (m i).nn) >>= fun _ => S.nodeset set i) := by
        rw [nodeset_checked, gassert_bind, if_pos hi', a1, Res.ok_bind, hl, Res.ok_bind, t2.1]; simp
      rw [this]
      refine (Checked.of1 fun hh => ?_).congr (by rw [a2]; simp [hi])
      exact C39_nodeset hl t2 hf (a2.1 hh)
    · have : S.elemset_checked set i = (gassert (a < (m i).ne) >>= fun _ => S.elemset set i) := by
        rw [elemset_checked, gassert_bind, if_pos hi', b1, Res.ok_bind, hn, Res.ok_bind]
      rw [this]
      refine (Checked.of1 fun hh => ?_).congr (by rw [b2]; simp [hi])
      exact C39_elemset close K hK h hS hi hf
  · have hi' : ¬ i < S.map.length := by rw [hR.len]; exact hi
    refine ⟨⟨fun hh => absurd hh hi, fun _ => ?_⟩, ⟨fun hh => absurd hh hi, fun _ => ?_⟩, ⟨fun hh => absurd hh.1 hi, fun _ => ?_⟩,
      ⟨fun hh => absurd hh.1 hi, fun _ => ?_⟩⟩
    · rw [nodemap_checked, gassert_bind, if_neg hi']
    · rw [elemmap_checked, gassert_bind, if_neg hi']
    · rw [nodeset_checked, gassert_bind, if_neg hi']
    · rw [elemset_checked, gassert_bind, if_neg hi']

/-- **C108.** Sets of all sub-meshes at once: an exception if there is not one set per sub-mesh. -/
theorem C108_all_sets (S : Stitch α) (sets : List (Ten Nat)) (h : sets.length ≠ S.nmesh) :
    S.nodesets_checked sets = .throws ∧ S.elemsets_checked sets = .throws := by
  constructor
  · rw [nodesets_checked, gassert_bind]; exact if_neg h
  · rw [elemsets_checked, gassert_bind]; exact if_neg h

theorem gatherSets_congr {c c' : Ten Nat → Nat → Res (Ten Nat)} (sets : List (Ten Nat)) (h : ∀ i s, sets[i]? = some s → c s i = c' s i) :
    gatherSets c sets = gatherSets c' sets := by
  have H : ∀ (l : List (Ten Nat)) (n : Nat) (b : List Nat), (∀ i s, l[i]? = some s → c s (n + i) = c' s (n + i)) →
      forEach l (fun s set => do
        let t ← c set s.2
        let l ← t.flat
        .ok (s.1 ++ l, s.2 + 1)) (b, n) = forEach l (fun s set => do
        let t ← c' set s.2
        let l ← t.flat
        .ok (s.1 ++ l, s.2 + 1)) (b, n) := by
    intro l
    induction l with
    | nil => intro n b _; rfl
    | cons a l ih =>
      intro n b hh
      have h0 := hh 0 a rfl
      rw [forEach_cons, forEach_cons]
      simp only [Nat.add_zero] at h0
      rw [h0]
      cases ht : c' a n with
      | ok t =>
        simp only [Res.ok_bind]
        cases hl : t.flat with
        | ok w =>
          simp only [Res.ok_bind]
          refine ih (n + 1) (b ++ w) fun i s hi => ?_
          have := hh (i + 1) s (by simpa using hi)
          rw [show n + 1 + i = n + (i + 1) by omega]; exact this
        | throws => rfl
        | ub => rfl
      | throws => rfl
      | ub => rfl
  rw [gatherSets, gatherSets, H sets 0 [] fun i s hi => by rw [Nat.zero_add]; exact h i s hi]

/-- **C108.** ... and the same result as without assertions if there is one set per sub-mesh and every one is accepted. -/
theorem C108_all_sets_same (S : Stitch α) (sets : List (Ten Nat)) (h : sets.length = S.nmesh) :
    ((∀ i s, sets[i]? = some s → S.nodeset_checked s i = S.nodeset s i) → S.nodesets_checked sets = S.nodesets sets) ∧
    ((∀ i s, sets[i]? = some s → S.elemset_checked s i = S.elemset s i) → S.elemsets_checked sets = S.elemsets sets) := by
  constructor
  · intro hh
    rw [nodesets_checked, gassert_bind, if_pos (show sets.length = S.map.length from h), nodesets, gatherSets_congr sets hh]
  · intro hh
    rw [elemsets_checked, gassert_bind, if_pos (show sets.length = S.map.length from h), elemsets, gatherSets_congr sets hh]

end Stitch

namespace Vstack

theorem mapRes_ok_lt {t : Ten Nat} {n : Nat} (ht : t.shape = [n]) {l l' : List Nat} (h : mapRes (fun k => t.get [k]) l = .ok l') :
    ∀ k ∈ l, k < n := by
  induction l generalizing l' with
  | nil => intro k hk; exact absurd hk (by simp)
  | cons a l ih =>
    intro k hk
    rw [mapRes] at h
    cases hg : t.get [a] with
    | ok b =>
      rw [hg, Res.ok_bind] at h
      cases hl : mapRes (fun k => t.get [k]) l with
      | ok c =>
        rcases List.mem_cons.1 hk with rfl | hk
        · by_contra hlt
          rw [Ten.get, ht] at hg
          simp [inb, hlt] at hg
        · exact ih hl k hk
      | throws => rw [hl] at h; exact (nomatch h)
      | ub => rw [hl] at h; exact (nomatch h)
    | throws => rw [hg] at h; exact (nomatch h)
    | ub => rw [hg] at h; exact (nomatch h)

theorem bind_ok_iff {β γ : Type} {x : Res β} {f : β → Res γ} {w : γ} : (x >>= f) = .ok w ↔ ∃ a, x = .ok a ∧ f a = .ok w := by
  cases x with
  | ok a => simp
  | throws => exact ⟨fun h => (nomatch h), fun ⟨_, h, _⟩ => (nomatch h)⟩
  | ub => exact ⟨fun h => (nomatch h), fun ⟨_, h, _⟩ => (nomatch h)⟩

theorem forEach_preserves {ι σ : Type} {f : σ → ι → Res σ} {I : σ → Prop} (h : ∀ s i s', f s i = .ok s' → I s → I s') (l : List ι) {s s' : σ}
    (e : forEach l f s = .ok s') (hs : I s) : I s' := by
  induction l generalizing s with
  | nil => obtain rfl := Res.ok.inj e; exact hs
  | cons a l ih =>
    rw [forEach_cons] at e
    obtain ⟨b, e1, e2⟩ := bind_ok_iff.1 e
    exact ih e2 (h _ _ _ e1 hs)

theorem set_shape {β : Type} {t t' : Ten β} {ix : List Nat} {a : β} (h : t.set ix a = .ok t') : t'.shape = t.shape := by
  rw [Ten.set] at h
  split at h
  · obtain rfl := Res.ok.inj h; rfl
  · exact (nomatch h)

/-- the node map of a glued mesh has one entry per node of the second mesh -/
theorem map_b_shape {close : α → α → Bool} {ca cb : Ten α} {na nb : Ten Nat} {oa ob : List Nat} {chk : Bool} {S : ManualStitch α}
    (h : ManualStitch.new close ca na oa cb nb ob chk = .ok S) : S.map_b.shape = [cb.shape.getD 0 0] := by
  rw [ManualStitch.new] at h
  split at h
  · rename_i h1 h2 h3 h4
    split at h
    · obtain ⟨_, -, h⟩ := bind_ok_iff.1 h
      obtain ⟨mp, e, h⟩ := bind_ok_iff.1 h
      obtain ⟨_, -, h⟩ := bind_ok_iff.1 h
      obtain ⟨_, -, h⟩ := bind_ok_iff.1 h
      obtain rfl := Res.ok.inj h
      show mp.shape = _
      rw [ManualStitch.mapB] at e
      obtain ⟨m0, e0, e⟩ := bind_ok_iff.1 e
      have a0 := forEach_preserves (I := fun t => t.shape = [cb.shape.getD 0 0]) (fun s i s' hs hI => (set_shape hs).trans hI) _ e0 (by
        rw [h3]; rfl)
      refine forEach_preserves (I := fun t => t.shape = [cb.shape.getD 0 0]) (fun s i s' hs hI => ?_) _ e a0
      obtain ⟨n, -, hs⟩ := bind_ok_iff.1 hs
      exact (set_shape hs).trans hI
    · exact (nomatch h)
  · exact (nomatch h)

theorem foldl_max_lt' {l : List Nat} {n : Nat} (hn : 0 < n) : l.foldl max 0 < n ↔ ∀ k ∈ l, k < n := by
  constructor
  · intro h k hk
    exact Nat.lt_of_le_of_lt ((le_foldl_max l 0).2 k hk) h
  · intro h
    rcases foldl_max_mem l 0 with e | e
    · rw [e]; exact hn
    · exact h _ e

theorem shiftY_shape [Add α] {x y : Ten α} {s : α} (h : shiftY x s = .ok y) : y.shape = x.shape := by
  rw [shiftY] at h
  refine forEach_preserves (I := fun t => t.shape = x.shape) (fun a i a' ha hI => ?_) _ h rfl
  rw [Ten.addAt] at ha
  obtain ⟨b, -, hs⟩ := bind_ok_iff.1 ha
  exact (set_shape hs).trans hI

variable [LinearOrder α] [Add α]

/-- **C108.** `Vstack::push_back` with assertions raises no false alarm: for a mesh with nodes it succeeds if and only if the build without
assertions does, with the same object. -/
theorem C108_push_back (close : α → α → Bool) (V W : Vstack α) (co : Ten α) (cn : Ten Nat) (bot top : List Nat)
    (h0 : 0 < co.shape.getD 0 0) :
    V.push_back_checked close co cn bot top = .ok W ↔ V.push_back close co cn bot top = .ok W := by
  rw [push_back_checked, push_back]
  split
  · rfl
  · constructor
    · intro h
      obtain ⟨t, e1, h⟩ := bind_ok_iff.1 h
      obtain ⟨_, e2, h⟩ := bind_ok_iff.1 h
      obtain ⟨s, e3, h⟩ := bind_ok_iff.1 h
      obtain ⟨x, e4, h⟩ := bind_ok_iff.1 h
      obtain ⟨st, e5, h⟩ := bind_ok_iff.1 h
      obtain ⟨_, e6, h⟩ := bind_ok_iff.1 h
      obtain ⟨b', e7, h⟩ := bind_ok_iff.1 h
      obtain ⟨_, e8, h⟩ := bind_ok_iff.1 h
      have e5' : ManualStitch.new close V.base.coor V.base.conn t x cn bot V.check = .ok st := by
        by_cases hc : ManualStitch.Compatible V.base.coor V.base.conn t x cn bot
        · rw [(ManualStitch.C108_new close V.base.coor V.base.conn t x cn bot V.check).1 hc] at e5; exact e5
        · rw [((ManualStitch.C108_new close V.base.coor V.base.conn t x cn bot V.check).2 hc).1] at e5; exact (nomatch e5)
      rw [e3, Res.ok_bind, e4, Res.ok_bind, e1, Res.ok_bind, e5', Res.ok_bind, e7, Res.ok_bind]
      exact h
    · intro h
      obtain ⟨s, e3, h⟩ := bind_ok_iff.1 h
      obtain ⟨x, e4, h⟩ := bind_ok_iff.1 h
      obtain ⟨t, e1, h⟩ := bind_ok_iff.1 h
      obtain ⟨st, e5, h⟩ := bind_ok_iff.1 h
      obtain ⟨b', e7, h⟩ := bind_ok_iff.1 h
      obtain ⟨t', e8, h⟩ := bind_ok_iff.1 h
      have hc : ManualStitch.Compatible V.base.coor V.base.conn t x cn bot := by
        by_contra hc
        rw [((ManualStitch.C108_new close V.base.coor V.base.conn t x cn bot V.check).2 hc).2] at e5; exact (nomatch e5)
      have hl : t.length = bot.length := by
        obtain ⟨_, _, _, _, _, _, -, -, -, -, hl⟩ := hc; exact hl
      have hsh := map_b_shape e5
      have hpos : 0 < st.map_b.shape.prod := by rw [hsh, shiftY_shape e4]; simpa using h0
      have hp : st.map_b.shape.prod = x.shape.getD 0 0 := by rw [hsh]; simp
      have g1 : bot.foldl max 0 < st.map_b.shape.prod := (foldl_max_lt' hpos).2 fun k hk => by
        rw [hp]; exact mapRes_ok_lt hsh e7 k hk
      have g2 : top.foldl max 0 < st.map_b.shape.prod := (foldl_max_lt' hpos).2 fun k hk => by
        rw [hp]; exact mapRes_ok_lt hsh e8 k hk
      rw [e1, Res.ok_bind, gassert_bind, if_pos hl.symm, e3, Res.ok_bind, e4, Res.ok_bind,
        (ManualStitch.C108_new close V.base.coor V.base.conn t x cn bot V.check).1 hc, e5, Res.ok_bind, gassert_bind, if_pos g1, e7,
        Res.ok_bind, gassert_bind, if_pos g2, e8, Res.ok_bind]
      exact h

/-- **C108.** ... and it throws if the edges have a different number of nodes. -/
theorem C108_push_back_mismatch (close : α → α → Bool) (V : Vstack α) (co : Ten α) (cn : Ten Nat) (bot top t : List Nat)
    (hV : V.base.map.length ≠ 0) (ht : V.nodes_top.getLast? = some t) (h : bot.length ≠ t.length) :
    V.push_back_checked close co cn bot top = .throws := by
  have e1 : lget V.nodes_top (V.nodes_top.length - 1) = .ok t := by
    rw [lget, ← List.getLast?_eq_getElem?, ht]
  rw [push_back_checked, if_neg hV, e1, Res.ok_bind, gassert_bind, if_neg h]

end Vstack

/-- **C108.** The constructor of `Reorder` with assertions: an exception if one of the lists has a repetition; otherwise the same as
without.  A number that is in two lists is not caught. -/
theorem C108_reorder (args : List (List Nat)) :
    ((∀ a ∈ args, a.Nodup) → Reorder.index_checked args = Reorder.index args) ∧
    ((∃ a ∈ args, ¬ a.Nodup) → Reorder.index_checked args = .throws) ∧
    (args.flatten.Nodup → IsOk (Reorder.index_checked args) fun _ => True) := by
  have H : ∀ l : List (List Nat), ((∀ a ∈ l, a.Nodup) → forEach l (fun _ arg => gassert arg.Nodup) () = .ok ()) ∧
      ((∃ a ∈ l, ¬ a.Nodup) → forEach l (fun _ arg => gassert arg.Nodup) () = .throws) := by
    intro l
    induction l with
    | nil => exact ⟨fun _ => rfl, fun ⟨_, h, _⟩ => absurd h (by simp)⟩
    | cons a l ih =>
      rw [forEach_cons, gassert_bind']
      refine ⟨fun h => ?_, fun h => ?_⟩
      · rw [if_pos (h a (by simp))]
        exact ih.1 fun b hb => h b (by simp [hb])
      · split
        · rename_i ha
          obtain ⟨b, hb, hn⟩ := h
          rcases List.mem_cons.1 hb with rfl | hb
          · exact absurd ha hn
          · exact ih.2 ⟨b, hb, hn⟩
        · rfl
  have h1 : (∀ a ∈ args, a.Nodup) → Reorder.index_checked args = Reorder.index args := fun h => by
    rw [Reorder.index_checked, (H args).1 h]; rfl
  refine ⟨h1, fun h => by rw [Reorder.index_checked, (H args).2 h]; rfl, fun h => ?_⟩
  obtain ⟨idx, n, e, -⟩ := Reorder.index_spec h
  exact ⟨idx, by rw [h1 (List.nodup_flatten.1 h).1, e], trivial⟩

/-- a number in two lists: 0 gets the number 1, the number 0 is not used -/
example : ∃ y, Reorder.index_checked [[0], [0]] = .ok y ∧ y.shape = [1] ∧ y.v [0] = some 1 := ⟨_, rfl, rfl, rfl⟩

/-- a repetition in one list -/
example : Reorder.index_checked [[0, 1], [2, 2]] = .throws := (C108_reorder _).2.1 ⟨[2, 2], by decide, by decide⟩

namespace RefineRegular

/-- **C108.** The maps of `RefineRegular` with assertions, for data of any rank: an exception if the number of rows of the data is not the
number of elements of the mesh they are defined on, otherwise the same as without assertions, a complete array. -/
theorem C108_map [Field α] (nelx nely nx ny : Nat) (h : α) {R : RefineRegular α}
    (hR : RefineRegular.new (Quad4.Regular.new nelx nely h) nx ny = .ok R) {data : Ten α} {n : Nat} {rest : List Nat}
    (hs : data.shape = n :: rest) (hc : Complete data) :
    Checked (R.meanToCoarse_checked data) (R.meanToCoarse data) (n = nx * nelx * (ny * nely)) (CompleteOf (nelx * nely :: rest)) ∧
    Checked (R.mapToFine_checked data) (R.mapToFine data) (n = nelx * nely) (CompleteOf (nx * nelx * (ny * nely) :: rest)) := by
  obtain ⟨R', h1, h2, h3, -, -, h6⟩ := new_ok nelx nely nx ny h
  rw [hR] at h1
  obtain rfl : R = R' := Res.ok.inj h1
  obtain ⟨b1, b2, b3⟩ := fineOf_bij (nelx := nelx) (nely := nely) (nx := nx) (ny := ny)
  have hn : nx * nelx * (ny * nely) = nelx * nely * (nx * ny) := by ring
  have hf : Full data fun ix => (data.v ix).getD 0 := fun ix hix => by
    obtain ⟨a, ha⟩ := hc ix hix
    simp [ha]
  have e0 : data.shape.getD 0 0 = n := by rw [hs]; rfl
  constructor
  · refine (Checked.of1 fun hh => ?_).congr (show data.shape.getD 0 0 = R.c2f.shape.prod ↔ _ by
      rw [e0, h6.1, hn]; simp)
    rw [e0, h6.1] at hh
    have hh' : n = nx * nelx * (ny * nely) := by rw [hn, hh]; simp
    obtain ⟨y, y1, y2, y3⟩ := meanToCoarse_ok h6 b1 (hh' ▸ hs) hf
    refine ⟨y, y1, y2, fun ix hix => ?_⟩
    rw [y2] at hix
    cases ix with
    | nil => simp [inb] at hix
    | cons e ix =>
      simp [inb] at hix
      exact ⟨_, y3 e ix hix.1 hix.2⟩
  · refine (Checked.of1 fun hh => ?_).congr (show data.shape.getD 0 0 = R.c2f.shape.getD 0 0 ↔ _ by
      rw [e0, h6.1]; rfl)
    rw [e0, h6.1] at hh
    have hh' : n = nelx * nely := hh
    haveI : Inhabited α := ⟨0⟩
    rw [hn] at b1 b2 ⊢
    obtain ⟨y, y1, y2, y3⟩ := mapToFine_ok h6 b1 b2 b3 (hh' ▸ hs) hf
    refine ⟨y, y1, y2, fun ix hix => ?_⟩
    rw [y2] at hix
    cases ix with
    | nil => simp [inb] at hix
    | cons e ix =>
      simp [inb] at hix
      obtain ⟨c, k, hc, hk, rfl⟩ := b2 e hix.1
      exact ⟨_, y3 c k ix hc hk hix.2⟩

/-- **C108.** `averageToCoarse` with assertions tests the data but not the weights: an exception for data with a wrong number of rows ... -/
theorem C108_average [Field α] (nelx nely nx ny : Nat) (h : α) {R : RefineRegular α}
    (hR : RefineRegular.new (Quad4.Regular.new nelx nely h) nx ny = .ok R) {data weights : Ten α} {n : Nat} {rest : List Nat}
    (hs : data.shape = n :: rest) (hc : Complete data) (hw : CompleteOf data.shape weights) :
    Checked (R.averageToCoarse_checked data weights) (R.averageToCoarse data weights) (n = nx * nelx * (ny * nely))
      (CompleteOf (nelx * nely :: rest)) := by
  obtain ⟨R', h1, h2, h3, -, -, h6⟩ := new_ok nelx nely nx ny h
  rw [hR] at h1
  obtain rfl : R = R' := Res.ok.inj h1
  obtain ⟨b1, b2, b3⟩ := fineOf_bij (nelx := nelx) (nely := nely) (nx := nx) (ny := ny)
  have hn : nx * nelx * (ny * nely) = nelx * nely * (nx * ny) := by ring
  have hf : Full data fun ix => (data.v ix).getD 0 := fun ix hix => by
    obtain ⟨a, ha⟩ := hc ix hix
    simp [ha]
  have hf' : Full weights fun ix => (weights.v ix).getD 0 := fun ix hix => by
    obtain ⟨a, ha⟩ := hw.2 ix hix
    simp [ha]
  have e0 : data.shape.getD 0 0 = n := by rw [hs]; rfl
  refine (Checked.of1 fun hh => ?_).congr (show data.shape.getD 0 0 = R.c2f.shape.prod ↔ _ by
      rw [e0, h6.1, hn]; simp)
  rw [e0, h6.1] at hh
  have hh' : n = nx * nelx * (ny * nely) := by rw [hn, hh]; simp
  obtain ⟨y, y1, y2, y3⟩ := averageToCoarse_ok h6 b1 (hh' ▸ hs) hf (hw.1.trans (hh' ▸ hs)) hf'
  refine ⟨y, y1, y2, fun ix hix => ?_⟩
  rw [y2] at hix
  cases ix with
  | nil => simp [inb] at hix
  | cons e ix =>
    simp [inb] at hix
    exact ⟨_, y3 e ix hix.1 hix.2⟩

end RefineRegular

/-- what the assertions of the functions on quadrilateral meshes demand -/
def ValidQuad4 (coor : Ten α) (conn : Ten Nat) : Prop :=
  ∃ nn ne, 0 < nn ∧ coor.shape = [nn, 2] ∧ conn.shape = [ne, 4] ∧ ∀ ix, inb conn.shape ix = true → ∀ n, conn.v ix = some n → n < nn

theorem assert_quad4 {coor : Ten α} {conn : Ten Nat} (hc : Complete conn) :
    (ValidQuad4 coor conn → assertMesh coor conn = .ok () ∧ assertQuad4 coor conn .Quad4 = .ok ()) ∧
    (¬ ValidQuad4 coor conn → (do assertMesh coor conn; assertQuad4 coor conn .Quad4) = Res.throws) := by
  have hf : Full conn fun ix => (conn.v ix).getD 0 := fun ix hix => by
    obtain ⟨a, ha⟩ := hc ix hix
    simp [ha]
  obtain ⟨a, a1, a2, a3⟩ := amax_ok hf
  constructor
  · rintro ⟨nn, ne, h0, h1, h2, h3⟩
    have ha : a < nn := by
      rcases a3 with rfl | ⟨ix, hix, rfl⟩
      · exact h0
      · exact h3 ix hix _ (hf ix hix)
    constructor
    · simp only [assertMesh, gassert_bind, Ten.rank, a1, Res.ok_bind, h1, h2]
      simp [gassert, ha]
    · simp only [assertQuad4, gassert_bind, h1, h2]
      simp [gassert]
  · intro hn
    simp only [assertMesh, assertQuad4, gassert_bind, a1, Res.ok_bind]
    split
    · split
      · rename_i r1 r2
        rw [gassert]
        split
        · rename_i r3
          simp only [Res.ok_bind, gassert]
          simp only [if_true]
          split
          · rename_i r4
            split
            · rename_i r5
              obtain ⟨p, q, e1⟩ := ManualStitch.rank2 r1
              obtain ⟨r, s, e2⟩ := ManualStitch.rank2 r2
              rw [e1] at r3 r4
              rw [e2] at r5
              obtain rfl : q = 2 := r4
              obtain rfl : s = 4 := r5
              refine absurd ⟨p, r, Nat.lt_of_le_of_lt (Nat.zero_le _) r3, e1, e2, fun ix hix n hv => ?_⟩ hn
              have := a2 ix hix
              rw [hv] at this
              exact Nat.lt_of_le_of_lt this r3
            · rfl
          · rfl
        · rfl
      · rfl
    · rfl

/-- **C108.** `edgesize` and `centers` of a quadrilateral mesh with assertions: an exception if an element refers to a node that does not
exist or if the arrays are not those of a mesh of quadrilaterals; otherwise the same as without, a complete array. -/
theorem C108_measures [Field α] (sqrt : α → α) {coor : Ten α} {conn : Ten Nat} (hx : Complete coor) (hc : Complete conn) :
    Checked (edgesize_checked sqrt coor conn .Quad4) (edgesize sqrt coor conn .Quad4) (ValidQuad4 coor conn)
      (CompleteOf conn.shape) ∧
    Checked (centers_checked coor conn .Quad4) (centers coor conn .Quad4) (ValidQuad4 coor conn)
      (CompleteOf [conn.shape.getD 0 0, 2]) := by
  obtain ⟨A1, A2⟩ := assert_quad4 (coor := coor) hc
  have bad : ∀ {β : Type} (x : Res β), ¬ ValidQuad4 coor conn → (do assertMesh coor conn; assertQuad4 coor conn .Quad4; x) = .throws := by
    intro β x hn
    have := A2 hn
    revert this
    cases assertMesh coor conn with
    | ok u =>
      simp only [Res.ok_bind]
      intro h
      rw [h]; rfl
    | throws => intro _; rfl
    | ub => intro h; exact (nomatch h)
  constructor
  · refine ⟨fun hv => ?_, fun hn => bad _ hn⟩
    obtain ⟨e1, e2⟩ := A1 hv
    obtain ⟨nn, ne, h0, h1, h2, h3⟩ := hv
    obtain ⟨x, hX⟩ := hx.is2 h1
    obtain ⟨C, hC⟩ := hc.is2 h2
    obtain ⟨y, y1, y2⟩ := edgesize_ok sqrt hC hX fun e m he hm => h3 [e, m] (by simp [h2, inb, he, hm]) _ (hC.2 e m he hm)
    refine ⟨?_, y, y1, ?_⟩
    · rw [edgesize_checked, e1, Res.ok_bind, e2, Res.ok_bind]
    · rw [h2]; exact y2.complete
  · refine ⟨fun hv => ?_, fun hn => bad _ hn⟩
    obtain ⟨e1, e2⟩ := A1 hv
    obtain ⟨nn, ne, h0, h1, h2, h3⟩ := hv
    obtain ⟨x, hX⟩ := hx.is2 h1
    obtain ⟨C, hC⟩ := hc.is2 h2
    obtain ⟨y, y1, y2⟩ := centers_ok hC hX (le_refl 4) fun e m he hm => h3 [e, m] (by simp [h2, inb, he, hm]) _ (hC.2 e m he hm)
    refine ⟨?_, y, y1, ?_⟩
    · rw [centers_checked, e1, Res.ok_bind, e2, Res.ok_bind]
    · rw [h2]; exact y2.complete

/-- **C108.** `elemmap2nodemap` with assertions: the same as without for a valid mesh and an element map with one entry per element ... -/
theorem C108_nodemap {coor : Ten α} {conn elem_map : Ten Nat} {nn ne : Nat} {x C E} (hx : Is2 coor nn 2 x) (hc : Is2 conn ne 4 C)
    (hE : Is1 elem_map ne E) (h0 : 0 < nn) (hlt : ∀ e m, e < ne → m < 4 → C e m < nn) :
    elemmap2nodemap_checked elem_map coor conn .Quad4 = elemmap2nodemap elem_map coor conn .Quad4 ∧
    ((∀ e, e < ne → E e < ne) → IsOk (elemmap2nodemap elem_map coor conn .Quad4) (CompleteOf [nn])) ∧
    ((∃ e, e < ne ∧ ne ≤ E e) → elemmap2nodemap elem_map coor conn .Quad4 = .ub) := by
  obtain ⟨e1, e2⟩ := (assert_quad4 (coor := coor) (conn := conn) hc.complete.2).1 ⟨nn, ne, h0, hx.1, hc.1, fun ix hix n hn => by
    rw [hc.1] at hix
    obtain ⟨e, m, rfl, he, hm⟩ := inb2.1 hix
    rw [hc.2 e m he hm] at hn
    rw [← Option.some.inj hn]
    exact hlt e m he hm⟩
  refine ⟨?_, fun hEl => ?_, fun hbad => ?_⟩
  · rw [elemmap2nodemap_checked, e1, e2]
    simp [gassert_bind, Ten.rank, hE.1, hc.1]
  · obtain ⟨t, r, t1, t2, -⟩ := elemmap2nodemap_ok hc (le_refl 4) hE hEl hx hlt
    exact ⟨t, t1, t2.complete⟩
  · rw [elemmap2nodemap, hx.1, hc.1]
    simp only [if_true]
    have : it1 4 = [0, 1, 2, 3] := rfl
    rw [this, forEach_cons]
    have : nodemapCol elem_map conn nn ne 0 (Ten.full [nn] nn) = .ub := by
      rw [nodemapCol]
      have := forEach_eq_ub (it1 ne) (fun (t : Ten Nat) e => do
        let n ← conn.get [e, 0]
        let e' ← elem_map.get [e]
        let n' ← conn.get [e', 0]
        t.set [n] n') (fun t => t.shape = [nn]) (Ten.full [nn] nn) rfl (fun e he t ht => ?_) ?_
      · rw [this]; rfl
      · have he := mem_it1.1 he
        rw [hc.get he (by omega), Res.ok_bind, hE.get he, Res.ok_bind]
        by_cases h : E e < ne
        · right
          rw [hc.get h (by omega), Res.ok_bind]
          refine ⟨_, if_pos (by rw [ht]; simp [inb, hlt e 0 he (by omega)]), ht⟩
        · left
          rw [Ten.get, hc.1]
          simp [inb, h]
      · obtain ⟨e, he, hb⟩ := hbad
        refine ⟨e, mem_it1.2 he, fun t ht => ?_⟩
        rw [hc.get he (by omega), Res.ok_bind, hE.get he, Res.ok_bind, Ten.get, hc.1]
        simp [inb, show ¬ E e < ne by omega]
    rw [this]; rfl

/-! ### Periodic tyings -/

/-- the entries of the arrays -/
theorem Periodic.flat_eq {coor : Ten α} {dofs control tyings : Ten Nat} {nnode ndim nties : Nat} {x d c t}
    (hx : Is2 coor nnode ndim x) (hd : Is2 dofs nnode ndim d) (hc : Is2 control ndim ndim c) (ht : Is2 tyings nties 2 t) :
    ∃ l lc lt : List Nat, dofs.flat = .ok l ∧ control.flat = .ok lc ∧ tyings.flat = .ok lt ∧
    (∀ k, k ∈ l ↔ ∃ m i, m < nnode ∧ i < ndim ∧ d m i = k) ∧ (∀ k, k ∈ lc ↔ ∃ m i, m < ndim ∧ i < ndim ∧ c m i = k) ∧
    (∀ k, k ∈ lt ↔ ∃ m i, m < nties ∧ i < 2 ∧ t m i = k) := by
  have mem : ∀ {u : Ten Nat} {n m : Nat} {f : Nat → Nat → Nat}, Is2 u n m f → ∃ l, u.flat = .ok l ∧
      ∀ k, k ∈ l ↔ ∃ a b, a < n ∧ b < m ∧ f a b = k := by
    intro u n m f hu
    refine ⟨_, flat_ok (f := fun ix => f (ix.getD 0 0) (ix.getD 1 0)) (fun ix hix => ?_), fun k => ?_⟩
    · rw [hu.1] at hix
      obtain ⟨a, b, rfl, ha, hb⟩ := inb2.1 hix
      exact hu.2 a b ha hb
    · simp only [List.mem_map, mem_indices, hu.1]
      constructor
      · rintro ⟨ix, hix, rfl⟩
        obtain ⟨a, b, rfl, ha, hb⟩ := inb2.1 hix
        exact ⟨a, b, ha, hb, rfl⟩
      · rintro ⟨a, b, ha, hb, rfl⟩
        exact ⟨[a, b], by simp [inb, ha, hb], rfl⟩
  obtain ⟨l, l1, l2⟩ := mem hd
  obtain ⟨lc, c1, c2⟩ := mem hc
  obtain ⟨lt, t1, t2⟩ := mem ht
  exact ⟨l, lc, lt, l1, c1, t1, l2, c2, t2⟩

/-- **C108.** The constructor of `Tyings::Periodic` with assertions raises no false alarm: for valid input it does the same as without,
namely complete. -/
theorem Periodic.C108_new {coor : Ten α} {dofs control tyings : Ten Nat} {iip : List Nat} {nnode ndim nties : Nat} {x d c t}
    (hx : Is2 coor nnode ndim x) (hd : Is2 dofs nnode ndim d) (hc : Is2 control ndim ndim c) (ht : Is2 tyings nties 2 t)
    (h0 : 0 < nnode) (hI : Input nnode ndim nties d c t iip) :
    Periodic.new_checked coor dofs control tyings iip = Periodic.new coor dofs control tyings iip ∧
    IsOk (Periodic.new coor dofs control tyings iip) fun T => T.ndim = ndim ∧ T.nties = nties ∧ T.nnp = iip.length := by
  obtain ⟨l, lc, lt, l1, c1, t1, l2, c2, t2⟩ := Periodic.flat_eq hx hd hc ht
  obtain ⟨T, q, p, hT, -, n1, n2, n3, -⟩ := C25_constructor hx hd hc ht hI
  refine ⟨?_, T, hT, n1, n2, n3⟩
  have sub : ∀ {a : List Nat}, (∀ k ∈ a, k ∈ l) → a.foldl max 0 ≤ l.foldl max 0 ∧ aminGe a l := by
    intro a ha
    constructor
    · rcases foldl_max_mem a 0 with e | e
      · rw [e]; exact Nat.zero_le _
      · exact (le_foldl_max l 0).2 _ (ha _ e)
    · exact fun k hk => ⟨k, ha k hk, le_refl _⟩
  have hlc := sub (a := lc) fun k hk => by
    obtain ⟨m, i, hm, hi, rfl⟩ := (c2 k).1 hk
    exact (l2 _).2 (hI.ctrl_mem m i hm hi)
  have hip := sub (a := iip) fun k hk => (l2 _).2 (hI.iip_mem k hk)
  have hlt : lt.foldl max 0 < nnode := (Vstack.foldl_max_lt' h0).2 fun k hk => by
    obtain ⟨m, i, hm, hi, rfl⟩ := (t2 k).1 hk
    rcases (show i = 0 ∨ i = 1 by omega) with rfl | rfl
    · exact (hI.tie_lt m hm).1
    · exact (hI.tie_lt m hm).2
  have hdep : dependentDofs dofs tyings nties ndim =
      .ok ((it2 nties ndim).map fun y => d (t y.1 1) y.2) := by
    apply mapRes_ok
    rintro ⟨i, j⟩ hy
    rw [mem_it2] at hy
    obtain ⟨hi, hj⟩ := hy
    simp [ht.get hi (show 1 < 2 by omega), hd.get (hI.tie_lt i hi).2 hj]
  have hnd : ((it2 nties ndim).map fun y => d (t y.1 1) y.2).Nodup := by
    refine List.Nodup.map_on ?_ (nodup_it2 _ _)
    rintro ⟨i, j⟩ h ⟨i', j'⟩ h' e
    rw [mem_it2] at h h'
    obtain ⟨rfl, rfl⟩ := hI.dep_inj i j i' j' h.1 h.2 h'.1 h'.2 e
    rfl
  have hre : ∀ u, Reorder.apply_checked [setdiff1d (setdiff1d l ((it2 nties ndim).map fun y => d (t y.1 1) y.2)) iip, iip,
      (it2 nties ndim).map fun y => d (t y.1 1) y.2] u =
      Reorder.apply [setdiff1d (setdiff1d l ((it2 nties ndim).map fun y => d (t y.1 1) y.2)) iip, iip,
      (it2 nties ndim).map fun y => d (t y.1 1) y.2] u := by
    intro u
    rw [Reorder.apply_checked, Reorder.apply, (C108_reorder _).1]
    intro a ha
    simp only [List.mem_cons, List.not_mem_nil, or_false] at ha
    rcases ha with rfl | rfl | rfl
    · exact setdiff1d_nodup _ _
    · exact hI.iip_nodup
    · exact hnd
  rw [Periodic.new_checked, Periodic.new]
  simp only [gassert_bind, hx.1, hd.1, hc.1, ht.1, l1, c1, t1, Res.ok_bind, List.getD_cons_zero, List.getD_cons_succ, if_true, hdep, hre]
  rw [if_pos hlc.1, if_pos hlc.2, if_pos hip.1, if_pos hip.2, if_pos hlt]

/-- **C108.** What the assertions of `Tyings::Periodic` guarantee: if the constructor completes, it does so without assertions too, all
tied nodes exist, no DOF is prescribed twice, no node is tied twice, and no prescribed or control DOF is larger than all DOFs. -/
theorem Periodic.C108_guarantee {coor : Ten α} {dofs control tyings : Ten Nat} {iip : List Nat} {nnode ndim nties : Nat} {x d c t}
    (hx : Is2 coor nnode ndim x) (hd : Is2 dofs nnode ndim d) (hc : Is2 control ndim ndim c) (ht : Is2 tyings nties 2 t)
    {T : Periodic α} (hT : Periodic.new_checked coor dofs control tyings iip = .ok T) :
    Periodic.new coor dofs control tyings iip = .ok T ∧
    (∀ i, i < nties → t i 0 < nnode ∧ t i 1 < nnode) ∧ iip.Nodup ∧
    (∀ i j i' j', i < nties → j < ndim → i' < nties → j' < ndim → d (t i 1) j = d (t i' 1) j' → i = i' ∧ j = j') ∧
    (∀ k ∈ iip, 0 < k → ∃ m i, m < nnode ∧ i < ndim ∧ k ≤ d m i) ∧
    (∀ j k, j < ndim → k < ndim → 0 < c j k → ∃ m i, m < nnode ∧ i < ndim ∧ c j k ≤ d m i) := by
  obtain ⟨l, lc, lt, l1, c1, t1, l2, c2, t2⟩ := Periodic.flat_eq hx hd hc ht
  rw [Periodic.new_checked] at hT
  simp only [gassert_bind, hx.1, hd.1, hc.1, ht.1, l1, c1, t1, Res.ok_bind, List.getD_cons_zero, List.getD_cons_succ, if_true] at hT
  split at hT
  swap
  · exact (nomatch hT)
  rename_i g1
  split at hT
  swap
  · exact (nomatch hT)
  split at hT
  swap
  · exact (nomatch hT)
  rename_i g3
  split at hT
  swap
  · exact (nomatch hT)
  split at hT
  swap
  · exact (nomatch hT)
  rename_i g5
  have tlt : ∀ i, i < nties → t i 0 < nnode ∧ t i 1 < nnode := fun i hi => by
    have : ∀ k, k < 2 → t i k < nnode := fun k hk =>
      Nat.lt_of_le_of_lt ((le_foldl_max lt 0).2 _ ((t2 _).2 ⟨i, k, hi, hk, rfl⟩)) g5
    exact ⟨this 0 (by omega), this 1 (by omega)⟩
  have hdep : dependentDofs dofs tyings nties ndim =
      .ok ((it2 nties ndim).map fun y => d (t y.1 1) y.2) := by
    apply mapRes_ok
    rintro ⟨i, j⟩ hy
    rw [mem_it2] at hy
    obtain ⟨hi, hj⟩ := hy
    simp [ht.get hi (show 1 < 2 by omega), hd.get (tlt i hi).2 hj]
  rw [hdep, Res.ok_bind] at hT
  set iid := (it2 nties ndim).map fun y => d (t y.1 1) y.2 with hiid
  have hall : ∀ a ∈ [setdiff1d (setdiff1d l iid) iip, iip, iid], a.Nodup := by
    by_contra hn
    push Not at hn
    rw [Reorder.apply_checked, (C108_reorder _).2.1 hn] at hT
    exact (nomatch hT)
  have hre : ∀ u, Reorder.apply_checked [setdiff1d (setdiff1d l iid) iip, iip, iid] u =
      Reorder.apply [setdiff1d (setdiff1d l iid) iip, iip, iid] u := by
    intro u
    rw [Reorder.apply_checked, Reorder.apply, (C108_reorder _).1 hall]
  rw [hre, hre] at hT
  refine ⟨?_, tlt, hall iip (by simp), ?_, ?_, ?_⟩
  · rw [Periodic.new]
    simp only [hx.1, hd.1, ht.1, l1, Res.ok_bind, List.getD_cons_zero, List.getD_cons_succ, hdep]
    exact hT
  · intro i j i' j' hi hj hi' hj' e
    have := List.inj_on_of_nodup_map (hall iid (by simp)) (mem_it2.2 ⟨hi, hj⟩ : (i, j) ∈ _) (mem_it2.2 ⟨hi', hj'⟩ : (i', j') ∈ _) e
    simpa using this
  · intro k hk h0
    have h1 : k ≤ l.foldl max 0 := le_trans ((le_foldl_max iip 0).2 k hk) g3
    rcases foldl_max_mem l 0 with e | e
    · omega
    · obtain ⟨m, i, hm, hi, e'⟩ := (l2 _).1 e
      exact ⟨m, i, hm, hi, by omega⟩
  · intro j k hj hk h0
    have h1 : c j k ≤ l.foldl max 0 := le_trans ((le_foldl_max lc 0).2 _ ((c2 _).2 ⟨j, k, hj, hk, rfl⟩)) g1
    rcases foldl_max_mem l 0 with e | e
    · omega
    · obtain ⟨m, i, hm, hi, e'⟩ := (l2 _).1 e
      exact ⟨m, i, hm, hi, by omega⟩

/-- **C108.** What they do not catch: a DOF that is prescribed and dependent (the object then counts it twice). -/
theorem Periodic.C108_not_caught :
    ∃ T, Periodic.new_checked (lit2 1 [[(0 : Int)], [1]]) (lit2 1 [[0], [1]]) (lit2 1 [[0]]) (lit2 2 [[0, 1]]) [1] = .ok T ∧
      T.nni ≠ T.nnu + T.nnp := by
  refine ⟨_, rfl, ?_⟩
  decide

/-- **C108.** `Tyings::Control` with assertions: an exception if coordinates and DOFs do not have the same shape, otherwise the same as
without. -/
theorem Control.C108_new [Zero α] {coor : Ten α} {dofs : Ten Nat} {n m : Nat} (hs : coor.shape = [n, m]) (hx : Complete coor)
    (hd : Complete dofs) :
    Checked (Control.new_checked coor dofs) (Control.new coor dofs) (dofs.shape = [n, m])
      (fun K => CompleteOf [n + m, m] K.coor ∧ CompleteOf [n + m, m] K.dofs) := by
  have hr : coor.rank = 2 := by rw [Ten.rank, hs]; rfl
  have : Control.new_checked coor dofs = (gassert (coor.shape = dofs.shape) >>= fun _ => Control.new coor dofs) := by
    rw [Control.new_checked, gassert_bind, if_pos hr]
  rw [this]
  refine (Checked.of1 fun h => ?_).congr (by rw [hs]; exact eq_comm)
  obtain ⟨x, hX⟩ := hx.is2 hs
  obtain ⟨d, hD⟩ := hd.is2 (h.symm.trans hs)
  obtain ⟨K, k, e, -, -, a, b, -⟩ := Control.C26_control hX hD
  exact ⟨K, e, a.complete, b.complete⟩

/-! ### Examples: a row of unit squares -/

/-- whether a call throws -/
def Res.isThrow {β : Type} : Res β → Bool
  | .throws => true
  | _ => false

/-- two squares: node 4 of a square, element 1 of a square and a third sub-mesh do not exist; node 3 does -/
example : (match Stitch.history_checked (fun a b : Int => decide (a = b)) Stitch.exCo Stitch.exCn 2 with
    | .ok S => [(S.nodeset_checked (lit1 [0, 4]) 1).isThrow, (S.elemset_checked (lit1 [1]) 0).isThrow, (S.nodemap_checked 2).isThrow,
        (S.nodeset_checked (lit1 [0, 3]) 1).isThrow, (S.nodesets_checked [lit1 [0]]).isThrow]
    | _ => []) = [true, true, true, false, true] := by decide +kernel

/-- stacking: an edge of one node on an edge of two nodes -/
example : (match (Vstack.new (α := Int) false).push_back_checked (fun a b => decide (a = b)) (Stitch.exCo 0) (Stitch.exCn 0) [0, 1] [2, 3] with
    | .ok V => [(V.push_back_checked (fun a b => decide (a = b)) (Stitch.exCo 0) (Stitch.exCn 0) [0] [2, 3]).isThrow,
        (V.push_back_checked (fun a b => decide (a = b)) (Stitch.exCo 0) (Stitch.exCn 0) [0, 1] [2, 4]).isThrow,
        (V.push_back_checked (fun a b => decide (a = b)) (Stitch.exCo 0) (Stitch.exCn 0) [0, 1] [2, 3]).isThrow]
    | _ => []) = [true, true, false] := by decide +kernel

/-- the hypotheses of `C108_measures` and `C108_nodemap`: one square, and a square that refers to a node that does not exist -/
example : ValidQuad4 (Stitch.exCo 0) (Stitch.exCn 0) ∧ ¬ ValidQuad4 (Stitch.exCo 0) (lit2 4 [[0, 1, 3, 4]]) := by
  refine ⟨⟨4, 1, by omega, rfl, rfl, fun ix hix n hn => ?_⟩, ?_⟩
  · obtain ⟨e, m, rfl, he, hm⟩ := inb2.1 hix
    obtain rfl : e = 0 := by omega
    rw [(Stitch.exHeld 0).2.1.2 0 m he hm] at hn
    rw [← Option.some.inj hn]
    exact (Stitch.exHeld 0).2.2 0 m he hm
  · rintro ⟨nn, ne, -, h1, -, h3⟩
    obtain rfl : 4 = nn := Option.some.inj (show some 4 = some nn from congrArg List.head? h1)
    exact absurd (h3 [0, 3] rfl 4 rfl) (by omega)

end GF
