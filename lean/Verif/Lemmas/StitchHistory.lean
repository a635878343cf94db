import Verif.Lemmas.Stitch

namespace GF
open Finset
variable {α : Type}
namespace Stitch

/-- one `push_back` of a mesh none of whose nodes is close to two nodes of the combined mesh -/
theorem push_ok (close : α → α → Bool) {nd nne K : Nat} (hK : 0 < K) {m : Nat → MeshData α} {S : Stitch α} {N X CC P}
    (hR : Rep nd nne K m S N X CC P) (hC : Combined close nd nne K m N X CC P) {co : Ten α} {cn : Ten Nat}
    (h : (m K).Held nd nne co cn) (hU : Unambiguous close nd N X (m K).nn (m K).x) :
    ∃ S' N' X' CC' P', S.push_back close co cn = .ok S' ∧ Rep nd nne (K + 1) m S' N' X' CC' P' ∧
      Combined close nd nne (K + 1) m N' X' CC' P' ∧ (∀ i, i < K → P' i = P i) ∧ N ≤ N' ∧
      (∀ r, r < N → X' r = X r) ∧ (∀ r, N ≤ r → r < N' → ∃ p, p < (m K).nn ∧ P' K p = r ∧ X' r = (m K).x p ∧
        ∀ a, a < N → ¬ PtClose close nd ((m K).x p) (X a)) := by
  obtain ⟨la, lb, L, o1, rfl, rfl, o4, o5⟩ := overlapping_ok close hR.coor h.1
  have hLn : L.Nodup := o4.nodup (nodup_it2 N (m K).nn)
  have hn : (L.map Prod.snd).Nodup := by
    refine (List.nodup_map_iff_inj_on hLn).2 ?_
    rintro ⟨a, p⟩ h1 ⟨a', p'⟩ h2 rfl
    obtain ⟨b1, b2, b3⟩ := (o5 a p).1 h1
    obtain ⟨c1, c2, c3⟩ := (o5 a' p).1 h2
    rw [hU p b2 a a' b1 c1 b3 c3]
  obtain ⟨st, S', N', X', CC', Q, s1, -, s2, s3, s4, s5, s6, s7, s8, s9, -⟩ := glue_ok close hK hR h hC.conn_lt hn
    (fun p hp => ((o5 p.1 p.2).1 hp).2.1) (chk := false) (by simp)
  have hin : ∀ a p, (a, p) ∈ L → a < N ∧ p < (m K).nn ∧ PtClose close nd ((m K).x p) (X a) := fun a p => (o5 a p).1
  have hlow : ∀ p, p < (m K).nn → Q p < N → (Q p, p) ∈ L := by
    intro p hp hq
    rcases s7 p hp with ⟨a, ha, rfl⟩ | ⟨-, h2, -⟩
    · exact ha
    · omega
  have hcl : ∀ p a, p < (m K).nn → a < N → PtClose close nd ((m K).x p) (X a) → Q p = a := by
    intro p a hp ha hc
    rcases s7 p hp with ⟨b, hb, rfl⟩ | ⟨h1, -⟩
    · obtain ⟨b1, b2, b3⟩ := hin _ _ hb
      exact hU p hp _ _ b1 ha b3 hc
    · exact absurd ((o5 a p).2 ⟨ha, hp, hc⟩) (h1 a)
  have hQlt : ∀ p, p < (m K).nn → Q p < N' := by
    intro p hp
    rcases s7 p hp with ⟨b, hb, rfl⟩ | ⟨-, -, h3, -⟩
    · have := (hin _ _ hb).1; omega
    · exact h3
  refine ⟨S', N', X', CC', _, ?_, s3, ⟨?_, ?_, ?_, ?_, ?_, ?_, ?_, ?_⟩, fun i hi => if_pos hi, s4, s5, ?_⟩
  · rw [push_back, if_neg (by rw [hR.len]; omega), o1, Res.ok_bind, s1, Res.ok_bind, s2]
  · intro i n hi hn
    beta_reduce
    by_cases hiK : i < K
    · rw [if_pos hiK]; have := hC.node_lt i n hiK hn; omega
    · obtain rfl : i = K := by omega
      rw [if_neg hiK]; exact hQlt n hn
  · intro e k he hk
    rw [s6]
    by_cases heK : e < elemOffset m K
    · rw [if_pos heK]; have := hC.conn_lt e k heK hk; omega
    · rw [if_neg heK]
      rw [elemOffset_succ] at he
      exact hQlt _ (h.2.2 _ _ (by omega) hk)
  · intro i e k hi he hk
    rw [s6]
    by_cases hiK : i < K
    · rw [if_pos (elemOffset_lt m hiK he), if_pos hiK]; exact hC.conn i e k hiK he hk
    · obtain rfl : i = K := by omega
      rw [if_neg hiK, if_neg (by omega), Nat.add_sub_cancel_left]
  · intro i n hi hn
    by_cases hiK : i < K
    · simp only [if_pos hiK]
      rw [s5 _ (hC.node_lt i n hiK hn)]; exact hC.pos i n hiK hn
    · obtain rfl : i = K := by omega
      simp only [if_neg hiK]
      rcases s7 n hn with ⟨a, ha, rfl⟩ | ⟨-, -, -, h4⟩
      · obtain ⟨b1, b2, b3⟩ := hin _ _ ha
        right; rw [s5 _ b1]; exact b3
      · left; rw [h4]; exact fun _ _ => rfl
  · intro i j n p hij hj hn hp
    have hiK : i < K := by omega
    have hlt := hC.node_lt i n hiK hn
    simp only [if_pos hiK]
    rw [s5 _ hlt]
    by_cases hjK : j < K
    · simp only [if_pos hjK]; exact hC.merged i j n p hij hjK hn hp
    · obtain rfl : j = K := by omega
      simp only [if_neg hjK]
      constructor
      · exact hcl p _ hp hlt
      · intro hE
        have := hlow p hp (by omega)
        rw [hE] at this
        exact (hin _ _ this).2.2
  · intro i n n' hi hn hn' hE
    by_cases hiK : i < K
    · simp only [if_pos hiK] at hE ⊢
      rw [s5 _ (hC.node_lt i n hiK hn)]
      rcases hC.inj i n n' hiK hn hn' hE with h1 | ⟨h1, h2, j, p, h3, h4, h5⟩
      · exact Or.inl h1
      · exact Or.inr ⟨h1, h2, j, p, h3, h4, by rw [if_pos (by omega)]; exact h5⟩
    · obtain rfl : i = K := by omega
      simp only [if_neg hiK] at hE ⊢
      by_cases hq : Q n < N
      · right
        have h1 := (hin _ _ (hlow n hn hq)).2.2
        have h2 := (hin _ _ (hlow n' hn' (by omega))).2.2
        rw [s5 _ hq]
        refine ⟨h1, by rw [hE]; exact h2, ?_⟩
        obtain ⟨j, p, g1, g2, g3, -⟩ := hC.surj _ hq
        exact ⟨j, p, g1, g2, by rw [if_pos g1]; exact g3⟩
      · left
        have hno : ∀ q, q < (m i).nn → ¬ Q q < N → ∀ a, (a, q) ∉ L := by
          intro q hqn hqN a ha
          obtain ⟨b1, b2, b3⟩ := hin _ _ ha
          have := hcl q a b2 b1 b3
          omega
        have h1 := hno n hn hq
        have h2 := hno n' hn' (by omega)
        rcases Nat.lt_trichotomy n n' with h | h | h
        · have := s8 n n' h hn' h1 h2; omega
        · exact h
        · have := s8 n' n h hn h2 h1; omega
  · intro r hr
    by_cases hrN : r < N
    · obtain ⟨i, n, g1, g2, g3, g4⟩ := hC.surj r hrN
      exact ⟨i, n, by omega, g2, by rw [if_pos g1]; exact g3, by rw [s5 _ hrN]; exact g4⟩
    · obtain ⟨p, h1, -, h3, h4⟩ := s9 r (by omega) hr
      exact ⟨K, p, by omega, h1, by rw [if_neg (by omega)]; exact h3, by rw [h4]; exact fun _ _ => rfl⟩
  · refine numbered_succ (N := N) hC.order hC.node_lt (fun r hr => ?_) fun p p' hpp hp' h1 h2 => ?_
    · obtain ⟨i, n, g1, g2, g3, -⟩ := hC.surj r hr
      exact ⟨i, n, g1, g2, g3⟩
    · have hno : ∀ q, q < (m K).nn → N ≤ Q q → ∀ a, (a, q) ∉ L := by
        intro q hqn hqN a ha
        obtain ⟨b1, b2, b3⟩ := hin _ _ ha
        have := hcl q a b2 b1 b3
        omega
      exact s8 p p' hpp hp' (hno p (by omega) h1) (hno p' hp' h2)
  · intro r hr hr'
    obtain ⟨p, h1, h2, h3, h4⟩ := s9 r (by omega) hr'
    exact ⟨p, h1, by rw [if_neg (by omega)]; exact h3, h4, fun a ha hc => h2 a ((o5 a p).2 ⟨ha, h1, hc⟩)⟩

/-- a mesh with a node that is close to two nodes of the combined mesh cannot be added -/
theorem push_fails (close : α → α → Bool) {nd nne K : Nat} (hK : 0 < K) {m : Nat → MeshData α} {S : Stitch α} {N X CC P}
    (hR : Rep nd nne K m S N X CC P) {co : Ten α} {cn : Ten Nat}
    (h : (m K).Held nd nne co cn) (hU : ¬ Unambiguous close nd N X (m K).nn (m K).x) (S' : Stitch α) :
    S.push_back close co cn ≠ .ok S' := by
  intro hS
  obtain ⟨la, lb, L, o1, rfl, rfl, o4, o5⟩ := overlapping_ok close hR.coor h.1
  rw [Unambiguous] at hU
  push Not at hU
  obtain ⟨p, hp, r, r', hr, hr', c1, c2, hne⟩ := hU
  have hn : ¬ (L.map Prod.snd).Nodup := by
    intro hn
    have h1 : (r, p) ∈ L := (o5 r p).2 ⟨hr, hp, c1⟩
    have h2 : (r', p) ∈ L := (o5 r' p).2 ⟨hr', hp, c2⟩
    have := List.inj_on_of_nodup_map hn h1 h2 rfl
    exact hne (congrArg Prod.fst this)
  have hk := keep_length_dup (nb := (m K).nn) hn (by
    intro q hq
    rw [List.mem_map] at hq
    obtain ⟨⟨a, b⟩, hab, rfl⟩ := hq
    exact ((o5 a b).1 hab).2.1)
  rw [push_back, if_neg (by rw [hR.len]; omega), o1, Res.ok_bind] at hS
  simp only [ManualStitch.new, hR.coor.1, hR.conn.1, h.1.1, h.2.1.1] at hS
  rw [if_pos ⟨by simp, trivial, trivial⟩, ManualStitch.mkCoor, if_neg (by simpa using hk)] at hS
  revert hS
  cases ManualStitch.positions close S.coor co nd (L.map Prod.fst) (L.map Prod.snd) false with
  | ok u =>
    cases ManualStitch.mapB N (m K).nn (L.map Prod.fst) (L.map Prod.snd)
      (setdiff1d (List.range (m K).nn) (L.map Prod.snd)) with
    | ok mp =>
      cases hc : ManualStitch.mkConn S.conn cn mp (elemOffset m K) (m K).ne nne <;> simp [hc]
    | throws => simp
    | ub => simp
  | throws => simp
  | ub => simp

theorem history_succ (close : α → α → Bool) (co : Nat → Ten α) (cn : Nat → Ten Nat) (K : Nat) :
    history close co cn (K + 1) = (history close co cn K).bind fun S => S.push_back close (co K) (cn K) :=
  forEach_it1_succ K _ _

theorem history_ok (close : α → α → Bool) {nd nne : Nat} {m : Nat → MeshData α} {co : Nat → Ten α} {cn : Nat → Ten Nat}
    (K : Nat) (hK : 0 < K) (h : ∀ i, i < K → (m i).Held nd nne (co i) (cn i))
    (hU : ∀ j, 0 < j → j < K → ∀ S N X, history close co cn j = .ok S → Is2 S.coor N nd X →
      Unambiguous close nd N X (m j).nn (m j).x) :
    ∃ S N X CC P, history close co cn K = .ok S ∧ Rep nd nne K m S N X CC P ∧ Combined close nd nne K m N X CC P := by
  induction K with
  | zero => omega
  | succ K ih =>
    rcases Nat.eq_zero_or_pos K with rfl | hK'
    · obtain ⟨h1, h2⟩ := first_ok close (h 0 (by omega))
      exact ⟨_, _, _, _, _, rfl, h1, h2⟩
    · obtain ⟨S, N, X, CC, P, e, hR, hC⟩ := ih hK' (fun i hi => h i (by omega)) (fun j h0 hj => hU j h0 (by omega))
      obtain ⟨S', N', X', CC', P', p1, p2, p3, -⟩ := push_ok close hK' hR hC (h K (by omega))
        (hU K hK' (by omega) S N X e hR.coor)
      exact ⟨S', N', X', CC', P', by rw [history_succ, e]; exact p1, p2, p3⟩

/-- normal termination means that every push was unambiguous -/
theorem history_of_ok (close : α → α → Bool) {nd nne : Nat} {m : Nat → MeshData α} {co : Nat → Ten α}
    {cn : Nat → Ten Nat} (K : Nat) (h : ∀ i, i < K → (m i).Held nd nne (co i) (cn i))
    {S : Stitch α} (hS : history close co cn K = .ok S) :
    ∀ j, 0 < j → j < K → ∀ S N X, history close co cn j = .ok S → Is2 S.coor N nd X →
      Unambiguous close nd N X (m j).nn (m j).x := by
  induction K generalizing S with
  | zero => intro j _ hj; omega
  | succ K ih =>
    rw [history_succ] at hS
    cases hK : history close co cn K with
    | throws => rw [hK] at hS; cases hS
    | ub => rw [hK] at hS; cases hS
    | ok S0 =>
      rw [hK, Res.ok_bind'] at hS
      have ih' := ih (fun i hi => h i (by omega)) hK
      intro j h0 hj S1 N1 X1 e1 i1
      rcases Nat.lt_succ_iff_lt_or_eq.1 hj with hj' | rfl
      · exact ih' j h0 hj' S1 N1 X1 e1 i1
      · obtain ⟨S2, N2, X2, CC2, P2, e2, hR, hC⟩ := history_ok close j h0 (fun i hi => h i (by omega)) ih'
        rw [e1] at hK
        obtain rfl : S1 = S0 := Res.ok.inj hK
        rw [e1] at e2
        obtain rfl : S1 = S2 := Res.ok.inj e2
        have hN : N1 = N2 := by
          have := i1.1.symm.trans hR.coor.1
          simpa using this
        subst hN
        by_contra hU
        refine push_fails close h0 hR (h j (by omega)) ?_ S hS
        intro hU'
        apply hU
        have hx : ∀ r, r < N1 → ∀ k, k < nd → X1 r k = X2 r k := fun r hr k hk =>
          Option.some.inj ((i1.2 r k hr hk).symm.trans (hR.coor.2 r k hr hk))
        intro p hp r r' hr hr' c1 c2
        exact hU' p hp r r' hr hr' (fun k hk => by rw [← hx r hr k hk]; exact c1 k hk)
          (fun k hk => by rw [← hx r' hr' k hk]; exact c2 k hk)

/-- the sets of all sub-meshes, converted one after the other -/
theorem gatherSets_ok (conv : Ten Nat → Nat → Res (Ten Nat)) (sets : List (Ten Nat)) (g : Nat → List Nat → Nat)
    (h : ∀ i t, sets[i]? = some t → ∃ t', conv t i = .ok t' ∧ t'.shape = t.shape ∧ Full t' (g i)) :
    gatherSets conv sets = .ok ((List.range sets.length).flatMap fun i =>
      (indices ((sets.getD i (Ten.empty [])).shape)).map (g i)) := by
  obtain ⟨s, h1, h2⟩ := forEach_inv sets (fun (s : List Nat × Nat) set => do
    let t ← conv set s.2
    let l ← t.flat
    (.ok (s.1 ++ l, s.2 + 1) : Res (List Nat × Nat))) (fun pre s => s = ((List.range pre.length).flatMap fun i =>
      (indices ((sets.getD i (Ten.empty [])).shape)).map (g i), pre.length)) ([], 0) (by simp) (by
      rintro pre t post s hl rfl
      have ht : sets[pre.length]? = some t := by rw [hl]; simp
      obtain ⟨t', a1, a2, a3⟩ := h _ t ht
      dsimp only
      rw [a1, Res.ok_bind, a3.flat, Res.ok_bind]
      refine ⟨_, rfl, ?_⟩
      rw [List.length_append, List.length_singleton, List.range_succ, List.flatMap_append, a2]
      simp [List.getD, ht])
  rw [gatherSets, h1, Res.ok_bind, h2]

end Stitch
end GF
