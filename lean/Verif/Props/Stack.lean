import Verif.Props.Vstack
import Verif.Props.Statics
import Verif.Lemmas.Sides

/-! **C103** Sides of a mesh are complete; `Vstack` of meshes of rectangles is a mesh of a rectangle. -/

namespace GF
open Finset ElemSpec

/-! ### Joined paths -/

/-- number of edges of the first `K` paths -/
def chainOff (n : Nat → Nat) (K : Nat) : Nat := ∑ i ∈ range K, (n i - 1)

/-- the paths `p 0, .., p (K - 1)` (with `n i` nodes) one after the other; each starts where the previous one ends -/
def chain (n : Nat → Nat) (p : Nat → Nat → Nat) : Nat → Nat → Nat
  | 0, _ => p 0 0
  | K + 1, j => if j < chainOff n K then chain n p K j else p K (j - chainOff n K)

theorem offset_split (w : Nat → Nat) : ∀ (K j : Nat), j < ∑ i ∈ range K, w i → ∃ i a, i < K ∧ a < w i ∧ j = (∑ k ∈ range i, w k) + a
  | 0, j, h => by simp at h
  | K + 1, j, h => by
    rw [sum_range_succ] at h
    by_cases hj : j < ∑ i ∈ range K, w i
    · obtain ⟨i, a, hi, ha, e⟩ := offset_split w K j hj
      exact ⟨i, a, by omega, ha, e⟩
    · exact ⟨K, j - ∑ i ∈ range K, w i, by omega, by omega, by omega⟩

theorem offset_lt (w : Nat → Nat) {i K a : Nat} (hi : i < K) (ha : a < w i) : (∑ k ∈ range i, w k) + a < ∑ k ∈ range K, w k := by
  have h : ∑ k ∈ range (i + 1), w k ≤ ∑ k ∈ range K, w k :=
    sum_le_sum_of_subset (range_subset_range.2 (by omega))
  rw [sum_range_succ] at h
  omega

section
variable {n : Nat → Nat} {p : Nat → Nat → Nat}

theorem chain_at (hn : ∀ i, 0 < n i) : ∀ {K : Nat}, (∀ i, i + 1 < K → p (i + 1) 0 = p i (n i - 1)) →
    ∀ {i a : Nat}, i < K → a < n i → chain n p K (chainOff n i + a) = p i a := by
  intro K
  induction K with
  | zero => intro _ i a hi; omega
  | succ K ih =>
    intro hj i a hi ha
    have ih' := @ih (fun i hi => hj i (by omega))
    rw [chain]
    by_cases hiK : i < K
    · split
      · exact ih' hiK ha
      · next hge =>
        -- the last node of the paths before is the first one of path `K`
        have le : chainOff n i + a ≤ chainOff n K := by
          have h : chainOff n (i + 1) ≤ chainOff n K := sum_le_sum_of_subset (range_subset_range.2 (by omega))
          rw [chainOff, sum_range_succ, ← chainOff] at h
          omega
        have e : chainOff n i + a = chainOff n K := by omega
        rw [← ih' hiK ha, e, Nat.sub_self]
        obtain ⟨K', rfl⟩ : ∃ K', K = K' + 1 := ⟨K - 1, by omega⟩
        have l := ih' (i := K') (a := n K' - 1) (by omega) (by have := hn K'; omega)
        rw [chainOff, sum_range_succ, ← chainOff, l]
        exact hj K' (by omega)
    · obtain rfl : i = K := by omega
      rw [if_neg (by omega), Nat.add_sub_cancel_left]

/-- every edge of the joined path is an edge of one of the paths -/
theorem chain_edge (hn : ∀ i, 0 < n i) {K : Nat} (hj : ∀ i, i + 1 < K → p (i + 1) 0 = p i (n i - 1)) {j : Nat} (h : j < chainOff n K) :
    ∃ i a, i < K ∧ a + 1 < n i ∧ j = chainOff n i + a ∧ chain n p K j = p i a ∧ chain n p K (j + 1) = p i (a + 1) := by
  obtain ⟨i, a, hi, ha, rfl⟩ := offset_split _ _ _ h
  exact ⟨i, a, hi, by omega, rfl, chain_at hn hj hi (by omega), chain_at hn hj (a := a + 1) hi (by omega)⟩

/-- every node of the joined path is a node of one of the paths -/
theorem chain_node (hn : ∀ i, 0 < n i) {K : Nat} (hK : 0 < K) {j : Nat} (h : j < chainOff n K + 1) :
    ∃ i a, i < K ∧ a < n i ∧ j = chainOff n i + a := by
  by_cases hj : j < chainOff n K
  · obtain ⟨i, a, hi, ha, e⟩ := offset_split _ _ _ hj
    exact ⟨i, a, hi, by omega, e⟩
  · refine ⟨K - 1, n (K - 1) - 1, by omega, by have := hn (K - 1); omega, ?_⟩
    obtain ⟨K', rfl⟩ : ∃ K', K = K' + 1 := ⟨K - 1, by omega⟩
    rw [chainOff, sum_range_succ, ← chainOff] at hj h
    simp only [Nat.add_sub_cancel]
    omega

theorem chain_sum {A : Type} [AddCommGroup A] (hn : ∀ i, 0 < n i) (f : Nat → Nat → A) : ∀ {K : Nat},
    (∀ i, i + 1 < K → p (i + 1) 0 = p i (n i - 1)) →
    pathSum (chainOff n K + 1) (chain n p K) f = ∑ i ∈ range K, pathSum (n i) (p i) f := by
  intro K hj
  have key : ∀ k, k ≤ K → ∑ j ∈ range (chainOff n k), f (chain n p K j) (chain n p K (j + 1)) = ∑ i ∈ range k, pathSum (n i) (p i) f := by
    intro k
    induction k with
    | zero => intro _; simp [chainOff]
    | succ k ih =>
      intro hk
      rw [chainOff, sum_range_succ, ← chainOff, sum_range_add, ih (by omega), sum_range_succ]
      congr 1
      refine sum_congr rfl fun a ha => ?_
      rw [mem_range] at ha
      rw [chain_at hn hj (show k < K by omega) (show a < n k by omega), Nat.add_assoc,
        chain_at hn hj (show k < K by omega) (show a + 1 < n k by omega)]
  rw [pathSum, Nat.add_sub_cancel]
  exact key K le_rfl

end

variable {α : Type} [Field α] [LinearOrder α] [IsStrictOrderedRing α]

/-- **C103** (sides) a node of a mesh of a rectangle is on the bottom (top, left, right) of the rectangle if and only if it is
listed in the nodes of that side -/
theorem C103_sides {nn ne : Nat} {c : Nat → Nat → Nat} {x : Nat → Nat → α} {Lx Ly : α} {O : Outline} (hM : RectMesh nn ne c x Lx Ly O)
    (lx : 0 < Lx) (ly : 0 < Ly) {m : Nat} (hm : m < nn) :
    (x m 1 = 0 ↔ ∃ i, i < O.nb ∧ O.bottom i = m) ∧ (x m 1 = Ly ↔ ∃ i, i < O.nt ∧ O.top i = m) ∧
      (x m 0 = 0 ↔ ∃ i, i < O.nl ∧ O.left i = m) ∧ (x m 0 = Lx ↔ ∃ i, i < O.nr ∧ O.right i = m) := by
  obtain ⟨h1, h2, h3, h4⟩ := hM.side_complete lx ly hm
  refine ⟨⟨h1, ?_⟩, ⟨h2, ?_⟩, ⟨h3, ?_⟩, ⟨h4, ?_⟩⟩
  · rintro ⟨i, hi, rfl⟩; exact (hM.bottom i hi).2
  · rintro ⟨i, hi, rfl⟩; exact (hM.top i hi).2.1
  · rintro ⟨i, hi, rfl⟩; exact (hM.left i hi).2
  · rintro ⟨i, hi, rfl⟩; exact (hM.right i hi).2.1

/-- Layers that are meshes of rectangles of the same width, such that the nodes at the top of a layer are, one by one, at the same
horizontal positions as those at the bottom of the next one. -/
structure Layers (K : Nat) (m : Nat → MeshData α) (O : Nat → Outline) (Lx : α) (H : Nat → α) : Prop where
  rect : ∀ i, i < K → RectMesh (m i).nn (m i).ne (m i).C (m i).x Lx (H i) (O i)
  high : ∀ i, i < K → 0 < H i
  num : ∀ i, i + 1 < K → (O i).nt = (O (i + 1)).nb
  fit : ∀ i j, i + 1 < K → j < (O i).nt → (m i).x ((O i).top j) 0 = (m (i + 1)).x ((O (i + 1)).bottom j) 0

/-- the sides of the stack -/
def stackOutline (K : Nat) (O : Nat → Outline) (P : Nat → Nat → Nat) : Outline where
  nb := (O 0).nb
  bottom j := P 0 ((O 0).bottom j)
  nt := (O (K - 1)).nt
  top j := P (K - 1) ((O (K - 1)).top j)
  nl := chainOff (fun i => (O i).nl) K + 1
  left := chain (fun i => (O i).nl) (fun i a => P i ((O i).left a)) K
  nr := chainOff (fun i => (O i).nl) K + 1
  right := chain (fun i => (O i).nl) (fun i a => P i ((O i).right a)) K

/-- the list of the nodes at the bottom -/
def Outline.bottomList (O : Outline) : List Nat := (List.range O.nb).map O.bottom
/-- the list of the nodes at the top -/
def Outline.topList (O : Outline) : List Nat := (List.range O.nt).map O.top

section
variable {K : Nat} {m : Nat → MeshData α} {O : Nat → Outline} {Lx : α} {H : Nat → α}

theorem Layers.toFit (hL : Layers K m O Lx H) :
    Vstack.Fit 2 K m (fun i => (O i).bottomList) (fun i => (O i).topList) H where
  pos i hi := (hL.high i hi).le
  le i n hi hn := ((hL.rect i hi).inside n hn).2.2.2
  att i hi := by
    have h := hL.rect i hi
    obtain ⟨s1, s2, -, -⟩ := h.sizes
    exact ⟨(O i).top 0, (h.top 0 (by omega)).1, (h.top 0 (by omega)).2.1⟩
  bot_ok i hi := by
    have h := hL.rect i hi
    refine ⟨List.Nodup.map_on (fun a ha b hb e => h.sides_inj.1 a b (List.mem_range.1 ha) (List.mem_range.1 hb) e) List.nodup_range, ?_⟩
    intro p hp
    obtain ⟨j, hj, rfl⟩ := List.mem_map.1 hp
    exact h.bottom j (List.mem_range.1 hj)
  top_ok i hi p hp := by
    have h := hL.rect i hi
    obtain ⟨j, hj, rfl⟩ := List.mem_map.1 hp
    have := h.top j (List.mem_range.1 hj)
    exact ⟨this.1, this.2.1⟩
  len i hi := by simp [Outline.topList, Outline.bottomList, hL.num i hi]
  fit i a b hi hab k hk hk1 := by
    obtain rfl : k = 0 := by omega
    simp only [Outline.topList, Outline.bottomList, ← hL.num i hi, List.zip_map', List.mem_map, List.mem_range] at hab
    obtain ⟨j, hj, e⟩ := hab
    obtain ⟨rfl, rfl⟩ := Prod.mk.inj e
    exact hL.fit i j hi hj

variable {N : Nat} {X : Nat → Nat → α} {CC P : Nat → Nat → Nat}

theorem stack_edges {A : Type} [AddCommGroup A]
    (hS : Vstack.Stacked 2 4 K m (fun i => (O i).bottomList) (fun i => (O i).topList) H N X CC P) (f : Nat → Nat → A) :
    edgeSum 4 (elemOffset m K) CC f = ∑ i ∈ range K, edgeSum 4 (m i).ne (m i).C (fun p q => f (P i p) (P i q)) := by
  have key : ∀ k, k ≤ K → ∑ e ∈ range (elemOffset m k), ∑ a ∈ range 4, f (CC e a) (CC e ((a + 1) % 4)) =
      ∑ i ∈ range k, edgeSum 4 (m i).ne (m i).C (fun p q => f (P i p) (P i q)) := by
    intro k
    induction k with
    | zero => intro _; simp [elemOffset]
    | succ k ih =>
      intro hk
      rw [elemOffset, sum_range_succ, ← elemOffset, sum_range_add, ih (by omega), sum_range_succ]
      congr 1
      refine sum_congr rfl fun e he => sum_congr rfl fun a ha => ?_
      rw [mem_range] at he ha
      rw [hS.conn k e a (by omega) he ha, hS.conn k e _ (by omega) he (by omega)]
  exact key K le_rfl

theorem stack_rect (hL : Layers K m O Lx H) (hK : 0 < K) (lx : 0 < Lx)
    (hS : Vstack.Stacked 2 4 K m (fun i => (O i).bottomList) (fun i => (O i).topList) H N X CC P) :
    RectMesh N (elemOffset m K) CC X Lx (Vstack.height H K) (stackOutline K O P) := by
  -- positions
  have px : ∀ i n, i < K → n < (m i).nn → X (P i n) 0 = (m i).x n 0 := fun i n hi hn => hS.at_height i n hi hn 0 (by omega)
  have py : ∀ i n, i < K → n < (m i).nn → X (P i n) 1 = (m i).x n 1 + Vstack.height H i := fun i n hi hn => hS.at_height i n hi hn 1 (by omega)
  have hs := fun i (hi : i < K) => (hL.rect i hi).sizes
  have glue : ∀ i j, i + 1 < K → j < (O i).nt → P (i + 1) ((O (i + 1)).bottom j) = P i ((O i).top j) := by
    intro i j hi hj
    refine hS.glued i _ _ hi ?_
    simp only [Outline.topList, Outline.bottomList, ← hL.num i hi, List.zip_map', List.mem_map, List.mem_range]
    exact ⟨j, hj, rfl⟩
  have nb : ∀ i, i < K → (O i).nb = (O 0).nb := by
    intro i
    induction i with
    | zero => intro _; rfl
    | succ i ih => intro hi; rw [← hL.num i hi, (hs i (by omega)).2.1, ih (by omega)]
  have hx : ∀ i j, i < K → j < (O 0).nb → (m i).x ((O i).bottom j) 0 = (m 0).x ((O 0).bottom j) 0 := by
    intro i
    induction i with
    | zero => intro j _ _; rfl
    | succ i ih =>
      intro j hi hj
      have n1 : j < (O i).nt := by rw [(hs i (by omega)).2.1, nb i (by omega)]; exact hj
      rw [← hL.fit i j hi n1, ((hL.rect i (by omega)).top j n1).2.2, ih j (by omega) hj]
  have hgt : ∀ {i k}, i ≤ k → k ≤ K → Vstack.height H i ≤ Vstack.height H k := fun {i k} hik hk =>
    sum_le_sum_of_subset_of_nonneg (range_subset_range.2 hik) fun a ha _ => (hL.high a (by rw [mem_range] at ha; omega)).le
  have hlt : ∀ {i k}, i < k → k ≤ K → Vstack.height H i < Vstack.height H k := fun {i k} hik hk => by
    have h1 := hgt (i := i + 1) (k := k) (by omega) hk
    rw [Vstack.height_succ] at h1
    have := hL.high i (by omega)
    linarith
  have h0 : Vstack.height H 0 = 0 := by simp [Vstack.height]
  have top_h : Vstack.height H K = H (K - 1) + Vstack.height H (K - 1) := by
    obtain ⟨k, rfl⟩ : ∃ k, K = k + 1 := ⟨K - 1, by omega⟩
    rw [Vstack.height_succ, add_comm]; rfl
  have low : ∀ i, i < K → 0 ≤ Vstack.height H i := fun i hi => by rw [← h0]; exact hgt (by omega) (by omega)
  -- the joined paths (the sizes outside of the stack do not matter)
  obtain ⟨n, hn, hnK⟩ : ∃ n : Nat → Nat, (∀ i, 0 < n i) ∧ ∀ i, i < K → (O i).nl = n i :=
    ⟨fun i => max 1 (O i).nl, fun i => by positivity, fun i hi => by have := (hs i hi).2.2.1; simp only [Nat.max_def]; split <;> omega⟩
  have offc : ∀ k, k ≤ K → chainOff (fun i => (O i).nl) k = chainOff n k := fun k hk =>
    sum_congr rfl fun i hi => by rw [mem_range] at hi; beta_reduce; rw [hnK i (by omega)]
  have chc : ∀ (p : Nat → Nat → Nat) k, k ≤ K → ∀ j, chain (fun i => (O i).nl) p k j = chain n p k j := by
    intro p k
    induction k with
    | zero => intro _ _; rfl
    | succ k ih => intro hk j; rw [chain, chain, offc k (by omega), ih (by omega)]
  have jl : ∀ i, i + 1 < K → P (i + 1) ((O (i + 1)).left 0) = P i ((O i).left (n i - 1)) := by
    intro i hi
    obtain ⟨s1, s2, -, -⟩ := hs i (by omega)
    rw [← (hL.rect (i + 1) hi).perimeter.bl, ← hnK i (by omega), ← (hL.rect i (by omega)).perimeter.tl]
    exact glue i 0 hi (by omega)
  have jr : ∀ i, i + 1 < K → P (i + 1) ((O (i + 1)).right 0) = P i ((O i).right (n i - 1)) := by
    intro i hi
    obtain ⟨s1, s2, -, s4⟩ := hs i (by omega)
    rw [← (hL.rect (i + 1) hi).perimeter.br, ← hnK i (by omega), ← s4, ← (hL.rect i (by omega)).perimeter.tr, ← hL.num i hi]
    exact glue i _ hi (by omega)
  have eL : ∀ j, (stackOutline K O P).left j = chain n (fun i a => P i ((O i).left a)) K j := chc _ K le_rfl
  have eR : ∀ j, (stackOutline K O P).right j = chain n (fun i a => P i ((O i).right a)) K j := chc _ K le_rfl
  have enl : (stackOutline K O P).nl = chainOff n K + 1 := by rw [← offc K le_rfl]; rfl
  have enr : (stackOutline K O P).nr = chainOff n K + 1 := by rw [← offc K le_rfl]; rfl
  have atL : ∀ i a, i < K → a < n i → chain n (fun i a => P i ((O i).left a)) K (chainOff n i + a) = P i ((O i).left a) :=
    fun i a hi ha => chain_at hn jl hi ha
  have atR : ∀ i a, i < K → a < n i → chain n (fun i a => P i ((O i).right a)) K (chainOff n i + a) = P i ((O i).right a) :=
    fun i a hi ha => chain_at hn jr hi ha
  have z0 : chainOff n 0 + 0 = 0 := by simp [chainOff]
  have zK : chainOff n (K - 1) + (n (K - 1) - 1) = chainOff n K := by
    obtain ⟨k, rfl⟩ : ∃ k, K = k + 1 := ⟨K - 1, by omega⟩
    rw [chainOff, chainOff, sum_range_succ]; rfl
  have rl : ∀ i a, i < K → a < n i → (O i).right a < (m i).nn ∧ (m i).x ((O i).right a) 0 = Lx ∧
      (m i).x ((O i).right a) 1 = (m i).x ((O i).left a) 1 ∧ (O i).left a < (m i).nn ∧ (m i).x ((O i).left a) 0 = 0 := by
    intro i a hi ha
    rw [← hnK i hi] at ha
    have r := (hL.rect i hi).right a (by rw [(hs i hi).2.2.2]; exact ha)
    have l := (hL.rect i hi).left a ha
    exact ⟨r.1, r.2.1, r.2.2, l.1, l.2⟩
  have ex := offset_split (fun i => (m i).ne) K
  refine ⟨?_, hS.conn_lt, ?_, ⟨?_, ?_, ?_, ?_, ?_⟩, ?_, ?_, ?_, ?_, ?_, ?_, ?_, ?_, ?_, ?_⟩
  · -- nodes
    have := hS.node_lt 0 0 hK (hL.rect 0 hK).nodes
    omega
  · -- convex
    intro e he
    obtain ⟨i, a, hi, ha, rfl⟩ := ex e he
    have v := (hL.rect i hi).valid a
    have cv := (hL.rect i hi).convex a ha
    have t : ∀ p q r, p < 4 → q < 4 → r < 4 → turn (X (CC (elemOffset m i + a) p)) (X (CC (elemOffset m i + a) q)) (X (CC (elemOffset m i + a) r)) =
        turn ((m i).x ((m i).C a p)) ((m i).x ((m i).C a q)) ((m i).x ((m i).C a r)) := by
      intro p q r hp hq hr
      rw [hS.conn i a p hi ha hp, hS.conn i a q hi ha hq, hS.conn i a r hi ha hr]
      simp only [turn]
      rw [px i _ hi (v _ ha hp), px i _ hi (v _ ha hq), px i _ hi (v _ ha hr), py i _ hi (v _ ha hp), py i _ hi (v _ ha hq), py i _ hi (v _ ha hr)]
      ring
    change Convex4 fun p => X (CC (elemOffset m i + a) p)
    rw [Convex4, t 3 0 1 (by omega) (by omega) (by omega), t 0 1 2 (by omega) (by omega) (by omega), t 1 2 3 (by omega) (by omega) (by omega),
      t 2 3 0 (by omega) (by omega) (by omega)]
    exact cv
  · -- bl
    rw [eL, ← z0, atL 0 0 hK (hn 0)]
    exact congrArg _ (hL.rect 0 hK).perimeter.bl
  · rw [eR, ← z0, atR 0 0 hK (hn 0)]
    exact congrArg _ (hL.rect 0 hK).perimeter.br
  · rw [eL, enl, Nat.add_sub_cancel, ← zK, atL _ _ (by omega) (by have := hn (K - 1); omega), ← hnK _ (by omega)]
    exact congrArg _ (hL.rect (K - 1) (by omega)).perimeter.tl
  · rw [eR, enr, Nat.add_sub_cancel, ← zK, atR _ _ (by omega) (by have := hn (K - 1); omega), ← hnK _ (by omega), ← (hs (K - 1) (by omega)).2.2.2]
    exact congrArg _ (hL.rect (K - 1) (by omega)).perimeter.tr
  · -- stokes
    intro A _ f hf
    rw [stack_edges hS f, enl, enr]
    have e1 : pathSum (chainOff n K + 1) (stackOutline K O P).right f = ∑ i ∈ range K, pathSum (n i) (fun a => P i ((O i).right a)) f := by
      rw [← chain_sum hn f jr]; exact sum_congr rfl fun j _ => by rw [eR, eR]
    have e2 : pathSum (chainOff n K + 1) (stackOutline K O P).left f = ∑ i ∈ range K, pathSum (n i) (fun a => P i ((O i).left a)) f := by
      rw [← chain_sum hn f jl]; exact sum_congr rfl fun j _ => by rw [eL, eL]
    rw [e1, e2]
    let b : Nat → A := fun i => pathSum (O i).nb (O i).bottom (fun p q => f (P i p) (P i q))
    let t : Nat → A := fun i => pathSum (O i).nt (O i).top (fun p q => f (P i p) (P i q))
    have bt : ∀ i, i + 1 < K → b (i + 1) = t i := by
      intro i hi
      simp only [b, t, pathSum]
      rw [← hL.num i hi]
      refine sum_congr rfl fun j hj => ?_
      rw [mem_range] at hj
      rw [glue i j hi (by omega), glue i (j + 1) hi (by omega)]
    have tel : ∀ k, k < K → ∑ i ∈ range (k + 1), (b i - t i) = b 0 - t k := by
      intro k
      induction k with
      | zero => intro _; simp
      | succ k ih =>
        intro hk
        rw [sum_range_succ, ih (by omega), bt k hk]
        abel
    have e3 : pathSum (stackOutline K O P).nb (stackOutline K O P).bottom f - pathSum (stackOutline K O P).nt (stackOutline K O P).top f =
        ∑ i ∈ range K, (b i - t i) := by
      have := tel (K - 1) (by omega)
      rw [show K - 1 + 1 = K by omega] at this
      rw [this]; rfl
    have e4 : ∑ i ∈ range K, edgeSum 4 (m i).ne (m i).C (fun p q => f (P i p) (P i q)) = ∑ i ∈ range K, ((b i - t i) +
        (pathSum (n i) (fun a => P i ((O i).right a)) f - pathSum (n i) (fun a => P i ((O i).left a)) f)) := by
      refine sum_congr rfl fun i hi => ?_
      rw [mem_range] at hi
      rw [(hL.rect i hi).perimeter.stokes _ fun p q => hf _ _, (hs i hi).2.2.2, hnK i hi]
      simp only [b, t, pathSum]
      abel
    rw [e4, sum_add_distrib, sum_sub_distrib (f := fun i => pathSum (n i) (fun a => P i ((O i).right a)) f), ← e3]
    abel
  · -- sizes
    refine ⟨(hs 0 hK).1, ?_, Nat.succ_pos _, rfl⟩
    change (O (K - 1)).nt = (O 0).nb
    rw [(hs _ (by omega)).2.1, nb _ (by omega)]
  · -- bottom
    intro j hj
    have b := (hL.rect 0 hK).bottom j hj
    refine ⟨hS.node_lt 0 _ hK b.1, ?_⟩
    change X (P 0 ((O 0).bottom j)) 1 = 0
    rw [py 0 _ hK b.1, b.2, h0, zero_add]
  · -- top
    intro j hj
    have hj' : j < (O (K - 1)).nt := hj
    have t := (hL.rect (K - 1) (by omega)).top j hj'
    have jb : j < (O 0).nb := by rw [(hs _ (by omega)).2.1, nb _ (by omega)] at hj'; exact hj'
    have b := (hL.rect 0 hK).bottom j jb
    refine ⟨hS.node_lt _ _ (by omega) t.1, ?_, ?_⟩
    · change X (P (K - 1) ((O (K - 1)).top j)) 1 = _
      rw [py _ _ (by omega) t.1, t.2.1, top_h]
    · change X (P (K - 1) ((O (K - 1)).top j)) 0 = X (P 0 ((O 0).bottom j)) 0
      rw [px _ _ (by omega) t.1, px 0 _ hK b.1, t.2.2, hx _ j (by omega) jb]
  · -- left
    intro j hj
    rw [enl] at hj
    obtain ⟨i, a, hi, ha, rfl⟩ := chain_node hn hK hj
    obtain ⟨-, -, -, l1, l2⟩ := rl i a hi ha
    rw [eL, atL i a hi ha]
    exact ⟨hS.node_lt i _ hi l1, by rw [px i _ hi l1, l2]⟩
  · -- right
    intro j hj
    rw [enr] at hj
    obtain ⟨i, a, hi, ha, rfl⟩ := chain_node hn hK hj
    obtain ⟨r1, r2, r3, l1, l2⟩ := rl i a hi ha
    rw [eL, eR, atL i a hi ha, atR i a hi ha]
    exact ⟨hS.node_lt i _ hi r1, by rw [px i _ hi r1, r2], by rw [py i _ hi r1, py i _ hi l1, r3]⟩
  · -- bottom_mono
    intro j hj
    have hj' : j + 1 < (O 0).nb := hj
    have b1 := (hL.rect 0 hK).bottom j (by omega)
    have b2 := (hL.rect 0 hK).bottom (j + 1) hj'
    change X (P 0 ((O 0).bottom j)) 0 < X (P 0 ((O 0).bottom (j + 1))) 0
    rw [px 0 _ hK b1.1, px 0 _ hK b2.1]
    exact (hL.rect 0 hK).bottom_mono j hj'
  · -- left_mono
    intro j hj
    rw [enl] at hj
    have hj' : j < chainOff n K := by omega
    obtain ⟨i, a, hi, ha, -, e1, e2⟩ := chain_edge (p := fun i a => P i ((O i).left a)) hn jl hj'
    rw [eL, eL, e1, e2]
    obtain ⟨-, -, -, l1, -⟩ := rl i a hi (by omega)
    obtain ⟨-, -, -, l2, -⟩ := rl i (a + 1) hi ha
    rw [py i _ hi l1, py i _ hi l2]
    have := (hL.rect i hi).left_mono a (by rw [hnK i hi]; exact ha)
    linarith
  · -- inside
    intro r hr
    obtain ⟨i, k, hi, hk, rfl⟩ := hS.surj r hr
    obtain ⟨a1, a2, a3, a4⟩ := (hL.rect i hi).inside k hk
    rw [px i k hi hk, py i k hi hk]
    have h1 := low i hi
    have h2 := hgt (i := i + 1) (k := K) (by omega) le_rfl
    rw [Vstack.height_succ] at h2
    exact ⟨a1, a2, by linarith, by linarith⟩
  · -- distinct
    have key : ∀ i i' k k', i < i' → i' < K → k < (m i).nn → k' < (m i').nn → X (P i k) 0 = X (P i' k') 0 → X (P i k) 1 = X (P i' k') 1 → P i k = P i' k' := by
      intro i i' k k' hii hi' hk hk' ex ey
      rw [px i k (by omega) hk, px i' k' hi' hk'] at ex
      rw [py i k (by omega) hk, py i' k' hi' hk'] at ey
      have u := ((hL.rect i (by omega)).inside k hk).2.2.2
      have u' := ((hL.rect i' hi').inside k' hk').2.2.1
      have h1 := Vstack.height_succ H i
      have h2 := hgt (i := i + 1) (k := i') (by omega) (by omega)
      have ei : i' = i + 1 := by
        by_contra hne
        have := hlt (i := i + 1) (k := i') (by omega) (by omega)
        linarith
      subst ei
      obtain ⟨-, st, -, -⟩ := (hL.rect i (by omega)).side_complete lx (hL.high i (by omega)) hk
      obtain ⟨sb, -, -, -⟩ := (hL.rect (i + 1) hi').side_complete lx (hL.high (i + 1) hi') hk'
      obtain ⟨j, hj, rfl⟩ := st (by linarith)
      obtain ⟨j', hj', rfl⟩ := sb (by linarith)
      rw [hL.fit i j hi' hj] at ex
      obtain rfl : j = j' := inj_of_step (hL.rect (i + 1) hi').bottom_mono (by rw [← hL.num i hi']; exact hj) hj' ex
      exact (glue i j hi' hj).symm
    intro r r' hr hr' ex ey
    obtain ⟨i, k, hi, hk, rfl⟩ := hS.surj r hr
    obtain ⟨i', k', hi', hk', rfl⟩ := hS.surj r' hr'
    rcases lt_trichotomy i i' with h | rfl | h
    · exact key i i' k k' h hi' hk hk' ex ey
    · rw [px i k hi hk, px i k' hi hk'] at ex
      rw [py i k hi hk, py i k' hi hk'] at ey
      rw [(hL.rect i hi).distinct k k' hk hk' ex (by linarith)]
    · exact (key i' i k' k h hi hk' hk ex.symm ey.symm).symm
  · -- used
    intro _ _ r hr
    obtain ⟨i, k, hi, hk, rfl⟩ := hS.surj r hr
    obtain ⟨e, a, he, ha, rfl⟩ := (hL.rect i hi).used lx (hL.high i hi) k hk
    exact ⟨elemOffset m i + e, a, offset_lt (fun i => (m i).ne) hi he, ha, hS.conn i e a hi he ha⟩

/-- **C103** (stacking) `Vstack` of layers that fit is a conforming mesh of the rectangle whose height is the sum of the heights of the
layers: the sides of the stack are those of the layers, and all edges in the interior (also those at the interfaces) are
shared by two elements. -/
theorem C103_stack (close : α → α → Bool) (hrefl : ∀ a, close a a = true) (hL : Layers K m O Lx H) (hK : 0 < K) (lx : 0 < Lx)
    {co : Nat → Ten α} {cn : Nat → Ten Nat} (hco : ∀ i, i < K → Is2 (co i) (m i).nn 2 (m i).x) (hcn : ∀ i, i < K → Is2 (cn i) (m i).ne 4 (m i).C)
    (chk : Bool) :
    IsOk (Vstack.history close chk co cn (fun i => (O i).bottomList) (fun i => (O i).topList) K) fun V => ∃ N X CC P,
      Is2 V.base.coor N 2 X ∧ Is2 V.base.conn (elemOffset m K) 4 CC ∧
      (∀ i, i < K → IsOk (V.base.nodemap i) fun t => Is1 t (m i).nn (P i)) ∧
      RectMesh N (elemOffset m K) CC X Lx (∑ i ∈ range K, H i) (stackOutline K O P) := by
  obtain ⟨V, V1, -, N, X, CC, P, V2, V3, V4, -, V6⟩ := Vstack.C58_stack close hrefl (nd := 2) (nne := 4) (by omega) (m := m)
    (bot := fun i => (O i).bottomList) (top := fun i => (O i).topList) (H := H) K hK
    (fun i hi => ⟨hco i hi, hcn i hi, fun e a he ha => (hL.rect i hi).valid e a he ha⟩) hL.toFit chk
  exact ⟨V, V1, N, X, CC, P, V2, V3, V4, stack_rect hL hK lx V6⟩

/-- **C103.** A stack of any number of layers can be used for an analysis as any other mesh of a rectangle: with linear
displacements prescribed on the boundary of the stack, the displacements that are solved for are linear throughout all layers. -/
theorem C103_patch (close : α → α → Bool) (hrefl : ∀ a, close a a = true) (hL : Layers K m O Lx H) (hK : 0 < K) (lx : 0 < Lx)
    {co : Nat → Ten α} {cn : Nat → Ten Nat} (hco : ∀ i, i < K → Is2 (co i) (m i).nn 2 (m i).x) (hcn : ∀ i, i < K → Is2 (cn i) (m i).ne 4 (m i).C)
    (chk : Bool) {s : α} (s0 : s ≠ 0) (s1 : -1 ≤ s) (s2 : s ≤ 1) (σ τ ρ : Sched) (υ : Nat → Sched) {C} (hE : Elastic C)
    {A : Nat → Nat → α} {a : Nat → α} {S : LinSolver α} (hSol : S.Suits (Major 2 C)) :
    IsOk (Vstack.history close chk co cn (fun i => (O i).bottomList) (fun i => (O i).topList) K) fun V => ∃ N X,
      Is2 V.base.coor N 2 X ∧ ∀ (Ct b u : Ten α) (f : Nat → α) (iip : List Nat), Is6 Ct (elemOffset m K) 4 2 2 2 2 (fun _ _ => C) →
        Is1 b (2 * N) (fun _ => 0) → Is1 u (2 * N) f → iip.Nodup → (∀ k ∈ iip, k < 2 * N) →
        (∀ r i, r < N → i < 2 → ¬ (0 < X r 0 ∧ X r 0 < Lx ∧ 0 < X r 1 ∧ X r 1 < ∑ i ∈ range K, H i) → r * 2 + i ∈ iip) →
        (∀ r i, r < N → i < 2 → r * 2 + i ∈ iip → f (r * 2 + i) = a i + ∑ j ∈ range 2, A i j * X r j) →
        IsOk (do
          let dofs := meshDofs N 2
          let (_, Q) ← setup s σ τ V.base.conn dofs V.base.coor
          solveLinear S ρ υ V.base.conn dofs iip Q Ct b u) fun y => ∃ f', Is1 y (2 * N) f' ∧
            ∀ r i, r < N → i < 2 → f' (r * 2 + i) = a i + ∑ j ∈ range 2, A i j * X r j := by
  obtain ⟨V, V1, N, X, CC, P, V2, V3, -, hM⟩ := C103_stack close hrefl hL hK lx hco hcn chk
  refine ⟨V, V1, N, X, V2, fun Ct b u f iip hC hb hu hi hin hbd hf => ?_⟩
  have nd : NumDofs N (fun m i => m * 2 + i) (2 * N) := by
    have := hM.nodes
    exact ⟨fun m i hm hi => by beta_reduce; omega, N - 1, 1, by omega, by omega, by beta_reduce; omega⟩
  have ly : 0 < ∑ i ∈ range K, H i :=
    sum_pos (fun i hi => hL.high i (mem_range.1 hi)) ⟨0, mem_range.2 hK⟩
  obtain ⟨y, y1, f', y2, y3⟩ := C78_patch hM lx ly s0 s1 s2 σ τ ρ υ V3 V2 (meshDofs_ok _) nd
    (fun k hk => ⟨k / 2, k % 2, by omega, by omega, by beta_reduce; omega⟩) hC hE hb hu hi hin hbd
    (A := A) (a := a) (fA := fun k => a (k % 2) + ∑ j ∈ range 2, A (k % 2) j * X (k / 2) j)
    (fun m i hm hi' => by beta_reduce; rw [show (m * 2 + i) % 2 = i by omega, show (m * 2 + i) / 2 = m by omega])
    (fun k hk => by
      have hk' := hin k hk
      have ek : k = k / 2 * 2 + k % 2 := by omega
      have := hf (k / 2) (k % 2) (by omega) (by omega) (by rw [← ek]; exact hk)
      rw [← ek] at this
      exact this) hSol
  exact ⟨y, y1, f', y2, y3⟩

end

end GF
