import Verif.Props.Stack

/-! **C104** Nodes of combined meshes are numbered in the order in which they first appear; a stack of regular meshes is the
regular mesh. -/

namespace GF
open Finset ElemSpec

theorem Earlier.trans {i n j p k q : Nat} (h : Earlier i n j p) (h' : Earlier j p k q) : Earlier i n k q := by
  unfold Earlier at *; omega

theorem earlier_tri (i n j p : Nat) : Earlier i n j p ∨ (i = j ∧ n = p) ∨ Earlier j p i n := by
  unfold Earlier; omega

/-- induction over the nodes in their order -/
theorem earlier_induction {C : Nat → Nat → Prop} (h : ∀ j p, (∀ i n, Earlier i n j p → C i n) → C j p) : ∀ j p, C j p := by
  intro j
  induction j using Nat.strong_induction_on with
  | _ j ihj =>
    intro p
    induction p using Nat.strong_induction_on with
    | _ p ihp =>
      refine h j p fun i n hE => ?_
      rcases hE with h' | ⟨rfl, h'⟩
      · exact ihj i h' n
      · exact ihp n h'

/-- the first node with a given number -/
theorem first_node {K : Nat} {nn : Nat → Nat} {P : Nat → Nat → Nat} : ∀ j p, j < K → p < nn j →
    ∃ i n, i < K ∧ n < nn i ∧ P i n = P j p ∧ ∀ i' n', n' < nn i' → Earlier i' n' i n → P i' n' ≠ P i n := by
  refine earlier_induction fun j p ih hj hp => ?_
  by_cases h : ∃ i n, n < nn i ∧ Earlier i n j p ∧ P i n = P j p
  · obtain ⟨i, n, h1, h2, h3⟩ := h
    obtain ⟨i', n', a1, a2, a3, a4⟩ := ih i n h2 (by rcases h2 with h | ⟨h, -⟩ <;> omega) h1
    exact ⟨i', n', a1, a2, a3.trans h3, a4⟩
  · push Not at h
    exact ⟨j, p, hj, hp, rfl, h⟩

/-- **C104.** The order of first appearance determines all numbers, given which nodes are the same. -/
theorem C104_unique {K N N' : Nat} {nn : Nat → Nat} {P P' : Nat → Nat → Nat} (h : Numbered K nn P) (h' : Numbered K nn P')
    (lt : ∀ i n, i < K → n < nn i → P i n < N) (lt' : ∀ i n, i < K → n < nn i → P' i n < N')
    (surj : ∀ r, r < N → ∃ i n, i < K ∧ n < nn i ∧ P i n = r) (surj' : ∀ r, r < N' → ∃ i n, i < K ∧ n < nn i ∧ P' i n = r)
    (same : ∀ i n j p, i < K → j < K → n < nn i → p < nn j → (P i n = P j p ↔ P' i n = P' j p)) :
    N = N' ∧ ∀ i n, i < K → n < nn i → P i n = P' i n := by
  -- one direction
  have key : ∀ {N : Nat} {P P' : Nat → Nat → Nat}, Numbered K nn P → (∀ i n, i < K → n < nn i → P i n < N) →
      (∀ r, r < N → ∃ i n, i < K ∧ n < nn i ∧ P i n = r) →
      (∀ i n j p, i < K → j < K → n < nn i → p < nn j → (P i n = P j p ↔ P' i n = P' j p)) → ∀ j p, j < K → p < nn j →
      (∀ i n, n < nn i → Earlier i n j p → P i n = P' i n) → ¬ P' j p < P j p := by
    intro N P P' h lt surj same j p hj hp ih hlt
    obtain ⟨i0, n0, a1, a2, a3⟩ := surj (P' j p) (by have := lt j p hj hp; omega)
    obtain ⟨i, n, b1, b2, b3, b4⟩ := first_node (P := P) i0 n0 a1 a2
    rw [a3] at b3
    rcases earlier_tri i n j p with c | ⟨rfl, rfl⟩ | c
    · have e := ih i n b2 c
      have := (same i n j p b1 hj b2 hp).2 (by rw [← e, b3])
      omega
    · omega
    · have := h i n b1 b2 b4 j p hp c
      omega
  have eq : ∀ i n, i < K → n < nn i → P i n = P' i n := by
    refine earlier_induction fun j p ih hj hp => ?_
    have ih' : ∀ i n, n < nn i → Earlier i n j p → P i n = P' i n := fun i n hn hE =>
      ih i n hE (by rcases hE with h | ⟨h, -⟩ <;> omega) hn
    have k1 := key h lt surj same j p hj hp ih'
    have k2 := key h' lt' surj' (fun i n j p a b c d => (same i n j p a b c d).symm) j p hj hp fun i n a b => (ih' i n a b).symm
    omega
  refine ⟨le_antisymm ?_ ?_, eq⟩
  · by_contra hlt
    obtain ⟨i, n, a, b, c⟩ := surj N' (by omega)
    have := lt' i n a b
    rw [← eq i n a b] at this
    omega
  · by_contra hlt
    obtain ⟨i, n, a, b, c⟩ := surj' N (by omega)
    have := lt i n a b
    rw [eq i n a b] at this
    omega

/-- **C104.** `Stitch`: an automatically combined mesh numbers its nodes in the order in which they first appear. -/
theorem C104_stitch {α : Type} (close : α → α → Bool) {nd nne : Nat} {m : Nat → MeshData α} {co : Nat → Ten α} {cn : Nat → Ten Nat} (K : Nat)
    (hK : 0 < K) (h : ∀ i, i < K → (m i).Held nd nne (co i) (cn i)) {S : Stitch α} (hS : Stitch.history close co cn K = .ok S) :
    ∃ P, (∀ i, i < K → IsOk (S.nodemap i) fun t => Is1 t (m i).nn (P i)) ∧ Numbered K (fun i => (m i).nn) P := by
  obtain ⟨-, N, X, CC, P, -, -, h3, -, h5⟩ := Stitch.C39_combined close K hK h hS
  exact ⟨P, h3, h5.order⟩

/-- the list holds the entries of the array that is returned -/
def Lists (t : Res (Ten Nat)) (l : List Nat) : Prop := IsOk t fun t => Is1 t l.length fun k => l.getD k 0

theorem Lists.eq {t : Res (Ten Nat)} {l : List Nat} {n : Nat} {f : Nat → Nat} (h : Lists t l) (hf : IsOk t fun t => Is1 t n f) :
    l = (List.range n).map f := by
  obtain ⟨a, e, h1⟩ := h
  obtain ⟨b, e', h2⟩ := hf
  obtain rfl : a = b := by rw [e] at e'; exact Res.ok.inj e'
  have hn : l.length = n := by have := h1.1.symm.trans h2.1; simpa using this
  subst hn
  refine List.ext_getElem (by simp) fun k hk hk' => ?_
  have := (h1.2 k hk).symm.trans (h2.2 k hk)
  rw [Option.some.injEq] at this
  rw [List.getElem_map, List.getElem_range, ← this]
  simp [List.getD, hk]

section
variable {α : Type} [Field α] [LinearOrder α] [IsStrictOrderedRing α]

/-- the layers of a regular mesh -/
def regularLayer (nelx : Nat) (ny : Nat → Nat) (h : α) (i : Nat) : MeshData α :=
  ⟨(nelx + 1) * (ny i + 1), nelx * ny i, gridCoor h nelx, gridQuad nelx⟩

theorem regular_layers (nelx K : Nat) (ny : Nat → Nat) (hny : ∀ i, i < K → 0 < ny i) {h : α} (hh : 0 < h) :
    Layers K (regularLayer nelx ny h) (fun i => gridOutline nelx (ny i)) (h * (nelx : α)) fun i => h * (ny i : α) where
  rect i _ := regular_rect nelx (ny i) hh
  high i hi := mul_pos hh (by exact_mod_cast hny i hi)
  num _ _ := rfl
  fit i j _ hj := by
    have hj' : j < nelx + 1 := hj
    have h1 := (gridCoor_node h (nelx := nelx) (i := ny i) hj').1
    have h2 := (gridCoor_node h (nelx := nelx) (i := 0) hj').1
    rw [Nat.zero_mul, Nat.zero_add] at h2
    exact h1.trans h2.symm

/-- the numbers of the nodes of a stack of regular meshes -/
theorem regular_numbers {nelx K : Nat} {ny : Nat → Nat} (hK : 0 < K) (hny : ∀ i, i < K → 0 < ny i) {h : α} (hh : 0 < h) {N X CC P}
    (hS : Vstack.Stacked 2 4 K (regularLayer nelx ny h) (fun i => (gridOutline nelx (ny i)).bottomList)
      (fun i => (gridOutline nelx (ny i)).topList) (fun i => h * (ny i : α)) N X CC P) :
    N = (nelx + 1) * ((∑ i ∈ range K, ny i) + 1) ∧
      ∀ i n, i < K → n < (nelx + 1) * (ny i + 1) → P i n = (nelx + 1) * (∑ k ∈ range i, ny k) + n := by
  obtain ⟨w, hw⟩ : ∃ w, w = nelx + 1 := ⟨_, rfl⟩
  have w0 : 0 < w := by omega
  obtain ⟨S, hSd⟩ : ∃ S : Nat → Nat, ∀ i, S i = ∑ k ∈ range i, ny k := ⟨_, fun _ => rfl⟩
  have S0 : S 0 = 0 := by rw [hSd]; rfl
  have S1 : ∀ i, S (i + 1) = S i + ny i := fun i => by rw [hSd, hSd, sum_range_succ]
  have Sm : ∀ i j, i ≤ j → S i ≤ S j := fun i j hij => by
    rw [hSd, hSd]; exact sum_le_sum_of_subset (range_mono hij)
  have hH : ∀ i, Vstack.height (fun i => h * (ny i : α)) i = h * (S i : α) := fun i => by
    rw [Vstack.height, hSd, Nat.cast_sum, mul_sum]
  simp only [← hSd, ← hw]
  have wS1 : ∀ i, w * S (i + 1) = w * S i + w * ny i := fun i => by rw [S1, Nat.mul_add]
  have wSm : ∀ i j, i ≤ j → w * S i ≤ w * S j := fun i j hij => Nat.mul_le_mul_left _ (Sm i j hij)
  have wn : ∀ i, w * (ny i + 1) = w * ny i + w := fun i => Nat.mul_succ _ _
  have hn : ∀ i, (regularLayer nelx ny h i).nn = w * (ny i + 1) := fun i => by rw [hw]; rfl
  refine C104_unique (K := K) (nn := fun i => w * (ny i + 1)) (P' := fun i n => w * S i + n) ?_ ?_ ?_ ?_ ?_ ?_ ?_
  · have := hS.order
    simp only [hn] at this
    exact this
  · intro j p hj hp hno i n hin hE
    beta_reduce at hno hin hp ⊢
    rcases hE with hE | ⟨rfl, hE⟩
    · have a1 := wSm (i + 1) j hE
      rw [wS1] at a1
      rw [wn] at hin
      by_cases hpw : w ≤ p
      · omega
      · exfalso
        obtain ⟨j', rfl⟩ : ∃ j', j = j' + 1 := ⟨j - 1, by omega⟩
        refine hno j' (w * ny j' + p) (by rw [wn]; omega) (Or.inl (by omega)) ?_
        rw [wS1]; omega
    · omega
  · intro i n hi hin
    exact hS.node_lt i n hi (by rw [hn]; exact hin)
  · intro i n hi hin
    have := wSm (i + 1) K hi
    beta_reduce at hin ⊢
    rw [wS1] at this
    rw [wn] at hin
    rw [Nat.mul_succ]; omega
  · intro r hr
    obtain ⟨i, n, a1, a2, a3⟩ := hS.surj r hr
    rw [hn] at a2
    exact ⟨i, n, a1, a2, a3⟩
  · intro r hr
    rw [Nat.mul_succ] at hr
    by_cases hrw : r < w
    · exact ⟨0, r, hK, by rw [wn]; omega, by rw [S0]; omega⟩
    · obtain ⟨i, a, a1, a2, a3⟩ := offset_split (fun i => w * ny i) K (r - w) (by rw [← mul_sum, ← hSd]; omega)
      rw [← mul_sum, ← hSd] at a3
      exact ⟨i, a + w, a1, by rw [wn]; omega, by omega⟩
  · -- which nodes are the same
    have pos : ∀ i n, i < K → n < w * (ny i + 1) → X (P i n) 0 = h * ((n % w : Nat) : α) ∧ X (P i n) 1 = h * ((n / w + S i : Nat) : α) := by
      intro i n hi hin
      have e := hS.at_height i n hi (by rw [hn]; exact hin)
      have e0 := e 0 (by omega)
      have e1 := e 1 (by omega)
      simp only [Vstack.raised, regularLayer, gridCoor, if_true, if_false, Nat.zero_ne_one, Nat.one_ne_zero, ← hw, hH] at e0 e1
      exact ⟨e0, by rw [e1]; push_cast; ring⟩
    have glue : ∀ i j n p, i < j → j < K → n < w * (ny i + 1) → w * S i + n = w * S j + p → P i n = P j p := by
      intro i j n p hij hj hin hE
      rw [wn] at hin
      have b := wSm (i + 1) j hij
      rw [wS1] at b
      have hj1 : j = i + 1 := by
        by_contra hne
        have c := wSm (i + 2) j (by omega)
        rw [wS1, wS1] at c
        have := Nat.mul_le_mul_left w (hny (i + 1) (by omega))
        omega
      subst hj1
      rw [wS1] at hE
      have hp : p < w := by omega
      refine (hS.glued i n p hj ?_).symm
      rw [List.mem_iff_getElem]
      refine ⟨p, by simp [Outline.topList, Outline.bottomList, gridOutline, ← hw, hp], ?_⟩
      simp only [List.getElem_zip, Outline.topList, Outline.bottomList, gridOutline, List.getElem_map, List.getElem_range, ← hw]
      rw [Nat.mul_comm (ny i)]
      congr 1; omega
    intro i n j p hi hj hin hjp
    beta_reduce at hin hjp ⊢
    constructor
    · intro e
      obtain ⟨a1, a2⟩ := pos i n hi hin
      obtain ⟨b1, b2⟩ := pos j p hj hjp
      rw [e] at a1 a2
      have c1 : n % w = p % w := by
        have := mul_left_cancel₀ hh.ne' (a1.symm.trans b1)
        exact_mod_cast this
      have c2 : n / w + S i = p / w + S j := by
        have := mul_left_cancel₀ hh.ne' (a2.symm.trans b2)
        exact_mod_cast this
      have d1 := Nat.div_add_mod n w
      have d2 := Nat.div_add_mod p w
      have d3 : w * (n / w) + w * S i = w * (p / w) + w * S j := by rw [← Nat.mul_add, ← Nat.mul_add, c2]
      omega
    · intro e
      rcases Nat.lt_trichotomy i j with c | rfl | c
      · exact glue i j n p c hj hin e
      · obtain rfl : n = p := by omega
        rfl
      · exact (glue j i p n c hi hjp e.symm).symm

/-- **C104.** A stack of regular meshes with `nelx` elements of size `h` per row is, array by array, the regular mesh of all rows;
node `n` of layer `i` is node `(nelx + 1) * (number of rows below) + n`. -/
theorem C104_regular (close : α → α → Bool) (hrefl : ∀ a, close a a = true) {nelx K : Nat} (hx : 0 < nelx) (hK : 0 < K) {ny : Nat → Nat}
    (hny : ∀ i, i < K → 0 < ny i) {h : α} (hh : 0 < h) {co : Nat → Ten α} {cn : Nat → Ten Nat} {bot top : Nat → List Nat}
    (hco : ∀ i, i < K → (Quad4.Regular.new nelx (ny i) h).coor = .ok (co i))
    (hcn : ∀ i, i < K → Quad4.Regular.conn (Quad4.Regular.new nelx (ny i) h) = .ok (cn i))
    (hb : ∀ i, i < K → Lists (Quad4.Regular.nodesBottomEdge (Quad4.Regular.new nelx (ny i) h)) (bot i))
    (ht : ∀ i, i < K → Lists (Quad4.Regular.nodesTopEdge (Quad4.Regular.new nelx (ny i) h)) (top i)) (chk : Bool) :
    IsOk (Vstack.history close chk co cn bot top K) fun V => ∃ x c,
      let R := Quad4.Regular.new nelx (∑ i ∈ range K, ny i) h
      (IsOk R.coor fun t => Is2 t R.nnode 2 x) ∧ Is2 V.base.coor R.nnode 2 x ∧
      (IsOk (Quad4.Regular.conn R) fun t => Is2 t R.nelem 4 c) ∧ Is2 V.base.conn R.nelem 4 c ∧
      ∀ i, i < K → IsOk (V.base.nodemap i) fun t =>
        Is1 t ((nelx + 1) * (ny i + 1)) fun n => (nelx + 1) * (∑ k ∈ range i, ny k) + n := by
  have hL := regular_layers nelx K ny hny hh
  have hst : Vstack.history close chk co cn bot top K = Vstack.history close chk co cn
      (fun i => (gridOutline nelx (ny i)).bottomList) (fun i => (gridOutline nelx (ny i)).topList) K := by
    refine forEach_congr _ _ _ _ fun i hi V => ?_
    rw [mem_it1] at hi
    obtain ⟨-, h2, -, h4, -⟩ := Quad4.Regular.sides nelx (ny i) h
    rw [(hb i hi).eq h2, (ht i hi).eq h4]
    rfl
  rw [hst]
  have hheld : ∀ i, i < K → (regularLayer nelx ny h i).Held 2 4 (co i) (cn i) := by
    intro i hi
    obtain ⟨t, e1, e2⟩ := (Quad4.Regular.new nelx (ny i) h).coor_spec rfl rfl
    obtain ⟨t', e3, e4⟩ := (Quad4.Regular.sides nelx (ny i) h).1
    rw [hco i hi] at e1
    rw [hcn i hi] at e3
    obtain rfl := Res.ok.inj e1
    obtain rfl := Res.ok.inj e3
    exact ⟨e2, e4, fun e a he ha => (hL.rect i hi).valid e a he ha⟩
  obtain ⟨V, V1, -, N, X, CC, P, V2, V3, V4, -, V6⟩ := Vstack.C58_stack close hrefl (nd := 2) (nne := 4) (by omega)
    (m := regularLayer nelx ny h) K hK hheld hL.toFit chk
  obtain ⟨n1, n2⟩ := regular_numbers hK hny hh V6
  have hnn : ∀ i, (regularLayer nelx ny h i).nn = (nelx + 1) * (ny i + 1) := fun _ => rfl
  have hoff : ∀ i, elemOffset (regularLayer nelx ny h) i = nelx * ∑ k ∈ range i, ny k := fun i => by
    rw [elemOffset, mul_sum]; rfl
  refine ⟨V, V1, gridCoor h nelx, gridQuad nelx, ?_⟩
  intro R
  refine ⟨R.coor_spec rfl rfl, ?_, (Quad4.Regular.sides nelx _ h).1, ?_, ?_⟩
  · have hN : R.nnode = N := n1.symm
    rw [hN]
    refine V2.congr fun r k hr hk => ?_
    obtain ⟨i, n, a1, a2, a3⟩ := V6.surj r hr
    have e := V6.at_height i n a1 a2 k hk
    rw [a3] at e
    have hr' : r = (nelx + 1) * (∑ k ∈ range i, ny k) + n := by rw [← a3]; exact n2 i n a1 a2
    have d1 : r % (nelx + 1) = n % (nelx + 1) := by rw [hr', Nat.mul_add_mod]
    have d2 : r / (nelx + 1) = (∑ k ∈ range i, ny k) + n / (nelx + 1) := by rw [hr', Nat.mul_add_div (by omega)]
    rw [e]
    rcases (show k = 0 ∨ k = 1 by omega) with rfl | rfl
    · simp only [Vstack.raised, regularLayer, gridCoor, if_true, Nat.zero_ne_one, if_false, d1]
    · simp only [Vstack.raised, regularLayer, gridCoor, if_true, Nat.one_ne_zero, if_false, d2, Vstack.height]
      push_cast
      rw [← mul_sum]; ring
  · have hE : R.nelem = elemOffset (regularLayer nelx ny h) K := (hoff K).symm
    rw [hE]
    refine V3.congr fun e a he ha => ?_
    obtain ⟨i, e', b1, b2, rfl⟩ := offset_split (fun i => (regularLayer nelx ny h i).ne) K e he
    have b2' : e' < nelx * ny i := b2
    rw [show (∑ k ∈ range i, (regularLayer nelx ny h k).ne) = elemOffset (regularLayer nelx ny h) i from rfl, V6.conn i e' a b1 b2 ha,
      n2 i _ b1 ((hL.rect i b1).valid e' a b2 ha), hoff]
    obtain ⟨S, hS⟩ : ∃ S, S = ∑ k ∈ range i, ny k := ⟨_, rfl⟩
    rw [← hS]
    simp only [regularLayer, gridQuad, Nat.mul_add_mod, Nat.mul_add_div hx]
    have : ∀ q : Nat, (S + q) * (nelx + 1) = (nelx + 1) * S + q * (nelx + 1) := fun q => by ring
    have h2 : ∀ q : Nat, (S + q + 1) * (nelx + 1) = (nelx + 1) * S + (q + 1) * (nelx + 1) := fun q => by ring
    split_ifs <;> simp only [this, h2] <;> omega
  · intro i hi
    obtain ⟨t, t1, t2⟩ := V4 i hi
    exact ⟨t, t1, t2.congr fun n hn => n2 i n hi hn⟩

/-- the stack of 2 x 1 elements on 2 x 2 elements -/
example : ∃ co cn V, Vstack.history (fun a b : ℚ => decide (a = b)) true co cn (fun _ => [0, 1, 2])
    (fun i => if i = 0 then [6, 7, 8] else [3, 4, 5]) 2 = .ok V ∧ V.base.coor.shape = [12, 2] := by
  have hc := fun i => (Quad4.Regular.new 2 (2 - i) (1 : ℚ)).coor_spec rfl rfl
  have hn := fun i => (Quad4.Regular.sides 2 (2 - i) (1 : ℚ)).1
  choose co hco using hc
  choose cn hcn using hn
  obtain ⟨V, V1, x, c, -, V2, -⟩ := C104_regular (fun a b : ℚ => decide (a = b)) (by simp) (nelx := 2) (K := 2) (by omega) (by omega)
    (ny := fun i => 2 - i) (by intro i hi; omega) (h := (1 : ℚ)) (by norm_num) (co := co) (cn := cn) (bot := fun _ => [0, 1, 2])
    (top := fun i => if i = 0 then [6, 7, 8] else [3, 4, 5]) (fun i _ => (hco i).1) (fun i _ => (hcn i).1)
    (fun i _ => by
      obtain ⟨t, t1, t2⟩ := (Quad4.Regular.sides 2 (2 - i) (1 : ℚ)).2.1
      refine ⟨t, t1, t2.congr fun k hk => ?_⟩
      simp only [gridOutline] at hk ⊢
      interval_cases k <;> rfl)
    (fun i hi => by
      obtain ⟨t, t1, t2⟩ := (Quad4.Regular.sides 2 (2 - i) (1 : ℚ)).2.2.2.1
      interval_cases i
      all_goals
        refine ⟨t, t1, t2.congr fun k hk => ?_⟩
        simp only [gridOutline] at hk ⊢
        interval_cases k <;> rfl) true
  exact ⟨co, cn, V, V1, V2.1⟩

end
end GF
