import Verif.Props.StaticExamples

/-! **C93** The partially periodic static program on rectangular meshes. -/

namespace GF
open Finset ElemSpec Element Element.Quad4

variable {α : Type} [Field α] [LinearOrder α] [IsStrictOrderedRing α]
variable {nn ne : Nat} {c d : Nat → Nat → Nat} {x : Nat → Nat → α} {Lx Ly : α} {O : Outline}

/-- `renumber` of the DOFs of nodes -/
theorem renumber_nodes {dofs : Ten Nat} (h0 : 0 < nn) (hd : Is2 dofs nn 2 d) : ∃ y d' n, renumber dofs = .ok y ∧ Is2 y nn 2 d' ∧
    (∀ m i m' i', m < nn → i < 2 → m' < nn → i' < 2 → (d' m i = d' m' i' ↔ d m i = d m' i')) ∧ NumDofs nn d' n ∧
    ∀ k, k < n → ∃ m i, m < nn ∧ i < 2 ∧ d' m i = k := by
  obtain ⟨y, g, h1, h2, h3, h4, h5⟩ := C09_renumber (dofs := dofs) (f := fun ix => d (ix.getD 0 0) (ix.getD 1 0)) (by
    intro ix hix
    rw [hd.1] at hix
    match ix, hix with
    | [_], hix => simp [inb] at hix
    | _ :: _ :: _ :: _, hix => simp [inb] at hix
    | [a, b], hix =>
      simp only [inb, Bool.and_true, Bool.and_eq_true, decide_eq_true_eq] at hix
      simpa using hd.2 a b hix.1 hix.2)
  rw [hd.1] at h2 h4 h5
  have inb2 : ∀ {a b}, a < nn → b < 2 → inb [nn, 2] [a, b] = true := fun ha hb => by simp [inb, ha, hb]
  have hn : ∀ k, k < ((indices [nn, 2]).map fun ix => d (ix.getD 0 0) (ix.getD 1 0)).toFinset.card → ∃ m i, m < nn ∧ i < 2 ∧ g [m, i] = k := by
    intro k hk
    obtain ⟨ix, hix, e⟩ := (h5 k).2 hk
    match ix, hix, e with
    | [_], hix, _ => simp [inb] at hix
    | _ :: _ :: _ :: _, hix, _ => simp [inb] at hix
    | [a, b], hix, e =>
      simp only [inb, Bool.and_true, Bool.and_eq_true, decide_eq_true_eq] at hix
      exact ⟨a, b, hix.1, hix.2, e⟩
  have hlt : ∀ m i, m < nn → i < 2 → g [m, i] < _ := fun m i hm hi => (h5 _).1 ⟨[m, i], inb2 hm hi, rfl⟩
  refine ⟨y, fun m i => g [m, i], _, h1, ⟨h2, fun a b ha hb => h3 [a, b] (by rw [h2]; exact inb2 ha hb)⟩, fun m i m' i' hm hi hm' hi' => ?_,
    ⟨hlt, ?_⟩, hn⟩
  · simpa using (h4 [m, i] [m', i'] (inb2 hm hi) (inb2 hm' hi')).2
  · have := hlt 0 0 h0 (by omega)
    obtain ⟨m, i, hm, hi, e⟩ := hn _ (Nat.sub_lt (by omega) Nat.one_pos)
    exact ⟨m, i, hm, hi, by beta_reduce; omega⟩

/-- the map that the periodicity applies to the nodes: nodes inside of the right side are mapped to the left side -/
structure Linked (nn : Nat) (x : Nat → Nat → α) (Ly : α) (O : Outline) (ρ : Nat → Nat) : Prop where
  lt : ∀ m, m < nn → ρ m < nn
  right : ∀ k, k < O.nl - 2 → ρ (O.right (k + 1)) = O.left (k + 1)
  other : ∀ m, m < nn → (∀ k, k < O.nl - 2 → O.right (k + 1) ≠ m) → ρ m = m
  y : ∀ m, m < nn → x (ρ m) 1 = x m 1
  edge : ∀ m, m < nn → (x m 1 = 0 ∨ x m 1 = Ly) → ρ m = m

open Classical in
theorem RectMesh.linked (hM : RectMesh nn ne c x Lx Ly O) : ∃ ρ, Linked nn x Ly O ρ := by
  obtain ⟨i1, i2, i3, i4⟩ := hM.sides_inj
  obtain ⟨s1, s2, s3, s4⟩ := hM.sizes
  obtain ⟨k1, k2, k3, k4⟩ := hM.corners
  let ρ : Nat → Nat := fun m => if h : ∃ k, k < O.nl - 2 ∧ O.right (k + 1) = m then O.left (h.choose + 1) else m
  have pos : ∀ k, k < O.nl - 2 → ρ (O.right (k + 1)) = O.left (k + 1) := fun k hk => by
    have h : ∃ k', k' < O.nl - 2 ∧ O.right (k' + 1) = O.right (k + 1) := ⟨k, hk, rfl⟩
    have := i4 _ _ (by have := h.choose_spec.1; omega) (by omega) h.choose_spec.2
    simp only [ρ, dif_pos h]
    rw [this]
  have neg : ∀ m, m < nn → (∀ k, k < O.nl - 2 → O.right (k + 1) ≠ m) → ρ m = m := fun m _ h => by
    simp only [ρ]
    rw [dif_neg]
    rintro ⟨k, hk, e⟩
    exact h k hk e
  have cases' : ∀ m, m < nn → (∃ k, k < O.nl - 2 ∧ O.right (k + 1) = m) ∨ ρ m = m := fun m hm => by
    by_cases h : ∃ k, k < O.nl - 2 ∧ O.right (k + 1) = m
    · exact Or.inl h
    · exact Or.inr (neg m hm fun k hk e => h ⟨k, hk, e⟩)
  refine ⟨ρ, fun m hm => ?_, pos, neg, fun m hm => ?_, fun m hm hy => ?_⟩
  · rcases cases' m hm with ⟨k, hk, rfl⟩ | h
    · rw [pos k hk]; exact (hM.left _ (by omega)).1
    · rwa [h]
  · rcases cases' m hm with ⟨k, hk, rfl⟩ | h
    · rw [pos k hk, (hM.right _ (by omega)).2.2]
    · rw [h]
  · refine neg m hm fun k hk e => ?_
    subst e
    rw [(hM.right _ (by omega)).2.2] at hy
    have a := strict_of_step (y := fun i => x (O.left i) 1) hM.left_mono (show 0 < k + 1 by omega) (by omega)
    have b := strict_of_step (y := fun i => x (O.left i) 1) hM.left_mono (show k + 1 < O.nl - 1 by omega) (by omega)
    beta_reduce at a b
    rw [k3] at a
    rw [k4] at b
    rcases hy with h | h
    · exact a.ne' h
    · exact b.ne h

/-- all DOFs of bottom and top -/
def bottomTop (O : Outline) (d : Nat → Nat → Nat) : List Nat :=
  (List.range O.nb).map (fun k => d (O.bottom k) 0) ++ (List.range O.nb).map (fun k => d (O.bottom k) 1) ++
    (List.range O.nt).map (fun k => d (O.top k) 0) ++ (List.range O.nt).map (fun k => d (O.top k) 1)

theorem bottomTop_intro {m i : Nat} (hi : i < 2) (h : (∃ k, k < O.nb ∧ O.bottom k = m) ∨ ∃ k, k < O.nt ∧ O.top k = m) : d m i ∈ bottomTop O d := by
  simp only [bottomTop, List.mem_append, List.mem_map, List.mem_range]
  rcases (show i = 0 ∨ i = 1 by omega) with rfl | rfl <;> rcases h with ⟨k, hk, rfl⟩ | ⟨k, hk, rfl⟩
  · exact Or.inl (Or.inl (Or.inl ⟨k, hk, rfl⟩))
  · exact Or.inl (Or.inr ⟨k, hk, rfl⟩)
  · exact Or.inl (Or.inl (Or.inr ⟨k, hk, rfl⟩))
  · exact Or.inr ⟨k, hk, rfl⟩

theorem bottomTop_elim {k : Nat} (h : k ∈ bottomTop O d) : ∃ m i, i < 2 ∧ ((∃ k, k < O.nb ∧ O.bottom k = m) ∨ ∃ k, k < O.nt ∧ O.top k = m) ∧ d m i = k := by
  simp only [bottomTop, List.mem_append, List.mem_map, List.mem_range] at h
  rcases h with ((⟨k, hk, e⟩ | ⟨k, hk, e⟩) | ⟨k, hk, e⟩) | ⟨k, hk, e⟩
  · exact ⟨_, 0, by omega, Or.inl ⟨k, hk, rfl⟩, e⟩
  · exact ⟨_, 1, by omega, Or.inl ⟨k, hk, rfl⟩, e⟩
  · exact ⟨_, 0, by omega, Or.inr ⟨k, hk, rfl⟩, e⟩
  · exact ⟨_, 1, by omega, Or.inr ⟨k, hk, rfl⟩, e⟩

/-- the DOFs and boundary conditions of the second program -/
structure PeriodicBc (nn : Nat) (x : Nat → Nat → α) (Ly : α) (O : Outline) (a : α) (d : Nat → Nat → Nat) (n : Nat) (g1 : Nat → Nat → α) : Prop where
  num : NumDofs nn d n
  gap : ∀ k, k < n → ∃ m i, m < nn ∧ i < 2 ∧ d m i = k
  nodup : (bottomTop O d).Nodup
  lt : ∀ k ∈ bottomTop O d, k < n
  supp : Supported nn d x (bottomTop O d)
  /-- nodes that share a DOF are at the same height -/
  share : ∀ m i m' i', m < nn → i < 2 → m' < nn → i' < 2 → d m i = d m' i' → i = i' ∧ x m 1 = x m' 1
  /-- nodes inside the left and the right side share their DOFs -/
  link : ∀ k i, 0 < k → k < O.nl - 1 → i < 2 → d (O.right k) i = d (O.left k) i
  mem : ∀ m i, m < nn → i < 2 → (d m i ∈ bottomTop O d ↔ (∃ k, k < O.nb ∧ O.bottom k = m) ∨ ∃ k, k < O.nt ∧ O.top k = m)
  val : ∀ m i, m < nn → i < 2 → d m i ∈ bottomTop O d → g1 m i = if i = 0 then a * x m 1 / Ly else 0

theorem periodic_bc (hM : RectMesh nn ne c x Lx Ly O) (lx : 0 < Lx) (ly : 0 < Ly) (s thick : α) (S : LinSolver α) (σ : Nat → Nat → Sched)
    {conn bt tt lo ro : Ten Nat} {coor : Ten α} (hx : Is2 coor nn 2 x) (hB : Is1 bt O.nb O.bottom) (hT : Is1 tt O.nt O.top)
    (hL : Is1 lo (O.nl - 2) fun k => O.left (k + 1)) (hR : Is1 ro (O.nl - 2) fun k => O.right (k + 1))
    (material : Ten α → Res (Ten α × Ten α)) (a : α) :
    ∃ (dofs : Ten Nat) (d : Nat → Nat → Nat) (n : Nat) (disp1 : Ten α) (g1 : Nat → Nat → α),
      partialPeriodic s thick S σ conn (meshDofs nn 2) coor bt tt lo ro material a =
        staticProgram s thick S σ conn dofs (bottomTop O d) coor material (Ten.full [nn, 2] 0) (Ten.full [nn, 2] 0) disp1 ∧
      Is2 dofs nn 2 d ∧ Is2 disp1 nn 2 g1 ∧ PeriodicBc nn x Ly O a d n g1 := by
  obtain ⟨ρ, hρ⟩ := hM.linked
  obtain ⟨s1, s2, s3, s4⟩ := hM.sizes
  obtain ⟨i1, i2, i3, i4⟩ := hM.sides_inj
  obtain ⟨k1, k2, k3, k4⟩ := hM.corners
  obtain ⟨y1, a1, b1⟩ := npCopyRows_ok (meshDofs_ok nn) hR hL (fun k hk => (hM.right _ (by omega)).1) (fun k hk => (hM.left _ (by omega)).1)
    hρ.right hρ.other
  obtain ⟨y, d, n, a2, b2, b3, b4, b5⟩ := renumber_nodes hM.nodes b1
  obtain ⟨t1, a3, b6⟩ := npSetColumn_ok hT (fun k hk => (hM.top k hk).1) (show 0 < 2 by omega) a (full_zero (α := α) (nn := nn) (m := 2))
  have eq : ∀ m i m' i', m < nn → i < 2 → m' < nn → i' < 2 → d m i = d m' i' → i = i' ∧ ρ m = ρ m' := fun m i m' i' hm hi hm' hi' e => by
    have := (b3 m i m' i' hm hi hm' hi').1 e
    omega
  -- bottom and top
  have bt_lt : ∀ m, ((∃ k, k < O.nb ∧ O.bottom k = m) ∨ ∃ k, k < O.nt ∧ O.top k = m) → m < nn ∧ (x m 1 = 0 ∨ x m 1 = Ly) := by
    rintro m (⟨k, hk, rfl⟩ | ⟨k, hk, rfl⟩)
    · exact ⟨(hM.bottom k hk).1, Or.inl (hM.bottom k hk).2⟩
    · exact ⟨(hM.top k hk).1, Or.inr (hM.top k hk).2.1⟩
  have inj : ∀ m i m' i', m < nn → i < 2 → i' < 2 → ((∃ k, k < O.nb ∧ O.bottom k = m') ∨ ∃ k, k < O.nt ∧ O.top k = m') →
      d m i = d m' i' → i = i' ∧ m = m' := fun m i m' i' hm hi hi' hb e => by
    obtain ⟨hm', hy⟩ := bt_lt m' hb
    obtain ⟨e1, e2⟩ := eq m i m' i' hm hi hm' hi' e
    rw [hρ.edge m' hm' hy] at e2
    refine ⟨e1, ?_⟩
    rw [← e2] at hy
    rw [hρ.y m hm] at hy
    rw [← e2, hρ.edge m hm hy]
  have mem : ∀ m i, m < nn → i < 2 → (d m i ∈ bottomTop O d ↔ (∃ k, k < O.nb ∧ O.bottom k = m) ∨ ∃ k, k < O.nt ∧ O.top k = m) :=
    fun m i hm hi => by
      refine ⟨fun h => ?_, bottomTop_intro hi⟩
      obtain ⟨m', i', hi', hb, e⟩ := bottomTop_elim h
      rw [(inj m i m' i' hm hi hi' hb e.symm).2]; exact hb
  have nb : ∀ i, i < 2 → ((List.range O.nb).map fun k => d (O.bottom k) i).Nodup := fun i hi => nodup_map_range fun k k' hk hk' e =>
    i1 k k' hk hk' (inj _ i _ i (hM.bottom k hk).1 hi hi (Or.inl ⟨k', hk', rfl⟩) e).2
  have nt : ∀ i, i < 2 → ((List.range O.nt).map fun k => d (O.top k) i).Nodup := fun i hi => nodup_map_range fun k k' hk hk' e =>
    i2 k k' hk hk' (inj _ i _ i (hM.top k hk).1 hi hi (Or.inr ⟨k', hk', rfl⟩) e).2
  have bt : ∀ k k' i i', k < O.nb → k' < O.nt → i < 2 → i' < 2 → d (O.bottom k) i ≠ d (O.top k') i' := fun k k' i i' hk hk' hi hi' e => by
    have := (inj _ i _ i' (hM.bottom k hk).1 hi hi' (Or.inr ⟨k', hk', rfl⟩) e).2
    have h := (hM.top k' hk').2.1
    rw [← this, (hM.bottom k hk).2] at h
    exact ly.ne h
  refine ⟨y, d, n, t1, _, ?_, b2, b6, b4, b5, ?_, ?_, ?_, ?_, ?_, mem, ?_⟩
  · simp only [partialPeriodic, a1, a2, Res.ok_bind, npColumn_ok b2 hB (fun k hk => (hM.bottom k hk).1) (show 0 < 2 by omega),
      npColumn_ok b2 hB (fun k hk => (hM.bottom k hk).1) (show 1 < 2 by omega), npColumn_ok b2 hT (fun k hk => (hM.top k hk).1) (show 0 < 2 by omega),
      npColumn_ok b2 hT (fun k hk => (hM.top k hk).1) (show 1 < 2 by omega), hx.1, a3]
    rfl
  · rw [bottomTop]
    refine List.Nodup.append (List.Nodup.append (List.Nodup.append (nb 0 (by omega)) (nb 1 (by omega)) ?_) (nt 0 (by omega)) ?_) (nt 1 (by omega)) ?_ <;>
      intro k h1 h2 <;> simp only [List.mem_append, List.mem_map, List.mem_range] at h1 h2
    · obtain ⟨i, hi, rfl⟩ := h1
      obtain ⟨j, hj, e⟩ := h2
      have := (inj _ 1 _ 0 (hM.bottom j hj).1 (by omega) (by omega) (Or.inl ⟨i, hi, rfl⟩) e).1
      omega
    · obtain ⟨j, hj, rfl⟩ := h2
      rcases h1 with ⟨i, hi, e⟩ | ⟨i, hi, e⟩
      · exact bt _ _ _ _ hi hj (by omega) (by omega) e
      · exact bt _ _ _ _ hi hj (by omega) (by omega) e
    · obtain ⟨j, hj, rfl⟩ := h2
      rcases h1 with (⟨i, hi, e⟩ | ⟨i, hi, e⟩) | ⟨i, hi, e⟩
      · exact bt _ _ _ _ hi hj (by omega) (by omega) e
      · exact bt _ _ _ _ hi hj (by omega) (by omega) e
      · have := (inj _ 0 _ 1 (hM.top i hi).1 (by omega) (by omega) (Or.inr ⟨j, hj, rfl⟩) e).1
        omega
  · intro k hk
    obtain ⟨m, i, hi, hb, rfl⟩ := bottomTop_elim hk
    exact b4.1 m i (bt_lt m hb).1 hi
  · intro f θ b₀ b₁ hf h0
    have z : ∀ i, i < O.nb → ∀ j, j < 2 → f (d (O.bottom i) j) = 0 := fun i hi j hj => h0 _ (bottomTop_intro hj (Or.inl ⟨i, hi, rfl⟩))
    have a := hf _ (hM.bottom 0 s1).1
    have b := hf _ (hM.bottom (O.nb - 1) (by omega)).1
    rw [z 0 s1 0 (by omega), z 0 s1 1 (by omega), k1, (hM.bottom 0 s1).2] at a
    rw [z _ (by omega) 0 (by omega), z _ (by omega) 1 (by omega), k2, (hM.bottom (O.nb - 1) (by omega)).2] at b
    have h1 : b₁ = 0 := by linear_combination - a.2
    have h2 : θ * Lx = 0 := by linear_combination - b.2 + a.2
    exact ⟨(mul_eq_zero.1 h2).resolve_right lx.ne', by linear_combination - a.1, h1⟩
  · intro m i m' i' hm hi hm' hi' e
    obtain ⟨e1, e2⟩ := eq m i m' i' hm hi hm' hi' e
    exact ⟨e1, by rw [← hρ.y m hm, e2, hρ.y m' hm']⟩
  · intro k i k0 hk hi
    obtain ⟨k, rfl⟩ : ∃ j, k = j + 1 := ⟨k - 1, by omega⟩
    have l := (hM.left (k + 1) (by omega)).1
    refine (b3 _ i _ i (hM.right (k + 1) (by omega)).1 hi l hi).2 ?_
    rw [hρ.right k (by omega)]
    by_cases h : ∃ j, j < O.nl - 2 ∧ O.right (j + 1) = O.left (k + 1)
    · obtain ⟨j, hj, e⟩ := h
      have := (hM.right (j + 1) (by omega)).2.1
      rw [e, (hM.left (k + 1) (by omega)).2] at this
      exact absurd this lx.ne
    · rw [hρ.other _ l fun j hj e => h ⟨j, hj, e⟩]
  · intro m i hm hi hk
    rw [mem m i hm hi] at hk
    rcases (show i = 0 ∨ i = 1 by omega) with rfl | rfl
    · simp only [true_and, if_true]
      by_cases ht : ∃ k, k < O.nt ∧ O.top k = m
      · obtain ⟨k, hk', rfl⟩ := ht
        rw [if_pos ⟨k, hk', rfl⟩, (hM.top k hk').2.1, mul_div_assoc, div_self ly.ne', mul_one]
      · obtain ⟨k, hk', rfl⟩ := hk.resolve_right ht
        rw [if_neg ht, (hM.bottom k hk').2]; ring
    · simp only [one_ne_zero, false_and, if_false]

/-- **C93** (partially periodic) For every elastic material the program succeeds: the bottom does not move, the top is moved by
`a` to the right, the left and the right side move together, no external force acts on any node between bottom and top, and the
residual is exactly zero. -/
theorem C93_partial_periodic (hM : RectMesh nn ne c x Lx Ly O) (lx : 0 < Lx) (ly : 0 < Ly) {s : α} (s0 : s ≠ 0) (s1 : -1 ≤ s) (s2 : s ≤ 1) {thick : α}
    (t0 : 0 < thick) (σ : Nat → Nat → Sched) {conn bt tt lo ro : Ten Nat} {coor : Ten α} (hc : Is2 conn ne 4 c) (hx : Is2 coor nn 2 x)
    (hB : Is1 bt O.nb O.bottom) (hT : Is1 tt O.nt O.top) (hL : Is1 lo (O.nl - 2) fun k => O.left (k + 1)) (hR : Is1 ro (O.nl - 2) fun k => O.right (k + 1))
    {material : Ten α → Res (Ten α × Ten α)} {C} (hm : LinearMaterial ne C material) (hE : ∀ e q, e < ne → q < 4 → Elastic (C e q))
    (a : α) {S : LinSolver α} (hSol : S.Suits (∀ e q, e < ne → q < 4 → Major 2 (C e q))) :
    IsOk (partialPeriodic s thick S σ conn (meshDofs nn 2) coor bt tt lo ro material a) fun r => ∃ u F : Nat → Nat → α,
      Is2 r.disp nn 2 u ∧ Is2 r.fint nn 2 F ∧ Is2 r.fext nn 2 F ∧ Is2 r.fres nn 2 (fun _ _ => 0) ∧
      (∀ k, k < O.nb → u (O.bottom k) 0 = 0 ∧ u (O.bottom k) 1 = 0) ∧ (∀ k, k < O.nt → u (O.top k) 0 = a ∧ u (O.top k) 1 = 0) ∧
      (∀ k i, k < O.nl → i < 2 → u (O.right k) i = u (O.left k) i) ∧
      (∀ m i, m < nn → i < 2 → x m 1 ≠ 0 → x m 1 ≠ Ly → F m i = 0) := by
  obtain ⟨dofs, d, n, disp1, g1, e1, hd, e2, bc⟩ := periodic_bc hM lx ly s thick S σ (conn := conn) hx hB hT hL hR material a
  obtain ⟨z1, z2, z3, z4⟩ := hM.sizes
  have k4 := hM.perimeter
  classical
  obtain ⟨r, r1, f', F, r2, r3, r4, r5, r6, r7⟩ := C93_residual hM lx ly s0 s1 s2 t0 σ hc hx hd bc.num bc.gap hm hE
    bc.nodup bc.lt bc.supp (w := fun _ => 0) (f := fun k => if h : ∃ p : Nat × Nat, p.1 < nn ∧ p.2 < 2 ∧ d p.1 p.2 = k then g1 h.choose.1 h.choose.2 else 0)
    full_zero full_zero e2 (fun m i hm hi hk => by
      have h : ∃ p : Nat × Nat, p.1 < nn ∧ p.2 < 2 ∧ d p.1 p.2 = d m i := ⟨(m, i), hm, hi, rfl⟩
      obtain ⟨h1, h2, h3⟩ := h.choose_spec
      obtain ⟨h4, h5⟩ := bc.share _ _ _ _ h1 h2 hm hi h3
      rw [dif_pos h, bc.val m i hm hi hk, bc.val _ _ h1 h2 (by rw [h3]; exact hk), h4, h5]) hSol
  have val : ∀ m i, m < nn → i < 2 → ((∃ k, k < O.nb ∧ O.bottom k = m) ∨ ∃ k, k < O.nt ∧ O.top k = m) →
      f' (d m i) = if i = 0 then a * x m 1 / Ly else 0 := fun m i hm hi hk =>
    have h := (bc.mem m i hm hi).2 hk
    (r3 m i hm hi h).trans (bc.val m i hm hi h)
  have vb : ∀ k, k < O.nb → f' (d (O.bottom k) 0) = 0 ∧ f' (d (O.bottom k) 1) = 0 := fun k hk => by
    have := hM.bottom k hk
    rw [val _ 0 this.1 (by omega) (Or.inl ⟨k, hk, rfl⟩), val _ 1 this.1 (by omega) (Or.inl ⟨k, hk, rfl⟩), if_pos rfl, if_neg one_ne_zero, this.2]
    exact ⟨by ring, rfl⟩
  have vt : ∀ k, k < O.nt → f' (d (O.top k) 0) = a ∧ f' (d (O.top k) 1) = 0 := fun k hk => by
    have := hM.top k hk
    rw [val _ 0 this.1 (by omega) (Or.inr ⟨k, hk, rfl⟩), val _ 1 this.1 (by omega) (Or.inr ⟨k, hk, rfl⟩), if_pos rfl, if_neg one_ne_zero, this.2.1,
      mul_div_assoc, div_self ly.ne', mul_one]
    exact ⟨rfl, rfl⟩
  refine ⟨r, by rw [e1]; exact r1, _, _, r2, r4, r5, r7, vb, vt, fun k i hk hi => ?_, fun m i hm hi h1 h2 => ?_⟩
  · rcases Nat.eq_zero_or_pos k with rfl | k0
    · rw [← k4.bl, ← k4.br]
      rcases (show i = 0 ∨ i = 1 by omega) with rfl | rfl
      · rw [(vb _ z1).1, (vb _ (by omega)).1]
      · rw [(vb _ z1).2, (vb _ (by omega)).2]
    · rcases Nat.lt_or_ge k (O.nl - 1) with h | h
      · rw [bc.link k i k0 h hi]
      · obtain rfl : k = O.nl - 1 := by omega
        have := k4.tr
        rw [z4] at this
        rw [← k4.tl, ← this]
        rcases (show i = 0 ∨ i = 1 by omega) with rfl | rfl
        · rw [(vt _ (by omega)).1, (vt 0 (by omega)).1]
        · rw [(vt _ (by omega)).2, (vt 0 (by omega)).2]
  · refine r6 m i hm hi fun hk => ?_
    rcases (bc.mem m i hm hi).1 hk with ⟨k, hj, rfl⟩ | ⟨k, hj, rfl⟩
    · exact h1 (hM.bottom k hj).2
    · exact h2 (hM.top k hj).2.1

/-- **C93** (partially periodic, uniform material) The program returns exactly the simple shear. -/
theorem C93_partial_periodic_uniform (hM : RectMesh nn ne c x Lx Ly O) (lx : 0 < Lx) (ly : 0 < Ly) {s : α} (s0 : s ≠ 0) (s1 : -1 ≤ s) (s2 : s ≤ 1)
    {thick : α} (t0 : 0 < thick) (σ : Nat → Nat → Sched) {conn bt tt lo ro : Ten Nat} {coor : Ten α} (hc : Is2 conn ne 4 c) (hx : Is2 coor nn 2 x)
    (hB : Is1 bt O.nb O.bottom) (hT : Is1 tt O.nt O.top) (hL : Is1 lo (O.nl - 2) fun k => O.left (k + 1)) (hR : Is1 ro (O.nl - 2) fun k => O.right (k + 1))
    {material : Ten α → Res (Ten α × Ten α)} {C : Nat → Nat → Nat → Nat → α} (hm : LinearMaterial ne (fun _ _ => C) material) (hE : Elastic C)
    (a : α) {S : LinSolver α} (hSol : S.Suits (Major 2 C)) :
    IsOk (partialPeriodic s thick S σ conn (meshDofs nn 2) coor bt tt lo ro material a) fun r =>
      Is2 r.disp nn 2 (fun m i => if i = 0 then a * x m 1 / Ly else 0) ∧ Is2 r.fres nn 2 (fun _ _ => 0) := by
  obtain ⟨dofs, d, n, disp1, g1, e1, hd, e2, bc⟩ := periodic_bc hM lx ly s thick S σ (conn := conn) hx hB hT hL hR material a
  obtain ⟨z1, z2, z3, z4⟩ := hM.sizes
  have aff : ∀ m i, i < 2 → (0 : α) + ∑ j ∈ range 2, (if i = 0 ∧ j = 1 then a / Ly else 0) * x m j =
      if i = 0 then a * x m 1 / Ly else 0 := fun m i hi => by
    rw [sum_range_succ, sum_range_succ, sum_range_zero]
    rcases (show i = 0 ∨ i = 1 by omega) with rfl | rfl
    · simp; ring
    · simp
  have hz : ∀ (T : Nat → Nat → α) k, (∀ i j, i < 2 → j < 2 → T i j = thick * ddot 2 C (fun i j => if j = 0 ∧ i = 1 then a / Ly else 0) i j) → k < n →
      k ∉ bottomTop O d → O.sum (tractionForce d x T k) = 0 := by
    intro T k _ hk hki
    have nin : ∀ m, m < nn → ((∃ k, k < O.nb ∧ O.bottom k = m) ∨ ∃ k, k < O.nt ∧ O.top k = m) → ∀ i, i < 2 → d m i ≠ k := fun m hm h i hi e =>
      hki (by rw [← e, bc.mem m i hm hi]; exact h)
    have same : ∀ j, j < O.nl → ∀ i, i < 2 → (d (O.right j) i = k ↔ d (O.left j) i = k) := by
      intro j hj i hi
      rcases Nat.eq_zero_or_pos j with rfl | j0
      · have h1 := nin _ (hM.bottom 0 z1).1 (Or.inl ⟨0, z1, rfl⟩) i hi
        have h2 := nin _ (hM.bottom (O.nb - 1) (by omega)).1 (Or.inl ⟨O.nb - 1, by omega, rfl⟩) i hi
        rw [hM.perimeter.bl] at h1
        rw [hM.perimeter.br] at h2
        exact ⟨fun h => absurd h h2, fun h => absurd h h1⟩
      · rcases Nat.lt_or_ge j (O.nl - 1) with h | h
        · rw [bc.link j i j0 h hi]
        · obtain rfl : j = O.nl - 1 := by omega
          have h1 := nin _ (hM.top 0 (by omega)).1 (Or.inr ⟨0, by omega, rfl⟩) i hi
          have h2 := nin _ (hM.top (O.nt - 1) (by omega)).1 (Or.inr ⟨O.nt - 1, by omega, rfl⟩) i hi
          rw [hM.perimeter.tl] at h1
          rw [hM.perimeter.tr, z4] at h2
          exact ⟨fun h => absurd h h2, fun h => absurd h h1⟩
    have lr : pathSum O.nr O.right (tractionForce d x T k) = pathSum O.nl O.left (tractionForce d x T k) := by
      rw [pathSum, pathSum, z4]
      refine sum_congr rfl fun i hi => ?_
      rw [mem_range] at hi
      refine sum_congr rfl fun j hj => ?_
      rw [mem_range] at hj
      simp only [same i (by omega) j hj, same (i + 1) (by omega) j hj]
      congr 2
      refine sum_congr rfl fun l _ => ?_
      congr 1
      simp only [edgeNormal, (hM.right i (by omega)).2.1, (hM.right (i + 1) (by omega)).2.1, (hM.right i (by omega)).2.2,
        (hM.right (i + 1) (by omega)).2.2, (hM.left i (by omega)).2, (hM.left (i + 1) (by omega)).2, sub_self]
    have b0 : pathSum O.nb O.bottom (tractionForce d x T k) = 0 := pathSum_zero fun i hi =>
      traction_zero (nin _ (hM.bottom i (by omega)).1 (Or.inl ⟨i, by omega, rfl⟩)) (nin _ (hM.bottom (i + 1) (by omega)).1 (Or.inl ⟨i + 1, by omega, rfl⟩))
    have t0' : pathSum O.nt O.top (tractionForce d x T k) = 0 := pathSum_zero fun i hi =>
      traction_zero (nin _ (hM.top i (by omega)).1 (Or.inr ⟨i, by omega, rfl⟩)) (nin _ (hM.top (i + 1) (by omega)).1 (Or.inr ⟨i + 1, by omega, rfl⟩))
    rw [Outline.sum, lr, b0, t0']
    ring
  classical
  obtain ⟨r, r1, r2, r3⟩ := static_affine hM lx ly s0 s1 s2 t0 σ hc hx hd bc.num bc.gap hm hE bc.nodup bc.lt bc.supp full_zero full_zero e2
    (A := fun i j => if i = 0 ∧ j = 1 then a / Ly else 0) (a := fun _ => 0)
    (fA := fun k => if h : ∃ p : Nat × Nat, p.1 < nn ∧ p.2 < 2 ∧ d p.1 p.2 = k then (if h.choose.2 = 0 then a * x h.choose.1 1 / Ly else 0) else 0)
    (fun m i hm hi => by
      have h : ∃ p : Nat × Nat, p.1 < nn ∧ p.2 < 2 ∧ d p.1 p.2 = d m i := ⟨(m, i), hm, hi, rfl⟩
      obtain ⟨h1, h2, h3⟩ := h.choose_spec
      obtain ⟨h4, h5⟩ := bc.share _ _ _ _ h1 h2 hm hi h3
      rw [aff m i hi, dif_pos h, h4, h5])
    (fun m i hm hi hk => by rw [aff m i hi]; exact bc.val m i hm hi hk) hz hSol
  exact ⟨r, by rw [e1]; exact r1, r2.congr fun m i hm hi => aff m i hi, r3⟩

end GF
