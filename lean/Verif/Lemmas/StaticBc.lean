import Verif.Lemmas.Static
import Verif.Props.Patch
import Verif.Props.Renumber

/-! The boundary conditions of the static programs. -/

namespace GF
open Finset ElemSpec Element Element.Quad4

section np

theorem npColumn_ok {dofs nodes : Ten Nat} {nn l i : Nat} {d : Nat → Nat → Nat} {N : Nat → Nat} (hd : Is2 dofs nn 2 d) (hN : Is1 nodes l N)
    (h : ∀ k, k < l → N k < nn) (hi : i < 2) : npColumn dofs nodes i = .ok ((List.range l).map fun k => d (N k) i) := by
  rw [npColumn, hN.1]
  refine mapRes_ok _ (fun k => d (N k) i) _ fun k hk => ?_
  have hk' : k < l := by simpa [it1] using hk
  rw [hN.get hk', Res.ok_bind, hd.get (h k hk') hi]

open Classical in
theorem npSetColumn_ok {α : Type} {nodes : Ten Nat} {nn l i : Nat} {N : Nat → Nat} (hN : Is1 nodes l N) (h : ∀ k, k < l → N k < nn) (hi : i < 2)
    (v : α) {t : Ten α} {g : Nat → Nat → α} (ht : Is2 t nn 2 g) :
    ∃ t', npSetColumn nodes i v t = .ok t' ∧ Is2 t' nn 2 fun m j => if j = i ∧ ∃ k, k < l ∧ N k = m then v else g m j := by
  obtain ⟨t', h1, h2, h3, h4⟩ := forEach_set (it1 l) (fun (t : Ten α) k => do let m ← nodes.get [k]; t.set [m, i] v) (fun k => [N k, i])
    (fun _ => v) t (fun k hk => by rw [mem_it1] at hk; simp [ht.1, h k hk, hi])
    (fun k hk s hs => by rw [mem_it1] at hk; rw [hN.get hk, Res.ok_bind])
  refine ⟨t', by rw [npSetColumn, hN.1]; exact h1, h2.trans ht.1, fun m j hm hj => ?_⟩
  beta_reduce
  split
  · rename_i c
    obtain ⟨rfl, k, hk, rfl⟩ := c
    obtain ⟨_, _, _, e⟩ := h3 [N k, j] ⟨k, by simpa using hk, rfl⟩
    exact e
  · rename_i c
    rw [h4 [m, j] fun k hk e => ?_]
    · exact ht.2 m j hm hj
    · simp only [List.cons.injEq, and_true] at e
      exact c ⟨e.2.symm, k, by simpa using hk, e.1⟩

theorem npCopyRows_ok {to' from' dofs : Ten Nat} {nn l : Nat} {d : Nat → Nat → Nat} {T F ρ : Nat → Nat} (hd : Is2 dofs nn 2 d) (hT : Is1 to' l T)
    (hF : Is1 from' l F) (h1 : ∀ k, k < l → T k < nn) (h2 : ∀ k, k < l → F k < nn) (r1 : ∀ k, k < l → ρ (T k) = F k)
    (r2 : ∀ m, m < nn → (∀ k, k < l → T k ≠ m) → ρ m = m) :
    ∃ t', npCopyRows to' from' dofs = .ok t' ∧ Is2 t' nn 2 fun m i => d (ρ m) i := by
  obtain ⟨t', a1, a2, a3, a4⟩ := forEach_set (it2 l 2) (fun (t : Ten Nat) k => do
      let m ← from'.get [k.1]
      let v ← dofs.get [m, k.2]
      let m' ← to'.get [k.1]
      t.set [m', k.2] v) (fun k => [T k.1, k.2])
    (fun k => d (F k.1) k.2) dofs (fun k hk => by rw [mem_it2] at hk; simp [hd.1, h1 k.1 hk.1, hk.2])
    (fun k hk s hs => by
      rw [mem_it2] at hk
      rw [hF.get hk.1, Res.ok_bind, hd.get (h2 _ hk.1) hk.2, Res.ok_bind, hT.get hk.1, Res.ok_bind])
  refine ⟨t', by rw [npCopyRows, hT.1]; exact a1, a2.trans hd.1, fun m i hm hi => ?_⟩
  beta_reduce
  by_cases hk : ∃ k, k < l ∧ T k = m
  · obtain ⟨k, hk, rfl⟩ := hk
    obtain ⟨⟨k', i'⟩, b1, b2, b3⟩ := a3 [T k, i] ⟨(k, i), by rw [mem_it2]; exact ⟨hk, hi⟩, rfl⟩
    simp only [List.cons.injEq, and_true] at b2
    rw [mem_it2] at b1
    obtain ⟨b2, rfl⟩ := b2
    have e : ρ (T k) = F k' := by rw [← b2]; exact r1 k' b1.1
    rw [b3, e]
  · push Not at hk
    rw [r2 m hm hk, a4 [m, i] fun k hk' e => ?_]
    · exact hd.2 m i hm hi
    · simp only [List.cons.injEq, and_true] at e
      exact hk k.1 ((mem_it2.1 hk').1) e.1

end np

theorem nodup_map_range {l : Nat} {f : Nat → Nat} (h : ∀ i j, i < l → j < l → f i = f j → i = j) : ((List.range l).map f).Nodup :=
  List.Nodup.map_on (fun i hi j hj e => h i j (List.mem_range.1 hi) (List.mem_range.1 hj) e) List.nodup_range

variable {α : Type} [Field α] [LinearOrder α] [IsStrictOrderedRing α]
variable {nn ne : Nat} {c d : Nat → Nat → Nat} {x : Nat → Nat → α} {Lx Ly : α} {O : Outline}

omit [IsStrictOrderedRing α] [Field α] in
theorem strict_of_step {l : Nat} {y : Nat → α} (h : ∀ i, i + 1 < l → y i < y (i + 1)) : ∀ {i j}, i < j → j < l → y i < y j := by
  intro i j hij hj
  induction j with
  | zero => omega
  | succ j ih =>
    rcases Nat.lt_or_ge i j with h' | h'
    · exact (ih h' (by omega)).trans (h j hj)
    · obtain rfl : i = j := by omega
      exact h i hj

omit [IsStrictOrderedRing α] [Field α] in
theorem inj_of_step {l : Nat} {y : Nat → α} (h : ∀ i, i + 1 < l → y i < y (i + 1)) {i j : Nat} (hi : i < l) (hj : j < l) (e : y i = y j) : i = j := by
  rcases Nat.lt_trichotomy i j with h' | h' | h'
  · exact absurd e (strict_of_step h h' hj).ne
  · exact h'
  · exact absurd e (strict_of_step h h' hi).ne'

omit [IsStrictOrderedRing α] in
/-- no node is listed twice -/
theorem RectMesh.sides_inj (hM : RectMesh nn ne c x Lx Ly O) :
    (∀ i j, i < O.nb → j < O.nb → O.bottom i = O.bottom j → i = j) ∧ (∀ i j, i < O.nt → j < O.nt → O.top i = O.top j → i = j) ∧
    (∀ i j, i < O.nl → j < O.nl → O.left i = O.left j → i = j) ∧ (∀ i j, i < O.nr → j < O.nr → O.right i = O.right j → i = j) := by
  obtain ⟨s1, s2, s3, s4⟩ := hM.sizes
  refine ⟨fun i j hi hj e => inj_of_step hM.bottom_mono hi hj (by rw [e]), fun i j hi hj e =>
    inj_of_step hM.bottom_mono (by omega) (by omega) (i := i) (j := j) ?_, fun i j hi hj e => inj_of_step hM.left_mono hi hj (by rw [e]), fun i j hi hj e =>
    inj_of_step hM.left_mono (by omega) (by omega) (i := i) (j := j) ?_⟩
  · rw [← (hM.top i hi).2.2, ← (hM.top j hj).2.2, e]
  · rw [← (hM.right i hi).2.2, ← (hM.right j hj).2.2, e]

omit [LinearOrder α] [IsStrictOrderedRing α] in
/-- no force by a stress without shear on an edge parallel to an axis, if the DOFs normal to it are others -/
theorem traction_diag {k p q : Nat} {S : Nat → Nat → α} (h01 : S 0 1 = 0) (h10 : S 1 0 = 0)
    (h : ∀ j, j < 2 → edgeNormal x p q j = 0 ∨ (d p j ≠ k ∧ d q j ≠ k)) : tractionForce d x S k p q = 0 := by
  refine sum_eq_zero fun j hj => ?_
  rw [mem_range] at hj
  rcases h j hj with h' | ⟨h', h''⟩
  · have : ∑ i ∈ range 2, edgeNormal x p q i * S i j = 0 := by
      rw [sum_range_succ, sum_range_succ, sum_range_zero]
      rcases (show j = 0 ∨ j = 1 by omega) with rfl | rfl
      · rw [h', h10]; ring
      · rw [h', h01]; ring
    rw [this]; ring
  · rw [if_neg h', if_neg h'']; ring

end GF
