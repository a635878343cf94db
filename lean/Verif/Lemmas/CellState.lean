import Verif.Lemmas.CellWork
import Verif.Spec.PeriodicCell

/-! The objects of a periodic unit cell. -/

namespace GF
open Finset ElemSpec Element Element.Quad4

variable {α : Type} [Field α] [LinearOrder α] [IsStrictOrderedRing α]
variable {nn ne : Nat} {c : Nat → Nat → Nat} {x : Nat → Nat → α} {Lx Ly : α} {O : Outline}

/-- the state of the objects: `q m i` is the DOF of component `i` of node `m` (nodes `nn` and `nn + 1` are the control nodes) -/
structure PeriodicCell.State (Z : PeriodicCell α) (nn ne np : Nat) (c P : Nat → Nat → Nat) (x : Nat → Nat → α) (o : Nat) (s : α)
    (q : Nat → Nat → Nat) (Cm : Nat → Nat → α) : Prop where
  K : Z.K.Holds c q (fun _ _ => 0)
  vector : Z.vector.Holds c q Cm
  same : Z.K.V = Z.vector.V ∧ Z.K.nnu = Z.vector.nnu ∧ Z.K.nnp = Z.vector.nnp ∧ Z.K.nni = Z.vector.nni ∧ Z.K.nnd = Z.vector.nnd
  dims : Z.K.V.nelem = ne ∧ Z.K.V.nne = 4 ∧ Z.K.V.nnode = nn + 2 ∧ Z.K.V.ndim = 2
  changed : Z.K.changed = true
  inj : ∀ m i m' i', m < nn + 2 → i < 2 → m' < nn + 2 → i' < 2 → q m i = q m' i' → m = m' ∧ i = i'
  dofs : Is2 Z.tyings.dofs (nn + 2) 2 q
  control : Is2 Z.tyings.control 2 2 fun j k => q (nn + j) k
  iip : ∀ m i, m < nn + 2 → i < 2 → (q m i ∈ Z.K.iip ↔ nn ≤ m ∨ m = o)
  unknown : ∀ m i, m < nn + 2 → i < 2 → (q m i < Z.K.nnu ↔ m < nn ∧ m ≠ o ∧ ∀ k, k < np → P k 1 ≠ m)
  tied : ∀ u : Nat → α, (∀ r, r < Z.K.nnd → u (Z.K.nni + r) = ∑ k ∈ range Z.K.nnu, Z.K.Cdu.e r k * u k +
      ∑ k ∈ range Z.K.nnp, Z.K.Cdp.e r k * u (Z.K.nnu + k)) ↔ PeriodicField nn np P x fun m i => u (q m i)
  tied' : ∀ u : Nat → α, (∀ r, r < Z.K.nnd → u (Z.K.nni + r) = ∑ k ∈ range Z.K.nni, Cm r k * u k) ↔
    PeriodicField nn np P x fun m i => u (q m i)
  live : Live 2 1 ne 4 (fun q i => s * corner4 q i) (fun _ => 1) Z.elem (fun e m i => x (c e m) i)
  det : ∀ e q, e < ne → q < 4 → 0 < det4 (fun m i => x (c e m) i) (s * corner4 q 0) (s * corner4 q 1)

/-- the constructors accept the mesh, its periodic pairs and an independent node `o` -/
theorem cell_ok (hM : RectMesh nn ne c x Lx Ly O) (lx : 0 < Lx) (ly : 0 < Ly) {s : α} (s1 : -1 ≤ s) (s2 : s ≤ 1) (σ τ : Sched)
    {conn pairs : Ten Nat} {coor : Ten α} (hc : Is2 conn ne 4 c) (hx : Is2 coor nn 2 x) {np : Nat} {P : Nat → Nat → Nat}
    (hp : Is2 pairs np 2 P) (hP : PeriodicPairs nn Lx Ly x np P) {o : Nat} (ho : o < nn) (ho0 : x o 0 ≠ Lx) (ho1 : x o 1 ≠ Ly) :
    ∃ Z q Cm, PeriodicCell.new s σ τ conn (meshDofs nn 2) coor pairs o = .ok Z ∧ Z.State nn ne np c P x o s q Cm := by
  obtain ⟨K, n, k1, k2, k3, k4, k5, k6, -⟩ := Control.C26_control hx (meshDofs_ok nn)
  have hn : n = 2 * nn := by
    have hn0 := hM.nodes
    have := k2 (nn - 1) 1 (by omega) (by omega)
    rcases k3 with h | ⟨m, i, hm, hi, h⟩
    · omega
    · beta_reduce at h this; omega
  subst hn
  have k5' : Is2 K.dofs (nn + 2) 2 fun m i => m * 2 + i := k5.congr fun m i hm hi => by
    split
    · rfl
    · omega
  have k6' : Is2 K.control_dofs 2 2 fun j k => (nn + j) * 2 + k := k6.congr fun j k hj hk => by omega
  have a1 : K.control_dofs.flat = .ok [nn * 2, nn * 2 + 1, (nn + 1) * 2, (nn + 1) * 2 + 1] := by
    have := flat_ok k6'.flat_spec
    rw [k6'.1] at this
    simpa [indices, List.range_succ, Nat.add_assoc] using this
  have b1 : mapRes (fun i => K.dofs.get [o, i]) (List.range 2) = .ok [o * 2, o * 2 + 1] := by
    have := mapRes_ok (f := fun i => K.dofs.get [o, i]) (g := fun i => o * 2 + i) (l := List.range 2)
      (fun i hi => k5'.get (by omega) (List.mem_range.1 hi))
    simpa [List.range_succ] using this
  obtain ⟨iip, hiip⟩ : ∃ l, l = [nn * 2, nn * 2 + 1, (nn + 1) * 2, (nn + 1) * 2 + 1] ++ [o * 2, o * 2 + 1] := ⟨_, rfl⟩
  have mi : ∀ m i, i < 2 → (m * 2 + i ∈ iip ↔ m = nn ∨ m = nn + 1 ∨ m = o) := by
    intro m i hi
    rw [hiip]
    simp
    omega
  have dep : ∀ i, i < np → P i 1 < nn ∧ P i 1 ≠ o := by
    intro i hi
    have v := hP.valid i 1 hi (by omega)
    refine ⟨v, fun e => ?_⟩
    rcases (hP.dependent _ v).1 ⟨i, hi, rfl⟩ with h | h
    · rw [e] at h; exact ho0 h
    · rw [e] at h; exact ho1 h
  have hI : Periodic.Input (nn + 2) 2 np (fun m i => m * 2 + i) (fun j k => (nn + j) * 2 + k) P iip := by
    refine ⟨fun i hi => ⟨?_, ?_⟩, fun i j i' j' hi hj hi' hj' h => ?_, ?_, fun k hk => ?_, fun i j hi hj hk => ?_, fun i j i' j' hi hj hi' hj' h => ?_,
      fun j k hj hk => ⟨nn + j, k, by omega, hk, rfl⟩, fun j k i j' hj hk hi hj' h => ?_⟩
    · have := hP.valid i 0 hi (by omega); omega
    · have := hP.valid i 1 hi (by omega); omega
    · beta_reduce at h
      exact ⟨hP.distinct i i' hi hi' (by omega), by omega⟩
    · rw [hiip]; simp; omega
    · have := (mi (k / 2) (k % 2) (by omega)).1 (by rw [show k / 2 * 2 + k % 2 = k by omega]; exact hk)
      exact ⟨k / 2, k % 2, by omega, by omega, by beta_reduce; omega⟩
    · have := (mi _ _ hj).1 hk
      have := dep i hi
      omega
    · beta_reduce at h
      exact hP.independent i i' hi hi' (by omega)
    · beta_reduce at h
      have := dep i hi
      omega
  obtain ⟨T, q, p, t1, t2, t3, t4, t5, t6, t7, t8, t9, t10, t11, -⟩ := Periodic.C25_constructor k4 k5' k6' hp hI
  obtain ⟨Cdi, Cdu, Cdp, m1, m2, m3, m4, m5, m6, m7, m8, m9⟩ := Periodic.C25_blocks t2
  obtain ⟨Cdi', m1', m10⟩ := Periodic.C25_tied_iff t2
  obtain rfl : Cdi = Cdi' := by rw [m1] at m1'; injection m1'
  obtain ⟨Cdi', m1'', m11, m12, -⟩ := Periodic.C25_Cdi t2
  obtain rfl : Cdi = Cdi' := by rw [m1] at m1''; injection m1''
  have tnn := t2.nnd
  have tni := t2.nni
  have hlt : ∀ e m, e < ne → m < 4 → c e m < nn + 2 := fun e m he hm => by have := hM.valid e m he hm; omega
  have hdofs : Is2 T.dofs (nn + 2) 2 q := by have := t2.dofs; rw [t3] at this; exact this
  obtain ⟨V, v1, v2, v3, v4, v5, v6⟩ := VectorPartitionedTyings.C27_constructor hc hdofs hlt ⟨by omega, by omega⟩ (Cdu := Cdu) (Cdp := Cdp) (Cdi := Cdi)
    (by rw [m11, m6]) (by rw [m12, m5, m7, tni]) (by rw [m11, m12]; exact t7) (by rw [m11, m12]; exact t8)
  obtain ⟨M, w1, w2, w3, w4, w5, w6, w7, w8, w9, w10, w11, w12⟩ := MatrixPartitionedTyings.C28_constructor (α := α) hc hdofs hlt
    (Cdu := Cdu) (Cdp := Cdp) (by rw [m4, m6]) (by rw [m5, m7, m6, ← tni]; exact t7) (by rw [m5, m7, m6, ← tni]; exact t8)
  have hVn : V.V = M.V := by
    have e1 : V.V.ndof = M.V.ndof := by rw [v2.ndof, v2.nni, w2.ndof, w2.nni, v3, v4, v5, w7, w8, w9]
    have e2 := w1
    have e3 := v6
    simp only [MatrixPartitionedTyings.new, hc.1, hdofs.1] at e2
    injection e2 with e2
    subst e2
    simp only [Vector.new, hc.1, hdofs.1] at e3
    revert e3
    cases amax T.dofs <;> simp only [Res.ok_bind, Res.throws_bind, Res.ub_bind, reduceCtorEq, false_imp_iff]
    intro e3
    injection e3 with e3
    rw [← e3] at e1 ⊢
    simp only at e1 ⊢
    rw [e1]
  have hVV := w2.base
  obtain ⟨xe, Q, g1, g2, hQ, hdet⟩ := hM.quad s1 s2 σ τ (V := V.V) (d := q) (by rw [hVn]; exact hVV) (by rw [hVn, w3]) (by rw [hVn, w4])
    (by rw [hVn, w6]) (coor := K.coor) (y := fun m i => if m < nn then x m i else 0) (by rw [hVn, w5]; exact k4) (fun m i hm _ => if_pos hm)
  have a1' := a1
  have nnu : M.nnu = T.nnu := by rw [w7, m5]
  have nnp : M.nnp = T.nnp := by rw [w8, m7]
  have nnd : M.nnd = T.nnd := by rw [w9, m6]
  have nni : M.nni = T.nni := by rw [w2.nni, nnu, nnp, tni]
  have hq : ∀ m i m' i', m < nn + 2 → i < 2 → m' < nn + 2 → i' < 2 → q m i = q m' i' → m = m' ∧ i = i' := by
    intro m i m' i' hm hi hm' hi' h
    have := (t6 m i m' i' hm hi hm' hi').1 h
    omega
  have hctrl : ∀ j k, j < 2 → k < 2 → p j k = q (nn + j) k := fun j k hj hk => (t9 j k (nn + j) k hj hk (by omega) hk).2 rfl
  have field : ∀ u : Nat → α, (∀ i j, i < T.nties → j < T.ndim → u (q (P i 1) j) - u (q (P i 0) j) =
        ∑ k ∈ range T.ndim, ((if P i 1 < nn then x (P i 1) k else 0) - (if P i 0 < nn then x (P i 0) k else 0)) * u (p j k)) ↔
      PeriodicField nn np P x fun m i => u (q m i) := by
    intro u
    rw [t3, t4]
    refine forall_congr' fun k => forall_congr' fun j => forall_congr' fun hk => forall_congr' fun hj => ?_
    simp only [hP.valid k 1 hk (by omega), hP.valid k 0 hk (by omega), if_true]
    rw [sum_congr rfl fun l hl => by rw [hctrl j l hj (mem_range.1 hl)]]
  refine ⟨⟨K, T, V, Q, M⟩, q, Cdi.e, ?_, ⟨w2, v2, ⟨hVn.symm, by rw [w7, v3], by rw [w8, v4], by rw [w2.nni, v2.nni, w7, w8, v3, v4], by rw [w9, v5]⟩,
    ⟨w3, w4, w5, w6⟩, w12, hq, hdofs, ?_, fun m i hm hi => ?_, fun m i hm hi => ?_, fun u => ?_, fun u => ?_, hQ, hdet⟩⟩
  · simp only [PeriodicCell.new, k1, a1, b1, ← hiip, t1, m2, m3, m1, v1, g1, g2, w1, Res.ok_bind]
    rfl
  · have := t2.control
    rw [t3] at this
    exact this.congr hctrl
  · rw [w2.iip, nnp, nnu, List.mem_map]
    have h2 := mi m i hi
    constructor
    · rintro ⟨a, ha, e⟩
      have := (t11 m i hm hi a).1 ⟨e.symm, List.mem_range.1 ha⟩
      have := h2.1 (List.mem_of_getElem? this)
      omega
    · intro h
      obtain ⟨a, ha⟩ := List.getElem?_of_mem (h2.2 (by omega))
      have := (t11 m i hm hi a).2 ha
      exact ⟨a, List.mem_range.2 this.2, this.1.symm⟩
  · change q m i < M.nnu ↔ _
    rw [nnu, t10 m i hm hi, mi m i hi]
    constructor
    · rintro ⟨h1, h2⟩
      exact ⟨by omega, by omega, fun k hk e => h2 k i hk hi (by rw [e])⟩
    · rintro ⟨h1, h2, h3⟩
      exact ⟨by omega, fun k j hk hj e => h3 k hk (by beta_reduce at e; omega)⟩
  · change (∀ r, r < M.nnd → u (M.nni + r) = ∑ k ∈ range M.nnu, M.Cdu.e r k * u k + ∑ k ∈ range M.nnp, M.Cdp.e r k * u (M.nnu + k)) ↔ _
    rw [← field, ← m10, nnd, nni, nnu, nnp, w10, w11, tni]
    refine forall_congr' fun r => forall_congr' fun hr => ?_
    rw [sum_range_add, sum_congr (s₁ := range T.nnu) rfl fun k hk => by rw [m8 r k hr (mem_range.1 hk)],
      sum_congr (s₁ := range T.nnp) rfl fun k hk => by rw [m9 r k hr (mem_range.1 hk)]]
  · change (∀ r, r < M.nnd → u (M.nni + r) = ∑ k ∈ range M.nni, Cdi.e r k * u k) ↔ _
    rw [← field, ← m10, nnd, nni]

end GF
