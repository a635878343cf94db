import Verif.Lemmas.ElementHex8Geo

/-! The two operators that `ElementHex8.h` implements itself. -/

namespace GF.Element.Hex8
open Finset ElemSpec Quad4

variable {α : Type} [AddCommMonoid α] [Mul α] [One α] [Sub α] [Div α] [Neg α] [NatCast α]
variable {Q : Quadrature α} {ne nip : Nat} {N : Nat → Nat → α} {G : Nat → Nat → Nat → Nat → α} {V : Nat → Nat → α}

theorem force_ok (h : Holds Q 8 3 3 ne nip N G V) (σ : Sched) {c : Ten α} {S}
    (hc : Is4 c ne nip 3 3 S) (t0 : Ten α) (ht : t0.shape = [ne, 8, 3]) :
    ∃ t, int_gradN_dot_tensor2_dV_impl Q σ c t0 = .ok t ∧
      Is3 t ne 8 3 fun e m j => ∑ q ∈ range nip, (∑ i ∈ range 3, G e q m i * S e q i j) * V e q := by
  have H : IsAdds [ne, 8, 3] (fun t : Ten α => forEach (σ.run (it1 Q.nelem)) (fun t e =>
      forEach (it1 Q.nip) (fun t q =>
        forEach (it1 8) (fun t m => do
          let v ← Q.vol.get [e, q]
          let d0 ← Q.dNx.get [e, q, m, 0]
          let d1 ← Q.dNx.get [e, q, m, 1]
          let d2 ← Q.dNx.get [e, q, m, 2]
          let s0 ← c.get [e, q, 0, 0]
          let s1 ← c.get [e, q, 1, 0]
          let s2 ← c.get [e, q, 2, 0]
          let t ← t.addAt [e, m, 0] ((d0 * s0 + d1 * s1 + d2 * s2) * v)
          let s0 ← c.get [e, q, 0, 1]
          let s1 ← c.get [e, q, 1, 1]
          let s2 ← c.get [e, q, 2, 1]
          let t ← t.addAt [e, m, 1] ((d0 * s0 + d1 * s1 + d2 * s2) * v)
          let s0 ← c.get [e, q, 0, 2]
          let s1 ← c.get [e, q, 1, 2]
          let s2 ← c.get [e, q, 2, 2]
          t.addAt [e, m, 2] ((d0 * s0 + d1 * s1 + d2 * s2) * v)) t) t) t)
      ((σ.run (it1 ne)).flatMap fun e => (it1 nip).flatMap fun q => (it1 8).flatMap fun m =>
          [([e, m, 0], (G e q m 0 * S e q 0 0 + G e q m 1 * S e q 1 0 + G e q m 2 * S e q 2 0) * V e q)] ++
          ([([e, m, 1], (G e q m 0 * S e q 0 1 + G e q m 1 * S e q 1 1 + G e q m 2 * S e q 2 1) * V e q)] ++
          [([e, m, 2], (G e q m 0 * S e q 0 2 + G e q m 1 * S e q 1 2 + G e q m 2 * S e q 2 2) * V e q)])) := by
    rw [h.ne_eq, h.nip_eq]
    refine isAdds_loop _ _ _ fun e he => isAdds_loop _ _ _ fun q hq => isAdds_loop _ _ _ fun m hm => ?_
    rw [mem_run] at he
    rw [mem_it1] at hq hm
    simp only [h.V_is.get he hq, h.G_is.get he hq hm (show 0 < 3 by omega), h.G_is.get he hq hm (show 1 < 3 by omega),
      h.G_is.get he hq hm (show 2 < 3 by omega),
      hc.get he hq (show 0 < 3 by omega) (show 0 < 3 by omega), hc.get he hq (show 0 < 3 by omega) (show 1 < 3 by omega),
      hc.get he hq (show 0 < 3 by omega) (show 2 < 3 by omega), hc.get he hq (show 1 < 3 by omega) (show 0 < 3 by omega),
      hc.get he hq (show 1 < 3 by omega) (show 1 < 3 by omega), hc.get he hq (show 1 < 3 by omega) (show 2 < 3 by omega),
      hc.get he hq (show 2 < 3 by omega) (show 0 < 3 by omega), hc.get he hq (show 2 < 3 by omega) (show 1 < 3 by omega),
      hc.get he hq (show 2 < 3 by omega) (show 2 < 3 by omega), Res.ok_bind]
    exact isAdds_seq (isAdds_one _ _ _ _ fun _ _ => rfl) (isAdds_seq (isAdds_one _ _ _ _ fun _ _ => rfl)
      (isAdds_one _ _ _ _ fun _ _ => rfl) fun _ _ => rfl) fun _ _ => rfl
  obtain ⟨t, h1, h2, h3⟩ := H.spec (by
    simp only [List.mem_flatMap, mem_run, mem_it1, List.mem_append, List.mem_singleton]
    rintro st ⟨e, he, q, hq, m, hm, rfl | rfl | rfl⟩ <;> simp [he, hm])
  refine ⟨t, by rw [← h1, int_gradN_dot_tensor2_dV_impl, ht], h2, fun e m j he hm hj => ?_⟩
  rw [h3 _ (by simp [he, hm, hj])]
  congr 1
  beta_reduce
  rw [sum_map_flatMap, sum_sched, sum_pick he _ (by
    intro e' he'
    simp only [sum_map_flatMap, List.map_cons, List.map_nil, List.map_append, List.sum_append,
      List.sum_singleton]
    simp [he'])]
  rw [sum_map_flatMap, sum_it1]
  refine sum_congr rfl fun q _ => ?_
  simp only [sum_map_flatMap, sum_it1, List.map_cons, List.map_nil, List.map_append, List.sum_append,
    List.sum_singleton]
  rw [sum_pick hm _ (by intro i' hi'; simp [hi'])]
  simp only [Finset.sum_range_succ, Finset.sum_range_zero, zero_add]
  have : j = 0 ∨ j = 1 ∨ j = 2 := by omega
  rcases this with rfl | rfl | rfl <;> simp

theorem mass_ok (h : Holds Q 8 3 3 ne nip N G V) (σ : Sched) {r : Ten α} {R}
    (hr : Is2 r ne nip R) (t0 : Ten α) (ht : t0.shape = [ne, 24, 24]) :
    ∃ t, int_N_scalar_NT_dV_impl Q σ r t0 = .ok t ∧ t.shape = [ne, 24, 24] ∧
      ∀ e m n i j, e < ne → m < 8 → n < 8 → i < 3 → j < 3 → t.v [e, m * 3 + i, n * 3 + j] =
        some (if i = j then ∑ q ∈ range nip, N q m * R e q * N q n * V e q else 0) := by
  have H : IsAdds [ne, 24, 24] (fun t : Ten α => forEach (σ.run (it1 Q.nelem)) (fun t e =>
      forEach (it1 Q.nip) (fun t q =>
        forEach (it2 8 8) (fun t mn => do
          let v ← Q.vol.get [e, q]
          let r ← r.get [e, q]
          let a ← Q.N.get [q, mn.1]
          let b ← Q.N.get [q, mn.2]
          let t ← t.addAt [e, mn.1 * 3 + 0, mn.2 * 3 + 0] (a * r * b * v)
          let t ← t.addAt [e, mn.1 * 3 + 1, mn.2 * 3 + 1] (a * r * b * v)
          t.addAt [e, mn.1 * 3 + 2, mn.2 * 3 + 2] (a * r * b * v)) t) t) t)
      ((σ.run (it1 ne)).flatMap fun e => (it1 nip).flatMap fun q => (it2 8 8).flatMap fun mn =>
          [([e, mn.1 * 3 + 0, mn.2 * 3 + 0], N q mn.1 * R e q * N q mn.2 * V e q)] ++
          ([([e, mn.1 * 3 + 1, mn.2 * 3 + 1], N q mn.1 * R e q * N q mn.2 * V e q)] ++
          [([e, mn.1 * 3 + 2, mn.2 * 3 + 2], N q mn.1 * R e q * N q mn.2 * V e q)])) := by
    rw [h.ne_eq, h.nip_eq]
    refine isAdds_loop _ _ _ fun e he => isAdds_loop _ _ _ fun q hq => isAdds_loop _ _ _ fun m hm => ?_
    rw [mem_run] at he
    rw [mem_it1] at hq
    rw [mem_it2] at hm
    rw [h.V_is.get he hq, hr.get he hq, h.N_is.get hq hm.1, h.N_is.get hq hm.2]
    simp only [Res.ok_bind]
    exact isAdds_seq (isAdds_one _ _ _ _ fun _ _ => rfl) (isAdds_seq (isAdds_one _ _ _ _ fun _ _ => rfl)
      (isAdds_one _ _ _ _ fun _ _ => rfl) fun _ _ => rfl) fun _ _ => rfl
  obtain ⟨t, h1, h2, h3⟩ := H.spec (by
    simp only [List.mem_flatMap, mem_run, mem_it1, List.mem_append, List.mem_singleton]
    rintro st ⟨e, he, q, hq, ⟨m, n⟩, hm, rfl | rfl | rfl⟩ <;>
    · rw [mem_it2] at hm
      simp [he]; omega)
  refine ⟨t, by rw [← h1, int_N_scalar_NT_dV_impl, ht], h2, fun e m n i j he hm hn hi hj => ?_⟩
  rw [h3 _ (by simp [he]; omega)]
  congr 1
  rw [sum_map_flatMap, sum_sched, sum_pick he _ (by
    intro e' he'
    simp only [sum_map_flatMap, List.map_cons, List.map_nil, List.map_append, List.sum_append,
      List.sum_singleton]
    simp [he'])]
  rw [sum_map_flatMap, sum_it1]
  rw [show (if i = j then ∑ q ∈ range nip, N q m * R e q * N q n * V e q else 0) =
    ∑ q ∈ range nip, if i = j then N q m * R e q * N q n * V e q else 0 by
      split <;> simp]
  refine sum_congr rfl fun q _ => ?_
  simp only [sum_map_flatMap, sum_it2, List.map_cons, List.map_nil, List.map_append, List.sum_append,
    List.sum_singleton, List.cons.injEq, true_and, and_true]
  rw [sum_pick hm _ (by
    intro m' hm'
    refine Finset.sum_eq_zero fun n' _ => ?_
    rw [if_neg (by omega), if_neg (by omega), if_neg (by omega), add_zero, add_zero]), sum_pick hn _ (by
    intro n' hn'
    rw [if_neg (by omega), if_neg (by omega), if_neg (by omega), add_zero, add_zero])]
  have h2' : (i = 0 ∨ i = 1 ∨ i = 2) ∧ (j = 0 ∨ j = 1 ∨ j = 2) := by omega
  rcases h2' with ⟨rfl | rfl | rfl, rfl | rfl | rfl⟩ <;> simp

end GF.Element.Hex8
