import Verif.Lemmas.Element
import Verif.Spec.Quadrature
import Mathlib.Algebra.BigOperators.Ring.Finset
import Mathlib.Tactic.Ring
import Mathlib.Tactic.FieldSimp

/-! The generic operators of `QuadratureBaseCartesian` as sums. -/

namespace GF.Element
open Finset

variable {α : Type} [AddCommMonoid α] [Mul α] [One α] [Sub α] [Div α] [Neg α] [NatCast α]

variable {Q : Quadrature α} {nne nd td ne nip : Nat} {N : Nat → Nat → α}
  {G : Nat → Nat → Nat → Nat → α} {V : Nat → Nat → α}

theorem mem_run {σ : Sched} {n e : Nat} : e ∈ σ.run (it1 n) ↔ e < n := by
  rw [(σ.perm (it1 n)).mem_iff, mem_it1]

theorem gradN_generic (h : Holds Q nne nd nd ne nip N G V) (σ : Sched) {u : Ten α} {U}
    (hu : Is3 u ne nne nd U) (t0 : Ten α) (ht : t0.shape = [ne, nip, nd, nd]) :
    ∃ t, Q.gradN_vector_impl σ u t0 = .ok t ∧
      Is4 t ne nip nd nd fun e q i j => ∑ m ∈ range nne, G e q m i * U e m j := by
  have H : IsAdds [ne, nip, nd, nd] (fun t : Ten α => forEach (σ.run (it1 Q.nelem)) (fun t e =>
      forEach (it1 Q.nip) (fun t q =>
        forEach (it3 Q.nne Q.ndim Q.ndim) (fun t k => do
          let a ← Q.dNx.get [e, q, k.1, k.2.1]
          let u ← u.get [e, k.1, k.2.2]
          t.addAt [e, q, k.2.1, k.2.2] (a * u)) t) t) t)
      ((σ.run (it1 ne)).flatMap fun e => (it1 nip).flatMap fun q =>
        (it3 nne nd nd).flatMap fun k =>
          [([e, q, k.2.1, k.2.2], G e q k.1 k.2.1 * U e k.1 k.2.2)]) := by
    rw [h.ne_eq, h.nip_eq, h.nne_eq, h.nd_eq]
    refine isAdds_loop _ _ _ fun e he => isAdds_loop _ _ _ fun q hq => isAdds_loop _ _ _ fun k hk =>
      isAdds_one _ _ _ _ fun s hs => ?_
    rw [mem_run] at he
    rw [mem_it1] at hq
    rw [mem_it3] at hk
    rw [h.G_is.get he hq hk.1 hk.2.1, Res.ok_bind, hu.get he hk.1 hk.2.2, Res.ok_bind]
  obtain ⟨t, h1, h2, h3⟩ := H.spec (by
    simp only [List.mem_flatMap, mem_run, mem_it1, List.mem_singleton, Prod.exists]
    rintro st ⟨e, he, q, hq, m, i, j, hk, rfl⟩
    rw [mem_it3] at hk
    simp [he, hq, hk.2.1, hk.2.2])
  refine ⟨t, by rw [← h1, Quadrature.gradN_vector_impl, ht], h2, fun e q i j he hq hi hj => ?_⟩
  rw [h3 _ (by simp [he, hq, hi, hj])]
  congr 1
  rw [sum_map_flatMap, sum_sched, sum_pick he _ (by
    intro e' he'; simp only [sum_map_flatMap, List.map_cons, List.map_nil, List.sum_singleton]
    simp [he'])]
  rw [sum_map_flatMap, sum_it1, sum_pick hq _ (by
    intro e' he'; simp only [sum_map_flatMap, List.map_cons, List.map_nil, List.sum_singleton]
    simp [he'])]
  rw [sum_map_flatMap, sum_it3]
  refine sum_congr rfl fun m _ => ?_
  rw [sum_pick hi _ (by intro i' hi'; simp [hi']), sum_pick hj _ (by intro i' hi'; simp [hi'])]
  simp

theorem gradN_T_generic (h : Holds Q nne nd nd ne nip N G V) (σ : Sched) {u : Ten α} {U}
    (hu : Is3 u ne nne nd U) (t0 : Ten α) (ht : t0.shape = [ne, nip, nd, nd]) :
    ∃ t, Q.gradN_vector_T_impl σ u t0 = .ok t ∧
      Is4 t ne nip nd nd fun e q i j => ∑ m ∈ range nne, G e q m j * U e m i := by
  have H : IsAdds [ne, nip, nd, nd] (fun t : Ten α => forEach (σ.run (it1 Q.nelem)) (fun t e =>
      forEach (it1 Q.nip) (fun t q =>
        forEach (it3 Q.nne Q.ndim Q.ndim) (fun t k => do
          let a ← Q.dNx.get [e, q, k.1, k.2.1]
          let u ← u.get [e, k.1, k.2.2]
          t.addAt [e, q, k.2.2, k.2.1] (a * u)) t) t) t)
      ((σ.run (it1 ne)).flatMap fun e => (it1 nip).flatMap fun q =>
        (it3 nne nd nd).flatMap fun k =>
          [([e, q, k.2.2, k.2.1], G e q k.1 k.2.1 * U e k.1 k.2.2)]) := by
    rw [h.ne_eq, h.nip_eq, h.nne_eq, h.nd_eq]
    refine isAdds_loop _ _ _ fun e he => isAdds_loop _ _ _ fun q hq => isAdds_loop _ _ _ fun k hk =>
      isAdds_one _ _ _ _ fun s hs => ?_
    rw [mem_run] at he
    rw [mem_it1] at hq
    rw [mem_it3] at hk
    rw [h.G_is.get he hq hk.1 hk.2.1, Res.ok_bind, hu.get he hk.1 hk.2.2, Res.ok_bind]
  obtain ⟨t, h1, h2, h3⟩ := H.spec (by
    simp only [List.mem_flatMap, mem_run, mem_it1, List.mem_singleton, Prod.exists]
    rintro st ⟨e, he, q, hq, m, i, j, hk, rfl⟩
    rw [mem_it3] at hk
    simp [he, hq, hk.2.1, hk.2.2])
  refine ⟨t, by rw [← h1, Quadrature.gradN_vector_T_impl, ht], h2, fun e q i j he hq hi hj => ?_⟩
  rw [h3 _ (by simp [he, hq, hi, hj])]
  congr 1
  rw [sum_map_flatMap, sum_sched, sum_pick he _ (by
    intro e' he'; simp only [sum_map_flatMap, List.map_cons, List.map_nil, List.sum_singleton]
    simp [he'])]
  rw [sum_map_flatMap, sum_it1, sum_pick hq _ (by
    intro e' he'; simp only [sum_map_flatMap, List.map_cons, List.map_nil, List.sum_singleton]
    simp [he'])]
  rw [sum_map_flatMap, sum_it3]
  refine sum_congr rfl fun m _ => ?_
  rw [sum_pick hj _ (by intro i' hi'; simp [hi']), sum_pick hi _ (by intro i' hi'; simp [hi'])]
  simp

theorem symGradN_sum (h : Holds Q nne nd nd ne nip N G V) (σ : Sched) {u : Ten α} {U}
    (hu : Is3 u ne nne nd U) (t0 : Ten α) (ht : t0.shape = [ne, nip, nd, nd]) :
    ∃ t, Q.symGradN_vector_impl σ u t0 = .ok t ∧
      Is4 t ne nip nd nd fun e q i j =>
        ∑ m ∈ range nne, (1 / 2 * G e q m i * U e m j + 1 / 2 * G e q m j * U e m i) := by
  have H : IsAdds [ne, nip, nd, nd] (fun t : Ten α => forEach (σ.run (it1 Q.nelem)) (fun t e =>
      forEach (it1 Q.nip) (fun t q =>
        forEach (it3 Q.nne Q.ndim Q.ndim) (fun t k => do
          let a ← Q.dNx.get [e, q, k.1, k.2.1]
          let u ← u.get [e, k.1, k.2.2]
          let t ← t.addAt [e, q, k.2.1, k.2.2] (1 / 2 * a * u)
          t.addAt [e, q, k.2.2, k.2.1] (1 / 2 * a * u)) t) t) t)
      ((σ.run (it1 ne)).flatMap fun e => (it1 nip).flatMap fun q =>
        (it3 nne nd nd).flatMap fun k =>
          [([e, q, k.2.1, k.2.2], 1 / 2 * G e q k.1 k.2.1 * U e k.1 k.2.2)] ++
          [([e, q, k.2.2, k.2.1], 1 / 2 * G e q k.1 k.2.1 * U e k.1 k.2.2)]) := by
    rw [h.ne_eq, h.nip_eq, h.nne_eq, h.nd_eq]
    refine isAdds_loop _ _ _ fun e he => isAdds_loop _ _ _ fun q hq => isAdds_loop _ _ _ fun k hk =>
      isAdds_seq (isAdds_one _ _ _ _ fun _ _ => rfl) (isAdds_one _ _ _ _ fun _ _ => rfl) fun s hs => ?_
    rw [mem_run] at he
    rw [mem_it1] at hq
    rw [mem_it3] at hk
    rw [h.G_is.get he hq hk.1 hk.2.1, Res.ok_bind, hu.get he hk.1 hk.2.2, Res.ok_bind]
    rfl
  obtain ⟨t, h1, h2, h3⟩ := H.spec (by
    simp only [List.mem_flatMap, mem_run, mem_it1, List.mem_append, List.mem_singleton, Prod.exists]
    rintro st ⟨e, he, q, hq, m, i, j, hk, rfl | rfl⟩ <;>
    · rw [mem_it3] at hk
      simp [he, hq, hk.2.1, hk.2.2])
  refine ⟨t, by rw [← h1, Quadrature.symGradN_vector_impl, ht], h2, fun e q i j he hq hi hj => ?_⟩
  rw [h3 _ (by simp [he, hq, hi, hj])]
  congr 1
  rw [sum_map_flatMap, sum_sched, sum_pick he _ (by
    intro e' he'
    simp only [sum_map_flatMap, List.map_cons, List.map_nil, List.map_append, List.sum_append,
      List.sum_singleton]
    simp [he'])]
  rw [sum_map_flatMap, sum_it1, sum_pick hq _ (by
    intro e' he'
    simp only [sum_map_flatMap, List.map_cons, List.map_nil, List.map_append, List.sum_append,
      List.sum_singleton]
    simp [he'])]
  beta_reduce
  rw [sum_map_flatMap, sum_it3]
  refine sum_congr rfl fun m _ => ?_
  simp only [List.map_append, List.map_cons, List.map_nil, List.sum_append, List.sum_singleton,
    sum_add_distrib]
  rw [sum_pick hi _ (by intro i' hi'; simp [hi']), sum_pick hj _ (by intro i' hi'; simp [hi']),
    sum_pick hj _ (by intro i' hi'; simp [hi']), sum_pick hi _ (by intro i' hi'; simp [hi'])]
  simp only [if_true]

theorem symGradN_generic {α : Type} [Field α] {Q : Quadrature α} {N : Nat → Nat → α} {G : Nat → Nat → Nat → Nat → α}
    {V : Nat → Nat → α} (h : Holds Q nne nd nd ne nip N G V) (σ : Sched) {u : Ten α} {U}
    (hu : Is3 u ne nne nd U) (t0 : Ten α) (ht : t0.shape = [ne, nip, nd, nd]) :
    ∃ t, Q.symGradN_vector_impl σ u t0 = .ok t ∧
      Is4 t ne nip nd nd fun e q i j =>
        1 / 2 * ((∑ m ∈ range nne, G e q m i * U e m j) + ∑ m ∈ range nne, G e q m j * U e m i) := by
  obtain ⟨t, h1, h2⟩ := symGradN_sum h σ hu t0 ht
  refine ⟨t, h1, h2.congr fun e q i j _ _ _ _ => ?_⟩
  rw [← sum_add_distrib, mul_sum]
  exact sum_congr rfl fun m _ => by ring

theorem interpQuad_generic (h : Holds Q nne nd td ne nip N G V) (σ : Sched) {u : Ten α} {n : Nat} {U}
    (hu : Is3 u ne nne n U) (t0 : Ten α) (ht : t0.shape = [ne, nip, n]) :
    ∃ t, Q.interpQuad_vector_impl σ u t0 = .ok t ∧
      Is3 t ne nip n fun e q i => ∑ m ∈ range nne, N q m * U e m i := by
  have H : IsAdds [ne, nip, n] (fun t : Ten α => forEach (σ.run (it1 Q.nelem)) (fun t e =>
      forEach (it3 Q.nip Q.nne n) (fun t k => do
        let a ← Q.N.getP [k.1, 0] k.2.1
        let u ← u.getP [e, 0, 0] (k.2.1 * n + k.2.2)
        t.addP [e, k.1, 0] k.2.2 (a * u)) t) t)
      ((σ.run (it1 ne)).flatMap fun e => (it3 nip nne n).flatMap fun k =>
          [([e, k.1, k.2.2], N k.1 k.2.1 * U e k.2.1 k.2.2)]) := by
    rw [h.ne_eq, h.nip_eq, h.nne_eq]
    refine isAdds_loop _ _ _ fun e he => isAdds_loop _ _ _ fun k hk =>
      isAdds_one _ _ _ _ fun s hs => ?_
    rw [mem_run] at he
    rw [mem_it3] at hk
    rw [getP2 h.N_is hk.1 hk.2.1, Res.ok_bind, getP3 hu he hk.2.1 hk.2.2, Res.ok_bind]
    rw [Ten.addP, hs, unravel3' hk.1 hk.2.2]
  obtain ⟨t, h1, h2, h3⟩ := H.spec (by
    simp only [List.mem_flatMap, mem_run, List.mem_singleton, Prod.exists]
    rintro st ⟨e, he, q, m, i, hk, rfl⟩
    rw [mem_it3] at hk
    simp [he, hk.1, hk.2.2])
  refine ⟨t, by rw [← h1, Quadrature.interpQuad_vector_impl, hu.1, ht], h2, fun e q i he hq hi => ?_⟩
  rw [h3 _ (by simp [he, hq, hi])]
  congr 1
  rw [sum_map_flatMap, sum_sched, sum_pick he _ (by
    intro e' he'; simp only [sum_map_flatMap, List.map_cons, List.map_nil, List.sum_singleton]
    simp [he'])]
  rw [sum_map_flatMap, sum_it3, sum_pick hq _ (by intro i' hi'; simp [hi'])]
  refine sum_congr rfl fun m _ => ?_
  rw [sum_pick hi _ (by intro i' hi'; simp [hi'])]
  simp

theorem intNvector_generic (h : Holds Q nne nd td ne nip N G V) (σ : Sched) {b : Ten α} {n : Nat} {B}
    (hb : Is3 b ne nip n B) (t0 : Ten α) (ht : t0.shape = [ne, nne, n]) :
    ∃ t, Q.int_N_vector_dV_impl σ b t0 = .ok t ∧
      Is3 t ne nne n fun e m i => ∑ q ∈ range nip, N q m * B e q i * V e q := by
  have H : IsAdds [ne, nne, n] (fun t : Ten α => forEach (σ.run (it1 Q.nelem)) (fun t e =>
      forEach (it3 Q.nip Q.nne n) (fun t k => do
        let a ← Q.N.getP [k.1, 0] k.2.1
        let b ← b.getP [e, k.1, 0] k.2.2
        let v ← Q.vol.get [e, k.1]
        t.addP [e, 0, 0] (k.2.1 * n + k.2.2) (a * b * v)) t) t)
      ((σ.run (it1 ne)).flatMap fun e => (it3 nip nne n).flatMap fun k =>
          [([e, k.2.1, k.2.2], N k.1 k.2.1 * B e k.1 k.2.2 * V e k.1)]) := by
    rw [h.ne_eq, h.nip_eq, h.nne_eq]
    refine isAdds_loop _ _ _ fun e he => isAdds_loop _ _ _ fun k hk =>
      isAdds_one _ _ _ _ fun s hs => ?_
    rw [mem_run] at he
    rw [mem_it3] at hk
    rw [getP2 h.N_is hk.1 hk.2.1, Res.ok_bind, getP3' hb he hk.1 hk.2.2, Res.ok_bind,
      h.V_is.get he hk.1, Res.ok_bind]
    rw [Ten.addP, hs, unravel3 hk.2.1 hk.2.2]
  obtain ⟨t, h1, h2, h3⟩ := H.spec (by
    simp only [List.mem_flatMap, mem_run, List.mem_singleton, Prod.exists]
    rintro st ⟨e, he, q, m, i, hk, rfl⟩
    rw [mem_it3] at hk
    simp [he, hk.2.1, hk.2.2])
  refine ⟨t, by rw [← h1, Quadrature.int_N_vector_dV_impl, hb.1, ht], h2, fun e m i he hm hi => ?_⟩
  rw [h3 _ (by simp [he, hm, hi])]
  congr 1
  rw [sum_map_flatMap, sum_sched, sum_pick he _ (by
    intro e' he'; simp only [sum_map_flatMap, List.map_cons, List.map_nil, List.sum_singleton]
    simp [he'])]
  rw [sum_map_flatMap, sum_it3]
  refine sum_congr rfl fun q _ => ?_
  rw [sum_pick hm _ (by intro i' hi'; simp [hi']), sum_pick hi _ (by intro i' hi'; simp [hi'])]
  simp

/-- equality of the flat index of a nodal component -/
theorem flat_iff {nd m i m' i' : Nat} (hi : i < nd) (hi' : i' < nd) :
    m * nd + i = m' * nd + i' ↔ m = m' ∧ i = i' :=
  ⟨fun h => grid_inj hi hi' h, fun h => by rw [h.1, h.2]⟩

theorem stiffness_generic (h : Holds Q nne nd td ne nip N G V) (hnd : nd ≤ td) (σ : Sched) {c : Ten α} {C}
    (hc : Is6 c ne nip td td td td C) (t0 : Ten α) (ht : t0.shape = [ne, nne * nd, nne * nd]) :
    ∃ t, Q.int_gradN_dot_tensor4_dot_gradNT_dV_impl σ c t0 = .ok t ∧ t.shape = [ne, nne * nd, nne * nd] ∧
      ∀ e m n j k, e < ne → m < nne → n < nne → j < nd → k < nd →
        t.v [e, m * nd + j, n * nd + k] = some (∑ q ∈ range nip, ∑ i ∈ range nd, ∑ l ∈ range nd,
          G e q m i * C e q i j k l * G e q n l * V e q) := by
  have H : IsAdds [ne, nne * nd, nne * nd] (fun t : Ten α => forEach (σ.run (it1 Q.nelem)) (fun t e =>
      forEach (it1 Q.nip) (fun t q =>
        forEach (it2 Q.nne Q.nne) (fun t mn =>
          forEach (it2 Q.ndim Q.ndim) (fun t ij =>
            forEach (it2 Q.ndim Q.ndim) (fun t kl => do
              let a ← Q.dNx.get [e, q, mn.1, ij.1]
              let c ← c.get [e, q, ij.1, ij.2, kl.1, kl.2]
              let b ← Q.dNx.get [e, q, mn.2, kl.2]
              let v ← Q.vol.get [e, q]
              t.addAt [e, mn.1 * Q.ndim + ij.2, mn.2 * Q.ndim + kl.1] (a * c * b * v)) t) t) t) t) t)
      ((σ.run (it1 ne)).flatMap fun e => (it1 nip).flatMap fun q => (it2 nne nne).flatMap fun mn =>
        (it2 nd nd).flatMap fun ij => (it2 nd nd).flatMap fun kl =>
          [([e, mn.1 * nd + ij.2, mn.2 * nd + kl.1],
            G e q mn.1 ij.1 * C e q ij.1 ij.2 kl.1 kl.2 * G e q mn.2 kl.2 * V e q)]) := by
    rw [h.ne_eq, h.nip_eq, h.nne_eq, h.nd_eq]
    refine isAdds_loop _ _ _ fun e he => isAdds_loop _ _ _ fun q hq => isAdds_loop _ _ _ fun mn hmn =>
      isAdds_loop _ _ _ fun ij hij => isAdds_loop _ _ _ fun kl hkl => isAdds_one _ _ _ _ fun s hs => ?_
    rw [mem_run] at he
    rw [mem_it1] at hq
    rw [mem_it2] at hmn hij hkl
    rw [h.G_is.get he hq hmn.1 hij.1, Res.ok_bind,
      hc.get he hq (by omega) (by omega) (by omega) (by omega), Res.ok_bind,
      h.G_is.get he hq hmn.2 hkl.2, Res.ok_bind, h.V_is.get he hq, Res.ok_bind]
  obtain ⟨t, h1, h2, h3⟩ := H.spec (by
    simp only [List.mem_flatMap, mem_run, mem_it1, List.mem_singleton, Prod.exists]
    rintro st ⟨e, he, q, hq, m, n, hmn, i, j, hij, k, l, hkl, rfl⟩
    rw [mem_it2] at hmn hij hkl
    simp [he, grid_lt hmn.1 hij.2, grid_lt hmn.2 hkl.1])
  refine ⟨t, by rw [← h1, Quadrature.int_gradN_dot_tensor4_dot_gradNT_dV_impl, ht], h2,
    fun e m n j k he hm hn hj hk => ?_⟩
  rw [h3 _ (by simp [he, grid_lt hm hj, grid_lt hn hk])]
  congr 1
  rw [sum_map_flatMap, sum_sched, sum_pick he _ (by
    intro e' he'; simp only [sum_map_flatMap, List.map_cons, List.map_nil, List.sum_singleton]
    simp [he'])]
  rw [sum_map_flatMap, sum_it1]
  refine sum_congr rfl fun q _ => ?_
  simp only [sum_map_flatMap, sum_it2, List.map_cons, List.map_nil, List.sum_singleton,
    List.cons.injEq, true_and, and_true]
  have key : ∀ m' n' i' , ∑ j' ∈ range nd, ∑ k' ∈ range nd, ∑ l' ∈ range nd,
      (if m' * nd + j' = m * nd + j ∧ n' * nd + k' = n * nd + k then
        G e q m' i' * C e q i' j' k' l' * G e q n' l' * V e q else 0) =
      if m' = m ∧ n' = n then ∑ l' ∈ range nd,
        G e q m' i' * C e q i' j k l' * G e q n' l' * V e q else 0 := by
    intro m' n' i'
    rw [Finset.sum_eq_single j, Finset.sum_eq_single k]
    · simp only [flat_iff hj hj, flat_iff hk hk, and_true]
      by_cases hx : m' = m ∧ n' = n <;> simp [hx]
    · intro k' hk' hne
      rw [mem_range] at hk'
      simp [flat_iff hk' hk, hne]
    · intro hx; exact absurd (mem_range.2 hk) hx
    · intro j' hj' hne
      rw [mem_range] at hj'
      simp [flat_iff hj' hj, hne]
    · intro hx; exact absurd (mem_range.2 hj) hx
  simp only [key]
  rw [sum_pick hm _ (by intro i' hi'; simp [hi']), sum_pick hn _ (by intro i' hi'; simp [hi'])]
  simp

end GF.Element
