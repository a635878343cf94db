import Verif.Props.ElementHex8
import Verif.Props.MeshRegular2d
import Verif.Model.Vector

/-! The part of the generic base classes that the element classes override or that only returns a shape: the generic mass
matrix (**C47**, **C56**), the shapes (**C53**, **C55**), `nodesOrigin` (**C32**), `Vector::copy` (**C03**). -/

namespace GF.Element
open Finset

variable {α : Type} [Field α]

theorem mass_generic {Q : Quadrature α} {nne nd td ne nip : Nat} {N : Nat → Nat → α}
    {G : Nat → Nat → Nat → Nat → α} {V : Nat → Nat → α} (h : Holds Q nne nd td ne nip N G V) (σ : Sched) {r : Ten α} {R}
    (hr : Is2 r ne nip R) (t0 : Ten α) (ht : t0.shape = [ne, nne * nd, nne * nd]) :
    ∃ t, Q.int_N_scalar_NT_dV_impl σ r t0 = .ok t ∧ t.shape = [ne, nne * nd, nne * nd] ∧
      ∀ e m n i j, e < ne → m < nne → n < nne → i < nd → j < nd → t.v [e, m * nd + i, n * nd + j] =
        some (if i = j then ∑ q ∈ range nip, N q m * R e q * N q n * V e q else 0) := by
  have H : IsAdds [ne, nne * nd, nne * nd] (fun t : Ten α => forEach (σ.run (it1 Q.nelem)) (fun t e =>
      forEach (it1 Q.nip) (fun t q =>
        forEach (it3 Q.nne Q.nne Q.ndim) (fun t k => do
          let a ← Q.N.get [q, k.1]
          let r ← r.get [e, q]
          let b ← Q.N.get [q, k.2.1]
          let v ← Q.vol.get [e, q]
          t.addAt [e, k.1 * Q.ndim + k.2.2, k.2.1 * Q.ndim + k.2.2] (a * r * b * v)) t) t) t)
      ((σ.run (it1 ne)).flatMap fun e => (it1 nip).flatMap fun q => (it3 nne nne nd).flatMap fun k =>
          [([e, k.1 * nd + k.2.2, k.2.1 * nd + k.2.2], N q k.1 * R e q * N q k.2.1 * V e q)]) := by
    rw [h.ne_eq, h.nip_eq, h.nne_eq, h.nd_eq]
    refine isAdds_loop _ _ _ fun e he => isAdds_loop _ _ _ fun q hq => isAdds_loop _ _ _ fun k hk =>
      isAdds_one _ _ _ _ fun s hs => ?_
    rw [mem_run] at he
    rw [mem_it1] at hq
    rw [mem_it3] at hk
    rw [h.N_is.get hq hk.1, Res.ok_bind, hr.get he hq, Res.ok_bind, h.N_is.get hq hk.2.1, Res.ok_bind,
      h.V_is.get he hq, Res.ok_bind]
  obtain ⟨t, h1, h2, h3⟩ := H.spec (by
    simp only [List.mem_flatMap, mem_run, mem_it1, List.mem_singleton, Prod.exists]
    rintro st ⟨e, he, q, hq, m, n, i, hk, rfl⟩
    rw [mem_it3] at hk
    simp [he, grid_lt hk.1 hk.2.2, grid_lt hk.2.1 hk.2.2])
  refine ⟨t, by rw [← h1, Quadrature.int_N_scalar_NT_dV_impl, ht], h2, fun e m n i j he hm hn hi hj => ?_⟩
  rw [h3 _ (by simp [he, grid_lt hm hi, grid_lt hn hj])]
  congr 1
  rw [sum_map_flatMap, sum_sched, sum_pick he _ (by
    intro e' he'; simp only [sum_map_flatMap, List.map_cons, List.map_nil, List.sum_singleton]
    simp [he'])]
  rw [sum_map_flatMap, sum_it1]
  rw [show (if i = j then ∑ q ∈ range nip, N q m * R e q * N q n * V e q else 0) =
    ∑ q ∈ range nip, if i = j then N q m * R e q * N q n * V e q else 0 by
      split <;> simp]
  refine sum_congr rfl fun q _ => ?_
  simp only [sum_map_flatMap, sum_it3, List.map_cons, List.map_nil, List.sum_singleton,
    List.cons.injEq, true_and, and_true]
  rw [sum_pick hm _ (by
    intro m' hm'
    refine Finset.sum_eq_zero fun n' _ => Finset.sum_eq_zero fun i' hi' => ?_
    rw [mem_range] at hi'
    rw [if_neg (fun hx => hm' ((flat_iff hi' hi).1 hx.1).1)]), sum_pick hn _ (by
    intro n' hn'
    refine Finset.sum_eq_zero fun i' hi' => ?_
    rw [mem_range] at hi'
    rw [if_neg (fun hx => hn' ((flat_iff hi' hj).1 hx.2).1)]), sum_pick hi _ (by
    intro i' hi'
    rw [if_neg (fun hx => hi' (by omega))])]
  by_cases hij : i = j <;> simp [hij]

end GF.Element

namespace GF
open Finset

/-- **C47** (the generic mass matrix of the base class, which the element classes override): it has the same properties. -/
theorem C47_mass_generic {α : Type} [Field α] [CharZero α] {td ne nip : Nat} {thick : α} {Ξ : Nat → Nat → α} {W : Nat → α}
    {Q : Element.Quadrature α} {X} (hQ : Element.Quad4.Live td thick ne nip Ξ W Q X) (σ : Sched) {r : Ten α} {R}
    (hr : Is2 r ne nip R) :
    ∃ V, Is2 Q.vol ne nip V ∧ IsOk (Q.int_N_scalar_NT_dV_impl σ r (Ten.empty Q.shape_elemmat)) fun t =>
      ∃ M, Is3 t ne 8 8 M ∧ ElemSpec.MassLaws 4 2 ne nip (fun q m => ElemSpec.N4 m (Ξ q 0) (Ξ q 1)) R V M := by
  have h := (Element.Quad4.live_holds hQ).1
  obtain ⟨t, h1, h2, h3⟩ := Element.mass_generic h σ hr (Ten.empty Q.shape_elemmat)
    (by simp [Ten.empty, Element.Quadrature.shape_elemmat, h.nne_eq, h.nd_eq, h.ne_eq])
  refine ⟨_, h.V_is, t, h1, fun e a b => (t.v [e, a, b]).getD 0, ⟨h2, fun e a b he ha hb => ?_⟩,
    Element.massLaws (fun e m n i j he hm hn hi hj => ?_) fun q _ => Element.Quad4.N4_sum _ _⟩
  · obtain ⟨m, i, hm, hi, rfl⟩ := Element.flat_exists (nne := 4) (nd := 2) ha
    obtain ⟨n, j, hn, hj, rfl⟩ := Element.flat_exists (nne := 4) (nd := 2) hb
    beta_reduce
    rw [h3 e m n i j he hm hn hi hj, Option.getD_some]
  · rw [h3 e m n i j he hm hn hi hj, Option.getD_some]

/-- **C53** the shapes that the object reports are those its methods use -/
theorem C53_shapes {α : Type} [Field α] [CharZero α] {td ne nip : Nat} {thick : α} {Ξ : Nat → Nat → α} {W : Nat → α}
    {Q : Element.Quadrature α} {X} (hQ : Element.Quad4.Live td thick ne nip Ξ W Q X) :
    Q.shape_elemvec = [ne, 4, 2] ∧ Q.shape_elemmat = [ne, 8, 8] ∧ Q.shape_qscalar = [ne, nip] ∧
      (∀ n, Q.shape_elemvec_n n = [ne, 4, n] ∧ Q.shape_qvector_n n = [ne, nip, n]) ∧
      Q.shape_qtensor 2 = [ne, nip, td, td] ∧ Q.shape_qtensor 4 = [ne, nip, td, td, td, td] := by
  have h := (Element.Quad4.live_holds hQ).1
  simp only [Element.Quadrature.shape_elemvec, Element.Quadrature.shape_elemmat, Element.Quadrature.shape_qscalar,
    Element.Quadrature.shape_elemvec_n, Element.Quadrature.shape_qvector_n, Element.Quadrature.shape_qtensor,
    h.nne_eq, h.nd_eq, h.td_eq, h.ne_eq, h.nip_eq]
  simp [List.replicate]

/-- **C55** the same for Hex8 -/
theorem C55_shapes {α : Type} [Field α] [CharZero α] {ne nip : Nat} {Ξ : Nat → Nat → α} {W : Nat → α}
    {Q : Element.Quadrature α} {X} (hQ : Element.Hex8.Live ne nip Ξ W Q X) :
    Q.shape_elemvec = [ne, 8, 3] ∧ Q.shape_elemmat = [ne, 24, 24] ∧ Q.shape_qscalar = [ne, nip] ∧
      (∀ n, Q.shape_elemvec_n n = [ne, 8, n] ∧ Q.shape_qvector_n n = [ne, nip, n]) ∧
      Q.shape_qtensor 2 = [ne, nip, 3, 3] ∧ Q.shape_qtensor 4 = [ne, nip, 3, 3, 3, 3] := by
  have h := (Element.Hex8.live_holds hQ).1
  simp only [Element.Quadrature.shape_elemvec, Element.Quadrature.shape_elemmat, Element.Quadrature.shape_qscalar,
    Element.Quadrature.shape_elemvec_n, Element.Quadrature.shape_qvector_n, Element.Quadrature.shape_qtensor,
    h.nne_eq, h.nd_eq, h.td_eq, h.ne_eq, h.nip_eq]
  simp [List.replicate]

/-- **C32** `nodesOrigin()` is a node of the mesh, at the origin -/
theorem C32_quad4_origin {α : Type} [Field α] [LinearOrder α] [IsStrictOrderedRing α] (nelx nely : Nat) (h : α) :
    let M := Quad4.Regular.new nelx nely h
    ∃ c x, M.coor = .ok c ∧ Is2 c M.nnode 2 x ∧ Quad4.Regular.nodesOrigin M < M.nnode ∧
      x (Quad4.Regular.nodesOrigin M) 0 = 0 ∧ x (Quad4.Regular.nodesOrigin M) 1 = 0 := by
  obtain ⟨c, x, h1, h2, h3⟩ := C32_quad4_corners nelx nely h
  exact ⟨c, x, h1, h2, h3.1⟩

/-- **C03** `Vector::copy` makes the destination a copy of the source (shape and entries), whatever it was -/
theorem C03_copy {α : Type} (V : Vector) (src dest : Ten α) :
    IsOk (V.copy src dest) fun t => t.shape = src.shape ∧ ∀ ix, t.v ix = src.v ix :=
  ⟨src, rfl, rfl, fun _ => rfl⟩

end GF
