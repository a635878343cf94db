import Verif.Spec.Matrix
import Verif.Lemmas.Vector
import Verif.Lemmas.VectorPartitioned
import Mathlib.Algebra.BigOperators.Ring.Finset
import Mathlib.Tactic.Ring

namespace GF
open Finset
variable {α : Type}

theorem indices1 (n : Nat) : indices [n] = (List.range n).map fun i => [i] := by
  simp only [indices, List.map_cons, List.map_nil]
  induction List.range n with
  | nil => rfl
  | cons a l ih => simp [List.flatMap_cons, ih]

theorem Is1.flat {t : Ten α} {n : Nat} {f : Nat → α} (h : Is1 t n f) :
    t.flat = .ok ((List.range n).map f) := by
  rw [Ten.flat, mapRes_ok (g := fun ix => f (ix.getD 0 0))]
  · rw [h.1, indices1]; simp [List.map_map, Function.comp_def]
  · intro ix hix
    rw [h.1] at hix
    obtain ⟨i, rfl, hi⟩ := inb1.1 (mem_indices.1 hix)
    simpa using h.get hi

namespace Mat

theorem mulVec_spec [NonUnitalNonAssocSemiring α] (A : Mat α) {x : Ten α} {f : Nat → α}
    (hx : Is1 x A.nc f) :
    ∃ y, A.mulVec x = .ok y ∧ Is1 y A.nr (fun r => ∑ c ∈ range A.nc, A.e r c * f c) := by
  refine ⟨_, by simp only [mulVec, hx.1, hx.flat, Res.ok_bind, if_true]; rfl,
    ⟨rfl, fun i hi => ?_⟩⟩
  simp only [Ten.of, List.getD_cons_zero, Option.some.injEq]
  refine Finset.sum_congr rfl fun c hc => ?_
  simp only [mem_range] at hc
  simp [List.getD, hc]

theorem setFromTriplets_ok [Zero α] [Add α] {nr nc : Nat} {T : List (Trip α)}
    (h : ∀ t ∈ T, t.r < nr ∧ t.c < nc) : setFromTriplets nr nc T =
    .ok ⟨nr, nc, fun r c => (T.map fun t => if t.r = r ∧ t.c = c then t.v else 0).sum⟩ := by
  have : T.all (fun t => decide (t.r < nr) && decide (t.c < nc)) = true := by
    simp only [List.all_eq_true, Bool.and_eq_true, decide_eq_true_eq]; exact h
  simp [setFromTriplets, this]

end Mat

namespace SMatrix
variable {V : Vector} {c d : Nat → Nat → Nat}

theorem elem_idx_lt {V : Vector} {m i : Nat} (hm : m < V.nne) (hi : i < V.ndim) :
    m * V.ndim + i < V.nne * V.ndim := by
  calc m * V.ndim + i < m * V.ndim + V.ndim := by omega
    _ = (m + 1) * V.ndim := by ring
    _ ≤ V.nne * V.ndim := Nat.mul_le_mul_right _ hm

theorem triplets_spec (hV : V.Holds c d) {K : Ten α} {k : Nat → Nat → Nat → α}
    (hK : Is3 K V.nelem (V.nne * V.ndim) (V.nne * V.ndim) k) :
    triplets V K = .ok ((it5 V.nelem V.nne V.ndim V.nne V.ndim).map fun x =>
      ⟨d (c x.1 x.2.1) x.2.2.1, d (c x.1 x.2.2.2.1) x.2.2.2.2,
        k x.1 (x.2.1 * V.ndim + x.2.2.1) (x.2.2.2.1 * V.ndim + x.2.2.2.2)⟩) := by
  apply mapRes_ok
  rintro ⟨e, m, i, n, j⟩ hx
  rw [mem_it5] at hx
  obtain ⟨he, hm, hi, hn, hj⟩ := hx
  simp [hV.conn.get he hm, hV.conn.get he hn, hV.dofs.get (hV.conn_lt e m he hm) hi,
    hV.dofs.get (hV.conn_lt e n he hn) hj, hK.get he (elem_idx_lt hm hi) (elem_idx_lt hn hj)]

theorem assemble_spec [AddCommMonoid α] {M : SMatrix α} (hV : M.V.Holds c d) {K : Ten α}
    {k : Nat → Nat → Nat → α} (hK : Is3 K M.V.nelem (M.V.nne * M.V.ndim) (M.V.nne * M.V.ndim) k) :
    M.assemble K = .ok ⟨M.V, ⟨M.V.ndof, M.V.ndof, assembled M.V c d k⟩, true⟩ := by
  rw [assemble, triplets_spec hV hK]
  simp only [Res.ok_bind]
  rw [Mat.setFromTriplets_ok]
  · simp only [Res.ok_bind]
    congr 3
    funext r s
    rw [List.map_map, sum_it5]
    rfl
  · intro t ht
    obtain ⟨⟨e, m, i, n, j⟩, hx, rfl⟩ := List.mem_map.1 ht
    rw [mem_it5] at hx
    obtain ⟨he, hm, hi, hn, hj⟩ := hx
    exact ⟨hV.dofs_lt _ _ (hV.conn_lt e m he hm) hi, hV.dofs_lt _ _ (hV.conn_lt e n he hn) hj⟩

theorem blockTriplets_spec {rows cols : List Nat} {B : Ten α} {b : Nat → Nat → α}
    (hB : Is2 B rows.length cols.length b) :
    blockTriplets rows cols B = .ok ((it2 rows.length cols.length).map fun x =>
      ⟨rows.getD x.1 0, cols.getD x.2 0, b x.1 x.2⟩) := by
  apply mapRes_ok
  rintro ⟨i, j⟩ hx
  rw [mem_it2] at hx
  simp [lget_ok hx.1, lget_ok hx.2, hB.get hx.1 hx.2, List.getD, hx.1, hx.2]

theorem getD_mem {l : List Nat} {i : Nat} (h : i < l.length) : l.getD i 0 ∈ l := by
  simp [List.getD, h, List.getElem_mem]

theorem block_setFromTriplets [AddCommMonoid α] {rows cols : List Nat} {b : Nat → Nat → α}
    {nr nc : Nat} (hr : ∀ r ∈ rows, r < nr) (hc : ∀ s ∈ cols, s < nc) :
    Mat.setFromTriplets nr nc ((it2 rows.length cols.length).map fun x =>
      ⟨rows.getD x.1 0, cols.getD x.2 0, b x.1 x.2⟩) = .ok ⟨nr, nc, blockEntries rows cols b⟩ := by
  rw [Mat.setFromTriplets_ok]
  · congr 2
    funext r s
    rw [List.map_map, sum_it2]
    rfl
  · intro t ht
    obtain ⟨⟨i, j⟩, hx, rfl⟩ := List.mem_map.1 ht
    rw [mem_it2] at hx
    exact ⟨hr _ (getD_mem hx.1), hc _ (getD_mem hx.2)⟩

theorem set_spec [AddCommMonoid α] {M : SMatrix α} {rows cols : List Nat} {B : Ten α}
    {b : Nat → Nat → α} (hB : Is2 B rows.length cols.length b)
    (hr : ∀ r ∈ rows, r < M.V.ndof) (hc : ∀ s ∈ cols, s < M.V.ndof) :
    M.set rows cols B = .ok ⟨M.V, ⟨M.V.ndof, M.V.ndof, blockEntries rows cols b⟩, true⟩ := by
  rw [set, blockTriplets_spec hB]
  simp only [Res.ok_bind]
  rw [block_setFromTriplets hr hc]
  rfl

theorem add_spec [AddCommMonoid α] {M : SMatrix α} {rows cols : List Nat} {B : Ten α}
    {b : Nat → Nat → α} (hB : Is2 B rows.length cols.length b)
    (hr : ∀ r ∈ rows, r < M.V.ndof) (hc : ∀ s ∈ cols, s < M.V.ndof) :
    M.add rows cols B = .ok ⟨M.V, ⟨M.A.nr, M.A.nc, fun r s =>
      M.A.e r s + blockEntries rows cols b r s⟩, true⟩ := by
  rw [add, blockTriplets_spec hB]
  simp only [Res.ok_bind]
  rw [block_setFromTriplets hr hc]
  rfl

theorem todense_spec [Zero α] {M : SMatrix α} (hr : M.A.nr = M.V.ndof) (hc : M.A.nc = M.V.ndof) :
    ∃ y, M.todense = .ok y ∧ Is2 y M.V.ndof M.V.ndof M.A.e := by
  rw [todense, hr, hc]
  exact Vector.gather2 _ _ _ _ _ rfl _ (by simp) (fun _ _ _ _ _ => rfl)

end SMatrix
end GF
