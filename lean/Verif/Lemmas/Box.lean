import Verif.Spec.Box
import Verif.Props.ElementHex8
import Verif.Props.Vector
import Mathlib.Tactic.LinearCombination
import Mathlib.Tactic.FieldSimp
import Mathlib.Tactic.Linarith

/-! Box meshes with the eight-node element. -/

namespace GF
open Finset ElemSpec Element Element.Hex8

section
variable {α : Type} [Field α] [CharZero α]

theorem corner8_offset {m a : Nat} (hm : m < 8) (ha : a < 3) : (corner8 m a : α) = 2 * (hexOffset m a : α) - 1 := by
  interval_cases m <;> interval_cases a <;> simp [corner8, corner4, hexOffset] <;> norm_num

/-- sum of the local derivatives of a shape function over the Gauss points -/
theorem D8_gauss_sum (s : α) {m i : Nat} (hm : m < 8) (hi : i < 3) :
    ∑ q ∈ range 8, D8 (fun q i => s * corner8 q i) q m i = corner8 m i := by
  have e0 : ∀ ξ η ζ : α, part3 (N8 m) 0 ξ η ζ = corner8 m 0 * (1 + corner8 m 1 * η) * (1 + corner8 m 2 * ζ) / 8 := fun ξ η ζ => by
    simp only [part3, N8, if_true]; ring
  have e1 : ∀ ξ η ζ : α, part3 (N8 m) 1 ξ η ζ = (1 + corner8 m 0 * ξ) * corner8 m 1 * (1 + corner8 m 2 * ζ) / 8 := fun ξ η ζ => by
    simp only [part3, N8, if_true, if_neg one_ne_zero]; ring
  have e2 : ∀ ξ η ζ : α, part3 (N8 m) 2 ξ η ζ = (1 + corner8 m 0 * ξ) * (1 + corner8 m 1 * η) * corner8 m 2 / 8 := fun ξ η ζ => by
    simp only [part3, N8, if_neg two_ne_zero, if_neg (show (2 : Nat) ≠ 1 by omega)]; ring
  have v : ∀ q, q < 8 → (corner8 q 0 : α) = [-1, 1, 1, -1, -1, 1, 1, -1].getD q 0 ∧ (corner8 q 1 : α) = [-1, -1, 1, 1, -1, -1, 1, 1].getD q 0 ∧
      (corner8 q 2 : α) = [-1, -1, -1, -1, 1, 1, 1, 1].getD q 0 := by
    intro q hq
    interval_cases q <;> simp [corner8, corner4]
  interval_cases i
  · simp only [D8, e0]
    generalize (corner8 m 0 : α) = a, (corner8 m 1 : α) = b, (corner8 m 2 : α) = c
    rw [sum_congr rfl fun q hq => by rw [(v q (mem_range.1 hq)).2.1, (v q (mem_range.1 hq)).2.2]]
    simp only [sum_range_succ, sum_range_zero, List.getD_cons_zero, List.getD_cons_succ]
    ring
  · simp only [D8, e1]
    generalize (corner8 m 0 : α) = a, (corner8 m 1 : α) = b, (corner8 m 2 : α) = c
    rw [sum_congr rfl fun q hq => by rw [(v q (mem_range.1 hq)).1, (v q (mem_range.1 hq)).2.2]]
    simp only [sum_range_succ, sum_range_zero, List.getD_cons_zero, List.getD_cons_succ]
    ring
  · simp only [D8, e2]
    generalize (corner8 m 0 : α) = a, (corner8 m 1 : α) = b, (corner8 m 2 : α) = c
    rw [sum_congr rfl fun q hq => by rw [(v q (mem_range.1 hq)).1, (v q (mem_range.1 hq)).2.1]]
    simp only [sum_range_succ, sum_range_zero, List.getD_cons_zero, List.getD_cons_succ]
    ring

variable {ne nip : Nat} {X : Nat → Nat → Nat → α}

theorem det8_box {c h : Nat → Nat → α} (hX : Boxes ne X c h) {e : Nat} (he : e < ne) (ξ η ζ : α) :
    det8 (X e) ξ η ζ = h e 0 * h e 1 * h e 2 := by
  have hJ := fun {i j} (hi : i < 3) (hj : j < 3) => jac8_box hX he hi hj ξ η ζ
  rw [det8, matDet3]
  simp only [hJ (show 0 < 3 by omega) (show 0 < 3 by omega), hJ (show 0 < 3 by omega) (show 1 < 3 by omega),
    hJ (show 0 < 3 by omega) (show 2 < 3 by omega), hJ (show 1 < 3 by omega) (show 0 < 3 by omega),
    hJ (show 1 < 3 by omega) (show 1 < 3 by omega), hJ (show 1 < 3 by omega) (show 2 < 3 by omega),
    hJ (show 2 < 3 by omega) (show 0 < 3 by omega), hJ (show 2 < 3 by omega) (show 1 < 3 by omega),
    hJ (show 2 < 3 by omega) (show 2 < 3 by omega)]
  simp
  ring

theorem G8_box {c h : Nat → Nat → α} (hX : Boxes ne X c h) (h0 : ∀ e i, e < ne → i < 3 → h e i ≠ 0) (Ξ : Nat → Nat → α)
    {e q m i : Nat} (he : e < ne) (hi : i < 3) : h e i * G8 (D8 Ξ) X e q m i = D8 Ξ q m i := by
  have hJ := fun {i j} (hi : i < 3) (hj : j < 3) => jac8_box hX he hi hj (Ξ q 0) (Ξ q 1) (Ξ q 2)
  have := rowInv_diag (jac8 (X e) (Ξ q 0) (Ξ q 1) (Ξ q 2)) (by
      have := det8_box hX he (Ξ q 0) (Ξ q 1) (Ξ q 2)
      rw [det8] at this
      rw [this]
      simp [h0 e 0 he (by omega), h0 e 1 he (by omega), h0 e 2 he (by omega)])
    (fun a b ha hb hab => by rw [hJ ha hb, if_neg hab]) hi
  rw [hJ hi hi, if_pos rfl] at this
  rw [G8_eq, J8_eq']
  linear_combination D8 Ξ q m i * this

/-- a quarter of the area of the face with normal `i` of a box with half-edges `h` -/
def face (h : Nat → α) (i : Nat) : α := if i = 0 then h 1 * h 2 else if i = 1 then h 0 * h 2 else h 0 * h 1

/-- nodal forces of a constant stress -/
theorem box_force {c h : Nat → Nat → α} (hX : Boxes ne X c h) (h0 : ∀ e i, e < ne → i < 3 → h e i ≠ 0) (s : α) (S : Nat → Nat → α)
    {e m : Nat} (he : e < ne) (hm : m < 8) (j : Nat) :
    ∑ q ∈ range 8, (∑ i ∈ range 3, G8 (D8 fun q i => s * corner8 q i) X e q m i * S i j) *
        (1 * det8 (X e) (s * corner8 q 0) (s * corner8 q 1) (s * corner8 q 2)) =
      ∑ i ∈ range 3, corner8 m i * face (h e) i * S i j := by
  simp only [det8_box hX he, sum_mul]
  rw [sum_comm]
  refine sum_congr rfl fun i hi => ?_
  rw [mem_range] at hi
  rw [← D8_gauss_sum s hm hi, sum_mul, sum_mul]
  refine sum_congr rfl fun q _ => ?_
  rw [← G8_box hX h0 (fun q i => s * corner8 q i) he hi]
  interval_cases i <;> simp [face] <;> ring

end

variable {α : Type} [Field α] [LinearOrder α] [IsStrictOrderedRing α]
variable {nn ne : Nat} {c d : Nat → Nat → Nat} {x : Nat → Nat → α} {g : BoxGrid} {p : Nat → Nat → α}

theorem hexOffset_le1 (m a : Nat) : hexOffset m a ≤ 1 := by
  unfold hexOffset; split_ifs <;> omega

theorem BoxMesh.valid (hM : BoxMesh nn ne c x g p) (e m : Nat) (he : e < ne) (hm : m < 8) : c e m < nn := by
  obtain ⟨i, j, k, hi, hj, hk, rfl⟩ := hM.cell_surj e he
  rw [hM.conn i j k m hi hj hk hm]
  have := hexOffset_le1 m 0
  have := hexOffset_le1 m 1
  have := hexOffset_le1 m 2
  exact hM.node_lt _ _ _ (by omega) (by omega) (by omega)

theorem BoxMesh.mono' (hM : BoxMesh nn ne c x g p) {i j k a : Nat} (hi : i < g.nx) (hj : j < g.ny) (hk : k < g.nz) (ha : a < 3) :
    p a (idx3 i j k a) < p a (idx3 i j k a + 1) := by
  interval_cases a
  · exact (hM.mono i).1 hi
  · exact (hM.mono j).2.1 hj
  · exact (hM.mono k).2.2 hk

/-- the position of the nodes of a cell -/
theorem BoxMesh.pos (hM : BoxMesh nn ne c x g p) {i j k m a : Nat} (hi : i < g.nx) (hj : j < g.ny) (hk : k < g.nz) (hm : m < 8) (ha : a < 3) :
    x (c (g.cell i j k) m) a = p a (idx3 i j k a + hexOffset m a) := by
  have := hexOffset_le1 m 0
  have := hexOffset_le1 m 1
  have := hexOffset_le1 m 2
  rw [hM.conn i j k m hi hj hk hm]
  obtain ⟨h0, h1, h2⟩ := hM.position (i + hexOffset m 0) (j + hexOffset m 1) (k + hexOffset m 2) (by omega) (by omega) (by omega)
  interval_cases a
  · exact h0
  · exact h1
  · exact h2

theorem BoxMesh.boxes (hM : BoxMesh nn ne c x g p) : ∃ cc hh : Nat → Nat → α, Boxes ne (fun e m i => x (c e m) i) cc hh ∧
    (∀ e i, e < ne → i < 3 → 0 < hh e i) ∧ ∀ i j k a, i < g.nx → j < g.ny → k < g.nz → a < 3 →
      hh (g.cell i j k) a = (p a (idx3 i j k a + 1) - p a (idx3 i j k a)) / 2 := by
  have ex : ∀ e, ∃ q : Nat × Nat × Nat, e < ne → q.1 < g.nx ∧ q.2.1 < g.ny ∧ q.2.2 < g.nz ∧ g.cell q.1 q.2.1 q.2.2 = e := by
    intro e
    by_cases he : e < ne
    · obtain ⟨i, j, k, h⟩ := hM.cell_surj e he
      exact ⟨(i, j, k), fun _ => h⟩
    · exact ⟨(0, 0, 0), fun h => absurd h he⟩
  choose I hI using ex
  refine ⟨fun e a => (p a (idx3 (I e).1 (I e).2.1 (I e).2.2 a + 1) + p a (idx3 (I e).1 (I e).2.1 (I e).2.2 a)) / 2,
    fun e a => (p a (idx3 (I e).1 (I e).2.1 (I e).2.2 a + 1) - p a (idx3 (I e).1 (I e).2.1 (I e).2.2 a)) / 2, ?_, ?_, ?_⟩
  · intro e m a he hm ha
    obtain ⟨h1, h2, h3, h4⟩ := hI e he
    have := hM.pos h1 h2 h3 hm ha
    rw [h4] at this
    beta_reduce
    rw [this, corner8_offset hm ha]
    have h01 : hexOffset m a = 0 ∨ hexOffset m a = 1 := by have := hexOffset_le1 m a; omega
    rcases h01 with h | h <;> rw [h] <;> push_cast
    · rw [Nat.add_zero]; ring
    · ring
  · intro e a he ha
    obtain ⟨h1, h2, h3, -⟩ := hI e he
    have := hM.mono' h1 h2 h3 ha
    linarith
  · intro i j k a hi hj hk ha
    obtain ⟨h1, h2, h3, h4⟩ := hI _ (hM.cell_lt i j k hi hj hk)
    obtain ⟨e1, e2, e3⟩ := hM.cell_inj _ _ _ _ _ _ h1 h2 h3 hi hj hk h4
    beta_reduce
    rw [e1, e2, e3]

/-- a sum over all elements is a sum over all cells -/
theorem BoxMesh.sum (hM : BoxMesh nn ne c x g p) (f : Nat → α) :
    ∑ e ∈ range ne, f e = ∑ i ∈ range g.nx, ∑ j ∈ range g.ny, ∑ k ∈ range g.nz, f (g.cell i j k) := by
  rw [sum_congr rfl fun i _ => (sum_product' (range g.ny) (range g.nz) (fun j k => f (g.cell i j k))).symm,
    ← sum_product' (range g.nx) (range g.ny ×ˢ range g.nz) (fun i q => f (g.cell i q.1 q.2))]
  symm
  refine sum_bij (fun q _ => g.cell q.1 q.2.1 q.2.2) ?_ ?_ ?_ fun _ _ => rfl
  · rintro ⟨i, j, k⟩ h
    simp only [mem_product, mem_range] at h
    exact mem_range.2 (hM.cell_lt i j k h.1 h.2.1 h.2.2)
  · rintro ⟨i, j, k⟩ h ⟨i', j', k'⟩ h' e
    simp only [mem_product, mem_range] at h h'
    obtain ⟨e1, e2, e3⟩ := hM.cell_inj _ _ _ _ _ _ h.1 h.2.1 h.2.2 h'.1 h'.2.1 h'.2.2 e
    rw [e1, e2, e3]
  · intro e he
    obtain ⟨i, j, k, hi, hj, hk, rfl⟩ := hM.cell_surj e (mem_range.1 he)
    exact ⟨(i, j, k), by simp [hi, hj, hk], rfl⟩

/-- the calls of `setup3` succeed -/
theorem BoxMesh.setup (hM : BoxMesh nn ne c x g p) (s : α) (σ τ : Sched) {conn dofs : Ten Nat} {coor : Ten α}
    (hc : Is2 conn ne 8 c) (hx : Is2 coor nn 3 x) (hd : Is2 dofs nn 3 d) :
    ∃ V Q, setup3 s σ τ conn dofs coor = .ok (V, Q) ∧ Vector.new conn dofs = .ok V ∧ V.Holds c d ∧ V.nelem = ne ∧ V.nne = 8 ∧ V.nnode = nn ∧ V.ndim = 3 ∧
      NumDofs3 nn d V.ndof ∧
      Live ne 8 (fun q i => s * corner8 q i) (fun _ => 1) Q (fun e m i => x (c e m) i) := by
  obtain ⟨V, h1, h2, h3, h4, h5, hV, h6⟩ := C08_constructor hc hd (Nat.zero_lt_of_lt (hM.node_lt 0 0 0 (by omega) (by omega) (by omega))) (by omega) hM.valid
  obtain ⟨xe, g1, g2⟩ := C03_element_of_node hV σ (x := coor) (g := x) (by rw [h4, h5]; exact hx)
  rw [h2, h3, h5] at g2
  obtain ⟨Q, q1, q2⟩ := newGauss_ok s τ g2
  exact ⟨V, Q, by simp only [setup3, h1, g1, q1, Res.ok_bind]; rfl, h1, hV, h2, h3, h4, h5,
    ⟨fun m i hm hi => hV.dofs_lt m i (by omega) (by omega), h6⟩, q2⟩

end GF
