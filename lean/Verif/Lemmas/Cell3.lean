import Verif.Lemmas.CellWork
import Verif.Lemmas.Periodic3d
import Verif.Props.Statics3
import Verif.Spec.PeriodicCell3

/-! Fields on a mesh of a box: the integral of the gradient, periodic fields, work. -/

namespace GF
open Finset ElemSpec Element Element.Hex8
open Element.Quad4 (ddot power grad)
variable {α : Type} [Field α] [LinearOrder α] [IsStrictOrderedRing α]
variable {nn ne : Nat} {c d : Nat → Nat → Nat} {x : Nat → Nat → α} {g : BoxGrid} {p : Nat → Nat → α}

/-- a field that has the same value on both nodes of each periodic pair has the same value on all nodes at equivalent
positions -/
theorem pairs_lattice3 {nnode n : Nat} {Lx Ly Lz : α} {P : Nat → Nat → Nat} {β : Type} (hR : InBox3 nnode Lx Ly Lz x)
    (hP : PeriodicPairs3 nnode Lx Ly Lz x n P) {f : Nat → β} (hf : ∀ k, k < n → f (P k 1) = f (P k 0)) {m m' : Nat} (hm : m < nnode)
    (hm' : m' < nnode) (hl : LatticeEq3 Lx Ly Lz (x m) (x m')) : f m = f m' := by
  have key : ∀ {u v L : α}, u = v ∨ u = v + L → ∃ a : ℤ, u = v + a * L := by
    intro u v L h
    rcases h with h | h
    · exact ⟨0, by rw [h]; simp⟩
    · exact ⟨1, by rw [h]; simp⟩
  have rep : ∀ m, m < nnode → ∃ r, r < nnode ∧ f r = f m ∧ x r 0 < Lx ∧ x r 1 < Ly ∧ x r 2 < Lz ∧
      ∃ a b c : ℤ, x m 0 = x r 0 + a * Lx ∧ x m 1 = x r 1 + b * Ly ∧ x m 2 = x r 2 + c * Lz := by
    have nd : ∀ q, q < nnode → (∀ k, k < n → P k 1 ≠ q) → x q 0 < Lx ∧ x q 1 < Ly ∧ x q 2 < Lz := by
      intro q hq hnd
      have := (hP.dependent q hq).not.1 (by rintro ⟨k, hk, e⟩; exact hnd k hk e)
      rw [not_or, not_or] at this
      obtain ⟨⟨-, b1⟩, ⟨-, b2⟩, ⟨-, b3⟩⟩ := hR.bnd q hq
      exact ⟨lt_of_le_of_ne b1 this.1, lt_of_le_of_ne b2 this.2.1, lt_of_le_of_ne b3 this.2.2⟩
    intro m hm
    by_cases hc : ∃ k, k < n ∧ P k 1 = m
    · obtain ⟨k, hk, rfl⟩ := hc
      have hv := hP.valid k 0 hk (by omega)
      obtain ⟨b2, b4, b6⟩ := nd _ hv fun k' hk' => (hP.independent k k' hk hk').symm
      obtain ⟨h0, h1, h2⟩ := hP.shift k hk
      obtain ⟨a, ha⟩ := key h0
      obtain ⟨b, hb⟩ := key h1
      obtain ⟨c, hc⟩ := key h2
      exact ⟨P k 0, hv, (hf k hk).symm, b2, b4, b6, a, b, c, ha, hb, hc⟩
    · obtain ⟨b2, b4, b6⟩ := nd m hm fun k hk e => hc ⟨k, hk, e⟩
      exact ⟨m, hm, rfl, b2, b4, b6, 0, 0, 0, by simp, by simp, by simp⟩
  obtain ⟨r, hr, fr, r0, r1, r2, a, b, c, ea, eb, ec⟩ := rep m hm
  obtain ⟨r', hr', fr', r0', r1', r2', a', b', c', ea', eb', ec'⟩ := rep m' hm'
  obtain ⟨p, q, t, lp, lq, lt⟩ := hl
  obtain ⟨⟨c0, -⟩, ⟨c1, -⟩, ⟨c2, -⟩⟩ := hR.bnd r hr
  obtain ⟨⟨c0', -⟩, ⟨c1', -⟩, ⟨c2', -⟩⟩ := hR.bnd r' hr'
  have e0 : x r 0 = x r' 0 := lattice_small c0 r0 c0' r0' (a := a + p - a') (by push_cast; linear_combination lp - ea' + ea)
  have e1 : x r 1 = x r' 1 := lattice_small c1 r1 c1' r1' (a := b + q - b') (by push_cast; linear_combination lq - eb' + eb)
  have e2 : x r 2 = x r' 2 := lattice_small c2 r2 c2' r2' (a := c + t - c') (by push_cast; linear_combination lt - ec' + ec)
  rw [← fr, ← fr', hR.inj r r' hr hr' e0 e1 e2]

omit [Field α] [IsStrictOrderedRing α] in
theorem mono_range {n : Nat} {f : Nat → α} (h : ∀ i, i < n → f i < f (i + 1)) {i j : Nat} (hij : i < j) (hj : j ≤ n) : f i < f j := by
  induction j with
  | zero => omega
  | succ j ih =>
    rcases Nat.lt_or_ge i j with h1 | h1
    · exact (ih h1 (by omega)).trans (h j (by omega))
    · obtain rfl : i = j := by omega
      exact h i (by omega)

omit [Field α] [IsStrictOrderedRing α] in
theorem mono_inj {n : Nat} {f : Nat → α} (h : ∀ i, i < n → f i < f (i + 1)) {i j : Nat} (hi : i ≤ n) (hj : j ≤ n) (e : f i = f j) : i = j := by
  rcases Nat.lt_trichotomy i j with h1 | h1 | h1
  · exact absurd e (mono_range h h1 hj).ne
  · exact h1
  · exact absurd e.symm (mono_range h h1 hi).ne

omit [Field α] [IsStrictOrderedRing α] in
theorem mono_le {n : Nat} {f : Nat → α} (h : ∀ i, i < n → f i < f (i + 1)) {i j : Nat} (hij : i ≤ j) (hj : j ≤ n) : f i ≤ f j := by
  rcases Nat.lt_or_ge i j with h1 | h1
  · exact (mono_range h h1 hj).le
  · obtain rfl : i = j := by omega
    exact le_rfl

theorem BoxMesh.inBox (hM : BoxMesh nn ne c x g p) (p0 : ∀ a, a < 3 → p a 0 = 0) : InBox3 nn (p 0 g.nx) (p 1 g.ny) (p 2 g.nz) x := by
  have m0 := fun i (hi : i < g.nx) => (hM.mono i).1 hi
  have m1 := fun i (hi : i < g.ny) => (hM.mono i).2.1 hi
  have m2 := fun i (hi : i < g.nz) => (hM.mono i).2.2 hi
  constructor
  · intro m hm
    obtain ⟨i, j, k, hi, hj, hk, rfl⟩ := hM.node_surj m hm
    obtain ⟨q0, q1, q2⟩ := hM.position i j k hi hj hk
    rw [q0, q1, q2, ← p0 0 (by omega)]
    refine ⟨⟨mono_le m0 (Nat.zero_le _) hi, mono_le m0 hi le_rfl⟩, ?_, ?_⟩
    · rw [p0 0 (by omega), ← p0 1 (by omega)]
      exact ⟨mono_le m1 (Nat.zero_le _) hj, mono_le m1 hj le_rfl⟩
    · rw [p0 0 (by omega), ← p0 2 (by omega)]
      exact ⟨mono_le m2 (Nat.zero_le _) hk, mono_le m2 hk le_rfl⟩
  · intro m m' hm hm' e0 e1 e2
    obtain ⟨i, j, k, hi, hj, hk, rfl⟩ := hM.node_surj m hm
    obtain ⟨i', j', k', hi', hj', hk', rfl⟩ := hM.node_surj m' hm'
    obtain ⟨q0, q1, q2⟩ := hM.position i j k hi hj hk
    obtain ⟨q0', q1', q2'⟩ := hM.position i' j' k' hi' hj' hk'
    rw [q0, q0'] at e0
    rw [q1, q1'] at e1
    rw [q2, q2'] at e2
    rw [mono_inj m0 hi hi' e0, mono_inj m1 hj hj' e1, mono_inj m2 hk hk' e2]

theorem BoxMesh.length_pos (hM : BoxMesh nn ne c x g p) (p0 : ∀ a, a < 3 → p a 0 = 0) : 0 < p 0 g.nx ∧ 0 < p 1 g.ny ∧ 0 < p 2 g.nz := by
  obtain ⟨s0, s1, s2⟩ := hM.size
  refine ⟨?_, ?_, ?_⟩
  · rw [← p0 0 (by omega)]; exact mono_range (fun i hi => (hM.mono i).1 hi) s0 le_rfl
  · rw [← p0 1 (by omega)]; exact mono_range (fun i hi => (hM.mono i).2.1 hi) s1 le_rfl
  · rw [← p0 2 (by omega)]; exact mono_range (fun i hi => (hM.mono i).2.2 hi) s2 le_rfl

/-- the gradient at the Gauss points -/
abbrev cellGrad3 (s : α) (x : Nat → Nat → α) (c : Nat → Nat → Nat) (U : Nat → Nat → α) : Nat → Nat → Nat → Nat → α :=
  grad 8 (G8 (D8 fun q i => s * corner8 q i) fun e m i => x (c e m) i) fun e m i => U (c e m) i

/-- the volumes of the Gauss points -/
abbrev cellVol3 (s : α) (x : Nat → Nat → α) (c : Nat → Nat → Nat) (e q : Nat) : α :=
  det8 (fun m i => x (c e m) i) (s * corner8 q 0) (s * corner8 q 1) (s * corner8 q 2)

theorem BoxMesh.vol_pos (hM : BoxMesh nn ne c x g p) (s : α) {e q : Nat} (he : e < ne) : 0 < cellVol3 s x c e q := by
  obtain ⟨cc, hh, hB, h0, hl⟩ := hM.boxes
  rw [cellVol3, det8_box hB he]
  exact mul_pos (mul_pos (h0 e 0 he (by omega)) (h0 e 1 he (by omega))) (h0 e 2 he (by omega))

/-- the gradient of an affine field -/
theorem BoxMesh.grad_affine (hM : BoxMesh nn ne c x g p) (s : α) {U A : Nat → Nat → α} {b : Nat → α}
    (hU : ∀ m j, m < nn → j < 3 → U m j = b j + ∑ l ∈ range 3, A j l * x m l) {e q i j : Nat} (he : e < ne) (hi : i < 3) (hj : j < 3) :
    cellGrad3 s x c U e q i j = A j i := by
  obtain ⟨cc, hh, hB, h0, hl⟩ := hM.boxes
  have h1 : cellGrad3 s x c U e q i j * hh e i = part3 (map8 (fun m i => U (c e m) i) j) i (s * corner8 q 0) (s * corner8 q 1) (s * corner8 q 2) := by
    rw [part3_map8, cellGrad3, grad, sum_mul]
    refine sum_congr rfl fun m _ => ?_
    have := G8_box hB (fun e i he hi => (h0 e i he hi).ne') (fun q i => s * corner8 q i) (q := q) (m := m) he hi
    simp only [D8] at this
    rw [← this]
    ring
  rw [part3_affine (X := fun e m i => x (c e m) i) (U := fun e m i => U (c e m) i) (A := A) (b := b) (ne := ne)
    (fun e m j he hm hj => hU _ j (hM.valid e m he hm) hj) he hj,
    sum_congr rfl fun k hk => by rw [jac8_box hB he hi (mem_range.1 hk)], sum_eq_single i] at h1
  · rw [if_pos rfl] at h1
    exact mul_right_cancel₀ (h0 e i he hi).ne' h1
  · intro k _ hk
    rw [if_neg (Ne.symm hk), mul_zero]
  · exact fun h => absurd (mem_range.2 hi) h

/-- the integral of the gradient over one element -/
theorem elem_gradient {cc hh : Nat → Nat → α} (hB : Boxes ne (fun e m i => x (c e m) i) cc hh) (h0 : ∀ e i, e < ne → i < 3 → 0 < hh e i) (s : α)
    (w : Nat → Nat → α) {e i : Nat} (he : e < ne) (hi : i < 3) (j : Nat) :
    ∑ q ∈ range 8, cellGrad3 s x c w e q i j * cellVol3 s x c e q = face (hh e) i * ∑ m ∈ range 8, corner8 m i * w (c e m) j := by
  have h1 : ∀ q ∈ range 8, cellGrad3 s x c w e q i j * cellVol3 s x c e q =
      ∑ m ∈ range 8, G8 (D8 fun q i => s * corner8 q i) (fun e m i => x (c e m) i) e q m i * cellVol3 s x c e q * w (c e m) j := fun q _ => by
    rw [cellGrad3, grad, sum_mul]
    exact sum_congr rfl fun m _ => by ring
  rw [sum_congr rfl h1, sum_comm, mul_sum]
  refine sum_congr rfl fun m hm => ?_
  rw [mem_range] at hm
  have := box_force hB (fun e i he hi => (h0 e i he hi).ne') s (fun a _ => if a = i then 1 else 0) he hm 0
  simp only [mul_ite, mul_one, mul_zero, sum_ite_eq', mem_range, hi, if_true, one_mul] at this
  rw [← sum_mul, this]
  ring

omit [LinearOrder α] [IsStrictOrderedRing α] in
theorem face_diff [CharZero α] (W : Nat → Nat → Nat → α) (i j k : Nat) :
    (∑ m ∈ range 8, corner8 m 0 * W (i + hexOffset m 0) (j + hexOffset m 1) (k + hexOffset m 2) =
      (∑ l ∈ range 4, W (i + 1) (j + l % 2) (k + l / 2)) - ∑ l ∈ range 4, W i (j + l % 2) (k + l / 2)) ∧
    (∑ m ∈ range 8, corner8 m 1 * W (i + hexOffset m 0) (j + hexOffset m 1) (k + hexOffset m 2) =
      (∑ l ∈ range 4, W (i + l % 2) (j + 1) (k + l / 2)) - ∑ l ∈ range 4, W (i + l % 2) j (k + l / 2)) ∧
    (∑ m ∈ range 8, corner8 m 2 * W (i + hexOffset m 0) (j + hexOffset m 1) (k + hexOffset m 2) =
      (∑ l ∈ range 4, W (i + l % 2) (j + l / 2) (k + 1)) - ∑ l ∈ range 4, W (i + l % 2) (j + l / 2) k) := by
  refine ⟨?_, ?_, ?_⟩ <;> simp [sum_range_succ, corner8, corner4, hexOffset] <;> ring

/-- the integral of the gradient of a periodic field vanishes -/
theorem periodic_gradient (hM : BoxMesh nn ne c x g p) (p0 : ∀ a, a < 3 → p a 0 = 0) (s : α) {w : Nat → Nat → α} {j : Nat}
    (hw : ∀ m m', m < nn → m' < nn → LatticeEq3 (p 0 g.nx) (p 1 g.ny) (p 2 g.nz) (x m) (x m') → w m j = w m' j) {i : Nat} (hi : i < 3) :
    ∑ e ∈ range ne, ∑ q ∈ range 8, cellGrad3 s x c w e q i j * cellVol3 s x c e q = 0 := by
  obtain ⟨cc, hh, hB, h0, hl⟩ := hM.boxes
  rw [sum_congr rfl fun e he => elem_gradient hB h0 s w (mem_range.1 he) hi j, hM.sum]
  obtain ⟨W, hW⟩ : ∃ W : Nat → Nat → Nat → α, ∀ i j' k, W i j' k = w (g.node i j' k) j := ⟨_, fun _ _ _ => rfl⟩
  have z0 := p0 0 (by omega)
  have z1 := p0 1 (by omega)
  have z2 := p0 2 (by omega)
  have per0 : ∀ b a, b ≤ g.ny → a ≤ g.nz → W g.nx b a = W 0 b a := by
    intro b a hb ha
    obtain ⟨q0, q1, q2⟩ := hM.position 0 b a (by omega) hb ha
    obtain ⟨r0, r1, r2⟩ := hM.position g.nx b a (by omega) hb ha
    rw [hW, hW]
    refine (hw _ _ (hM.node_lt _ _ _ (by omega) hb ha) (hM.node_lt _ _ _ (by omega) hb ha) ⟨1, 0, 0, ?_, ?_, ?_⟩).symm
    · rw [q0, r0, z0]; simp
    · rw [q1, r1]; simp
    · rw [q2, r2]; simp
  have per1 : ∀ b a, b ≤ g.nx → a ≤ g.nz → W b g.ny a = W b 0 a := by
    intro b a hb ha
    obtain ⟨q0, q1, q2⟩ := hM.position b 0 a hb (by omega) ha
    obtain ⟨r0, r1, r2⟩ := hM.position b g.ny a hb (by omega) ha
    rw [hW, hW]
    refine (hw _ _ (hM.node_lt _ _ _ hb (by omega) ha) (hM.node_lt _ _ _ hb (by omega) ha) ⟨0, 1, 0, ?_, ?_, ?_⟩).symm
    · rw [q0, r0]; simp
    · rw [q1, r1, z1]; simp
    · rw [q2, r2]; simp
  have per2 : ∀ b a, b ≤ g.nx → a ≤ g.ny → W b a g.nz = W b a 0 := by
    intro b a hb ha
    obtain ⟨q0, q1, q2⟩ := hM.position b a 0 hb ha (by omega)
    obtain ⟨r0, r1, r2⟩ := hM.position b a g.nz hb ha (by omega)
    rw [hW, hW]
    refine (hw _ _ (hM.node_lt _ _ _ hb ha (by omega)) (hM.node_lt _ _ _ hb ha (by omega)) ⟨0, 0, 1, ?_, ?_, ?_⟩).symm
    · rw [q0, r0]; simp
    · rw [q1, r1]; simp
    · rw [q2, r2, z2]; simp
  have cell : ∀ i' ∈ range g.nx, ∀ j' ∈ range g.ny, ∀ k ∈ range g.nz, face (hh (g.cell i' j' k)) i *
      ∑ m ∈ range 8, corner8 m i * w (c (g.cell i' j' k) m) j =
      (if i = 0 then ((p 1 (j' + 1) - p 1 j') / 2) * ((p 2 (k + 1) - p 2 k) / 2) else if i = 1 then ((p 0 (i' + 1) - p 0 i') / 2) *
        ((p 2 (k + 1) - p 2 k) / 2) else ((p 0 (i' + 1) - p 0 i') / 2) * ((p 1 (j' + 1) - p 1 j') / 2)) *
      ∑ m ∈ range 8, corner8 m i * W (i' + hexOffset m 0) (j' + hexOffset m 1) (k + hexOffset m 2) := by
    intro i' hi' j' hj' k hk
    rw [mem_range] at hi' hj' hk
    congr 1
    · rw [face, hl i' j' k 0 hi' hj' hk (by omega), hl i' j' k 1 hi' hj' hk (by omega), hl i' j' k 2 hi' hj' hk (by omega)]
      simp only [idx3, if_true, if_neg one_ne_zero, if_neg two_ne_zero, if_neg (show (2 : Nat) ≠ 1 by omega)]
    · exact sum_congr rfl fun m hm => by rw [hM.conn i' j' k m hi' hj' hk (mem_range.1 hm), hW]
  rw [sum_congr rfl fun i' hi' => sum_congr rfl fun j' hj' => sum_congr rfl fun k hk => cell i' hi' j' hj' k hk]
  interval_cases i
  · simp only [if_true]
    rw [sum_comm]
    refine sum_eq_zero fun j' hj' => ?_
    rw [sum_comm]
    refine sum_eq_zero fun k hk => ?_
    rw [mem_range] at hj' hk
    rw [← mul_sum, sum_congr rfl fun i' _ => (face_diff W i' j' k).1, sum_range_sub (fun i' => ∑ l ∈ range 4, W i' (j' + l % 2) (k + l / 2)),
      sum_congr rfl fun l hl => by rw [per0 (j' + l % 2) (k + l / 2) (by omega) (by rw [mem_range] at hl; omega)], sub_self, mul_zero]
  · simp only [if_true, if_neg one_ne_zero]
    refine sum_eq_zero fun i' hi' => ?_
    rw [sum_comm]
    refine sum_eq_zero fun k hk => ?_
    rw [mem_range] at hi' hk
    rw [← mul_sum, sum_congr rfl fun j' _ => (face_diff W i' j' k).2.1, sum_range_sub (fun j' => ∑ l ∈ range 4, W (i' + l % 2) j' (k + l / 2)),
      sum_congr rfl fun l hl => by rw [per1 (i' + l % 2) (k + l / 2) (by omega) (by rw [mem_range] at hl; omega)], sub_self, mul_zero]
  · simp only [if_neg two_ne_zero, if_neg (show (2 : Nat) ≠ 1 by omega)]
    refine sum_eq_zero fun i' hi' => ?_
    refine sum_eq_zero fun j' hj' => ?_
    rw [mem_range] at hi' hj'
    rw [← mul_sum, sum_congr rfl fun k _ => (face_diff W i' j' k).2.2, sum_range_sub (fun k => ∑ l ∈ range 4, W (i' + l % 2) (j' + l / 2) k),
      sum_congr rfl fun l hl => by rw [per2 (i' + l % 2) (j' + l / 2) (by omega) (by rw [mem_range] at hl; omega)], sub_self, mul_zero]

theorem BoxMesh.volume (hM : BoxMesh nn ne c x g p) (s : α) :
    ∑ e ∈ range ne, ∑ q ∈ range 8, cellVol3 s x c e q = (p 0 g.nx - p 0 0) * (p 1 g.ny - p 1 0) * (p 2 g.nz - p 2 0) := by
  obtain ⟨cc, hh, hB, h0, hl⟩ := hM.boxes
  have e1 : ∀ e ∈ range ne, ∑ q ∈ range 8, cellVol3 s x c e q = 8 * (hh e 0 * hh e 1 * hh e 2) := fun e he => by
    rw [mem_range] at he
    rw [sum_congr rfl fun q _ => by rw [cellVol3, det8_box hB he], sum_const, card_range, nsmul_eq_mul]
    norm_num
  rw [sum_congr rfl e1, hM.sum]
  have e2 : ∀ i ∈ range g.nx, ∀ j ∈ range g.ny, ∀ k ∈ range g.nz,
      8 * (hh (g.cell i j k) 0 * hh (g.cell i j k) 1 * hh (g.cell i j k) 2) =
        (p 0 (i + 1) - p 0 i) * ((p 1 (j + 1) - p 1 j) * (p 2 (k + 1) - p 2 k)) := by
    intro i hi j hj k hk
    rw [mem_range] at hi hj hk
    rw [hl i j k 0 hi hj hk (by omega), hl i j k 1 hi hj hk (by omega), hl i j k 2 hi hj hk (by omega)]
    simp only [idx3, if_true, if_neg one_ne_zero, if_neg two_ne_zero, if_neg (show (2 : Nat) ≠ 1 by omega)]
    ring
  rw [sum_congr rfl fun i hi => sum_congr rfl fun j hj => sum_congr rfl fun k hk => e2 i hi j hj k hk]
  simp only [← mul_sum, ← sum_mul, sum_range_sub]
  ring

/-- the integral of the gradient of a field that is affine up to a periodic field -/
theorem avg_gradient3 (hM : BoxMesh nn ne c x g p) (p0 : ∀ a, a < 3 → p a 0 = 0) (s : α) {n : Nat} {P : Nat → Nat → Nat}
    (hP : PeriodicPairs3 nn (p 0 g.nx) (p 1 g.ny) (p 2 g.nz) x n P) {U A : Nat → Nat → α} {j : Nat} (hj : j < 3)
    (hU : ∀ k, k < n → U (P k 1) j - U (P k 0) j = ∑ l ∈ range 3, (x (P k 1) l - x (P k 0) l) * A j l) {i : Nat} (hi : i < 3) :
    ∑ e ∈ range ne, ∑ q ∈ range 8, cellGrad3 s x c U e q i j * cellVol3 s x c e q = p 0 g.nx * p 1 g.ny * p 2 g.nz * A j i := by
  obtain ⟨w, hw⟩ : ∃ w : Nat → Nat → α, ∀ m j, w m j = U m j - ∑ l ∈ range 3, A j l * x m l := ⟨_, fun _ _ => rfl⟩
  have hw0 : ∑ e ∈ range ne, ∑ q ∈ range 8, cellGrad3 s x c w e q i j * cellVol3 s x c e q = 0 := by
    refine periodic_gradient hM p0 s (fun m m' hm hm' hl => ?_) hi
    refine pairs_lattice3 (hM.inBox p0) hP (f := fun m => w m j) (fun k hk => ?_) hm hm' hl
    have := hU k hk
    beta_reduce
    rw [hw, hw]
    simp only [sum_range_succ, sum_range_zero, zero_add] at this ⊢
    linear_combination this
  have hs : ∀ e ∈ range ne, ∀ q ∈ range 8, cellGrad3 s x c U e q i j * cellVol3 s x c e q =
      cellGrad3 s x c w e q i j * cellVol3 s x c e q + A j i * cellVol3 s x c e q := by
    intro e he q hq
    rw [mem_range] at he hq
    have ga := hM.grad_affine s (U := fun m j => 0 + ∑ l ∈ range 3, A j l * x m l) (A := A) (b := fun _ => 0) (fun _ _ _ _ => rfl) (q := q) he hi hj
    rw [← ga, ← add_mul]
    congr 1
    simp only [cellGrad3, grad]
    rw [← sum_add_distrib]
    refine sum_congr rfl fun m _ => ?_
    rw [hw]
    ring
  rw [sum_congr rfl fun e he => sum_congr rfl (hs e he)]
  simp only [sum_add_distrib, ← mul_sum]
  rw [hw0, hM.volume, p0 0 (by omega), p0 1 (by omega), p0 2 (by omega)]
  ring

omit [LinearOrder α] [IsStrictOrderedRing α] in
/-- the work of the assembled stiffness is the work of the stress `C : grad f` -/
theorem bilinear3 {nip : Nat} {V : Vector} (hV : V.Holds c d) (e1 : V.nne = 8) (e2 : V.ndim = 3) {C k} {vol : Nat → Nat → α} {G : Nat → Nat → Nat → Nat → α}
    (hk : ∀ e m j n l, e < V.nelem → m < 8 → n < 8 → j < 3 → l < 3 → k e (m * 3 + j) (n * 3 + l) = Kf 3 nip G C vol e m j n l) (f v : Nat → α) :
    ∑ r ∈ range V.ndof, (∑ s ∈ range V.ndof, SMatrix.assembled V c d k r s * f s) * v r =
      ∑ e ∈ range V.nelem, ∑ q ∈ range nip, power 3 (ddot 3 (C e q) (grad 8 G (fun e m i => f (d (c e m) i)) e q))
        (grad 8 G (fun e m i => v (d (c e m) i)) e q) * vol e q := by
  rw [sum_congr rfl fun r _ => by rw [assembled_mul hV k f r], dual_sum hV]
  refine sum_congr rfl fun e he => ?_
  rw [mem_range] at he
  rw [e1, e2]
  have := virtual_work (nne := 8) (nd := 3) (nip := nip) (G := G)
    (S := fun e q => ddot 3 (C e q) (grad 8 G (fun e m i => f (d (c e m) i)) e q)) (V := vol) (U := fun e m i => v (d (c e m) i)) e
  simp only [power]
  rw [← this]
  refine sum_congr rfl fun m hm => sum_congr rfl fun j hj => ?_
  rw [mem_range] at hm hj
  congr 1
  rw [sum_congr rfl fun n hn => sum_congr rfl fun l hl => by rw [hk e m j n l he hm (mem_range.1 hn) hj (mem_range.1 hl)]]
  exact (stiff_linear (nne := 8) (nd := 3) (nip := nip) (G := G) (C := C) (V := vol) (U := fun e m i => f (d (c e m) i)) e m j).symm

/-- zero work of an elastic material means a rigid motion -/
theorem zero_work3 (hM : BoxMesh nn ne c x g p) {s : α} (s0 : s ≠ 0) {C : Nat → Nat → Nat → Nat → Nat → Nat → α}
    (hE : ∀ e q, e < ne → q < 8 → Elastic3 (C e q)) (U : Nat → Nat → α)
    (z : virtualWork3 ne (cellVol3 s x c) (fun e q => ddot 3 (C e q) (cellGrad3 s x c U e q)) (cellGrad3 s x c U) = 0) :
    ∃ θ b : Nat → α, ∀ m, m < nn → U m 0 = b 0 + (θ 1 * x m 2 - θ 2 * x m 1) ∧ U m 1 = b 1 + (θ 2 * x m 0 - θ 0 * x m 2) ∧
      U m 2 = b 2 + (θ 0 * x m 1 - θ 1 * x m 0) := by
  obtain ⟨cc, hh, hB, h0, hl⟩ := hM.boxes
  have hv : ∀ e q, e < ne → q < 8 → 0 < cellVol3 s x c e q := fun e q he _ => hM.vol_pos s he
  have nn0 : ∀ e ∈ range ne, ∀ q ∈ range 8, 0 ≤ power 3 (ddot 3 (C e q) (cellGrad3 s x c U e q)) (cellGrad3 s x c U e q) * cellVol3 s x c e q :=
    fun e he q hq => by
      rw [mem_range] at he hq
      exact mul_nonneg ((hE e q he hq).nonneg _) (hv e q he hq).le
  rw [virtualWork3, sum_eq_zero_iff_of_nonneg fun e he => sum_nonneg (nn0 e he)] at z
  have key := hM.rigid hl (d := fun m i => m * 3 + i) (f := fun k => U (k / 3) (k % 3)) fun e he => by
    have h1 := z e (mem_range.2 he)
    rw [sum_eq_zero_iff_of_nonneg (nn0 e (mem_range.2 he))] at h1
    refine box_rigid (fun i hi => (h0 e i he hi).ne') s0 fun ξ η ζ hξ hη hζ i j hi hj => ?_
    obtain ⟨q, hq, rfl, rfl, rfl⟩ := gauss_sign hξ hη hζ
    have := (hE e q he hq).pos _ ((mul_eq_zero.1 (h1 q (mem_range.2 hq))).resolve_right (hv e q he hq).ne') i j hi hj
    have g3 : ∀ i j, i < 3 → j < 3 → part3 (map8 (fun m a => U ((c e m * 3 + a) / 3) ((c e m * 3 + a) % 3)) j) i (s * corner8 q 0) (s * corner8 q 1)
        (s * corner8 q 2) = hh e i * cellGrad3 s x c U e q i j := by
      intro i j hi hj
      rw [part3_map8, cellGrad3, grad, mul_sum]
      refine sum_congr rfl fun m _ => ?_
      have := G8_box hB (fun e i he hi => (h0 e i he hi).ne') (fun q i => s * corner8 q i) (q := q) (m := m) he hi
      simp only [D8] at this
      rw [← this, show (c e m * 3 + j) / 3 = c e m by omega, show (c e m * 3 + j) % 3 = j by omega]
      ring
    beta_reduce
    rw [g3 i j hi hj, g3 j i hj hi]
    linear_combination hh e i * hh e j * this
  obtain ⟨θ, b, hR⟩ := key
  refine ⟨θ, b, fun m hm => ?_⟩
  have := hR m hm
  beta_reduce at this
  rw [show (m * 3 + 0) / 3 = m by omega, show (m * 3 + 1) / 3 = m by omega, show (m * 3 + 2) / 3 = m by omega,
    show (m * 3 + 0) % 3 = 0 by omega, show (m * 3 + 1) % 3 = 1 by omega, show (m * 3 + 2) % 3 = 2 by omega] at this
  exact this

/-- a rigid motion that is periodic and keeps one node in place is zero -/
theorem periodic_rigid3 (hM : BoxMesh nn ne c x g p) (p0 : ∀ a, a < 3 → p a 0 = 0) {n : Nat} {P : Nat → Nat → Nat}
    (hP : PeriodicPairs3 nn (p 0 g.nx) (p 1 g.ny) (p 2 g.nz) x n P)
    {U : Nat → Nat → α} (hU : ∀ k j, k < n → j < 3 → U (P k 1) j = U (P k 0) j) {θ b : Nat → α}
    (hR : ∀ m, m < nn → U m 0 = b 0 + (θ 1 * x m 2 - θ 2 * x m 1) ∧ U m 1 = b 1 + (θ 2 * x m 0 - θ 0 * x m 2) ∧
      U m 2 = b 2 + (θ 0 * x m 1 - θ 1 * x m 0)) {o : Nat} (ho : o < nn) (h0 : ∀ i, i < 3 → U o i = 0) :
    ∀ m i, m < nn → i < 3 → U m i = 0 := by
  obtain ⟨l0, l1, l2⟩ := hM.length_pos p0
  have z0 := p0 0 (by omega)
  have z1 := p0 1 (by omega)
  have z2 := p0 2 (by omega)
  have lat : ∀ m m' j, m < nn → m' < nn → j < 3 → LatticeEq3 (p 0 g.nx) (p 1 g.ny) (p 2 g.nz) (x m) (x m') → U m j = U m' j :=
    fun m m' j hm hm' hj hl => pairs_lattice3 (hM.inBox p0) hP (f := fun m => U m j) (fun k hk => hU k j hk hj) hm hm' hl
  have n0 := hM.node_lt 0 0 0 (by omega) (by omega) (by omega)
  obtain ⟨a0, a1, a2⟩ := hM.position 0 0 0 (by omega) (by omega) (by omega)
  rw [z0] at a0
  rw [z1] at a1
  rw [z2] at a2
  -- translation along x: no rotation about y and z
  have nx := hM.node_lt g.nx 0 0 (by omega) (by omega) (by omega)
  obtain ⟨b0, b1, b2⟩ := hM.position g.nx 0 0 (by omega) (by omega) (by omega)
  have ex : LatticeEq3 (p 0 g.nx) (p 1 g.ny) (p 2 g.nz) (x (g.node 0 0 0)) (x (g.node g.nx 0 0)) :=
    ⟨1, 0, 0, by rw [a0, b0]; simp, by rw [a1, b1, z1]; simp, by rw [a2, b2, z2]; simp⟩
  have ny := hM.node_lt 0 g.ny 0 (by omega) (by omega) (by omega)
  obtain ⟨c0, c1, c2⟩ := hM.position 0 g.ny 0 (by omega) (by omega) (by omega)
  have ey : LatticeEq3 (p 0 g.nx) (p 1 g.ny) (p 2 g.nz) (x (g.node 0 0 0)) (x (g.node 0 g.ny 0)) :=
    ⟨0, 1, 0, by rw [a0, c0, z0]; simp, by rw [a1, c1]; simp, by rw [a2, c2, z2]; simp⟩
  have t2 : θ 2 = 0 := by
    have := lat _ _ 1 n0 nx (by omega) ex
    rw [(hR _ n0).2.1, (hR _ nx).2.1, a0, a2, b0, b2, z2] at this
    have e : θ 2 * p 0 g.nx = 0 := by linear_combination -this
    exact (mul_eq_zero.1 e).resolve_right l0.ne'
  have t1 : θ 1 = 0 := by
    have := lat _ _ 2 n0 nx (by omega) ex
    rw [(hR _ n0).2.2, (hR _ nx).2.2, a0, a1, b0, b1, z1] at this
    have e : θ 1 * p 0 g.nx = 0 := by linear_combination this
    exact (mul_eq_zero.1 e).resolve_right l0.ne'
  have t0 : θ 0 = 0 := by
    have := lat _ _ 2 n0 ny (by omega) ey
    rw [(hR _ n0).2.2, (hR _ ny).2.2, a0, a1, c0, c1, z0] at this
    have e : θ 0 * p 1 g.ny = 0 := by linear_combination -this
    exact (mul_eq_zero.1 e).resolve_right l1.ne'
  obtain ⟨r0, r1, r2⟩ := hR o ho
  rw [h0 0 (by omega), t1, t2] at r0
  rw [h0 1 (by omega), t0, t2] at r1
  rw [h0 2 (by omega), t0, t1] at r2
  intro m i hm hi
  obtain ⟨q0, q1, q2⟩ := hR m hm
  interval_cases i
  · rw [q0, t1, t2]; linear_combination -r0
  · rw [q1, t0, t2]; linear_combination -r1
  · rw [q2, t0, t1]; linear_combination -r2

/-- the quadrature object for the elements of a mesh, also if there are more nodes than those of the mesh -/
theorem BoxMesh.quad (hM : BoxMesh nn ne c x g p) (s : α) (σ τ : Sched) {V : Vector} (hV : V.Holds c d) (h2 : V.nelem = ne) (h3 : V.nne = 8)
    (h5 : V.ndim = 3) {coor : Ten α} {y : Nat → Nat → α} (hy : Is2 coor V.nnode 3 y) (hyx : ∀ m i, m < nn → i < 3 → y m i = x m i) :
    ∃ xe Q, V.AsElement σ coor = .ok xe ∧ newGauss s τ xe = .ok Q ∧
      Live ne 8 (fun q i => s * corner8 q i) (fun _ => 1) Q (fun e m i => x (c e m) i) := by
  obtain ⟨xe, g1, g2⟩ := C03_element_of_node hV σ (x := coor) (g := y) (by rw [h5]; exact hy)
  rw [h2, h3, h5] at g2
  obtain ⟨Q, q1, q2⟩ := newGauss_ok s τ (g2.congr (g := fun e m i => x (c e m) i) fun e m i he hm hi => (hyx _ _ (hM.valid e m he hm) hi))
  exact ⟨xe, Q, g1, q1, q2⟩

end GF
