import Verif.Lemmas.Rigid
import Verif.Lemmas.StaticBc

/-! The four sides of a mesh of a rectangle contain all nodes on the boundary of the rectangle: at a node that all
elements see on the far side of a line, the directions of the edges cannot close. -/

namespace GF
open Finset ElemSpec
variable {α : Type} [Field α] [LinearOrder α] [IsStrictOrderedRing α]
variable {nn ne : Nat} {c : Nat → Nat → Nat} {x : Nat → Nat → α} {Lx Ly : α} {O : Outline}

/-- for two directions in the lower half-plane, one counter-clockwise from the other -/
theorem slope_lt {a b c d : α} (hb : b ≤ 0) (hd : d ≤ 0) (h : 0 < a * d - b * c) :
    a / (|a| + |b|) < c / (|c| + |d|) := by
  have h1 : 0 < |a| + |b| := by
    refine lt_of_le_of_ne (by positivity) fun e => ?_
    have e1 := abs_nonneg a
    have e2 := abs_nonneg b
    have a0 : a = 0 := abs_eq_zero.1 (by linarith)
    have b0 : b = 0 := abs_eq_zero.1 (by linarith)
    rw [a0, b0] at h; simp at h
  have h2 : 0 < |c| + |d| := by
    refine lt_of_le_of_ne (by positivity) fun e => ?_
    have e1 := abs_nonneg c
    have e2 := abs_nonneg d
    have a0 : c = 0 := abs_eq_zero.1 (by linarith)
    have b0 : d = 0 := abs_eq_zero.1 (by linarith)
    rw [a0, b0] at h; simp at h
  rw [div_lt_div_iff₀ h1 h2, abs_of_nonpos hb, abs_of_nonpos hd]
  rcases le_total 0 a with ha | ha <;> rcases le_total 0 c with hc | hc
  · rw [abs_of_nonneg ha, abs_of_nonneg hc]; linarith
  · exfalso
    have := mul_nonneg ha (neg_nonneg.2 hd)
    have := mul_nonneg (neg_nonneg.2 hb) (neg_nonneg.2 hc)
    linarith
  · rw [abs_of_nonpos ha, abs_of_nonneg hc]
    have := mul_nonneg (neg_nonneg.2 ha) hc
    linarith
  · rw [abs_of_nonpos ha, abs_of_nonpos hc]; linarith

/-- the node `m` is on one of the four sides -/
def Outline.Has (O : Outline) (m : Nat) : Prop :=
  (∃ i, i < O.nb ∧ O.bottom i = m) ∨ (∃ i, i < O.nr ∧ O.right i = m) ∨ (∃ i, i < O.nt ∧ O.top i = m) ∨ ∃ i, i < O.nl ∧ O.left i = m

/-- `X`, `Y` are the coordinates in a rotated frame. A node that no other node is above is on one of the four sides. -/
theorem RectMesh.highest (hM : RectMesh nn ne c x Lx Ly O) (lx : 0 < Lx) (ly : 0 < Ly) (X Y : Nat → α)
    (hrot : ∀ p q r, (X q - X p) * (Y r - Y p) - (Y q - Y p) * (X r - X p) = turn (x p) (x q) (x r))
    {m : Nat} (hm : m < nn) (hY : ∀ q, q < nn → Y q ≤ Y m) : O.Has m := by
  by_contra hO
  simp only [Outline.Has, not_or, not_exists, not_and] at hO
  obtain ⟨o1, o2, o3, o4⟩ := hO
  let g : Nat → α := fun q => (X q - X m) / (|X q - X m| + |Y q - Y m|)
  let f : Nat → Nat → α := fun p q => (if p = m then g q else 0) - (if q = m then g p else 0)
  have h := hM.perimeter.stokes f (fun p q => by simp only [f]; ring)
  have fz : ∀ p q, p ≠ m → q ≠ m → f p q = 0 := fun p q hp hq => by simp only [f, if_neg hp, if_neg hq, sub_self]
  have z : ∀ {l : Nat} {P : Nat → Nat}, (∀ i, i < l → ¬ P i = m) → pathSum l P f = 0 := fun {l P} hP =>
    sum_eq_zero fun i hi => by rw [mem_range] at hi; exact fz _ _ (hP i (by omega)) (hP (i + 1) (by omega))
  rw [z o1, z o2, z o3, z o4] at h
  have term : ∀ e, e < ne → ∀ a, a < 4 → c e a = m → g (c e ((a + 1) % 4)) < g (c e ((a + 3) % 4)) := by
    intro e he a ha hcm
    have v := hM.valid e
    have key : 0 < turn (x (c e ((a + 3) % 4))) (x (c e a)) (x (c e ((a + 1) % 4))) := by
      obtain ⟨k0, k1, k2, k3⟩ := hM.convex e he
      interval_cases a
      · exact k0
      · exact k1
      · exact k2
      · exact k3
    rw [← hrot, hcm] at key
    refine slope_lt (sub_nonpos.2 (hY _ (v _ he (by omega)))) (sub_nonpos.2 (hY _ (v _ he (by omega)))) ?_
    exact key.trans_eq (by ring)
  have elem : ∀ e, e < ne → ∑ a ∈ range 4, f (c e a) (c e ((a + 1) % 4)) =
      ∑ a ∈ range 4, if c e a = m then g (c e ((a + 1) % 4)) - g (c e ((a + 3) % 4)) else 0 := by
    intro e _
    simp only [sum_range_succ, sum_range_zero, f]
    norm_num
    split_ifs <;> ring
  rw [edgeSum, sum_congr rfl fun e he => elem e (mem_range.1 he)] at h
  obtain ⟨e, a, he, ha, hca⟩ := hM.used lx ly m hm
  have neg : ∀ e ∈ range ne, ∀ a ∈ range 4, (if c e a = m then g (c e ((a + 1) % 4)) - g (c e ((a + 3) % 4)) else 0) ≤ 0 := by
    intro e he a ha
    split
    · next h => exact (sub_neg.2 (term e (mem_range.1 he) a (mem_range.1 ha) h)).le
    · exact le_rfl
  have lt : ∑ e ∈ range ne, ∑ a ∈ range 4, (if c e a = m then g (c e ((a + 1) % 4)) - g (c e ((a + 3) % 4)) else 0) < 0 := by
    refine sum_neg' (fun e he => sum_nonpos (neg e he)) ⟨e, mem_range.2 he, ?_⟩
    refine sum_neg' (neg e (mem_range.2 he)) ⟨a, mem_range.2 ha, ?_⟩
    rw [if_pos hca]
    exact sub_neg.2 (term e he a ha hca)
  rw [h] at lt
  simp at lt

/-- **C103** (sides) the four sides are complete: every node at the bottom, top, left or right of the rectangle is listed -/
theorem RectMesh.side_complete (hM : RectMesh nn ne c x Lx Ly O) (lx : 0 < Lx) (ly : 0 < Ly) {m : Nat} (hm : m < nn) :
    (x m 1 = 0 → ∃ i, i < O.nb ∧ O.bottom i = m) ∧ (x m 1 = Ly → ∃ i, i < O.nt ∧ O.top i = m) ∧
      (x m 0 = 0 → ∃ i, i < O.nl ∧ O.left i = m) ∧ (x m 0 = Lx → ∃ i, i < O.nr ∧ O.right i = m) := by
  obtain ⟨s1, s2, s3, s4⟩ := hM.sizes
  obtain ⟨k1, k2, k3, k4⟩ := hM.corners
  have P := hM.perimeter
  have li : ∀ {i}, i < O.nl → (x (O.left i) 1 = 0 → i = 0) ∧ (x (O.left i) 1 = Ly → i = O.nl - 1) := fun hi =>
    ⟨fun h => inj_of_step hM.left_mono hi s3 (h.trans k3.symm), fun h => inj_of_step hM.left_mono hi (by omega) (h.trans k4.symm)⟩
  have bi : ∀ {i}, i < O.nb → (x (O.bottom i) 0 = 0 → i = 0) ∧ (x (O.bottom i) 0 = Lx → i = O.nb - 1) := fun hi =>
    ⟨fun h => inj_of_step hM.bottom_mono hi s1 (h.trans k1.symm), fun h => inj_of_step hM.bottom_mono hi (by omega) (h.trans k2.symm)⟩
  refine ⟨fun h => ?_, fun h => ?_, fun h => ?_, fun h => ?_⟩
  · rcases hM.highest lx ly (fun m => - x m 0) (fun m => - x m 1) (fun p q r => by simp only [turn]; ring) hm
      (fun q hq => by rw [h]; have := (hM.inside q hq).2.2.1; linarith) with o | ⟨i, hi, rfl⟩ | ⟨i, hi, rfl⟩ | ⟨i, hi, rfl⟩
    · exact o
    · rw [(hM.right i hi).2.2] at h
      obtain rfl := (li (by omega)).1 h
      exact ⟨O.nb - 1, by omega, P.br⟩
    · rw [(hM.top i hi).2.1] at h; exact absurd h ly.ne'
    · obtain rfl := (li hi).1 h
      exact ⟨0, s1, P.bl⟩
  · rcases hM.highest lx ly (fun m => x m 0) (fun m => x m 1) (fun p q r => by simp only [turn]) hm
      (fun q hq => by rw [h]; have := (hM.inside q hq).2.2.2; linarith) with ⟨i, hi, rfl⟩ | ⟨i, hi, rfl⟩ | o | ⟨i, hi, rfl⟩
    · rw [(hM.bottom i hi).2] at h; exact absurd h ly.ne
    · rw [(hM.right i hi).2.2] at h
      obtain rfl := (li (by omega)).2 h
      exact ⟨O.nt - 1, by omega, by rw [P.tr, s4]⟩
    · exact o
    · obtain rfl := (li hi).2 h
      exact ⟨0, by omega, P.tl⟩
  · rcases hM.highest lx ly (fun m => x m 1) (fun m => - x m 0) (fun p q r => by simp only [turn]; ring) hm
      (fun q hq => by rw [h]; have := (hM.inside q hq).1; linarith) with ⟨i, hi, rfl⟩ | ⟨i, hi, rfl⟩ | ⟨i, hi, rfl⟩ | o
    · obtain rfl := (bi hi).1 h
      exact ⟨0, s3, P.bl.symm⟩
    · rw [(hM.right i hi).2.1] at h; exact absurd h lx.ne'
    · rw [(hM.top i hi).2.2] at h
      obtain rfl := (bi (by omega)).1 h
      exact ⟨O.nl - 1, by omega, P.tl.symm⟩
    · exact o
  · rcases hM.highest lx ly (fun m => - x m 1) (fun m => x m 0) (fun p q r => by simp only [turn]; ring) hm
      (fun q hq => by rw [h]; have := (hM.inside q hq).2.1; linarith) with ⟨i, hi, rfl⟩ | o | ⟨i, hi, rfl⟩ | ⟨i, hi, rfl⟩
    · obtain rfl := (bi hi).2 h
      exact ⟨0, by omega, P.br.symm⟩
    · exact o
    · rw [(hM.top i hi).2.2] at h
      obtain rfl := (bi (by omega)).2 h
      exact ⟨O.nr - 1, by omega, by rw [← P.tr, s2]⟩
    · rw [(hM.left i hi).2] at h; exact absurd h lx.ne

end GF
