import Verif.Props.Patch
import Verif.Lemmas.Periodic2d

/-! Fields on a mesh of a rectangle: the integral of the gradient, periodic fields. -/

namespace GF
open Finset ElemSpec Element Element.Quad4
variable {α : Type} [Field α] [LinearOrder α] [IsStrictOrderedRing α]
variable {nn ne : Nat} {c d : Nat → Nat → Nat} {x : Nat → Nat → α} {Lx Ly : α} {O : Outline}

/-- a field that has the same value on both nodes of each periodic pair has the same value on all nodes at equivalent
positions -/
theorem pairs_lattice {nnode n : Nat} {P : Nat → Nat → Nat} {β : Type} (hR : InRect nnode Lx Ly x) (hP : PeriodicPairs nnode Lx Ly x n P)
    {f : Nat → β} (hf : ∀ k, k < n → f (P k 1) = f (P k 0)) {m m' : Nat} (hm : m < nnode) (hm' : m' < nnode)
    (hl : LatticeEq2 Lx Ly (x m) (x m')) : f m = f m' := by
  have rep : ∀ m, m < nnode → ∃ r, r < nnode ∧ f r = f m ∧ x r 0 < Lx ∧ x r 1 < Ly ∧
      ∃ a b : ℤ, x m 0 = x r 0 + a * Lx ∧ x m 1 = x r 1 + b * Ly := by
    have nd : ∀ q, q < nnode → (∀ k, k < n → P k 1 ≠ q) → x q 0 < Lx ∧ x q 1 < Ly := by
      intro q hq hnd
      have := (hP.dependent q hq).not.1 (by rintro ⟨k, hk, e⟩; exact hnd k hk e)
      rw [not_or] at this
      obtain ⟨-, b2, -, b4⟩ := hR.bnd q hq
      exact ⟨lt_of_le_of_ne b2 this.1, lt_of_le_of_ne b4 this.2⟩
    intro m hm
    by_cases hc : ∃ k, k < n ∧ P k 1 = m
    · obtain ⟨k, hk, rfl⟩ := hc
      have hv := hP.valid k 0 hk (by omega)
      obtain ⟨b2, b4⟩ := nd _ hv fun k' hk' => (hP.independent k k' hk hk').symm
      refine ⟨P k 0, hv, (hf k hk).symm, b2, b4, ?_⟩
      obtain ⟨h0, h1⟩ := hP.shift k hk
      obtain ⟨a, ha⟩ : ∃ a : ℤ, x (P k 1) 0 = x (P k 0) 0 + a * Lx := by
        rcases h0 with h0 | h0
        · exact ⟨0, by rw [h0]; simp⟩
        · exact ⟨1, by rw [h0]; simp⟩
      obtain ⟨b, hb⟩ : ∃ a : ℤ, x (P k 1) 1 = x (P k 0) 1 + a * Ly := by
        rcases h1 with h1 | h1
        · exact ⟨0, by rw [h1]; simp⟩
        · exact ⟨1, by rw [h1]; simp⟩
      exact ⟨a, b, ha, hb⟩
    · obtain ⟨b2, b4⟩ := nd m hm fun k hk e => hc ⟨k, hk, e⟩
      exact ⟨m, hm, rfl, b2, b4, 0, 0, by simp, by simp⟩
  obtain ⟨r, hr, fr, r0, r1, a, b, ea, eb⟩ := rep m hm
  obtain ⟨r', hr', fr', r0', r1', a', b', ea', eb'⟩ := rep m' hm'
  obtain ⟨p, q, lp, lq⟩ := hl
  obtain ⟨c0, -, c1, -⟩ := hR.bnd r hr
  obtain ⟨c0', -, c1', -⟩ := hR.bnd r' hr'
  have e0 : x r 0 = x r' 0 := lattice_small c0 r0 c0' r0' (a := a + p - a') (by push_cast; linear_combination lp - ea' + ea)
  have e1 : x r 1 = x r' 1 := lattice_small c1 r1 c1' r1' (a := b + q - b') (by push_cast; linear_combination lq - eb' + eb)
  rw [← fr, ← fr', hR.inj r r' hr hr' e0 e1]

theorem RectMesh.inRect (hM : RectMesh nn ne c x Lx Ly O) (lx : 0 < Lx) (ly : 0 < Ly) : InRect nn Lx Ly x := ⟨lx, ly, hM.inside, hM.distinct⟩

omit [LinearOrder α] [IsStrictOrderedRing α] in
theorem edge_anti (x w : Nat → Nat → α) (i j p q : Nat) :
    edgeNormal x q p i * ((w q j + w p j) / 2) = - (edgeNormal x p q i * ((w p j + w q j) / 2)) := by
  simp only [edgeNormal]
  split <;> ring

/-- divergence theorem: the integral of the gradient is a sum over the boundary -/
theorem div_thm (hM : RectMesh nn ne c x Lx Ly O) {s : α}
    (hp : ∀ e q, e < ne → q < 4 → 0 < det4 (fun m i => x (c e m) i) (s * corner4 q 0) (s * corner4 q 1)) (w : Nat → Nat → α)
    {i : Nat} (hi : i < 2) (j : Nat) :
    ∑ e ∈ range ne, ∑ q ∈ range 4, grad 4 (Gf (D4 fun q i => s * corner4 q i) fun e m i => x (c e m) i) (fun e m j => w (c e m) j) e q i j *
      det4 (fun m i => x (c e m) i) (s * corner4 q 0) (s * corner4 q 1) =
    O.sum fun p q => edgeNormal x p q i * ((w p j + w q j) / 2) := by
  rw [Outline.sum, ← hM.perimeter.stokes _ fun p q => edge_anti x w i j p q, edgeSum]
  refine sum_congr rfl fun e he => ?_
  rw [mem_range] at he
  have h1 : ∀ q ∈ range 4, grad 4 (Gf (D4 fun q i => s * corner4 q i) fun e m i => x (c e m) i) (fun e m j => w (c e m) j) e q i j *
      det4 (fun m i => x (c e m) i) (s * corner4 q 0) (s * corner4 q 1) =
      ∑ m ∈ range 4, Gf (D4 fun q i => s * corner4 q i) (fun e m i => x (c e m) i) e q m i *
        det4 (fun m i => x (c e m) i) (s * corner4 q 0) (s * corner4 q 1) * w (c e m) j := fun q _ => by
    rw [grad, sum_mul]
    exact sum_congr rfl fun m _ => by ring
  rw [sum_congr rfl h1, sum_comm]
  have h2 : ∀ m ∈ range 4, ∑ q ∈ range 4, Gf (D4 fun q i => s * corner4 q i) (fun e m i => x (c e m) i) e q m i *
        det4 (fun m i => x (c e m) i) (s * corner4 q 0) (s * corner4 q 1) * w (c e m) j =
      (edgeNormal (fun m i => x (c e m) i) m ((m + 1) % 4) i + edgeNormal (fun m i => x (c e m) i) ((m + 3) % 4) m i) / 2 * w (c e m) j := fun m hm => by
    rw [← sum_mul, grad_integral (fun e m i => x (c e m) i) s (mem_range.1 hm) hi fun q hq => (hp e q he hq).ne']
  rw [sum_congr rfl h2]
  simp only [sum_range_succ, sum_range_zero, zero_add, edgeNormal]
  norm_num
  split <;> ring

/-- the boundary sum of a periodic field vanishes -/
theorem periodic_sum (hM : RectMesh nn ne c x Lx Ly O) {w : Nat → Nat → α} {j : Nat}
    (hw : ∀ m m', m < nn → m' < nn → LatticeEq2 Lx Ly (x m) (x m') → w m j = w m' j) (i : Nat) :
    O.sum (fun p q => edgeNormal x p q i * ((w p j + w q j) / 2)) = 0 := by
  obtain ⟨z1, z2, z3, z4⟩ := hM.sizes
  have hbt : ∀ i, i < O.nb → w (O.bottom i) j = w (O.top i) j := fun i hi => by
    have b := hM.bottom i hi
    have t := hM.top i (by omega)
    exact hw _ _ b.1 t.1 ⟨0, 1, by rw [t.2.2]; simp, by rw [t.2.1, b.2]; simp⟩
  have hlr : ∀ i, i < O.nl → w (O.left i) j = w (O.right i) j := fun i hi => by
    have b := hM.left i hi
    have t := hM.right i (by omega)
    exact hw _ _ b.1 t.1 ⟨1, 0, by rw [t.2.1, b.2]; simp, by rw [t.2.2]; simp⟩
  have e1 : pathSum O.nb O.bottom (fun p q => edgeNormal x p q i * ((w p j + w q j) / 2)) =
      pathSum O.nt O.top (fun p q => edgeNormal x p q i * ((w p j + w q j) / 2)) := by
    rw [pathSum, pathSum, z2]
    refine sum_congr rfl fun k hk => ?_
    rw [mem_range] at hk
    beta_reduce
    rw [hbt k (by omega), hbt (k + 1) (by omega)]
    congr 1
    simp only [edgeNormal]
    rw [(hM.top k (by omega)).2.1, (hM.top (k + 1) (by omega)).2.1, (hM.bottom k (by omega)).2, (hM.bottom (k + 1) (by omega)).2,
      (hM.top k (by omega)).2.2, (hM.top (k + 1) (by omega)).2.2]
    simp
  have e2 : pathSum O.nl O.left (fun p q => edgeNormal x p q i * ((w p j + w q j) / 2)) =
      pathSum O.nr O.right (fun p q => edgeNormal x p q i * ((w p j + w q j) / 2)) := by
    rw [pathSum, pathSum, z4]
    refine sum_congr rfl fun k hk => ?_
    rw [mem_range] at hk
    beta_reduce
    rw [hlr k (by omega), hlr (k + 1) (by omega)]
    congr 1
    simp only [edgeNormal]
    rw [(hM.right k (by omega)).2.1, (hM.right (k + 1) (by omega)).2.1, (hM.left k (by omega)).2, (hM.left (k + 1) (by omega)).2,
      (hM.right k (by omega)).2.2, (hM.right (k + 1) (by omega)).2.2]
    simp
  rw [Outline.sum, e1, e2]
  ring

/-- the integral of the gradient of a field that is affine up to a periodic field -/
theorem avg_gradient (hM : RectMesh nn ne c x Lx Ly O) (lx : 0 < Lx) (ly : 0 < Ly) {s : α}
    (hp : ∀ e q, e < ne → q < 4 → 0 < det4 (fun m i => x (c e m) i) (s * corner4 q 0) (s * corner4 q 1)) {n : Nat} {P : Nat → Nat → Nat}
    (hP : PeriodicPairs nn Lx Ly x n P) {U A : Nat → Nat → α} {j : Nat} (hj : j < 2)
    (hU : ∀ k, k < n → U (P k 1) j - U (P k 0) j = ∑ l ∈ range 2, (x (P k 1) l - x (P k 0) l) * A j l) {i : Nat} (hi : i < 2) :
    ∑ e ∈ range ne, ∑ q ∈ range 4, grad 4 (Gf (D4 fun q i => s * corner4 q i) fun e m i => x (c e m) i) (fun e m j => U (c e m) j) e q i j *
      det4 (fun m i => x (c e m) i) (s * corner4 q 0) (s * corner4 q 1) = Lx * Ly * A j i := by
  obtain ⟨w, hw⟩ : ∃ w : Nat → Nat → α, ∀ m j, w m j = U m j - ∑ l ∈ range 2, A j l * x m l := ⟨_, fun _ _ => rfl⟩
  have hw0 : ∑ e ∈ range ne, ∑ q ∈ range 4, grad 4 (Gf (D4 fun q i => s * corner4 q i) fun e m i => x (c e m) i) (fun e m j => w (c e m) j) e q i j *
      det4 (fun m i => x (c e m) i) (s * corner4 q 0) (s * corner4 q 1) = 0 := by
    rw [div_thm hM hp w hi j, periodic_sum hM]
    intro m m' hm hm' hl
    refine pairs_lattice (hM.inRect lx ly) hP (f := fun m => w m j) (fun k hk => ?_) hm hm' hl
    have := hU k hk
    beta_reduce
    rw [hw, hw]
    simp only [sum_range_succ, sum_range_zero, zero_add] at this ⊢
    linear_combination this
  have hA : AffineField 2 4 ne (fun e m i => x (c e m) i) (fun e m j => 0 + ∑ l ∈ range 2, A j l * x (c e m) l) A (fun _ => 0) :=
    fun e m j _ _ _ => rfl
  have hs : ∀ e ∈ range ne, ∀ q ∈ range 4, grad 4 (Gf (D4 fun q i => s * corner4 q i) fun e m i => x (c e m) i) (fun e m j => U (c e m) j) e q i j *
      det4 (fun m i => x (c e m) i) (s * corner4 q 0) (s * corner4 q 1) =
      grad 4 (Gf (D4 fun q i => s * corner4 q i) fun e m i => x (c e m) i) (fun e m j => w (c e m) j) e q i j *
      det4 (fun m i => x (c e m) i) (s * corner4 q 0) (s * corner4 q 1) +
      A j i * det4 (fun m i => x (c e m) i) (s * corner4 q 0) (s * corner4 q 1) := by
    intro e he q hq
    rw [mem_range] at he hq
    have ga := grad_affine (Ξ := fun q i => s * corner4 q i) hA he (hp e q he hq).ne' hi hj
    rw [← ga, ← add_mul]
    congr 1
    simp only [grad]
    rw [← sum_add_distrib]
    refine sum_congr rfl fun m _ => ?_
    rw [hw]
    ring
  rw [sum_congr rfl fun e he => sum_congr rfl (hs e he)]
  simp only [sum_add_distrib, ← mul_sum]
  rw [hw0, zero_add, ← C73_area hM, mul_comm]
  congr 1
  exact sum_congr rfl fun e _ => det4_sum _ s

end GF
