import Verif.Lemmas.Box
import Verif.Lemmas.Rigid
import Mathlib.Tactic.IntervalCases

/-! Displacements of a box mesh without strain at the Gauss points. -/

namespace GF
open Finset ElemSpec Element Element.Hex8

section
variable {α : Type} [Field α] [CharZero α]

theorem part8_0 (U : Nat → Nat → α) (j : Nat) (ξ η ζ : α) : part3 (map8 U j) 0 ξ η ζ =
    ((U 1 j - U 0 j) * (1 - η) * (1 - ζ) + (U 2 j - U 3 j) * (1 + η) * (1 - ζ) + (U 5 j - U 4 j) * (1 - η) * (1 + ζ) +
      (U 6 j - U 7 j) * (1 + η) * (1 + ζ)) / 8 := by
  simp [part3, map8, N8, sum_range_succ, corner8, corner4]
  ring

theorem part8_1 (U : Nat → Nat → α) (j : Nat) (ξ η ζ : α) : part3 (map8 U j) 1 ξ η ζ =
    ((U 3 j - U 0 j) * (1 - ξ) * (1 - ζ) + (U 2 j - U 1 j) * (1 + ξ) * (1 - ζ) + (U 7 j - U 4 j) * (1 - ξ) * (1 + ζ) +
      (U 6 j - U 5 j) * (1 + ξ) * (1 + ζ)) / 8 := by
  simp [part3, map8, N8, sum_range_succ, corner8, corner4]
  ring

theorem part8_2 (U : Nat → Nat → α) (j : Nat) (ξ η ζ : α) : part3 (map8 U j) 2 ξ η ζ =
    ((U 4 j - U 0 j) * (1 - ξ) * (1 - η) + (U 5 j - U 1 j) * (1 + ξ) * (1 - η) + (U 7 j - U 3 j) * (1 - ξ) * (1 + η) +
      (U 6 j - U 2 j) * (1 + ξ) * (1 + η)) / 8 := by
  simp [part3, map8, N8, sum_range_succ, corner8, corner4]
  ring

/-- an affine function that vanishes at `± s` -/
theorem two_zero {s p q : α} (hs : s ≠ 0) (h1 : p * (1 - s) + q * (1 + s) = 0) (h2 : p * (1 - -s) + q * (1 + -s) = 0) : p = 0 ∧ q = 0 := by
  have e1 : p + q = 0 := by linear_combination (h1 + h2) / 2
  have e2 : s * (q - p) = 0 := by linear_combination (h1 - h2) / 2
  have e3 := (mul_eq_zero.1 e2).resolve_left hs
  exact ⟨by linear_combination (e1 - e3) / 2, by linear_combination (e1 + e3) / 2⟩

/-- a bilinear function that vanishes at the four points `(± s, ± s)` -/
theorem four_zero {s a b c d : α} (hs : s ≠ 0)
    (h : ∀ ξ η, (ξ = s ∨ ξ = -s) → (η = s ∨ η = -s) →
      a * (1 - ξ) * (1 - η) + b * (1 + ξ) * (1 - η) + c * (1 - ξ) * (1 + η) + d * (1 + ξ) * (1 + η) = 0) :
    a = 0 ∧ b = 0 ∧ c = 0 ∧ d = 0 := by
  have h1 : ∀ ξ, (ξ = s ∨ ξ = -s) → a * (1 - ξ) + b * (1 + ξ) = 0 ∧ c * (1 - ξ) + d * (1 + ξ) = 0 := fun ξ hξ =>
    two_zero hs (by linear_combination h ξ s hξ (Or.inl rfl)) (by linear_combination h ξ (-s) hξ (Or.inr rfl))
  obtain ⟨a1, a2⟩ := h1 s (Or.inl rfl)
  obtain ⟨b1, b2⟩ := h1 (-s) (Or.inr rfl)
  obtain ⟨e1, e2⟩ := two_zero hs a1 b1
  obtain ⟨e3, e4⟩ := two_zero hs a2 b2
  exact ⟨e1, e2, e3, e4⟩

/-- the conditions on the nodal displacements of one box -/
structure BoxRigid (h : Nat → α) (U : Nat → Nat → α) : Prop where
  x : U 1 0 = U 0 0 ∧ U 2 0 = U 3 0 ∧ U 5 0 = U 4 0 ∧ U 6 0 = U 7 0
  y : U 3 1 = U 0 1 ∧ U 2 1 = U 1 1 ∧ U 7 1 = U 4 1 ∧ U 6 1 = U 5 1
  z : U 4 2 = U 0 2 ∧ U 5 2 = U 1 2 ∧ U 7 2 = U 3 2 ∧ U 6 2 = U 2 2
  xy : h 1 * (U 1 1 - U 0 1) + h 0 * (U 3 0 - U 0 0) = 0
  xz : h 2 * (U 1 2 - U 0 2) + h 0 * (U 4 0 - U 0 0) = 0
  yz : h 2 * (U 3 2 - U 0 2) + h 1 * (U 4 1 - U 0 1) = 0
  m0 : U 7 0 - U 4 0 = U 3 0 - U 0 0
  m1 : U 5 1 - U 4 1 = U 1 1 - U 0 1
  m2 : U 2 2 - U 1 2 = U 3 2 - U 0 2

theorem box_rigid {h : Nat → α} (h0 : ∀ i, i < 3 → h i ≠ 0) {U : Nat → Nat → α} {s : α} (hs : s ≠ 0)
    (hz : ∀ ξ η ζ, (ξ = s ∨ ξ = -s) → (η = s ∨ η = -s) → (ζ = s ∨ ζ = -s) → ∀ i j, i < 3 → j < 3 →
      h j * part3 (map8 U j) i ξ η ζ + h i * part3 (map8 U i) j ξ η ζ = 0) : BoxRigid h U := by
  have hp : s = s ∨ s = -s := Or.inl rfl
  have hm : -s = s ∨ -s = -s := Or.inr rfl
  have x1 := four_zero (s := s) (a := U 1 0 - U 0 0) (b := U 2 0 - U 3 0) (c := U 5 0 - U 4 0) (d := U 6 0 - U 7 0) hs (fun η ζ hη hζ => by
    have := hz s η ζ hp hη hζ 0 0 (by omega) (by omega)
    rw [part8_0] at this
    have k : h 0 * ((U 1 0 - U 0 0) * (1 - η) * (1 - ζ) + (U 2 0 - U 3 0) * (1 + η) * (1 - ζ) + (U 5 0 - U 4 0) * (1 - η) * (1 + ζ) +
      (U 6 0 - U 7 0) * (1 + η) * (1 + ζ)) = 0 := by linear_combination 4 * this
    exact (mul_eq_zero.1 k).resolve_left (h0 0 (by omega)))
  have y1 := four_zero (s := s) (a := U 3 1 - U 0 1) (b := U 2 1 - U 1 1) (c := U 7 1 - U 4 1) (d := U 6 1 - U 5 1) hs (fun ξ ζ hξ hζ => by
    have := hz ξ s ζ hξ hp hζ 1 1 (by omega) (by omega)
    rw [part8_1] at this
    have k : h 1 * ((U 3 1 - U 0 1) * (1 - ξ) * (1 - ζ) + (U 2 1 - U 1 1) * (1 + ξ) * (1 - ζ) + (U 7 1 - U 4 1) * (1 - ξ) * (1 + ζ) +
      (U 6 1 - U 5 1) * (1 + ξ) * (1 + ζ)) = 0 := by linear_combination 4 * this
    exact (mul_eq_zero.1 k).resolve_left (h0 1 (by omega)))
  have z1 := four_zero (s := s) (a := U 4 2 - U 0 2) (b := U 5 2 - U 1 2) (c := U 7 2 - U 3 2) (d := U 6 2 - U 2 2) hs (fun ξ η hξ hη => by
    have := hz ξ η s hξ hη hp 2 2 (by omega) (by omega)
    rw [part8_2] at this
    have k : h 2 * ((U 4 2 - U 0 2) * (1 - ξ) * (1 - η) + (U 5 2 - U 1 2) * (1 + ξ) * (1 - η) + (U 7 2 - U 3 2) * (1 - ξ) * (1 + η) +
      (U 6 2 - U 2 2) * (1 + ξ) * (1 + η)) = 0 := by linear_combination 4 * this
    exact (mul_eq_zero.1 k).resolve_left (h0 2 (by omega)))
  obtain ⟨xa, xb, xc, xd⟩ := x1
  obtain ⟨ya, yb, yc, yd⟩ := y1
  obtain ⟨za, zb, zc, zd⟩ := z1
  rw [sub_eq_zero] at xa xb xc xd ya yb yc yd za zb zc zd
  have k01 : ∀ ζ, (ζ = s ∨ ζ = -s) → (h 1 * (U 1 1 - U 0 1) + h 0 * (U 3 0 - U 0 0)) * (1 - ζ) +
      (h 1 * (U 5 1 - U 4 1) + h 0 * (U 7 0 - U 4 0)) * (1 + ζ) = 0 := fun ζ hζ => by
    have := hz s s ζ hp hp hζ 0 1 (by omega) (by omega)
    rw [part8_0, part8_1, xa, xb, xc, xd, ya, yb, yc, yd] at this
    linear_combination 4 * this
  have k02 : ∀ η, (η = s ∨ η = -s) → (h 2 * (U 1 2 - U 0 2) + h 0 * (U 4 0 - U 0 0)) * (1 - η) +
      (h 2 * (U 2 2 - U 3 2) + h 0 * (U 7 0 - U 3 0)) * (1 + η) = 0 := fun η hη => by
    have := hz s η s hp hη hp 0 2 (by omega) (by omega)
    rw [part8_0, part8_2, xa, xb, xc, xd, za, zb, zc, zd] at this
    linear_combination 4 * this
  have k12 : ∀ ξ, (ξ = s ∨ ξ = -s) → (h 2 * (U 3 2 - U 0 2) + h 1 * (U 4 1 - U 0 1)) * (1 - ξ) +
      (h 2 * (U 2 2 - U 1 2) + h 1 * (U 5 1 - U 1 1)) * (1 + ξ) = 0 := fun ξ hξ => by
    have := hz ξ s s hξ hp hp 1 2 (by omega) (by omega)
    rw [part8_1, part8_2, ya, yb, yc, yd, za, zb, zc, zd] at this
    linear_combination 4 * this
  obtain ⟨a1, a2⟩ := two_zero hs (k01 s hp) (k01 (-s) hm)
  obtain ⟨b1, b2⟩ := two_zero hs (k02 s hp) (k02 (-s) hm)
  obtain ⟨c1, c2⟩ := two_zero hs (k12 s hp) (k12 (-s) hm)
  have n0 : h 0 * (U 7 0 - U 4 0 - (U 3 0 - U 0 0)) = 0 := by linear_combination (a2 - a1 + (b2 - b1) - (c2 - c1)) / 2
  have n1 : h 1 * (U 5 1 - U 4 1 - (U 1 1 - U 0 1)) = 0 := by linear_combination (a2 - a1 - (b2 - b1) + (c2 - c1)) / 2
  have n2 : h 2 * (U 2 2 - U 1 2 - (U 3 2 - U 0 2)) = 0 := by linear_combination (- (a2 - a1) + (b2 - b1) + (c2 - c1)) / 2
  exact ⟨⟨xa, xb, xc, xd⟩, ⟨ya, yb, yc, yd⟩, ⟨za, zb, zc, zd⟩, a1, b1, c1,
    sub_eq_zero.1 ((mul_eq_zero.1 n0).resolve_left (h0 0 (by omega))), sub_eq_zero.1 ((mul_eq_zero.1 n1).resolve_left (h0 1 (by omega))),
    sub_eq_zero.1 ((mul_eq_zero.1 n2).resolve_left (h0 2 (by omega)))⟩

/-- the rotation about one axis -/
theorem rot {nx ny nz : Nat} (h1 : 0 < nx) (h2 : 0 < ny) {a b : Nat → Nat → α} {x y : Nat → α} (x0 : ∀ i, i < nx → x (i + 1) - x i ≠ 0)
    (y0 : ∀ i, i < ny → y (i + 1) - y i ≠ 0)
    (e : ∀ i j, i < nx → j < ny → (y (j + 1) - y j) * (a (i + 1) 0 - a i 0) + (x (i + 1) - x i) * (b (j + 1) 0 - b j 0) = 0)
    (ma : ∀ i k, i < nx → k < nz → a (i + 1) (k + 1) - a i (k + 1) = a (i + 1) k - a i k)
    (mb : ∀ i k, i < ny → k < nz → b (i + 1) (k + 1) - b i (k + 1) = b (i + 1) k - b i k) :
    ∃ θ, (∀ i k, i ≤ nx → k ≤ nz → a i k = a 0 k + θ * (x i - x 0)) ∧ ∀ j k, j ≤ ny → k ≤ nz → b j k = b 0 k - θ * (y j - y 0) := by
  obtain ⟨θ, hθ⟩ : ∃ θ, a 1 0 - a 0 0 = θ * (x 1 - x 0) := ⟨(a 1 0 - a 0 0) / (x 1 - x 0), (div_mul_cancel₀ _ (x0 0 h1)).symm⟩
  have db : ∀ j, j < ny → b (j + 1) 0 - b j 0 = - (θ * (y (j + 1) - y j)) := fun j hj => by
    have := e 0 j h1 hj
    rw [zero_add, hθ] at this
    have k : (x 1 - x 0) * (b (j + 1) 0 - b j 0 + θ * (y (j + 1) - y j)) = 0 := by linear_combination this
    have := (mul_eq_zero.1 k).resolve_left (x0 0 h1)
    linear_combination this
  have da : ∀ i, i < nx → a (i + 1) 0 - a i 0 = θ * (x (i + 1) - x i) := fun i hi => by
    have := e i 0 hi h2
    rw [db 0 h2, zero_add] at this
    have k : (y 1 - y 0) * (a (i + 1) 0 - a i 0 - θ * (x (i + 1) - x i)) = 0 := by linear_combination this
    have := (mul_eq_zero.1 k).resolve_left (y0 0 h2)
    linear_combination this
  have da' : ∀ k i, k ≤ nz → i < nx → a (i + 1) k - a i k = θ * (x (i + 1) - x i) := by
    intro k
    induction k with
    | zero => exact fun i _ hi => da i hi
    | succ k ih => exact fun i hk hi => by rw [ma i k hi (by omega), ih i (by omega) hi]
  have db' : ∀ k i, k ≤ nz → i < ny → b (i + 1) k - b i k = - (θ * (y (i + 1) - y i)) := by
    intro k
    induction k with
    | zero => exact fun i _ hi => db i hi
    | succ k ih => exact fun i hk hi => by rw [mb i k hi (by omega), ih i (by omega) hi]
  refine ⟨θ, fun i k hi hk => ?_, fun i k hi hk => ?_⟩
  · induction i with
    | zero => ring
    | succ i ih => linear_combination da' k i hk (by omega) + ih (by omega)
  · induction i with
    | zero => ring
    | succ i ih => linear_combination db' k i hk (by omega) + ih (by omega)

end

variable {α : Type} [Field α] [LinearOrder α] [IsStrictOrderedRing α]
variable {nn ne : Nat} {c d : Nat → Nat → Nat} {x : Nat → Nat → α} {g : BoxGrid} {p : Nat → Nat → α}

/-- if no element is strained, the mesh moves as a rigid body -/
theorem BoxMesh.rigid (hM : BoxMesh nn ne c x g p) {hh : Nat → Nat → α}
    (hl : ∀ i j k a, i < g.nx → j < g.ny → k < g.nz → a < 3 → hh (g.cell i j k) a = (p a (idx3 i j k a + 1) - p a (idx3 i j k a)) / 2)
    {f : Nat → α} (hR : ∀ e, e < ne → BoxRigid (hh e) fun m a => f (d (c e m) a)) : ∃ θ b, RigidMotion3 nn d x f θ b := by
  obtain ⟨u, hu⟩ : ∃ u : Nat → Nat → Nat → Nat → α, ∀ a i j k, u a i j k = f (d (g.node i j k) a) := ⟨_, fun _ _ _ _ => rfl⟩
  obtain ⟨s1, s2, s3⟩ := hM.size
  have L : ∀ i j k, i < g.nx → j < g.ny → k < g.nz → ∀ a, f (d (c (g.cell i j k) 0) a) = u a i j k ∧
      f (d (c (g.cell i j k) 1) a) = u a (i + 1) j k ∧ f (d (c (g.cell i j k) 2) a) = u a (i + 1) (j + 1) k ∧
      f (d (c (g.cell i j k) 3) a) = u a i (j + 1) k ∧ f (d (c (g.cell i j k) 4) a) = u a i j (k + 1) ∧
      f (d (c (g.cell i j k) 5) a) = u a (i + 1) j (k + 1) ∧ f (d (c (g.cell i j k) 6) a) = u a (i + 1) (j + 1) (k + 1) ∧
      f (d (c (g.cell i j k) 7) a) = u a i (j + 1) (k + 1) := by
    intro i j k hi hj hk a
    simp only [hu]
    have := fun m (hm : m < 8) => hM.conn i j k m hi hj hk hm
    refine ⟨?_, ?_, ?_, ?_, ?_, ?_, ?_, ?_⟩ <;> rw [this _ (by omega)] <;> rfl
  have R : ∀ i j k, i < g.nx → j < g.ny → k < g.nz → BoxRigid (hh (g.cell i j k)) fun m a => f (d (c (g.cell i j k) m) a) :=
    fun i j k hi hj hk => hR _ (hM.cell_lt i j k hi hj hk)
  have up : ∀ n j : Nat, 0 < n → j ≤ n → ∃ j', j' < n ∧ (j = j' ∨ j = j' + 1) := fun n j hn hj => by
    rcases Nat.lt_or_ge j n with h | h
    · exact ⟨j, h, Or.inl rfl⟩
    · exact ⟨n - 1, by omega, Or.inr (by omega)⟩
  have X1 : ∀ i j k, i < g.nx → j ≤ g.ny → k ≤ g.nz → u 0 (i + 1) j k = u 0 i j k := by
    intro i j k hi hj hk
    obtain ⟨j', hj', ej⟩ := up _ j s2 hj
    obtain ⟨k', hk', ek⟩ := up _ k s3 hk
    obtain ⟨l0, l1, l2, l3, l4, l5, l6, l7⟩ := L i j' k' hi hj' hk' 0
    obtain ⟨x1, x2, x3, x4⟩ := (R i j' k' hi hj' hk').x
    rw [l0, l1] at x1
    rw [l2, l3] at x2
    rw [l5, l4] at x3
    rw [l6, l7] at x4
    rcases ej with rfl | rfl <;> rcases ek with rfl | rfl <;> assumption
  have Y1 : ∀ i j k, i ≤ g.nx → j < g.ny → k ≤ g.nz → u 1 i (j + 1) k = u 1 i j k := by
    intro i j k hi hj hk
    obtain ⟨i', hi', ei⟩ := up _ i s1 hi
    obtain ⟨k', hk', ek⟩ := up _ k s3 hk
    obtain ⟨l0, l1, l2, l3, l4, l5, l6, l7⟩ := L i' j k' hi' hj hk' 1
    obtain ⟨x1, x2, x3, x4⟩ := (R i' j k' hi' hj hk').y
    rw [l0, l3] at x1
    rw [l2, l1] at x2
    rw [l7, l4] at x3
    rw [l6, l5] at x4
    rcases ei with rfl | rfl <;> rcases ek with rfl | rfl <;> assumption
  have Z1 : ∀ i j k, i ≤ g.nx → j ≤ g.ny → k < g.nz → u 2 i j (k + 1) = u 2 i j k := by
    intro i j k hi hj hk
    obtain ⟨i', hi', ei⟩ := up _ i s1 hi
    obtain ⟨j', hj', ej⟩ := up _ j s2 hj
    obtain ⟨l0, l1, l2, l3, l4, l5, l6, l7⟩ := L i' j' k hi' hj' hk 2
    obtain ⟨x1, x2, x3, x4⟩ := (R i' j' k hi' hj' hk).z
    rw [l0, l4] at x1
    rw [l5, l1] at x2
    rw [l7, l3] at x3
    rw [l6, l2] at x4
    rcases ei with rfl | rfl <;> rcases ej with rfl | rfl <;> assumption
  have X0 : ∀ i j k, i ≤ g.nx → j ≤ g.ny → k ≤ g.nz → u 0 i j k = u 0 0 j k := by
    intro i j k hi hj hk
    induction i with
    | zero => rfl
    | succ i ih => rw [X1 i j k (by omega) hj hk, ih (by omega)]
  have Y0 : ∀ i j k, i ≤ g.nx → j ≤ g.ny → k ≤ g.nz → u 1 i j k = u 1 i 0 k := by
    intro i j k hi hj hk
    induction j with
    | zero => rfl
    | succ j ih => rw [Y1 i j k hi (by omega) hk, ih (by omega)]
  have Z0 : ∀ i j k, i ≤ g.nx → j ≤ g.ny → k ≤ g.nz → u 2 i j k = u 2 i j 0 := by
    intro i j k hi hj hk
    induction k with
    | zero => rfl
    | succ k ih => rw [Z1 i j k hi hj (by omega), ih (by omega)]
  have dx : ∀ i, i < g.nx → p 0 (i + 1) - p 0 i ≠ 0 := fun i hi => (sub_pos.2 ((hM.mono i).1 hi)).ne'
  have dy : ∀ i, i < g.ny → p 1 (i + 1) - p 1 i ≠ 0 := fun i hi => (sub_pos.2 ((hM.mono i).2.1 hi)).ne'
  have dz : ∀ i, i < g.nz → p 2 (i + 1) - p 2 i ≠ 0 := fun i hi => (sub_pos.2 ((hM.mono i).2.2 hi)).ne'
  have H : ∀ i j k, i < g.nx → j < g.ny → k < g.nz → hh (g.cell i j k) 0 = (p 0 (i + 1) - p 0 i) / 2 ∧
      hh (g.cell i j k) 1 = (p 1 (j + 1) - p 1 j) / 2 ∧ hh (g.cell i j k) 2 = (p 2 (k + 1) - p 2 k) / 2 := fun i j k hi hj hk =>
    ⟨hl i j k 0 hi hj hk (by omega), hl i j k 1 hi hj hk (by omega), hl i j k 2 hi hj hk (by omega)⟩
  have M0 : ∀ j k, j < g.ny → k < g.nz → u 0 0 (j + 1) (k + 1) - u 0 0 j (k + 1) = u 0 0 (j + 1) k - u 0 0 j k := fun j k hj hk => by
    have := (R 0 j k s1 hj hk).m0
    obtain ⟨l0, l1, l2, l3, l4, l5, l6, l7⟩ := L 0 j k s1 hj hk 0
    rw [l7, l4, l3, l0] at this
    exact this
  have M1 : ∀ i k, i < g.nx → k < g.nz → u 1 (i + 1) 0 (k + 1) - u 1 i 0 (k + 1) = u 1 (i + 1) 0 k - u 1 i 0 k := fun i k hi hk => by
    have := (R i 0 k hi s2 hk).m1
    obtain ⟨l0, l1, l2, l3, l4, l5, l6, l7⟩ := L i 0 k hi s2 hk 1
    rw [l5, l4, l1, l0] at this
    exact this
  have M2 : ∀ i j, i < g.nx → j < g.ny → u 2 (i + 1) (j + 1) 0 - u 2 (i + 1) j 0 = u 2 i (j + 1) 0 - u 2 i j 0 := fun i j hi hj => by
    have := (R i j 0 hi hj s3).m2
    obtain ⟨l0, l1, l2, l3, l4, l5, l6, l7⟩ := L i j 0 hi hj s3 2
    rw [l2, l1, l3, l0] at this
    exact this
  obtain ⟨θ2, a1, a2⟩ := rot (nz := g.nz) s1 s2 (a := fun i k => u 1 i 0 k) (b := fun j k => u 0 0 j k) dx dy (fun i j hi hj => by
    have := (R i j 0 hi hj s3).xy
    obtain ⟨l0, l1, l2, l3, l4, l5, l6, l7⟩ := L i j 0 hi hj s3 0
    obtain ⟨m0, m1, m2, m3, m4, m5, m6, m7⟩ := L i j 0 hi hj s3 1
    obtain ⟨w0, w1, w2⟩ := H i j 0 hi hj s3
    rw [m1, m0, l3, l0, w0, w1, X0 i (j + 1) 0 (by omega) (by omega) (by omega), X0 i j 0 (by omega) (by omega) (by omega),
      Y0 (i + 1) j 0 (by omega) (by omega) (by omega), Y0 i j 0 (by omega) (by omega) (by omega)] at this
    linear_combination 2 * this) (fun i k hi hk => M1 i k hi hk) (fun i k hi hk => M0 i k hi hk)
  obtain ⟨θ1, b1, b2⟩ := rot (nz := g.ny) s3 s1 (a := fun k j => u 0 0 j k) (b := fun i j => u 2 i j 0) dz dx (fun k i hk hi => by
    have := (R i 0 k hi s2 hk).xz
    obtain ⟨l0, l1, l2, l3, l4, l5, l6, l7⟩ := L i 0 k hi s2 hk 0
    obtain ⟨m0, m1, m2, m3, m4, m5, m6, m7⟩ := L i 0 k hi s2 hk 2
    obtain ⟨w0, w1, w2⟩ := H i 0 k hi s2 hk
    rw [m1, m0, l4, l0, w0, w2, X0 i 0 (k + 1) (by omega) (by omega) (by omega), X0 i 0 k (by omega) (by omega) (by omega),
      Z0 (i + 1) 0 k (by omega) (by omega) (by omega), Z0 i 0 k (by omega) (by omega) (by omega)] at this
    linear_combination 2 * this) (fun k j hk hj => by linear_combination M0 j k hj hk) (fun i j hi hj => by linear_combination M2 i j hi hj)
  obtain ⟨θ0, c1, c2⟩ := rot (nz := g.nx) s2 s3 (a := fun j i => u 2 i j 0) (b := fun k i => u 1 i 0 k) dy dz (fun j k hj hk => by
    have := (R 0 j k s1 hj hk).yz
    obtain ⟨l0, l1, l2, l3, l4, l5, l6, l7⟩ := L 0 j k s1 hj hk 1
    obtain ⟨m0, m1, m2, m3, m4, m5, m6, m7⟩ := L 0 j k s1 hj hk 2
    obtain ⟨w0, w1, w2⟩ := H 0 j k s1 hj hk
    rw [m3, m0, l4, l0, w1, w2, Y0 0 j (k + 1) (by omega) (by omega) (by omega), Y0 0 j k (by omega) (by omega) (by omega),
      Z0 0 (j + 1) k (by omega) (by omega) (by omega), Z0 0 j k (by omega) (by omega) (by omega)] at this
    linear_combination 2 * this) (fun j i hj hi => M2 i j hi hj) (fun k i hk hi => by linear_combination M1 i k hi hk)
  refine ⟨fun a => if a = 0 then θ0 else if a = 1 then θ1 else θ2,
    fun a => if a = 0 then u 0 0 0 0 - θ1 * p 2 0 + θ2 * p 1 0 else if a = 1 then u 1 0 0 0 - θ2 * p 0 0 + θ0 * p 2 0 else
      u 2 0 0 0 - θ0 * p 1 0 + θ1 * p 0 0, fun m hm => ?_⟩
  obtain ⟨i, j, k, hi, hj, hk, rfl⟩ := hM.node_surj m hm
  obtain ⟨q0, q1, q2⟩ := hM.position i j k hi hj hk
  rw [← hu, ← hu, ← hu, q0, q1, q2, X0 i j k hi hj hk, Y0 i j k hi hj hk, Z0 i j k hi hj hk]
  simp only [if_true, if_neg one_ne_zero, if_neg two_ne_zero, if_neg (show (2 : Nat) ≠ 1 by omega)]
  refine ⟨?_, ?_, ?_⟩
  · linear_combination b1 k j hk hj + a2 j 0 hj (by omega)
  · linear_combination a1 i k hi hk + c2 k 0 hk (by omega)
  · linear_combination c1 j i hj hi + b2 i 0 hi (by omega)

end GF
