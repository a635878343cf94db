import Verif.Lemmas.ElementQuad4
import Mathlib.Algebra.Order.BigOperators.Group.Finset

/-! Algebra of element matrices: independent of the element type. -/

namespace GF.Element
open Finset ElemSpec

variable {α : Type} [Field α]

/-- decompose a nodal component -/
theorem flat_exists {nne nd a : Nat} (h : a < nne * nd) :
    ∃ m i, m < nne ∧ i < nd ∧ a = m * nd + i := grid_exists h

theorem massLaws {nne nd ne nip : Nat} {N : Nat → Nat → α} {R V : Nat → Nat → α} {M : Nat → Nat → Nat → α}
    (hM : ∀ e m n i j, e < ne → m < nne → n < nne → i < nd → j < nd → M e (m * nd + i) (n * nd + j) =
      if i = j then ∑ q ∈ range nip, N q m * R e q * N q n * V e q else 0)
    (hN : ∀ q, q < nip → ∑ m ∈ range nne, N q m = 1) : MassLaws nne nd ne nip N R V M where
  symm := by
    intro e a b he ha hb
    obtain ⟨m, i, hm, hi, rfl⟩ := flat_exists ha
    obtain ⟨n, j, hn, hj, rfl⟩ := flat_exists hb
    rw [hM e m n i j he hm hn hi hj, hM e n m j i he hn hm hj hi]
    by_cases h : i = j
    · subst h
      simp only [if_true]
      exact sum_congr rfl fun q _ => by ring
    · rw [if_neg h, if_neg (fun h' => h h'.symm)]
  decoupled := by
    intro e m n i j he hm hn hi hj hij
    rw [hM e m n i j he hm hn hi hj, if_neg hij]
  total := by
    intro e i he hi
    have h1 : ∑ m ∈ range nne, ∑ n ∈ range nne, M e (m * nd + i) (n * nd + i) =
        ∑ m ∈ range nne, ∑ n ∈ range nne, ∑ q ∈ range nip, N q m * R e q * N q n * V e q :=
      sum_congr rfl fun m hm => sum_congr rfl fun n hn => by
        rw [hM e m n i i he (mem_range.1 hm) (mem_range.1 hn) hi hi, if_pos rfl]
    rw [h1]
    have h2 : ∑ m ∈ range nne, ∑ n ∈ range nne, ∑ q ∈ range nip, N q m * R e q * N q n * V e q =
        ∑ q ∈ range nip, ∑ m ∈ range nne, ∑ n ∈ range nne, N q m * R e q * N q n * V e q := by
      rw [sum_comm' (s := range nip) (t := fun _ => range nne) (t' := range nne) (s' := fun _ => range nip)
        (by simp [and_comm])]
      exact sum_congr rfl fun m _ => sum_comm
    rw [h2]
    refine sum_congr rfl fun q hq => ?_
    have h3 : ∑ m ∈ range nne, ∑ n ∈ range nne, N q m * R e q * N q n * V e q =
        (∑ m ∈ range nne, N q m) * (∑ n ∈ range nne, N q n) * (R e q * V e q) := by
      rw [sum_mul_sum, sum_mul]
      refine sum_congr rfl fun m _ => ?_
      rw [sum_mul]
      exact sum_congr rfl fun n _ => by ring
    rw [h3, hN q (mem_range.1 hq)]
    ring
  energy := by
    intro e he v
    have h1 : ∀ m ∈ range nne, ∀ i ∈ range nd, ∀ n ∈ range nne, ∑ j ∈ range nd,
        v (m * nd + i) * M e (m * nd + i) (n * nd + j) * v (n * nd + j) =
        ∑ q ∈ range nip, R e q * V e q * (N q m * v (m * nd + i)) * (N q n * v (n * nd + i)) := by
      intro m hm i hi n hn
      rw [mem_range] at hm hi hn
      rw [sum_eq_single i]
      · rw [hM e m n i i he hm hn hi hi, if_pos rfl, mul_sum, sum_mul]
        exact sum_congr rfl fun q _ => by ring
      · intro j hj hne
        rw [hM e m n i j he hm hn hi (mem_range.1 hj), if_neg (fun h => hne h.symm)]
        ring
      · intro h; exact absurd (mem_range.2 hi) h
    have h2 : ∑ m ∈ range nne, ∑ i ∈ range nd, ∑ n ∈ range nne, ∑ j ∈ range nd,
        v (m * nd + i) * M e (m * nd + i) (n * nd + j) * v (n * nd + j) =
        ∑ m ∈ range nne, ∑ i ∈ range nd, ∑ n ∈ range nne, ∑ q ∈ range nip,
          R e q * V e q * (N q m * v (m * nd + i)) * (N q n * v (n * nd + i)) :=
      sum_congr rfl fun m hm => sum_congr rfl fun i hi => sum_congr rfl fun n hn => h1 m hm i hi n hn
    rw [h2]
    have h3 : ∀ m ∈ range nne, ∑ i ∈ range nd, ∑ n ∈ range nne, ∑ q ∈ range nip,
        R e q * V e q * (N q m * v (m * nd + i)) * (N q n * v (n * nd + i)) =
        ∑ q ∈ range nip, ∑ i ∈ range nd, ∑ n ∈ range nne,
        R e q * V e q * (N q m * v (m * nd + i)) * (N q n * v (n * nd + i)) := by
      intro m _
      rw [sum_congr rfl fun i _ => sum_comm, sum_comm]
    rw [sum_congr rfl h3, sum_comm]
    refine sum_congr rfl fun q _ => ?_
    rw [sum_comm, mul_sum]
    refine sum_congr rfl fun i _ => ?_
    rw [sq, sum_mul_sum, mul_sum]
    refine sum_congr rfl fun m _ => ?_
    rw [mul_sum]
    exact sum_congr rfl fun n _ => by ring

theorem massLaws_psd {α : Type} [Field α] [LinearOrder α] [IsStrictOrderedRing α] {nne nd ne nip : Nat}
    {N : Nat → Nat → α} {R V : Nat → Nat → α} {M : Nat → Nat → Nat → α}
    (h : MassLaws nne nd ne nip N R V M)
    (hR : ∀ e q, e < ne → q < nip → 0 ≤ R e q) (hV : ∀ e q, e < ne → q < nip → 0 ≤ V e q)
    {e : Nat} (he : e < ne) (v : Nat → α) :
    0 ≤ ∑ m ∈ range nne, ∑ i ∈ range nd, ∑ n ∈ range nne, ∑ j ∈ range nd,
        v (m * nd + i) * M e (m * nd + i) (n * nd + j) * v (n * nd + j) := by
  rw [h.energy e he v]
  refine sum_nonneg fun q hq => mul_nonneg (mul_nonneg (hR e q he (mem_range.1 hq))
    (hV e q he (mem_range.1 hq))) (sum_nonneg fun i _ => sq_nonneg _)

/-- stiffness entries -/
def Kf (nd nip : Nat) (G : Nat → Nat → Nat → Nat → α) (C : Nat → Nat → Nat → Nat → Nat → Nat → α)
    (V : Nat → Nat → α) (e m j n k : Nat) : α :=
  ∑ q ∈ range nip, ∑ i ∈ range nd, ∑ l ∈ range nd, G e q m i * C e q i j k l * G e q n l * V e q

theorem stiffLaws {nne nd ne nip : Nat} {G : Nat → Nat → Nat → Nat → α}
    {C : Nat → Nat → Nat → Nat → Nat → Nat → α} {V : Nat → Nat → α} {K : Nat → Nat → Nat → α}
    (hK : ∀ e m j n k, e < ne → m < nne → n < nne → j < nd → k < nd →
      K e (m * nd + j) (n * nd + k) = Kf nd nip G C V e m j n k)
    (hG : ∀ e q i, e < ne → q < nip → i < nd → ∑ m ∈ range nne, G e q m i = 0) :
    StiffLaws nne nd ne nip C K where
  symm := by
    intro hC e a b he ha hb
    obtain ⟨m, i, hm, hi, rfl⟩ := flat_exists ha
    obtain ⟨n, j, hn, hj, rfl⟩ := flat_exists hb
    rw [hK e m i n j he hm hn hi hj, hK e n j m i he hn hm hj hi]
    refine sum_congr rfl fun q hq => ?_
    rw [sum_comm]
    refine sum_congr rfl fun l hl => sum_congr rfl fun k hk => ?_
    rw [hC e q k i j l he (mem_range.1 hq) (mem_range.1 hk) hi hj (mem_range.1 hl)]
    ring
  translation := by
    intro e a k he ha hk
    obtain ⟨m, i, hm, hi, rfl⟩ := flat_exists ha
    have h1 : ∑ n ∈ range nne, K e (m * nd + i) (n * nd + k) =
        ∑ n ∈ range nne, Kf nd nip G C V e m i n k :=
      sum_congr rfl fun n hn => hK e m i n k he hm (mem_range.1 hn) hi hk
    rw [h1]
    simp only [Kf]
    rw [sum_comm]
    refine sum_eq_zero fun q hq => ?_
    rw [sum_comm]
    refine sum_eq_zero fun i' _ => ?_
    rw [sum_comm]
    refine sum_eq_zero fun l hl => ?_
    have : ∑ n ∈ range nne, G e q m i' * C e q i' i k l * G e q n l * V e q =
        (G e q m i' * C e q i' i k l * V e q) * ∑ n ∈ range nne, G e q n l := by
      rw [mul_sum]; exact sum_congr rfl fun n _ => by ring
    rw [this, hG e q l he (mem_range.1 hq) (mem_range.1 hl), mul_zero]

/-- the stiffness is the linearisation of the internal force -/
theorem stiff_linear {nne nd nip : Nat} {G : Nat → Nat → Nat → Nat → α}
    {C : Nat → Nat → Nat → Nat → Nat → Nat → α} {V : Nat → Nat → α} {U : Nat → Nat → Nat → α} (e m j : Nat) :
    ∑ q ∈ range nip, (∑ i ∈ range nd, G e q m i *
        (∑ k ∈ range nd, ∑ l ∈ range nd, C e q i j k l * Quad4.grad nne G U e q l k)) * V e q =
      ∑ n ∈ range nne, ∑ k ∈ range nd, Kf nd nip G C V e m j n k * U e n k := by
  have h1 : ∀ q ∈ range nip, (∑ i ∈ range nd, G e q m i *
        (∑ k ∈ range nd, ∑ l ∈ range nd, C e q i j k l * Quad4.grad nne G U e q l k)) * V e q =
      ∑ n ∈ range nne, ∑ k ∈ range nd, ∑ i ∈ range nd, ∑ l ∈ range nd,
        G e q m i * C e q i j k l * G e q n l * V e q * U e n k := by
    intro q _
    rw [sum_mul]
    have : ∀ i ∈ range nd, G e q m i *
        (∑ k ∈ range nd, ∑ l ∈ range nd, C e q i j k l * Quad4.grad nne G U e q l k) * V e q =
        ∑ n ∈ range nne, ∑ k ∈ range nd, ∑ l ∈ range nd,
          G e q m i * C e q i j k l * G e q n l * V e q * U e n k := by
      intro i _
      have e1 : ∀ k ∈ range nd, ∑ l ∈ range nd, ∑ n ∈ range nne,
          G e q m i * C e q i j k l * G e q n l * V e q * U e n k = ∑ n ∈ range nne, ∑ l ∈ range nd,
          G e q m i * C e q i j k l * G e q n l * V e q * U e n k := fun k _ => sum_comm
      refine Eq.trans ?_ sum_comm
      rw [← sum_congr rfl e1, mul_sum, sum_mul]
      refine sum_congr rfl fun k _ => ?_
      rw [mul_sum, sum_mul]
      refine sum_congr rfl fun l _ => ?_
      rw [Quad4.grad, mul_sum, mul_sum, sum_mul]
      exact sum_congr rfl fun n _ => by ring
    rw [sum_congr rfl this, sum_comm]
    exact sum_congr rfl fun n _ => sum_comm
  rw [sum_congr rfl h1, sum_comm]
  refine sum_congr rfl fun n _ => ?_
  rw [sum_comm]
  refine sum_congr rfl fun k _ => ?_
  rw [Kf, sum_mul]
  refine sum_congr rfl fun q _ => ?_
  rw [sum_mul]
  refine sum_congr rfl fun i _ => ?_
  rw [sum_mul]

/-- virtual work -/
theorem virtual_work {nne nd nip : Nat} {G : Nat → Nat → Nat → Nat → α} {S : Nat → Nat → Nat → Nat → α}
    {V : Nat → Nat → α} {U : Nat → Nat → Nat → α} (e : Nat) :
    ∑ m ∈ range nne, ∑ j ∈ range nd,
        (∑ q ∈ range nip, (∑ i ∈ range nd, G e q m i * S e q i j) * V e q) * U e m j =
      ∑ q ∈ range nip, (∑ i ∈ range nd, ∑ j ∈ range nd, S e q i j * Quad4.grad nne G U e q i j) * V e q := by
  have h1 : ∀ q ∈ range nip, (∑ i ∈ range nd, ∑ j ∈ range nd, S e q i j * Quad4.grad nne G U e q i j) * V e q =
      ∑ m ∈ range nne, ∑ j ∈ range nd, ∑ i ∈ range nd, G e q m i * S e q i j * V e q * U e m j := by
    intro q _
    rw [sum_mul]
    have : ∀ i ∈ range nd, (∑ j ∈ range nd, S e q i j * Quad4.grad nne G U e q i j) * V e q =
        ∑ m ∈ range nne, ∑ j ∈ range nd, G e q m i * S e q i j * V e q * U e m j := by
      intro i _
      refine Eq.trans ?_ sum_comm
      rw [sum_mul]
      refine sum_congr rfl fun j _ => ?_
      rw [Quad4.grad, mul_sum, sum_mul]
      exact sum_congr rfl fun n _ => by ring
    rw [sum_congr rfl this, sum_comm]
    exact sum_congr rfl fun n _ => sum_comm
  rw [sum_congr rfl h1]
  refine Eq.trans ?_ sum_comm
  refine sum_congr rfl fun m _ => ?_
  refine Eq.trans ?_ sum_comm
  refine sum_congr rfl fun j _ => ?_
  rw [sum_mul]
  refine sum_congr rfl fun q _ => ?_
  rw [sum_mul, sum_mul]

/-- equilibrium -/
theorem equilibrium {nne nd nip : Nat} {G : Nat → Nat → Nat → Nat → α} {S : Nat → Nat → Nat → Nat → α}
    {V : Nat → Nat → α} {e : Nat}
    (hG : ∀ q i, q < nip → i < nd → ∑ m ∈ range nne, G e q m i = 0) (j : Nat) :
    ∑ m ∈ range nne, ∑ q ∈ range nip, (∑ i ∈ range nd, G e q m i * S e q i j) * V e q = 0 := by
  rw [sum_comm]
  refine sum_eq_zero fun q hq => ?_
  rw [← sum_mul, sum_comm]
  rw [sum_eq_zero, zero_mul]
  intro i hi
  rw [← sum_mul, hG q i (mem_range.1 hq) (mem_range.1 hi), zero_mul]

end GF.Element
