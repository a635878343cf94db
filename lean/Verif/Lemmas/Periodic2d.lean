import Verif.Lemmas.MeshBase
import Verif.Spec.Mesh
import Mathlib.Algebra.Order.Field.Basic
import Mathlib.Data.Int.Cast.Lemmas
import Mathlib.Tactic.Linarith
import Mathlib.Tactic.LinearCombination
import Mathlib.Tactic.Ring

/-! Periodicity of any rectangular 2-d mesh whose opposite edges match node by node. -/

namespace GF
open Finset
variable {α : Type} [Field α] [LinearOrder α] [IsStrictOrderedRing α]

/-- a mesh that fits in a rectangle, in which no two nodes coincide -/
structure InRect (nnode : Nat) (Lx Ly : α) (x : Nat → Nat → α) : Prop where
  posx : 0 < Lx
  posy : 0 < Ly
  bnd : ∀ m, m < nnode → 0 ≤ x m 0 ∧ x m 0 ≤ Lx ∧ 0 ≤ x m 1 ∧ x m 1 ≤ Ly
  inj : ∀ m m', m < nnode → m' < nnode → x m 0 = x m' 0 → x m 1 = x m' 1 → m = m'

/-- opposite open edges match: `b i`, `t i` (`i < nb`) bottom and top, `l i`, `r i` (`i < nl`) left and right -/
structure Opposite (nnode : Nat) (Lx Ly : α) (x : Nat → Nat → α) (nb nl : Nat) (b t l r : Nat → Nat) : Prop where
  bat : ∀ i, i < nb → b i < nnode ∧ x (b i) 1 = 0 ∧ 0 < x (b i) 0 ∧ x (b i) 0 < Lx
  tat : ∀ i, i < nb → t i < nnode ∧ x (t i) 1 = Ly ∧ x (t i) 0 = x (b i) 0
  lat : ∀ i, i < nl → l i < nnode ∧ x (l i) 0 = 0 ∧ 0 < x (l i) 1 ∧ x (l i) 1 < Ly
  rat : ∀ i, i < nl → r i < nnode ∧ x (r i) 0 = Lx ∧ x (r i) 1 = x (l i) 1
  tall : ∀ m, m < nnode → x m 1 = Ly → 0 < x m 0 → x m 0 < Lx → ∃ i, i < nb ∧ t i = m
  rall : ∀ m, m < nnode → x m 0 = Lx → 0 < x m 1 → x m 1 < Ly → ∃ i, i < nl ∧ r i = m
  tinj : ∀ i j, i < nb → j < nb → t i = t j → i = j
  rinj : ∀ i j, i < nl → j < nl → r i = r j → i = j

/-- the table made from the corners and the edges -/
def perTable (bl br tl tr : Nat) (nb : Nat) (b t l r : Nat → Nat) (k j : Nat) : Nat :=
  if j = 0 then perCol (fun _ => bl) b l nb k
  else perCol (fun k => if k = 0 then br else if k = 1 then tr else tl) t r nb k

variable {nnode nb nl : Nat} {Lx Ly : α} {x : Nat → Nat → α} {b t l r : Nat → Nat} {bl br tl tr : Nat}

theorem perTable_pairs (hR : InRect nnode Lx Ly x) (hC : CornerNodes nnode Lx Ly x bl br tl tr)
    (hO : Opposite nnode Lx Ly x nb nl b t l r) :
    PeriodicPairs nnode Lx Ly x (nb + nl + 3) (perTable bl br tl tr nb b t l r) := by
  have px := hR.posx
  have py := hR.posy
  -- every row of the table
  have key : ∀ k, k < nb + nl + 3 →
      (k = 0 ∧ perTable bl br tl tr nb b t l r k 0 = bl ∧ perTable bl br tl tr nb b t l r k 1 = br) ∨
      (k = 1 ∧ perTable bl br tl tr nb b t l r k 0 = bl ∧ perTable bl br tl tr nb b t l r k 1 = tr) ∨
      (k = 2 ∧ perTable bl br tl tr nb b t l r k 0 = bl ∧ perTable bl br tl tr nb b t l r k 1 = tl) ∨
      (∃ i, i < nb ∧ k = i + 3 ∧ perTable bl br tl tr nb b t l r k 0 = b i ∧ perTable bl br tl tr nb b t l r k 1 = t i) ∨
      (∃ i, i < nl ∧ k = i + nb + 3 ∧ perTable bl br tl tr nb b t l r k 0 = l i ∧ perTable bl br tl tr nb b t l r k 1 = r i) := by
    intro k hk
    simp only [perTable, perCol, if_true, one_ne_zero, if_false]
    by_cases h3 : k < 3
    · simp only [if_pos h3]
      obtain rfl | rfl | rfl : k = 0 ∨ k = 1 ∨ k = 2 := by omega
      · left; simp
      · right; left; simp
      · right; right; left; simp
    · simp only [if_neg h3]
      by_cases hb : k < 3 + nb
      · simp only [if_pos hb]
        exact Or.inr (Or.inr (Or.inr (Or.inl ⟨k - 3, by omega, by omega, rfl, rfl⟩)))
      · simp only [if_neg hb]
        exact Or.inr (Or.inr (Or.inr (Or.inr ⟨k - 3 - nb, by omega, by omega, rfl, rfl⟩)))
  have entry : ∀ k, k < nb + nl + 3 → perTable bl br tl tr nb b t l r k 0 < nnode ∧
      perTable bl br tl tr nb b t l r k 1 < nnode := by
    intro k hk
    rcases key k hk with ⟨-, h0, h1⟩ | ⟨-, h0, h1⟩ | ⟨-, h0, h1⟩ | ⟨i, hi, -, h0, h1⟩ | ⟨i, hi, -, h0, h1⟩
    all_goals rw [h0, h1]
    · exact ⟨hC.bl.1, hC.br.1⟩
    · exact ⟨hC.bl.1, hC.tr.1⟩
    · exact ⟨hC.bl.1, hC.tl.1⟩
    · exact ⟨(hO.bat i hi).1, (hO.tat i hi).1⟩
    · exact ⟨(hO.lat i hi).1, (hO.rat i hi).1⟩
  have dep : ∀ k, k < nb + nl + 3 → x (perTable bl br tl tr nb b t l r k 1) 0 = Lx ∨ x (perTable bl br tl tr nb b t l r k 1) 1 = Ly := by
    intro k hk
    rcases key k hk with ⟨-, h0, h1⟩ | ⟨-, h0, h1⟩ | ⟨-, h0, h1⟩ | ⟨i, hi, -, h0, h1⟩ | ⟨i, hi, -, h0, h1⟩
    all_goals rw [h1]
    · exact Or.inl hC.br.2.1
    · exact Or.inl hC.tr.2.1
    · exact Or.inr hC.tl.2.2
    · exact Or.inr (hO.tat i hi).2.1
    · exact Or.inl (hO.rat i hi).2.1
  have ind : ∀ k, k < nb + nl + 3 → x (perTable bl br tl tr nb b t l r k 0) 0 < Lx ∧ x (perTable bl br tl tr nb b t l r k 0) 1 < Ly := by
    intro k hk
    rcases key k hk with ⟨-, h0, h1⟩ | ⟨-, h0, h1⟩ | ⟨-, h0, h1⟩ | ⟨i, hi, -, h0, h1⟩ | ⟨i, hi, -, h0, h1⟩
    all_goals rw [h0]
    · rw [hC.bl.2.1, hC.bl.2.2]; exact ⟨px, py⟩
    · rw [hC.bl.2.1, hC.bl.2.2]; exact ⟨px, py⟩
    · rw [hC.bl.2.1, hC.bl.2.2]; exact ⟨px, py⟩
    · rw [(hO.bat i hi).2.1]; exact ⟨(hO.bat i hi).2.2.2, py⟩
    · rw [(hO.lat i hi).2.1]; exact ⟨px, (hO.lat i hi).2.2.2⟩
  refine ⟨?_, ?_, ?_, ?_, ?_⟩
  · intro k j hk hj
    obtain rfl | rfl : j = 0 ∨ j = 1 := by omega
    · exact (entry k hk).1
    · exact (entry k hk).2
  · intro k hk
    rcases key k hk with ⟨-, h0, h1⟩ | ⟨-, h0, h1⟩ | ⟨-, h0, h1⟩ | ⟨i, hi, -, h0, h1⟩ | ⟨i, hi, -, h0, h1⟩
    all_goals rw [h0, h1]
    · rw [hC.br.2.1, hC.br.2.2, hC.bl.2.1, hC.bl.2.2]; simp
    · rw [hC.tr.2.1, hC.tr.2.2, hC.bl.2.1, hC.bl.2.2]; simp
    · rw [hC.tl.2.1, hC.tl.2.2, hC.bl.2.1, hC.bl.2.2]; simp
    · rw [(hO.tat i hi).2.1, (hO.tat i hi).2.2, (hO.bat i hi).2.1]; simp
    · rw [(hO.rat i hi).2.1, (hO.rat i hi).2.2, (hO.lat i hi).2.1]; simp
  · intro k k' hk hk' he
    have tx : ∀ i, i < nb → 0 < x (t i) 0 ∧ x (t i) 0 < Lx := fun i hi => by
      rw [(hO.tat i hi).2.2]; exact (hO.bat i hi).2.2
    have ry : ∀ i, i < nl → 0 < x (r i) 1 ∧ x (r i) 1 < Ly := fun i hi => by
      rw [(hO.rat i hi).2.2]; exact (hO.lat i hi).2.2
    have e0 : x (perTable bl br tl tr nb b t l r k 1) 0 = x (perTable bl br tl tr nb b t l r k' 1) 0 := by rw [he]
    have e1 : x (perTable bl br tl tr nb b t l r k 1) 1 = x (perTable bl br tl tr nb b t l r k' 1) 1 := by rw [he]
    rcases key k hk with ⟨a, -, h1⟩ | ⟨a, -, h1⟩ | ⟨a, -, h1⟩ | ⟨i, hi, a, -, h1⟩ | ⟨i, hi, a, -, h1⟩ <;>
    rcases key k' hk' with ⟨a', -, h1'⟩ | ⟨a', -, h1'⟩ | ⟨a', -, h1'⟩ | ⟨i', hi', a', -, h1'⟩ | ⟨i', hi', a', -, h1'⟩ <;>
    first
    | omega
    | (exfalso
       rw [h1, h1'] at e0 e1
       try simp only [hC.br.2.1, hC.br.2.2, hC.tr.2.1, hC.tr.2.2, hC.tl.2.1, hC.tl.2.2] at e0 e1
       first
       | linarith
       | (have q1 := tx i hi; have q2 := hO.tat i hi; linarith)
       | (have q1 := tx i' hi'; have q2 := hO.tat i' hi'; linarith)
       | (have q1 := ry i hi; have q2 := hO.rat i hi; linarith)
       | (have q1 := ry i' hi'; have q2 := hO.rat i' hi'; linarith)
       | (have q1 := tx i hi; have q2 := hO.rat i' hi'; linarith)
       | (have q1 := tx i' hi'; have q2 := hO.rat i hi; linarith))
    | (rw [h1, h1'] at he
       have := hO.tinj i i' hi hi' he
       omega)
    | (rw [h1, h1'] at he
       have := hO.rinj i i' hi hi' he
       omega)
  · intro k k' hk hk' he
    have h1 := ind k hk
    have h2 := dep k' hk'
    rw [he] at h1
    rcases h2 with h2 | h2
    · exact absurd h2 h1.1.ne
    · exact absurd h2 h1.2.ne
  · intro m hm
    constructor
    · rintro ⟨k, hk, rfl⟩
      exact dep k hk
    · intro h
      obtain ⟨b1, b2, b3, b4⟩ := hR.bnd m hm
      have at' : ∀ c, c < nnode → x m 0 = x c 0 → x m 1 = x c 1 → m = c := fun c hc => hR.inj m c hm hc
      have p0 : perTable bl br tl tr nb b t l r 0 1 = br := by simp [perTable, perCol]
      have p1 : perTable bl br tl tr nb b t l r 1 1 = tr := by simp [perTable, perCol]
      have p2 : perTable bl br tl tr nb b t l r 2 1 = tl := by simp [perTable, perCol]
      by_cases h0 : x m 0 = Lx
      · by_cases hy0 : x m 1 = 0
        · exact ⟨0, by omega, by rw [p0]; exact (at' br hC.br.1 (by rw [h0, hC.br.2.1]) (by rw [hy0, hC.br.2.2])).symm⟩
        by_cases hy1 : x m 1 = Ly
        · exact ⟨1, by omega, by rw [p1]; exact (at' tr hC.tr.1 (by rw [h0, hC.tr.2.1]) (by rw [hy1, hC.tr.2.2])).symm⟩
        obtain ⟨i, hi, e⟩ := hO.rall m hm h0 (lt_of_le_of_ne b3 (Ne.symm hy0)) (lt_of_le_of_ne b4 hy1)
        refine ⟨i + nb + 3, by omega, ?_⟩
        rw [perTable, if_neg one_ne_zero, perCol, if_neg (by omega), if_neg (by omega),
          show i + nb + 3 - 3 - nb = i by omega]
        exact e
      · have hy1 := h.resolve_left h0
        by_cases hx0 : x m 0 = 0
        · exact ⟨2, by omega, by rw [p2]; exact (at' tl hC.tl.1 (by rw [hx0, hC.tl.2.1]) (by rw [hy1, hC.tl.2.2])).symm⟩
        obtain ⟨i, hi, e⟩ := hO.tall m hm hy1 (lt_of_le_of_ne b1 (Ne.symm hx0)) (lt_of_le_of_ne b2 h0)
        refine ⟨i + 3, by omega, ?_⟩
        rw [perTable, if_neg one_ne_zero, perCol, if_neg (by omega), if_pos (by omega), show i + 3 - 3 = i by omega]
        exact e

theorem lattice_small {L p q : α} (hp : 0 ≤ p) (hp' : p < L) (hq : 0 ≤ q) (hq' : q < L) {a : ℤ}
    (h : q = p + a * L) : p = q := by
  have hL : 0 < L := lt_of_le_of_lt hp hp'
  have h1 : (a : α) < 1 := by
    by_contra hc
    have : 1 * L ≤ a * L := mul_le_mul_of_nonneg_right (not_lt.1 hc) hL.le
    linarith
  have h2 : (-1 : α) < a := by
    by_contra hc
    have : a * L ≤ -1 * L := mul_le_mul_of_nonneg_right (not_lt.1 hc) hL.le
    linarith
  have h3 : a < 1 := by exact_mod_cast h1
  have h4 : -1 < a := by exact_mod_cast h2
  have : a = 0 := by omega
  rw [h, this]; simp

/-- `dofsPeriodic()` for a table of periodic pairs -/
theorem periodic_dofs {n : Nat} {P : Nat → Nat → Nat} {nodePer : Ten Nat} (h : Is2 nodePer n 2 P)
    (hR : InRect nnode Lx Ly x) (hP : PeriodicPairs nnode Lx Ly x n P) :
    ∃ y d, dofsPeriodic nnode 2 nodePer = .ok y ∧ Is2 y nnode 2 d ∧
      (∀ m i m' i', m < nnode → i < 2 → m' < nnode → i' < 2 →
        (d m i = d m' i' ↔ LatticeEq2 Lx Ly (x m) (x m') ∧ i = i')) ∧
      (∀ v, (∃ m i, m < nnode ∧ i < 2 ∧ d m i = v) ↔ v < (nnode - n) * 2) := by
  classical
  let rep : Nat → Nat := fun m => if hm : ∃ k, k < n ∧ P k 1 = m then P hm.choose 0 else m
  have r1 : ∀ k, k < n → rep (P k 1) = P k 0 := by
    intro k hk
    have hm : ∃ k', k' < n ∧ P k' 1 = P k 1 := ⟨k, hk, rfl⟩
    simp only [rep]
    rw [dif_pos hm]
    have := hm.choose_spec
    rw [hP.distinct _ _ this.1 hk this.2]
  have r2 : ∀ m, (∀ k, k < n → P k 1 ≠ m) → rep m = m := by
    intro m hm
    simp only [rep]
    rw [dif_neg]
    rintro ⟨k, hk, e⟩
    exact hm k hk e
  obtain ⟨y, d, y1, y2, y3, y4⟩ := dofsPeriodic_spec (ndim := 2) h hP.valid rep r1 r2 hP.independent
  have cls : ∀ m, m < nnode → (∃ k, k < n ∧ m = P k 1 ∧ rep m = P k 0) ∨ ((∀ k, k < n → P k 1 ≠ m) ∧ rep m = m) := by
    intro m hm
    by_cases hc : ∃ k, k < n ∧ P k 1 = m
    · obtain ⟨k, hk, rfl⟩ := hc
      exact Or.inl ⟨k, hk, rfl, r1 k hk⟩
    · have hc' : ∀ k, k < n → P k 1 ≠ m := fun k hk e => hc ⟨k, hk, e⟩
      exact Or.inr ⟨hc', r2 m hc'⟩
  have rl : ∀ m, m < nnode → ∃ a b : ℤ, x m 0 = x (rep m) 0 + a * Lx ∧ x m 1 = x (rep m) 1 + b * Ly := by
    intro m hm
    rcases cls m hm with ⟨k, hk, rfl, e⟩ | ⟨-, e⟩
    · rw [e]
      obtain ⟨h0, h1⟩ := hP.shift k hk
      obtain ⟨a, ha⟩ : ∃ a : ℤ, x (P k 1) 0 = x (P k 0) 0 + a * Lx := by
        rcases h0 with h0 | h0
        · exact ⟨0, by rw [h0]; simp⟩
        · exact ⟨1, by rw [h0]; simp⟩
      obtain ⟨b, hb⟩ : ∃ a : ℤ, x (P k 1) 1 = x (P k 0) 1 + a * Ly := by
        rcases h1 with h1 | h1
        · exact ⟨0, by rw [h1]; simp⟩
        · exact ⟨1, by rw [h1]; simp⟩
      exact ⟨a, b, ha, hb⟩
    · rw [e]; exact ⟨0, 0, by simp, by simp⟩
  have rlt : ∀ m, m < nnode → rep m < nnode ∧ x (rep m) 0 < Lx ∧ x (rep m) 1 < Ly := by
    intro m hm
    have nd : ∀ q, q < nnode → (∀ k, k < n → P k 1 ≠ q) → x q 0 < Lx ∧ x q 1 < Ly := by
      intro q hq hnd
      have := (hP.dependent q hq).not.1 (by rintro ⟨k, hk, e⟩; exact hnd k hk e)
      rw [not_or] at this
      obtain ⟨-, b2, -, b4⟩ := hR.bnd q hq
      exact ⟨lt_of_le_of_ne b2 this.1, lt_of_le_of_ne b4 this.2⟩
    rcases cls m hm with ⟨k, hk, rfl, e⟩ | ⟨hn, e⟩
    · rw [e]
      have hv := hP.valid k 0 hk (by omega)
      exact ⟨hv, nd _ hv fun k' hk' => (hP.independent k k' hk hk').symm⟩
    · rw [e]; exact ⟨hm, nd m hm hn⟩
  refine ⟨y, d, y1, y2, fun m i m' i' hm hi hm' hi' => ?_, fun v => ?_⟩
  · rw [y3 m i m' i' hm hi hm' hi']
    refine and_congr_left fun _ => ?_
    obtain ⟨a, b, ha, hb⟩ := rl m hm
    obtain ⟨a', b', ha', hb'⟩ := rl m' hm'
    obtain ⟨l1, l2, l3⟩ := rlt m hm
    obtain ⟨l1', l2', l3'⟩ := rlt m' hm'
    constructor
    · intro e
      refine ⟨a' - a, b' - b, ?_, ?_⟩
      · rw [ha, ha', e]; push_cast; ring
      · rw [hb, hb', e]; push_cast; ring
    · rintro ⟨p, q, hp, hq⟩
      obtain ⟨c1, -, c3, -⟩ := hR.bnd _ l1
      obtain ⟨c1', -, c3', -⟩ := hR.bnd _ l1'
      refine hR.inj _ _ l1 l1' ?_ ?_
      · refine lattice_small c1 l2 c1' l2' (a := p + a - a') ?_
        rw [ha, ha'] at hp
        push_cast
        linear_combination hp
      · refine lattice_small c3 l3 c3' l3' (a := q + b - b') ?_
        rw [hb, hb'] at hq
        push_cast
        linear_combination hq
  · rw [y4]
    have : ((range nnode).filter fun m => rep m = m) = range nnode \ (range n).image (fun k => P k 1) := by
      ext m
      simp only [mem_filter, mem_sdiff, mem_range, mem_image, not_exists, not_and]
      refine and_congr_right fun hm => ?_
      constructor
      · intro e k hk he
        have := r1 k hk
        rw [he, e] at this
        exact hP.independent k k hk hk (by rw [he, ← this])
      · exact r2 m
    rw [this, card_sdiff_of_subset, card_range, card_image_of_injOn, card_range]
    · intro k hk k' hk' e
      simp only [coe_range, Set.mem_Iio] at hk hk'
      exact hP.distinct k k' hk hk' e
    · intro m hm
      rw [mem_image] at hm
      obtain ⟨k, hk, rfl⟩ := hm
      exact mem_range.2 (hP.valid k 1 (mem_range.1 hk) (by omega))

end GF
