import Verif.Model.MeshRegular2d
import Verif.Spec.Mesh
import Verif.Lemmas.MeshBase
import Mathlib.Algebra.Order.Field.Basic
import Mathlib.Tactic.FieldSimp
import Mathlib.Tactic.Ring
import Mathlib.Tactic.Linarith
import Mathlib.Tactic.LinearCombination
import Mathlib.Data.Int.Cast.Lemmas
import Mathlib.Data.Nat.Cast.Order.Ring

/-! Lemmas on the regular two-dimensional meshes. -/

namespace GF
variable {α : Type}

theorem is1_linspace [Field α] [CharZero α] (h : α) (n : Nat) :
    Is1 (linspace 0 (h * (n : α)) (n + 1)) (n + 1) (fun i => h * (i : α)) := by
  refine (is1_of _ _).congr fun i hi => ?_
  simp only [List.getD_cons_zero]
  rcases Nat.eq_zero_or_pos n with rfl | hn
  · obtain rfl : i = 0 := by omega
    simp
  · rw [show max 1 (n + 1 - 1) = n by omega]
    have : (n : α) ≠ 0 := by exact_mod_cast hn.ne'
    field_simp
    ring

/-- the two coordinates of grid node `k` -/
def gridCoor [Mul α] [NatCast α] (h : α) (nelx k j : Nat) : α :=
  if j = 0 then h * ((k % (nelx + 1) : Nat) : α) else h * ((k / (nelx + 1) : Nat) : α)

theorem Regular2d.coor_spec [Field α] [CharZero α] (M : Regular2d α)
    (h1 : M.nnode = (M.nelx + 1) * (M.nely + 1)) (h2 : M.ndim = 2) :
    ∃ c, M.coor = .ok c ∧ Is2 c M.nnode 2 (gridCoor M.h M.nelx) := by
  obtain ⟨t, a1, a2⟩ := rows_it2 (M.nely + 1) (M.nelx + 1) 2 (fun (s : Ten α × Nat) p => do
    let a ← (linspace 0 (M.h * (M.nelx : α)) (M.nelx + 1)).get [p.2]
    let ret ← s.1.set [s.2, 0] a
    let b ← (linspace 0 (M.h * (M.nely : α)) (M.nely + 1)).get [p.1]
    let ret ← ret.set [s.2, 1] b
    .ok (ret, s.2 + 1))
    (fun p l => if l = 0 then M.h * (p.2 : α) else M.h * (p.1 : α)) M.nnode (by rw [h1, Nat.mul_comm])
    (by
      intro i j hi hj t c hs hc
      refine ⟨((t.put [c, 0] (M.h * (j : α))).put [c, 1] (M.h * (i : α))), ?_, hs, ?_, ?_⟩
      · dsimp only
        rw [(is1_linspace M.h M.nelx).get hj, (is1_linspace M.h M.nely).get hi, Res.ok_bind,
          set_put (by simp [hs, hc]), Res.ok_bind, Res.ok_bind, set_put (by simp [hs, hc])]
        rfl
      · intro l hl
        obtain rfl | rfl : l = 0 ∨ l = 1 := by omega
        all_goals simp [Ten.put_v]
      · intro r l hr
        have : r ≠ c := by omega
        simp [Ten.put_v, this])
  refine ⟨t, ?_, a2⟩
  rw [Regular2d.coor, h2]
  simp only [a1, Res.ok_bind]

/-- nodes of (part of) a grid row -/
theorem row_set {nelx nely a b iy k : Nat} (hb : b ≤ nelx + 1) (hy : iy ≤ nely) :
    (∃ i, i < b - a ∧ iy * (nelx + 1) + (a + i) = k) ↔
      k < (nelx + 1) * (nely + 1) ∧ k / (nelx + 1) = iy ∧ a ≤ k % (nelx + 1) ∧ k % (nelx + 1) < b := by
  constructor
  · rintro ⟨i, hi, rfl⟩
    rw [grid_div (by omega), grid_mod (by omega), Nat.mul_comm (nelx + 1)]
    exact ⟨grid_lt (by omega) (by omega), rfl, by omega, by omega⟩
  · rintro ⟨h1, h2, h3, h4⟩
    refine ⟨k % (nelx + 1) - a, by omega, ?_⟩
    rw [show a + (k % (nelx + 1) - a) = k % (nelx + 1) by omega, ← h2, Nat.mul_comm]
    exact Nat.div_add_mod k _

/-- nodes of (part of) a grid column -/
theorem col_set {nelx nely a b ix k : Nat} (hb : b ≤ nely + 1) (hx : ix ≤ nelx) :
    (∃ i, i < b - a ∧ (a + i) * (nelx + 1) + ix = k) ↔
      k < (nelx + 1) * (nely + 1) ∧ k % (nelx + 1) = ix ∧ a ≤ k / (nelx + 1) ∧ k / (nelx + 1) < b := by
  constructor
  · rintro ⟨i, hi, rfl⟩
    rw [grid_div (by omega), grid_mod (by omega), Nat.mul_comm (nelx + 1)]
    exact ⟨grid_lt (by omega) (by omega), rfl, by omega, by omega⟩
  · rintro ⟨h1, h2, h3, h4⟩
    refine ⟨k / (nelx + 1) - a, by omega, ?_⟩
    rw [show a + (k / (nelx + 1) - a) = k / (nelx + 1) by omega, ← h2, Nat.mul_comm]
    exact Nat.div_add_mod k _

section ordered
variable [Field α] [LinearOrder α] [IsStrictOrderedRing α]

theorem hmul_eq {h : α} (hh : 0 < h) {a b : Nat} : h * (a : α) = h * (b : α) ↔ a = b := by
  rw [mul_right_inj' hh.ne']; exact Nat.cast_inj

theorem hmul_lt {h : α} (hh : 0 < h) {a b : Nat} : h * (a : α) < h * (b : α) ↔ a < b := by
  rw [mul_lt_mul_iff_right₀ hh]; exact Nat.cast_lt

/-- a row of the grid as a set of nodes characterised by coordinates -/
theorem nodeSet_row {h : α} (hh : 0 < h) {nelx nely a b iy : Nat} (hb : b ≤ nelx + 1) (hy : iy ≤ nely)
    {r : Res (Ten Nat)} {t : Ten Nat} (hr : r = .ok t)
    (ht : Is1 t (b - a) (fun i => iy * (nelx + 1) + (a + i))) {P : Nat → Prop}
    (hP : ∀ k, P k ↔ k < (nelx + 1) * (nely + 1) ∧ k / (nelx + 1) = iy ∧ a ≤ k % (nelx + 1) ∧
      k % (nelx + 1) < b) :
    NodeSet r P (fun k k' => gridCoor h nelx k 0 < gridCoor h nelx k' 0) := by
  refine ⟨t, b - a, _, hr, ht, fun i j hij hj => ?_, fun k => ?_⟩
  · simp only [gridCoor, if_true]
    rw [hmul_lt hh, grid_mod (by omega), grid_mod (by omega)]
    omega
  · rw [hP]; exact row_set hb hy

/-- a column of the grid as a set of nodes characterised by coordinates -/
theorem nodeSet_col {h : α} (hh : 0 < h) {nelx nely a b ix : Nat} (hb : b ≤ nely + 1) (hx : ix ≤ nelx)
    {r : Res (Ten Nat)} {t : Ten Nat} (hr : r = .ok t)
    (ht : Is1 t (b - a) (fun i => (a + i) * (nelx + 1) + ix)) {P : Nat → Prop}
    (hP : ∀ k, P k ↔ k < (nelx + 1) * (nely + 1) ∧ k % (nelx + 1) = ix ∧ a ≤ k / (nelx + 1) ∧
      k / (nelx + 1) < b) :
    NodeSet r P (fun k k' => gridCoor h nelx k 1 < gridCoor h nelx k' 1) := by
  refine ⟨t, b - a, _, hr, ht, fun i j hij hj => ?_, fun k => ?_⟩
  · simp only [gridCoor, one_ne_zero, if_false]
    rw [hmul_lt hh, grid_div (by omega), grid_div (by omega)]
    omega
  · rw [hP]; exact col_set hb hx

theorem lattice1 {h : α} (hh : 0 < h) {n i i' : Nat} :
    (∃ a : ℤ, h * (i' : α) = h * (i : α) + a * (h * (n : α))) ↔ i % n = i' % n := by
  have key : ∀ a : ℤ, h * (i' : α) = h * (i : α) + a * (h * (n : α)) ↔ (i' : ℤ) = i + a * n := by
    intro a
    rw [show h * (i : α) + a * (h * (n : α)) = h * (i + a * n) by ring, mul_right_inj' hh.ne']
    exact_mod_cast Iff.rfl
  constructor
  · rintro ⟨a, ha⟩
    rw [key] at ha
    have : ((i' % n : Nat) : ℤ) = ((i % n : Nat) : ℤ) := by
      rw [Int.natCast_mod, Int.natCast_mod, ha, Int.add_mul_emod_self_right]
    exact_mod_cast this.symm
  · intro hm
    refine ⟨(i' / n : Nat) - (i / n : Nat), ?_⟩
    rw [key]
    have e1 : ((n * (i / n) + i % n : Nat) : ℤ) = i := by exact_mod_cast Nat.div_add_mod i n
    have e2 : ((n * (i' / n) + i' % n : Nat) : ℤ) = i' := by exact_mod_cast Nat.div_add_mod i' n
    rw [← hm] at e2
    push_cast at e1 e2 ⊢
    linear_combination e1 - e2

end ordered

/-- the node that represents grid node `k` in the periodic mesh -/
def gridRep (nelx nely k : Nat) : Nat :=
  (k / (nelx + 1) % nely) * (nelx + 1) + k % (nelx + 1) % nelx

theorem gridRep_eq {nelx nely k k' : Nat} (hx : 0 < nelx) :
    gridRep nelx nely k = gridRep nelx nely k' ↔
      k % (nelx + 1) % nelx = k' % (nelx + 1) % nelx ∧
        k / (nelx + 1) % nely = k' / (nelx + 1) % nely := by
  have h1 := Nat.mod_lt (k % (nelx + 1)) hx
  have h2 := Nat.mod_lt (k' % (nelx + 1)) hx
  rw [gridRep, gridRep]
  constructor
  · intro h
    have := grid_inj (m := nelx + 1) (by omega) (by omega) h
    exact ⟨this.2, this.1⟩
  · rintro ⟨h3, h4⟩; rw [h3, h4]

/-- description of the periodic table of a regular grid in terms of rows and columns -/
structure GridTable (nelx nely : Nat) (n : Nat) (P : Nat → Nat → Nat) : Prop where
  lt : ∀ k j, k < n → j < 2 → P k j < (nelx + 1) * (nely + 1)
  rep : ∀ k, k < n → gridRep nelx nely (P k 1) = P k 0
  dep : ∀ m, m < (nelx + 1) * (nely + 1) →
    ((∃ k, k < n ∧ P k 1 = m) ↔ m % (nelx + 1) = nelx ∨ m / (nelx + 1) = nely)
  inj : ∀ k k', k < n → k' < n → P k 1 = P k' 1 → k = k'

theorem gridRep_lt {nelx nely k : Nat} (hx : 0 < nelx) (hy : 0 < nely) :
    gridRep nelx nely k % (nelx + 1) < nelx ∧ gridRep nelx nely k / (nelx + 1) < nely := by
  have h1 := Nat.mod_lt (k % (nelx + 1)) hx
  rw [gridRep, grid_mod (by omega), grid_div (by omega)]
  exact ⟨h1, Nat.mod_lt _ hy⟩

/-- the table produced by the generic code for the node numbers of a regular grid -/
theorem gridTable {nelx nely : Nat} (hx : 0 < nelx) (hy : 0 < nely) :
    GridTable nelx nely (nelx - 1 + (nely - 1) + 3) (fun k j =>
      if j = 0 then perCol (fun _ => 0) (fun i => 0 * (nelx + 1) + (1 + i))
        (fun i => (1 + i) * (nelx + 1) + 0) (nelx - 1) k
      else perCol (fun k => if k = 0 then nelx else if k = 1 then nely * (nelx + 1) + nelx
          else nely * (nelx + 1))
        (fun i => nely * (nelx + 1) + (1 + i)) (fun i => (1 + i) * (nelx + 1) + nelx) (nelx - 1) k) := by
  -- normal form: row and column of both nodes
  have key : ∀ k, k < nelx - 1 + (nely - 1) + 3 → ∃ a b a' b',
      perCol (fun _ => 0) (fun i => 0 * (nelx + 1) + (1 + i))
        (fun i => (1 + i) * (nelx + 1) + 0) (nelx - 1) k = b * (nelx + 1) + a ∧
      perCol (fun k => if k = 0 then nelx else if k = 1 then nely * (nelx + 1) + nelx
          else nely * (nelx + 1))
        (fun i => nely * (nelx + 1) + (1 + i)) (fun i => (1 + i) * (nelx + 1) + nelx) (nelx - 1) k =
        b' * (nelx + 1) + a' ∧ a < nelx ∧ b < nely ∧
      ((k = 0 ∧ a = 0 ∧ b = 0 ∧ a' = nelx ∧ b' = 0) ∨
       (k = 1 ∧ a = 0 ∧ b = 0 ∧ a' = nelx ∧ b' = nely) ∨
       (k = 2 ∧ a = 0 ∧ b = 0 ∧ a' = 0 ∧ b' = nely) ∨
       (3 ≤ k ∧ k + 1 < nelx + 3 ∧ a = k - 2 ∧ b = 0 ∧ a' = k - 2 ∧ b' = nely) ∨
       (nelx + 2 ≤ k ∧ a = 0 ∧ b = k - nelx - 1 ∧ a' = nelx ∧ b' = k - nelx - 1)) := by
    intro k hk
    by_cases h3 : k < 3
    · obtain rfl | rfl | rfl : k = 0 ∨ k = 1 ∨ k = 2 := by omega
      · exact ⟨0, 0, nelx, 0, by simp [perCol], by simp [perCol], hx, hy, by simp⟩
      · exact ⟨0, 0, nelx, nely, by simp [perCol], by simp [perCol], hx, hy, by simp⟩
      · exact ⟨0, 0, 0, nely, by simp [perCol], by simp [perCol], hx, hy, by simp⟩
    · by_cases h4 : k < 3 + (nelx - 1)
      · refine ⟨k - 2, 0, k - 2, nely, ?_, ?_, by omega, hy, by omega⟩
        · simp only [perCol, h3, h4, if_false, if_true]; omega
        · simp only [perCol, h3, h4, if_false, if_true]; omega
      · refine ⟨0, k - nelx - 1, nelx, k - nelx - 1, ?_, ?_, hx, by omega, by omega⟩
        · simp only [perCol, h3, h4, if_false]
          rw [show 1 + (k - 3 - (nelx - 1)) = k - nelx - 1 by omega]
        · simp only [perCol, h3, h4, if_false]
          rw [show 1 + (k - 3 - (nelx - 1)) = k - nelx - 1 by omega]
  refine ⟨fun k j hk hj => ?_, fun k hk => ?_, fun m hm => ?_, fun k k' hk hk' he => ?_⟩
  · obtain ⟨a, b, a', b', e1, e2, ha, hb, hc⟩ := key k hk
    rw [Nat.mul_comm (nelx + 1)]
    obtain rfl | rfl : j = 0 ∨ j = 1 := by omega
    · simp only [if_true, e1]
      exact grid_lt (by omega) (by omega)
    · simp only [one_ne_zero, if_false, e2]
      exact grid_lt (by omega) (by omega)
  · obtain ⟨a, b, a', b', e1, e2, ha, hb, hc⟩ := key k hk
    simp only [one_ne_zero, if_false, if_true, e1, e2]
    rw [gridRep, grid_div (by omega), grid_mod (by omega)]
    rcases hc with ⟨-, rfl, rfl, rfl, rfl⟩ | ⟨-, rfl, rfl, rfl, rfl⟩ | ⟨-, rfl, rfl, rfl, rfl⟩ |
      ⟨h1, h2, rfl, rfl, rfl, rfl⟩ | ⟨h1, rfl, rfl, rfl, rfl⟩
    · simp
    · simp
    · simp
    · rw [Nat.mod_self, Nat.mod_eq_of_lt ha]
    · rw [Nat.mod_self, Nat.mod_eq_of_lt hb]
  · simp only [one_ne_zero, if_false]
    constructor
    · rintro ⟨k, hk, rfl⟩
      obtain ⟨a, b, a', b', e1, e2, ha, hb, hc⟩ := key k hk
      rw [e2, grid_div (by omega), grid_mod (by omega)]
      omega
    · intro h
      rw [Nat.mul_comm] at hm
      obtain ⟨iy, ix, hiy, hix, rfl⟩ := grid_exists hm
      rw [grid_div hix, grid_mod hix] at h
      -- choose the row of the table
      have hk : ∃ k, k < nelx - 1 + (nely - 1) + 3 ∧
          ((k = 0 ∧ ix = nelx ∧ iy = 0) ∨ (k = 1 ∧ ix = nelx ∧ iy = nely) ∨
            (k = 2 ∧ ix = 0 ∧ iy = nely) ∨ (3 ≤ k ∧ k + 1 < nelx + 3 ∧ ix = k - 2 ∧ iy = nely) ∨
            (nelx + 2 ≤ k ∧ ix = nelx ∧ iy = k - nelx - 1)) := by
        by_cases h1 : ix = nelx
        · by_cases h2 : iy = 0
          · exact ⟨0, by omega, by omega⟩
          · by_cases h3 : iy = nely
            · exact ⟨1, by omega, by omega⟩
            · exact ⟨iy + nelx + 1, by omega, by omega⟩
        · by_cases h2 : ix = 0
          · exact ⟨2, by omega, by omega⟩
          · exact ⟨ix + 2, by omega, by omega⟩
      obtain ⟨k, hk, hc'⟩ := hk
      obtain ⟨a, b, a', b', e1, e2, ha, hb, hc⟩ := key k hk
      refine ⟨k, hk, ?_⟩
      rw [e2]
      have : a' = ix ∧ b' = iy := by omega
      rw [this.1, this.2]
  · simp only [one_ne_zero, if_false] at he
    obtain ⟨a, b, a', b', e1, e2, ha, hb, hc⟩ := key k hk
    obtain ⟨c, d, c', d', f1, f2, hc', hd, hf⟩ := key k' hk'
    rw [e2, f2] at he
    obtain ⟨g1, g2⟩ := grid_inj (m := nelx + 1) (by omega) (by omega) he
    omega

theorem gridTable_dofs {nelx nely n : Nat} (hx : 0 < nelx) (hy : 0 < nely) {P : Nat → Nat → Nat}
    {nodePer : Ten Nat} (h : Is2 nodePer n 2 P) (hG : GridTable nelx nely n P) :
    ∃ y g, dofsPeriodic ((nelx + 1) * (nely + 1)) 2 nodePer = .ok y ∧
      Is2 y ((nelx + 1) * (nely + 1)) 2 g ∧
      (∀ m i m' i', m < (nelx + 1) * (nely + 1) → i < 2 → m' < (nelx + 1) * (nely + 1) → i' < 2 →
        (g m i = g m' i' ↔ gridRep nelx nely m = gridRep nelx nely m' ∧ i = i')) ∧
      (∀ v, (∃ m i, m < (nelx + 1) * (nely + 1) ∧ i < 2 ∧ g m i = v) ↔ v < nelx * nely * 2) := by
  have hself : ∀ m, m % (nelx + 1) < nelx → m / (nelx + 1) < nely → gridRep nelx nely m = m := by
    intro m h1 h2
    rw [gridRep, Nat.mod_eq_of_lt h1, Nat.mod_eq_of_lt h2, Nat.mul_comm]
    exact Nat.div_add_mod m _
  have hbnd : ∀ m, m < (nelx + 1) * (nely + 1) → m % (nelx + 1) ≤ nelx ∧ m / (nelx + 1) ≤ nely := by
    intro m hm
    have h1 := Nat.mod_lt m (show 0 < nelx + 1 by omega)
    have h2 : m / (nelx + 1) < nely + 1 := (Nat.div_lt_iff_lt_mul (by omega)).2 (by rwa [Nat.mul_comm])
    omega
  obtain ⟨y, g, h1, h2, h3, h4⟩ := dofsPeriodic_spec (ndim := 2) h hG.lt
    (fun m => if m < (nelx + 1) * (nely + 1) then gridRep nelx nely m else m)
    (fun k hk => by
      rw [if_pos (hG.lt k 1 hk (by omega)), hG.rep k hk])
    (fun m hm => by
      split
      · rename_i hlt
        have := (hG.dep m hlt).not.1 (by simpa using hm)
        have := hbnd m hlt
        exact hself m (by omega) (by omega)
      · rfl)
    (fun k k' hk hk' he => by
      have := gridRep_lt (k := P k 1) hx hy
      rw [hG.rep k hk, he] at this
      have := (hG.dep (P k' 1) (hG.lt k' 1 hk' (by omega))).1 ⟨k', hk', rfl⟩
      omega)
  refine ⟨y, g, h1, h2, fun m i m' i' hm hi hm' hi' => ?_, fun v => ?_⟩
  · rw [h3 m i m' i' hm hi hm' hi', if_pos hm, if_pos hm']
  · rw [h4 v]
    have : ((Finset.range ((nelx + 1) * (nely + 1))).filter fun m =>
        (if m < (nelx + 1) * (nely + 1) then gridRep nelx nely m else m) = m).card = nelx * nely := by
      rw [show nelx * nely = (Finset.range nely ×ˢ Finset.range nelx).card by
        rw [Finset.card_product, Finset.card_range, Finset.card_range, Nat.mul_comm]]
      symm
      apply Finset.card_bij (fun p _ => p.1 * (nelx + 1) + p.2)
      · rintro ⟨b, a⟩ hp
        simp only [Finset.mem_product, Finset.mem_range] at hp
        have hlt : b * (nelx + 1) + a < (nelx + 1) * (nely + 1) := by
          rw [Nat.mul_comm (nelx + 1)]; exact grid_lt (by omega) (by omega)
        simp only [Finset.mem_filter, Finset.mem_range]
        rw [if_pos hlt]
        refine ⟨hlt, hself _ ?_ ?_⟩
        · rw [grid_mod (by omega)]; omega
        · rw [grid_div (by omega)]; omega
      · rintro ⟨b, a⟩ hp ⟨b', a'⟩ hp' he
        simp only [Finset.mem_product, Finset.mem_range] at hp hp'
        obtain ⟨e1, e2⟩ := grid_inj (m := nelx + 1) (by omega) (by omega) he
        dsimp only at e1 e2
        rw [e1, e2]
      · intro m hm
        simp only [Finset.mem_filter, Finset.mem_range] at hm
        obtain ⟨hlt, he⟩ := hm
        rw [if_pos hlt] at he
        have := gridRep_lt (k := m) hx hy
        rw [he] at this
        refine ⟨(m / (nelx + 1), m % (nelx + 1)), by simp [this], ?_⟩
        dsimp only
        rw [Nat.mul_comm]; exact Nat.div_add_mod m _
    rw [this]

end GF
