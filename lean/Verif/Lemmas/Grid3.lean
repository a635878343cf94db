import Verif.Model.MeshHex8
import Verif.Spec.Mesh3d
import Verif.Lemmas.MeshRegular2d

/-! Arithmetic of a three-dimensional grid of nodes. -/

namespace GF
variable {α : Type}

/-- node number of grid point `(x, y, z)` -/
def enc (N1 N2 x y z : Nat) : Nat := (z * N2 + y) * N1 + x

theorem enc_x {N1 N2 x y z : Nat} (hx : x < N1) : enc N1 N2 x y z % N1 = x := grid_mod hx
theorem enc_y {N1 N2 x y z : Nat} (hx : x < N1) (hy : y < N2) : enc N1 N2 x y z / N1 % N2 = y := by
  rw [enc, grid_div hx, grid_mod hy]
theorem enc_z {N1 N2 x y z : Nat} (hx : x < N1) (hy : y < N2) : enc N1 N2 x y z / N1 / N2 = z := by
  rw [enc, grid_div hx, grid_div hy]
theorem enc_lt {N1 N2 N3 x y z : Nat} (hx : x < N1) (hy : y < N2) (hz : z < N3) :
    enc N1 N2 x y z < N1 * N2 * N3 := by
  have := grid_lt (grid_lt hz hy) hx
  rw [enc]; calc _ < _ := this
    _ = _ := by ring
theorem enc_exists {N1 N2 N3 k : Nat} (hk : k < N1 * N2 * N3) :
    ∃ x y z, x < N1 ∧ y < N2 ∧ z < N3 ∧ k = enc N1 N2 x y z := by
  rw [show N1 * N2 * N3 = N3 * N2 * N1 by ring] at hk
  obtain ⟨q, x, hq, hx, rfl⟩ := grid_exists hk
  obtain ⟨z, y, hz, hy, rfl⟩ := grid_exists hq
  exact ⟨x, y, z, hx, hy, hz, rfl⟩

theorem enc_inj {N1 N2 x y z x' y' z' : Nat} (hx : x < N1) (hy : y < N2) (hx' : x' < N1) (hy' : y' < N2)
    (h : enc N1 N2 x y z = enc N1 N2 x' y' z') : x = x' ∧ y = y' ∧ z = z' := by
  obtain ⟨h1, h2⟩ := grid_inj hx hx' h
  obtain ⟨h3, h4⟩ := grid_inj hy hy' h1
  exact ⟨h2, h4, h3⟩

theorem grid_mono {m i j i' j' : Nat} (hj : j < m) (h : i < i' ∨ (i = i' ∧ j < j')) :
    i * m + j < i' * m + j' := by
  rcases h with h | ⟨rfl, h⟩
  · have := grid_lt (m := m) h hj; omega
  · omega

theorem lex1 {w k k' : Nat} (h : k < k') : k / w < k' / w ∨ (k / w = k' / w ∧ k % w < k' % w) := by
  have h1 := Nat.div_le_div_right (c := w) h.le
  rcases Nat.lt_or_ge (k / w) (k' / w) with h2 | h2
  · exact .inl h2
  · refine .inr ⟨by omega, ?_⟩
    have e1 := Nat.div_add_mod k w
    have e2 := Nat.div_add_mod k' w
    rw [show k / w = k' / w by omega] at e1
    omega

/-- grid version of `Loc.holds` -/
def Loc.on : Loc → Nat → Nat → Prop
  | .lo, g, _ => g = 0
  | .hi, g, n => g = n
  | .all, g, n => g ≤ n
  | .mid, g, n => 0 < g ∧ g < n

def Loc.start : Loc → Nat → Nat
  | .lo, _ => 0
  | .hi, n => n
  | .all, _ => 0
  | .mid, _ => 1

def Loc.width : Loc → Nat → Nat
  | .lo, _ => 1
  | .hi, _ => 1
  | .all, n => n + 1
  | .mid, n => n - 1

theorem Loc.on_iff (l : Loc) {g n : Nat} : l.on g n ↔ l.start n ≤ g ∧ g < l.start n + l.width n := by
  cases l <;> simp only [Loc.on, Loc.start, Loc.width] <;> omega

theorem Loc.bound (l : Loc) {n : Nat} : l.width n = 0 ∨ l.start n + l.width n ≤ n + 1 := by
  cases l <;> simp only [Loc.start, Loc.width] <;> omega

/-- the nodes of a box of the grid, in ascending order -/
def boxEnum (N1 N2 : Nat) (sx sy sz wx wy k : Nat) : Nat :=
  enc N1 N2 (sx + k % wx) (sy + k / wx % wy) (sz + k / wx / wy)

theorem box_lt {wx wy wz k : Nat} (hk : k < wx * wy * wz) :
    0 < wx ∧ 0 < wy ∧ k % wx < wx ∧ k / wx % wy < wy ∧ k / wx / wy < wz := by
  obtain ⟨x, y, z, hx, hy, hz, rfl⟩ := enc_exists hk
  rw [enc_x hx, enc_y hx hy, enc_z hx hy]
  omega

theorem boxEnum_mono {N1 N2 sx sy sz wx wy wz k k' : Nat} (h1 : sx + wx ≤ N1) (h2 : sy + wy ≤ N2)
    (hk : k < k') (hk' : k' < wx * wy * wz) :
    boxEnum N1 N2 sx sy sz wx wy k < boxEnum N1 N2 sx sy sz wx wy k' := by
  obtain ⟨-, -, a1, a2, a3⟩ := box_lt (k := k) (hk.trans hk')
  obtain ⟨-, -, b1, b2, b3⟩ := box_lt hk'
  rw [boxEnum, boxEnum, enc, enc]
  apply grid_mono (by omega)
  rcases lex1 (w := wx) hk with h | ⟨h, h'⟩
  · left
    apply grid_mono (by omega)
    rcases lex1 (w := wy) h with h | ⟨h, h'⟩ <;> omega
  · right
    rw [h]
    exact ⟨rfl, by omega⟩

theorem boxEnum_mem {N1 N2 N3 sx sy sz wx wy wz K : Nat} (h1 : sx + wx ≤ N1) (h2 : sy + wy ≤ N2)
    (h3 : sz + wz ≤ N3) :
    (∃ k, k < wx * wy * wz ∧ boxEnum N1 N2 sx sy sz wx wy k = K) ↔ K < N1 * N2 * N3 ∧
      (sx ≤ K % N1 ∧ K % N1 < sx + wx) ∧ (sy ≤ K / N1 % N2 ∧ K / N1 % N2 < sy + wy) ∧
      (sz ≤ K / N1 / N2 ∧ K / N1 / N2 < sz + wz) := by
  constructor
  · rintro ⟨k, hk, rfl⟩
    obtain ⟨-, -, a1, a2, a3⟩ := box_lt hk
    rw [boxEnum, enc_x (by omega), enc_y (by omega) (by omega), enc_z (by omega) (by omega)]
    have z := Nat.zero_le (k / wx / wy)
    have z' := Nat.zero_le (k / wx % wy)
    have z'' := Nat.zero_le (k % wx)
    exact ⟨enc_lt (by omega) (by omega) (by omega), by omega, by omega, by omega⟩
  · rintro ⟨hK, hx, hy, hz⟩
    obtain ⟨x, y, z, bx, by', bz, rfl⟩ := enc_exists hK
    rw [enc_x bx, enc_y bx by', enc_z bx by'] at *
    refine ⟨enc wx wy (x - sx) (y - sy) (z - sz), enc_lt (by omega) (by omega) (by omega), ?_⟩
    rw [boxEnum, enc_x (by omega), enc_y (by omega) (by omega), enc_z (by omega) (by omega)]
    congr 1 <;> omega

/-- the nodes of the box given by three locations -/
def locEnum (nelx nely nelz : Nat) (lx ly lz : Loc) (k : Nat) : Nat :=
  boxEnum (nelx + 1) (nely + 1) (lx.start nelx) (ly.start nely) (lz.start nelz) (lx.width nelx)
    (ly.width nely) k

def locCount (nelx nely nelz : Nat) (lx ly lz : Loc) : Nat :=
  lx.width nelx * ly.width nely * lz.width nelz

def locAt (nelx nely nelz : Nat) (lx ly lz : Loc) (K : Nat) : Prop :=
  K < (nelx + 1) * (nely + 1) * (nelz + 1) ∧ lx.on (K % (nelx + 1)) nelx ∧
    ly.on (K / (nelx + 1) % (nely + 1)) nely ∧ lz.on (K / (nelx + 1) / (nely + 1)) nelz

theorem locEnum_mono {nelx nely nelz : Nat} {lx ly lz : Loc} {k k' : Nat} (hk : k < k')
    (hk' : k' < locCount nelx nely nelz lx ly lz) :
    locEnum nelx nely nelz lx ly lz k < locEnum nelx nely nelz lx ly lz k' := by
  have b1 := lx.bound (n := nelx)
  have b2 := ly.bound (n := nely)
  obtain ⟨c1, c2, -⟩ := box_lt hk'
  exact boxEnum_mono (by omega) (by omega) hk hk'

theorem locEnum_mem {nelx nely nelz : Nat} {lx ly lz : Loc} {K : Nat} :
    (∃ k, k < locCount nelx nely nelz lx ly lz ∧ locEnum nelx nely nelz lx ly lz k = K) ↔
      locAt nelx nely nelz lx ly lz K := by
  have b1 := lx.bound (n := nelx)
  have b2 := ly.bound (n := nely)
  have b3 := lz.bound (n := nelz)
  rw [locAt, lx.on_iff, ly.on_iff, lz.on_iff]
  by_cases h1 : lx.width nelx = 0
  · simp only [locCount, h1]; constructor
    · rintro ⟨k, hk, -⟩; simp at hk
    · omega
  by_cases h2 : ly.width nely = 0
  · simp only [locCount, h2]; constructor
    · rintro ⟨k, hk, -⟩; simp at hk
    · omega
  by_cases h3 : lz.width nelz = 0
  · simp only [locCount, h3]; constructor
    · rintro ⟨k, hk, -⟩; simp at hk
    · omega
  exact boxEnum_mem (by omega) (by omega) (by omega)

/-- the three coordinates of grid node `k` -/
def gridCoor3 [Mul α] [NatCast α] (h : α) (nelx nely k j : Nat) : α :=
  if j = 0 then h * ((k % (nelx + 1) : Nat) : α)
  else if j = 1 then h * ((k / (nelx + 1) % (nely + 1) : Nat) : α)
  else h * ((k / (nelx + 1) / (nely + 1) : Nat) : α)

section ordered
variable [Field α] [LinearOrder α] [IsStrictOrderedRing α]

theorem Loc.on_holds {h : α} (hh : 0 < h) (l : Loc) {g n : Nat} (hg : g ≤ n) :
    l.holds (h * (g : α)) (h * (n : α)) ↔ l.on g n := by
  have h0 : ∀ a : Nat, h * (a : α) = 0 ↔ a = 0 := fun a => by
    have := hmul_eq hh (a := a) (b := 0); simpa using this
  have h1 : ∀ a : Nat, 0 < h * (a : α) ↔ 0 < a := fun a => by
    have := hmul_lt hh (a := 0) (b := a); rw [← this]; simp
  cases l
  · exact h0 g
  · exact hmul_eq hh
  · simp [Loc.holds, Loc.on, hg]
  · simp only [Loc.holds, Loc.on, h1, hmul_lt hh]

theorem at3_iff {h : α} (hh : 0 < h) {nelx nely nelz : Nat} {lx ly lz : Loc} {K : Nat} :
    At3 ((nelx + 1) * (nely + 1) * (nelz + 1)) (h * (nelx : α)) (h * (nely : α)) (h * (nelz : α))
      (gridCoor3 h nelx nely) lx ly lz K ↔ locAt nelx nely nelz lx ly lz K := by
  rw [At3, locAt]
  apply and_congr_right
  intro hK
  obtain ⟨x, y, z, hx, hy, hz, rfl⟩ := enc_exists hK
  simp only [gridCoor3, if_true, one_ne_zero, if_false, show ¬(2 = 0) by omega, show ¬(2 = 1) by omega]
  rw [enc_x hx, enc_y hx hy, enc_z hx hy, Loc.on_holds hh _ (by omega), Loc.on_holds hh _ (by omega),
    Loc.on_holds hh _ (by omega)]

theorem locSet {h : α} (hh : 0 < h) {nelx nely nelz : Nat} {lx ly lz : Loc} {r : Res (Ten Nat)} {t : Ten Nat}
    (hr : r = .ok t)
    (ht : Is1 t (locCount nelx nely nelz lx ly lz) (locEnum nelx nely nelz lx ly lz)) :
    NodeSet r (At3 ((nelx + 1) * (nely + 1) * (nelz + 1)) (h * (nelx : α)) (h * (nely : α))
      (h * (nelz : α)) (gridCoor3 h nelx nely) lx ly lz) (· < ·) :=
  ⟨t, _, _, hr, ht, fun _ _ hij hj => locEnum_mono hij hj, fun K => by
    rw [locEnum_mem, at3_iff hh]⟩

end ordered

theorem fill2_spec (n m N : Nat) (hN : N = n * m) (F : Nat → Nat → Nat) :
    ∃ t, forEach (it2 n m) (fun ret p => ret.set [p.1 * m + p.2] (F p.1 p.2)) (Ten.empty [N]) = .ok t ∧
      Is1 t N (fun k => F (k / m) (k % m)) := by
  obtain ⟨t, h1, h2, h3, -⟩ := forEach_set (it2 n m) (fun (ret : Ten Nat) p =>
      ret.set [p.1 * m + p.2] (F p.1 p.2)) (fun p => [p.1 * m + p.2]) (fun p => F p.1 p.2) (Ten.empty [N])
    (by
      rintro ⟨i, j⟩ hij; rw [mem_it2] at hij
      have := grid_lt hij.1 hij.2
      simp [Ten.empty, hN, this]) (fun _ _ _ _ => rfl)
  refine ⟨t, h1, h2, fun k hk => ?_⟩
  obtain ⟨i, j, hi, hj, rfl⟩ := grid_exists (hN ▸ hk)
  obtain ⟨⟨i', j'⟩, h4, h5, h6⟩ := h3 [i * m + j] ⟨(i, j), by rw [mem_it2]; exact ⟨hi, hj⟩, rfl⟩
  rw [mem_it2] at h4
  simp only [List.cons.injEq, and_true] at h5
  obtain ⟨rfl, rfl⟩ := grid_inj h4.2 hj h5
  rw [h6]; dsimp only at hj ⊢; rw [grid_div hj, grid_mod hj]

theorem mem_it2From1 {n m i j : Nat} : (i, j) ∈ it2From1 n m ↔ (1 ≤ i ∧ i < n) ∧ 1 ≤ j ∧ j < m := by
  simp only [it2From1, List.mem_flatMap, List.mem_range'_1, List.mem_map, Prod.mk.injEq]
  constructor
  · rintro ⟨a, ha, b, hb, rfl, rfl⟩; omega
  · rintro ⟨h1, h2⟩; exact ⟨i, by omega, j, by omega, rfl, rfl⟩

theorem fill2From1_spec (n m N : Nat) (hN : N = (n - 1) * (m - 1)) (F : Nat → Nat → Nat) :
    ∃ t, forEach (it2From1 n m) (fun ret p => ret.set [(p.1 - 1) * (m - 1) + (p.2 - 1)] (F p.1 p.2))
        (Ten.empty [N]) = .ok t ∧
      Is1 t N (fun k => F (1 + k / (m - 1)) (1 + k % (m - 1))) := by
  obtain ⟨t, h1, h2, h3, -⟩ := forEach_set (it2From1 n m) (fun (ret : Ten Nat) p =>
      ret.set [(p.1 - 1) * (m - 1) + (p.2 - 1)] (F p.1 p.2))
      (fun p => [(p.1 - 1) * (m - 1) + (p.2 - 1)]) (fun p => F p.1 p.2) (Ten.empty [N])
    (by
      rintro ⟨i, j⟩ hij; rw [mem_it2From1] at hij
      have := grid_lt (n := n - 1) (m := m - 1) (i := i - 1) (j := j - 1) (by omega) (by omega)
      simp [Ten.empty, hN, this]) (fun _ _ _ _ => rfl)
  refine ⟨t, h1, h2, fun k hk => ?_⟩
  obtain ⟨i, j, hi, hj, rfl⟩ := grid_exists (hN ▸ hk)
  obtain ⟨⟨i', j'⟩, h4, h5, h6⟩ := h3 [i * (m - 1) + j]
    ⟨(1 + i, 1 + j), by rw [mem_it2From1]; omega, by simp⟩
  rw [mem_it2From1] at h4
  simp only [List.cons.injEq, and_true] at h5
  obtain ⟨h7, h8⟩ := grid_inj (by omega) hj h5
  rw [h6]; dsimp only; rw [grid_div hj, grid_mod hj, show i' = 1 + i by omega, show j' = 1 + j by omega]

theorem fill1_spec (n : Nat) (f : Nat → Nat) :
    ∃ t, forEach (it1 n) (fun ret i => ret.set [i] (f i)) (Ten.empty [n]) = .ok t ∧ Is1 t n f := by
  obtain ⟨t, h1, h2, h3, -⟩ := forEach_set (it1 n) (fun (ret : Ten Nat) i => ret.set [i] (f i))
    (fun i => [i]) f (Ten.empty [n])
    (by intro i hi; rw [mem_it1] at hi; simp [Ten.empty, hi]) (fun _ _ _ _ => rfl)
  refine ⟨t, h1, h2, fun i hi => ?_⟩
  obtain ⟨j, h4, h5, h6⟩ := h3 [i] ⟨i, by simpa using hi, rfl⟩
  simp only [List.cons.injEq, and_true] at h5
  rw [h6, h5]

theorem fill1From1_spec (n : Nat) (f : Nat → Nat) :
    ∃ t, forEach (List.range' 1 (n - 1)) (fun ret i => ret.set [i - 1] (f i)) (Ten.empty [n - 1]) = .ok t ∧
      Is1 t (n - 1) (fun i => f (1 + i)) := by
  obtain ⟨t, h1, h2, h3, -⟩ := forEach_set (List.range' 1 (n - 1))
    (fun (ret : Ten Nat) i => ret.set [i - 1] (f i)) (fun i => [i - 1]) f (Ten.empty [n - 1])
    (by intro i hi; rw [List.mem_range'_1] at hi; simp [Ten.empty]; omega) (fun _ _ _ _ => rfl)
  refine ⟨t, h1, h2, fun i hi => ?_⟩
  obtain ⟨j, h4, h5, h6⟩ := h3 [i] ⟨1 + i, by rw [List.mem_range'_1]; omega, by simp⟩
  simp only [List.cons.injEq, and_true] at h5
  rw [List.mem_range'_1] at h4
  rw [h6, show j = 1 + i by omega]

end GF
