import Verif.Lemmas.FineLayer3Conn
import Mathlib.Tactic.IntervalCases

/-! Lemmas on `Mesh::Hex8::FineLayer`: positions of the nodes of an element. -/

namespace GF.FineLayer3
open FineLayerSpec Finset FineLayer
variable {α : Type}

/-- the units of length (along one axis) at which a plane has nodes in every block -/
def AxValid (m : Mode) (p : Pl) (c : Nat) : Prop :=
  match m, p with
  | .same, _ => c ≤ 1
  | .below, .bot => c = 0 ∨ c = 3
  | .below, .mid => c = 1 ∨ c = 2
  | .below, .top => c ≤ 3
  | .above, .bot => c ≤ 3
  | .above, .mid => c = 1 ∨ c = 2
  | .above, .top => c = 0 ∨ c = 3

instance (m : Mode) (p : Pl) (c : Nat) : Decidable (AxValid m p c) := by
  cases m <;> cases p <;> (unfold AxValid; infer_instance)

/-- number of units of length of a block along one axis -/
def Mode.cols : Mode → Nat
  | .same => 1
  | _ => 3

theorem nx_eq (K : Kind3) : K.nx = K.mx.cols := by cases K <;> rfl
theorem nz_eq (K : Kind3) : K.nz = K.mz.cols := by cases K <;> rfl

/-- position along one axis, in units of `h` -/
def axPos (n : Nat) (W : Nat → Nat) (i : Nat) (m : Mode) (p : Pl) (k : Nat) : Nat :=
  match p with
  | .bot => k * rowW n W i
  | .top => k * rowW n W (i + 1)
  | .mid => axMid (W i) m k

/-- height of a plane, in units of `h` -/
def plY (G : Nat → Nat) (i : Nat) (p : Pl) : Nat :=
  match p with
  | .bot => height G i
  | .top => height G (i + 1)
  | .mid => height G i + G i / 2

theorem ax_pos {n : Nat} {W : Nat → Nat} {i : Nat} {m : Mode} (h : ModeOk n W i m) {p : Pl} {b c : Nat}
    (hc : AxValid m p c) :
    axPos n W i m p (axIdx m p b c) = b * W i + c * (W i / m.cols) := by
  cases m with
  | same =>
    obtain ⟨h1, h2⟩ := h
    cases p <;> simp only [axPos, axIdx, axMid, h1, h2, Mode.cols, Nat.div_one] <;> ring
  | below =>
    obtain ⟨-, h1, h2⟩ := h
    have hd : W i / 3 = rowW n W (i + 1) := by omega
    cases p with
    | bot =>
      rcases hc with rfl | rfl
      · simp [axPos, axIdx, h1]
      · simp only [axPos, axIdx, h1, Mode.cols, hd]; rw [← h2]; ring
    | mid =>
      rcases hc with rfl | rfl
      · simp only [axPos, axIdx, axMid, Mode.cols, hd]
        rw [show (2 * b + (1 - 1)) / 2 = b by omega, show (2 * b + (1 - 1)) % 2 = 0 by omega]
      · simp only [axPos, axIdx, axMid, Mode.cols, hd]
        rw [show (2 * b + (2 - 1)) / 2 = b by omega, show (2 * b + (2 - 1)) % 2 = 1 by omega]
    | top => simp only [axPos, axIdx, Mode.cols, hd]; rw [h2]; ring
  | above =>
    obtain ⟨-, h1, h2⟩ := h
    have hd : W i / 3 = rowW n W i := by omega
    cases p with
    | bot => simp only [axPos, axIdx, Mode.cols, hd]; rw [h2]; ring
    | mid =>
      rcases hc with rfl | rfl
      · simp only [axPos, axIdx, axMid, Mode.cols, hd]
        rw [show (2 * b + (1 - 1)) / 2 = b by omega, show (2 * b + (1 - 1)) % 2 = 0 by omega]
      · simp only [axPos, axIdx, axMid, Mode.cols, hd]
        rw [show (2 * b + (2 - 1)) / 2 = b by omega, show (2 * b + (2 - 1)) % 2 = 1 by omega]
    | top =>
      rcases hc with rfl | rfl
      · simp [axPos, axIdx, h1]
      · simp only [axPos, axIdx, h1, Mode.cols, hd]; rw [← h2]; ring

theorem ax_lt {m : Mode} {p : Pl} {b c l : Nat} (hc : AxValid m p c) (hb : b < l) : axIdx m p b c < axCnt m p l := by
  cases m <;> cases p <;> simp only [AxValid] at hc <;> simp only [axIdx, axCnt, Mode.lo, Mode.hi] <;> omega

/-- the corners are nodes -/
theorem corner_valid (K : Kind3) {q j : Nat} (hq : q < K.tiles) (hj : j < 8) :
    AxValid K.mx (plOf K q j) (K.corner q j 0) ∧ AxValid K.mz (plOf K q j) (K.corner q j 2) ∧
    (plOf K q j = .mid → K ≠ .normal) := by
  have key : ∀ K ∈ [Kind3.normal, .xBelow, .xAbove, .zBelow, .zAbove], ∀ q ∈ List.range K.tiles, ∀ j ∈ List.range 8,
    AxValid K.mx (plOf K q j) (K.corner q j 0) ∧ AxValid K.mz (plOf K q j) (K.corner q j 2) ∧
    (plOf K q j = .mid → K ≠ .normal) := by decide +kernel
  exact key K (by cases K <;> simp) q (List.mem_range.2 hq) j (List.mem_range.2 hj)

theorem corner_y (K : Kind3) {q j : Nat} (hq : q < K.tiles) (hj : j < 8) {G : Nat → Nat} {i : Nat} (hd : K.ny ∣ G i) :
    plY G i (plOf K q j) = height G i + K.corner q j 1 * (G i / K.ny) := by
  have key : ∀ K ∈ [Kind3.normal, .xBelow, .xAbove, .zBelow, .zAbove], ∀ q ∈ List.range K.tiles, ∀ j ∈ List.range 8,
    K.corner q j 1 = 0 ∨ K.corner q j 1 = K.ny ∨ (K.corner q j 1 = 1 ∧ K.ny = 2) := by decide +kernel
  have := key K (by cases K <;> simp) q (List.mem_range.2 hq) j (List.mem_range.2 hj)
  have hn : K.ny ≠ 0 := by cases K <;> simp [Kind3.ny]
  unfold plOf
  rcases this with h | h | ⟨h, h'⟩
  · rw [if_pos h, h]; simp [plY]
  · rw [if_neg (by omega), if_pos h, h]; simp only [plY]; rw [height_succ, Nat.mul_div_cancel' hd]
  · rw [if_neg (by omega), if_neg (by omega), h, h']; simp [plY]

section
variable {nelx nelz n : Nat} {WX WZ G : Nat → Nat} {R : Nat → Int}

/-- first node of a plane of layer `i` -/
def base3 (nelx nelz n : Nat) (WX WZ : Nat → Nat) (R : Nat → Int) (i : Nat) : Pl → Nat :=
  planes (rowS3 nelx nelz n WX WZ R i) (rowS3 nelx nelz n WX WZ R i + rowN3 nelx nelz n WX WZ i)
    (rowS3 nelx nelz n WX WZ R (i + 1))

/-- the node at `kx, kz` of a plane of layer `i` -/
def node3 (nelx nelz n : Nat) (WX WZ : Nat → Nat) (R : Nat → Int) (i : Nat) (p : Pl) (kx kz : Nat) : Nat :=
  base3 nelx nelz n WX WZ R i p + kx + kz * axCnt (kindR3 n R i).mx p (nelx / WX i)

/-- the nodes of the planes have the documented positions -/
def Placed3 [Mul α] [NatCast α] (h : α) (nelx nelz n : Nat) (WX WZ G : Nat → Nat) (R : Nat → Int) (x : Nat → Nat → α) : Prop :=
  ∀ i k j, i < 2 * n → k < blkC nelx nelz n WX WZ R i → j < 3 →
    x (height (blkC nelx nelz n WX WZ R) i + k) j = h * ((pos3 nelx nelz n WX WZ G R i k j : Nat) : α)

/-- numbers of nodes in the planes of a layer -/
theorem Layers3.counts (hL : Layers3 nelx nelz n WX WZ G R) {i : Nat} (hi : i < 2 * n - 1) :
    rowN nelx n WX i = axCnt (kindR3 n R i).mx .bot (nelx / WX i) ∧
    rowN nelz n WZ i = axCnt (kindR3 n R i).mz .bot (nelz / WZ i) ∧
    rowN nelx n WX (i + 1) = axCnt (kindR3 n R i).mx .top (nelx / WX i) ∧
    rowN nelz n WZ (i + 1) = axCnt (kindR3 n R i).mz .top (nelz / WZ i) ∧
    axM nelx (WX i) (kindR3 n R i).mx = axCnt (kindR3 n R i).mx .mid (nelx / WX i) ∧
    axM nelz (WZ i) (kindR3 n R i).mz = axCnt (kindR3 n R i).mz .mid (nelz / WZ i) := by
  obtain ⟨m1, m2, -⟩ := hL.modes i hi
  obtain ⟨a1, a2⟩ := m1.cells (hL.wpos i hi).1 (hL.fits i hi).1
  obtain ⟨b1, b2⟩ := m2.cells (hL.wpos i hi).2 (hL.fits i hi).2
  refine ⟨by rw [rowN, a1]; rfl, by rw [rowN, b1]; rfl, by rw [rowN, a2]; rfl, by rw [rowN, b2]; rfl, ?_, ?_⟩
  · cases (kindR3 n R i).mx <;> rfl
  · cases (kindR3 n R i).mz <;> rfl

/-- block and local number of a node of a plane -/
theorem Layers3.node_block (hL : Layers3 nelx nelz n WX WZ G R) {i : Nat} (hi : i < 2 * n - 1) {p : Pl} {kx kz : Nat}
    (hp : p = .mid → kindR3 n R i ≠ .normal) (hkx : kx < axCnt (kindR3 n R i).mx p (nelx / WX i))
    (hkz : kz < axCnt (kindR3 n R i).mz p (nelz / WZ i)) :
    ∃ l k, l < 2 * n ∧ k < blkC nelx nelz n WX WZ R l ∧
      node3 nelx nelz n WX WZ R i p kx kz = height (blkC nelx nelz n WX WZ R) l + k ∧
      ∀ j, j < 3 → pos3 nelx nelz n WX WZ G R l k j =
        vec3 (axPos n WX i (kindR3 n R i).mx p kx) (plY G i p) (axPos n WZ i (kindR3 n R i).mz p kz) j := by
  obtain ⟨c1, c2, c3, c4, c5, c6⟩ := hL.counts hi
  have hlt : kz * axCnt (kindR3 n R i).mx p (nelx / WX i) + kx <
      axCnt (kindR3 n R i).mz p (nelz / WZ i) * axCnt (kindR3 n R i).mx p (nelx / WX i) := grid_lt hkz hkx
  have hb : node3 nelx nelz n WX WZ R i p kx kz =
      base3 nelx nelz n WX WZ R i p + (kz * axCnt (kindR3 n R i).mx p (nelx / WX i) + kx) := by
    rw [node3]; ring
  cases p with
  | bot =>
    have hr : kz * axCnt (kindR3 n R i).mx .bot (nelx / WX i) + kx < rowN3 nelx nelz n WX WZ i := by
      rw [rowN3, c1, c2, Nat.mul_comm (axCnt _ _ _)]; exact hlt
    refine ⟨i, kz * axCnt (kindR3 n R i).mx .bot (nelx / WX i) + kx, by omega, by rw [blkC]; omega, ?_, fun j hj => ?_⟩
    · rw [hb]; simp only [base3, planes]; rw [rowS3_eq (by omega)]
    · rw [pos3, if_pos hr, c1, grid_div hkx, grid_mod hkx]; rfl
  | top =>
    have hr : kz * axCnt (kindR3 n R i).mx .top (nelx / WX i) + kx < rowN3 nelx nelz n WX WZ (i + 1) := by
      rw [rowN3, c3, c4, Nat.mul_comm (axCnt _ _ _)]; exact hlt
    refine ⟨i + 1, kz * axCnt (kindR3 n R i).mx .top (nelx / WX i) + kx, by omega, by rw [blkC]; omega, ?_, fun j hj => ?_⟩
    · rw [hb]; simp only [base3, planes]; rw [rowS3_eq (by omega)]
    · rw [pos3, if_pos hr, c3, grid_div hkx, grid_mod hkx]; rfl
  | mid =>
    refine ⟨i, rowN3 nelx nelz n WX WZ i + (kz * axCnt (kindR3 n R i).mx .mid (nelx / WX i) + kx), by omega, ?_, ?_, fun j hj => ?_⟩
    · rw [blkC, if_pos hi, midN3, if_neg (hp rfl), c5, c6, Nat.mul_comm (axCnt _ _ _)]
      exact Nat.add_lt_add_left hlt _
    · rw [hb]; simp only [base3, planes]; rw [rowS3_eq (by omega), Nat.add_assoc]
    · rw [pos3, if_neg (by omega), Nat.add_sub_cancel_left, c5, grid_div hkx, grid_mod hkx]; rfl

/-- every node is a node of a plane -/
theorem Layers3.exists_node (hL : Layers3 nelx nelz n WX WZ G R) {m : Nat} (hm : m < height (blkC nelx nelz n WX WZ R) (2 * n)) :
    ∃ i p kx kz, i < 2 * n - 1 ∧ (p = .mid → kindR3 n R i ≠ .normal) ∧ kx < axCnt (kindR3 n R i).mx p (nelx / WX i) ∧
      kz < axCnt (kindR3 n R i).mz p (nelz / WZ i) ∧ m = node3 nelx nelz n WX WZ R i p kx kz := by
  have hp := hL.npos
  obtain ⟨l, k, hl, hk, rfl⟩ := exists_block hm
  have hform : ∀ i p e, node3 nelx nelz n WX WZ R i p (e % axCnt (kindR3 n R i).mx p (nelx / WX i))
      (e / axCnt (kindR3 n R i).mx p (nelx / WX i)) = base3 nelx nelz n WX WZ R i p + e := by
    intro i p e
    rw [node3, Nat.add_assoc]
    congr 1
    rw [Nat.mul_comm]
    exact Nat.mod_add_div e _
  have hmod : ∀ {A B e : Nat}, e < A * B → e % A < A ∧ e / A < B := by
    intro A B e he
    have hA : 0 < A := by
      rcases Nat.eq_zero_or_pos A with rfl | h
      · simp at he
      · exact h
    exact ⟨Nat.mod_lt _ hA, Nat.div_lt_of_lt_mul he⟩
  by_cases hlast : l = 2 * n - 1
  · subst hlast
    have hi : 2 * n - 2 < 2 * n - 1 := by omega
    obtain ⟨c1, c2, c3, c4, c5, c6⟩ := hL.counts hi
    rw [blkC, if_neg (by omega), Nat.add_zero, show 2 * n - 1 = 2 * n - 2 + 1 by omega, rowN3, c3, c4] at hk
    obtain ⟨g1, g2⟩ := hmod hk
    refine ⟨2 * n - 2, .top, _, _, hi, by simp, g1, g2, ?_⟩
    rw [hform]; simp only [base3, planes]
    rw [rowS3_eq (by omega), show 2 * n - 2 + 1 = 2 * n - 1 by omega]
  · have hi : l < 2 * n - 1 := by omega
    obtain ⟨c1, c2, c3, c4, c5, c6⟩ := hL.counts hi
    by_cases hr : k < rowN3 nelx nelz n WX WZ l
    · rw [rowN3, c1, c2] at hr
      obtain ⟨g1, g2⟩ := hmod hr
      refine ⟨l, .bot, _, _, hi, by simp, g1, g2, ?_⟩
      rw [hform]; simp only [base3, planes]; rw [rowS3_eq (by omega)]
    · rw [blkC, if_pos hi, midN3] at hk
      by_cases hn : kindR3 n R l = .normal
      · rw [if_pos hn] at hk; omega
      · rw [if_neg hn, c5, c6] at hk
        have hk' : k - rowN3 nelx nelz n WX WZ l < axCnt (kindR3 n R l).mx .mid (nelx / WX l) *
          axCnt (kindR3 n R l).mz .mid (nelz / WZ l) := by omega
        obtain ⟨g1, g2⟩ := hmod hk'
        refine ⟨l, .mid, _, _, hi, fun _ => hn, g1, g2, ?_⟩
        rw [hform]; simp only [base3, planes]; rw [rowS3_eq (by omega)]; omega

theorem Placed3.at [Field α] {h : α} {x : Nat → Nat → α} (hx : Placed3 h nelx nelz n WX WZ G R x)
    (hL : Layers3 nelx nelz n WX WZ G R) {i : Nat} (hi : i < 2 * n - 1) {p : Pl} {kx kz : Nat}
    (hp : p = .mid → kindR3 n R i ≠ .normal) (hkx : kx < axCnt (kindR3 n R i).mx p (nelx / WX i))
    (hkz : kz < axCnt (kindR3 n R i).mz p (nelz / WZ i)) :
    node3 nelx nelz n WX WZ R i p kx kz < height (blkC nelx nelz n WX WZ R) (2 * n) ∧
    x (node3 nelx nelz n WX WZ R i p kx kz) 0 = h * ((axPos n WX i (kindR3 n R i).mx p kx : Nat) : α) ∧
    x (node3 nelx nelz n WX WZ R i p kx kz) 1 = h * ((plY G i p : Nat) : α) ∧
    x (node3 nelx nelz n WX WZ R i p kx kz) 2 = h * ((axPos n WZ i (kindR3 n R i).mz p kz : Nat) : α) := by
  obtain ⟨l, k, hl, hk, he, hpos⟩ := hL.node_block hi hp hkx hkz
  refine ⟨by rw [he]; exact block_lt hl hk, ?_, ?_, ?_⟩
  · rw [he, hx l k 0 hl hk (by omega), hpos 0 (by omega)]; rfl
  · rw [he, hx l k 1 hl hk (by omega), hpos 1 (by omega)]; rfl
  · rw [he, hx l k 2 hl hk (by omega), hpos 2 (by omega)]; rfl

/-- the nodes of a block: corner `j` of element `q` -/
theorem nodeOf_eq (i bx bz q j : Nat) :
    nodeOf (kindR3 n R i) (planes (rowS3 nelx nelz n WX WZ R i)
      (rowS3 nelx nelz n WX WZ R i + rowN3 nelx nelz n WX WZ i) (rowS3 nelx nelz n WX WZ R (i + 1))) (nelx / WX i) bx bz q j =
    node3 nelx nelz n WX WZ R i (plOf (kindR3 n R i) q j)
      (axIdx (kindR3 n R i).mx (plOf (kindR3 n R i) q j) bx ((kindR3 n R i).corner q j 0))
      (axIdx (kindR3 n R i).mz (plOf (kindR3 n R i) q j) bz ((kindR3 n R i).corner q j 2)) := rfl

end
end GF.FineLayer3
