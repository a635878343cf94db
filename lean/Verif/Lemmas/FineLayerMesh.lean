import Verif.Lemmas.FineLayerCoor

/-! Lemmas on `Mesh::Quad4::FineLayer`: positions of the corners of the elements. -/

namespace GF.FineLayer
open FineLayerSpec Finset
variable {α : Type}

section
variable [Field α] {nelx n : Nat} {W G : Nat → Nat} {R : Nat → Int}

/-- what is known about the coordinates -/
def Placed (h : α) (nelx n : Nat) (W G : Nat → Nat) (R : Nat → Int) (x : Nat → Nat → α) : Prop :=
  ∀ i k, i < 2 * n → k < blkN nelx n W R i →
    x (height (blkN nelx n W R) i + k) 0 = h * ((posX nelx n W i k : Nat) : α) ∧
    x (height (blkN nelx n W R) i + k) 1 = h * ((posY nelx n W G i k : Nat) : α)

theorem Placed.row {h : α} {x : Nat → Nat → α} (hx : Placed h nelx n W G R x) {i a : Nat}
    (hi : i < 2 * n) (ha : a ≤ nelx / rowW n W i) :
    x (rowS nelx n W R i + a) 0 = h * ((a * rowW n W i : Nat) : α) ∧
    x (rowS nelx n W R i + a) 1 = h * ((height G i : Nat) : α) := by
  have hr : a < rowN nelx n W i := by rw [rowN]; omega
  have := hx i a hi (by rw [blkN]; omega)
  rw [rowS_eq (by omega)]
  rw [posX, posY, if_pos hr, if_pos hr] at this
  exact this

theorem Placed.mid {h : α} {x : Nat → Nat → α} (hx : Placed h nelx n W G R x) {i a : Nat}
    (hi : i < 2 * n - 1) (hR : R i = 0) (ha : a < 2 * (nelx / W i)) :
    x (rowS nelx n W R i + rowN nelx n W i + a) 0 =
      h * ((a / 2 * W i + (a % 2 + 1) * (W i / 3) : Nat) : α) ∧
    x (rowS nelx n W R i + rowN nelx n W i + a) 1 = h * ((height G i + G i / 2 : Nat) : α) := by
  have := hx i (rowN nelx n W i + a) (by omega) (by rw [blkN, if_pos hi, midN, if_pos hR]; omega)
  rw [rowS_eq (by omega), Nat.add_assoc]
  rw [posX, posY, if_neg (by omega), if_neg (by omega),
    show rowN nelx n W i + a - rowN nelx n W i = a by omega] at this
  exact this

/-- the kind of layer `i` -/
def kindR (n : Nat) (R : Nat → Int) (i : Nat) : Kind :=
  if R i = -1 then .normal else if i < n then .below else .above

theorem nat_congr {h : α} {a b : Nat} (e : a = b) : h * (a : α) = h * (b : α) := by rw [e]

theorem corner_pos (hL : Layers nelx n W G R) {h : α} {x : Nat → Nat → α} (hx : Placed h nelx n W G R x)
    {i b q j : Nat} (hi : i < 2 * n - 1) (hb : b < nelx / W i) (hq : q < (kindR n R i).tiles) (hj : j < 4) :
    x (elemNode n R (fun a => rowS nelx n W R i + a) (fun a => rowS nelx n W R i + rowN nelx n W i + a)
        (fun a => rowS nelx n W R (i + 1) + a) i (b * (kindR n R i).tiles + q) j) 0 =
      h * ((b * W i + ((kindR n R i).corner q j).1 * (W i / (kindR n R i).cols) : Nat) : α) ∧
    x (elemNode n R (fun a => rowS nelx n W R i + a) (fun a => rowS nelx n W R i + rowN nelx n W i + a)
        (fun a => rowS nelx n W R (i + 1) + a) i (b * (kindR n R i).tiles + q) j) 1 =
      h * ((height G i + ((kindR n R i).corner q j).2 * (W i / (kindR n R i).cols) : Nat) : α) := by
  have hp := hL.npos
  rcases hL.kind hi with ⟨a, a1, a2, a3⟩ | ⟨a, b0, a1, a2, a3⟩ | ⟨a, b0, a1, a2, a3⟩
  · have hk : kindR n R i = .normal := by rw [kindR, if_pos a]
    rw [hk] at hq ⊢
    simp only [Kind.tiles] at hq
    obtain rfl : q = 0 := by omega
    have bot : ∀ k, k ≤ nelx / W i → _ := fun k hk => hx.row (i := i) (a := k) (by omega) (by rw [a1]; exact hk)
    have top : ∀ k, k ≤ nelx / W i → _ := fun k hk => hx.row (i := i + 1) (a := k) (by omega) (by rw [a2]; exact hk)
    rw [a1] at bot; rw [a2, height_succ, a3] at top
    simp only [Kind.tiles, Kind.cols, Nat.div_one, elemNode, if_pos a, Nat.mul_one, Nat.add_zero]
    obtain rfl | rfl | rfl | rfl : j = 0 ∨ j = 1 ∨ j = 2 ∨ j = 3 := by omega
    · have := bot b (by omega)
      simpa [Kind.corner, Kind.corners] using this
    · have := bot (b + 1) (by omega)
      simpa [Kind.corner, Kind.corners, Nat.add_mul] using this
    · have := top (b + 1) (by omega)
      simpa [Kind.corner, Kind.corners, Nat.add_mul] using this
    · have := top b (by omega)
      simpa [Kind.corner, Kind.corners, Nat.add_mul] using this
  · have c1 : ¬ R i = -1 := by omega
    have hk : kindR n R i = .below := by rw [kindR, if_neg c1, if_pos (by omega)]
    rw [hk] at hq ⊢
    simp only [Kind.tiles] at hq
    have up := hL.rowW_pos (show i + 1 < 2 * n by omega)
    have hd := hL.fits i hi
    have ht := div_triple (a := nelx) up (by rw [← a2]; exact hd)
    rw [← a2] at ht
    generalize hu : rowW n W (i + 1) = u at *
    have bot : ∀ k, k ≤ nelx / W i → _ := fun k hk => hx.row (i := i) (a := k) (by omega) (by rw [a1]; exact hk)
    have top : ∀ k, k ≤ 3 * (nelx / W i) → _ := fun k hk =>
      hx.row (i := i + 1) (a := k) (by omega) (by rw [hu, ht]; exact hk)
    have mid : ∀ k, k < 2 * (nelx / W i) → _ := fun k hk => hx.mid (i := i) (a := k) hi a hk
    rw [a1] at bot; rw [hu, height_succ, a3] at top
    have hw3 : W i / 3 = u := by omega
    have hg2 : G i / 2 = u := by omega
    rw [hg2, hw3] at mid
    have e1 : (b * 4 + q) / 4 = b := by omega
    have e2 : (b * 4 + q) % 4 = q := by omega
    simp only [Kind.tiles, Kind.cols, elemNode, if_neg c1, if_pos (show i < n by omega), e1, e2, hw3]
    clear hx hd ht
    generalize nelx / W i = m at hb bot top mid
    rw [a2] at bot mid ⊢
    obtain rfl | rfl | rfl | rfl : q = 0 ∨ q = 1 ∨ q = 2 ∨ q = 3 := by omega
    all_goals
      obtain rfl | rfl | rfl | rfl : j = 0 ∨ j = 1 ∨ j = 2 ∨ j = 3 := by omega
      all_goals
        simp only [belowNode, Kind.corner, Kind.corners, List.getD_cons_zero, List.getD_cons_succ]
        first
        | (have := bot b (by omega)
           exact ⟨this.1.trans (nat_congr (by ring)), this.2.trans (nat_congr (by ring))⟩)
        | (have := bot (b + 1) (by omega)
           exact ⟨this.1.trans (nat_congr (by ring)), this.2.trans (nat_congr (by ring))⟩)
        | (have := mid (2 * b) (by omega)
           rw [show 2 * b / 2 = b by omega, show 2 * b % 2 = 0 by omega] at this
           exact ⟨this.1.trans (nat_congr (by ring)), this.2.trans (nat_congr (by ring))⟩)
        | (have := mid (2 * b + 1) (by omega)
           rw [show (2 * b + 1) / 2 = b by omega, show (2 * b + 1) % 2 = 1 by omega] at this
           exact ⟨this.1.trans (nat_congr (by ring)), this.2.trans (nat_congr (by ring))⟩)
        | (have := top (3 * b) (by omega)
           exact ⟨this.1.trans (nat_congr (by ring)), this.2.trans (nat_congr (by ring))⟩)
        | (have := top (3 * b + 1) (by omega)
           exact ⟨this.1.trans (nat_congr (by ring)), this.2.trans (nat_congr (by ring))⟩)
        | (have := top (3 * b + 2) (by omega)
           exact ⟨this.1.trans (nat_congr (by ring)), this.2.trans (nat_congr (by ring))⟩)
        | (have := top (3 * b + 3) (by omega)
           exact ⟨this.1.trans (nat_congr (by ring)), this.2.trans (nat_congr (by ring))⟩)
  · have c1 : ¬ R i = -1 := by omega
    have hk : kindR n R i = .above := by rw [kindR, if_neg c1, if_neg (by omega)]
    rw [hk] at hq ⊢
    simp only [Kind.tiles] at hq
    have up := hL.rowW_pos (show i < 2 * n by omega)
    have hd := hL.fits i hi
    have ht := div_triple (a := nelx) up (by rw [← a2]; exact hd)
    rw [← a2] at ht
    generalize hu : rowW n W i = u at *
    have bot : ∀ k, k ≤ 3 * (nelx / W i) → _ := fun k hk =>
      hx.row (i := i) (a := k) (by omega) (by rw [hu, ht]; exact hk)
    have top : ∀ k, k ≤ nelx / W i → _ := fun k hk =>
      hx.row (i := i + 1) (a := k) (by omega) (by rw [a1]; exact hk)
    have mid : ∀ k, k < 2 * (nelx / W i) → _ := fun k hk => hx.mid (i := i) (a := k) hi a hk
    rw [hu] at bot; rw [a1, height_succ, a3] at top
    have hw3 : W i / 3 = u := by omega
    have hg2 : G i / 2 = u := by omega
    rw [hg2, hw3] at mid
    have e1 : (b * 4 + q) / 4 = b := by omega
    have e2 : (b * 4 + q) % 4 = q := by omega
    simp only [Kind.tiles, Kind.cols, elemNode, if_neg c1, if_neg (show ¬ i < n by omega), e1, e2, hw3]
    clear hx hd ht
    generalize nelx / W i = m at hb bot top mid
    rw [a2] at top mid ⊢
    obtain rfl | rfl | rfl | rfl : q = 0 ∨ q = 1 ∨ q = 2 ∨ q = 3 := by omega
    all_goals
      obtain rfl | rfl | rfl | rfl : j = 0 ∨ j = 1 ∨ j = 2 ∨ j = 3 := by omega
      all_goals
        simp only [aboveNode, Kind.corner, Kind.corners, List.getD_cons_zero, List.getD_cons_succ]
        first
        | (have := top b (by omega)
           exact ⟨this.1.trans (nat_congr (by ring)), this.2.trans (nat_congr (by ring))⟩)
        | (have := top (b + 1) (by omega)
           exact ⟨this.1.trans (nat_congr (by ring)), this.2.trans (nat_congr (by ring))⟩)
        | (have := mid (2 * b) (by omega)
           rw [show 2 * b / 2 = b by omega, show 2 * b % 2 = 0 by omega] at this
           exact ⟨this.1.trans (nat_congr (by ring)), this.2.trans (nat_congr (by ring))⟩)
        | (have := mid (2 * b + 1) (by omega)
           rw [show (2 * b + 1) / 2 = b by omega, show (2 * b + 1) % 2 = 1 by omega] at this
           exact ⟨this.1.trans (nat_congr (by ring)), this.2.trans (nat_congr (by ring))⟩)
        | (have := bot (3 * b) (by omega)
           exact ⟨this.1.trans (nat_congr (by ring)), this.2.trans (nat_congr (by ring))⟩)
        | (have := bot (3 * b + 1) (by omega)
           exact ⟨this.1.trans (nat_congr (by ring)), this.2.trans (nat_congr (by ring))⟩)
        | (have := bot (3 * b + 2) (by omega)
           exact ⟨this.1.trans (nat_congr (by ring)), this.2.trans (nat_congr (by ring))⟩)
        | (have := bot (3 * b + 3) (by omega)
           exact ⟨this.1.trans (nat_congr (by ring)), this.2.trans (nat_congr (by ring))⟩)

end

section
variable {nelx n : Nat} {W G : Nat → Nat} {R : Nat → Int}

theorem Layers.layE_eq (hL : Layers nelx n W G R) {i : Nat} (hi : i < 2 * n - 1) :
    layE nelx W R i = nelx / W i * (kindR n R i).tiles := by
  rw [layE, kindR]
  rcases hL.kind hi with ⟨a, -⟩ | ⟨a, b0, -⟩ | ⟨a, b0, -⟩
  · rw [if_pos a, if_neg (by omega)]; simp [Kind.tiles]
  · rw [if_pos a, if_neg (by omega), if_pos (by omega)]; simp [Kind.tiles]; omega
  · rw [if_pos a, if_neg (by omega), if_neg (by omega)]; simp [Kind.tiles]; omega

theorem Kind.tiles_pos (K : Kind) : 0 < K.tiles := by cases K <;> simp [Kind.tiles]

/-- the connectivity refers to nodes of the mesh -/
theorem elemNode_lt (hL : Layers nelx n W G R) {i k j : Nat} (hi : i < 2 * n - 1) (hk : k < layE nelx W R i)
    (hj : j < 4) :
    elemNode n R (fun a => rowS nelx n W R i + a) (fun a => rowS nelx n W R i + rowN nelx n W i + a)
      (fun a => rowS nelx n W R (i + 1) + a) i k j < rowS nelx n W R (i + 1) + rowN nelx n W (i + 1) := by
  rw [rowS_succ]
  rw [layE] at hk
  rcases hL.kind hi with ⟨a, a1, a2, a3⟩ | ⟨a, b0, a1, a2, a3⟩ | ⟨a, b0, a1, a2, a3⟩
  · rw [if_neg (by omega)] at hk
    simp only [rowN, a1, a2, elemNode, if_pos a, midN, if_neg (show ¬ R i = 0 by omega)]
    split
    · omega
    · split
      · omega
      · split <;> omega
  · rw [if_pos a] at hk
    have up := hL.rowW_pos (show i + 1 < 2 * n by omega)
    have hd := hL.fits i hi
    have ht := div_triple (a := nelx) up (by rw [← a2]; exact hd)
    rw [← a2] at ht
    simp only [rowN, a1, ht, elemNode, if_neg (show ¬ R i = -1 by omega), if_pos (show i < n by omega), midN, if_pos a]
    generalize hb : k / 4 = b
    generalize hq : k % 4 = q
    have hb' : b < nelx / W i := by omega
    have hq' : q < 4 := by omega
    clear hb hq
    obtain rfl | rfl | rfl | rfl : q = 0 ∨ q = 1 ∨ q = 2 ∨ q = 3 := by omega
    all_goals
      obtain rfl | rfl | rfl | rfl : j = 0 ∨ j = 1 ∨ j = 2 ∨ j = 3 := by omega
      all_goals (simp only [belowNode]; omega)
  · rw [if_pos a] at hk
    have up := hL.rowW_pos (show i < 2 * n by omega)
    have hd := hL.fits i hi
    have ht := div_triple (a := nelx) up (by rw [← a2]; exact hd)
    rw [← a2] at ht
    simp only [rowN, a1, ht, elemNode, if_neg (show ¬ R i = -1 by omega), if_neg (show ¬ i < n by omega), midN, if_pos a]
    generalize hb : k / 4 = b
    generalize hq : k % 4 = q
    have hb' : b < nelx / W i := by omega
    have hq' : q < 4 := by omega
    clear hb hq
    obtain rfl | rfl | rfl | rfl : q = 0 ∨ q = 1 ∨ q = 2 ∨ q = 3 := by omega
    all_goals
      obtain rfl | rfl | rfl | rfl : j = 0 ∨ j = 1 ∨ j = 2 ∨ j = 3 := by omega
      all_goals (simp only [aboveNode]; omega)

end
end GF.FineLayer
