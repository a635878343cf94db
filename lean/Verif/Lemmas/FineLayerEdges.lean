import Verif.Props.FineLayer
import Verif.Lemmas.Periodic2d

/-! The boundary of `Quad4::FineLayer`. -/

namespace GF
open FineLayerSpec Finset FineLayer
variable {α : Type}

namespace FineLayer

theorem assignRange_spec {t : Ten Nat} {N : Nat} (hs : t.shape = [N]) {a b : Nat} (hab : a ≤ b) (hb : b ≤ N)
    {f : Nat → Res Nat} {g : Nat → Nat} (hf : ∀ k, k < b - a → f k = .ok (g k)) :
    ∃ t', assignRange t a b f = .ok t' ∧ t'.shape = [N] ∧
      (∀ k, k < b - a → t'.v [a + k] = some (g k)) ∧ ∀ i, i < a ∨ b ≤ i → t'.v [i] = t.v [i] := by
  obtain ⟨t', h1, h2, h3, h4⟩ := fill0 hs a (b - a) (by omega) g
    (fun (ret : Ten Nat) k => do
      let v ← f k
      ret.set [a + k] v) (by
    intro k hk s _
    beta_reduce
    rw [hf k hk, Res.ok_bind])
  exact ⟨t', h1, h2, h3, fun i hi => h4 i (by omega)⟩

/-- two consecutive assignments that together fill the array -/
theorem assign2_spec {N j k b : Nat} {f f' : Nat → Res Nat} {g : Nat → Nat} (hj : j ≤ N) (hk : k ≤ j) (hN : b = N)
    (hf : ∀ p, p < j → f p = .ok (g p)) (hf' : ∀ p, p < N - k → f' p = .ok (g (k + p))) :
    IsOk (do
      let ret ← assignRange (Ten.empty [N]) 0 j f
      assignRange ret k b f') (fun t => Is1 t N g) := by
  subst hN
  obtain ⟨t1, a1, a2, a3, a4⟩ := assignRange_spec (t := Ten.empty [b]) (N := b) rfl (Nat.zero_le j) hj
    (f := f) (g := g) (fun p hp => hf p (by omega))
  obtain ⟨t2, b1, b2, b3, b4⟩ := assignRange_spec a2 (show k ≤ b by omega) le_rfl
    (f := f') (g := fun p => g (k + p)) hf'
  refine ⟨t2, by rw [a1, Res.ok_bind]; exact b1, b2, fun i hi => ?_⟩
  by_cases hik : i < k
  · rw [b4 i (Or.inl hik)]
    have := a3 i (by omega)
    rw [Nat.zero_add] at this
    exact this
  · have := b3 (i - k) (by omega)
    rw [show k + (i - k) = i by omega] at this
    exact this

theorem getSum_ok {a b : Ten Nat} {n m i j : Nat} {f g : Nat → Nat} (ha : Is1 a n f) (hb : Is1 b m g)
    (hi : i < n) (hj : j < m) : getSum a b i j = .ok (f i + g j) := by
  rw [getSum, ha.get hi, Res.ok_bind, hb.get hj, Res.ok_bind]

variable {nelx n : Nat} {W G : Nat → Nat} {R : Nat → Int} {M : FineLayer α}

/-- the corners and edges, as node numbers -/
structure EdgeTable (M : FineLayer α) (nelx n : Nat) (W : Nat → Nat) (R : Nat → Int) : Prop where
  bottom : IsOk M.nodesBottomEdge fun t => Is1 t (nelx / rowW n W 0 + 1) (fun a => rowS nelx n W R 0 + a)
  top : IsOk M.nodesTopEdge fun t => Is1 t (nelx / rowW n W (2 * n - 1) + 1) (fun a => rowS nelx n W R (2 * n - 1) + a)
  left : IsOk M.nodesLeftEdge fun t => Is1 t (2 * n) (fun i => rowS nelx n W R i)
  right : IsOk M.nodesRightEdge fun t => Is1 t (2 * n) (fun i => rowS nelx n W R i + nelx / rowW n W i)
  bottomOpen : IsOk M.nodesBottomOpenEdge fun t => Is1 t (nelx / rowW n W 0 - 1) (fun a => rowS nelx n W R 0 + (1 + a))
  topOpen : IsOk M.nodesTopOpenEdge fun t =>
    Is1 t (nelx / rowW n W (2 * n - 1) - 1) (fun a => rowS nelx n W R (2 * n - 1) + (1 + a))
  leftOpen : IsOk M.nodesLeftOpenEdge fun t => Is1 t (2 * n - 2) (fun i => rowS nelx n W R (1 + i))
  rightOpen : IsOk M.nodesRightOpenEdge fun t =>
    Is1 t (2 * n - 2) (fun i => rowS nelx n W R (1 + i) + nelx / rowW n W (1 + i))
  bl : M.nodesBottomLeftCorner = .ok (rowS nelx n W R 0)
  br : M.nodesBottomRightCorner = .ok (rowS nelx n W R 0 + nelx / rowW n W 0)
  tl : M.nodesTopLeftCorner = .ok (rowS nelx n W R (2 * n - 1))
  tr : M.nodesTopRightCorner = .ok (rowS nelx n W R (2 * n - 1) + nelx / rowW n W (2 * n - 1))

theorem edgeTable (hM : IsFine M nelx n W G R) (hn : 0 < n) : EdgeTable M nelx n W R := by
  have hsz : M.nhy.size = 2 * n - 1 := hM.nhy.size
  have w0 : rowW n W 0 = W 0 := by rw [rowW, if_pos hn]
  have wt : rowW n W (2 * n - 1) = W (2 * n - 1 - 1) := by
    rw [rowW]; split
    · omega
    · rfl
  have wlo : ∀ p, p < n → rowW n W p = W p := fun p hp => by rw [rowW, if_pos hp]
  have whi : ∀ p, n ≤ p → rowW n W p = W (p - 1) := fun p hp => by rw [rowW, if_neg (by omega)]
  have hj : (2 * n - 1 + 1) / 2 = n := by omega
  have hk : (2 * n - 1 - 1) / 2 = n - 1 := by omega
  have s0 := hM.startNode.get (i := 0) (by omega)
  have st := hM.startNode.get (i := 2 * n - 1) (by omega)
  have l0 := hM.layer.get (i := 0) (by omega)
  have lt := hM.layer.get (i := 2 * n - 1 - 1) (by omega)
  refine ⟨?_, ?_, ?_, ?_, ?_, ?_, ?_, ?_, ?_, ?_, ?_, ?_⟩
  · unfold nodesBottomEdge
    rw [s0, Res.ok_bind, l0, Res.ok_bind, w0]
    exact ⟨_, rfl, ((is1_arange 0 _).affine 1 _).congr fun k _ => by omega⟩
  · unfold nodesTopEdge
    simp only [hsz]
    rw [st, Res.ok_bind, lt, Res.ok_bind, wt]
    exact ⟨_, rfl, ((is1_arange 0 _).affine 1 _).congr fun k _ => by omega⟩
  · unfold nodesLeftEdge
    simp only [hsz, hj, hk]
    rw [show 2 * n - 1 + 1 = 2 * n by omega]
    refine assign2_spec (by omega) (by omega) rfl (fun p hp => hM.startNode.get (by omega)) fun p hp => hM.startNode.get (by omega)
  · unfold nodesRightEdge
    simp only [hsz, hj, hk]
    rw [show 2 * n - 1 + 1 = 2 * n by omega]
    refine assign2_spec (by omega) (by omega) rfl (fun p hp => ?_) fun p hp => ?_
    · rw [getSum_ok hM.startNode hM.layer (by omega) (by omega), wlo p hp]
    · rw [getSum_ok hM.startNode hM.layer (by omega) (by omega), whi _ (by omega), show n - 1 + 1 + p - 1 = n - 1 + p by omega]
  · unfold nodesBottomOpenEdge
    rw [s0, Res.ok_bind, l0, Res.ok_bind, w0]
    exact ⟨_, rfl, ((is1_arange 1 _).affine 1 _).congr fun k _ => by omega⟩
  · unfold nodesTopOpenEdge
    simp only [hsz]
    rw [st, Res.ok_bind, lt, Res.ok_bind, wt]
    exact ⟨_, rfl, ((is1_arange 1 _).affine 1 _).congr fun k _ => by omega⟩
  · unfold nodesLeftOpenEdge
    simp only [hsz, hj, hk]
    rw [show 2 * n - 1 - 1 = 2 * n - 2 by omega]
    refine assign2_spec (by omega) (by omega) rfl (fun p hp => hM.startNode.get (by omega)) fun p hp => ?_
    rw [hM.startNode.get (by omega), show n - 1 + 1 + p = 1 + (n - 1 + p) by omega]
  · unfold nodesRightOpenEdge
    simp only [hsz, hj, hk]
    rw [show 2 * n - 1 - 1 = 2 * n - 2 by omega]
    refine assign2_spec (by omega) (by omega) rfl (fun p hp => ?_) fun p hp => ?_
    · rw [getSum_ok hM.startNode hM.layer (by omega) (by omega), wlo _ (by omega)]
    · rw [getSum_ok hM.startNode hM.layer (by omega) (by omega), whi _ (by omega),
        show n - 1 + 1 + p = 1 + (n - 1 + p) by omega, show 1 + (n - 1 + p) - 1 = n - 1 + p by omega]
  · exact s0
  · rw [nodesBottomRightCorner, getSum_ok hM.startNode hM.layer (by omega) (by omega), w0]
  · rw [nodesTopLeftCorner, hsz]; exact st
  · rw [nodesTopRightCorner, hsz, getSum_ok hM.startNode hM.layer (by omega) (by omega), wt]

section
variable [Field α] [LinearOrder α] [IsStrictOrderedRing α]

/-- every node lies on a node row or strictly inside a transition layer, away from the boundary -/
theorem node_cases (hL : Layers nelx n W G R) {h : α} {x : Nat → Nat → α} (hx : Placed h nelx n W G R x) {m : Nat}
    (hm : m < height (blkN nelx n W R) (2 * n)) :
    (∃ i a, i < 2 * n ∧ a ≤ nelx / rowW n W i ∧ m = rowS nelx n W R i + a) ∨
    ∃ X Y, x m 0 = h * ((X : Nat) : α) ∧ x m 1 = h * ((Y : Nat) : α) ∧ 0 < X ∧ X < nelx ∧ 0 < Y ∧ Y < height G (2 * n - 1) := by
  have hp := hL.npos
  obtain ⟨i, k, a1, a2, rfl⟩ := exists_block hm
  obtain ⟨px, py⟩ := hx i k a1 a2
  by_cases hk : k < rowN nelx n W i
  · left
    exact ⟨i, k, a1, by rw [rowN] at hk; omega, by rw [rowS_eq (by omega)]⟩
  right
  rw [posX, if_neg hk] at px
  rw [posY, if_neg hk] at py
  rw [blkN] at a2
  have hl : i < 2 * n - 1 := by
    by_contra hl
    rw [if_neg hl] at a2; omega
  rw [if_pos hl, midN] at a2
  have hR : R i = 0 := by
    by_contra hR
    rw [if_neg hR] at a2; omega
  rw [if_pos hR] at a2
  refine ⟨_, _, px, py, ?_⟩
  have hpos : 0 < W i / 3 ∧ W i = 3 * (W i / 3) ∧ 0 < G i / 2 ∧ G i / 2 < G i := by
    have h5 := hL.rowW_pos (show i + 1 < 2 * n by omega)
    have h6 := hL.rowW_pos a1
    rcases hL.kind hl with ⟨a, -⟩ | ⟨a, b0, -, a2, a3⟩ | ⟨a, b0, -, a2, a3⟩ <;> omega
  obtain ⟨u1, u2, u3, u4⟩ := hpos
  have hlt : (k - rowN nelx n W i) / 2 < nelx / W i := by omega
  have hne := hL.nelx_eq hl
  generalize (k - rowN nelx n W i) / 2 = b at hlt ⊢
  have h7 : (b + 1) * W i ≤ nelx := by
    calc _ ≤ nelx / W i * W i := Nat.mul_le_mul_right _ hlt
      _ = nelx := hne
  have h8 : ((k - rowN nelx n W i) % 2 + 1) * (W i / 3) ≤ 2 * (W i / 3) := Nat.mul_le_mul_right _ (by omega)
  have h9 : 1 * (W i / 3) ≤ ((k - rowN nelx n W i) % 2 + 1) * (W i / 3) := Nat.mul_le_mul_right _ (by omega)
  have h10 : height G (i + 1) ≤ height G (2 * n - 1) := height_mono hl
  rw [height_succ] at h10
  rw [Nat.add_mul] at h7
  exact ⟨by omega, by omega, by omega, by omega⟩

theorem rowS_lt {i a : Nat} (hi : i < 2 * n) (ha : a ≤ nelx / rowW n W i) :
    rowS nelx n W R i + a < height (blkN nelx n W R) (2 * n) := by
  rw [rowS_eq (by omega)]
  exact block_lt hi (by rw [blkN, rowN]; omega)

/-- positions of the nodes of the node rows -/
structure RowPos (h : α) (nelx n : Nat) (W G : Nat → Nat) (R : Nat → Int) (x : Nat → Nat → α) : Prop where
  x0 : ∀ i a, i < 2 * n → a ≤ nelx / rowW n W i → (x (rowS nelx n W R i + a) 0 = 0 ↔ a = 0)
  x0' : ∀ i a, i < 2 * n → a ≤ nelx / rowW n W i → (0 < x (rowS nelx n W R i + a) 0 ↔ 0 < a)
  x1 : ∀ i a, i < 2 * n → a ≤ nelx / rowW n W i → (x (rowS nelx n W R i + a) 0 = h * (nelx : α) ↔ a = nelx / rowW n W i)
  x1' : ∀ i a, i < 2 * n → a ≤ nelx / rowW n W i → (x (rowS nelx n W R i + a) 0 < h * (nelx : α) ↔ a < nelx / rowW n W i)
  y0 : ∀ i a, i < 2 * n → a ≤ nelx / rowW n W i → (x (rowS nelx n W R i + a) 1 = 0 ↔ i = 0)
  y0' : ∀ i a, i < 2 * n → a ≤ nelx / rowW n W i → (0 < x (rowS nelx n W R i + a) 1 ↔ 0 < i)
  y1 : ∀ i a, i < 2 * n → a ≤ nelx / rowW n W i →
    (x (rowS nelx n W R i + a) 1 = h * ((height G (2 * n - 1) : Nat) : α) ↔ i = 2 * n - 1)
  y1' : ∀ i a, i < 2 * n → a ≤ nelx / rowW n W i →
    (x (rowS nelx n W R i + a) 1 < h * ((height G (2 * n - 1) : Nat) : α) ↔ i < 2 * n - 1)
  xlt : ∀ i a b, i < 2 * n → a ≤ nelx / rowW n W i → b ≤ nelx / rowW n W i → a < b →
    x (rowS nelx n W R i + a) 0 < x (rowS nelx n W R i + b) 0
  ylt : ∀ i i' a b, i < i' → i' < 2 * n → a ≤ nelx / rowW n W i → b ≤ nelx / rowW n W i' →
    x (rowS nelx n W R i + a) 1 < x (rowS nelx n W R i' + b) 1

theorem rowPos (hL : Layers nelx n W G R) {h : α} (hh : 0 < h) {x : Nat → Nat → α} (hx : Placed h nelx n W G R x) :
    RowPos h nelx n W G R x := by
  have hp := hL.npos
  have lt : ∀ a b : Nat, h * ((a : Nat) : α) < h * ((b : Nat) : α) ↔ a < b := fun a b => by
    rw [mul_lt_mul_iff_right₀ hh]; exact Nat.cast_lt
  have eq : ∀ a b : Nat, h * ((a : Nat) : α) = h * ((b : Nat) : α) ↔ a = b := fun a b => by
    rw [mul_right_inj' hh.ne']; exact Nat.cast_inj
  have z : (0 : α) = h * ((0 : Nat) : α) := by simp
  have hg : ∀ k, k < 2 * n - 1 → 0 < G k := hL.gpos
  have hlt : ∀ i j, i < j → j ≤ 2 * n - 1 → height G i < height G j := fun i j => height_lt hg
  have h0 : height G 0 = 0 := rfl
  have hle : ∀ i, i < 2 * n → rowW n W i * (nelx / rowW n W i) = nelx := fun i hi => by
    rw [Nat.mul_comm]; exact Nat.div_mul_cancel (hL.rowW_dvd hi)
  refine ⟨?_, ?_, ?_, ?_, ?_, ?_, ?_, ?_, ?_, ?_⟩
  · intro i a hi ha
    rw [(hx.row hi ha).1, z, eq]
    have := hL.rowW_pos hi
    rw [Nat.mul_eq_zero]; omega
  · intro i a hi ha
    rw [(hx.row hi ha).1, z, lt]
    have := hL.rowW_pos hi
    rw [Nat.mul_pos_iff_of_pos_right this]
  · intro i a hi ha
    rw [(hx.row hi ha).1, eq]
    conv_lhs => rw [← hle i hi, Nat.mul_comm a]
    generalize nelx / rowW n W i = q
    constructor
    · exact fun e => Nat.eq_of_mul_eq_mul_left (hL.rowW_pos hi) e
    · rintro rfl; rfl
  · intro i a hi ha
    rw [(hx.row hi ha).1, lt]
    conv_lhs => rw [← hle i hi, Nat.mul_comm a]
    generalize nelx / rowW n W i = q
    exact Nat.mul_lt_mul_left (hL.rowW_pos hi)
  · intro i a hi ha
    rw [(hx.row hi ha).2, z, eq]
    constructor
    · intro e
      by_contra hc
      have := hlt 0 i (by omega) (by omega)
      omega
    · rintro rfl; exact h0
  · intro i a hi ha
    rw [(hx.row hi ha).2, z, lt]
    constructor
    · intro e
      by_contra hc
      have : i = 0 := by omega
      subst this; omega
    · intro hc
      have := hlt 0 i hc (by omega)
      omega
  · intro i a hi ha
    rw [(hx.row hi ha).2, eq]
    constructor
    · intro e
      by_contra hc
      have := hlt i (2 * n - 1) (by omega) le_rfl
      omega
    · rintro rfl; rfl
  · intro i a hi ha
    rw [(hx.row hi ha).2, lt]
    constructor
    · intro e
      by_contra hc
      have : i = 2 * n - 1 := by omega
      subst this; omega
    · intro hc
      exact hlt _ _ hc le_rfl
  · intro i a b hi ha hb hab
    rw [(hx.row hi ha).1, (hx.row hi hb).1, lt]
    exact Nat.mul_lt_mul_of_pos_right hab (hL.rowW_pos hi)
  · intro i i' a b h1 h2 ha hb
    rw [(hx.row (by omega) ha).2, (hx.row h2 hb).2, lt]
    exact hlt _ _ h1 (by omega)

/-- a node on the boundary is on a node row -/
theorem boundary_row (hL : Layers nelx n W G R) {h : α} (hh : 0 < h) {x : Nat → Nat → α} (hx : Placed h nelx n W G R x)
    {m : Nat} (hm : m < height (blkN nelx n W R) (2 * n))
    (hb : x m 0 = 0 ∨ x m 0 = h * (nelx : α) ∨ x m 1 = 0 ∨ x m 1 = h * ((height G (2 * n - 1) : Nat) : α)) :
    ∃ i a, i < 2 * n ∧ a ≤ nelx / rowW n W i ∧ m = rowS nelx n W R i + a := by
  rcases node_cases hL hx hm with h1 | ⟨X, Y, e0, e1, h2, h3, h4, h5⟩
  · exact h1
  · exfalso
    have lt : ∀ a b : Nat, a < b → h * ((a : Nat) : α) < h * ((b : Nat) : α) := fun a b hab => by
      rw [mul_lt_mul_iff_right₀ hh]; exact Nat.cast_lt.2 hab
    have z : (0 : α) = h * ((0 : Nat) : α) := by simp
    rw [e0, e1, z] at hb
    have q1 := lt _ _ h2
    have q2 := lt _ _ h3
    have q3 := lt _ _ h4
    have q4 := lt _ _ h5
    rcases hb with hb | hb | hb | hb
    · exact absurd hb q1.ne'
    · exact absurd hb q2.ne
    · exact absurd hb q3.ne'
    · exact absurd hb q4.ne

end
end FineLayer
end GF
