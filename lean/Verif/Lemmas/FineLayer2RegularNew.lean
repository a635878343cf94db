import Verif.Lemmas.FineLayer2RegularBlocks
import Verif.Props.FineLayerGrid
import Verif.Lemmas.FineLayerAround

namespace GF
open FineLayerSpec
namespace FineLayer2Regular
open FineLayer
variable {α : Type}

/-- the order in which the elements of a block are treated -/
def order : Kind → List Nat
  | .normal => [0]
  | .below => [0, 2, 3, 1]
  | .above => [3, 1, 0, 2]

theorem mem_order (K : Kind) {q : Nat} : q ∈ order K ↔ q < K.tiles := by
  cases K <;> simp [order, Kind.tiles] <;> omega

theorem order_nodup (K : Kind) : (order K).Nodup := by cases K <;> decide

section
variable [Field α]

/-- entries of a block: unit of length `u`, first element `e`, lower left cell `(y0, x0)` -/
def blk (K : Kind) (u nx y0 x0 e : Nat) : List (Nat × Nat × α) :=
  (order K).flatMap fun q => (tile K u q).map (put nx y0 x0 (e + q))

variable {M : FineLayer α} {nelx n : Nat} {W G : Nat → Nat} {R : Nat → Int}

/-- entries of a layer -/
def lay (nelx n : Nat) (W G : Nat → Nat) (R : Nat → Int) (i : Nat) : List (Nat × Nat × α) :=
  (List.range (nelx / W i)).flatMap fun b => blk (kindR n R i) (W i / (kindR n R i).cols) nelx (height G i) (b * W i)
    (layS nelx W R i + b * (kindR n R i).tiles)

theorem layS_step (hL : Layers nelx n W G R) {i : Nat} (hi : i < 2 * n - 1) :
    layS nelx W R (i + 1) = layS nelx W R i + nelx / W i * (kindR n R i).tiles := by
  rw [layS_succ, layE]
  rcases hL.kind hi with ⟨a, -⟩ | ⟨a, b, -⟩ | ⟨a, b, -⟩
  · rw [if_neg (by omega), kindR, if_pos a]; simp [Kind.tiles]
  · rw [if_pos a, kindR, if_neg (by omega), if_pos (by omega)]; simp [Kind.tiles]; omega
  · rw [if_pos a, kindR, if_neg (by omega), if_neg (by omega)]; simp [Kind.tiles]; omega

theorem layer_adds (hL : Layers nelx n W G R) (hM : IsFine M nelx n W G R) {grid : Ten Nat}
    (hsh : grid.shape = [height G (2 * n - 1), nelx]) (hg : Grid grid (height G (2 * n - 1)) nelx) {i : Nat} (hi : i < 2 * n - 1) :
    Adds (α := α) M.nelem (layer M grid (2 * n - 1) i (height G i) (height G (i + 1))) (lay nelx n W G R i) := by
  have hp := hL.npos
  have hw := hL.wpos i hi
  have hy : height G i + G i ≤ height G (2 * n - 1) := by
    have : height G (i + 1) ≤ height G (2 * n - 1) := height_mono (by omega)
    rw [height_succ] at this
    exact this
  have hN : layS nelx W R i + nelx / W i * (kindR n R i).tiles ≤ M.nelem := by
    rw [← layS_step hL hi, hM.nelem]
    exact height_mono (by omega)
  have hbx : ∀ b, b < nelx / W i → b * W i + W i ≤ nelx := by
    intro b hb
    calc b * W i + W i = (b + 1) * W i := by ring
      _ ≤ nelx / W i * W i := Nat.mul_le_mul_right _ hb
      _ = nelx := hL.nelx_eq hi
  have hel : View.sub ⟨0, grid.shape.getD 0 0, 0, grid.shape.getD 1 0⟩ (height G i) (height G (i + 1)) 0 (grid.shape.getD 1 0) =
      .ok ⟨height G i, G i, 0, nelx⟩ := by
    rw [hsh, height_succ]
    change View.sub ⟨0, height G (2 * n - 1), 0, nelx⟩ (height G i) (height G i + G i) 0 nelx = _
    rw [sub_box (by omega) hy (by omega) (by omega)]
    simp
  have hbl : ∀ b, b < nelx / W i → View.sub ⟨height G i, G i, 0, nelx⟩ 0 (G i) (b * W i) ((b + 1) * W i) =
      .ok ⟨height G i, G i, b * W i, W i⟩ := by
    intro b hb
    have := hbx b hb
    rw [Nat.add_mul, Nat.one_mul, sub_box (by omega) (by omega) (by omega) (by omega)]
    simp
  unfold layer
  simp only [hM.nhx.get hi, hM.nhy.get hi, hM.layer.get hi, hM.startElem.get hi, hM.refine.get hi, Res.ok_bind, hel]
  have hblk : ∀ b, b < nelx / W i → ∀ q, q < (kindR n R i).tiles →
      layS nelx W R i + b * (kindR n R i).tiles + q < M.nelem := by
    intro b hb q hq
    have := grid_lt hb hq
    omega
  rcases hL.kind hi with ⟨a, -, -, a3⟩ | ⟨a, b0, -, a2, a3⟩ | ⟨a, b0, -, a2, a3⟩
  · have hk : kindR n R i = .normal := by rw [kindR, if_pos a]
    simp only [a, if_true]
    refine Adds.congr (Adds.forEach (it1 (nelx / W i)) fun b hb => Adds.get
      (q := fun v S => normalBlock grid v (layS nelx W R i + b) S) (hbl b (mem_it1.1 hb))
      (T := blk (kindR n R i) (W i / (kindR n R i).cols) nelx (height G i) (b * W i)
        (layS nelx W R i + b * (kindR n R i).tiles)) ?_) rfl
    have hb := mem_it1.1 hb
    have h1 := hblk b hb 0 (by rw [hk]; simp [Kind.tiles])
    rw [hk] at h1 ⊢
    simp only [Kind.tiles, Kind.cols, Nat.mul_one, Nat.div_one, Nat.add_zero, blk, order, List.flatMap_cons, List.flatMap_nil,
      List.append_nil] at h1 ⊢
    rw [a3]
    exact normalBlock_adds hg (by omega) (hbx b hb) h1
  · have hk : kindR n R i = .below := by rw [kindR, if_neg (by omega), if_pos (by omega)]
    simp only [if_neg (show ¬ R i = -1 by omega), if_pos (show R i = 0 ∧ i ≤ (2 * n - 1 - 1) / 2 by omega)]
    refine Adds.congr (Adds.forEach (it1 (nelx / W i)) fun b hb => Adds.get
      (q := fun v S => belowBlock grid v (W i) (G i) (layS nelx W R i + b * 4) S) (hbl b (mem_it1.1 hb))
      (T := blk (kindR n R i) (W i / (kindR n R i).cols) nelx (height G i) (b * W i)
        (layS nelx W R i + b * (kindR n R i).tiles)) ?_) rfl
    have hb := mem_it1.1 hb
    have h1 := hblk b hb 3 (by rw [hk]; simp [Kind.tiles])
    have h2 := hbx b hb
    rw [hk] at h1 ⊢
    generalize rowW n W (i + 1) = u at a2 a3
    simp only [Kind.tiles, Kind.cols, blk, order, List.flatMap_cons, List.flatMap_nil,
      List.append_nil] at h1 ⊢
    rw [a3, a2, show 3 * u / 3 = u by omega]
    rw [a2] at h2
    exact belowBlock_adds hg (by omega) (by omega) h1
  · have hk : kindR n R i = .above := by rw [kindR, if_neg (by omega), if_neg (by omega)]
    simp only [if_neg (show ¬ R i = -1 by omega), if_neg (show ¬ (R i = 0 ∧ i ≤ (2 * n - 1 - 1) / 2) by omega),
      if_pos (show R i = 0 ∧ (2 * n - 1 - 1) / 2 < i by omega)]
    refine Adds.congr (Adds.forEach (it1 (nelx / W i)) fun b hb => Adds.get
      (q := fun v S => aboveBlock grid v (W i) (G i) (layS nelx W R i + b * 4) S) (hbl b (mem_it1.1 hb))
      (T := blk (kindR n R i) (W i / (kindR n R i).cols) nelx (height G i) (b * W i)
        (layS nelx W R i + b * (kindR n R i).tiles)) ?_) rfl
    have hb := mem_it1.1 hb
    have h1 := hblk b hb 3 (by rw [hk]; simp [Kind.tiles])
    have h2 := hbx b hb
    rw [hk] at h1 ⊢
    generalize rowW n W i = u at a2 a3
    simp only [Kind.tiles, Kind.cols, blk, order, List.flatMap_cons, List.flatMap_nil,
      List.append_nil] at h1 ⊢
    rw [a3, a2, show 3 * u / 3 = u by omega]
    rw [a2] at h2
    exact aboveBlock_adds hg (by omega) (by omega) h1

/-- all entries -/
def allT (nelx n : Nat) (W G : Nat → Nat) (R : Nat → Int) : List (Nat × Nat × α) :=
  (List.range (2 * n - 1)).flatMap fun i => lay nelx n W G R i

theorem new_entries (hL : Layers nelx n W G R) (hM : IsFine M nelx n W G R) :
    ∃ S, new M = .ok ⟨M, Quad4.Regular.new nelx (height G (2 * n - 1)) M.h, S⟩ ∧
      St M.nelem (allT nelx n W G R) S := by
  have hp := hL.npos
  obtain ⟨m, h4, h5, h6⟩ := amax_is1 hM.layer
  have hm : m = nelx := by
    refine le_antisymm ?_ ?_
    · by_contra hc
      obtain ⟨i, hi, e⟩ : ∃ i, i < 2 * n - 1 ∧ nelx / W i = m := h6.resolve_left (by omega)
      have := Nat.div_le_self nelx (W i)
      omega
    · have := h5 (n - 1) (by omega)
      rwa [hL.mid.1, Nat.div_one] at this
  subst hm
  set ny := height G (2 * n - 1) with hny
  have hgr : Quad4.Regular.elementgrid (Quad4.Regular.new m ny M.h) =
      .ok (Ten.of [ny, m] fun ix => ix.getD 0 0 * m + ix.getD 1 0) := by
    unfold Quad4.Regular.elementgrid
    rw [if_pos (by simp [Quad4.Regular.new, Nat.mul_comm])]
    rfl
  have hg : Grid (Ten.of [ny, m] fun ix => ix.getD 0 0 * m + ix.getD 1 0) ny m := by
    intro i j hi hj
    exact (is2_of ny m (fun ix => ix.getD 0 0 * m + ix.getD 1 0)).get hi hj
  unfold new
  rw [h4, Res.ok_bind, hM.nhy.flat, Res.ok_bind, foldl_height, Nat.zero_add]
  simp only [← hny]
  rw [hgr, Res.ok_bind, cumsum_spec hM.nhy, Res.ok_bind]
  have hsz : M.nhy.size = 2 * n - 1 := hM.nhy.size
  simp only [hsz]
  have hcum : ∀ i, i ≤ 2 * n - 1 → lget (0 :: (List.range (2 * n - 1)).map fun i => height G (i + 1)) i = .ok (height G i) := by
    intro i hi
    cases i with
    | zero => rfl
    | succ i =>
      refine lget_eq ?_
      rw [List.getElem?_cons_succ, List.getElem?_map, List.getElem?_range (by omega)]; rfl
  have main := Adds.forEach (α := α) (N := M.nelem) (it1 (2 * n - 1))
    (body := fun S iy => do
      let y0 ← lget (0 :: (List.range (2 * n - 1)).map fun i => height G (i + 1)) iy
      let y1 ← lget (0 :: (List.range (2 * n - 1)).map fun i => height G (i + 1)) (iy + 1)
      layer M (Ten.of [ny, m] fun ix => ix.getD 0 0 * m + ix.getD 1 0) (2 * n - 1) iy y0 y1 S)
    (tr := lay m n W G R) (fun i hi => by
      have hi := mem_it1.1 hi
      simp only [hcum i (by omega), hcum (i + 1) (by omega), Res.ok_bind]
      exact layer_adds hL hM rfl hg hi)
  obtain ⟨S, e1, e2⟩ := main [] ⟨List.replicate M.nelem [], List.replicate M.nelem []⟩
    ⟨by simp, by simp, fun e he => by simp [he]⟩
  beta_reduce at e1
  rw [e1, Res.ok_bind]
  exact ⟨S, rfl, e2⟩

end
end FineLayer2Regular
end GF
