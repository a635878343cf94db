import Verif.Lemmas.FineLayer2Regular

namespace GF
open FineLayerSpec
namespace FineLayer2Regular
open FineLayer
variable {α : Type}

/-- the cells of element `q` of a block (unit of length `u`): in row `j` the columns `[lo, hi)` -/
def lo (K : Kind) (u q j : Nat) : Nat :=
  match K, q with
  | .normal, _ => 0
  | .below, 0 => if j < u then j else 0
  | .below, 1 => if j < u then 3 * u - j - 1 else 2 * u
  | .below, 2 => u
  | .below, _ => 0
  | .above, 0 => 0
  | .above, 1 => u
  | .above, 2 => if j < u then 2 * u else u + j
  | .above, _ => if j < u then 0 else 2 * u - 1 - j

def hi (K : Kind) (u q j : Nat) : Nat :=
  match K, q with
  | .normal, _ => u
  | .below, 0 => if j < u then 3 * u - j else 0
  | .below, 1 => 3 * u
  | .below, 2 => if j < u then u else 2 * u
  | .below, _ => if j < u then j + 1 else u
  | .above, 0 => if j < u then u else 2 * u - j
  | .above, 1 => if j < u then 2 * u else u
  | .above, 2 => 3 * u
  | .above, _ => if j < u then 0 else u + j + 1

/-- the cells on the slanted edges are cut -/
def cut (K : Kind) (u q j k : Nat) : Prop :=
  match K, q with
  | .normal, _ => False
  | .below, 0 => k = j ∨ k + 1 = 3 * u - j
  | .below, 1 => j < u ∧ k = 3 * u - j - 1
  | .below, 2 => False
  | .below, _ => j < u ∧ k = j
  | .above, 0 => u ≤ j ∧ k + 1 = 2 * u - j
  | .above, 1 => False
  | .above, 2 => u ≤ j ∧ k = u + j
  | .above, _ => k = 2 * u - 1 - j ∨ k = u + j

instance (K : Kind) (u q j k : Nat) : Decidable (cut K u q j k) := by
  unfold cut; split <;> infer_instance

section
variable [Field α]

/-- entries of element `q` -/
def tile (K : Kind) (u q : Nat) : List (Nat × Nat × α) :=
  rows 0 (u * K.rows) (lo K u q) (hi K u q) fun j k => if cut K u q j k then 1 / 2 else 1

theorem rows_adds {N : Nat} {u : Nat} {nx y0 x0 e : Nat} {body : FLMap α → Nat → Res (FLMap α)} {c d : Nat → Nat}
    {f : Nat → Nat → α} (h : ∀ j, j < u → Adds N (fun S => body S j) ((rowL j (c j) (d j) (f j)).map (put nx y0 x0 e))) :
    Adds N (fun S => forEach (it1 u) body S) ((rows 0 u c d f).map (put nx y0 x0 e)) := by
  refine Adds.congr (Adds.forEach (it1 u) fun j hj => h j (mem_it1.1 hj)) ?_
  rw [rows, itFrom_zero, List.map_flatMap]
  rfl

theorem rows_adds' {N : Nat} {u : Nat} {nx y0 x0 e : Nat} {body : FLMap α → Nat → Res (FLMap α)} {c d : Nat → Nat}
    {f : Nat → Nat → α}
    (h : ∀ j, j < u → Adds N (fun S => body S j) ((rowL (u + j) (c j) (d j) (f j)).map (put nx y0 x0 e))) :
    Adds N (fun S => forEach (it1 u) body S)
      ((rows u (2 * u) (fun j => c (j - u)) (fun j => d (j - u)) (fun j => f (j - u))).map (put nx y0 x0 e)) := by
  refine Adds.congr (Adds.forEach (it1 u) fun j hj => h j (mem_it1.1 hj)) ?_
  have h2 : itFrom u (2 * u) = (List.range u).map (u + ·) := by
    rw [← itFrom_zero, itFrom_shift]; unfold itFrom; congr 1; omega
  rw [rows, h2, List.map_flatMap, List.flatMap_map]
  refine List.flatMap_congr fun j _ => ?_
  simp only [Nat.add_sub_cancel_left]
  rfl

theorem sub_row {y0 nr x0 nc j c d : Nat} (h1 : j < nr) (h2 : c ≤ d) (h3 : d ≤ nc) :
    View.sub ⟨y0, nr, x0, nc⟩ j (j + 1) c d = .ok ⟨y0 + j, 1, x0 + c, d - c⟩ := by
  unfold View.sub
  rw [if_pos ⟨by omega, by simp only; omega, h2, h3⟩, show j + 1 - j = 1 by omega]

theorem sub_box {y0 nr x0 nc a b c d : Nat} (h1 : a ≤ b) (h2 : b ≤ nr) (h3 : c ≤ d) (h4 : d ≤ nc) :
    View.sub ⟨y0, nr, x0, nc⟩ a b c d = .ok ⟨y0 + a, b - a, x0 + c, d - c⟩ := by
  unfold View.sub
  rw [if_pos ⟨h1, h2, h3, h4⟩]

/-- a tile that consists of rows `[0, u)` and rows `[u, 2 u)` -/
theorem tile_split (K : Kind) (hK : K ≠ .normal) (u q : Nat) : (tile K u q : List (Nat × Nat × α)) =
    rows 0 u (lo K u q) (hi K u q) (fun j k => if cut K u q j k then 1 / 2 else 1) ++
    rows u (2 * u) (lo K u q) (hi K u q) (fun j k => if cut K u q j k then 1 / 2 else 1) := by
  rw [rows_append (by omega) (by omega), tile]
  cases K
  · exact absurd rfl hK
  · simp only [Kind.rows]; rw [Nat.mul_comm]
  · simp only [Kind.rows]; rw [Nat.mul_comm]

variable {grid : Ten Nat} {ny nx : Nat} (hg : Grid grid ny nx) {N e : Nat} 
include hg

theorem normalBlock_adds {y0 x0 u : Nat} (h1 : y0 + u ≤ ny) (h2 : x0 + u ≤ nx) (he : e < N) :
    Adds (α := α) N (normalBlock grid ⟨y0, u, x0, u⟩ e) ((tile .normal u 0).map (put nx y0 x0 e)) := by
  refine Adds.congr (full_adds (α := α) hg he (a := 0) (b := u) (c := 0) (d := u) h1 h2) ?_
  congr 1
  simp only [tile, Kind.rows, Nat.mul_one]
  refine rows_congr fun j _ _ => ⟨rfl, rfl, fun k _ _ => ?_⟩
  simp [cut]

theorem belowBlock_adds {y0 x0 u : Nat} (h1 : y0 + 2 * u ≤ ny) (h2 : x0 + 3 * u ≤ nx) (he : e + 3 < N) :
    Adds (α := α) N (belowBlock grid ⟨y0, 2 * u, x0, 3 * u⟩ (3 * u) (2 * u) e)
      ((tile .below u 0).map (put nx y0 x0 (e + 0)) ++ ((tile .below u 2).map (put nx y0 x0 (e + 2)) ++
        ((tile .below u 3).map (put nx y0 x0 (e + 3)) ++ (tile .below u 1).map (put nx y0 x0 (e + 1))))) := by
  have q1 : 2 * u / 2 = u := by omega
  have q2 : 1 * (3 * u) / 3 = u := by omega
  have q3 : 2 * (3 * u) / 3 = 2 * u := by omega
  have q4 : 3 * (3 * u) / 3 = 3 * u := by omega
  have q5 : 0 * (3 * u) / 3 = 0 := by omega
  have b0 := rows_adds (α := α) (N := N) (u := u) (nx := nx) (y0 := y0) (x0 := x0) (e := e + 0)
    (body := fun S j => do
      let r ← View.sub ⟨y0, 2 * u, x0, 3 * u⟩ j (j + 1) j (3 * u - j)
      cutBoth grid r (e + 0) S)
    (fun j hj => Adds.get (q := fun r S => cutBoth grid r (e + 0) S) (sub_row (by omega) (by omega) (by omega))
      (cutBoth_adds (α := α) hg (by omega) (c := j) (d := 3 * u - j) (by omega) (by omega) (by omega)))
  have b3 := rows_adds (α := α) (N := N) (u := u) (nx := nx) (y0 := y0) (x0 := x0) (e := e + 3)
    (body := fun S j => do
      let r ← View.sub ⟨y0, 2 * u, x0, 3 * u⟩ j (j + 1) 0 (j + 1)
      cutLast grid r (e + 3) S)
    (fun j hj => Adds.get (q := fun r S => cutLast grid r (e + 3) S) (sub_row (by omega) (by omega) (by omega))
      (cutLast_adds (α := α) hg (by omega) (c := 0) (d := j + 1) (by omega) (by omega) (by omega)))
  have b1 := rows_adds (α := α) (N := N) (u := u) (nx := nx) (y0 := y0) (x0 := x0) (e := e + 1)
    (body := fun S j => do
      let r ← View.sub ⟨y0, 2 * u, x0, 3 * u⟩ j (j + 1) (3 * u - j - 1) (3 * u)
      cutFirst grid r (e + 1) S)
    (fun j hj => Adds.get (q := fun r S => cutFirst grid r (e + 1) S) (sub_row (by omega) (by omega) (by omega))
      (cutFirst_adds (α := α) hg (by omega) (c := 3 * u - j - 1) (d := 3 * u) (by omega) (by omega) (by omega)))
  have f2 := full_adds (α := α) hg (show e + 2 < N by omega) (y0 := y0) (x0 := x0) (a := u) (b := 2 * u) (c := u) (d := 2 * u) (by omega) (by omega)
  have f3 := full_adds (α := α) hg (show e + 3 < N by omega) (y0 := y0) (x0 := x0) (a := u) (b := 2 * u) (c := 0) (d := u) (by omega) (by omega)
  have f1 := full_adds (α := α) hg (show e + 1 < N by omega) (y0 := y0) (x0 := x0) (a := u) (b := 2 * u) (c := 2 * u) (d := 3 * u) (by omega) (by omega)
  have s2 := sub_box (y0 := y0) (x0 := x0) (nr := 2 * u) (nc := 3 * u) (a := u) (b := 2 * u) (c := u) (d := 2 * u) (by omega) (by omega) (by omega) (by omega)
  have s3 := sub_box (y0 := y0) (x0 := x0) (nr := 2 * u) (nc := 3 * u) (a := u) (b := 2 * u) (c := 0) (d := u) (by omega) (by omega) (by omega) (by omega)
  have s1 := sub_box (y0 := y0) (x0 := x0) (nr := 2 * u) (nc := 3 * u) (a := u) (b := 2 * u) (c := 2 * u) (d := 3 * u) (by omega) (by omega) (by omega) (by omega)
  have main := b0.bind (Adds.get (q := fun r S => (full grid r (e + 2) S).bind _) s2 (f2.bind (b3.bind
    (Adds.get (q := fun r S => (full grid r (e + 3) S).bind _) s3 (f3.bind (b1.bind
      (Adds.get (q := fun r S => full grid r (e + 1) S) s1 f1)))))))
  unfold belowBlock
  rw [q1, q2, q3, q4, q5]
  refine Adds.congr main ?_
  simp only [tile_split .below (by simp), List.map_append, List.append_assoc]
  congr 1
  · congr 1
    exact rows_congr fun j h1 h2 => ⟨by simp [lo, h2], by simp [hi, h2], fun k _ _ => by simp only [cut]⟩
  rw [rows_empty (α := α) (a := u) (b := 2 * u) (lo := lo .below u 0) (hi := hi .below u 0)
      (by intro j h1 h2; simp [lo, hi, show ¬ j < u by omega]), List.map_nil, List.nil_append,
    rows_empty (α := α) (a := 0) (b := u) (lo := lo .below u 2) (hi := hi .below u 2)
      (by intro j h1 h2; simp [lo, hi, h2]), List.map_nil, List.nil_append]
  congr 1
  · congr 1
    exact rows_congr fun j h1 h2 => ⟨rfl, by simp [hi, show ¬ j < u by omega], fun k _ _ => by simp [cut]⟩
  congr 1
  · congr 1
    exact rows_congr fun j h1 h2 => ⟨rfl, by simp [hi, h2], fun k _ _ => by
      simp only [cut]
      exact if_congr (by omega) rfl rfl⟩
  congr 1
  · congr 1
    exact rows_congr fun j h1 h2 => ⟨rfl, by simp [hi, show ¬ j < u by omega], fun k _ _ => by
      simp only [cut]; rw [if_neg (by omega)]⟩
  congr 1
  · congr 1
    exact rows_congr fun j h1 h2 => ⟨by simp [lo, h2], rfl, fun k _ _ => by
      simp only [cut]
      exact if_congr (by omega) rfl rfl⟩
  · congr 1
    exact rows_congr fun j h1 h2 => ⟨by simp [lo, show ¬ j < u by omega], rfl, fun k _ _ => by
      simp only [cut]; rw [if_neg (by omega)]⟩

theorem aboveBlock_adds {y0 x0 u : Nat} (h1 : y0 + 2 * u ≤ ny) (h2 : x0 + 3 * u ≤ nx) (he : e + 3 < N) :
    Adds (α := α) N (aboveBlock grid ⟨y0, 2 * u, x0, 3 * u⟩ (3 * u) (2 * u) e)
      ((tile .above u 3).map (put nx y0 x0 (e + 3)) ++ ((tile .above u 1).map (put nx y0 x0 (e + 1)) ++
        ((tile .above u 0).map (put nx y0 x0 (e + 0)) ++ (tile .above u 2).map (put nx y0 x0 (e + 2))))) := by
  have q1 : 2 * u / 2 = u := by omega
  have q2 : 1 * (3 * u) / 3 = u := by omega
  have q3 : 2 * (3 * u) / 3 = 2 * u := by omega
  have q4 : 3 * (3 * u) / 3 = 3 * u := by omega
  have q5 : 0 * (3 * u) / 3 = 0 := by omega
  have b3 := rows_adds' (α := α) (N := N) (u := u) (nx := nx) (y0 := y0) (x0 := x0) (e := e + 3)
    (body := fun S j => do
      let r ← View.sub ⟨y0, 2 * u, x0, 3 * u⟩ (u + j) (u + j + 1) (u - j - 1) (2 * u + j + 1)
      cutBoth grid r (e + 3) S)
    (fun j hj => Adds.get (q := fun r S => cutBoth grid r (e + 3) S) (sub_row (by omega) (by omega) (by omega))
      (cutBoth_adds (α := α) hg (by omega) (c := u - j - 1) (d := 2 * u + j + 1) (by omega) (by omega) (by omega)))
  have b0 := rows_adds' (α := α) (N := N) (u := u) (nx := nx) (y0 := y0) (x0 := x0) (e := e + 0)
    (body := fun S j => do
      let r ← View.sub ⟨y0, 2 * u, x0, 3 * u⟩ (u + j) (u + j + 1) 0 (u - j)
      cutLast grid r (e + 0) S)
    (fun j hj => Adds.get (q := fun r S => cutLast grid r (e + 0) S) (sub_row (by omega) (by omega) (by omega))
      (cutLast_adds (α := α) hg (by omega) (c := 0) (d := u - j) (by omega) (by omega) (by omega)))
  have b2 := rows_adds' (α := α) (N := N) (u := u) (nx := nx) (y0 := y0) (x0 := x0) (e := e + 2)
    (body := fun S j => do
      let r ← View.sub ⟨y0, 2 * u, x0, 3 * u⟩ (u + j) (u + j + 1) (2 * u + j) (3 * u)
      cutFirst grid r (e + 2) S)
    (fun j hj => Adds.get (q := fun r S => cutFirst grid r (e + 2) S) (sub_row (by omega) (by omega) (by omega))
      (cutFirst_adds (α := α) hg (by omega) (c := 2 * u + j) (d := 3 * u) (by omega) (by omega) (by omega)))
  have f1 := full_adds (α := α) hg (show e + 1 < N by omega) (y0 := y0) (x0 := x0) (a := 0) (b := u) (c := u) (d := 2 * u) (by omega) (by omega)
  have f0 := full_adds (α := α) hg (show e + 0 < N by omega) (y0 := y0) (x0 := x0) (a := 0) (b := u) (c := 0) (d := u) (by omega) (by omega)
  have f2 := full_adds (α := α) hg (show e + 2 < N by omega) (y0 := y0) (x0 := x0) (a := 0) (b := u) (c := 2 * u) (d := 3 * u) (by omega) (by omega)
  have s1 := sub_box (y0 := y0) (x0 := x0) (nr := 2 * u) (nc := 3 * u) (a := 0) (b := u) (c := u) (d := 2 * u) (by omega) (by omega) (by omega) (by omega)
  have s0 := sub_box (y0 := y0) (x0 := x0) (nr := 2 * u) (nc := 3 * u) (a := 0) (b := u) (c := 0) (d := u) (by omega) (by omega) (by omega) (by omega)
  have s2 := sub_box (y0 := y0) (x0 := x0) (nr := 2 * u) (nc := 3 * u) (a := 0) (b := u) (c := 2 * u) (d := 3 * u) (by omega) (by omega) (by omega) (by omega)
  have main := b3.bind (Adds.get (q := fun r S => (full grid r (e + 1) S).bind _) s1 (f1.bind
    (Adds.get (q := fun r S => (full grid r (e + 0) S).bind _) s0 (f0.bind (b0.bind
      (Adds.get (q := fun r S => (full grid r (e + 2) S).bind _) s2 (f2.bind b2)))))))
  unfold aboveBlock
  rw [q1, q2, q3, q4, q5]
  refine Adds.congr main ?_
  simp only [tile_split .above (by simp), List.map_append, List.append_assoc]
  rw [rows_empty (α := α) (a := 0) (b := u) (lo := lo .above u 3) (hi := hi .above u 3)
      (by intro j h1 h2; simp [lo, hi, h2]), List.map_nil, List.nil_append,
    rows_empty (α := α) (a := u) (b := 2 * u) (lo := lo .above u 1) (hi := hi .above u 1)
      (by intro j h1 h2; simp [lo, hi, show ¬ j < u by omega]), List.map_nil, List.nil_append]
  congr 1
  · congr 1
    exact rows_congr fun j h1 h2 => ⟨by simp only [lo]; rw [if_neg (by omega)]; omega,
      by simp only [hi]; rw [if_neg (by omega)]; omega, fun k _ _ => by
      simp only [cut]
      exact if_congr (by omega) rfl rfl⟩
  congr 1
  · congr 1
    exact rows_congr fun j h1 h2 => ⟨rfl, by simp [hi, h2], fun k _ _ => by simp [cut]⟩
  congr 1
  · congr 1
    exact rows_congr fun j h1 h2 => ⟨rfl, by simp [hi, h2], fun k _ _ => by
      simp only [cut]; rw [if_neg (by omega)]⟩
  congr 1
  · congr 1
    exact rows_congr fun j h1 h2 => ⟨rfl, by simp only [hi]; rw [if_neg (by omega)]; omega, fun k _ _ => by
      simp only [cut]
      exact if_congr (by omega) rfl rfl⟩
  congr 1
  · congr 1
    exact rows_congr fun j h1 h2 => ⟨by simp [lo, h2], rfl, fun k _ _ => by
      simp only [cut]; rw [if_neg (by omega)]⟩
  · congr 1
    exact rows_congr fun j h1 h2 => ⟨by simp only [lo]; rw [if_neg (by omega)]; omega, rfl, fun k _ _ => by
      simp only [cut]
      exact if_congr (by omega) rfl rfl⟩

end
end FineLayer2Regular
end GF
