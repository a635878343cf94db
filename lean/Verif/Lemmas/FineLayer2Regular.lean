import Verif.Model.FineLayer2Regular
import Verif.Lemmas.FineLayerGrid
import Verif.Lemmas.Incidence
import Verif.Lemmas.Rows
import Verif.Lemmas.Renumber
import Mathlib.Data.List.Nodup
import Mathlib.Tactic.Ring
import Mathlib.Tactic.NormNum

namespace GF
open FineLayerSpec
namespace FineLayer2Regular
open FineLayer
variable {α : Type}

/-- the maps hold the entries `T` (element, regular element, fraction), in order -/
def St (N : Nat) (T : List (Nat × Nat × α)) (S : FLMap α) : Prop :=
  S.elem.length = N ∧ S.frac.length = N ∧ ∀ e, e < N →
    S.elem[e]? = some ((T.filter (fun t => t.1 == e)).map (·.2.1)) ∧
    S.frac[e]? = some ((T.filter (fun t => t.1 == e)).map (·.2.2))

theorem push_ok {N : Nat} {T : List (Nat × Nat × α)} {S : FLMap α} (h : St N T S) {e : Nat} (he : e < N) (i : Nat) (f : α) :
    IsOk (push S e i f) (St N (T ++ [(e, i, f)])) := by
  obtain ⟨h1, h2, h3⟩ := h
  obtain ⟨h4, h5⟩ := h3 e he
  unfold push
  rw [lget_eq h4, Res.ok_bind, lset_ok (by omega), Res.ok_bind, lget_eq h5, Res.ok_bind, lset_ok (by omega), Res.ok_bind]
  refine ⟨_, rfl, by simpa using h1, by simpa using h2, fun e' he' => ?_⟩
  simp only [List.filter_append, List.map_append]
  by_cases hc : e = e'
  · subst hc
    constructor
    · rw [List.getElem?_set_self (by omega)]; simp
    · rw [List.getElem?_set_self (by omega)]; simp
  · rw [List.getElem?_set_ne hc, List.getElem?_set_ne hc]
    obtain ⟨h6, h7⟩ := h3 e' he'
    rw [h6, h7]
    simp [hc]

/-- the program `p` appends the entries `T` -/
def Adds (N : Nat) (p : FLMap α → Res (FLMap α)) (T : List (Nat × Nat × α)) : Prop :=
  ∀ T0 S, St N T0 S → IsOk (p S) (St N (T0 ++ T))

theorem Adds.push {N e : Nat} (he : e < N) (i : Nat) (f : α) : Adds N (fun S => push S e i f) [(e, i, f)] :=
  fun _ _ h => push_ok h he i f

theorem Adds.bind {N : Nat} {p q : FLMap α → Res (FLMap α)} {T1 T2 : List (Nat × Nat × α)} (h1 : Adds N p T1)
    (h2 : Adds N q T2) : Adds N (fun S => (p S).bind q) (T1 ++ T2) := by
  intro T0 S h
  obtain ⟨S1, e1, h3⟩ := h1 T0 S h
  obtain ⟨S2, e2, h4⟩ := h2 _ _ h3
  refine ⟨S2, ?_, by rwa [← List.append_assoc]⟩
  change Res.bind _ _ = _
  rw [e1]; exact e2

theorem Adds.get {N : Nat} {β : Type} {r : Res β} {a : β} {q : β → FLMap α → Res (FLMap α)}
    {T : List (Nat × Nat × α)} (h1 : r = .ok a) (h2 : Adds N (q a) T) : Adds N (fun S => r.bind fun a => q a S) T := by
  subst h1; exact h2

theorem Adds.forEach {N : Nat} {ι : Type} (l : List ι) {body : FLMap α → ι → Res (FLMap α)} {tr : ι → List (Nat × Nat × α)}
    (h : ∀ x, x ∈ l → Adds N (fun S => body S x) (tr x)) : Adds N (fun S => forEach l body S) (l.flatMap tr) := by
  induction l with
  | nil => intro T0 S hS; exact ⟨S, rfl, by simpa using hS⟩
  | cons x l ih =>
    rw [List.flatMap_cons]
    exact Adds.bind (h x (by simp)) (ih fun y hy => h y (by simp [hy]))

theorem Adds.congr {N : Nat} {p : FLMap α → Res (FLMap α)} {T T' : List (Nat × Nat × α)} (h : Adds N p T) (e : T = T') :
    Adds N p T' := e ▸ h

/-! ### rows of cells -/

/-- the cells of rows `[a, b)`, in row `j` the columns `[lo j, hi j)`, with fraction `f j k` -/
def rows (a b : Nat) (lo hi : Nat → Nat) (f : Nat → Nat → α) : List (Nat × Nat × α) :=
  (itFrom a b).flatMap fun j => (itFrom (lo j) (hi j)).map fun k => (j, k, f j k)

theorem mem_itFrom {a b k : Nat} : k ∈ itFrom a b ↔ a ≤ k ∧ k < b := by
  rw [itFrom, List.mem_range'_1]; omega

theorem mem_rows {a b : Nat} {lo hi : Nat → Nat} {f : Nat → Nat → α} {t : Nat × Nat × α} :
    t ∈ rows a b lo hi f ↔ a ≤ t.1 ∧ t.1 < b ∧ lo t.1 ≤ t.2.1 ∧ t.2.1 < hi t.1 ∧ t.2.2 = f t.1 t.2.1 := by
  simp only [rows, List.mem_flatMap, List.mem_map, mem_itFrom]
  constructor
  · rintro ⟨j, hj, k, hk, rfl⟩; exact ⟨hj.1, hj.2, hk.1, hk.2, rfl⟩
  · rintro ⟨h1, h2, h3, h4, h5⟩
    exact ⟨t.1, ⟨h1, h2⟩, t.2.1, ⟨h3, h4⟩, by rw [← h5]⟩

theorem rows_congr {a b : Nat} {lo hi lo' hi' : Nat → Nat} {f f' : Nat → Nat → α}
    (h : ∀ j, a ≤ j → j < b → lo j = lo' j ∧ hi j = hi' j ∧ ∀ k, lo j ≤ k → k < hi j → f j k = f' j k) :
    rows a b lo hi f = rows a b lo' hi' f' := by
  unfold rows
  refine List.flatMap_congr fun j hj => ?_
  obtain ⟨h1, h2⟩ := mem_itFrom.1 hj
  obtain ⟨e1, e2, e3⟩ := h j h1 h2
  rw [← e1, ← e2]
  refine List.map_congr_left fun k hk => ?_
  obtain ⟨h3, h4⟩ := mem_itFrom.1 hk
  rw [e3 k h3 h4]

theorem rows_append {a b c : Nat} (h1 : a ≤ b) (h2 : b ≤ c) (lo hi : Nat → Nat) (f : Nat → Nat → α) :
    rows a b lo hi f ++ rows b c lo hi f = rows a c lo hi f := by
  unfold rows
  rw [← List.flatMap_append]
  congr 1
  unfold itFrom
  rw [show c - a = (b - a) + (c - b) by omega, ← List.range'_append, show a + 1 * (b - a) = b by omega]

theorem rows_empty {a b : Nat} {lo hi : Nat → Nat} {f : Nat → Nat → α} (h : ∀ j, a ≤ j → j < b → hi j ≤ lo j) :
    rows a b lo hi f = [] := by
  unfold rows
  rw [List.flatMap_eq_nil_iff]
  intro j hj
  obtain ⟨h1, h2⟩ := mem_itFrom.1 hj
  have := h j h1 h2
  simp [itFrom, show hi j - lo j = 0 by omega]

theorem rows_nodup {a b : Nat} {lo hi : Nat → Nat} {f : Nat → Nat → α} :
    ((rows a b lo hi f).map fun t => (t.1, t.2.1)).Nodup := by
  unfold rows
  rw [List.map_flatMap, List.nodup_flatMap]
  refine ⟨fun j _ => ?_, ?_⟩
  · rw [List.map_map]
    refine (List.nodup_range').map fun k k' h => ?_
    simpa using h
  · refine (List.nodup_range' (s := a) (n := b - a)).imp fun {j j'} hne => ?_
    intro t h1 h2
    simp only [List.mem_map] at h1 h2
    obtain ⟨_, ⟨k, -, rfl⟩, rfl⟩ := h1
    obtain ⟨_, ⟨k', -, rfl⟩, h3⟩ := h2
    simp only [Prod.mk.injEq] at h3
    exact hne h3.1.symm

/-! ### the programs for a view -/

/-- position of a local cell in the maps -/
def put (nx y0 x0 e : Nat) (t : Nat × Nat × α) : Nat × Nat × α := (e, (y0 + t.1) * nx + (x0 + t.2.1), t.2.2)

/-- the grid of element numbers -/
def Grid (grid : Ten Nat) (ny nx : Nat) : Prop := ∀ i j, i < ny → j < nx → grid.get [i, j] = .ok (i * nx + j)

theorem itFrom_shift (c s t : Nat) : (itFrom s t).map (c + ·) = itFrom (c + s) (c + t) := by
  unfold itFrom
  rw [List.map_add_range', show c + t - (c + s) = t - s by omega]

theorem itFrom_zero (t : Nat) : itFrom 0 t = List.range t := by
  rw [itFrom, List.range_eq_range', Nat.sub_zero]

theorem itFrom_head {c d : Nat} (h : c < d) : itFrom c d = c :: itFrom (c + 1) d := by
  unfold itFrom
  rw [show d - c = (d - (c + 1)) + 1 by omega, List.range'_succ]

theorem itFrom_last {c d : Nat} (h : c < d) : itFrom c d = itFrom c (d - 1) ++ [d - 1] := by
  unfold itFrom
  rw [show d - c = (d - 1 - c) + 1 by omega, List.range'_concat]
  congr 2; omega

section
variable [Field α] {grid : Ten Nat} {ny nx : Nat} (hg : Grid grid ny nx) {N e : Nat} (he : e < N)
include hg he

theorem half_adds {y0 x0 j c d k : Nat} (hr : y0 + j < ny) (hc : x0 + d ≤ nx) (hk : c + k < d) :
    Adds (α := α) N (half grid ⟨y0 + j, 1, x0 + c, d - c⟩ e k) [put nx y0 x0 e (j, c + k, 1 / 2)] := by
  have : View.get grid ⟨y0 + j, 1, x0 + c, d - c⟩ 0 k = .ok ((y0 + j) * nx + (x0 + (c + k))) := by
    unfold View.get
    rw [if_pos ⟨by simp, by simp; omega⟩]
    simp only [Nat.add_zero]
    rw [hg _ _ hr (by omega), Nat.add_assoc x0]
  exact Adds.get (q := fun i S => push S e i (1 / 2)) this (Adds.push he _ _)

theorem part_adds {y0 x0 j c d s t : Nat} (hr : y0 + j < ny) (hc : x0 + d ≤ nx) (hk : c + t ≤ d) :
    Adds (α := α) N (part grid ⟨y0 + j, 1, x0 + c, d - c⟩ e s t)
      ((itFrom (c + s) (c + t)).map fun k => put nx y0 x0 e (j, k, 1)) := by
  have h1 : ∀ k, k ∈ itFrom s t → View.get grid ⟨y0 + j, 1, x0 + c, d - c⟩ 0 k = .ok ((y0 + j) * nx + (x0 + (c + k))) := by
    intro k hk
    obtain ⟨h1, h2⟩ := mem_itFrom.1 hk
    unfold View.get
    rw [if_pos ⟨by simp, by simp; omega⟩]
    simp only [Nat.add_zero]
    rw [hg _ _ hr (by omega), Nat.add_assoc x0]
  have := Adds.forEach (α := α) (N := N) (itFrom s t)
    (body := fun S k => do
      let i ← View.get grid ⟨y0 + j, 1, x0 + c, d - c⟩ 0 k
      push S e i 1)
    (tr := fun k => [put nx y0 x0 e (j, c + k, 1)])
    (fun k hk => Adds.get (q := fun i S => push S e i 1) (h1 k hk) (Adds.push he _ _))
  refine Adds.congr this ?_
  rw [← itFrom_shift, List.map_map, ← List.map_eq_flatMap]
  rfl

theorem full_adds {y0 x0 a b c d : Nat} (hr : y0 + b ≤ ny) (hc : x0 + d ≤ nx) :
    Adds (α := α) N (full grid ⟨y0 + a, b - a, x0 + c, d - c⟩ e)
      ((rows a b (fun _ => c) (fun _ => d) (fun _ _ => 1)).map (put nx y0 x0 e)) := by
  have h1 : ∀ p, p ∈ it2 (b - a) (d - c) → View.get grid ⟨y0 + a, b - a, x0 + c, d - c⟩ p.1 p.2 =
      .ok ((y0 + (a + p.1)) * nx + (x0 + (c + p.2))) := by
    intro p hp
    obtain ⟨h1, h2⟩ := mem_it2.1 hp
    unfold View.get
    rw [if_pos ⟨h1, h2⟩]
    simp only
    rw [hg _ _ (by omega) (by omega), Nat.add_assoc x0, Nat.add_assoc y0]
  have := Adds.forEach (α := α) (N := N) (it2 (b - a) (d - c))
    (body := fun S p => do
      let i ← View.get grid ⟨y0 + a, b - a, x0 + c, d - c⟩ p.1 p.2
      push S e i 1)
    (tr := fun p => [put nx y0 x0 e (a + p.1, c + p.2, 1)])
    (fun p hp => Adds.get (q := fun i S => push S e i 1) (h1 p hp) (Adds.push he _ _))
  refine Adds.congr this ?_
  rw [← List.map_eq_flatMap, it2, rows, List.map_flatMap, List.map_flatMap]
  have h2 : itFrom a b = (List.range (b - a)).map (a + ·) := by
    rw [← itFrom_zero, itFrom_shift]; unfold itFrom; congr 1; omega
  have h3 : itFrom c d = (List.range (d - c)).map (c + ·) := by
    rw [← itFrom_zero, itFrom_shift]; unfold itFrom; congr 1; omega
  rw [h2, h3, List.flatMap_map]
  refine List.flatMap_congr fun i _ => ?_
  simp only [List.map_map]
  rfl

/-- one row of cells -/
def rowL (j c d : Nat) (f : Nat → α) : List (Nat × Nat × α) := (itFrom c d).map fun k => (j, k, f k)

omit hg he in
theorem rowL_congr {j c d : Nat} {f f' : Nat → α} (h : ∀ k, c ≤ k → k < d → f k = f' k) : rowL j c d f = rowL j c d f' := by
  refine List.map_congr_left fun k hk => ?_
  obtain ⟨h3, h4⟩ := mem_itFrom.1 hk
  rw [h k h3 h4]

theorem cutLast_adds {y0 x0 j c d : Nat} (hr : y0 + j < ny) (hc : x0 + d ≤ nx) (hk : c < d) :
    Adds (α := α) N (cutLast grid ⟨y0 + j, 1, x0 + c, d - c⟩ e)
      ((rowL j c d fun k => if k + 1 = d then 1 / 2 else 1).map (put nx y0 x0 e)) := by
  have := Adds.bind (part_adds (α := α) hg he (c := c) (d := d) (s := 0) (t := d - c - 1) hr hc (by omega))
    (half_adds (α := α) hg he (c := c) (d := d) (k := d - c - 1) hr hc (by omega)) 
  refine Adds.congr this ?_
  rw [rowL, itFrom_last hk, List.map_append, List.map_append, List.map_map]
  congr 1
  · rw [show c + (d - c - 1) = d - 1 by omega]
    refine List.map_congr_left fun k hk => ?_
    obtain ⟨h3, h4⟩ := mem_itFrom.1 hk
    simp only [Function.comp]
    rw [if_neg (by omega)]
  · rw [show c + (d - c - 1) = d - 1 by omega]
    simp only [List.map_cons, List.map_nil]
    rw [if_pos (by omega)]

theorem cutFirst_adds {y0 x0 j c d : Nat} (hr : y0 + j < ny) (hc : x0 + d ≤ nx) (hk : c < d) :
    Adds (α := α) N (cutFirst grid ⟨y0 + j, 1, x0 + c, d - c⟩ e)
      ((rowL j c d fun k => if k = c then 1 / 2 else 1).map (put nx y0 x0 e)) := by
  have := Adds.bind (half_adds (α := α) hg he (c := c) (d := d) (k := 0) hr hc (by omega))
    (part_adds (α := α) hg he (c := c) (d := d) (s := 1) (t := d - c) hr hc (by omega))
  refine Adds.congr this ?_
  rw [rowL, itFrom_head hk, List.map_cons, List.map_cons, List.map_map, if_pos rfl]
  rw [Nat.add_zero, List.singleton_append]
  congr 1
  rw [show c + (d - c) = d by omega]
  refine List.map_congr_left fun k hk => ?_
  obtain ⟨h3, h4⟩ := mem_itFrom.1 hk
  simp only [Function.comp]
  rw [if_neg (by omega)]

theorem cutBoth_adds {y0 x0 j c d : Nat} (hr : y0 + j < ny) (hc : x0 + d ≤ nx) (hk : c + 2 ≤ d) :
    Adds (α := α) N (cutBoth grid ⟨y0 + j, 1, x0 + c, d - c⟩ e)
      ((rowL j c d fun k => if k = c ∨ k + 1 = d then 1 / 2 else 1).map (put nx y0 x0 e)) := by
  have := Adds.bind (half_adds (α := α) hg he (c := c) (d := d) (k := 0) hr hc (by omega))
    (Adds.bind (part_adds (α := α) hg he (c := c) (d := d) (s := 1) (t := d - c - 1) hr hc (by omega))
      (half_adds (α := α) hg he (c := c) (d := d) (k := d - c - 1) hr hc (by omega)))
  refine Adds.congr this ?_
  rw [rowL, itFrom_head (show c < d by omega), itFrom_last (show c + 1 < d by omega)]
  rw [List.map_cons, List.map_cons, List.map_append, List.map_append, List.map_map, if_pos (Or.inl rfl)]
  rw [Nat.add_zero, List.singleton_append]
  congr 1
  congr 1
  · rw [show c + (d - c - 1) = d - 1 by omega]
    refine List.map_congr_left fun k hk => ?_
    obtain ⟨h3, h4⟩ := mem_itFrom.1 hk
    simp only [Function.comp]
    rw [if_neg (by omega)]
  · rw [show c + (d - c - 1) = d - 1 by omega]
    simp only [List.map_cons, List.map_nil]
    rw [if_pos (by omega)]

end

end FineLayer2Regular
end GF
