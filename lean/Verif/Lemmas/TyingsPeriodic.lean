import Verif.Spec.TyingsPeriodic
import Verif.Lemmas.MatrixPartitioned

namespace GF
open Finset
variable {α : Type}

theorem length_it2 (n m : Nat) : (it2 n m).length = n * m := by
  simp [it2, List.length_flatMap]

theorem it2_succ (n m : Nat) : it2 (n + 1) m = it2 n m ++ (List.range m).map fun j => (n, j) := by
  simp [it2, List.range_succ]

theorem it2_getElem? {n m i j : Nat} (hi : i < n) (hj : j < m) :
    (it2 n m)[i * m + j]? = some (i, j) := by
  induction n with
  | zero => omega
  | succ n ih =>
    rw [it2_succ]
    by_cases h : i < n
    · have : i * m + j < n * m := by
        calc i * m + j < i * m + m := by omega
          _ = (i + 1) * m := by ring
          _ ≤ n * m := Nat.mul_le_mul_right _ h
      rw [List.getElem?_append_left (by rw [length_it2]; exact this)]
      exact ih h
    · obtain rfl : i = n := by omega
      rw [List.getElem?_append_right (by rw [length_it2]; omega), length_it2]
      simp [hj]

theorem nodup_it2_map {n m : Nat} {f : Nat × Nat → Nat}
    (h : ∀ i j i' j', i < n → j < m → i' < n → j' < m → f (i, j) = f (i', j') → i = i' ∧ j = j') :
    ((it2 n m).map f).Nodup := by
  rw [List.nodup_map_iff_inj_on (by
    rw [it2, List.nodup_flatMap]
    refine ⟨fun a _ => List.Nodup.map (fun _ _ h => (Prod.mk.inj h).2) List.nodup_range,
      List.pairwise_lt_range.imp fun {a b} hab => ?_⟩
    intro x hx hy
    simp only [List.mem_map, List.mem_range] at hx hy
    obtain ⟨_, _, rfl⟩ := hx
    obtain ⟨_, _, h⟩ := hy
    have := (Prod.mk.inj h).1
    omega)]
  rintro ⟨i, j⟩ hx ⟨i', j'⟩ hy e
  rw [mem_it2] at hx hy
  obtain ⟨rfl, rfl⟩ := h i j i' j' hx.1 hx.2 hy.1 hy.2 e
  rfl

/-- contraction of a matrix given by triplets with a vector -/
theorem sum_triplets [NonUnitalNonAssocSemiring α] (T : List (Trip α)) (nc r : Nat) (u : Nat → α)
    (h : ∀ t ∈ T, t.c < nc) :
    ∑ k ∈ range nc, (T.map fun t => if t.r = r ∧ t.c = k then t.v else 0).sum * u k =
      (T.map fun t => if t.r = r then t.v * u t.c else 0).sum := by
  induction T with
  | nil => simp
  | cons t T ih =>
    simp only [List.map_cons, List.sum_cons, add_mul, Finset.sum_add_distrib]
    rw [ih fun t' ht' => h t' (by simp [ht'])]
    congr 1
    by_cases hr : t.r = r
    · simp only [hr, true_and, if_true]
      rw [Finset.sum_eq_single t.c]
      · simp
      · intro b _ hb; simp [Ne.symm hb]
      · intro hb; exact absurd (mem_range.2 (h t (by simp))) hb
    · simp [hr]

theorem sum_map_flatten [AddCommMonoid α] {β : Type} (l : List (List β)) (f : β → α) :
    (l.flatten.map f).sum = (l.map fun r => (r.map f).sum).sum := by
  induction l with
  | nil => rfl
  | cons a l ih => simp only [List.flatten_cons, List.map_append, List.sum_append, ih, List.map_cons, List.sum_cons]

namespace Periodic
variable {T : Periodic α} {nnode : Nat} {x : Nat → Nat → α} {q p t : Nat → Nat → Nat}

/-- the entries of row `i * ndim + j` -/
def rowTrip [One α] [Sub α] (T : Periodic α) (x : Nat → Nat → α) (q p t : Nat → Nat → Nat)
    (keep : Nat → Bool) (off : Nat) (y : Nat × Nat) : List (Trip α) :=
  (if keep (q (t y.1 0) y.2) then [⟨y.1 * T.ndim + y.2, q (t y.1 0) y.2 - off, 1⟩] else []) ++
    ((List.range T.ndim).map fun k => if keep (p y.2 k) then
      [(⟨y.1 * T.ndim + y.2, p y.2 k - off, x (t y.1 1) k - x (t y.1 0) k⟩ : Trip α)] else []).flatten

theorem triplets_spec [One α] [Sub α] (hT : T.Holds nnode x q p t) (keep : Nat → Bool) (off : Nat) :
    T.triplets keep off =
      .ok ((it2 T.nties T.ndim).map (rowTrip T x q p t keep off)).flatten := by
  rw [triplets, mapRes_ok (g := rowTrip T x q p t keep off)]
  · rfl
  · rintro ⟨i, j⟩ hx
    rw [mem_it2] at hx
    obtain ⟨hi, hj⟩ := hx
    dsimp only at hi hj
    obtain ⟨h0, h1⟩ := hT.tie_lt i hi
    simp only [hT.tyings.get hi (show 0 < 2 by omega), hT.tyings.get hi (show 1 < 2 by omega),
      hT.dofs.get h0 hj, Res.ok_bind]
    rw [mapRes_ok (g := fun k => if keep (p j k) then
      [(⟨i * T.ndim + j, p j k - off, x (t i 1) k - x (t i 0) k⟩ : Trip α)] else [])]
    · rfl
    · intro k hk
      simp only [List.mem_range] at hk
      simp only [hT.control.get hj hk, hT.coor.get h1 hk, hT.coor.get h0 hk, Res.ok_bind]
      split <;> rfl

theorem row_inj {m i j i' j' : Nat} (hj : j < m) (hj' : j' < m) (h : i * m + j = i' * m + j') :
    i = i' ∧ j = j' := by
  have hm : 0 < m := by omega
  have h1 : (i * m + j) / m = i := by
    rw [Nat.add_comm, Nat.add_mul_div_right _ _ hm, Nat.div_eq_of_lt hj, Nat.zero_add]
  have h2 : (i' * m + j') / m = i' := by
    rw [Nat.add_comm, Nat.add_mul_div_right _ _ hm, Nat.div_eq_of_lt hj', Nat.zero_add]
  have : i = i' := by rw [← h1, ← h2, h]
  subst this
  exact ⟨rfl, by omega⟩

theorem row_lt {n m i j : Nat} (hi : i < n) (hj : j < m) : i * m + j < n * m := by
  calc i * m + j < i * m + m := by omega
    _ = (i + 1) * m := by ring
    _ ≤ n * m := Nat.mul_le_mul_right _ hi

theorem mem_rowTrip [One α] [Sub α] {keep : Nat → Bool} {off : Nat} {y : Nat × Nat} {e : Trip α}
    (h : e ∈ rowTrip T x q p t keep off y) : e.r = y.1 * T.ndim + y.2 ∧
      ((keep (q (t y.1 0) y.2) = true ∧ e.c = q (t y.1 0) y.2 - off) ∨
      ∃ k, k < T.ndim ∧ keep (p y.2 k) = true ∧ e.c = p y.2 k - off) := by
  simp only [rowTrip, List.mem_append, List.mem_flatten, List.mem_map, List.mem_range] at h
  rcases h with h | ⟨_, ⟨k, hk, rfl⟩, h⟩
  · split at h
    · rename_i hk
      simp only [List.mem_singleton] at h
      subst h
      exact ⟨rfl, Or.inl ⟨hk, rfl⟩⟩
    · simp at h
  · split at h
    · rename_i hk'
      simp only [List.mem_singleton] at h
      subst h
      exact ⟨rfl, Or.inr ⟨k, hk, hk', rfl⟩⟩
    · simp at h

theorem sum_rowTrip [NonAssocRing α] (keep : Nat → Bool) (off : Nat) (y : Nat × Nat)
    (u : Nat → α) (r : Nat) :
    ((rowTrip T x q p t keep off y).map fun e => if e.r = r then e.v * u e.c else 0).sum =
      if y.1 * T.ndim + y.2 = r then
        (if keep (q (t y.1 0) y.2) then u (q (t y.1 0) y.2 - off) else 0) +
        ∑ k ∈ range T.ndim, if keep (p y.2 k) then
          (x (t y.1 1) k - x (t y.1 0) k) * u (p y.2 k - off) else 0
      else 0 := by
  rw [rowTrip, List.map_append, List.sum_append, sum_map_flatten, List.map_map, sum_map_range]
  by_cases hr : y.1 * T.ndim + y.2 = r
  · simp only [hr, if_true]
    congr 1
    · split <;> simp
    · refine Finset.sum_congr rfl fun k _ => ?_
      simp only [Function.comp]
      split <;> simp
  · simp only [hr, if_false]
    rw [Finset.sum_eq_zero, add_zero]
    · split <;> simp [hr]
    · intro k _
      simp only [Function.comp]
      split <;> simp [hr]

/-- row `i * ndim + j` of the tying matrix applied to a vector -/
theorem mat_spec [NonAssocRing α] (hT : T.Holds nnode x q p t) (keep : Nat → Bool) (off nc : Nat)
    (hlt : ∀ k, k < T.nni → keep k = true → k - off < nc) :
    ∃ M, (T.triplets keep off).bind (fun t => Mat.setFromTriplets T.nnd nc t) = .ok M ∧
      M.nr = T.nnd ∧ M.nc = nc ∧ ∀ i j, i < T.nties → j < T.ndim → ∀ u : Nat → α,
        ∑ k ∈ range nc, M.e (i * T.ndim + j) k * u k =
          (if keep (q (t i 0) j) then u (q (t i 0) j - off) else 0) +
          ∑ k ∈ range T.ndim, if keep (p j k) then
            (x (t i 1) k - x (t i 0) k) * u (p j k - off) else 0 := by
  have hmem : ∀ e ∈ ((it2 T.nties T.ndim).map (rowTrip T x q p t keep off)).flatten,
      e.r < T.nnd ∧ e.c < nc := by
    intro e he
    simp only [List.mem_flatten, List.mem_map] at he
    obtain ⟨_, ⟨⟨i, j⟩, hx, rfl⟩, he⟩ := he
    rw [mem_it2] at hx
    dsimp only at hx
    obtain ⟨hr, hc⟩ := mem_rowTrip he
    refine ⟨by rw [hr, hT.nnd]; exact row_lt hx.1 hx.2, ?_⟩
    rcases hc with ⟨hk, hc⟩ | ⟨k, hk, hkk, hc⟩
    · rw [hc]; exact hlt _ (hT.ind i j hx.1 hx.2) hk
    · rw [hc]; exact hlt _ (hT.ctrl j k hx.2 hk) hkk
  refine ⟨_, by rw [triplets_spec hT, Res.ok_bind', Mat.setFromTriplets_ok hmem], rfl, rfl, ?_⟩
  intro i j hi hj u
  dsimp only
  rw [sum_triplets _ _ _ _ fun e he => (hmem e he).2, sum_map_flatten, List.map_map]
  simp only [Function.comp_def, sum_rowTrip]
  rw [sum_it2, Finset.sum_eq_single i, Finset.sum_eq_single j]
  · simp
  · intro b hb hbj
    simp only [mem_range] at hb
    rw [if_neg]
    intro h
    exact hbj (row_inj hb hj h).2
  · intro h; exact absurd (mem_range.2 hj) h
  · intro b _ hbi
    refine Finset.sum_eq_zero fun k hk => ?_
    simp only [mem_range] at hk
    rw [if_neg]
    intro h
    exact hbi (row_inj hk hj h).1
  · intro h; exact absurd (mem_range.2 hi) h

end Periodic
end GF
