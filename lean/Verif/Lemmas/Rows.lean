import Verif.Lemmas.TyingsPeriodic

/-! Loops that write consecutive rows of a matrix, with a running row counter. -/

namespace GF
variable {α ι : Type}

/-- the effect of an in-bounds assignment -/
def Ten.put (t : Ten α) (ix : List Nat) (a : α) : Ten α := ⟨t.shape, Function.update t.v ix (some a)⟩

@[simp] theorem Ten.put_shape (t : Ten α) (ix : List Nat) (a : α) : (t.put ix a).shape = t.shape := rfl

theorem Ten.put_v (t : Ten α) (ix jx : List Nat) (a : α) :
    (t.put ix a).v jx = if jx = ix then some a else t.v jx := by
  simp [Ten.put, Function.update_apply]

theorem set_put {t : Ten α} {ix : List Nat} (h : inb t.shape ix = true) (a : α) :
    t.set ix a = .ok (t.put ix a) := by
  simp [Ten.set, h, Ten.put]

theorem set2 {t : Ten α} {n w i j : Nat} (hs : t.shape = [n, w]) (hi : i < n) (hj : j < w) (a : α) :
    t.set [i, j] a = .ok ⟨t.shape, Function.update t.v [i, j] (some a)⟩ := by
  simp [Ten.set, hs, hi, hj]

theorem set1 {t : Ten α} {n i : Nat} (hs : t.shape = [n]) (hi : i < n) (a : α) :
    t.set [i] a = .ok ⟨t.shape, Function.update t.v [i] (some a)⟩ := by
  simp [Ten.set, hs, hi]

/-- every iteration writes `K` complete rows at the counter and advances it by `K` -/
theorem rows_loop (K w : Nat) (hK : 0 < K) (L : List ι) (idx : Nat → ι)
    (hidx : ∀ k, k < L.length → L[k]? = some (idx k))
    (body : Ten α × Nat → ι → Res (Ten α × Nat)) (g : ι → Nat → Nat → α) (N : Nat)
    (hN : N = L.length * K)
    (hb : ∀ i ∈ L, ∀ (t : Ten α) (c : Nat), t.shape = [N, w] → c + K ≤ N →
      ∃ t', body (t, c) i = .ok (t', c + K) ∧ t'.shape = [N, w] ∧
        (∀ r j, r < K → j < w → t'.v [c + r, j] = some (g i r j)) ∧
        ∀ r j, r < c → t'.v [r, j] = t.v [r, j]) :
    ∃ t, forEach L body (Ten.empty [N, w], 0) = .ok (t, N) ∧
      Is2 t N w (fun e j => g (idx (e / K)) (e % K) j) := by
  obtain ⟨⟨t, c⟩, h1, h2, h3, h4⟩ := forEach_inv L body
    (fun pre s => s.1.shape = [N, w] ∧ s.2 = pre.length * K ∧
      ∀ e j, e < pre.length * K → j < w → s.1.v [e, j] = some (g (idx (e / K)) (e % K) j))
    (Ten.empty [N, w], 0) ⟨rfl, by simp, by simp⟩ (by
      rintro pre i post ⟨t, c⟩ hl ⟨hs, hc, hv⟩
      have hi : i ∈ L := by simp [hl]
      have hlen : pre.length + 1 ≤ L.length := by simp [hl]
      dsimp only at hs hc hv
      have hle : c + K ≤ N := by
        rw [hc, hN]
        calc pre.length * K + K = (pre.length + 1) * K := by ring
          _ ≤ _ := Nat.mul_le_mul_right _ hlen
      obtain ⟨t', h5, h6, h7, h8⟩ := hb i hi t c hs hle
      have hii : idx pre.length = i := by
        have := hidx pre.length (by omega)
        rw [hl] at this
        simpa using this.symm
      refine ⟨(t', c + K), h5, h6, ?_, ?_⟩
      · simp [hc, Nat.add_mul]
      · intro e j he hj
        dsimp only
        by_cases h : e < c
        · rw [h8 e j h]
          exact hv e j (by omega) hj
        · obtain ⟨r, rfl⟩ : ∃ r, e = c + r := ⟨e - c, by omega⟩
          have hr : r < K := by
            simp [Nat.add_mul] at he; omega
          rw [h7 r j hr hj, hc]
          rw [show (pre.length * K + r) / K = pre.length by
            rw [Nat.add_comm, Nat.add_mul_div_right _ _ hK, Nat.div_eq_of_lt hr]; omega]
          rw [show (pre.length * K + r) % K = r by
            rw [Nat.add_comm, Nat.add_mul_mod_self_right, Nat.mod_eq_of_lt hr], hii])
  dsimp only at h2 h3 h4
  refine ⟨t, by rw [h1, h3, hN], h2, fun e j he hj => h4 e j (by omega) hj⟩

theorem it2_idx {n m k : Nat} (hk : k < (it2 n m).length) : (it2 n m)[k]? = some (k / m, k % m) := by
  rw [length_it2] at hk
  have hm : 0 < m := by
    rcases Nat.eq_zero_or_pos m with rfl | h
    · simp at hk
    · exact h
  have h1 : k / m < n := (Nat.div_lt_iff_lt_mul hm).2 hk
  have := it2_getElem? (n := n) (m := m) h1 (Nat.mod_lt k hm)
  rwa [show k / m * m + k % m = k by rw [Nat.mul_comm]; exact Nat.div_add_mod k m] at this

/-- two nested loops writing one row per iteration -/
theorem rows_it2 (n m w : Nat) (body : Ten α × Nat → Nat × Nat → Res (Ten α × Nat))
    (g : Nat × Nat → Nat → α) (N : Nat) (hN : N = n * m)
    (hb : ∀ i j, i < n → j < m → ∀ (t : Ten α) (c : Nat), t.shape = [N, w] → c < N →
      ∃ t', body (t, c) (i, j) = .ok (t', c + 1) ∧ t'.shape = [N, w] ∧
        (∀ l, l < w → t'.v [c, l] = some (g (i, j) l)) ∧
        ∀ r l, r < c → t'.v [r, l] = t.v [r, l]) :
    ∃ t, forEach (it2 n m) body (Ten.empty [N, w], 0) = .ok (t, N) ∧
      Is2 t N w (fun e l => g (e / m, e % m) l) := by
  obtain ⟨t, h1, h2⟩ := rows_loop 1 w Nat.one_pos (it2 n m) (fun k => (k / m, k % m))
    (fun k hk => it2_idx hk) body (fun i _ l => g i l) N (by rw [length_it2, hN, Nat.mul_one]) (by
      rintro ⟨i, j⟩ hij t c hs hc
      rw [mem_it2] at hij
      obtain ⟨t', h3, h4, h5, h6⟩ := hb i j hij.1 hij.2 t c hs (by omega)
      refine ⟨t', h3, h4, fun r l hr hl => ?_, h6⟩
      obtain rfl : r = 0 := by omega
      exact h5 l hl)
  refine ⟨t, h1, h2.congr fun e l he hl => ?_⟩
  simp

theorem grid_lt {n m i j : Nat} (hi : i < n) (hj : j < m) : i * m + j < n * m :=
  calc i * m + j < i * m + m := by omega
    _ = (i + 1) * m := by ring
    _ ≤ n * m := Nat.mul_le_mul_right _ hi

theorem grid_div {m i j : Nat} (hj : j < m) : (i * m + j) / m = i := by
  rw [Nat.add_comm, Nat.add_mul_div_right _ _ (by omega), Nat.div_eq_of_lt hj]; omega

theorem grid_mod {m i j : Nat} (hj : j < m) : (i * m + j) % m = j := by
  rw [Nat.add_comm, Nat.add_mul_mod_self_right, Nat.mod_eq_of_lt hj]

theorem grid_exists {n m k : Nat} (hk : k < n * m) : ∃ i j, i < n ∧ j < m ∧ k = i * m + j := by
  have hm : 0 < m := by
    rcases Nat.eq_zero_or_pos m with rfl | h
    · simp at hk
    · exact h
  exact ⟨k / m, k % m, (Nat.div_lt_iff_lt_mul hm).2 hk, Nat.mod_lt k hm, by
    rw [Nat.mul_comm]; exact (Nat.div_add_mod k m).symm⟩

theorem grid_inj {m i j i' j' : Nat} (hj : j < m) (hj' : j' < m) (h : i * m + j = i' * m + j') :
    i = i' ∧ j = j' := by
  constructor
  · rw [← grid_div (m := m) (i := i) hj, h, grid_div hj']
  · rw [← grid_mod (m := m) (i := i) hj, h, grid_mod hj']

end GF
