import Verif.Lemmas.FineLayerNew

/-! Programs that append rows to a two-dimensional array at a counter. -/

namespace GF
variable {α : Type}
open FineLayerSpec FineLayer

/-- `f` writes `n` complete rows `g 0`, `g 1`, ... at the counter, advances it by `n` and leaves the
previous rows alone. -/
def Emits (N w : Nat) (f : Ten α × Nat → Res (Ten α × Nat)) (n : Nat) (g : Nat → Nat → α) : Prop :=
  ∀ t c, t.shape = [N, w] → c + n ≤ N → ∃ t', f (t, c) = .ok (t', c + n) ∧ t'.shape = [N, w] ∧
    (∀ k j, k < n → j < w → t'.v [c + k, j] = some (g k j)) ∧
    ∀ k j, k < c → t'.v [k, j] = t.v [k, j]

theorem emits_nil (N w : Nat) (g : Nat → Nat → α) : Emits N w (fun s => .ok s) 0 g :=
  fun t c hs _ => ⟨t, rfl, hs, by intro k j hk; omega, fun _ _ _ => rfl⟩

theorem Emits.congr {N w n : Nat} {f : Ten α × Nat → Res (Ten α × Nat)} {g g' : Nat → Nat → α}
    (h : Emits N w f n g) (hg : ∀ k j, k < n → j < w → g k j = g' k j) : Emits N w f n g' := by
  intro t c hs hc
  obtain ⟨t', a, b, d, e⟩ := h t c hs hc
  exact ⟨t', a, b, fun k j hk hj => by rw [d k j hk hj, hg k j hk hj], e⟩

theorem Emits.seq {N w n m : Nat} {f f' : Ten α × Nat → Res (Ten α × Nat)} {g g' G : Nat → Nat → α}
    (h : Emits N w f n g) (h' : Emits N w f' m g')
    (h1 : ∀ k j, k < n → j < w → G k j = g k j) (h2 : ∀ k j, k < m → j < w → G (n + k) j = g' k j) :
    Emits N w (fun s => (f s).bind f') (n + m) G := by
  intro t c hs hc
  obtain ⟨t1, a1, a2, a3, a4⟩ := h t c hs (by omega)
  obtain ⟨t2, b1, b2, b3, b4⟩ := h' t1 (c + n) a2 (by omega)
  refine ⟨t2, ?_, b2, fun k j hk hj => ?_, fun k j hk => ?_⟩
  · dsimp only
    rw [a1, Res.ok_bind', b1, Nat.add_assoc]
  · by_cases hkn : k < n
    · rw [b4 _ _ (by omega), a3 k j hkn hj, h1 k j hkn hj]
    · have := b3 (k - n) j (by omega) hj
      rw [show c + n + (k - n) = c + k by omega] at this
      rw [this, ← h2 (k - n) j (by omega) hj, show n + (k - n) = k by omega]
  · rw [b4 k j (by omega), a4 k j hk]

/-- a loop of blocks of `cnt i` rows -/
theorem emits_blocks {N w : Nat} (m : Nat) (body : Ten α × Nat → Nat → Res (Ten α × Nat)) (cnt : Nat → Nat)
    (g : Nat → Nat → Nat → α) (G : Nat → Nat → α)
    (hb : ∀ i, i < m → Emits N w (fun s => body s i) (cnt i) (g i))
    (hG : ∀ i k j, i < m → k < cnt i → j < w → G (height cnt i + k) j = g i k j) :
    Emits N w (fun s => forEach (it1 m) body s) (height cnt m) G := by
  induction m with
  | zero => exact emits_nil N w G
  | succ m ih =>
    have h1 := ih (fun i hi => hb i (by omega)) (fun i k j hi => hG i k j (by omega))
    have h2 := h1.seq (hb m (by omega)) (G := G) (fun _ _ _ _ => rfl)
      (fun k j hk hj => hG m k j (by omega) hk hj)
    rw [height_succ]
    intro t c hs hc
    obtain ⟨t', a, b⟩ := h2 t c hs hc
    exact ⟨t', by beta_reduce; rw [forEach_it1_succ]; exact a, b⟩

theorem height_const (K m : Nat) : height (fun _ => K) m = m * K := by simp [height]

theorem height_mono {g : Nat → Nat} {i j : Nat} (h : i ≤ j) : height g i ≤ height g j := by
  obtain ⟨d, rfl⟩ := Nat.exists_eq_add_of_le h
  induction d with
  | zero => exact le_refl _
  | succ d ih => rw [← Nat.add_assoc, height_succ]; exact (ih (by omega)).trans (Nat.le_add_right _ _)

theorem height_add (g : Nat → Nat) (a b : Nat) : height g (a + b) = height g a + height (fun i => g (a + i)) b := by
  induction b with
  | zero => simp [height]
  | succ b ih => rw [← Nat.add_assoc, height_succ, height_succ, ih]; omega

/-- every number below the total is in exactly one block -/
theorem exists_block {cnt : Nat → Nat} {m e : Nat} (he : e < height cnt m) :
    ∃ i k, i < m ∧ k < cnt i ∧ e = height cnt i + k := by
  induction m with
  | zero => simp [height] at he
  | succ m ih =>
    by_cases h : e < height cnt m
    · obtain ⟨i, k, h1, h2, h3⟩ := ih h
      exact ⟨i, k, by omega, h2, h3⟩
    · rw [height_succ] at he
      exact ⟨m, e - height cnt m, by omega, by omega, by omega⟩

theorem block_inj {cnt : Nat → Nat} {i k i' k' : Nat} (hk : k < cnt i) (hk' : k' < cnt i')
    (h : height cnt i + k = height cnt i' + k') : i = i' ∧ k = k' := by
  have : ∀ a b, a < b → height cnt a + cnt a ≤ height cnt b := by
    intro a b hab
    rw [← height_succ]; exact height_mono hab
  rcases Nat.lt_trichotomy i i' with h1 | h1 | h1
  · have := this i i' h1; omega
  · subst h1; exact ⟨rfl, by omega⟩
  · have := this i' i h1; omega

theorem block_lt {cnt : Nat → Nat} {m i k : Nat} (hi : i < m) (hk : k < cnt i) :
    height cnt i + k < height cnt m := by
  have : height cnt (i + 1) ≤ height cnt m := height_mono hi
  rw [height_succ] at this
  omega

/-- a function is determined block by block -/
theorem exists_glue {β : Type} [Inhabited β] (cnt : Nat → Nat) (g : Nat → Nat → β) :
    ∃ G : Nat → β, ∀ i k, k < cnt i → G (height cnt i + k) = g i k := by
  classical
  refine ⟨fun e => if h : ∃ p : Nat × Nat, p.2 < cnt p.1 ∧ e = height cnt p.1 + p.2 then
    g h.choose.1 h.choose.2 else default, fun i k hk => ?_⟩
  have hex : ∃ p : Nat × Nat, p.2 < cnt p.1 ∧ height cnt i + k = height cnt p.1 + p.2 := ⟨(i, k), hk, rfl⟩
  beta_reduce
  rw [dif_pos hex]
  obtain ⟨h1, h2⟩ := hex.choose_spec
  obtain ⟨e1, e2⟩ := block_inj hk h1 h2
  rw [← e1, ← e2]

/-- one row of two entries -/
theorem emits_row2 {N : Nat} (a b : α) :
    Emits N 2 (fun s => do
      let ret ← s.1.set [s.2, 0] a
      let ret ← ret.set [s.2, 1] b
      Res.ok (ret, s.2 + 1)) 1 (fun _ j => if j = 0 then a else b) := by
  intro t c hs hc
  dsimp only
  have key : ∀ (t : Ten α) (j : Nat) (a : α), t.shape = [N, 2] → j < 2 → t.set [c, j] a = .ok (t.put [c, j] a) :=
    fun t j a h hj => set_put (by simp [h, hj]; omega) a
  rw [key _ _ _ hs (by omega), Res.ok_bind, key _ _ _ (by simp only [Ten.put_shape]; exact hs) (by omega), Res.ok_bind]
  refine ⟨_, rfl, hs, fun k j hk hj => ?_, fun k j hk => ?_⟩
  · obtain rfl : k = 0 := by omega
    obtain rfl | rfl : j = 0 ∨ j = 1 := by omega
    all_goals simp [Ten.put_v]
  · have : k ≠ c := by omega
    simp [Ten.put_v, this]

/-- one row of four entries -/
theorem emits_row4 {N : Nat} (a b c d : Nat) :
    Emits N 4 (fun s => putElem s a b c d) 1
      (fun _ j => if j = 0 then a else if j = 1 then b else if j = 2 then c else d) := by
  intro t e hs hc
  unfold putElem
  dsimp only
  have key : ∀ (t : Ten Nat) (j a : Nat), t.shape = [N, 4] → j < 4 → t.set [e, j] a = .ok (t.put [e, j] a) :=
    fun t j a h hj => set_put (by simp [h, hj]; omega) a
  rw [key _ _ _ hs (by omega), Res.ok_bind, key _ _ _ (by simp only [Ten.put_shape]; exact hs) (by omega), Res.ok_bind,
    key _ _ _ (by simp only [Ten.put_shape]; exact hs) (by omega), Res.ok_bind, key _ _ _ (by simp only [Ten.put_shape]; exact hs) (by omega), Res.ok_bind]
  refine ⟨_, rfl, hs, fun k j hk hj => ?_, fun k j hk => ?_⟩
  · obtain rfl : k = 0 := by omega
    obtain rfl | rfl | rfl | rfl : j = 0 ∨ j = 1 ∨ j = 2 ∨ j = 3 := by omega
    all_goals simp [Ten.put_v]
  · have : k ≠ e := by omega
    simp [Ten.put_v, this]

/-- a loop of blocks of `K` rows -/
theorem emits_unif {N w : Nat} (m K : Nat) (hK : 0 < K) (body : Ten α × Nat → Nat → Res (Ten α × Nat))
    (g : Nat → Nat → Nat → α) (hb : ∀ i, i < m → Emits N w (fun s => body s i) K (g i)) :
    Emits N w (fun s => forEach (it1 m) body s) (m * K) (fun e j => g (e / K) (e % K) j) := by
  have := emits_blocks m body (fun _ => K) g (fun e j => g (e / K) (e % K) j) hb (by
    intro i k j hi hk hj
    beta_reduce
    rw [height_const, grid_div hk, grid_mod hk])
  rwa [height_const] at this

/-- a loop of single rows -/
theorem emits_it1 {N w : Nat} (m : Nat) (body : Ten α × Nat → Nat → Res (Ten α × Nat))
    (g : Nat → Nat → α) (hb : ∀ i, i < m → Emits N w (fun s => body s i) 1 (fun _ j => g i j)) :
    Emits N w (fun s => forEach (it1 m) body s) m g := by
  have := emits_unif m 1 Nat.one_pos body (fun i _ j => g i j) hb
  rw [Nat.mul_one] at this
  exact this.congr fun k j _ _ => by rw [Nat.div_one]

end GF
