import Verif.Model.Allocate
import Verif.Lemmas.Element

/-!
# Property C52: `AsTensor` and `as3d`
-/

namespace GF.Allocate
variable {α : Type}

theorem ravel_lt {sh ix : List Nat} (h : inb sh ix = true) : ravel sh ix < sizeOf' sh := by
  induction sh generalizing ix with
  | nil => rw [inb_iff_nil.1 h]; simp [ravel, sizeOf']
  | cons n sh ih =>
    obtain ⟨i, jx, rfl, hi, hjx⟩ := inb_iff_cons.1 h
    simp only [ravel, sizeOf']
    exact grid_lt hi (ih hjx)

theorem unravel_ravel {sh ix : List Nat} (h : inb sh ix = true) : unravel sh (ravel sh ix) = ix := by
  induction sh generalizing ix with
  | nil => rw [inb_iff_nil.1 h]; rfl
  | cons n sh ih =>
    obtain ⟨i, jx, rfl, hi, hjx⟩ := inb_iff_cons.1 h
    have := ravel_lt hjx
    simp only [ravel, unravel, grid_div this, grid_mod this, ih hjx]

theorem offset_zeros (jx : List Nat) (k : Nat) : offset jx (List.replicate k 0) = 0 := by
  induction jx generalizing k with
  | nil => rfl
  | cons j jx ih =>
    cases k with
    | zero => rfl
    | succ k => simp only [List.replicate_succ, offset, ih]; omega

theorem offset_eq {sh ix : List Nat} (h : inb sh ix = true) (jx : List Nat) (k : Nat) :
    offset (ix ++ jx) (strides sh ++ List.replicate k 0) = ravel sh ix := by
  induction sh generalizing ix with
  | nil =>
    rw [inb_iff_nil.1 h]
    exact offset_zeros jx k
  | cons n sh ih =>
    obtain ⟨i, kx, rfl, hi, hkx⟩ := inb_iff_cons.1 h
    simp only [List.cons_append, strides, offset, ravel, ih hkx]
    by_cases hn : n = 1
    · rw [if_pos hn, show i = 0 by omega]; omega
    · rw [if_neg hn]

theorem inb_append {sh sh' ix : List Nat} (h : inb (sh ++ sh') ix = true) :
    ∃ a b, ix = a ++ b ∧ inb sh a = true ∧ inb sh' b = true := by
  induction sh generalizing ix with
  | nil => exact ⟨[], ix, rfl, rfl, h⟩
  | cons n sh ih =>
    obtain ⟨i, jx, rfl, hi, hjx⟩ := inb_iff_cons.1 h
    obtain ⟨a, b, rfl, h1, h2⟩ := ih hjx
    exact ⟨i :: a, b, rfl, by simp [hi, h1], h2⟩

theorem append_inb {sh sh' a b : List Nat} (h1 : inb sh a = true) (h2 : inb sh' b = true) :
    inb (sh ++ sh') (a ++ b) = true := by
  induction sh generalizing a with
  | nil => rw [inb_iff_nil.1 h1]; exact h2
  | cons n sh ih =>
    obtain ⟨i, jx, rfl, hi, hjx⟩ := inb_iff_cons.1 h1
    simp [hi, ih hjx]

/-- **C52** (`asTensor`): writing into any array of shape `arg.shape ++ extra` copies every entry of `arg` to all the
cells that extend its index. -/
theorem C52_asTensor_write (arg ret : Ten α) (extra : List Nat) (hs : ret.shape = arg.shape ++ extra)
    (harg : ∀ ix, inb arg.shape ix = true → ∃ a, arg.v ix = some a) :
    IsOk (asTensor arg ret) fun t => t.shape = arg.shape ++ extra ∧
      ∀ ix jx, inb arg.shape ix = true → inb extra jx = true → t.v (ix ++ jx) = arg.v ix := by
  classical
  by_cases hne : Nonempty α
  swap
  · -- no values: then `arg` has no cells
    have hempty : ∀ ix, ¬ inb arg.shape ix = true := fun ix h => hne ⟨(harg ix h).choose⟩
    have : indices ret.shape = [] := by
      rw [List.eq_nil_iff_forall_not_mem]
      intro ix hix
      rw [mem_indices, hs] at hix
      obtain ⟨a, b, -, h1, -⟩ := inb_append hix
      exact hempty a h1
    refine ⟨ret, ?_, hs, fun ix jx h => absurd h (hempty ix)⟩
    simp only [asTensor, asTensor_write, this]
    rfl
  obtain ⟨a0⟩ := hne
  have hget : ∀ ix jx, inb arg.shape ix = true → inb extra jx = true →
      stridedGet arg (strides arg.shape ++ List.replicate (ret.shape.length - arg.shape.length) 0) (ix ++ jx) =
        .ok ((arg.v ix).getD a0) := by
    intro ix jx h1 h2
    obtain ⟨a, ha⟩ := harg ix h1
    rw [stridedGet, offset_eq h1, unravel_ravel h1, Ten.get, if_pos h1, ha]
    rfl
  let val : List Nat → α := fun p => (arg.v (p.take arg.shape.length)).getD a0
  have hlen : ∀ {sh ix : List Nat}, inb sh ix = true → ix.length = sh.length := by
    intro sh
    induction sh with
    | nil => intro ix h; rw [inb_iff_nil.1 h]
    | cons n sh ih =>
      intro ix h
      obtain ⟨i, jx, rfl, -, hjx⟩ := inb_iff_cons.1 h
      simp [ih hjx]
  have hval : ∀ ix jx, inb arg.shape ix = true → val (ix ++ jx) = (arg.v ix).getD a0 := by
    intro ix jx h
    simp only [val, ← hlen h, List.take_left]
  obtain ⟨t, h1, h2, h3, -⟩ := forEach_set (indices ret.shape) (fun t ix => do
      let a ← stridedGet arg (strides arg.shape ++ List.replicate (ret.shape.length - arg.shape.length) 0) ix
      t.set ix a) id val ret (fun ix hix => mem_indices.1 hix) (by
    intro ix hix s hs'
    rw [mem_indices, hs] at hix
    obtain ⟨a, b, rfl, h1, h2⟩ := inb_append hix
    rw [hget a b h1 h2, hval a b h1]
    rfl)
  refine ⟨t, h1, by rw [h2, hs], fun ix jx hix hjx => ?_⟩
  obtain ⟨i, hi, h4, h5⟩ := h3 (ix ++ jx) ⟨ix ++ jx, mem_indices.2 (by rw [hs]; exact append_inb hix hjx), rfl⟩
  rw [h5]
  change i = ix ++ jx at h4
  obtain ⟨a, ha⟩ := harg ix hix
  rw [h4, hval ix jx hix, ha]
  rfl

/-- **C52** (`AsTensor`): for every fully initialised array and every list of extra dimensions the result has the
concatenated shape and repeats each value. -/
theorem C52_AsTensor (arg : Ten α) (extra : List Nat) (harg : ∀ ix, inb arg.shape ix = true → ∃ a, arg.v ix = some a) :
    IsOk (AsTensor arg extra) fun t => t.shape = arg.shape ++ extra ∧
      ∀ ix jx, inb arg.shape ix = true → inb extra jx = true → t.v (ix ++ jx) = arg.v ix :=
  C52_asTensor_write arg _ extra rfl harg

/-- **C52** (`AsTensor` with a rank): a quadrature-point scalar becomes a tensor of the given rank and dimension. -/
theorem C52_AsTensor_scalar {arg : Ten α} {ne nip : Nat} {f} (h : Is2 arg ne nip f) (n : Nat) :
    IsOk (AsTensorRank 2 arg n) fun t => t.shape = [ne, nip, n, n] ∧
      ∀ e q i j, e < ne → q < nip → i < n → j < n → t.v [e, q, i, j] = some (f e q) := by
  obtain ⟨t, h1, h2, h3⟩ := C52_AsTensor arg [n, n] (by
    intro ix hix
    rw [h.1] at hix
    obtain ⟨i, j, rfl, hi, hj⟩ := inb2.1 hix
    exact ⟨_, h.2 i j hi hj⟩)
  refine ⟨t, h1, by rw [h2, h.1]; rfl, fun e q i j he hq hi hj => ?_⟩
  have := h3 [e, q] [i, j] (by rw [h.1]; simp [he, hq]) (by simp [hi, hj])
  rw [← h.2 e q he hq, ← this]
  rfl

/-- **C52** (`as3d`): one to three columns are kept, the others are zero. -/
theorem C52_as3d [Zero α] {arg : Ten α} {n k : Nat} {f} (h : Is2 arg n k f) (hk : 1 ≤ k ∧ k ≤ 3) :
    IsOk (as3d arg) fun t => Is2 t n 3 fun i j => if j < k then f i j else 0 := by
  have : k = 1 ∨ k = 2 ∨ k = 3 := by omega
  rcases this with rfl | rfl | rfl
  · obtain ⟨t, h1, h2, h3, h4⟩ := forEach_set (it1 n) (fun (t : Ten α) i => do
        let a ← arg.get [i, 0]
        t.set [i, 0] a) (fun i => [i, 0]) (fun i => f i 0) (Ten.full [n, 3] 0) (by
      intro i hi
      rw [mem_it1] at hi
      simp [Ten.full, hi]) (by
      intro i hi s _
      rw [mem_it1] at hi
      simp only [h.get hi (by omega : 0 < 1), Res.ok_bind])
    refine ⟨t, by rw [as3d, h.1]; exact h1, h2, fun i j hi hj => ?_⟩
    beta_reduce
    by_cases hj' : j < 1
    · obtain ⟨i', -, h5, h6⟩ := h3 [i, j] ⟨i, mem_it1.2 hi, by rw [show j = 0 by omega]⟩
      simp only [List.cons.injEq, and_true] at h5
      rw [h6, if_pos hj', h5.1, ← h5.2]
    · rw [h4 _ (by
        intro i' _ h5
        simp only [List.cons.injEq, and_true] at h5
        omega), if_neg hj']
      rfl
  · obtain ⟨t, h1, h2, h3, h4⟩ := forEach_set (it2 n 2) (fun (t : Ten α) ij => do
        let a ← arg.get [ij.1, ij.2]
        t.set [ij.1, ij.2] a) (fun ij => [ij.1, ij.2]) (fun ij => f ij.1 ij.2) (Ten.full [n, 3] 0) (by
      intro i hi
      rw [mem_it2] at hi
      simp [Ten.full, hi]
      omega) (by
      intro i hi s _
      rw [mem_it2] at hi
      simp only [h.get hi.1 hi.2, Res.ok_bind])
    refine ⟨t, by rw [as3d, h.1]; exact h1, h2, fun i j hi hj => ?_⟩
    beta_reduce
    by_cases hj' : j < 2
    · obtain ⟨i', -, h5, h6⟩ := h3 [i, j] ⟨(i, j), mem_it2.2 ⟨hi, hj'⟩, rfl⟩
      simp only [List.cons.injEq, and_true] at h5
      rw [h6, if_pos hj', h5.1, ← h5.2]
    · rw [h4 _ (by
        intro i' hi' h5
        rw [mem_it2] at hi'
        simp only [List.cons.injEq, and_true] at h5
        omega), if_neg hj']
      rfl
  · exact ⟨arg, by rw [as3d, h.1]; rfl, h.congr fun i j _ hj => by rw [if_pos hj]⟩

/-- **C52** (`as3d`, other widths): rejected when assertions are on. -/
theorem C52_as3d_rejects [Zero α] {arg : Ten α} {n k : Nat} {f} (h : Is2 arg n k f) (hk : k = 0 ∨ 4 ≤ k) :
    as3d arg = .throws := by
  rw [as3d, h.1]
  dsimp only
  rw [if_pos hk]

/-- concrete: a 2 x 2 scalar field repeated over 3 x 3 tensors, including a dimension of extent one -/
example : IsOk (AsTensorRank 2 (Ten.of [1, 2] fun ix => ix.getD 1 0 + 5) 3) fun t =>
    t.v [0, 1, 2, 2] = some 6 := by
  obtain ⟨t, h1, -, h3⟩ := C52_AsTensor_scalar (is2_of 1 2 fun ix => ix.getD 1 0 + 5) 3
  exact ⟨t, h1, by beta_reduce; rw [h3 0 1 2 2 (by omega) (by omega) (by omega) (by omega)]; rfl⟩

end GF.Allocate
