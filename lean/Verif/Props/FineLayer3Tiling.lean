import Verif.Props.FineLayer3
import Verif.Lemmas.FineLayer3Tile
import Mathlib.Tactic.NormNum
import Mathlib.Algebra.Order.Field.Rat

/-! **C68**, **C69** `Mesh::Hex8::FineLayer`: the elements are convex hexahedra that tile the domain, without hanging
nodes. -/

namespace GF
open FineLayerSpec Finset FineLayer FineLayer3
variable {α : Type}

section
variable [Field α] [LinearOrder α] [IsStrictOrderedRing α]
variable {nelx nelz n : Nat} {wx wz g : Nat → Nat} {r : Nat → Int} {h : α} {nnode nelem : Nat}
  {x : Nat → Nat → α} {c : Nat → Nat → Nat} {s : Nat → Nat}

/-- origin of a block -/
def FineLayer3.org (h : α) (n : Nat) (wx wz g : Nat → Nat) (i bx bz d : Nat) : α :=
  vec3 (h * ((bx * wx (dist n i) : Nat) : α)) (h * ((height (fun k => g (dist n k)) i : Nat) : α))
    (h * ((bz * wz (dist n i) : Nat) : α)) d

/-- units of length of a layer -/
def FineLayer3.unt (h : α) (n : Nat) (wx wz g : Nat → Nat) (r : Nat → Int) (i d : Nat) : α :=
  vec3 (h * ((wx (dist n i) / (kind3 n r i).nx : Nat) : α)) (h * ((g (dist n i) / (kind3 n r i).ny : Nat) : α))
    (h * ((wz (dist n i) / (kind3 n r i).nz : Nat) : α)) d

theorem FineLayer3.elem_split3 (hF : FineMesh3 nelx nelz n wx wz g r h nnode nelem x c s) {e : Nat} (he : e < nelem) :
    ∃ i bx bz q, i < 2 * n - 1 ∧ bx < nelx / wx (dist n i) ∧ bz < nelz / wz (dist n i) ∧ q < (kind3 n r i).tiles ∧
      e = s i + (bx + bz * (nelx / wx (dist n i))) * (kind3 n r i).tiles + q := by
  have hS : ∀ i, i ≤ 2 * n - 1 →
      s i = height (fun i => nelx / wx (dist n i) * (nelz / wz (dist n i)) * (kind3 n r i).tiles) i := by
    intro i
    induction i with
    | zero => intro _; rw [hF.first]; simp [height]
    | succ i ih => intro hi; rw [hF.next i (by omega), ih (by omega), height_succ]
  rw [← hF.last, hS _ le_rfl] at he
  obtain ⟨i, k, a1, a2, a3⟩ := exists_block he
  rw [Nat.mul_comm (nelx / _)] at a2
  obtain ⟨b, q, b1, b2, rfl⟩ := grid_exists a2
  obtain ⟨bz, bx, c1, c2, rfl⟩ := grid_exists b1
  refine ⟨i, bx, bz, q, a1, c2, c1, b2, ?_⟩
  rw [a3, hS i (by omega), Nat.add_comm bx, Nat.add_assoc]

theorem FineLayer3.elem_lt3 (hF : FineMesh3 nelx nelz n wx wz g r h nnode nelem x c s) {i bx bz q : Nat}
    (hi : i < 2 * n - 1) (hbx : bx < nelx / wx (dist n i)) (hbz : bz < nelz / wz (dist n i))
    (hq : q < (kind3 n r i).tiles) :
    s i + (bx + bz * (nelx / wx (dist n i))) * (kind3 n r i).tiles + q < nelem := by
  have hS : ∀ i, i ≤ 2 * n - 1 →
      s i = height (fun i => nelx / wx (dist n i) * (nelz / wz (dist n i)) * (kind3 n r i).tiles) i := by
    intro i
    induction i with
    | zero => intro _; rw [hF.first]; simp [height]
    | succ i ih => intro hi; rw [hF.next i (by omega), ih (by omega), height_succ]
  have h1 : s (i + 1) ≤ nelem := by
    rw [← hF.last, hS _ (by omega), hS _ le_rfl]; exact height_mono hi
  rw [hF.next i hi] at h1
  have h2 := grid_lt (grid_lt hbz hbx) hq
  rw [Nat.add_comm bx]
  rw [Nat.mul_comm (nelz / _)] at h2
  omega

theorem FineLayer3.local_pos3 (hF : FineMesh3 nelx nelz n wx wz g r h nnode nelem x c s) {i bx bz q : Nat}
    (hi : i < 2 * n - 1) (hbx : bx < nelx / wx (dist n i)) (hbz : bz < nelz / wz (dist n i))
    (hq : q < (kind3 n r i).tiles) :
    ∀ j d, j < 8 → d < 3 →
      (fun j => x (c (s i + (bx + bz * (nelx / wx (dist n i))) * (kind3 n r i).tiles + q) j)) j d =
      org h n wx wz g i bx bz d + unt h n wx wz g r i d * ((kind3 n r i).corner q j d : α) := by
  intro j d hj hd
  obtain ⟨p0, p1, p2⟩ := hF.pos i bx bz q j hi hbx hbz hq hj
  beta_reduce
  have : d = 0 ∨ d = 1 ∨ d = 2 := by omega
  rcases this with rfl | rfl | rfl
  · rw [p0]; simp only [org, unt, vec3, if_pos]; push_cast; ring
  · rw [p1]; simp only [org, unt, vec3, if_pos, if_neg (show ¬ (1 = 0) by omega)]; push_cast; ring
  · rw [p2]; simp only [org, unt, vec3, if_neg (show ¬ (2 = 0) by omega), if_neg (show ¬ (2 = 1) by omega)]; push_cast; ring

/-- the units of length are positive and make up the block -/
theorem FineLayer3.unt_spec (hh : 0 < h)
    (hL : Layers3 nelx nelz n (fun i => wx (dist n i)) (fun i => wz (dist n i)) (fun i => g (dist n i)) (fun i => r (dist n i)))
    {i : Nat} (hi : i < 2 * n - 1) :
    (∀ d, d < 3 → 0 < unt h n wx wz g r i d) ∧
    unt h n wx wz g r i 0 * ((kind3 n r i).nx : α) = h * ((wx (dist n i) : Nat) : α) ∧
    unt h n wx wz g r i 1 * ((kind3 n r i).ny : α) = h * ((g (dist n i) : Nat) : α) ∧
    unt h n wx wz g r i 2 * ((kind3 n r i).nz : α) = h * ((wz (dist n i) : Nat) : α) := by
  obtain ⟨⟨a1, a2⟩, ⟨b1, b2⟩, ⟨c1, c2⟩⟩ := hL.unit hi
  have hk : kindR3 n (fun i => r (dist n i)) i = kind3 n r i := rfl
  rw [hk] at a1 a2 b1 b2 c1 c2
  refine ⟨fun d hd => ?_, ?_, ?_, ?_⟩
  · have : d = 0 ∨ d = 1 ∨ d = 2 := by omega
    rcases this with rfl | rfl | rfl
    · exact mul_pos hh (by exact_mod_cast a1)
    · exact mul_pos hh (by exact_mod_cast b1)
    · exact mul_pos hh (by exact_mod_cast c1)
  · have := Nat.div_mul_cancel a2
    simp only [unt, vec3, if_pos, mul_assoc]
    congr 1; exact_mod_cast this
  · have := Nat.div_mul_cancel b2
    simp only [unt, vec3, if_pos, if_neg (show ¬ (1 = 0) by omega), mul_assoc]
    congr 1; exact_mod_cast this
  · have := Nat.div_mul_cancel c2
    simp only [unt, vec3, if_neg (show ¬ (2 = 0) by omega), if_neg (show ¬ (2 = 1) by omega), mul_assoc]
    congr 1; exact_mod_cast this

theorem norm_box {o u p N : α} (hu : 0 < u) :
    ((0 ≤ (p - o) / u ↔ o ≤ p) ∧ ((p - o) / u ≤ N ↔ p ≤ o + u * N)) ∧
    ((0 < (p - o) / u ↔ o < p) ∧ ((p - o) / u < N ↔ p < o + u * N)) := by
  refine ⟨⟨?_, ?_⟩, ⟨?_, ?_⟩⟩
  · rw [le_div_iff₀ hu, zero_mul, sub_nonneg]
  · rw [div_le_iff₀ hu, sub_le_iff_le_add', mul_comm]
  · rw [lt_div_iff₀ hu, zero_mul, sub_pos]
  · rw [div_lt_iff₀ hu, sub_lt_iff_lt_add', mul_comm]

/-- a point strictly inside a cell is in no other cell -/
theorem cell_unique {f : Nat → Nat} (hf : ∀ {a b}, a ≤ b → f a ≤ f b) (hh : 0 < h) {p : α} {b b' : Nat}
    (h1 : h * (f b : α) < p) (h2 : p < h * (f (b + 1) : α)) (h3 : h * (f b' : α) ≤ p) (h4 : p ≤ h * (f (b' + 1) : α)) : b = b' := by
  have cast : ∀ {a d : Nat}, h * (a : α) < h * (d : α) → a < d := by
    intro a d had
    have := lt_of_mul_lt_mul_left had hh.le
    exact_mod_cast this
  have k1 := cast (lt_of_lt_of_le h1 h4)
  have k2 := cast (lt_of_le_of_lt h3 h2)
  rcases Nat.lt_trichotomy b b' with hb | hb | hb
  · have := hf (show b + 1 ≤ b' from hb); omega
  · exact hb
  · have := hf (show b' + 1 ≤ b from hb); omega

end

section
variable [Field α] [LinearOrder α] [IsStrictOrderedRing α]

/-- **C68** (shape and tiling) every element is a convex hexahedron with plane faces, its corners numbered as in
`Hex8` (`ConvexHex`); the elements tile the block of `h * nelx` times `h` times the height of the layers times
`h * nelz`: every point is in an element, and a point strictly inside an element is in no other element. -/
theorem C68_tiling (nelx nely nelz : Nat) (hx : 0 < nelx) (hy : 0 < nely) (hz : 0 < nelz) (h : α) (hh : 0 < h) (nfine : Nat) :
    ∃ M n wx wz g r ct x t c, FineLayer3.new nelx nely nelz h nfine = .ok M ∧ Rows3 M nelx nelz n wx wz g r ∧
      M.coor = .ok ct ∧ Is2 ct M.nnode 3 x ∧ M.conn = .ok t ∧ Is2 t M.nelem 8 c ∧
      (∀ e, e < M.nelem → ConvexHex (fun j => x (c e j))) ∧
      (∀ p : Nat → α, (∃ e, e < M.nelem ∧ InHex (fun j => x (c e j)) p) ↔
        (0 ≤ p 0 ∧ p 0 ≤ h * (nelx : α)) ∧
        (0 ≤ p 1 ∧ p 1 ≤ h * ((height (fun i => g (dist n i)) (2 * n - 1) : Nat) : α)) ∧
        (0 ≤ p 2 ∧ p 2 ≤ h * (nelz : α))) ∧
      (∀ (p : Nat → α) e e', e < M.nelem → e' < M.nelem → InsideHex (fun j => x (c e j)) p →
        InHex (fun j => x (c e' j)) p → e = e') := by
  obtain ⟨M, n, wx, wz, g, r, ct, x, t, c, h1, h2, h3, h4, e1, e2, e3, e4, e5, e6, -, hF⟩ :=
    FineLayer3.mesh nelx nely nelz hy h nfine
  have hL := FineLayer3.layers_of_half h3
  have hp := hL.npos
  generalize FineLayer3.layS3 nelx nelz n (fun i => wx (dist n i)) (fun i => wz (dist n i)) (fun i => r (dist n i)) = s at hF
  have hG : ∀ i, height (fun k => g (dist n k)) (i + 1) = height (fun k => g (dist n k)) i + g (dist n i) :=
    fun i => height_succ _ i
  have mono : ∀ {a b : Nat}, a ≤ b → h * (a : α) ≤ h * (b : α) := fun hab =>
    mul_le_mul_of_nonneg_left (by exact_mod_cast hab) hh.le
  -- an element is in its block
  have box : ∀ (p : Nat → α) i bx bz q, i < 2 * n - 1 → bx < nelx / wx (dist n i) → bz < nelz / wz (dist n i) →
      q < (kind3 n r i).tiles →
      InHex (fun j => x (c (s i + (bx + bz * (nelx / wx (dist n i))) * (kind3 n r i).tiles + q) j)) p →
      (h * ((bx * wx (dist n i) : Nat) : α) ≤ p 0 ∧ p 0 ≤ h * (((bx + 1) * wx (dist n i) : Nat) : α)) ∧
      (h * ((height (fun k => g (dist n k)) i : Nat) : α) ≤ p 1 ∧
        p 1 ≤ h * ((height (fun k => g (dist n k)) (i + 1) : Nat) : α)) ∧
      (h * ((bz * wz (dist n i) : Nat) : α) ≤ p 2 ∧ p 2 ≤ h * (((bz + 1) * wz (dist n i) : Nat) : α)) := by
    intro p i bx bz q hi hbx hbz hq hin
    obtain ⟨u0, u1, u2, u3⟩ := unt_spec hh hL hi
    rw [(inHex_iff (local_pos3 hF hi hbx hbz hq) u0 p).1] at hin
    obtain ⟨b1, b2, b3, b4, b5, b6⟩ := tile_box hq hin
    rw [(norm_box (N := 0) (u0 0 (by omega))).1.1] at b1
    rw [(norm_box (u0 0 (by omega))).1.2, u1] at b2
    rw [(norm_box (N := 0) (u0 1 (by omega))).1.1] at b3
    rw [(norm_box (u0 1 (by omega))).1.2, u2] at b4
    rw [(norm_box (N := 0) (u0 2 (by omega))).1.1] at b5
    rw [(norm_box (u0 2 (by omega))).1.2, u3] at b6
    rw [hG]
    simp only [org, vec3, if_pos, if_neg (show ¬ (1 = 0) by omega), if_neg (show ¬ (2 = 0) by omega), if_neg (show ¬ (2 = 1) by omega)] at b1 b2 b3 b4 b5 b6
    push_cast at *
    refine ⟨⟨b1, by linarith⟩, ⟨b3, by linarith⟩, ⟨b5, by linarith⟩⟩
  have sbox : ∀ (p : Nat → α) i bx bz q, i < 2 * n - 1 → bx < nelx / wx (dist n i) → bz < nelz / wz (dist n i) →
      q < (kind3 n r i).tiles →
      InsideHex (fun j => x (c (s i + (bx + bz * (nelx / wx (dist n i))) * (kind3 n r i).tiles + q) j)) p →
      (h * ((bx * wx (dist n i) : Nat) : α) < p 0 ∧ p 0 < h * (((bx + 1) * wx (dist n i) : Nat) : α)) ∧
      (h * ((height (fun k => g (dist n k)) i : Nat) : α) < p 1 ∧
        p 1 < h * ((height (fun k => g (dist n k)) (i + 1) : Nat) : α)) ∧
      (h * ((bz * wz (dist n i) : Nat) : α) < p 2 ∧ p 2 < h * (((bz + 1) * wz (dist n i) : Nat) : α)) := by
    intro p i bx bz q hi hbx hbz hq hin
    obtain ⟨u0, u1, u2, u3⟩ := unt_spec hh hL hi
    rw [(inHex_iff (local_pos3 hF hi hbx hbz hq) u0 p).2] at hin
    obtain ⟨b1, b2, b3, b4, b5, b6⟩ := tile_box_strict hq hin
    rw [(norm_box (N := 0) (u0 0 (by omega))).2.1] at b1
    rw [(norm_box (u0 0 (by omega))).2.2, u1] at b2
    rw [(norm_box (N := 0) (u0 1 (by omega))).2.1] at b3
    rw [(norm_box (u0 1 (by omega))).2.2, u2] at b4
    rw [(norm_box (N := 0) (u0 2 (by omega))).2.1] at b5
    rw [(norm_box (u0 2 (by omega))).2.2, u3] at b6
    rw [hG]
    simp only [org, vec3, if_pos, if_neg (show ¬ (1 = 0) by omega), if_neg (show ¬ (2 = 0) by omega), if_neg (show ¬ (2 = 1) by omega)] at b1 b2 b3 b4 b5 b6
    push_cast at *
    refine ⟨⟨b1, by linarith⟩, ⟨b3, by linarith⟩, ⟨b5, by linarith⟩⟩
  refine ⟨M, n, wx, wz, g, r, ct, x, t, c, h1, h4.rows, e1, e2, e3, e4, fun e he => ?_, fun p => ⟨?_, ?_⟩, ?_⟩
  · obtain ⟨i, bx, bz, q, hi, hbx, hbz, hq, rfl⟩ := elem_split3 hF he
    exact convex_tile hq (local_pos3 hF hi hbx hbz hq) (unt_spec hh hL hi).1
  · rintro ⟨e, he, hin⟩
    obtain ⟨i, bx, bz, q, hi, hbx, hbz, hq, rfl⟩ := elem_split3 hF he
    obtain ⟨⟨b1, b2⟩, ⟨b3, b4⟩, ⟨b5, b6⟩⟩ := box p i bx bz q hi hbx hbz hq hin
    have nn : ∀ a : Nat, 0 ≤ h * (a : α) := fun a => mul_nonneg hh.le (Nat.cast_nonneg _)
    have hf := hL.fits i hi
    refine ⟨⟨le_trans (nn _) b1, le_trans b2 (mono ?_)⟩, ⟨le_trans (nn _) b3, le_trans b4 (mono (height_mono hi))⟩,
      ⟨le_trans (nn _) b5, le_trans b6 (mono ?_)⟩⟩
    · calc _ ≤ nelx / wx (dist n i) * wx (dist n i) := Nat.mul_le_mul_right _ hbx
        _ = nelx := Nat.div_mul_cancel hf.1
    · calc _ ≤ nelz / wz (dist n i) * wz (dist n i) := Nat.mul_le_mul_right _ hbz
        _ = nelz := Nat.div_mul_cancel hf.2
  · rintro ⟨⟨x0, x1⟩, ⟨y0, y1⟩, ⟨z0, z1⟩⟩
    obtain ⟨i, hi, y2, y3⟩ := exists_between (f := fun i => h * ((height (fun k => g (dist n k)) i : Nat) : α))
      (show 0 < 2 * n - 1 by omega) (by simpa [height] using y0) y1
    have hf := hL.fits i hi
    have hw := hL.wpos i hi
    obtain ⟨bx, hbx, x2, x3⟩ := exists_between (f := fun b => h * ((b * wx (dist n i) : Nat) : α))
      (m := nelx / wx (dist n i)) (Nat.div_pos (Nat.le_of_dvd hx hf.1) hw.1) (by simpa using x0)
      (by beta_reduce; rw [Nat.div_mul_cancel hf.1]; exact x1)
    obtain ⟨bz, hbz, z2, z3⟩ := exists_between (f := fun b => h * ((b * wz (dist n i) : Nat) : α))
      (m := nelz / wz (dist n i)) (Nat.div_pos (Nat.le_of_dvd hz hf.2) hw.2) (by simpa using z0)
      (by beta_reduce; rw [Nat.div_mul_cancel hf.2]; exact z1)
    obtain ⟨u0, u1, u2, u3⟩ := unt_spec hh hL hi
    beta_reduce at x2 x3 y2 y3 z2 z3
    rw [hG] at y3
    push_cast at x2 x3 y2 y3 z2 z3
    obtain ⟨q, hq, hin⟩ := tile_cover (K := kind3 n r i)
      (X := (p 0 - org h n wx wz g i bx bz 0) / unt h n wx wz g r i 0)
      (Y := (p 1 - org h n wx wz g i bx bz 1) / unt h n wx wz g r i 1)
      (Z := (p 2 - org h n wx wz g i bx bz 2) / unt h n wx wz g r i 2)
      ((norm_box (N := 0) (u0 0 (by omega))).1.1.2 (by simp only [org, vec3, if_pos]; push_cast; exact x2))
      ((norm_box (u0 0 (by omega))).1.2.2 (by
        rw [u1]; simp only [org, vec3, if_pos]; push_cast; linarith))
      ((norm_box (N := 0) (u0 1 (by omega))).1.1.2 (by
        simp only [org, vec3, if_pos, if_neg (show ¬ (1 = 0) by omega)]; exact y2))
      ((norm_box (u0 1 (by omega))).1.2.2 (by
        rw [u2]; simp only [org, vec3, if_pos, if_neg (show ¬ (1 = 0) by omega)]; linarith))
      ((norm_box (N := 0) (u0 2 (by omega))).1.1.2 (by
        simp only [org, vec3, if_neg (show ¬ (2 = 0) by omega), if_neg (show ¬ (2 = 1) by omega)]; push_cast; exact z2))
      ((norm_box (u0 2 (by omega))).1.2.2 (by
        rw [u3]; simp only [org, vec3, if_neg (show ¬ (2 = 0) by omega), if_neg (show ¬ (2 = 1) by omega)]; push_cast; linarith))
    exact ⟨_, elem_lt3 hF hi hbx hbz hq, (inHex_iff (local_pos3 hF hi hbx hbz hq) u0 p).1.2 hin⟩
  · intro p e e' he he' hin hin'
    obtain ⟨i, bx, bz, q, hi, hbx, hbz, hq, rfl⟩ := elem_split3 hF he
    obtain ⟨i', bx', bz', q', hi', hbx', hbz', hq', rfl⟩ := elem_split3 hF he'
    obtain ⟨⟨s1, s2⟩, ⟨s3, s4⟩, ⟨s5, s6⟩⟩ := sbox p i bx bz q hi hbx hbz hq hin
    obtain ⟨⟨b1, b2⟩, ⟨b3, b4⟩, ⟨b5, b6⟩⟩ := box p i' bx' bz' q' hi' hbx' hbz' hq' hin'
    obtain rfl := cell_unique (f := height fun k => g (dist n k)) (fun hab => height_mono hab) hh s3 s4 b3 b4
    obtain rfl := cell_unique (f := fun b => b * wx (dist n i)) (fun hab => Nat.mul_le_mul_right _ hab) hh s1 s2 b1 b2
    obtain rfl := cell_unique (f := fun b => b * wz (dist n i)) (fun hab => Nat.mul_le_mul_right _ hab) hh s5 s6 b5 b6
    have u0 := (unt_spec hh hL hi).1
    rw [(inHex_iff (local_pos3 hF hi hbx hbz hq) u0 p).2] at hin
    rw [(inHex_iff (local_pos3 hF hi hbx hbz hq') u0 p).1] at hin'
    rw [tile_disjoint hq hq' hin hin']

end
section
variable {nelx nelz n : Nat} {WX WZ G : Nat → Nat} {R : Nat → Int}

/-- a node position along one axis, relative to a block -/
theorem FineLayer3.ax_local {W : Nat → Nat} {i : Nat} {m : Mode} (h : ModeOk n W i m) (hu : 0 < W i / m.cols)
    (hd : m.cols ∣ W i) {p : Pl} {k b : Nat} (h1 : b * W i ≤ axPos n W i m p k) (h2 : axPos n W i m p k ≤ (b + 1) * W i) :
    ∃ c, AxValid m p c ∧ axPos n W i m p k = b * W i + c * (W i / m.cols) := by
  obtain ⟨u, hW⟩ := hd
  have hc : 0 < m.cols := by cases m <;> simp [Mode.cols]
  rw [hW, Nat.mul_div_cancel_left _ hc] at hu ⊢
  have key : ∀ t, axPos n W i m p k = t * u → m.cols * b ≤ t ∧ t ≤ m.cols * (b + 1) ∧
      axPos n W i m p k = b * (m.cols * u) + (t - m.cols * b) * u := by
    intro t ht
    rw [ht, hW] at h1 h2
    have a1 : m.cols * b ≤ t := Nat.le_of_mul_le_mul_right (by
      calc _ = b * (m.cols * u) := by ring
        _ ≤ _ := h1) hu
    have a2 : t ≤ m.cols * (b + 1) := Nat.le_of_mul_le_mul_right (by
      calc _ ≤ _ := h2
        _ = _ := by ring) hu
    refine ⟨a1, a2, ?_⟩
    rw [ht]
    obtain ⟨d, rfl⟩ := Nat.exists_eq_add_of_le a1
    rw [Nat.add_sub_cancel_left]; ring
  cases m with
  | same =>
    obtain ⟨a, a'⟩ := h
    simp only [Mode.cols, Nat.one_mul] at key hW ⊢
    have ht : axPos n W i .same p k = k * u := by cases p <;> simp only [axPos, axMid, a, a', hW]
    obtain ⟨k1, k2, k3⟩ := key k ht
    exact ⟨k - b, by simp only [AxValid]; omega, k3⟩
  | below =>
    obtain ⟨-, a, a'⟩ := h
    simp only [Mode.cols] at key hW ⊢
    have ea : rowW n W (i + 1) = u := by omega
    cases p with
    | bot =>
      obtain ⟨k1, k2, k3⟩ := key (3 * k) (by simp only [axPos, a, hW]; ring)
      exact ⟨3 * k - 3 * b, by simp only [AxValid]; omega, k3⟩
    | mid =>
      obtain ⟨k1, k2, k3⟩ := key (3 * (k / 2) + (k % 2 + 1)) (by
        simp only [axPos, axMid, hW]; rw [Nat.mul_div_cancel_left _ (by omega)]; ring)
      exact ⟨_, by simp only [AxValid]; omega, k3⟩
    | top =>
      obtain ⟨k1, k2, k3⟩ := key k (by simp only [axPos, ea])
      exact ⟨k - 3 * b, by simp only [AxValid]; omega, k3⟩
  | above =>
    obtain ⟨-, a, a'⟩ := h
    simp only [Mode.cols] at key hW ⊢
    have ea : rowW n W i = u := by omega
    cases p with
    | bot =>
      obtain ⟨k1, k2, k3⟩ := key k (by simp only [axPos, ea])
      exact ⟨k - 3 * b, by simp only [AxValid]; omega, k3⟩
    | mid =>
      obtain ⟨k1, k2, k3⟩ := key (3 * (k / 2) + (k % 2 + 1)) (by
        simp only [axPos, axMid, hW]; rw [Nat.mul_div_cancel_left _ (by omega)]; ring)
      exact ⟨_, by simp only [AxValid]; omega, k3⟩
    | top =>
      obtain ⟨k1, k2, k3⟩ := key (3 * k) (by simp only [axPos, a, hW]; ring)
      exact ⟨3 * k - 3 * b, by simp only [AxValid]; omega, k3⟩

/-- neighbouring layers share a plane of nodes -/
theorem FineLayer3.Layers3.shared (hL : Layers3 nelx nelz n WX WZ G R) {i : Nat} (hi : i + 1 < 2 * n - 1) :
    axCnt (kindR3 n R (i + 1)).mx .bot (nelx / WX (i + 1)) = axCnt (kindR3 n R i).mx .top (nelx / WX i) ∧
    axCnt (kindR3 n R (i + 1)).mz .bot (nelz / WZ (i + 1)) = axCnt (kindR3 n R i).mz .top (nelz / WZ i) ∧
    ∀ kx kz, node3 nelx nelz n WX WZ R (i + 1) .bot kx kz = node3 nelx nelz n WX WZ R i .top kx kz := by
  obtain ⟨a1, a2, -⟩ := hL.counts hi
  obtain ⟨-, -, b1, b2, -⟩ := hL.counts (show i < 2 * n - 1 by omega)
  refine ⟨by rw [← a1, b1], by rw [← a2, b2], fun kx kz => ?_⟩
  rw [node3, node3, ← a1, ← b1]
  rfl

/-- the nodes between the planes of a layer are nodes of that layer -/
theorem FineLayer3.Layers3.in_layer (hL : Layers3 nelx nelz n WX WZ G R) {i i' : Nat} (hi : i < 2 * n - 1)
    (hi' : i' < 2 * n - 1) {p' : Pl} {kx kz : Nat} (hp' : p' = .mid → kindR3 n R i' ≠ .normal)
    (hkx : kx < axCnt (kindR3 n R i').mx p' (nelx / WX i')) (hkz : kz < axCnt (kindR3 n R i').mz p' (nelz / WZ i'))
    (h1 : height G i ≤ plY G i' p') (h2 : plY G i' p' ≤ height G (i + 1)) :
    ∃ p, (p = .mid → kindR3 n R i ≠ .normal) ∧ kx < axCnt (kindR3 n R i).mx p (nelx / WX i) ∧
      kz < axCnt (kindR3 n R i).mz p (nelz / WZ i) ∧
      node3 nelx nelz n WX WZ R i' p' kx kz = node3 nelx nelz n WX WZ R i p kx kz := by
  have lt : ∀ {a b}, height G a < height G b → a < b := by
    intro a b hab
    by_contra hc
    have := height_mono (g := G) (Nat.le_of_not_lt hc)
    omega
  have le : ∀ {a b}, a ≤ 2 * n - 1 → height G a ≤ height G b → a ≤ b := by
    intro a b ha hab
    by_contra hc
    have := height_lt (N := 2 * n - 1) (g := G) (fun k hk => hL.gpos k hk) (Nat.lt_of_not_le hc) ha
    omega
  have hg := hL.gpos i hi
  have hg' := hL.gpos i' hi'
  cases p' with
  | bot =>
    have a1 := le (by omega) h1
    have a2 := le (by omega) h2
    obtain rfl | rfl : i' = i ∨ i' = i + 1 := by omega
    · exact ⟨.bot, by simp, hkx, hkz, rfl⟩
    · obtain ⟨s1, s2, s3⟩ := hL.shared hi'
      exact ⟨.top, by simp, by rw [← s1]; exact hkx, by rw [← s2]; exact hkz, s3 kx kz⟩
  | top =>
    have a1 := le (by omega) h1
    have a2 := le (by omega) h2
    obtain rfl | rfl : i' = i ∨ i = i' + 1 := by omega
    · exact ⟨.top, by simp, hkx, hkz, rfl⟩
    · obtain ⟨s1, s2, s3⟩ := hL.shared hi
      exact ⟨.bot, by simp, by rw [s1]; exact hkx, by rw [s2]; exact hkz, (s3 kx kz).symm⟩
  | mid =>
    have u := (hL.unit hi').2.1
    have hny : (kindR3 n R i').ny = 2 := by
      have := hp' rfl
      cases hK : kindR3 n R i' <;> simp_all [Kind3.ny]
    rw [hny] at u
    simp only [plY] at h1 h2
    have e1 : height G i' < height G (i + 1) := by omega
    have e2 : height G i < height G (i' + 1) := by rw [height_succ]; omega
    have := lt e1
    have := lt e2
    obtain rfl : i' = i := by omega
    exact ⟨.mid, hp', hkx, hkz, rfl⟩

end

section
variable [Field α] [LinearOrder α] [IsStrictOrderedRing α]

/-- **C69** (conformity) a node that lies in an element, possibly on its boundary, is one of its corners: there
are no hanging nodes, also not between layers of different fineness. -/
theorem C69_conforming (nelx nely nelz : Nat) (hy : 0 < nely) (h : α) (hh : 0 < h) (nfine : Nat) :
    ∃ M ct x t c, FineLayer3.new nelx nely nelz h nfine = .ok M ∧ M.coor = .ok ct ∧ Is2 ct M.nnode 3 x ∧
      M.conn = .ok t ∧ Is2 t M.nelem 8 c ∧
      ∀ e m, e < M.nelem → m < M.nnode → InHex (fun j => x (c e j)) (x m) → ∃ j, j < 8 ∧ c e j = m := by
  obtain ⟨M, n, wx, wz, g, r, ct, x, t, c, h1, h2, h3, h4, e1, e2, e3, e4, e5, e6, -, hF⟩ :=
    FineLayer3.mesh nelx nely nelz hy h nfine
  have hL := FineLayer3.layers_of_half h3
  have hk : ∀ i, kind3 n r i = kindR3 n (fun i => r (dist n i)) i := fun i => rfl
  generalize FineLayer3.layS3 nelx nelz n (fun i => wx (dist n i)) (fun i => wz (dist n i)) (fun i => r (dist n i)) = s at hF
  refine ⟨M, ct, x, t, c, h1, e1, e2, e3, e4, fun e m he hm hin => ?_⟩
  have he0 := he
  have hm0 := hm
  obtain ⟨i, bx, bz, q, hi, hbx, hbz, hq, rfl⟩ := elem_split3 hF he
  rw [e5] at hm
  obtain ⟨i', p', kx, kz, hi', hp', hkx, hkz, rfl⟩ := hL.exists_node hm
  obtain ⟨u0, u1, u2, u3⟩ := unt_spec hh hL hi
  have hX := local_pos3 hF hi hbx hbz hq
  rw [(inHex_iff hX u0 _).1] at hin
  obtain ⟨b1, b2, b3, b4, b5, b6⟩ := tile_box hq hin
  rw [(norm_box (N := 0) (u0 0 (by omega))).1.1] at b1
  rw [(norm_box (u0 0 (by omega))).1.2, u1] at b2
  rw [(norm_box (N := 0) (u0 1 (by omega))).1.1] at b3
  rw [(norm_box (u0 1 (by omega))).1.2, u2] at b4
  rw [(norm_box (N := 0) (u0 2 (by omega))).1.1] at b5
  rw [(norm_box (u0 2 (by omega))).1.2, u3] at b6
  simp only [org, vec3, if_pos, if_neg (show ¬ (1 = 0) by omega), if_neg (show ¬ (2 = 0) by omega), if_neg (show ¬ (2 = 1) by omega)] at b1 b2 b3 b4 b5 b6
  have cancel : ∀ {a d : Nat}, h * (a : α) ≤ h * (d : α) → a ≤ d := by
    intro a d had
    have := le_of_mul_le_mul_left had hh
    exact_mod_cast this
  have cancel' : ∀ {a d e : Nat}, h * (a : α) ≤ h * (d : α) + h * (e : α) → a ≤ d + e := by
    intro a d e had
    refine cancel ?_
    push_cast; linarith
  obtain ⟨-, -, y1, -⟩ := e6.at hL hi' hp' hkx hkz
  rw [y1] at b3 b4
  obtain ⟨p, hp, vx, vz, hnode⟩ := hL.in_layer hi hi' hp' hkx hkz (cancel b3) (by
    have := cancel' b4; rw [height_succ]; exact this)
  rw [hnode] at b1 b2 b5 b6 hin hm0 ⊢
  obtain ⟨hlt, x0, x1, x2⟩ := e6.at hL hi hp vx vz
  rw [x0] at b1 b2
  rw [x2] at b5 b6
  obtain ⟨m1, m2, m3⟩ := hL.modes i hi
  obtain ⟨v1, v2, v3⟩ := hL.unit hi
  rw [nx_eq] at v1
  rw [nz_eq] at v3
  obtain ⟨A, va, ea⟩ := ax_local m1 v1.1 v1.2 (cancel b1) (by have := cancel' b2; rw [Nat.add_mul, Nat.one_mul]; exact this)
  obtain ⟨C, vc, ec⟩ := ax_local m2 v3.1 v3.2 (cancel b5) (by have := cancel' b6; rw [Nat.add_mul, Nat.one_mul]; exact this)
  have ey : plY (fun k => g (dist n k)) i p =
      height (fun k => g (dist n k)) i + plB (kind3 n r i) p * (g (dist n i) / (kind3 n r i).ny) := by
    cases p with
    | bot => simp [plY, plB]
    | top => simp only [plY, plB]; rw [height_succ, hk, Nat.mul_div_cancel' m3]
    | mid =>
      have hny : (kind3 n r i).ny = 2 := by
        have := hp rfl
        rw [hk]
        cases hK : kindR3 n (fun i => r (dist n i)) i <;> simp_all [Kind3.ny]
      simp [plY, plB, hny]
  rw [← nx_eq] at ea
  rw [← nz_eq] at ec
  have p0 : x (node3 nelx nelz n (fun i => wx (dist n i)) (fun i => wz (dist n i)) (fun i => r (dist n i)) i p kx kz) 0 =
      org h n wx wz g i bx bz 0 + unt h n wx wz g r i 0 * (A : α) := by
    rw [x0, ea]; simp only [org, unt, vec3, if_pos, hk]; push_cast; ring
  have p1 : x (node3 nelx nelz n (fun i => wx (dist n i)) (fun i => wz (dist n i)) (fun i => r (dist n i)) i p kx kz) 1 =
      org h n wx wz g i bx bz 1 + unt h n wx wz g r i 1 * ((plB (kind3 n r i) p : Nat) : α) := by
    rw [x1, ey]; simp only [org, unt, vec3, if_pos, if_neg (show ¬ (1 = 0) by omega)]; push_cast; ring
  have p2 : x (node3 nelx nelz n (fun i => wx (dist n i)) (fun i => wz (dist n i)) (fun i => r (dist n i)) i p kx kz) 2 =
      org h n wx wz g i bx bz 2 + unt h n wx wz g r i 2 * (C : α) := by
    rw [x2, ec]
    simp only [org, unt, vec3, if_neg (show ¬ (2 = 0) by omega), if_neg (show ¬ (2 = 1) by omega), hk]; push_cast; ring
  have norm : ∀ {o u P : α}, 0 < u → (o + u * P - o) / u = P := by
    intro o u P hu
    rw [add_sub_cancel_left, mul_div_cancel_left₀ _ hu.ne']
  rw [p0, p1, p2, norm (u0 0 (by omega)), norm (u0 1 (by omega)), norm (u0 2 (by omega))] at hin
  obtain ⟨j, hj, j0, j1, j2⟩ := tile_conform hq hp va vc rfl hin
  refine ⟨j, hj, ?_⟩
  have hval := hF.valid _ j he0 hj
  rw [e5] at hval
  refine node_inj hL hh.ne' e6 hval hlt fun d hd => ?_
  have hd' := hX j d hj hd
  beta_reduce at hd'
  rw [hd']
  have : d = 0 ∨ d = 1 ∨ d = 2 := by omega
  rcases this with rfl | rfl | rfl
  · rw [p0, j0]
  · rw [p1, j1]
  · rw [p2, j2]

end
/-- non-vacuity: the hypotheses hold for a mesh with transition layers in both directions (evaluated in C66) -/
example := C68_tiling 9 27 9 (by decide) (by decide) (by decide) (1 / 3 : ℚ) (by norm_num) 1
example := C69_conforming 9 27 9 (by decide) (1 / 3 : ℚ) (by norm_num) 1

end GF
