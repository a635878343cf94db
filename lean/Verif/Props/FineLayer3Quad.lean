import Verif.Lemmas.FineLayer3Quad
import Verif.Props.Box

/-! **C117** numerical integration on `Mesh::Hex8::FineLayer`: volumes, and the gradient of a homogeneous deformation. -/

namespace GF
open Finset ElemSpec Element Element.Hex8 FineLayerSpec

variable {α : Type} [Field α] [LinearOrder α] [IsStrictOrderedRing α]

/-- the calls of `setup3` succeed -/
theorem setup3_ok {nn ne : Nat} {c d : Nat → Nat → Nat} {x : Nat → Nat → α} (hn : 0 < nn) (hv : ∀ e m, e < ne → m < 8 → c e m < nn)
    (s : α) (σ τ : Sched) {conn dofs : Ten Nat} {coor : Ten α}
    (hc : Is2 conn ne 8 c) (hx : Is2 coor nn 3 x) (hd : Is2 dofs nn 3 d) :
    ∃ V Q, setup3 s σ τ conn dofs coor = .ok (V, Q) ∧ V.Holds c d ∧ V.nelem = ne ∧ V.nne = 8 ∧ V.nnode = nn ∧ V.ndim = 3 ∧
      Live ne 8 (fun q i => s * corner8 q i) (fun _ => 1) Q (fun e m i => x (c e m) i) := by
  obtain ⟨V, h1, h2, h3, h4, h5, hV, h6⟩ := C08_constructor hc hd hn (by omega) hv
  obtain ⟨xe, g1, g2⟩ := C03_element_of_node hV σ (x := coor) (g := x) (by rw [h4, h5]; exact hx)
  rw [h2, h3, h5] at g2
  obtain ⟨Q, q1, q2⟩ := newGauss_ok s τ g2
  exact ⟨V, Q, by simp only [setup3, h1, g1, q1, Res.ok_bind]; rfl, hV, h2, h3, h4, h5, q2⟩

theorem gauss8_in {s : α} (s1 : -1 ≤ s) (s2 : s ≤ 1) (q i : Nat) : -1 ≤ s * corner8 q i ∧ s * corner8 q i ≤ 1 := by
  have h : corner8 q i = (1 : α) ∨ corner8 q i = (-1 : α) := by
    unfold corner8 corner4
    split_ifs
    · exact Or.inr rfl
    · exact Or.inl rfl
    · split <;> simp
  rcases h with h | h <;> rw [h] <;> constructor <;> linarith

section
variable {nelx nelz n : Nat} {wx wz g : Nat → Nat} {r : Nat → Int} {h : α} {nnode nelem : Nat}
  {x : Nat → Nat → α} {c : Nat → Nat → Nat} {s : Nat → Nat}

/-- the integration volumes are positive -/
theorem FineLayer3.det8_pos (hh : 0 < h) (hF : FineMesh3 nelx nelz n wx wz g r h nnode nelem x c s)
    (hL : FineLayer3.Layers3 nelx nelz n (fun i => wx (dist n i)) (fun i => wz (dist n i)) (fun i => g (dist n i)) (fun i => r (dist n i)))
    {e : Nat} (he : e < nelem) {ξ η ζ : α} (h0 : -1 ≤ ξ ∧ ξ ≤ 1) (h1 : -1 ≤ η ∧ η ≤ 1) (h2 : -1 ≤ ζ ∧ ζ ≤ 1) :
    0 < det8 (fun m i => x (c e m) i) ξ η ζ := by
  obtain ⟨i, bx, bz, q, hi, hbx, hbz, hq, rfl⟩ := FineLayer3.elem_split3 hF he
  obtain ⟨u, -, -, -⟩ := FineLayer3.unt_spec hh hL hi
  rw [det8_scaled (C := (kind3 n r i).shape q) (fun j d hj hd => FineLayer3.local_pos3 hF hi hbx hbz hq j d hj hd)]
  exact mul_pos (mul_pos (mul_pos (u 0 (by omega)) (u 1 (by omega))) (u 2 (by omega))) ((kind3 n r i).det8_pos hq h0 h1 h2)

/-- the integration volumes add up to the volume of the block -/
theorem FineLayer3.det8_sum (hh : 0 < h) (hF : FineMesh3 nelx nelz n wx wz g r h nnode nelem x c s)
    (hL : FineLayer3.Layers3 nelx nelz n (fun i => wx (dist n i)) (fun i => wz (dist n i)) (fun i => g (dist n i)) (fun i => r (dist n i)))
    (p : α) :
    ∑ e ∈ range nelem, ∑ q ∈ range 8, (1 : α) * det8 (fun m i => x (c e m) i) (p * corner8 q 0) (p * corner8 q 1) (p * corner8 q 2) =
      h * (nelx : α) * (h * ((height (fun i => g (dist n i)) (2 * n - 1) : Nat) : α)) * (h * (nelz : α)) := by
  have hS : ∀ i, i ≤ 2 * n - 1 →
      s i = height (fun i => nelx / wx (dist n i) * (nelz / wz (dist n i)) * (kind3 n r i).tiles) i := by
    intro i
    induction i with
    | zero => intro _; rw [hF.first]; simp [height]
    | succ i ih => intro hi; rw [hF.next i (by omega), ih (by omega), FineLayer.height_succ]
  rw [← hF.last, hS _ le_rfl, sum_height]
  have key : ∀ i ∈ range (2 * n - 1), ∑ k ∈ range (nelx / wx (dist n i) * (nelz / wz (dist n i)) * (kind3 n r i).tiles),
      ∑ q ∈ range 8, (1 : α) * det8 (fun m j => x (c (height (fun i => nelx / wx (dist n i) * (nelz / wz (dist n i)) * (kind3 n r i).tiles) i + k) m) j)
        (p * corner8 q 0) (p * corner8 q 1) (p * corner8 q 2) =
      h * (nelx : α) * (h * ((g (dist n i) : Nat) : α)) * (h * (nelz : α)) := by
    intro i hi
    rw [mem_range] at hi
    obtain ⟨hu, u0, u1, u2⟩ := FineLayer3.unt_spec hh hL hi
    obtain ⟨f1, f2⟩ := hL.fits i hi
    beta_reduce at f1 f2
    rw [← hS i hi.le, Nat.mul_comm (nelx / wx (dist n i)), sum_blocks, sum_blocks]
    have blk : ∀ bz ∈ range (nelz / wz (dist n i)), ∀ bx ∈ range (nelx / wx (dist n i)),
        ∑ k ∈ range (kind3 n r i).tiles, ∑ q ∈ range 8, (1 : α) *
          det8 (fun m j => x (c (s i + ((bz * (nelx / wx (dist n i)) + bx) * (kind3 n r i).tiles + k)) m) j)
            (p * corner8 q 0) (p * corner8 q 1) (p * corner8 q 2) =
        h * ((wx (dist n i) : Nat) : α) * (h * ((g (dist n i) : Nat) : α)) * (h * ((wz (dist n i) : Nat) : α)) := by
      intro bz hbz bx hbx
      rw [mem_range] at hbz hbx
      have one : ∀ k ∈ range (kind3 n r i).tiles, ∑ q ∈ range 8, (1 : α) *
          det8 (fun m j => x (c (s i + ((bz * (nelx / wx (dist n i)) + bx) * (kind3 n r i).tiles + k)) m) j)
            (p * corner8 q 0) (p * corner8 q 1) (p * corner8 q 2) =
          FineLayer3.unt h n wx wz g r i 0 * FineLayer3.unt h n wx wz g r i 1 * FineLayer3.unt h n wx wz g r i 2 *
            (((kind3 n r i).det k 0 : α) / 2) := by
        intro k hk
        rw [mem_range] at hk
        rw [← (kind3 n r i).gauss_shape hk p, mul_sum]
        refine sum_congr rfl fun q _ => ?_
        rw [one_mul, ← det8_scaled (C := (kind3 n r i).shape k) (fun j d hj hd => FineLayer3.local_pos3 hF hi hbx hbz hk j d hj hd)]
        rw [← Nat.add_assoc, Nat.add_comm (bz * _)]
      rw [sum_congr rfl one, ← mul_sum, (kind3 n r i).sum_shape, ← u0, ← u1, ← u2]
      ring
    rw [sum_congr rfl fun bz hbz => sum_congr rfl fun bx hbx => blk bz hbz bx hbx]
    simp only [sum_const, card_range, nsmul_eq_mul]
    have e1 : ((nelx / wx (dist n i) : Nat) : α) * ((wx (dist n i) : Nat) : α) = nelx := by exact_mod_cast Nat.div_mul_cancel f1
    have e2 : ((nelz / wz (dist n i) : Nat) : α) * ((wz (dist n i) : Nat) : α) = nelz := by exact_mod_cast Nat.div_mul_cancel f2
    rw [← e1, ← e2]
    ring
  rw [sum_congr rfl key, ← sum_mul, ← mul_sum, ← mul_sum]
  congr 3
  have : ∀ N, ((height (fun i => g (dist n i)) N : Nat) : α) = ∑ i ∈ range N, ((g (dist n i) : Nat) : α) := by
    intro N
    induction N with
    | zero => simp [height]
    | succ N ih => rw [FineLayer.height_succ, sum_range_succ, ← ih]; push_cast; rfl
  rw [this]

theorem FineLayer3.nnode_pos (hx : 0 < nelx) (hz : 0 < nelz) (hF : FineMesh3 nelx nelz n wx wz g r h nnode nelem x c s)
    (hL : FineLayer3.Layers3 nelx nelz n (fun i => wx (dist n i)) (fun i => wz (dist n i)) (fun i => g (dist n i)) (fun i => r (dist n i))) :
    0 < nnode := by
  have hp := hL.npos
  have hi : 0 < 2 * n - 1 := by omega
  obtain ⟨f1, f2⟩ := hL.fits 0 hi
  obtain ⟨w1, w2⟩ := hL.wpos 0 hi
  have bx : 0 < nelx / wx (dist n 0) := Nat.div_pos (Nat.le_of_dvd hx f1) w1
  have bz : 0 < nelz / wz (dist n 0) := Nat.div_pos (Nat.le_of_dvd hz f2) w2
  have ht : 0 < (kind3 n r 0).tiles := by cases kind3 n r 0 <;> decide
  exact Nat.zero_lt_of_lt (hF.valid _ 0 (FineLayer3.elem_lt3 hF hi bx bz ht) (by omega))

/-- without transition layers every element is aligned with the axes, otherwise there is an element that is not -/
theorem FineLayer3.aligned_iff (hh : 0 < h) (hx : 0 < nelx) (hz : 0 < nelz) (hF : FineMesh3 nelx nelz n wx wz g r h nnode nelem x c s)
    (hL : FineLayer3.Layers3 nelx nelz n (fun i => wx (dist n i)) (fun i => wz (dist n i)) (fun i => g (dist n i)) (fun i => r (dist n i)))
    (p : α) :
    (∀ e q i j, e < nelem → q < 8 → i < 3 → j < 3 → i ≠ j →
      jac8 (fun m i => x (c e m) i) (p * corner8 q 0) (p * corner8 q 1) (p * corner8 q 2) i j = 0) ↔
    ∀ i, i < 2 * n - 1 → kind3 n r i = .normal := by
  constructor
  · intro H i hi
    by_contra hk
    obtain ⟨q, a, τ, hq, ha, a1, hτ, hj⟩ := Kind3.skew (α := α) hk
    obtain ⟨f1, f2⟩ := hL.fits i hi
    obtain ⟨w1, w2⟩ := hL.wpos i hi
    beta_reduce at f1 f2
    have bx : 0 < nelx / wx (dist n i) := Nat.div_pos (Nat.le_of_dvd hx f1) w1
    have bz : 0 < nelz / wz (dist n i) := Nat.div_pos (Nat.le_of_dvd hz f2) w2
    have he := FineLayer3.elem_lt3 hF hi bx bz hq
    obtain ⟨hu, -, -, -⟩ := FineLayer3.unt_spec hh hL hi
    have hu1 := (hu 1 (by omega)).ne'
    have z : ∀ k, k < 8 → τ * (1 - τ * (p * corner8 k 1)) = 0 := by
      intro k hk
      have h1 := H _ k a 1 he hk ha (by omega) a1
      rw [jac8_scaled (C := (kind3 n r i).shape q) (fun j d hj hd => FineLayer3.local_pos3 hF hi bx bz hq j d hj hd) ha (by omega)] at h1
      rw [← hj, (mul_eq_zero.1 h1).resolve_left hu1, mul_zero]
    have z0 := z 0 (by omega)
    have z2 := z 2 (by omega)
    simp only [corner8, corner4, if_neg (show ¬ (1 = 2) by omega)] at z0 z2
    rcases hτ with rfl | rfl <;> linarith
  · intro H e q i j he hq hi hj hij
    obtain ⟨k, bx, bz, t, hk, hbx, hbz, ht, rfl⟩ := FineLayer3.elem_split3 hF he
    rw [jac8_scaled (C := (kind3 n r k).shape t) (fun j d hj hd => FineLayer3.local_pos3 hF hk hbx hbz ht j d hj hd) hi hj]
    rw [H k hk] at ht ⊢
    have : t = 0 := by simp only [Kind3.tiles] at ht; omega
    subst this
    interval_cases i <;> interval_cases j <;> first
      | exact absurd rfl hij
      | (simp only [jac8_dir0, jac8_dir1, jac8_dir2, Kind3.shape, Kind3.corner, Kind3.corners, List.getD_cons_zero, List.getD_cons_succ]
         norm_num)

end

theorem FineLayer3.types {nelx nelz nmin nfine n : Nat} {wx wz g : Nat → Nat} {r : Nat → Int}
    (h : HalfLayers3 nelx nelz nmin nfine n wx wz g r) (i : Nat) (hi : i < n) : r i = 0 ∨ r i = 2 ∨ r i = -1 := by
  rcases i with _ | i
  · exact Or.inr (Or.inr h.mid.2.2.2)
  · have := h.step i hi
    split_ifs at this
    · exact Or.inr (Or.inl this.1)
    · exact Or.inl this.1
    · exact Or.inr (Or.inl this.1)
    · exact Or.inr (Or.inr this.1)

theorem kind3_normal {n : Nat} {r : Nat → Int} (hr : ∀ i, i < n → r i = 0 ∨ r i = 2 ∨ r i = -1) {i : Nat} (hi : i < 2 * n - 1) :
    kind3 n r i = .normal ↔ r (dist n i) = -1 := by
  have hd : FineLayerSpec.dist n i < n := by unfold FineLayerSpec.dist; split_ifs <;> omega
  rcases hr _ hd with h | h | h <;> simp [kind3, h] <;> split_ifs <;> simp

/-- **C117** (volumes) for every `FineLayer` mesh, the volumes of all integration points are positive and add up to the volume of the
block, wherever the integration points are. -/
theorem C117_volume (nelx nely nelz : Nat) (hx : 0 < nelx) (hy : 0 < nely) (hz : 0 < nelz) {h : α} (hh : 0 < h) (nfine : Nat) {s : α}
    (s1 : -1 ≤ s) (s2 : s ≤ 1) (σ τ : Sched) {dofs : Ten Nat} {d : Nat → Nat → Nat} :
    ∃ M n wx wz g r, FineLayer3.new nelx nely nelz h nfine = .ok M ∧ Rows3 M nelx nelz n wx wz g r ∧
      (Is2 dofs M.nnode 3 d →
      IsOk (do
        let conn ← M.conn
        let coor ← M.coor
        setup3 s σ τ conn dofs coor) fun S => ∃ V, Is2 S.2.vol M.nelem 8 V ∧ (∀ e q, e < M.nelem → q < 8 → 0 < V e q) ∧
          ∑ e ∈ range M.nelem, ∑ q ∈ range 8, V e q =
            h * (nelx : α) * (h * ((height (fun i => g (dist n i)) (2 * n - 1) : Nat) : α)) * (h * (nelz : α))) := by
  obtain ⟨M, n, wx, wz, g, r, ct, x, t, c, h1, h2, h3, h4, e1, e2, e3, e4, e5, e6, -, hF⟩ := FineLayer3.mesh (α := α) nelx nely nelz hy h nfine
  have hL := FineLayer3.layers_of_half h3
  have hp := hL.npos
  refine ⟨M, n, wx, wz, g, r, h1, h4.rows, fun hd => ?_⟩
  have hn : 0 < M.nnode := FineLayer3.nnode_pos hx hz hF hL
  obtain ⟨V, Q, k1, -, -, -, -, -, hQ⟩ := setup3_ok hn hF.valid s σ τ e4 e2 hd
  refine ⟨(V, Q), by simp only [e1, e3, Res.ok_bind]; exact k1, _, C55_volume hQ, fun e q he hq => ?_, FineLayer3.det8_sum hh hF hL s⟩
  beta_reduce
  rw [one_mul]
  exact FineLayer3.det8_pos hh hF hL he (gauss8_in s1 s2 _ _) (gauss8_in s1 s2 _ _) (gauss8_in s1 s2 _ _)

/-- **C117** (gradients) the gradient of every displacement that is affine in the position is computed exactly if and only if the mesh
has no transition layers (`refine` is -1 for all layers). -/
theorem C117_gradient (nelx nely nelz : Nat) (hx : 0 < nelx) (hy : 0 < nely) (hz : 0 < nelz) {h : α} (hh : 0 < h) (nfine : Nat) {s : α}
    (s1 : -1 ≤ s) (s2 : s ≤ 1) (σ τ ρ υ : Sched) {dofs : Ten Nat} {d : Nat → Nat → Nat} :
    ∃ M n R ct x, FineLayer3.new nelx nely nelz h nfine = .ok M ∧ Is1 M.refine (2 * n - 1) R ∧ M.coor = .ok ct ∧ Is2 ct M.nnode 3 x ∧
      (Is2 dofs M.nnode 3 d →
      ((∀ (u : Ten α) (U : Nat → Nat → α) (A : Nat → Nat → α) (b : Nat → α), Is2 u M.nnode 3 U →
          (∀ m i, m < M.nnode → i < 3 → U m i = b i + ∑ j ∈ range 3, A i j * x m j) →
        IsOk (do
          let conn ← M.conn
          let coor ← M.coor
          let (V, Q) ← setup3 s σ τ conn dofs coor
          gradient3 ρ υ V Q u) fun t => Is4 t M.nelem 8 3 3 fun _ _ i j => A j i) ↔
      ∀ i, i < 2 * n - 1 → R i = -1)) := by
  obtain ⟨M, n, wx, wz, g, r, ct, x, t, c, h1, h2, h3, h4, e1, e2, e3, e4, e5, e6, -, hF⟩ := FineLayer3.mesh (α := α) nelx nely nelz hy h nfine
  have hL := FineLayer3.layers_of_half h3
  have hp := hL.npos
  refine ⟨M, n, _, ct, x, h1, h4.rows.type, e1, e2, fun hd => ?_⟩
  have hn : 0 < M.nnode := FineLayer3.nnode_pos hx hz hF hL
  obtain ⟨V, Q, k1, hV, k2, k3, k4, k5, hQ⟩ := setup3_ok hn hF.valid s σ τ e4 e2 hd
  have hdet : ∀ e q, e < M.nelem → q < 8 → det8 (fun m i => x (c e m) i) (s * corner8 q 0) (s * corner8 q 1) (s * corner8 q 2) ≠ 0 :=
    fun e q he hq => (FineLayer3.det8_pos hh hF hL he (gauss8_in s1 s2 _ _) (gauss8_in s1 s2 _ _) (gauss8_in s1 s2 _ _)).ne'
  have hk : (∀ i, i < 2 * n - 1 → r (dist n i) = -1) ↔ ∀ i, i < 2 * n - 1 → kind3 n r i = .normal :=
    forall_congr' fun i => forall_congr' fun hi => (kind3_normal (FineLayer3.types h3) hi).symm
  rw [hk, ← FineLayer3.aligned_iff hh hx hz hF hL s, ← C45_exact_iff hQ hdet υ]
  constructor
  · intro H u U A b hu hA
    have hU := is2_of M.nnode 3 fun ix : List Nat => b (ix.getD 1 0) + ∑ j ∈ range 3, A (ix.getD 1 0) j * x (ix.getD 0 0) j
    obtain ⟨t, t1, t2⟩ := H _ _ A b hU fun m i _ _ => rfl
    obtain ⟨ue, u1, u2⟩ := C03_element_of_node hV ρ (by rw [k4, k5]; exact hU)
    rw [k2, k3, k5] at u2
    simp only [e1, e3, k1, gradient3, u1, Res.ok_bind] at t1
    obtain ⟨t', p1, p2⟩ := GradN_ok hQ υ hu
    obtain ⟨t'', q1, q2⟩ := GradN_ok hQ υ u2
    obtain rfl : t = t'' := by rw [t1] at q1; injection q1
    refine ⟨t', p1, p2.congr fun e q i j he hq hi hj => ?_⟩
    rw [← q2.unique t2 he hq hi hj]
    simp only [Quad4.grad]
    refine sum_congr rfl fun m hm => ?_
    rw [hA e m j he (mem_range.1 hm) hj]
    rfl
  · intro H u U A b hu hU
    obtain ⟨ue, u1, u2⟩ := C03_element_of_node hV ρ (x := u) (g := U) (by rw [k4, k5]; exact hu)
    rw [k2, k3, k5] at u2
    obtain ⟨t, t1, t2⟩ := H ue _ A b u2 fun e m j he hm hj => hU _ j (hF.valid e m he hm) hj
    exact ⟨t, by simp only [e1, e3, k1, gradient3, u1, Res.ok_bind]; exact t1, t2⟩

/-- **C117** (when there are no transition layers) if neither `nelx` nor `nelz` is a multiple of three, the gradient of every affine
displacement is exact. -/
theorem C117_no_transition (nelx nely nelz : Nat) (hx : nelx % 3 ≠ 0) (hy : 0 < nely) (hz : nelz % 3 ≠ 0) (h : α) (nfine : Nat) :
    ∃ M n R, FineLayer3.new nelx nely nelz h nfine = .ok M ∧ Is1 M.refine (2 * n - 1) R ∧ ∀ i, i < 2 * n - 1 → R i = -1 := by
  obtain ⟨M, n, wx, wz, g, r, ct, x, t, c, h1, h2, h3, h4, -⟩ := FineLayer3.mesh (α := α) nelx nely nelz hy h nfine
  refine ⟨M, n, _, h1, h4.rows.type, fun i hi => ?_⟩
  have hd : FineLayerSpec.dist n i < n := by unfold FineLayerSpec.dist; split_ifs <;> omega
  beta_reduce
  generalize FineLayerSpec.dist n i = k at hd
  have no : ∀ {w nel : Nat}, nel % 3 ≠ 0 → ¬ 3 * w ∣ nel := fun {w nel} h hd => h (by
    obtain ⟨a, rfl⟩ := hd
    rw [Nat.mul_assoc, Nat.mul_mod_right])
  rcases k with _ | k
  · exact h3.mid.2.2.2
  · have := h3.step k hd
    rw [if_neg (fun a => no hz a.2.2), if_neg (fun a => no hx a.2.2.2), if_neg (fun a => no hz a.2.2.2)] at this
    exact this.1

/-- a mesh with transition layers: `FineLayer(3, 9, 3, h, 1)`; by `C117_gradient` the gradient of some affine displacement is wrong -/
example : ∃ M n R i, FineLayer3.new 3 9 3 (1 : ℚ) 1 = .ok M ∧ Is1 M.refine (2 * n - 1) R ∧ i < 2 * n - 1 ∧ R i ≠ -1 := by
  obtain ⟨M, n, wx, wz, g, r, ct, x, t, c, h1, h2, h3, h4, -⟩ := FineLayer3.mesh (α := ℚ) 3 9 3 (by omega) 1 1
  have hp := h3.pos
  obtain ⟨m1, m2, m3, m4⟩ := h3.mid
  have hr := h3.reach
  have g1 : height g 1 = 1 := by rw [FineLayer.height_succ, m3]; rfl
  have n1 : 0 + 1 < n := by
    by_contra hc
    have : n = 1 := by omega
    subst this; omega
  have s0 := h3.step 0 n1
  rw [if_neg (by rw [m4]; exact fun a => absurd a.1 (by decide)), if_neg (by rw [m1, m2, g1]; omega),
    if_neg (by rw [m1, m2, g1]; omega), m1, m2] at s0
  obtain ⟨a1, a2, a3, a4⟩ := s0
  have g2 : height g 2 = 2 := by rw [FineLayer.height_succ, g1, a4]; rfl
  have n2 : 1 + 1 < n := by
    by_contra hc
    have : n = 2 := by omega
    subst this; omega
  have s1 := h3.step 1 n2
  rw [if_neg (by rw [a1]; exact fun a => absurd a.1 (by decide)), if_neg (by rw [a2, a3, g2]; omega),
    if_neg (by rw [a2, a3, g2]; omega), a2, a3] at s1
  obtain ⟨b1, b2, b3, b4⟩ := s1
  have g3 : height g 3 = 3 := by rw [FineLayer.height_succ, g2, b4]; rfl
  have n3 : 2 + 1 < n := by
    by_contra hc
    have : n = 3 := by omega
    subst this; omega
  have s2 := h3.step 2 n3
  rw [if_neg (by rw [b1]; exact fun a => absurd a.1 (by decide)), if_pos (by rw [b2, b3, g3]; exact ⟨by omega, by omega, by omega, by decide⟩)] at s2
  refine ⟨M, n, _, n - 1 + 3, h1, h4.rows.type, by omega, ?_⟩
  have : FineLayerSpec.dist n (n - 1 + 3) = 3 := by unfold FineLayerSpec.dist; split_ifs <;> omega
  beta_reduce
  rw [this, s2.1]
  decide

end GF
