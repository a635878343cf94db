import Verif.Lemmas.Box
import Verif.Props.MeshHex8

/-! **C89** (volume and gradients of box meshes), **C90** (patch test in three dimensions). -/

namespace GF
open Finset ElemSpec Element Element.Hex8

variable {α : Type} [Field α] [LinearOrder α] [IsStrictOrderedRing α]
variable {nn ne : Nat} {c d : Nat → Nat → Nat} {x : Nat → Nat → α} {g : BoxGrid} {p : Nat → Nat → α}

/-- **C89** (Hex8 `Regular`) the mesh is a grid of cubes -/
theorem C89_hex8_regular {nelx nely nelz : Nat} (hx : 0 < nelx) (hy : 0 < nely) (hz : 0 < nelz) {h : α} (hh : 0 < h) :
    let M := Hex8.Regular.new nelx nely nelz h
    ∃ c x g, IsOk (Hex8.Regular.conn M) (fun t => Is2 t M.nelem 8 c) ∧ IsOk (Hex8.Regular.coor M) (fun t => Is2 t M.nnode 3 x) ∧
      g.nx = nelx ∧ g.ny = nely ∧ g.nz = nelz ∧ BoxMesh M.nnode M.nelem c x g fun _ i => h * (i : α) := by
  intro M
  obtain ⟨ct, c1, c2⟩ := Hex8.Regular.conn_spec nelx nely nelz h
  obtain ⟨xt, x1, x2⟩ := Hex8.Regular.coor_spec nelx nely nelz h
  refine ⟨_, _, ⟨nelx, nely, nelz, enc (nelx + 1) (nely + 1), enc nelx nely⟩, ⟨ct, c1, c2⟩, ⟨xt, x1, x2⟩, rfl, rfl, rfl,
    ⟨hx, hy, hz⟩, fun i => ?_, fun i j k hi hj hk => ?_, fun m hm => ?_, fun i j k hi hj hk => enc_lt hi hj hk, fun e he => ?_,
    fun i j k i' j' k' hi hj _ hi' hj' _ e => enc_inj hi hj hi' hj' e, fun i j k hi hj hk => ?_, fun i j k m hi hj hk hm => ?_⟩
  · have : h * (i : α) < h * ((i + 1 : Nat) : α) := mul_lt_mul_of_pos_left (by push_cast; linarith) hh
    exact ⟨fun _ => this, fun _ => this, fun _ => this⟩
  · exact enc_lt (Nat.lt_succ_of_le hi) (Nat.lt_succ_of_le hj) (Nat.lt_succ_of_le hk)
  · obtain ⟨i, j, k, hi, hj, hk, rfl⟩ := enc_exists (show m < (nelx + 1) * (nely + 1) * (nelz + 1) from hm)
    exact ⟨i, j, k, Nat.le_of_lt_succ hi, Nat.le_of_lt_succ hj, Nat.le_of_lt_succ hk, rfl⟩
  · obtain ⟨i, j, k, hi, hj, hk, rfl⟩ := enc_exists (show e < nelx * nely * nelz from he)
    exact ⟨i, j, k, hi, hj, hk, rfl⟩
  · exact gridCoor3_enc h (Nat.lt_succ_of_le hi) (Nat.lt_succ_of_le hj)
  · beta_reduce
    rw [enc_x hi, enc_y hi hj, enc_z hi hj]

/-- **C89** the volumes of all integration points are positive and add up to the volume of the box -/
theorem C89_volume (hM : BoxMesh nn ne c x g p) (s : α) (σ τ : Sched) {conn dofs : Ten Nat} {coor : Ten α}
    (hc : Is2 conn ne 8 c) (hx : Is2 coor nn 3 x) (hd : Is2 dofs nn 3 d) :
    IsOk (setup3 s σ τ conn dofs coor) fun S => ∃ V, Is2 S.2.vol ne 8 V ∧ (∀ e q, e < ne → q < 8 → 0 < V e q) ∧
      ∑ e ∈ range ne, ∑ q ∈ range 8, V e q = (p 0 g.nx - p 0 0) * (p 1 g.ny - p 1 0) * (p 2 g.nz - p 2 0) := by
  obtain ⟨V, Q, h1, -, -, -, -, -, -, -, hQ⟩ := hM.setup s σ τ hc hx hd
  obtain ⟨cc, hh, hB, h0, hl⟩ := hM.boxes
  refine ⟨_, h1, _, C55_volume hQ, fun e q he hq => ?_, ?_⟩
  · rw [one_mul, det8_box hB he]
    exact mul_pos (mul_pos (h0 e 0 he (by omega)) (h0 e 1 he (by omega))) (h0 e 2 he (by omega))
  · have e1 : ∀ e ∈ range ne, ∑ q ∈ range 8, (1 : α) * det8 (fun m i => x (c e m) i) (s * corner8 q 0) (s * corner8 q 1) (s * corner8 q 2) =
        8 * (hh e 0 * hh e 1 * hh e 2) := fun e he => by
      rw [mem_range] at he
      rw [sum_congr rfl fun q _ => by rw [one_mul, det8_box hB he], sum_const, card_range, nsmul_eq_mul]
      norm_num
    rw [sum_congr rfl e1, hM.sum]
    have e2 : ∀ i ∈ range g.nx, ∀ j ∈ range g.ny, ∀ k ∈ range g.nz,
        8 * (hh (g.cell i j k) 0 * hh (g.cell i j k) 1 * hh (g.cell i j k) 2) =
          (p 0 (i + 1) - p 0 i) * ((p 1 (j + 1) - p 1 j) * (p 2 (k + 1) - p 2 k)) := by
      intro i hi j hj k hk
      rw [mem_range] at hi hj hk
      rw [hl i j k 0 hi hj hk (by omega), hl i j k 1 hi hj hk (by omega), hl i j k 2 hi hj hk (by omega)]
      simp only [idx3, if_true, if_neg one_ne_zero, if_neg two_ne_zero, if_neg (show (2 : Nat) ≠ 1 by omega)]
      ring
    rw [sum_congr rfl fun i hi => sum_congr rfl fun j hj => sum_congr rfl fun k hk => e2 i hi j hj k hk]
    simp only [← mul_sum, ← sum_mul, sum_range_sub]
    ring

/-- **C89** the gradient of a displacement that is affine in the position is exact at every integration point -/
theorem C89_gradient (hM : BoxMesh nn ne c x g p) (s : α) (σ τ ρ υ : Sched) {conn dofs : Ten Nat} {coor : Ten α}
    (hc : Is2 conn ne 8 c) (hx : Is2 coor nn 3 x) (hd : Is2 dofs nn 3 d) {u : Ten α} {U : Nat → Nat → α} (hu : Is2 u nn 3 U)
    {A : Nat → Nat → α} {b : Nat → α} (hU : ∀ m i, m < nn → i < 3 → U m i = b i + ∑ j ∈ range 3, A i j * x m j) :
    IsOk (do let (V, Q) ← setup3 s σ τ conn dofs coor; gradient3 ρ υ V Q u) fun t => Is4 t ne 8 3 3 fun _ _ i j => A j i := by
  obtain ⟨V, Q, h1, -, hV, e1, e2, e3, e4, -, hQ⟩ := hM.setup s σ τ hc hx hd
  obtain ⟨cc, hh, hB, h0, hl⟩ := hM.boxes
  obtain ⟨ue, u1, u2⟩ := C03_element_of_node hV ρ (x := u) (g := U) (by rw [e3, e4]; exact hu)
  rw [e1, e2, e4] at u2
  obtain ⟨G, ⟨t, t1, t2⟩, -, -, -, t3⟩ := C45_box hQ hB (fun e i he hi => (h0 e i he hi).ne') υ u2
  refine ⟨t, by simp only [h1, gradient3, u1, Res.ok_bind]; exact t1, t2.congr fun e q i j he hq hi hj => ?_⟩
  exact t3 A b (fun e m j he hm hj => hU _ j (hM.valid e m he hm) hj) e q i j he hq hi hj

/-! ### C90 -/

omit [LinearOrder α] [IsStrictOrderedRing α] in
/-- the nodal forces of one cell, as tractions on its six faces -/
theorem cell_split [CharZero α] (δ : Nat → Nat → Nat → Nat → α) (S : Nat → Nat → α) (A : Nat → α) (i j k : Nat) :
    ∑ m ∈ range 8, ∑ b ∈ range 3, δ (i + hexOffset m 0) (j + hexOffset m 1) (k + hexOffset m 2) b *
        ∑ a ∈ range 3, corner8 m a * A a * S a b =
      ∑ b ∈ range 3, (A 0 * S 0 b * (∑ l ∈ range 4, δ (i + 1) (j + l % 2) (k + l / 2) b) -
        A 0 * S 0 b * (∑ l ∈ range 4, δ i (j + l % 2) (k + l / 2) b)) +
      ∑ b ∈ range 3, (A 1 * S 1 b * (∑ l ∈ range 4, δ (i + l % 2) (j + 1) (k + l / 2) b) -
        A 1 * S 1 b * (∑ l ∈ range 4, δ (i + l % 2) j (k + l / 2) b)) +
      ∑ b ∈ range 3, (A 2 * S 2 b * (∑ l ∈ range 4, δ (i + l % 2) (j + l / 2) (k + 1) b) -
        A 2 * S 2 b * (∑ l ∈ range 4, δ (i + l % 2) (j + l / 2) k b)) := by
  rw [← sum_add_distrib, ← sum_add_distrib, sum_comm]
  refine sum_congr rfl fun b _ => ?_
  simp [sum_range_succ, corner8, corner4, hexOffset]
  ring

/-- **C90** the assembled internal force of a constant stress is the force of the corresponding tractions on the surface -/
theorem C90_constant_stress (hM : BoxMesh nn ne c x g p) (s : α) (σ τ ρ : Sched)
    {conn dofs : Ten Nat} {coor : Ten α} (hc : Is2 conn ne 8 c) (hx : Is2 coor nn 3 x) (hd : Is2 dofs nn 3 d) {sig : Ten α}
    {S : Nat → Nat → α} (hs : Is4 sig ne 8 3 3 fun _ _ i j => S i j) :
    IsOk (do let (V, Q) ← setup3 s σ τ conn dofs coor; internalForce3 ρ V Q sig) fun f =>
      ∃ n F, Is1 f n F ∧ NumDofs3 nn d n ∧ ∀ r, F r = surfaceForce g p d S r := by
  obtain ⟨V, Q, h1, -, hV, e1, e2, e3, e4, hn, hQ⟩ := hM.setup s σ τ hc hx hd
  obtain ⟨cc, hh, hB, h0, hl⟩ := hM.boxes
  obtain ⟨fe, f1, f2⟩ := force_live hQ ρ hs (C55_volume hQ)
  have f3 : Is3 fe V.nelem V.nne V.ndim fun e m j => ∑ i ∈ range 3, corner8 m i * face (hh e) i * S i j := by
    rw [e1, e2, e4]
    exact f2.congr fun e m j he hm hj => box_force hB (fun e i he hi => (h0 e i he hi).ne') s S he hm j
  obtain ⟨y, y1, y2⟩ := C04_assemble_element hV f3
  refine ⟨y, by simp only [h1, internalForce3, f1, Res.ok_bind]; exact y1, V.ndof, _, y2, hn, fun r => ?_⟩
  rw [e1, e2, e4, hM.sum]
  have key : ∀ i ∈ range g.nx, ∀ j ∈ range g.ny, ∀ k ∈ range g.nz,
      ∑ m ∈ range 8, ∑ b ∈ range 3, (if d (c (g.cell i j k) m) b = r then ∑ a ∈ range 3, corner8 m a * face (hh (g.cell i j k)) a * S a b else 0) =
      (faceForce d S r 0 ((p 1 (j + 1) - p 1 j) * (p 2 (k + 1) - p 2 k)) (bits fun u v => g.node (i + 1) (j + u) (k + v)) -
        faceForce d S r 0 ((p 1 (j + 1) - p 1 j) * (p 2 (k + 1) - p 2 k)) (bits fun u v => g.node i (j + u) (k + v))) +
      (faceForce d S r 1 ((p 0 (i + 1) - p 0 i) * (p 2 (k + 1) - p 2 k)) (bits fun u v => g.node (i + u) (j + 1) (k + v)) -
        faceForce d S r 1 ((p 0 (i + 1) - p 0 i) * (p 2 (k + 1) - p 2 k)) (bits fun u v => g.node (i + u) j (k + v))) +
      (faceForce d S r 2 ((p 0 (i + 1) - p 0 i) * (p 1 (j + 1) - p 1 j)) (bits fun u v => g.node (i + u) (j + v) (k + 1)) -
        faceForce d S r 2 ((p 0 (i + 1) - p 0 i) * (p 1 (j + 1) - p 1 j)) (bits fun u v => g.node (i + u) (j + v) k)) := by
    intro i hi j hj k hk
    rw [mem_range] at hi hj hk
    have := cell_split (fun i j k b => if d (g.node i j k) b = r then (1 : α) else 0) S (face (hh (g.cell i j k))) i j k
    have lhs : ∑ m ∈ range 8, ∑ b ∈ range 3, (if d (c (g.cell i j k) m) b = r then ∑ a ∈ range 3, corner8 m a * face (hh (g.cell i j k)) a * S a b else 0) =
        ∑ m ∈ range 8, ∑ b ∈ range 3, (if d (g.node (i + hexOffset m 0) (j + hexOffset m 1) (k + hexOffset m 2)) b = r then (1 : α) else 0) *
          ∑ a ∈ range 3, corner8 m a * face (hh (g.cell i j k)) a * S a b := by
      refine sum_congr rfl fun m hm => sum_congr rfl fun b _ => ?_
      rw [hM.conn i j k m hi hj hk (mem_range.1 hm), ite_mul, one_mul, zero_mul]
    rw [lhs, this]
    simp only [faceForce, bits, ← sum_sub_distrib, face, if_true, if_neg one_ne_zero, if_neg two_ne_zero, if_neg (show (2 : Nat) ≠ 1 by omega)]
    rw [hl i j k 0 hi hj hk (by omega), hl i j k 1 hi hj hk (by omega), hl i j k 2 hi hj hk (by omega)]
    simp only [idx3, if_true, if_neg one_ne_zero, if_neg two_ne_zero, if_neg (show (2 : Nat) ≠ 1 by omega)]
    refine congrArg₂ _ (congrArg₂ _ ?_ ?_) ?_ <;> exact sum_congr rfl fun b _ => (by
      rw [← mul_sub, ← mul_sub]
      refine congrArg₂ _ ?_ rfl
      ring)
  rw [sum_congr rfl fun i hi => sum_congr rfl fun j hj => sum_congr rfl fun k hk => key i hi j hj k hk, surfaceForce]
  simp only [sum_add_distrib]
  refine congrArg₂ _ (congrArg₂ _ ?_ ?_) ?_
  · rw [sum_comm]
    refine sum_congr rfl fun j _ => ?_
    rw [sum_comm]
    refine sum_congr rfl fun k _ => ?_
    exact sum_range_sub (fun i => faceForce d S r 0 ((p 1 (j + 1) - p 1 j) * (p 2 (k + 1) - p 2 k)) (bits fun u v => g.node i (j + u) (k + v))) g.nx
  · refine sum_congr rfl fun i _ => ?_
    rw [sum_comm]
    refine sum_congr rfl fun k _ => ?_
    exact sum_range_sub (fun j => faceForce d S r 1 ((p 0 (i + 1) - p 0 i) * (p 2 (k + 1) - p 2 k)) (bits fun u v => g.node (i + u) j (k + v))) g.ny
  · refine sum_congr rfl fun i _ => ?_
    refine sum_congr rfl fun j _ => ?_
    exact sum_range_sub (fun k => faceForce d S r 2 ((p 0 (i + 1) - p 0 i) * (p 1 (j + 1) - p 1 j)) (bits fun u v => g.node (i + u) (j + v) k)) g.nz

omit [LinearOrder α] [IsStrictOrderedRing α] in
theorem faceForce_zero {S : Nat → Nat → α} {r a : Nat} {A : α} {m : Nat → Nat} (h : ∀ l b, l < 4 → b < 3 → d (m l) b ≠ r) :
    faceForce d S r a A m = 0 :=
  sum_eq_zero fun b hb => by
    rw [sum_eq_zero fun l hl => if_neg (h l b (mem_range.1 hl) (mem_range.1 hb)), mul_zero]

omit [LinearOrder α] [IsStrictOrderedRing α] in
theorem faceForce_congr {S : Nat → Nat → α} {r a : Nat} {A : α} {m m' : Nat → Nat} (h : ∀ l b, l < 4 → b < 3 → d (m l) b = d (m' l) b) :
    faceForce d S r a A m = faceForce d S r a A m' :=
  sum_congr rfl fun b hb => by
    rw [sum_congr rfl fun l hl => by rw [h l b (mem_range.1 hl) (mem_range.1 hb)]]

/-- **C90** (interior) no force acts on a DOF if all nodes with that DOF are strictly inside the box -/
theorem C90_interior (hM : BoxMesh nn ne c x g p) (s : α) (σ τ ρ : Sched)
    {conn dofs : Ten Nat} {coor : Ten α} (hc : Is2 conn ne 8 c) (hx : Is2 coor nn 3 x) (hd : Is2 dofs nn 3 d) {sig : Ten α}
    {S : Nat → Nat → α} (hs : Is4 sig ne 8 3 3 fun _ _ i j => S i j) :
    IsOk (do let (V, Q) ← setup3 s σ τ conn dofs coor; internalForce3 ρ V Q sig) fun f =>
      ∃ n F, Is1 f n F ∧ NumDofs3 nn d n ∧ ∀ r, (∀ m i, m < nn → i < 3 → d m i = r →
        p 0 0 < x m 0 ∧ x m 0 < p 0 g.nx ∧ p 1 0 < x m 1 ∧ x m 1 < p 1 g.ny ∧ p 2 0 < x m 2 ∧ x m 2 < p 2 g.nz) → F r = 0 := by
  obtain ⟨f, h1, n, F, h2, h3, h4⟩ := C90_constant_stress hM s σ τ ρ hc hx hd hs
  refine ⟨f, h1, n, F, h2, h3, fun r hr => ?_⟩
  have z : ∀ i j k b, i ≤ g.nx → j ≤ g.ny → k ≤ g.nz → b < 3 → (i = 0 ∨ i = g.nx ∨ j = 0 ∨ j = g.ny ∨ k = 0 ∨ k = g.nz) →
      d (g.node i j k) b ≠ r := by
    intro i j k b hi hj hk hb hbd e
    obtain ⟨q0, q1, q2⟩ := hM.position i j k hi hj hk
    have := hr _ b (hM.node_lt i j k hi hj hk) hb e
    rw [q0, q1, q2] at this
    rcases hbd with rfl | rfl | rfl | rfl | rfl | rfl
    · exact lt_irrefl _ this.1
    · exact lt_irrefl _ this.2.1
    · exact lt_irrefl _ this.2.2.1
    · exact lt_irrefl _ this.2.2.2.1
    · exact lt_irrefl _ this.2.2.2.2.1
    · exact lt_irrefl _ this.2.2.2.2.2
  rw [h4, surfaceForce]
  have fz : ∀ a A (f : Nat → Nat → Nat), (∀ u v b, u ≤ 1 → v ≤ 1 → b < 3 → d (f u v) b ≠ r) → faceForce d S r a A (bits f) = 0 :=
    fun a A f hf => faceForce_zero fun l b hl hb => hf _ _ b (by omega) (by omega) hb
  rw [sum_eq_zero, sum_eq_zero, sum_eq_zero, add_zero, add_zero]
  · refine fun i hi => sum_eq_zero fun j hj => ?_
    rw [mem_range] at hi hj
    rw [fz, fz, sub_zero]
    · exact fun u v b hu hv hb => z _ _ _ b (by omega) (by omega) (by omega) hb (by omega)
    · exact fun u v b hu hv hb => z _ _ _ b (by omega) (by omega) (by omega) hb (by omega)
  · refine fun i hi => sum_eq_zero fun j hj => ?_
    rw [mem_range] at hi hj
    rw [fz, fz, sub_zero]
    · exact fun u v b hu hv hb => z _ _ _ b (by omega) (by omega) (by omega) hb (by omega)
    · exact fun u v b hu hv hb => z _ _ _ b (by omega) (by omega) (by omega) hb (by omega)
  · refine fun i hi => sum_eq_zero fun j hj => ?_
    rw [mem_range] at hi hj
    rw [fz, fz, sub_zero]
    · exact fun u v b hu hv hb => z _ _ _ b (by omega) (by omega) (by omega) hb (by omega)
    · exact fun u v b hu hv hb => z _ _ _ b (by omega) (by omega) (by omega) hb (by omega)

/-- **C90** (periodic) if nodes at opposite positions on the surface share their DOFs, a constant stress is in equilibrium: no
force acts on any DOF -/
theorem C90_periodic (hM : BoxMesh nn ne c x g p) (s : α) (σ τ ρ : Sched)
    {conn dofs : Ten Nat} {coor : Ten α} (hc : Is2 conn ne 8 c) (hx : Is2 coor nn 3 x) (hd : Is2 dofs nn 3 d)
    (hper : ∀ m m' i, m < nn → m' < nn → i < 3 →
      LatticeEq3 (p 0 g.nx - p 0 0) (p 1 g.ny - p 1 0) (p 2 g.nz - p 2 0) (x m) (x m') → d m i = d m' i) {sig : Ten α}
    {S : Nat → Nat → α} (hs : Is4 sig ne 8 3 3 fun _ _ i j => S i j) :
    IsOk (do let (V, Q) ← setup3 s σ τ conn dofs coor; internalForce3 ρ V Q sig) fun f =>
      ∃ n, Is1 f n (fun _ => 0) ∧ NumDofs3 nn d n := by
  obtain ⟨f, h1, n, F, h2, h3, h4⟩ := C90_constant_stress hM s σ τ ρ hc hx hd hs
  refine ⟨f, h1, n, h2.congr fun r _ => ?_, h3⟩
  have fz : ∀ a A (f f' : Nat → Nat → Nat), (∀ u v b, u ≤ 1 → v ≤ 1 → b < 3 → d (f' u v) b = d (f u v) b) →
      faceForce d S r a A (bits f) = faceForce d S r a A (bits f') :=
    fun a A f f' hf => faceForce_congr fun l b hl hb => (hf _ _ b (by omega) (by omega) hb).symm
  rw [h4, surfaceForce, sum_eq_zero, sum_eq_zero, sum_eq_zero, add_zero, add_zero]
  · refine fun i hi => sum_eq_zero fun j hj => ?_
    rw [mem_range] at hi hj
    refine sub_eq_zero.2 (fz _ _ _ _ fun u v b hu hv hb => ?_)
    obtain ⟨q0, q1, q2⟩ := hM.position (i + u) (j + v) 0 (by omega) (by omega) (by omega)
    obtain ⟨r0, r1, r2⟩ := hM.position (i + u) (j + v) g.nz (by omega) (by omega) (by omega)
    refine hper _ _ b (hM.node_lt _ _ _ (by omega) (by omega) (by omega)) (hM.node_lt _ _ _ (by omega) (by omega) (by omega)) hb
      ⟨0, 0, 1, ?_, ?_, ?_⟩
    · rw [q0, r0]; simp
    · rw [q1, r1]; simp
    · rw [q2, r2]; simp
  · refine fun i hi => sum_eq_zero fun j hj => ?_
    rw [mem_range] at hi hj
    refine sub_eq_zero.2 (fz _ _ _ _ fun u v b hu hv hb => ?_)
    obtain ⟨q0, q1, q2⟩ := hM.position (i + u) 0 (j + v) (by omega) (by omega) (by omega)
    obtain ⟨r0, r1, r2⟩ := hM.position (i + u) g.ny (j + v) (by omega) (by omega) (by omega)
    refine hper _ _ b (hM.node_lt _ _ _ (by omega) (by omega) (by omega)) (hM.node_lt _ _ _ (by omega) (by omega) (by omega)) hb
      ⟨0, 1, 0, ?_, ?_, ?_⟩
    · rw [q0, r0]; simp
    · rw [q1, r1]; simp
    · rw [q2, r2]; simp
  · refine fun i hi => sum_eq_zero fun j hj => ?_
    rw [mem_range] at hi hj
    refine sub_eq_zero.2 (fz _ _ _ _ fun u v b hu hv hb => ?_)
    obtain ⟨q0, q1, q2⟩ := hM.position 0 (i + u) (j + v) (by omega) (by omega) (by omega)
    obtain ⟨r0, r1, r2⟩ := hM.position g.nx (i + u) (j + v) (by omega) (by omega) (by omega)
    refine hper _ _ b (hM.node_lt _ _ _ (by omega) (by omega) (by omega)) (hM.node_lt _ _ _ (by omega) (by omega) (by omega)) hb
      ⟨1, 0, 0, ?_, ?_, ?_⟩
    · rw [q0, r0]; simp
    · rw [q1, r1]; simp
    · rw [q2, r2]; simp

theorem NumDofs3.range {n N : Nat} (h : NumDofs3 nn d n)
    (hv : ∀ v, (∃ m i, m < nn ∧ i < 3 ∧ d m i = v) ↔ v < N) : n = N := by
  obtain ⟨h1, m, i, hm, hi, h2⟩ := h
  have a := (hv (d m i)).1 ⟨m, i, hm, hi, rfl⟩
  obtain ⟨m', i', hm', hi', e⟩ := (hv (N - 1)).2 (by omega)
  have := h1 m' i' hm' hi'
  omega

theorem NumDofs3.plain {n : Nat} (h : NumDofs3 nn (fun m i => m * 3 + i) n) : n = 3 * nn := by
  obtain ⟨h1, m, i, hm, hi, h2⟩ := h
  have := h1 (nn - 1) 2 (by omega) (by omega)
  beta_reduce at this h2
  omega

theorem meshDofs3_ok (nn : Nat) : Is2 (meshDofs nn 3) nn 3 (fun m i => m * 3 + i) :=
  ⟨rfl, fun m c _ _ => by simp [meshDofs, Ten.of]⟩

/-- **C90** (Hex8 `Regular`, `dofs()`) -/
theorem C90_hex8_regular {nelx nely nelz : Nat} (hx : 0 < nelx) (hy : 0 < nely) (hz : 0 < nelz) {h : α} (hh : 0 < h) (s : α)
    (σ τ ρ : Sched) {sig : Ten α} {S : Nat → Nat → α} (hs : Is4 sig (nelx * nely * nelz) 8 3 3 fun _ _ i j => S i j) :
    let M := Hex8.Regular.new nelx nely nelz h
    IsOk (do
      let conn ← Hex8.Regular.conn M
      let coor ← Hex8.Regular.coor M
      let (V, Q) ← setup3 s σ τ conn (meshDofs M.nnode M.ndim) coor
      internalForce3 ρ V Q sig) fun f =>
      ∃ F, Is1 f (3 * M.nnode) F ∧ ∀ iz iy ix j, 0 < iz → iz < nelz → 0 < iy → iy < nely → 0 < ix → ix < nelx → j < 3 →
        F (((iz * (nely + 1) + iy) * (nelx + 1) + ix) * 3 + j) = 0 := by
  intro M
  obtain ⟨c, x, g, ⟨ct, a1, a2⟩, ⟨xt, b1, b2⟩, g1, g2, g3, hM⟩ := C89_hex8_regular hx hy hz hh
  obtain ⟨f, f1, n, F, f2, f3, f4⟩ := C90_interior hM s σ τ ρ a2 b2 (meshDofs3_ok _) hs
  obtain rfl := f3.plain
  refine ⟨f, ?_, F, f2, fun iz iy ix j z1 z2 z3 z4 z5 z6 hj => f4 _ fun m i hm hi e => ?_⟩
  · rw [a1, Res.ok_bind, b1, Res.ok_bind]; exact f1
  · obtain ⟨xt', q1, q2⟩ := Hex8.Regular.coor_spec nelx nely nelz h
    obtain rfl : xt = xt' := by rw [b1] at q1; injection q1
    obtain rfl : m = enc (nelx + 1) (nely + 1) ix iy iz := by rw [enc]; omega
    obtain ⟨p0, p1, p2⟩ := gridCoor3_enc h (nelx := nelx) (nely := nely) (x := ix) (y := iy) (z := iz) (by omega) (by omega)
    rw [b2.unique q2 hm (show 0 < 3 by omega), b2.unique q2 hm (show 1 < 3 by omega), b2.unique q2 hm (show 2 < 3 by omega), p0, p1, p2, g1, g2, g3]
    refine ⟨?_, mul_lt_mul_of_pos_left (Nat.cast_lt.2 z6) hh, ?_, mul_lt_mul_of_pos_left (Nat.cast_lt.2 z4) hh, ?_,
      mul_lt_mul_of_pos_left (Nat.cast_lt.2 z2) hh⟩
    · simpa using mul_pos hh (Nat.cast_pos.2 z5)
    · simpa using mul_pos hh (Nat.cast_pos.2 z3)
    · simpa using mul_pos hh (Nat.cast_pos.2 z1)

/-- **C90** (Hex8 `Regular`, `dofsPeriodic()`) -/
theorem C90_hex8_regular_periodic {nelx nely nelz : Nat} (hx : 0 < nelx) (hy : 0 < nely) (hz : 0 < nelz) {h : α} (hh : 0 < h) (s : α)
    (σ τ ρ : Sched) {sig : Ten α} {S : Nat → Nat → α} (hs : Is4 sig (nelx * nely * nelz) 8 3 3 fun _ _ i j => S i j) :
    let M := Hex8.Regular.new nelx nely nelz h
    IsOk (do
      let conn ← Hex8.Regular.conn M
      let coor ← Hex8.Regular.coor M
      let dofs ← Hex8.Regular.dofsPeriodic M
      let (V, Q) ← setup3 s σ τ conn dofs coor
      internalForce3 ρ V Q sig) fun f => Is1 f (nelx * nely * nelz * 3) (fun _ => 0) := by
  intro M
  obtain ⟨c, x, g, ⟨ct, a1, a2⟩, ⟨xt, b1, b2⟩, g1, g2, g3, hM⟩ := C89_hex8_regular hx hy hz hh
  obtain ⟨xt', x', dt, d, q1, q2, q3, q4, q5, q6⟩ := C34_dofsPeriodic nelx nely nelz hx hy hz hh
  obtain rfl : xt = xt' := by rw [b1] at q1; injection q1
  obtain ⟨f, f1, n, f2, f3⟩ := C90_periodic hM s σ τ ρ a2 b2 q4 (fun m m' i hm hm' hi hl => (q5 m i m' i hm hi hm' hi).2 ⟨by
    obtain ⟨k, l, o, l1, l2, l3⟩ := hl
    have e : ∀ i, i < 3 → x' m i = x m i ∧ x' m' i = x m' i := fun i hi => ⟨q2.unique b2 hm hi, q2.unique b2 hm' hi⟩
    refine ⟨k, l, o, ?_, ?_, ?_⟩
    · rw [(e 0 (by omega)).1, (e 0 (by omega)).2, l1, g1]; simp
    · rw [(e 1 (by omega)).1, (e 1 (by omega)).2, l2, g2]; simp
    · rw [(e 2 (by omega)).1, (e 2 (by omega)).2, l3, g3]; simp, rfl⟩) hs
  obtain rfl := f3.range q6
  refine ⟨f, ?_, f2⟩
  rw [a1, Res.ok_bind, b1, Res.ok_bind, q3, Res.ok_bind]; exact f1

/-- non-vacuity: a stress with a shear component; a box mesh with cells of different size -/
example : ∃ (sig : Ten ℚ) (S : Nat → Nat → ℚ), Is4 sig (3 * 2 * 4) 8 3 3 (fun _ _ i j => S i j) ∧ S 0 1 ≠ 0 :=
  ⟨Ten.of [24, 8, 3, 3] fun ix => ((ix.getD 2 0 + 2 * ix.getD 3 0 : Nat) : ℚ), fun i j => ((i + 2 * j : Nat) : ℚ),
    ⟨rfl, fun e q i j _ _ _ _ => by simp [Ten.of]⟩, by norm_num⟩

example : BoxMesh (α := ℚ) 12 2 (fun e m => (hexOffset m 2 * 2 + hexOffset m 1) * 3 + (e + hexOffset m 0))
    (fun m a => if a = 0 then (m % 3 : Nat) * (m % 3 : Nat) else if a = 1 then (m / 3 % 2 : Nat) else (m / 6 : Nat))
    ⟨2, 1, 1, fun i j k => (k * 2 + j) * 3 + i, fun i _ _ => i⟩ (fun a i => if a = 0 then (i : ℚ) * i else i) := by
  refine ⟨by decide, fun i => ⟨fun hi => ?_, fun hi => ?_, fun hi => ?_⟩, fun i j k hi hj hk => ?_, fun m hm => ?_, fun i j k hi hj hk => hi, fun e he => ?_,
    fun i j k i' j' k' _ hj hk _ hj' hk' e => ?_, fun i j k hi hj hk => ?_, fun i j k m hi hj hk hm => ?_⟩
  · have : i < 2 := hi
    interval_cases i <;> norm_num
  · norm_num
  · norm_num
  · dsimp only at hi hj hk ⊢
    omega
  · exact ⟨m % 3, m / 3 % 2, m / 6, by dsimp only; omega, by dsimp only; omega, by dsimp only; omega, by dsimp only; omega⟩
  · exact ⟨e, 0, 0, he, Nat.one_pos, Nat.one_pos, rfl⟩
  · dsimp only at hj hk hj' hk' e
    omega
  · dsimp only at hi hj hk ⊢
    have e1 : ((k * 2 + j) * 3 + i) % 3 = i := by omega
    have e2 : ((k * 2 + j) * 3 + i) / 3 % 2 = j := by omega
    have e3 : ((k * 2 + j) * 3 + i) / 6 = k := by omega
    simp [e1, e2, e3]
  · dsimp only at hi hj hk ⊢
    rw [show j = 0 by omega, show k = 0 by omega, Nat.zero_add, Nat.zero_add]

end GF
