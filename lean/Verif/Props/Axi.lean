import Verif.Lemmas.Axi
import Verif.Props.Patch
import Verif.Lemmas.Rigid

/-! **C101** Axisymmetric analyses: volume of the solid of revolution, patch test. -/

namespace GF
open Finset ElemSpec Element Element.Quad4
variable {α : Type} [Field α] [LinearOrder α] [IsStrictOrderedRing α]
variable {nn ne : Nat} {c d : Nat → Nat → Nat} {x : Nat → Nat → α} {Lx Ly : α} {O : Outline}

theorem ringPos_zero (R : α) (x : Nat → Nat → α) (m : Nat) : ringPos R x m 0 = x m 0 := rfl
theorem ringPos_one (R : α) (x : Nat → Nat → α) (m : Nat) : ringPos R x m 1 = R + x m 1 := rfl

/-- elements stay convex when the cross-section is moved away from the axis -/
theorem ring_convex (hM : RectMesh nn ne c x Lx Ly O) (R : α) {e : Nat} (he : e < ne) :
    Convex4 fun m i => ringPos R x (c e m) i := by
  have := hM.convex e he
  simp only [Convex4, turn, ringPos_zero, ringPos_one] at this ⊢
  obtain ⟨a, b, c, d⟩ := this
  exact ⟨a.trans_eq (by ring), b.trans_eq (by ring), c.trans_eq (by ring), d.trans_eq (by ring)⟩

theorem gauss_in {s : α} (s1 : -1 < s) (s2 : s < 1) (q i : Nat) : -1 < s * corner4 q i ∧ s * corner4 q i < 1 := by
  have : corner4 (α := α) q i = 1 ∨ corner4 (α := α) q i = -1 := by unfold corner4; split <;> simp
  rcases this with h | h <;> rw [h] <;> constructor <;> linarith

/-- the four Gauss points of an element in a plane that contains the axis are not on the axis -/
theorem ring_radius (hM : RectMesh nn ne c x Lx Ly O) {R : α} (hR : 0 ≤ R) {s : α} (s1 : -1 < s) (s2 : s < 1) {e : Nat} (he : e < ne)
    (q : Nat) : 0 < map4 (fun m i => ringPos R x (c e m) i) 1 (s * corner4 q 0) (s * corner4 q 1) := by
  have hc := ring_convex hM R he
  have hn : ∀ m, m < 4 → 0 ≤ ringPos R x (c e m) 1 := fun m hm => by
    rw [ringPos_one]; have := (hM.inside _ (hM.valid e m he hm)).2.2.1; linarith
  obtain ⟨a1, a2⟩ := gauss_in s1 s2 q 0
  obtain ⟨b1, b2⟩ := gauss_in s1 s2 q 1
  rw [map4_form]
  generalize s * corner4 q 0 = ξ at *
  generalize s * corner4 q 1 = η at *
  have h0 := hn 0 (by omega); have h1 := hn 1 (by omega); have h2 := hn 2 (by omega); have h3 := hn 3 (by omega)
  have p1 : 0 < (1 - ξ) * (1 - η) := mul_pos (by linarith) (by linarith)
  have p2 : 0 < (1 + ξ) * (1 - η) := mul_pos (by linarith) (by linarith)
  have p3 : 0 < (1 + ξ) * (1 + η) := mul_pos (by linarith) (by linarith)
  have p4 : 0 < (1 - ξ) * (1 + η) := mul_pos (by linarith) (by linarith)
  have g1 := mul_nonneg p1.le h0
  have g2 := mul_nonneg p2.le h1
  have g3 := mul_nonneg p3.le h2
  have g4 := mul_nonneg p4.le h3
  refine lt_of_le_of_ne (by linarith) fun hz => ?_
  have z1 : ringPos R x (c e 0) 1 = 0 := (mul_eq_zero.1 (by linarith : (1 - ξ) * (1 - η) * ringPos R x (c e 0) 1 = 0)).resolve_left p1.ne'
  have z2 : ringPos R x (c e 1) 1 = 0 := (mul_eq_zero.1 (by linarith : (1 + ξ) * (1 - η) * ringPos R x (c e 1) 1 = 0)).resolve_left p2.ne'
  have z3 : ringPos R x (c e 2) 1 = 0 := (mul_eq_zero.1 (by linarith : (1 + ξ) * (1 + η) * ringPos R x (c e 2) 1 = 0)).resolve_left p3.ne'
  have := hc.2.1
  simp only [turn, z1, z2, z3] at this
  simp at this

/-- the quadrature object for the elements of a mesh -/
theorem RectMesh.setupAxi (hM : RectMesh nn ne c x Lx Ly O) {R : α} (hR : 0 ≤ R) {s : α} (s1 : -1 < s) (s2 : s < 1) (pi : α) (σ τ : Sched)
    {conn dofs : Ten Nat} {coor : Ten α} (hc : Is2 conn ne 4 c) (hx : Is2 coor nn 2 (ringPos R x)) (hd : Is2 dofs nn 2 d) :
    ∃ V Q, GF.setupAxi s pi σ τ conn dofs coor = .ok (V, Q) ∧ Vector.new conn dofs = .ok V ∧ V.Holds c d ∧ V.nelem = ne ∧ V.nne = 4 ∧
      V.nnode = nn ∧ V.ndim = 2 ∧ (∃ m i, m < nn ∧ i < 2 ∧ V.ndof = d m i + 1) ∧
      Axi.Live pi ne 4 (fun q i => s * corner4 q i) (fun _ => 1) Q (fun e m i => ringPos R x (c e m) i) ∧
      (∀ e q, e < ne → q < 4 → 0 < det4 (fun m i => ringPos R x (c e m) i) (s * corner4 q 0) (s * corner4 q 1)) ∧
      ∀ e q, e < ne → q < 4 → 0 < map4 (fun m i => ringPos R x (c e m) i) 1 (s * corner4 q 0) (s * corner4 q 1) := by
  obtain ⟨V, h1, h2, h3, h4, h5, hV, h6⟩ := C08_constructor hc hd hM.nodes (by omega) hM.valid
  obtain ⟨xe, g1, g2⟩ := C03_element_of_node hV σ (x := coor) (g := ringPos R x) (by rw [h4, h5]; exact hx)
  rw [h2, h3, h5] at g2
  obtain ⟨xi, r1, r2⟩ := rule_ok s
  obtain ⟨w, r3, r4⟩ := (weights_ok (α := α)).1
  obtain ⟨Q, r5, hQ, -⟩ := Axi.C50_axisymmetric_life (pi := pi) τ τ g2 r2 r4 g2
  refine ⟨V, Q, ?_, h1, hV, h2, h3, h4, h5, h6, hQ, fun e q he hq => ?_, fun e q he _ => ring_radius hM hR s1 s2 he q⟩
  · simp only [GF.setupAxi, h1, g1, Axi.newGauss, r1, r3, r5, Res.ok_bind]; rfl
  · obtain ⟨a1, a2⟩ := gauss_in s1 s2 q 0
    obtain ⟨b1, b2⟩ := gauss_in s1 s2 q 1
    exact det_pos (ring_convex hM R he) a1.le a2.le b1.le b2.le

omit [IsStrictOrderedRing α] in
theorem gauss_lt [IsStrictOrderedRing α] {s : α} (hs : 3 * s ^ 2 = 1) : -1 < s ∧ s < 1 := by
  constructor <;> nlinarith

/-- the first moments (about the axis) of the elements add up to that of the rectangle -/
theorem ring_moment (hM : RectMesh nn ne c x Lx Ly O) (R : α) :
    2 * ∑ e ∈ range ne, Axi.moment4 (fun m i => ringPos R x (c e m) i) = ((R + Ly) ^ 2 - R ^ 2) * Lx := by
  set y := ringPos R x with hy
  have e0 : ∀ m, y m 0 = x m 0 := fun _ => rfl
  have e1 : ∀ m, y m 1 = R + x m 1 := fun _ => rfl
  set f : Nat → Nat → α := fun p q => (y p 0 * y q 1 - y q 0 * y p 1) * (y p 1 + y q 1) / 6 with hf
  have h := hM.perimeter.stokes f (fun p q => by simp only [hf]; ring)
  have h0 : ∑ e ∈ range ne, Axi.moment4 (fun m i => y (c e m) i) = edgeSum 4 ne c f := by
    refine sum_congr rfl fun e _ => ?_
    simp only [sum_range_succ, sum_range_zero, Axi.moment4, hf]
    norm_num
    ring
  obtain ⟨s1, s2, s3, s4⟩ := hM.sizes
  have hb : pathSum O.nb O.bottom f = pathSum O.nb O.bottom (fun p q => (-R ^ 2 / 3) * x q 0 - (-R ^ 2 / 3) * x p 0) := by
    refine sum_congr rfl fun i hi => ?_
    rw [mem_range] at hi
    simp only [hf, e0, e1]
    rw [(hM.bottom i (by omega)).2, (hM.bottom (i + 1) (by omega)).2]; ring
  have hl : pathSum O.nl O.left f = 0 := by
    refine sum_eq_zero fun i hi => ?_
    rw [mem_range] at hi
    simp only [hf, e0, e1]
    rw [(hM.left i (by omega)).2, (hM.left (i + 1) (by omega)).2]; ring
  have hr : pathSum O.nr O.right f = pathSum O.nr O.right (fun p q => Lx / 6 * (R + x q 1) ^ 2 - Lx / 6 * (R + x p 1) ^ 2) := by
    refine sum_congr rfl fun i hi => ?_
    rw [mem_range] at hi
    simp only [hf, e0, e1]
    rw [(hM.right i (by omega)).2.1, (hM.right (i + 1) (by omega)).2.1]; ring
  have ht : pathSum O.nt O.top f = pathSum O.nt O.top (fun p q => (- (R + Ly) ^ 2 / 3) * x q 0 - (- (R + Ly) ^ 2 / 3) * x p 0) := by
    refine sum_congr rfl fun i hi => ?_
    rw [mem_range] at hi
    simp only [hf, e0, e1]
    rw [(hM.top i (by omega)).2.1, (hM.top (i + 1) (by omega)).2.1]; ring
  obtain ⟨k1, k2, k3, k4⟩ := hM.corners
  rw [h0, h, hb, hl, hr, ht, pathSum_sub (y := fun m => (-R ^ 2 / 3) * x m 0), pathSum_sub (y := fun m => Lx / 6 * (R + x m 1) ^ 2),
    pathSum_sub (y := fun m => - (R + Ly) ^ 2 / 3 * x m 0)]
  have t0 : x (O.top 0) 0 = 0 := by rw [(hM.top 0 (by omega)).2.2]; exact k1
  have t1 : x (O.top (O.nt - 1)) 0 = Lx := by rw [hM.perimeter.tr]; exact (hM.right _ (by omega)).2.1
  have r0 : x (O.right 0) 1 = 0 := by rw [(hM.right 0 (by omega)).2.2]; exact k3
  have r1 : x (O.right (O.nr - 1)) 1 = Ly := by rw [(hM.right _ (by omega)).2.2, s4]; exact k4
  rw [k1, k2, t0, t1, r0, r1]
  ring

/-- **C101** (volume) the volumes of all integration points are positive, and they add up to the volume of the solid of
revolution: a hollow cylinder (a solid cylinder if `R = 0`) with radii `R` and `R + Ly`, and height `Lx` -/
theorem C101_volume (hM : RectMesh nn ne c x Lx Ly O) {R : α} (hR : 0 ≤ R) {s pi : α} (hs : 3 * s ^ 2 = 1) (hpi : 0 < pi) (σ τ : Sched)
    {conn dofs : Ten Nat} {coor : Ten α} (hc : Is2 conn ne 4 c) (hx : Is2 coor nn 2 (ringPos R x)) (hd : Is2 dofs nn 2 d) :
    IsOk (setupAxi s pi σ τ conn dofs coor) fun S => ∃ V, Is2 S.2.vol ne 4 V ∧ (∀ e q, e < ne → q < 4 → 0 < V e q) ∧
      ∑ e ∈ range ne, ∑ q ∈ range 4, V e q = pi * ((R + Ly) ^ 2 - R ^ 2) * Lx := by
  obtain ⟨V, Q, h1, -, -, -, -, -, -, -, hQ, hp, hr⟩ := hM.setupAxi hR (gauss_lt hs).1 (gauss_lt hs).2 pi σ τ hc hx hd
  refine ⟨_, h1, _, Axi.C50_axisymmetric_volume hQ, fun e q he hq => ?_, ?_⟩
  · have a := hp e q he hq
    have b := hr e q he hq
    beta_reduce
    rw [one_mul]
    exact mul_pos a (mul_pos (mul_pos two_pos hpi) b)
  · rw [mul_assoc, ← ring_moment hM R, mul_left_comm, ← mul_assoc, mul_sum]
    refine sum_congr rfl fun e _ => ?_
    rw [← Axi.gauss_moment _ hs, mul_sum]
    exact sum_congr rfl fun q _ => by ring

/-- **C101** (patch test, forces) a constant stress with equal radial and hoop components, and without shear, is in
equilibrium: its assembled internal force is that of the tractions on the boundary -/
theorem C101_constant_stress (hM : RectMesh nn ne c x Lx Ly O) {R : α} (hR : 0 ≤ R) {s : α} (hs : 3 * s ^ 2 = 1) (pi : α) (σ τ ρ : Sched)
    {conn dofs : Ten Nat} {coor : Ten α} (hc : Is2 conn ne 4 c) (hx : Is2 coor nn 2 (ringPos R x)) (hd : Is2 dofs nn 2 d) {sig : Ten α}
    {S : Nat → Nat → α} (hS : Is4 sig ne 4 3 3 fun _ _ i j => S i j) (h00 : S 0 0 = S 1 1) (h02 : S 0 2 = 0) :
    IsOk (do let (V, Q) ← setupAxi s pi σ τ conn dofs coor; internalForceAxi ρ V Q sig) fun f =>
      ∃ n F, Is1 f n F ∧ NumDofs nn d n ∧ ∀ k, F k = O.sum (ringForce pi d (ringPos R x) S k) := by
  obtain ⟨V, Q, h1, -, hV, e1, e2, e3, e4, e5, hQ, hp, hr⟩ := hM.setupAxi hR (gauss_lt hs).1 (gauss_lt hs).2 pi σ τ hc hx hd
  obtain ⟨fe, f1, f2⟩ := ring_force hs hQ (fun e q he hq => (hp e q he hq).ne') (fun e q he hq => (hr e q he hq).ne') ρ hS h00 h02
  rw [← e1, ← e2, ← e4] at f2
  obtain ⟨y, y1, y2⟩ := C04_assemble_element hV (x := fe) f2
  refine ⟨y, ?_, V.ndof, _, y2, ⟨fun m i hm hi => hV.dofs_lt m i (by rw [e3]; exact hm) (by rw [e4]; exact hi), e5⟩, fun k => ?_⟩
  · simp only [h1, internalForceAxi, f1, Res.ok_bind]; exact y1
  · rw [e1, e2, e4, ring_edges c d (ringPos R x) S pi h02, Outline.sum]
    exact hM.perimeter.stokes _ fun p q => ringForce_anti pi d _ S k p q

omit [LinearOrder α] [IsStrictOrderedRing α] in
theorem ringForce_zero {pi : α} {k p q : Nat} {y S : Nat → Nat → α} (hp : ∀ i, i < 2 → d p i ≠ k) (hq : ∀ i, i < 2 → d q i ≠ k) :
    ringForce pi d y S k p q = 0 := by
  rw [ringForce, sum_eq_zero fun j hj => ?_, mul_zero]
  rw [mem_range] at hj
  rw [if_neg (hp j hj), if_neg (hq j hj), mul_zero, mul_zero, add_zero, mul_zero]

omit [LinearOrder α] [IsStrictOrderedRing α] in
theorem ringForce_axis {pi : α} {k p q : Nat} {y S : Nat → Nat → α} (hp : y p 1 = 0) (hq : y q 1 = 0) :
    ringForce pi d y S k p q = 0 := by
  rw [ringForce, sum_eq_zero fun j hj => ?_, mul_zero]
  rw [hp, hq]; simp

/-- no traction acts on the DOFs of nodes that are not on the surface of the solid -/
theorem ring_interior (hM : RectMesh nn ne c x Lx Ly O) {R pi : α} {k : Nat} {S : Nat → Nat → α}
    (hk : ∀ m i, m < nn → i < 2 → d m i = k → 0 < x m 0 ∧ x m 0 < Lx ∧ (0 < x m 1 ∨ R = 0) ∧ x m 1 < Ly) :
    O.sum (ringForce pi d (ringPos R x) S k) = 0 := by
  have hb : ∀ i, i + 1 < O.nb → ringForce pi d (ringPos R x) S k (O.bottom i) (O.bottom (i + 1)) = 0 := by
    intro i hi
    have b1 := hM.bottom i (by omega)
    have b2 := hM.bottom (i + 1) hi
    by_cases h0 : R = 0
    · exact ringForce_axis (by rw [ringPos_one, b1.2, h0, add_zero]) (by rw [ringPos_one, b2.2, h0, add_zero])
    · exact ringForce_zero (fun j hj h => ((hk _ j b1.1 hj h).2.2.1.resolve_right h0).ne' b1.2)
        (fun j hj h => ((hk _ j b2.1 hj h).2.2.1.resolve_right h0).ne' b2.2)
  have ht : ∀ i, i < O.nt → ∀ j, j < 2 → d (O.top i) j ≠ k := fun i hi j hj h =>
    (hk _ j (hM.top i hi).1 hj h).2.2.2.ne (hM.top i hi).2.1
  have hl : ∀ i, i < O.nl → ∀ j, j < 2 → d (O.left i) j ≠ k := fun i hi j hj h =>
    (hk _ j (hM.left i hi).1 hj h).1.ne' (hM.left i hi).2
  have hr : ∀ i, i < O.nr → ∀ j, j < 2 → d (O.right i) j ≠ k := fun i hi j hj h =>
    (hk _ j (hM.right i hi).1 hj h).2.1.ne (hM.right i hi).2.1
  rw [Outline.sum, pathSum_zero hb,
    pathSum_zero fun i hi => ringForce_zero (hr i (by omega)) (hr (i + 1) hi),
    pathSum_zero fun i hi => ringForce_zero (ht i (by omega)) (ht (i + 1) hi),
    pathSum_zero fun i hi => ringForce_zero (hl i (by omega)) (hl (i + 1) hi)]
  simp

/-- **C101** (patch test, interior) no force acts on a DOF if all nodes with that DOF are inside the solid (on its axis, if it is
not hollow, is inside) -/
theorem C101_interior (hM : RectMesh nn ne c x Lx Ly O) {R : α} (hR : 0 ≤ R) {s : α} (hs : 3 * s ^ 2 = 1) (pi : α) (σ τ ρ : Sched)
    {conn dofs : Ten Nat} {coor : Ten α} (hc : Is2 conn ne 4 c) (hx : Is2 coor nn 2 (ringPos R x)) (hd : Is2 dofs nn 2 d) {sig : Ten α}
    {S : Nat → Nat → α} (hS : Is4 sig ne 4 3 3 fun _ _ i j => S i j) (h00 : S 0 0 = S 1 1) (h02 : S 0 2 = 0) :
    IsOk (do let (V, Q) ← setupAxi s pi σ τ conn dofs coor; internalForceAxi ρ V Q sig) fun f =>
      ∃ n F, Is1 f n F ∧ NumDofs nn d n ∧
        ∀ k, (∀ m i, m < nn → i < 2 → d m i = k → 0 < x m 0 ∧ x m 0 < Lx ∧ (0 < x m 1 ∨ R = 0) ∧ x m 1 < Ly) → F k = 0 := by
  obtain ⟨f, h1, n, F, h2, h3, h4⟩ := C101_constant_stress hM hR hs pi σ τ ρ hc hx hd hS h00 h02
  exact ⟨f, h1, n, F, h2, h3, fun k hk => by rw [h4, ring_interior hM hk]⟩

end GF
