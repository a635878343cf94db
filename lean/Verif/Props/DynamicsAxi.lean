import Verif.Lemmas.DynamicsAxi
import Verif.Props.Dynamics3
import Verif.Props.AxiMeshes
import Verif.Props.Stability

/-! **C120** the time integration of docs/examples/dynamics with axisymmetric elements: lumped mass, axial momentum,
reversibility, and energy, on any mesh of quadrilaterals in the half-plane `r ≥ 0`. -/

namespace GF
open Finset ElemSpec Element Element.Quad4

variable {α : Type} [Field α] [LinearOrder α] [IsStrictOrderedRing α]
variable {nn ne : Nat} {c d : Nat → Nat → Nat} {x : Nat → Nat → α}

/-- the quadrature object for the elements of any mesh -/
theorem setupAxi_ok (hn : 0 < nn) (hv : ∀ e m, e < ne → m < 4 → c e m < nn) (s pi : α) (σ τ : Sched) {conn dofs : Ten Nat} {coor : Ten α}
    (hc : Is2 conn ne 4 c) (hx : Is2 coor nn 2 x) (hd : Is2 dofs nn 2 d) :
    ∃ V Q, GF.setupAxi s pi σ τ conn dofs coor = .ok (V, Q) ∧ Vector.new conn dofs = .ok V ∧ V.Holds c d ∧ V.nelem = ne ∧ V.nne = 4 ∧
      V.nnode = nn ∧ V.ndim = 2 ∧ (∃ m i, m < nn ∧ i < 2 ∧ V.ndof = d m i + 1) ∧
      Axi.Live pi ne 4 (fun q i => s * corner4 q i) (fun _ => 1) Q (fun e m i => x (c e m) i) := by
  obtain ⟨V, h1, h2, h3, h4, h5, hV, h6⟩ := C08_constructor hc hd hn (by omega) hv
  obtain ⟨xe, g1, g2⟩ := C03_element_of_node hV σ (x := coor) (g := x) (by rw [h4, h5]; exact hx)
  rw [h2, h3, h5] at g2
  obtain ⟨xi, r1, r2⟩ := rule_ok s
  obtain ⟨w, r3, r4⟩ := (weights_ok (α := α)).1
  obtain ⟨Q, r5, hQ, -⟩ := Axi.C50_axisymmetric_life (pi := pi) τ τ g2 r2 r4 g2
  refine ⟨V, Q, ?_, h1, hV, h2, h3, h4, h5, h6, hQ⟩
  simp only [GF.setupAxi, h1, g1, Axi.newGauss, r1, r3, r5, Res.ok_bind]; rfl

/-- what the constructors return -/
theorem dynamics_newA (hM : RingMesh nn ne c x) (s pi : α) (σ : Nat → Sched) {conn dofs : Ten Nat} {coor rho : Ten α}
    (hc : Is2 conn ne 4 c) (hx : Is2 coor nn 2 x) (hd : Is2 dofs nn 2 d) {R : Nat → Nat → α} (hr : Is2 rho ne 4 R) :
    ∃ D M, DynamicsAxi.new s pi σ conn dofs coor rho = .ok (D, M) ∧ D.State nn ne c d x pi s ∧ M.V = D.vector ∧
      M.Holds c d (some (lumpedA pi x ne c d R)) ∧ NumDofs nn d D.vector.ndof := by
  obtain ⟨V, Q, h1, h0, hV, e1, e2, e3, e4, e5, hQ⟩ := setupAxi_ok hM.pos hM.valid s pi (σ 0) (σ 1) hc hx hd
  obtain ⟨xe, x1, x2⟩ := C03_element_of_node hV (σ 2) (x := coor) (g := x) (by rw [e3, e4]; exact hx)
  rw [e1, e2, e4] at x2
  obtain ⟨xi, r1, r2⟩ := nodal_ok (α := α)
  obtain ⟨w, r3, r4⟩ := (weights_ok (α := α)).2
  obtain ⟨Q', r5, hQ', -⟩ := Axi.C50_axisymmetric_life (pi := pi) (σ 3) (σ 3) x2 r2 r4 x2
  obtain ⟨t, k4, k, k5, k6⟩ : IsOk (Axi.Int_N_scalar_NT_dV Q' (σ 4) rho) (fun t => ∃ k, Is3 t ne 8 8 k ∧
      ∀ e m i, e < ne → m < 4 → i < 2 → k e (m * 2 + i) (m * 2 + i) = R e m * nodalVolA pi x c e m) := by
    have hh := (Axi.live_holds hQ').1
    have hV := Axi.C50_axisymmetric_volume hQ'
    obtain ⟨t, g1, g2, g3⟩ := mass_ok hh.N_is hV (σ 4) hr (Ten.empty Q'.shape_elemmat) (by
      simp [Ten.empty, Quadrature.shape_elemmat, hh.ne_eq, hh.nne_eq, hh.nd_eq])
    refine ⟨t, by rw [Axi.Int_N_scalar_NT_dV, hh.ne_eq, hh.nip_eq]; exact g1, fun e a b => if a % 2 = b % 2 then ∑ q ∈ range 4,
      N4 (a / 2) (1 * corner4 q 0) (1 * corner4 q 1) * R e q * N4 (b / 2) (1 * corner4 q 0) (1 * corner4 q 1) *
        (1 * det4 (fun m i => x (c e m) i) (1 * corner4 q 0) (1 * corner4 q 1) *
          (2 * pi * map4 (fun m i => x (c e m) i) 1 (1 * corner4 q 0) (1 * corner4 q 1))) else 0, ⟨g2, fun e a b he ha hb => ?_⟩, fun e m i he hm hi => ?_⟩
    · have := g3 e (a / 2) (b / 2) (a % 2) (b % 2) he (by omega) (by omega) (by omega) (by omega)
      rw [show a / 2 * 2 + a % 2 = a by omega, show b / 2 * 2 + b % 2 = b by omega] at this
      exact this
    · have hN : ∀ m n, m < 4 → n < 4 → N4 m (1 * corner4 n 0 : α) (1 * corner4 n 1) = if m = n then 1 else 0 := by
        intro m n hm hn
        rw [one_mul, one_mul, N4_corner hm hn]
      have e1 : (m * 2 + i) / 2 = m := by omega
      beta_reduce
      rw [if_pos rfl, e1, sum_eq_single m]
      · have hr : map4 (fun m i => x (c e m) i) 1 (1 * corner4 m 0) (1 * corner4 m 1) = x (c e m) 1 := by
          rw [map4, sum_eq_single m]
          · rw [hN m m hm hm, if_pos rfl, one_mul]
          · intro n hn hne
            rw [hN n m (mem_range.1 hn) hm, if_neg hne, zero_mul]
          · intro h; exact absurd (mem_range.2 hm) h
        rw [hN m m hm hm, if_pos rfl, hr, nodalVolA, one_mul, one_mul]
        ring
      · intro q hq hne
        rw [hN m q hm (mem_range.1 hq), if_neg (Ne.symm hne)]; ring
      · intro h; exact absurd (mem_range.2 hm) h
  obtain ⟨M, m1, m2, m3⟩ := C23_constructor (α := α) hc hd hM.valid
  obtain rfl : V = M.V := by rw [h0] at m2; injection m2
  obtain ⟨M', a1, a2, a3, a4⟩ := C23_assemble m3 (K := t) (k := k) (by rw [e1, e2, e4]; exact k5)
  refine ⟨⟨M.V, Q⟩, M', ?_, ⟨hV, ⟨e1, e2, e3, e4⟩, hQ⟩, a2, ?_, ?_⟩
  · simp only [DynamicsAxi.new, h1, x1, r1, r3, r5, m1, k4, a1, Res.ok_bind]
    rfl
  · have : diagAssembled M.V c d k = lumpedA pi x ne c d R := by
      funext r
      rw [diagAssembled, lumpedA, e1, e2, e4]
      refine sum_congr rfl fun e he => sum_congr rfl fun m hm => sum_congr rfl fun i hi => ?_
      rw [mem_range] at he hm hi
      rw [k6 e m i he hm hi]
    rw [← this]
    exact a3
  · obtain ⟨m, i, hm, hi, hh⟩ := e5
    exact ⟨fun m i hm hi => hV.dofs_lt m i (by omega) (by omega), m, i, hm, hi, hh⟩

/-- **C120** (lumped mass) `J e q` is the share of the area of element `e` that belongs to its corner `q`. The diagonal that is
assembled with the nodal quadrature rule is the sum of what these areas sweep around the axis, at the radius of the node: it is
positive on the DOFs of every node that is not on the axis, zero on a DOF that belongs to nodes on the axis only, and adds up over
the DOFs of each component to the integral of the density with the nodal rule. -/
theorem C120_mass (hM : RingMesh nn ne c x) (s : α) {pi : α} (hpi : 0 < pi) (σ : Nat → Sched) {conn dofs : Ten Nat}
    {coor rho : Ten α} (hc : Is2 conn ne 4 c) (hx : Is2 coor nn 2 x) (hd : Is2 dofs nn 2 d) {R : Nat → Nat → α} (hr : Is2 rho ne 4 R) :
    IsOk (DynamicsAxi.new s pi σ conn dofs coor rho) fun t => ∃ (n : Nat) (mass : Nat → α) (J : Nat → Nat → α), NumDofs nn d n ∧ Is1 t.2.A n mass ∧
      (∀ e q, e < ne → q < 4 → J e q = det4 (fun m i => x (c e m) i) (corner4 q 0) (corner4 q 1) ∧ 0 < J e q) ∧
      ((∀ e q, e < ne → q < 4 → 0 < R e q) → ∀ m i, m < nn → i < 2 → 0 < x m 1 → 0 < mass (d m i)) ∧
      (∀ k, k < n → (∀ m i, m < nn → i < 2 → d m i = k → x m 1 = 0) → mass k = 0) ∧
      ((∀ m m', m < nn → m' < nn → d m 0 ≠ d m' 1) → ∀ i, i < 2 →
        ∑ k ∈ compDofs nn d i, mass k = ∑ e ∈ range ne, ∑ q ∈ range 4, R e q * (2 * pi * x (c e q) 1 * J e q)) := by
  obtain ⟨D, M, h1, h2, h3, h4, h5⟩ := dynamics_newA hM s pi σ hc hx hd hr
  have hA := h4.A _ rfl
  rw [h3] at hA
  have nv : ∀ e m, e < ne → m < 4 → 0 ≤ nodalVolA pi x c e m := fun e m he hm =>
    mul_nonneg (hM.corners e m he hm).le (mul_nonneg (mul_pos two_pos hpi).le (hM.radius _ (hM.valid e m he hm)))
  refine ⟨(D, M), h1, _, _, _, h5, hA, fun e q he hq => ⟨rfl, hM.corners e q he hq⟩, fun hR m i hm hi hp => ?_, fun k _ h0 => ?_, fun hsep i hi => ?_⟩
  · obtain ⟨e, a, he, ha, rfl⟩ := hM.used m hm
    refine sum_pos' (fun e he => sum_nonneg fun m hm => sum_nonneg fun i _ => ?_) ⟨e, mem_range.2 he, sum_pos' (fun m hm => sum_nonneg fun i _ => ?_)
      ⟨a, mem_range.2 ha, sum_pos' (fun i _ => ?_) ⟨i, mem_range.2 hi, ?_⟩⟩⟩
    · split
      · exact mul_nonneg (hR _ _ (mem_range.1 he) (mem_range.1 hm)).le (nv _ _ (mem_range.1 he) (mem_range.1 hm))
      · exact le_rfl
    · split
      · exact mul_nonneg (hR _ _ he (mem_range.1 hm)).le (nv _ _ he (mem_range.1 hm))
      · exact le_rfl
    · split
      · exact mul_nonneg (hR _ _ he ha).le (nv _ _ he ha)
      · exact le_rfl
    · rw [if_pos rfl]
      exact mul_pos (hR _ _ he ha) (mul_pos (hM.corners _ _ he ha) (mul_pos (mul_pos two_pos hpi) hp))
  · refine sum_eq_zero fun e he => sum_eq_zero fun m hm => sum_eq_zero fun i hi => ?_
    rw [mem_range] at he hm hi
    split
    · rename_i hk
      rw [nodalVolA, h0 _ i (hM.valid e m he hm) hi hk, mul_zero, mul_zero, mul_zero]
    · rfl
  · refine (comp_sum hM.valid hsep hi fun e m _ => R e m * nodalVolA pi x c e m).trans ?_
    refine sum_congr rfl fun e _ => sum_congr rfl fun q _ => ?_
    rw [nodalVolA]
    ring

/-! ### Momentum -/

/-- the axial internal forces add up to zero -/
theorem force_totalA (hM : RingMesh nn ne c x) (hsep : ∀ m m', m < nn → m' < nn → d m 0 ≠ d m' 1) (s : α)
    (vol : Nat → Nat → α) (S : Nat → Nat → Nat → Nat → α) :
    ∑ k ∈ compDofs nn d 0, forceOfA ne c d (dynB s x c) vol S k = 0 := by
  refine (comp_sum hM.valid hsep (by omega : 0 < 2) fun e m i => ∑ q ∈ range 4,
    (∑ a ∈ range 5, if Axi.dof a = i then dynB s x c a e q m * S e q (Axi.ci a) (Axi.cj a) else 0) * vol e q).trans ?_
  refine sum_eq_zero fun e _ => ?_
  rw [sum_comm]
  refine sum_eq_zero fun q _ => ?_
  have h0 := G_sum (fun q i => s * corner4 q i) (fun e m i => x (c e m) i) e q 0
  have h1 := G_sum (fun q i => s * corner4 q i) (fun e m i => x (c e m) i) e q 1
  rw [← sum_mul]
  have : ∑ m ∈ range 4, ∑ a ∈ range 5, (if Axi.dof a = 0 then
      dynB s x c a e q m * S e q (Axi.ci a) (Axi.cj a) else 0) =
      (∑ m ∈ range 4, Gf (D4 fun q i => s * corner4 q i) (fun e m i => x (c e m) i) e q m 0) * S e q 2 2 +
      (∑ m ∈ range 4, Gf (D4 fun q i => s * corner4 q i) (fun e m i => x (c e m) i) e q m 1) * S e q 0 2 := by
    rw [sum_mul, sum_mul, ← sum_add_distrib]
    refine sum_congr rfl fun m _ => ?_
    simp [sum_range_succ, Axi.dof, Axi.ci, Axi.cj, dynB, Axi.bX, Axi.bv]
  rw [this, h0, h1]
  ring

/-- **C120** (Newton's second law) for any material, also if its stress depends on the history, any number of increments
succeeds; the displacement changes, and the velocity and acceleration are, equal on nodes that share a DOF; and if the initial
axial acceleration is balanced in total, the axial momentum grows with the total axial load: it is conserved without load -/
theorem C120_momentum (hM : RingMesh nn ne c x) (s : α) {pi : α} (hpi : 0 < pi) (σ : Nat → Sched)
    (υ : Nat → Nat → Sched) {conn dofs : Ten Nat} {coor rho : Ten α} (hc : Is2 conn ne 4 c) (hx : Is2 coor nn 2 x) (hd : Is2 dofs nn 2 d)
    {R : Nat → Nat → α} (hr : Is2 rho ne 4 R) (hR : ∀ e q, e < ne → q < 4 → 0 < R e q) (off : ∀ m, m < nn → 0 < x m 1) (dt : α) {material : List (Ten α) → Res (Ten α)}
    (hm : RespondsAxi ne material) {u v a fext : Ten α} {U : Nat → Nat → α} {V A B : Nat → α} (hu : Is2 u nn 2 U) (hv : Is2 v nn 2 fun m i => V (d m i))
    (ha : Is2 a nn 2 fun m i => A (d m i)) (hf : Is2 fext nn 2 fun m i => B (d m i)) (n : Nat) :
    IsOk (do
      let (D, M) ← DynamicsAxi.new s pi σ conn dofs coor rho
      let S ← D.run dt material fext υ n ⟨u, v, a, M, []⟩
      return (M, S)) fun t => ∃ N mass, NumDofs nn d N ∧ Is1 t.1.A N mass ∧ Is1 t.2.M.A N mass ∧ ∃ W Vn An : Nat → α,
        Is2 t.2.u nn 2 (fun m i => U m i + W (d m i)) ∧ Is2 t.2.v nn 2 (fun m i => Vn (d m i)) ∧ Is2 t.2.a nn 2 (fun m i => An (d m i)) ∧
        ((∀ m m', m < nn → m' < nn → d m 0 ≠ d m' 1) → ∑ k ∈ compDofs nn d 0, mass k * A k = ∑ k ∈ compDofs nn d 0, B k →
          ∑ k ∈ compDofs nn d 0, mass k * Vn k = ∑ k ∈ compDofs nn d 0, mass k * V k + (n : α) * dt * ∑ k ∈ compDofs nn d 0, B k) := by
  obtain ⟨D, M, h1, h2, h3, h4, h5⟩ := dynamics_newA hM s pi σ hc hx hd hr
  have hA := h4.A _ rfl
  rw [h3] at hA
  obtain ⟨t, g1, N, mass, J, g2, g3, -, g4, -⟩ := C120_mass hM s hpi σ hc hx hd hr
  obtain rfl : (D, M) = t := by rw [h1] at g1; injection g1
  have hN : N = D.vector.ndof := by
    have := g3.1.symm.trans hA.1
    simpa using this
  subst hN
  have pos : ∀ m i, m < nn → i < 2 → lumpedA pi x ne c d R (d m i) ≠ 0 := fun m i hm hi => by
    rw [← g3.unique hA (g2.1 m i hm hi)]
    exact (g4 hR m i hm hi (off m hm)).ne'
  have key : ∃ S, D.run dt material fext υ n ⟨u, v, a, M, []⟩ = .ok S ∧ S.M.A = M.A ∧ ∃ W Vn An : Nat → α,
      S.IsAxi D nn ne c d (lumpedA pi x ne c d R) (fun m i => U m i + W (d m i)) Vn An ∧
      ((∀ m m', m < nn → m' < nn → d m 0 ≠ d m' 1) →
          ∑ k ∈ compDofs nn d 0, lumpedA pi x ne c d R k * A k = ∑ k ∈ compDofs nn d 0, B k →
          ∑ k ∈ compDofs nn d 0, lumpedA pi x ne c d R k * An k = ∑ k ∈ compDofs nn d 0, B k ∧
          ∑ k ∈ compDofs nn d 0, lumpedA pi x ne c d R k * Vn k =
            ∑ k ∈ compDofs nn d 0, lumpedA pi x ne c d R k * V k + (n : α) * dt * ∑ k ∈ compDofs nn d 0, B k) := by
    induction n with
    | zero =>
      refine ⟨_, rfl, rfl, fun _ => 0, V, A, ⟨by simpa only [add_zero] using hu, hv, ha, h4, h3, by simp⟩, fun hsep h0 => ⟨h0, by simp⟩⟩
    | succ n ih =>
      obtain ⟨S, i1, i0, W, Vn, An, i2, i3⟩ := ih
      obtain ⟨S', T, j1, -, j0, j2⟩ := h2.step_ok dt (material := material) hf (υ n) i2 (P := fun _ => True) fun t ht => by
        obtain ⟨r, r1, T, r2⟩ := hm (t :: S.strains) (by simp) (fun t' ht' => by
          rcases List.mem_cons.1 ht' with rfl | ht'
          · exact ⟨_, ht⟩
          · exact i2.strains _ ht')
        exact ⟨r, r1, T, r2, trivial⟩
      refine ⟨S', by rw [DynamicsAxi.run, i1, Res.ok_bind]; exact j1, j0.trans i0, fun k => W k + (dt * Vn k + 1 / 2 * dt ^ 2 * An k),
        fun k => Vn k + 1 / 2 * dt * (An k + (B k - forceOfA ne c d (dynB s x c) (dynVolA pi s x c) T k) / lumpedA pi x ne c d R k),
        fun k => (B k - forceOfA ne c d (dynB s x c) (dynVolA pi s x c) T k) / lumpedA pi x ne c d R k, ?_, ?_⟩
      · simp only [add_assoc] at j2 ⊢
        exact j2
      · intro hsep h0
        obtain ⟨k1, k2⟩ := i3 hsep h0
        have a1 : ∑ k ∈ compDofs nn d 0, lumpedA pi x ne c d R k *
            ((B k - forceOfA ne c d (dynB s x c) (dynVolA pi s x c) T k) / lumpedA pi x ne c d R k) = ∑ k ∈ compDofs nn d 0, B k := by
          have : ∀ k ∈ compDofs nn d 0, lumpedA pi x ne c d R k *
              ((B k - forceOfA ne c d (dynB s x c) (dynVolA pi s x c) T k) / lumpedA pi x ne c d R k) =
              B k - forceOfA ne c d (dynB s x c) (dynVolA pi s x c) T k := by
            intro k hk
            obtain ⟨m, hm, rfl⟩ := mem_image.1 hk
            rw [mul_div_cancel₀ _ (pos m 0 (mem_range.1 hm) (by omega))]
          rw [sum_congr rfl this, sum_sub_distrib, force_totalA hM hsep, sub_zero]
        refine ⟨a1, ?_⟩
        rw [sum_congr rfl fun k _ => show lumpedA pi x ne c d R k * (Vn k + 1 / 2 * dt * (An k +
          (B k - forceOfA ne c d (dynB s x c) (dynVolA pi s x c) T k) / lumpedA pi x ne c d R k)) = lumpedA pi x ne c d R k * Vn k +
            1 / 2 * dt * (lumpedA pi x ne c d R k * An k + lumpedA pi x ne c d R k *
            ((B k - forceOfA ne c d (dynB s x c) (dynVolA pi s x c) T k) / lumpedA pi x ne c d R k)) by ring, sum_add_distrib, ← mul_sum,
          sum_add_distrib, k1, a1, k2]
        push_cast
        ring
  obtain ⟨S, k1, k0, W, Vn, An, k2, k3⟩ := key
  refine ⟨(M, S), by simp only [h1, Res.ok_bind, k1]; rfl, _, _, h5, hA, by rw [k0]; exact hA, W, Vn, An, k2.u, k2.v, k2.a,
    fun hsep h0 => (k3 hsep h0).2⟩

/-- a run with a material without memory -/
theorem DynamicsAxi.State.run_ok {D : DynamicsAxi α} {pi s : α} {mass : Nat → α} (h : D.State nn ne c d x pi s) (dt : α) {material : List (Ten α) → Res (Ten α)} {Φ}
    (hm : HistoryFreeAxi ne material Φ) {fext : Ten α} {B : Nat → α} (hf : Is2 fext nn 2 fun m i => B (d m i)) (υ : Nat → Nat → Sched) (n : Nat)
    {S : Motion α} {X : (Nat → Nat → α) × (Nat → α) × (Nat → α)} (hS : S.IsAxi D nn ne c d mass X.1 X.2.1 X.2.2) :
    ∃ S', D.run dt material fext υ n S = .ok S' ∧ ∀ Y, Y = (verlet d dt (fun U k => (B k - forceOfA ne c d (dynB s x c) (dynVolA pi s x c)
      (Φ (strainOfA (dynB s x c) c U)) k) / mass k))^[n] X → S'.IsAxi D nn ne c d mass Y.1 Y.2.1 Y.2.2 := by
  induction n with
  | zero => exact ⟨S, rfl, fun Y hY => by rw [hY]; exact hS⟩
  | succ n ih =>
    obtain ⟨S', i1, i2⟩ := ih
    obtain ⟨S'', T, j1, rfl, -, j2⟩ := h.step_ok dt (material := material) hf (υ n) (i2 _ rfl) (P := fun T => T = _) fun t ht => by
      obtain ⟨r, r1, r2⟩ := hm t S'.strains _ ht
      exact ⟨r, r1, _, r2, rfl⟩
    refine ⟨S'', by rw [DynamicsAxi.run, i1, Res.ok_bind]; exact j1, fun Y hY => ?_⟩
    rw [Function.iterate_succ_apply'] at hY
    rw [hY]
    exact j2

/-- **C120** (reversibility) for a material without memory: after the first increment, `n` increments, reversal of the velocity,
and again `n` increments lead back to the same state with reversed velocity -/
theorem C120_reversible (hM : RingMesh nn ne c x) (s : α) {pi : α} (_hpi : 0 < pi) (σ : Nat → Sched)
    (υ υ' υ'' : Nat → Nat → Sched) {conn dofs : Ten Nat} {coor rho : Ten α} (hc : Is2 conn ne 4 c) (hx : Is2 coor nn 2 x) (hd : Is2 dofs nn 2 d)
    {R : Nat → Nat → α} (hr : Is2 rho ne 4 R) (_hR : ∀ e q, e < ne → q < 4 → 0 < R e q) (_off : ∀ m, m < nn → 0 < x m 1) (dt : α) {material : List (Ten α) → Res (Ten α)} {Φ}
    (hm : HistoryFreeAxi ne material Φ) {u v a fext : Ten α} {U : Nat → Nat → α} {V A B : Nat → α} (hu : Is2 u nn 2 U) (hv : Is2 v nn 2 fun m i => V (d m i))
    (ha : Is2 a nn 2 fun m i => A (d m i)) (hf : Is2 fext nn 2 fun m i => B (d m i)) (n : Nat) :
    IsOk (do
      let (D, M) ← DynamicsAxi.new s pi σ conn dofs coor rho
      let S ← D.run dt material fext υ 1 ⟨u, v, a, M, []⟩
      let T ← D.run dt material fext υ' n S
      let T ← T.reverse
      let T ← D.run dt material fext υ'' n T
      return (S, T)) fun t => ∃ U₁ V₁ A₁, Is2 t.1.u nn 2 U₁ ∧ Is2 t.1.v nn 2 V₁ ∧ Is2 t.1.a nn 2 A₁ ∧
        Is2 t.2.u nn 2 U₁ ∧ Is2 t.2.v nn 2 (fun m i => - V₁ m i) ∧ Is2 t.2.a nn 2 A₁ := by
  obtain ⟨D, M, h1, h2, h3, h4, h5⟩ := dynamics_newA hM s pi σ hc hx hd hr
  obtain ⟨S, i1, i2⟩ := h2.run_ok dt hm hf υ 1 (S := ⟨u, v, a, M, []⟩) (X := (U, V, A)) ⟨hu, hv, ha, h4, h3, by simp⟩
  have i3 := i2 _ rfl
  obtain ⟨acc, hacc⟩ : ∃ acc, acc = (fun (U : Nat → Nat → α) (k : Nat) => (B k - forceOfA ne c d (dynB s x c) (dynVolA pi s x c)
    (Φ (strainOfA (dynB s x c) c U)) k) / lumpedA pi x ne c d R k) := ⟨_, rfl⟩
  rw [← hacc, Function.iterate_one] at i3
  obtain ⟨X, hX⟩ : ∃ X, X = verlet d dt acc (U, V, A) := ⟨_, rfl⟩
  rw [← hX] at i3
  have hb : X.2.2 = acc X.1 := by rw [hX]; rfl
  obtain ⟨T, j1, j2⟩ := h2.run_ok dt hm hf υ' n (X := X) i3
  rw [← hacc] at j2
  obtain ⟨Y, hY⟩ : ∃ Y, Y = (verlet d dt acc)^[n] X := ⟨_, rfl⟩
  have j3 := j2 Y hY
  obtain ⟨v', w1, w2⟩ := nodeExpr_ok (fun v _ _ : α => - v) j3.v j3.v j3.v
  obtain ⟨T', k1, k2⟩ := h2.run_ok dt hm hf υ'' n (S := { T with v := v' }) (X := (Y.1, fun k => - Y.2.1 k, Y.2.2))
    ⟨j3.u, w2, j3.a, j3.M, j3.same, j3.strains⟩
  rw [← hacc] at k2
  have k3 := k2 (X.1, fun k => - X.2.1 k, X.2.2) (by
    rw [hY]
    exact (verlet_reverse_iter dt acc n X hb).symm)
  refine ⟨(S, T'), ?_, _, _, _, i3.u, i3.v, i3.a, k3.u, k3.v, k3.a⟩
  simp only [h1, i1, j1, Motion.reverse, w1, Res.ok_bind]
  change (D.run dt material fext υ'' n { T with v := v' } >>= fun T => pure (S, T)) = _
  rw [k1]
  rfl

/-- work of the assembled internal force of a symmetric stress -/
theorem DynamicsAxi.State.work {D : DynamicsAxi α} {pi s : α} (h : D.State nn ne c d x pi s) {S : Nat → Nat → Nat → Nat → α}
    (hS : ∀ e q, e < ne → q < 4 → ∀ i j, i < 3 → j < 3 → S e q i j = S e q j i) (w : Nat → α) :
    ∑ k ∈ range D.vector.ndof, forceOfA ne c d (dynB s x c) (dynVolA pi s x c) S k * w k =
      ∑ e ∈ range ne, ∑ q ∈ range 4, power 3 (S e q) (strainOfA (dynB s x c) c (fun m i => w (d m i)) e q) * dynVolA pi s x c e q := by
  obtain ⟨e1, e2, e3, e4⟩ := h.dims
  have := dual_sum h.vec (fun e m i => ∑ q ∈ range 4, (∑ a ∈ range 5, if Axi.dof a = i then dynB s x c a e q m * S e q (Axi.ci a) (Axi.cj a) else 0) * dynVolA pi s x c e q) w
  rw [e1, e2, e4] at this
  refine this.trans (sum_congr rfl fun e he => ?_)
  refine (Axi.virtual_workA (nip := 4) (b := dynB s x c) (S := S) (V := dynVolA pi s x c) (U := fun e m i => w (d (c e m) i)) e).trans ?_
  refine sum_congr rfl fun q hq => ?_
  congr 1
  have h' := hS e q (mem_range.1 he) (mem_range.1 hq)
  have e10 := h' 1 0 (by omega) (by omega)
  have e20 := h' 2 0 (by omega) (by omega)
  have e21 := h' 2 1 (by omega) (by omega)
  simp only [power, strainOfA, Axi.sym3, sum_range_succ, sum_range_zero]
  norm_num
  rw [e10, e20, e21]
  ring

/-- acceleration of a linear elastic body without load -/
def accelA (ne : Nat) (c d : Nat → Nat → Nat) (pi s : α) (x : Nat → Nat → α) (R : Nat → Nat → α) (C : Nat → Nat → Nat → Nat → Nat → Nat → α)
    (U : Nat → Nat → α) (k : Nat) : α :=
  (0 - forceOfA ne c d (dynB s x c) (dynVolA pi s x c) (fun e q => ddot 3 (C e q) (strainOfA (dynB s x c) c U e q)) k) / lumpedA pi x ne c d R k

/-- mass times acceleration -/
theorem accel_newtonA (hM : RingMesh nn ne c x) {pi s : α} {R : Nat → Nat → α} {C : Nat → Nat → Nat → Nat → Nat → Nat → α}
    (hpos : ∀ m i, m < nn → i < 2 → lumpedA pi x ne c d R (d m i) ≠ 0) (U : Nat → Nat → α) (k : Nat) :
    lumpedA pi x ne c d R k * accelA ne c d pi s x R C U k = - forceOfA ne c d (dynB s x c) (dynVolA pi s x c)
      (fun e q => ddot 3 (C e q) (strainOfA (dynB s x c) c U e q)) k := by
  rw [accelA]
  by_cases hk : ∃ m i, m < nn ∧ i < 2 ∧ d m i = k
  · obtain ⟨m, i, hm, hi, rfl⟩ := hk
    rw [mul_div_cancel₀ _ (hpos m i hm hi), zero_sub]
  · have z : ∀ F : Nat → Nat → Nat → α, ∑ e ∈ range ne, ∑ m ∈ range 4, ∑ i ∈ range 2, (if d (c e m) i = k then F e m i else 0) = 0 := by
      intro F
      refine sum_eq_zero fun e he => sum_eq_zero fun m hm => sum_eq_zero fun i hi => ?_
      rw [mem_range] at he hm hi
      exact if_neg fun e' => hk ⟨_, _, hM.valid e m he hm, hi, e'⟩
    rw [lumpedA, z, forceOfA, z]
    simp

/-- the energy that velocity Verlet conserves -/
def verletEnergyA (n ne : Nat) (c d : Nat → Nat → Nat) (pi s : α) (x : Nat → Nat → α) (R : Nat → Nat → α) (C : Nat → Nat → Nat → Nat → Nat → Nat → α)
    (dt : α) (X : (Nat → Nat → α) × (Nat → α) × (Nat → α)) : α :=
  1 / 2 * ∑ k ∈ range n, lumpedA pi x ne c d R k * X.2.1 k ^ 2 +
    1 / 2 * elasticWorkAxi ne (dynVolA pi s x c) C (strainOfA (dynB s x c) c X.1) -
    dt ^ 2 / 8 * ∑ k ∈ range n, lumpedA pi x ne c d R k * X.2.2 k ^ 2

/-- energy over any number of increments -/
theorem DynamicsAxi.State.energy {D : DynamicsAxi α} {pi s : α} (h2 : D.State nn ne c d x pi s) (hM : RingMesh nn ne c x) {R : Nat → Nat → α}
    (hpos : ∀ m i, m < nn → i < 2 → lumpedA pi x ne c d R (d m i) ≠ 0) (dt : α) {C : Nat → Nat → Nat → Nat → Nat → Nat → α}
    (major : ∀ e q i j k l, e < ne → q < 4 → i < 3 → j < 3 → k < 3 → l < 3 → C e q i j k l = C e q k l i j)
    (left : ∀ e q i j k l, e < ne → q < 4 → i < 3 → j < 3 → k < 3 → l < 3 → C e q i j k l = C e q j i k l) (n : Nat) (X)
    (hX : X.2.2 = accelA ne c d pi s x R C X.1) :
    verletEnergyA D.vector.ndof ne c d pi s x R C dt ((verlet d dt (accelA ne c d pi s x R C))^[n] X) = verletEnergyA D.vector.ndof ne c d pi s x R C dt X := by
  obtain ⟨acc, hacc⟩ : ∃ acc, acc = accelA ne c d pi s x R C := ⟨_, rfl⟩
  rw [← hacc] at hX ⊢
  have newton : ∀ U k, lumpedA pi x ne c d R k * acc U k = - forceOfA ne c d (dynB s x c) (dynVolA pi s x c)
      (fun e q => ddot 3 (C e q) (strainOfA (dynB s x c) c U e q)) k := by
    rw [hacc]; exact accel_newtonA hM hpos
  have sym : ∀ e q, e < ne → q < 4 → ∀ i j k l, i < 3 → j < 3 → k < 3 → l < 3 → C e q i j k l = C e q l k j i := by
    intro e q he hq i j k l hi hj hk hl
    rw [major e q i j k l he hq hi hj hk hl, left e q k l i j he hq hk hl hi hj, major e q l k i j he hq hl hk hi hj,
      left e q i j l k he hq hi hj hl hk, major e q j i l k he hq hj hi hl hk]
  have ssym : ∀ E : Nat → Nat → Nat → Nat → α, ∀ e q, e < ne → q < 4 → ∀ i j, i < 3 → j < 3 → ddot 3 (C e q) (E e q) i j = ddot 3 (C e q) (E e q) j i := by
    intro E e q he hq i j hi hj
    simp only [ddot]
    refine sum_congr rfl fun k hk => sum_congr rfl fun l hl => ?_
    rw [left e q i j k l he hq hi hj (mem_range.1 hk) (mem_range.1 hl)]
  obtain ⟨H, hH, hH'⟩ : ∃ H : (Nat → Nat → α) × (Nat → α) × (Nat → α) → α, (∀ X, H X = 1 / 2 * ∑ k ∈ range D.vector.ndof, lumpedA pi x ne c d R k * X.2.1 k ^ 2 +
    1 / 2 * elasticWorkAxi ne (dynVolA pi s x c) C (strainOfA (dynB s x c) c X.1) -
    dt ^ 2 / 8 * ∑ k ∈ range D.vector.ndof, lumpedA pi x ne c d R k * X.2.2 k ^ 2) ∧
    verletEnergyA D.vector.ndof ne c d pi s x R C dt = H := ⟨_, fun _ => rfl, rfl⟩
  -- one increment
  have one : ∀ X, X.2.2 = acc X.1 → H (verlet d dt acc X) = H X := by
    intro X hX
    obtain ⟨w, hw⟩ : ∃ w : Nat → α, ∀ k, w k = dt * X.2.1 k + 1 / 2 * dt ^ 2 * X.2.2 k := ⟨_, fun _ => rfl⟩
    obtain ⟨U', hU'⟩ : ∃ U', U' = (verlet d dt acc X).1 := ⟨_, rfl⟩
    have eU : ∀ m i, U' m i = X.1 m i + w (d m i) := fun m i => by rw [hU', hw]; simp only [verlet]; ring
    have eS : ∀ e q, strainOfA (dynB s x c) c U' e q = fun i j => strainOfA (dynB s x c) c X.1 e q i j +
        strainOfA (dynB s x c) c (fun m i => w (d m i)) e q i j := by
      intro e q
      funext i j
      have eg : ∀ i j, Axi.gA (dynB s x c) (fun e m i => U' (c e m) i) e q i j = Axi.gA (dynB s x c) (fun e m i => X.1 (c e m) i) e q i j +
          Axi.gA (dynB s x c) (fun e m i => w (d (c e m) i)) e q i j := by
        intro i j
        simp only [Axi.gA, Axi.ga, eU, mul_add, sum_add_distrib]
        rw [← sum_add_distrib]
        refine sum_congr rfl fun a _ => ?_
        split <;> simp
      simp only [strainOfA, Axi.sym3, eg]
      split <;> ring
    have w1 := h2.work (ssym (strainOfA (dynB s x c) c X.1)) w
    have w2 := h2.work (ssym (strainOfA (dynB s x c) c U')) w
    have el : elasticWorkAxi ne (dynVolA pi s x c) C (strainOfA (dynB s x c) c U') = elasticWorkAxi ne (dynVolA pi s x c) C (strainOfA (dynB s x c) c X.1) +
        (∑ k ∈ range D.vector.ndof, forceOfA ne c d (dynB s x c) (dynVolA pi s x c)
          (fun e q => ddot 3 (C e q) (strainOfA (dynB s x c) c X.1 e q)) k * w k +
        ∑ k ∈ range D.vector.ndof, forceOfA ne c d (dynB s x c) (dynVolA pi s x c)
          (fun e q => ddot 3 (C e q) (strainOfA (dynB s x c) c U' e q)) k * w k) := by
      rw [w1, w2, elasticWorkAxi, elasticWorkAxi, ← sum_add_distrib, ← sum_add_distrib]
      refine sum_congr rfl fun e he => ?_
      rw [← sum_add_distrib, ← sum_add_distrib]
      refine sum_congr rfl fun q hq => ?_
      rw [eS e q, power3_add_right, power3_add, power3_add,
        power3_comm (sym e q (mem_range.1 he) (mem_range.1 hq)) (strainOfA (dynB s x c) c (fun m i => w (d m i)) e q) (strainOfA (dynB s x c) c X.1 e q)]
      ring
    have el2 : elasticWorkAxi ne (dynVolA pi s x c) C (strainOfA (dynB s x c) c U') = elasticWorkAxi ne (dynVolA pi s x c) C (strainOfA (dynB s x c) c X.1) -
        ∑ k ∈ range D.vector.ndof, lumpedA pi x ne c d R k * (X.2.2 k + acc U' k) * w k := by
      rw [el, ← sum_add_distrib, sub_eq_add_neg, ← sum_neg_distrib]
      congr 1
      refine sum_congr rfl fun k _ => ?_
      have a1 := newton X.1 k
      have a2 := newton U' k
      rw [hX]
      linear_combination w k * a1 + w k * a2
    rw [hH, hH, ← hU', el2]
    have e1 : ∀ k, (verlet d dt acc X).2.1 k = X.2.1 k + 1 / 2 * dt * (X.2.2 k + acc U' k) := fun k => by rw [hU']; rfl
    have e2 : ∀ k, (verlet d dt acc X).2.2 k = acc U' k := fun k => by rw [hU']; rfl
    simp only [e1, e2]
    have key : ∑ k ∈ range D.vector.ndof, (1 / 2 * (lumpedA pi x ne c d R k * (X.2.1 k + 1 / 2 * dt * (X.2.2 k + acc U' k)) ^ 2) -
        1 / 2 * (lumpedA pi x ne c d R k * X.2.1 k ^ 2) - 1 / 2 * (lumpedA pi x ne c d R k * (X.2.2 k + acc U' k) * w k) -
        dt ^ 2 / 8 * (lumpedA pi x ne c d R k * acc U' k ^ 2) + dt ^ 2 / 8 * (lumpedA pi x ne c d R k * X.2.2 k ^ 2)) = 0 := by
      refine sum_eq_zero fun k _ => ?_
      rw [hw]
      ring
    simp only [sum_add_distrib, sum_sub_distrib, ← mul_sum] at key
    linear_combination key
  have iter : ∀ n X, X.2.2 = acc X.1 → H ((verlet d dt acc)^[n] X) = H X := by
    intro n
    induction n with
    | zero => exact fun _ _ => rfl
    | succ n ih =>
      intro X hX
      rw [Function.iterate_succ_apply, ih _ rfl, one X hX]
  rw [hH']
  exact iter n X hX

/-- **C120** (energy) for a linear elastic material and no load, the kinetic plus the elastic energy minus
`dt² / 8 Σ mass a²` has the same value after every increment: the energy has no drift -/
theorem C120_energy (hM : RingMesh nn ne c x) (s : α) {pi : α} (hpi : 0 < pi) (σ : Nat → Sched)
    (υ : Nat → Nat → Sched) {conn dofs : Ten Nat} {coor rho : Ten α} (hc : Is2 conn ne 4 c) (hx : Is2 coor nn 2 x) (hd : Is2 dofs nn 2 d)
    {R : Nat → Nat → α} (hr : Is2 rho ne 4 R) (hR : ∀ e q, e < ne → q < 4 → 0 < R e q) (off : ∀ m, m < nn → 0 < x m 1) (dt : α) {material : List (Ten α) → Res (Ten α)} {C}
    (hm : HistoryFreeAxi ne material fun E e q => ddot 3 (C e q) (E e q))
    (major : ∀ e q i j k l, e < ne → q < 4 → i < 3 → j < 3 → k < 3 → l < 3 → C e q i j k l = C e q k l i j)
    (left : ∀ e q i j k l, e < ne → q < 4 → i < 3 → j < 3 → k < 3 → l < 3 → C e q i j k l = C e q j i k l)
    {u v a fext : Ten α} {U : Nat → Nat → α} {V A : Nat → α} (hu : Is2 u nn 2 U) (hv : Is2 v nn 2 fun m i => V (d m i))
    (ha : Is2 a nn 2 fun m i => A (d m i)) (hf : Is2 fext nn 2 fun _ _ => 0) (n : Nat) (ρ τ : Sched) :
    IsOk (do
      let (D, M) ← DynamicsAxi.new s pi σ conn dofs coor rho
      let S ← D.run dt material fext υ 1 ⟨u, v, a, M, []⟩
      let E ← D.strain ρ τ S.u
      let S' ← D.run dt material fext υ (n + 1) ⟨u, v, a, M, []⟩
      let E' ← D.strain ρ τ S'.u
      return (D, M, S, E, S', E')) fun (D, M, S, E, S', E') => ∃ (N : Nat) (mass : Nat → α) (vol : Nat → Nat → α), NumDofs nn d N ∧ Is1 M.A N mass ∧ Is2 D.quad.vol ne 4 vol ∧
        ∃ (V₁ A₁ : Nat → α) (E₁ : Nat → Nat → Nat → Nat → α) (V₂ A₂ : Nat → α) (E₂ : Nat → Nat → Nat → Nat → α), Is2 S.v nn 2 (fun m i => V₁ (d m i)) ∧ Is2 S.a nn 2 (fun m i => A₁ (d m i)) ∧ Is4 E ne 4 3 3 E₁ ∧
          Is2 S'.v nn 2 (fun m i => V₂ (d m i)) ∧ Is2 S'.a nn 2 (fun m i => A₂ (d m i)) ∧ Is4 E' ne 4 3 3 E₂ ∧
          1 / 2 * ∑ k ∈ range N, mass k * V₂ k ^ 2 + 1 / 2 * elasticWorkAxi ne vol C E₂ - dt ^ 2 / 8 * ∑ k ∈ range N, mass k * A₂ k ^ 2 =
          1 / 2 * ∑ k ∈ range N, mass k * V₁ k ^ 2 + 1 / 2 * elasticWorkAxi ne vol C E₁ - dt ^ 2 / 8 * ∑ k ∈ range N, mass k * A₁ k ^ 2 := by
  obtain ⟨D, M, h1, h2, h3, h4, h5⟩ := dynamics_newA hM s pi σ hc hx hd hr
  have hA := h4.A _ rfl
  rw [h3] at hA
  obtain ⟨t, g1, N, mass, J, g2, g3, -, g4, -⟩ := C120_mass hM s hpi σ hc hx hd hr
  obtain rfl : (D, M) = t := by rw [h1] at g1; injection g1
  have hN : N = D.vector.ndof := by
    have := g3.1.symm.trans hA.1
    simpa using this
  subst hN
  have hpos : ∀ m i, m < nn → i < 2 → lumpedA pi x ne c d R (d m i) ≠ 0 := fun m i hm hi => by
    rw [← g3.unique hA (g2.1 m i hm hi)]
    exact (g4 hR m i hm hi (off m hm)).ne'
  have hf' : Is2 fext nn 2 fun m i => (fun _ : Nat => (0 : α)) (d m i) := hf
  obtain ⟨S, i1, i2⟩ := h2.run_ok (B := fun _ => 0) dt hm hf υ 1 (S := ⟨u, v, a, M, []⟩) (X := (U, V, A)) ⟨hu, hv, ha, h4, h3, by simp⟩
  obtain ⟨S', j1, j2⟩ := h2.run_ok (B := fun _ => 0) dt hm hf υ (n + 1) (S := ⟨u, v, a, M, []⟩) (X := (U, V, A)) ⟨hu, hv, ha, h4, h3, by simp⟩
  have i3 := i2 _ rfl
  have j3 := j2 _ rfl
  rw [Function.iterate_one] at i3
  rw [Function.iterate_succ_apply] at j3
  obtain ⟨E, k1, k2⟩ := h2.strain_ok ρ τ i3.u
  obtain ⟨E', l1, l2⟩ := h2.strain_ok ρ τ j3.u
  refine ⟨(D, M, S, E, S', E'), by simp only [h1, i1, k1, j1, l1, Res.ok_bind]; rfl, _, _, _, h5, hA, h2.volume, _, _, _, _, _, _, i3.v, i3.a, k2,
    j3.v, j3.a, l2, ?_⟩
  exact h2.energy hM hpos dt major left n (verlet d dt (accelA ne c d pi s x R C) (U, V, A)) rfl

/-! ### The meshes of the library -/

/-- a mesh of a rectangle, at distance `R` from the axis -/
theorem RectMesh.ringMesh {Lx Ly : α} {O : Outline} (hM : RectMesh nn ne c x Lx Ly O) (lx : 0 < Lx) (ly : 0 < Ly) {R : α} (hR : 0 ≤ R) :
    RingMesh nn ne c (ringPos R x) := by
  refine ⟨hM.nodes, hM.valid, hM.used lx ly, fun e m he _ => ?_, fun m hm => ?_⟩
  · have hb : ∀ i, -1 ≤ corner4 (α := α) m i ∧ corner4 (α := α) m i ≤ 1 := by
      intro i
      have : corner4 (α := α) m i = 1 ∨ corner4 (α := α) m i = -1 := by unfold corner4; split <;> simp
      rcases this with h | h <;> rw [h] <;> constructor <;> linarith
    exact det_pos (ring_convex hM R he) (hb 0).1 (hb 0).2 (hb 1).1 (hb 1).2
  · rw [ringPos_one]
    have := (hM.inside m hm).2.2.1
    linarith

omit [LinearOrder α] [IsStrictOrderedRing α] in
/-- the nodal rule is exact for the first moment of a parallelogram -/
theorem nodal_moment [CharZero α] {X : Nat → Nat → α} (h : ∀ i, i < 2 → X 2 i = X 1 i + X 3 i - X 0 i) :
    ∑ q ∈ range 4, X q 1 * det4 X (corner4 q 0) (corner4 q 1) = Axi.moment4 X := by
  have h0 := h 0 (by omega)
  have h1 := h 1 (by omega)
  simp only [sum_range_succ, sum_range_zero, zero_add, det4, (jac4_form _ _ _ _).1, (jac4_form _ _ _ _).2, Axi.moment4, corner4]
  rw [h0, h1]
  norm_num
  ring

/-- **C120** (total mass) on a mesh of parallelograms of a rectangle, with a uniform density `ρ₀`, the lumped masses of each
component add up to `ρ₀` times the volume of the hollow cylinder (the solid cylinder if `R = 0`) -/
theorem C120_total {Lx Ly : α} {O : Outline} (hM : RectMesh nn ne c x Lx Ly O) (lx : 0 < Lx) (ly : 0 < Ly)
    (hp : ∀ e i, e < ne → i < 2 → x (c e 2) i = x (c e 1) i + x (c e 3) i - x (c e 0) i) {r : α} (hr0 : 0 ≤ r)
    (s : α) {pi : α} (hpi : 0 < pi) (σ : Nat → Sched) {conn dofs : Ten Nat}
    {coor rho : Ten α} (hc : Is2 conn ne 4 c) (hx : Is2 coor nn 2 (ringPos r x)) (hd : Is2 dofs nn 2 d) {ρ₀ : α} (hr : Is2 rho ne 4 fun _ _ => ρ₀)
    (hsep : ∀ m m', m < nn → m' < nn → d m 0 ≠ d m' 1) :
    IsOk (DynamicsAxi.new s pi σ conn dofs coor rho) fun t => ∃ (n : Nat) (mass : Nat → α), NumDofs nn d n ∧ Is1 t.2.A n mass ∧
      ∀ i, i < 2 → ∑ k ∈ compDofs nn d i, mass k = ρ₀ * (pi * ((r + Ly) ^ 2 - r ^ 2) * Lx) := by
  obtain ⟨t, t1, n, mass, J, t2, t3, t4, -, -, t5⟩ := C120_mass (hM.ringMesh lx ly hr0) s hpi σ hc hx hd hr
  refine ⟨t, t1, n, mass, t2, t3, fun i hi => ?_⟩
  rw [t5 hsep i hi, mul_assoc pi, ← ring_moment hM r, mul_left_comm pi, mul_sum, mul_sum, mul_sum]
  refine sum_congr rfl fun e he => ?_
  rw [mem_range] at he
  rw [← nodal_moment (X := fun m i => ringPos r x (c e m) i) fun i hi => by
    have := hp e i he hi
    beta_reduce
    obtain rfl | rfl : i = 0 ∨ i = 1 := by omega
    · exact this
    · simp only [ringPos_one, this]; ring]
  simp only [mul_sum]
  refine sum_congr rfl fun q hq => ?_
  rw [(t4 e q he (mem_range.1 hq)).1]
  ring

/-- **C120** (Quad4 `Regular`) a free hollow cylinder (`0 < R`) of uniform density: all lumped masses are positive, their sum is the
mass of the cylinder for each component, and the axial momentum is conserved, for any material and any number of increments -/
theorem C120_quad4_regular {nelx nely : Nat} (px : 0 < nelx) (py : 0 < nely) {h : α} (hh : 0 < h) {r : α} (hr0 : 0 < r) (s : α) {pi : α} (hpi : 0 < pi)
    (σ : Nat → Sched) (υ : Nat → Nat → Sched) {rho : Ten α} {ρ₀ : α} (hρ : 0 < ρ₀) (hr : Is2 rho (nelx * nely) 4 fun _ _ => ρ₀) (dt : α)
    {material : List (Ten α) → Res (Ten α)} (hm : RespondsAxi (nelx * nely) material) {u v a fext : Ten α} {U V : Nat → Nat → α}
    (hu : Is2 u ((nelx + 1) * (nely + 1)) 2 U) (hv : Is2 v ((nelx + 1) * (nely + 1)) 2 V)
    (ha : Is2 a ((nelx + 1) * (nely + 1)) 2 fun _ _ => 0) (hf : Is2 fext ((nelx + 1) * (nely + 1)) 2 fun _ _ => 0) (n : Nat) :
    IsOk (do
      let conn ← Quad4.Regular.conn (Quad4.Regular.new nelx nely h)
      let coor ← (Quad4.Regular.new nelx nely h).coor
      let (D, M) ← DynamicsAxi.new s pi σ conn (meshDofs ((nelx + 1) * (nely + 1)) 2) (addRadius r coor) rho
      let S ← D.run dt material fext υ n ⟨u, v, a, M, []⟩
      return (M, S)) fun (M, S) => ∃ (mass : Nat → α) (Vn : Nat → Nat → α),
        Is1 M.A ((nelx + 1) * (nely + 1) * 2) mass ∧ Is2 S.v ((nelx + 1) * (nely + 1)) 2 Vn ∧
        (∀ k, k < (nelx + 1) * (nely + 1) * 2 → 0 < mass k) ∧
        (∀ i, i < 2 → ∑ m ∈ range ((nelx + 1) * (nely + 1)), mass (m * 2 + i) = ρ₀ * (pi * ((r + h * (nely : α)) ^ 2 - r ^ 2) * (h * (nelx : α)))) ∧
        ∑ m ∈ range ((nelx + 1) * (nely + 1)), mass (m * 2) * Vn m 0 = ∑ m ∈ range ((nelx + 1) * (nely + 1)), mass (m * 2) * V m 0 := by
  obtain ⟨cn, a1, a2⟩ := (Quad4.Regular.sides nelx nely h).1
  obtain ⟨xt, b1, b2⟩ := (Quad4.Regular.new nelx nely h).coor_spec rfl rfl
  have hM : RectMesh ((nelx + 1) * (nely + 1)) (nelx * nely) (gridQuad nelx) (gridCoor h nelx)
      (h * (nelx : α)) (h * (nely : α)) (gridOutline nelx nely) := regular_rect nelx nely hh
  have lx : 0 < h * (nelx : α) := mul_pos hh (by exact_mod_cast px)
  have ly : 0 < h * (nely : α) := mul_pos hh (by exact_mod_cast py)
  obtain ⟨nn, hnn⟩ : ∃ nn, nn = (nelx + 1) * (nely + 1) := ⟨_, rfl⟩
  have b3 : Is2 xt ((nelx + 1) * (nely + 1)) 2 (gridCoor h nelx) := b2
  rw [← hnn] at hu hv ha hf hM b3 ⊢
  have hd := meshDofs_ok nn
  have hsep : ∀ m m', m < nn → m' < nn → (fun m i : Nat => m * 2 + i) m 0 ≠ (fun m i : Nat => m * 2 + i) m' 1 := by
    intro m m' _ _ e
    dsimp only at e
    omega
  have hRM := hM.ringMesh lx ly hr0.le
  have off : ∀ m, m < nn → 0 < ringPos r (gridCoor h nelx) m 1 := fun m hm => by
    rw [ringPos_one]
    have := (hM.inside m hm).2.2.1
    linarith
  have hR : ∀ e q, e < nelx * nely → q < 4 → 0 < (fun _ _ : Nat => ρ₀) e q := fun _ _ _ _ => hρ
  have hsq := regular_squares nelx nely (h := h)
  have hv' : Is2 v nn 2 fun m i => (fun k : Nat => V (k / 2) (k % 2)) (m * 2 + i) := hv.congr fun m i hm hi => by
    beta_reduce
    rw [show (m * 2 + i) / 2 = m by omega, show (m * 2 + i) % 2 = i by omega]
  have hx := addRadius_ok (R := r) b3
  obtain ⟨t, g1, N, mass, J, g2, g3, -, g4, -, -⟩ := C120_mass hRM s hpi σ a2 hx hd hr
  obtain ⟨t', g1', N', mass', g2', g3', g5⟩ := C120_total hM lx ly (fun e i he hi => by
    obtain ⟨q1, q2, q3, q4, q5, q6⟩ := hsq e he
    obtain rfl | rfl : i = 0 ∨ i = 1 := by omega
    · rw [q1, q3, q5]; ring
    · rw [q2, q4, q6]; ring) hr0.le s hpi σ a2 hx hd hr hsep
  obtain rfl : t = t' := by rw [g1] at g1'; injection g1'
  obtain ⟨⟨M, S⟩, k1, N'', mass'', k2, k3, -, W, Vn, An, -, k5, -, k6⟩ := C120_momentum (V := fun k => V (k / 2) (k % 2)) (A := fun _ => 0) (B := fun _ => 0)
    hRM s hpi σ υ a2 hx hd hr hR off dt hm hu hv' ha hf n
  obtain ⟨D, M'⟩ := t
  have k1' := k1
  rw [g1, Res.ok_bind] at k1'
  obtain rfl : M' = M := by
    dsimp only at k1'
    cases hh : D.run dt material fext υ n ⟨u, v, a, M', []⟩ with
    | ok S' =>
      rw [hh, Res.ok_bind] at k1'
      have k1'' : Res.ok (M', S') = Res.ok (M, S) := k1'
      injection k1'' with k1''
      exact (Prod.mk.inj k1'').1
    | _ => rw [hh] at k1'; cases k1'
  have eN : N = N' := by simpa using g3.1.symm.trans g3'.1
  have eN' : N = N'' := by simpa using g3.1.symm.trans k3.1
  subst eN eN'
  have hN : N = nn * 2 := by
    obtain ⟨z, m, i, hm, hi, e⟩ := g2
    have := z (nn - 1) 1 (by omega) (by omega)
    dsimp only at this e
    omega
  have comp : ∀ (F : Nat → α) i, i < 2 → ∑ k ∈ compDofs nn (fun m i => m * 2 + i) i, F k = ∑ m ∈ range nn, F (m * 2 + i) := fun F i _ => by
    rw [compDofs, sum_image fun m _ m' _ e => by omega]
  refine ⟨(M', S), ?_, mass, _, by rw [← hN]; exact g3, k5, fun k hk => ?_, fun i hi => ?_, ?_⟩
  · rw [a1, Res.ok_bind, b1, Res.ok_bind]
    exact k1
  · have := g4 hR (k / 2) (k % 2) (by omega) (by omega) (off _ (by omega))
    rwa [show k / 2 * 2 + k % 2 = k by omega] at this
  · rw [← g5 i hi, comp _ i hi]
    exact sum_congr rfl fun m hm => by
      rw [mem_range] at hm
      exact g3.unique g3' (by omega)
  · have := k6 hsep (by simp)
    rw [comp _ 0 (by omega), comp _ 0 (by omega)] at this
    simp only [add_zero, sum_const_zero, mul_zero] at this
    have e : ∀ m, m < nn → mass'' (m * 2) = mass (m * 2) := fun m hm => (g3.unique k3 (by omega)).symm
    refine Eq.trans (sum_congr rfl fun m hm => ?_) (this.trans (sum_congr rfl fun m hm => ?_))
    · rw [e m (mem_range.1 hm)]; rfl
    · rw [e m (mem_range.1 hm), show m * 2 / 2 = m by omega, show m * 2 % 2 = 0 by omega]

/-- **C120** (Quad4 `Regular`, solid cylinder) on the axis (`R = 0`) the lumped mass is zero: the nodes `0, .., nelx` have no inertia,
and the program divides by zero when it solves for their acceleration -/
theorem C120_axis {nelx nely : Nat} (px : 0 < nelx) (py : 0 < nely) {h : α} (hh : 0 < h) (s : α) {pi : α} (hpi : 0 < pi)
    (σ : Nat → Sched) {rho : Ten α} {R : Nat → Nat → α} (hr : Is2 rho (nelx * nely) 4 R) (hR : ∀ e q, e < nelx * nely → q < 4 → 0 < R e q) :
    IsOk (do
      let conn ← Quad4.Regular.conn (Quad4.Regular.new nelx nely h)
      let coor ← (Quad4.Regular.new nelx nely h).coor
      DynamicsAxi.new s pi σ conn (meshDofs ((nelx + 1) * (nely + 1)) 2) coor rho) fun t => ∃ (mass : Nat → α),
        Is1 t.2.A ((nelx + 1) * (nely + 1) * 2) mass ∧
        ∀ m i, m < (nelx + 1) * (nely + 1) → i < 2 → (m ≤ nelx → mass (m * 2 + i) = 0) ∧ (nelx < m → 0 < mass (m * 2 + i)) := by
  obtain ⟨cn, a1, a2⟩ := (Quad4.Regular.sides nelx nely h).1
  obtain ⟨xt, b1, b2⟩ := (Quad4.Regular.new nelx nely h).coor_spec rfl rfl
  have hM : RectMesh ((nelx + 1) * (nely + 1)) (nelx * nely) (gridQuad nelx) (gridCoor h nelx)
      (h * (nelx : α)) (h * (nely : α)) (gridOutline nelx nely) := regular_rect nelx nely hh
  have lx : 0 < h * (nelx : α) := mul_pos hh (by exact_mod_cast px)
  have ly : 0 < h * (nely : α) := mul_pos hh (by exact_mod_cast py)
  have b3 : Is2 xt ((nelx + 1) * (nely + 1)) 2 (gridCoor h nelx) := b2
  obtain ⟨nn, hnn⟩ : ∃ nn, nn = (nelx + 1) * (nely + 1) := ⟨_, rfl⟩
  have hy : ∀ m, gridCoor h nelx m 1 = h * ((m / (nelx + 1) : Nat) : α) := fun m => by
    have := (gridCoor_node h (nelx := nelx) (i := m / (nelx + 1)) (j := m % (nelx + 1)) (Nat.mod_lt _ (by omega))).2
    rwa [Nat.div_add_mod'] at this
  rw [← hnn] at hM b3 ⊢
  have hd := meshDofs_ok nn
  have hRM := hM.ringMesh lx ly (le_refl 0)
  have hx : Is2 xt nn 2 (ringPos 0 (gridCoor h nelx)) := b3.congr fun m i _ hi => by
    obtain rfl | rfl : i = 0 ∨ i = 1 := by omega
    · rfl
    · rw [ringPos_one, zero_add]
  obtain ⟨t, g1, N, mass, J, g2, g3, -, g4, g5, -⟩ := C120_mass hRM s hpi σ a2 hx hd hr
  have hN : N = nn * 2 := by
    obtain ⟨z, m, i, hm, hi, e⟩ := g2
    have p : 0 < nn := hM.nodes
    have := z (nn - 1) 1 (by omega) (by omega)
    dsimp only at this e
    omega
  refine ⟨t, by rw [a1, Res.ok_bind, b1, Res.ok_bind]; exact g1, mass, by rw [← hN]; exact g3, fun m i hm hi => ⟨fun hm0 => ?_, fun hm0 => ?_⟩⟩
  · refine g5 _ (by omega) fun m' i' hm' hi' e => ?_
    obtain rfl : m' = m := by omega
    rw [ringPos_one, zero_add, hy, Nat.div_eq_of_lt (by omega)]
    simp
  · refine g4 hR m i hm hi ?_
    rw [ringPos_one, zero_add, hy]
    exact mul_pos hh (by exact_mod_cast Nat.div_pos (by omega) (by omega))

/-- a linear elastic material without memory -/
theorem linear_materialA (ne : Nat) (C : Nat → Nat → Nat → Nat → Nat → Nat → α) :
    ∃ material : List (Ten α) → Res (Ten α), HistoryFreeAxi ne material fun E e q => ddot 3 (C e q) (E e q) := by
  refine ⟨fun l => match l with
    | [] => .ub
    | t :: _ => .ok (Ten.of [ne, 4, 3, 3] fun i => match i with
      | [e, q, i, j] => ∑ k ∈ range 3, ∑ l ∈ range 3, C e q i j k l * (t.v [e, q, l, k]).getD 0
      | _ => 0), ?_⟩
  intro t l E hE
  refine ⟨_, rfl, rfl, fun e q i j he hq hi hj => congrArg some ?_⟩
  refine sum_congr rfl fun k hk => sum_congr rfl fun l hl => ?_
  rw [hE.2 e q l k he hq (mem_range.1 hl) (mem_range.1 hk)]
  rfl

/-- the hypotheses can be met: a hollow cylinder of 3 x 2 elements with an isotropic material, released for 100 increments -/
example : ∃ (material : List (Ten ℚ) → Res (Ten ℚ)) (u v a rho : Ten ℚ),
    HistoryFreeAxi 6 material (fun E e q => ddot 3 (isotropic (1 : ℚ) 1) (E e q)) ∧ IsOk (do
      let conn ← Quad4.Regular.conn (Quad4.Regular.new 3 2 (1 : ℚ))
      let coor ← (Quad4.Regular.new 3 2 (1 : ℚ)).coor
      let (D, M) ← DynamicsAxi.new (1 / 2) 3 (fun _ => Sched.seq) conn (meshDofs 12 2) (addRadius 1 coor) rho
      let S ← D.run (1 / 10) material a (fun _ _ => Sched.seq) 100 ⟨u, v, a, M, []⟩
      return (M, S)) fun (M, _) => ∃ mass : Nat → ℚ, Is1 M.A 24 mass ∧ ∑ m ∈ range 12, mass (m * 2) = 72 := by
  obtain ⟨mat, hm⟩ := linear_materialA 6 fun _ _ => isotropic (1 : ℚ) 1
  have resp : RespondsAxi 6 mat := by
    intro l hl hE
    cases l with
    | nil => exact absurd rfl hl
    | cons t l =>
      obtain ⟨E, h1⟩ := hE t (by simp)
      obtain ⟨s, h2, h3⟩ := hm t l E h1
      exact ⟨s, h2, _, h3⟩
  obtain ⟨t, t1, mass, Vn, t2, -, -, t3, -⟩ := C120_quad4_regular (nelx := 3) (nely := 2) (by omega) (by omega) (h := (1 : ℚ)) (by norm_num) (r := 1) (by norm_num)
    (1 / 2) (pi := 3) (by norm_num) (fun _ => Sched.seq) (fun _ _ => Sched.seq) (ρ₀ := 1) (by norm_num) (is2_of 6 4 fun _ => (1 : ℚ)) (1 / 10) resp
    (is2_of 12 2 fun i => match i with | [m, i] => ((m * m + i : Nat) : ℚ) | _ => 0) (is2_of 12 2 fun i => match i with | [m, _] => (m : ℚ) | _ => 0)
    (is2_of 12 2 fun _ => (0 : ℚ)) (is2_of 12 2 fun _ => (0 : ℚ)) 100
  refine ⟨mat, _, _, _, _, hm, t, t1, mass, t2, (t3 0 (by omega)).trans ?_⟩
  norm_num

end GF
