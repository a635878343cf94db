import Verif.Lemmas.Dynamics3
import Verif.Props.Dynamics
import Verif.Props.Box
import Verif.Lemmas.Cell3
import Verif.Props.MeshHex8

/-! **C118** the time integration of docs/examples/dynamics on three-dimensional meshes: lumped mass, momentum, reversibility, and
energy, on any mesh of hexahedra with positive Jacobian determinants at the corners (also if they are not boxes). -/

namespace GF
open Finset ElemSpec Element Element.Hex8 Element.Quad4

variable {α : Type} [Field α] [LinearOrder α] [IsStrictOrderedRing α]
variable {nn ne : Nat} {c d : Nat → Nat → Nat} {x : Nat → Nat → α}

omit [LinearOrder α] [IsStrictOrderedRing α] in
theorem setup3_vector' {s : α} {σ τ : Sched} {conn dofs : Ten Nat} {coor : Ten α} {V V' : Vector} {Q : Quadrature α}
    (h : setup3 s σ τ conn dofs coor = .ok (V, Q)) (h' : Vector.new conn dofs = .ok V') : V = V' := by
  rw [setup3, h', Res.ok_bind] at h
  cases h1 : V'.AsElement σ coor with
  | ok xe =>
    rw [h1, Res.ok_bind] at h
    cases h2 : Hex8.newGauss s τ xe with
    | ok Q' =>
      rw [h2, Res.ok_bind] at h
      have h3 : Res.ok (V', Q') = Res.ok (V, Q) := h
      injection h3 with h3
      exact (Prod.mk.inj h3).1.symm
    | _ => rw [h2] at h; cases h
  | _ => rw [h1] at h; cases h

/-- what the constructors return -/
theorem dynamics_new3 (hM : HexMesh nn ne c x) (s : α) (σ : Nat → Sched) {conn dofs : Ten Nat} {coor rho : Ten α}
    (hc : Is2 conn ne 8 c) (hx : Is2 coor nn 3 x) (hd : Is2 dofs nn 3 d) {R : Nat → Nat → α} (hr : Is2 rho ne 8 R) :
    ∃ D M, Dynamics.new3 s σ conn dofs coor rho = .ok (D, M) ∧ D.State3 nn ne c d x s ∧ M.V = D.vector ∧
      M.Holds c d (some (lumped3 x ne c d R)) ∧ NumDofs3 nn d D.vector.ndof := by
  obtain ⟨V, Q, h1, hV, e1, e2, e3, e4, hQ⟩ := setup3_ok hM.pos hM.valid s (σ 0) (σ 1) hc hx hd
  obtain ⟨xe, x1, x2⟩ := C03_element_of_node hV (σ 2) (x := coor) (g := x) (by rw [e3, e4]; exact hx)
  rw [e1, e2, e4] at x2
  obtain ⟨xi, r1, r2⟩ := Hex8.nodal_ok (α := α)
  obtain ⟨w, r3, r4⟩ := (Hex8.weights_ok (α := α)).2
  obtain ⟨Q', r5, hQ'⟩ := Hex8.C55_constructor (σ 3) x2 r2 r4
  obtain ⟨t, k4, k, k5, k6⟩ : IsOk (Hex8.Int_N_scalar_NT_dV Q' (σ 4) rho) (fun t => ∃ k, Is3 t ne 24 24 k ∧
      ∀ e m i, e < ne → m < 8 → i < 3 → k e (m * 3 + i) (m * 3 + i) =
        R e m * det8 (fun m i => x (c e m) i) (corner8 m 0) (corner8 m 1) (corner8 m 2)) := by
    obtain ⟨t, h7, k, h8, h9⟩ := Hex8.mass_live hQ' (σ 4) hr (C55_volume hQ')
    refine ⟨t, h7, k, h8, fun e m i he hm hi => ?_⟩
    have hN : ∀ m n, m < 8 → n < 8 → N8 m (1 * corner8 n 0 : α) (1 * corner8 n 1) (1 * corner8 n 2) = if m = n then 1 else 0 := by
      intro m n hm hn
      rw [one_mul, one_mul, one_mul, N8_corner hm hn]
    rw [h9 e m m i i he hm hm hi hi, if_pos rfl, sum_eq_single m]
    · rw [hN m m hm hm, if_pos rfl, one_mul, one_mul, one_mul]; ring
    · intro q hq hne
      rw [hN m q hm (mem_range.1 hq), if_neg (Ne.symm hne)]; ring
    · intro h; exact absurd (mem_range.2 hm) h
  obtain ⟨M, m1, m2, m3⟩ := C23_constructor (α := α) hc hd hM.valid
  obtain rfl : V = M.V := setup3_vector' h1 m2
  obtain ⟨M', a1, a2, a3, a4⟩ := C23_assemble m3 (K := t) (k := k) (by rw [e1, e2, e4]; exact k5)
  refine ⟨⟨M.V, Q⟩, M', ?_, ⟨hV, ⟨e1, e2, e3, e4⟩, hQ⟩, a2, ?_, ?_⟩
  · simp only [Dynamics.new3, h1, x1, r1, r3, r5, m1, k4, a1, Res.ok_bind]
    rfl
  · have : diagAssembled M.V c d k = lumped3 x ne c d R := by
      funext r
      rw [diagAssembled, lumped3, e1, e2, e4]
      refine sum_congr rfl fun e he => sum_congr rfl fun m hm => sum_congr rfl fun i hi => ?_
      rw [mem_range] at he hm hi
      rw [k6 e m i he hm hi]
    rw [← this]
    exact a3
  · obtain ⟨V', b1, b2, b3, b4, b5, hV', m, i, b6, b7, b8⟩ := C08_constructor hc hd hM.pos (by omega) hM.valid
    obtain rfl : M.V = V' := setup3_vector' h1 b1
    exact ⟨fun m i hm hi => hV.dofs_lt m i (by omega) (by omega), m, i, by omega, by omega, b8⟩

/-- **C118** (lumped mass) the diagonal that is assembled with the nodal quadrature rule is positive on every DOF, and adds up
over the DOFs of each component to the integral of the density with the nodal rule -/
theorem C118_mass (hM : HexMesh nn ne c x) (s : α) (σ : Nat → Sched) {conn dofs : Ten Nat}
    {coor rho : Ten α} (hc : Is2 conn ne 8 c) (hx : Is2 coor nn 3 x) (hd : Is2 dofs nn 3 d) {R : Nat → Nat → α} (hr : Is2 rho ne 8 R) :
    IsOk (Dynamics.new3 s σ conn dofs coor rho) fun t => ∃ (n : Nat) (mass : Nat → α), NumDofs3 nn d n ∧ Is1 t.2.A n mass ∧
      ((∀ e q, e < ne → q < 8 → 0 < R e q) → ∀ m i, m < nn → i < 3 → 0 < mass (d m i)) ∧
      ((∀ m m' i j, m < nn → m' < nn → i < 3 → j < 3 → i ≠ j → d m i ≠ d m' j) → ∀ i, i < 3 →
        ∑ k ∈ compDofs nn d i, mass k =
          ∑ e ∈ range ne, ∑ q ∈ range 8, R e q * det8 (fun m i => x (c e m) i) (corner8 q 0) (corner8 q 1) (corner8 q 2)) := by
  obtain ⟨D, M, h1, h2, h3, h4, h5⟩ := dynamics_new3 hM s σ hc hx hd hr
  have hA := h4.A _ rfl
  rw [h3] at hA
  refine ⟨(D, M), h1, _, _, h5, hA, fun hR m i hm hi => ?_, fun hsep i hi => ?_⟩
  · obtain ⟨e, a, he, ha, rfl⟩ := hM.used m hm
    refine sum_pos' (fun e he => sum_nonneg fun m hm => sum_nonneg fun i _ => ?_) ⟨e, mem_range.2 he, sum_pos' (fun m hm => sum_nonneg fun i _ => ?_)
      ⟨a, mem_range.2 ha, sum_pos' (fun i _ => ?_) ⟨i, mem_range.2 hi, ?_⟩⟩⟩
    · split
      · exact (mul_pos (hR _ _ (mem_range.1 he) (mem_range.1 hm)) (hM.corners _ _ (mem_range.1 he) (mem_range.1 hm))).le
      · exact le_rfl
    · split
      · exact (mul_pos (hR _ _ he (mem_range.1 hm)) (hM.corners _ _ he (mem_range.1 hm))).le
      · exact le_rfl
    · split
      · exact (mul_pos (hR _ _ he ha) (hM.corners _ _ he ha)).le
      · exact le_rfl
    · rw [if_pos rfl]
      exact mul_pos (hR _ _ he ha) (hM.corners _ _ he ha)
  · exact comp_sum3 hM.valid hsep hi fun e m _ => R e m * det8 (fun m i => x (c e m) i) (corner8 m 0) (corner8 m 1) (corner8 m 2)

omit [LinearOrder α] [IsStrictOrderedRing α] in
/-- the energy of a symmetric tangent is a symmetric bilinear form -/
theorem power3_comm {C : Nat → Nat → Nat → Nat → α} (hs : ∀ i j k l, i < 3 → j < 3 → k < 3 → l < 3 → C i j k l = C l k j i) (a b : Nat → Nat → α) :
    power 3 (ddot 3 C a) b = power 3 (ddot 3 C b) a := by
  have e : ∀ a b : Nat → Nat → α, power 3 (ddot 3 C a) b =
      ∑ i ∈ range 3, ∑ j ∈ range 3, ∑ k ∈ range 3, ∑ l ∈ range 3, C i j k l * a l k * b i j := by
    intro a b
    simp only [power, ddot, sum_mul]
  rw [e, e]
  have swap : ∀ F : Nat → Nat → Nat → Nat → α, ∑ i ∈ range 3, ∑ j ∈ range 3, ∑ k ∈ range 3, ∑ l ∈ range 3, F i j k l =
      ∑ i ∈ range 3, ∑ j ∈ range 3, ∑ k ∈ range 3, ∑ l ∈ range 3, F l k j i := by
    intro F
    simp only [sum_range_succ, sum_range_zero, zero_add]
    ring
  rw [swap]
  refine sum_congr rfl fun i hi => sum_congr rfl fun j hj => sum_congr rfl fun k hk => sum_congr rfl fun l hl => ?_
  rw [hs l k j i (mem_range.1 hl) (mem_range.1 hk) (mem_range.1 hj) (mem_range.1 hi)]
  ring

omit [LinearOrder α] [IsStrictOrderedRing α] in
theorem power3_add (C : Nat → Nat → Nat → Nat → α) (a b g : Nat → Nat → α) :
    power 3 (ddot 3 C fun i j => a i j + b i j) g = power 3 (ddot 3 C a) g + power 3 (ddot 3 C b) g := by
  simp only [power, ddot, mul_add, add_mul, sum_add_distrib]

omit [LinearOrder α] [IsStrictOrderedRing α] in
theorem power3_add_right (S a b : Nat → Nat → α) : power 3 S (fun i j => a i j + b i j) = power 3 S a + power 3 S b := by
  simp only [power, mul_add, sum_add_distrib]

/-! ### Momentum -/

/-- the internal forces add up to zero -/
theorem force_total3 (hM : HexMesh nn ne c x) (hsep : ∀ m m' i j, m < nn → m' < nn → i < 3 → j < 3 → i ≠ j → d m i ≠ d m' j) {i : Nat} (hi : i < 3) (s : α)
    (vol : Nat → Nat → α) (S : Nat → Nat → Nat → Nat → α) :
    ∑ k ∈ compDofs nn d i, forceOf3 ne c d (dynG3 s x c) vol S k = 0 := by
  refine (comp_sum3 hM.valid hsep hi fun e m i => ∑ q ∈ range 8, (∑ j ∈ range 3, dynG3 s x c e q m j * S e q j i) * vol e q).trans ?_
  refine sum_eq_zero fun e _ => ?_
  exact equilibrium (nne := 8) (nd := 3) (nip := 8) (G := dynG3 s x c) (S := S) (e := e) (V := vol)
    (fun q i _ _ => G_sum _ _ e q i) i

/-- **C118** (Newton's second law) for any material, also if its stress depends on the history, any number of increments
succeeds; the displacement changes, and the velocity and acceleration are, equal on nodes that share a DOF; and if the initial
acceleration is balanced in total, the momentum of each component grows with the total load: it is conserved without load -/
theorem C118_momentum (hM : HexMesh nn ne c x) (s : α) (σ : Nat → Sched)
    (υ : Nat → Nat → Sched) {conn dofs : Ten Nat} {coor rho : Ten α} (hc : Is2 conn ne 8 c) (hx : Is2 coor nn 3 x) (hd : Is2 dofs nn 3 d)
    {R : Nat → Nat → α} (hr : Is2 rho ne 8 R) (hR : ∀ e q, e < ne → q < 8 → 0 < R e q) (dt : α) {material : List (Ten α) → Res (Ten α)}
    (hm : Responds3 ne material) {u v a fext : Ten α} {U : Nat → Nat → α} {V A B : Nat → α} (hu : Is2 u nn 3 U) (hv : Is2 v nn 3 fun m i => V (d m i))
    (ha : Is2 a nn 3 fun m i => A (d m i)) (hf : Is2 fext nn 3 fun m i => B (d m i)) (n : Nat) :
    IsOk (do
      let (D, M) ← Dynamics.new3 s σ conn dofs coor rho
      let S ← D.run3 dt material fext υ n ⟨u, v, a, M, []⟩
      return (M, S)) fun t => ∃ N mass, NumDofs3 nn d N ∧ Is1 t.1.A N mass ∧ Is1 t.2.M.A N mass ∧ ∃ W Vn An : Nat → α,
        Is2 t.2.u nn 3 (fun m i => U m i + W (d m i)) ∧ Is2 t.2.v nn 3 (fun m i => Vn (d m i)) ∧ Is2 t.2.a nn 3 (fun m i => An (d m i)) ∧
        ((∀ m m' i j, m < nn → m' < nn → i < 3 → j < 3 → i ≠ j → d m i ≠ d m' j) → ∀ i, i < 3 → ∑ k ∈ compDofs nn d i, mass k * A k = ∑ k ∈ compDofs nn d i, B k →
          ∑ k ∈ compDofs nn d i, mass k * Vn k = ∑ k ∈ compDofs nn d i, mass k * V k + (n : α) * dt * ∑ k ∈ compDofs nn d i, B k) := by
  obtain ⟨D, M, h1, h2, h3, h4, h5⟩ := dynamics_new3 hM s σ hc hx hd hr
  have hA := h4.A _ rfl
  rw [h3] at hA
  obtain ⟨t, g1, N, mass, g2, g3, g4, -⟩ := C118_mass hM s σ hc hx hd hr
  obtain rfl : (D, M) = t := by rw [h1] at g1; injection g1
  have hN : N = D.vector.ndof := by
    have := g3.1.symm.trans hA.1
    simpa using this
  subst hN
  have pos : ∀ m i, m < nn → i < 3 → lumped3 x ne c d R (d m i) ≠ 0 := fun m i hm hi => by
    rw [← g3.unique hA (g2.1 m i hm hi)]
    exact (g4 hR m i hm hi).ne'
  have key : ∃ S, D.run3 dt material fext υ n ⟨u, v, a, M, []⟩ = .ok S ∧ S.M.A = M.A ∧ ∃ W Vn An : Nat → α,
      S.Is3 D nn ne c d (lumped3 x ne c d R) (fun m i => U m i + W (d m i)) Vn An ∧
      ((∀ m m' i j, m < nn → m' < nn → i < 3 → j < 3 → i ≠ j → d m i ≠ d m' j) → ∀ i, i < 3 →
          ∑ k ∈ compDofs nn d i, lumped3 x ne c d R k * A k = ∑ k ∈ compDofs nn d i, B k →
          ∑ k ∈ compDofs nn d i, lumped3 x ne c d R k * An k = ∑ k ∈ compDofs nn d i, B k ∧
          ∑ k ∈ compDofs nn d i, lumped3 x ne c d R k * Vn k =
            ∑ k ∈ compDofs nn d i, lumped3 x ne c d R k * V k + (n : α) * dt * ∑ k ∈ compDofs nn d i, B k) := by
    induction n with
    | zero =>
      refine ⟨_, rfl, rfl, fun _ => 0, V, A, ⟨by simpa only [add_zero] using hu, hv, ha, h4, h3, by simp⟩, fun hsep i hi h0 => ⟨h0, by simp⟩⟩
    | succ n ih =>
      obtain ⟨S, i1, i0, W, Vn, An, i2, i3⟩ := ih
      obtain ⟨S', T, j1, -, j0, j2⟩ := h2.step_ok dt (material := material) hf (υ n) i2 (P := fun _ => True) fun t ht => by
        obtain ⟨r, r1, T, r2⟩ := hm (t :: S.strains) (by simp) (fun t' ht' => by
          rcases List.mem_cons.1 ht' with rfl | ht'
          · exact ⟨_, ht⟩
          · exact i2.strains _ ht')
        exact ⟨r, r1, T, r2, trivial⟩
      refine ⟨S', by rw [Dynamics.run3, i1, Res.ok_bind]; exact j1, j0.trans i0, fun k => W k + (dt * Vn k + 1 / 2 * dt ^ 2 * An k),
        fun k => Vn k + 1 / 2 * dt * (An k + (B k - forceOf3 ne c d (dynG3 s x c) (dynVol3 s x c) T k) / lumped3 x ne c d R k),
        fun k => (B k - forceOf3 ne c d (dynG3 s x c) (dynVol3 s x c) T k) / lumped3 x ne c d R k, ?_, ?_⟩
      · simp only [add_assoc] at j2 ⊢
        exact j2
      · intro hsep i hi h0
        obtain ⟨k1, k2⟩ := i3 hsep i hi h0
        have a1 : ∑ k ∈ compDofs nn d i, lumped3 x ne c d R k *
            ((B k - forceOf3 ne c d (dynG3 s x c) (dynVol3 s x c) T k) / lumped3 x ne c d R k) = ∑ k ∈ compDofs nn d i, B k := by
          have : ∀ k ∈ compDofs nn d i, lumped3 x ne c d R k *
              ((B k - forceOf3 ne c d (dynG3 s x c) (dynVol3 s x c) T k) / lumped3 x ne c d R k) =
              B k - forceOf3 ne c d (dynG3 s x c) (dynVol3 s x c) T k := by
            intro k hk
            obtain ⟨m, hm, rfl⟩ := mem_image.1 hk
            rw [mul_div_cancel₀ _ (pos m i (mem_range.1 hm) hi)]
          rw [sum_congr rfl this, sum_sub_distrib, force_total3 hM hsep hi, sub_zero]
        refine ⟨a1, ?_⟩
        rw [sum_congr rfl fun k _ => show lumped3 x ne c d R k * (Vn k + 1 / 2 * dt * (An k +
          (B k - forceOf3 ne c d (dynG3 s x c) (dynVol3 s x c) T k) / lumped3 x ne c d R k)) = lumped3 x ne c d R k * Vn k +
            1 / 2 * dt * (lumped3 x ne c d R k * An k + lumped3 x ne c d R k *
            ((B k - forceOf3 ne c d (dynG3 s x c) (dynVol3 s x c) T k) / lumped3 x ne c d R k)) by ring, sum_add_distrib, ← mul_sum,
          sum_add_distrib, k1, a1, k2]
        push_cast
        ring
  obtain ⟨S, k1, k0, W, Vn, An, k2, k3⟩ := key
  refine ⟨(M, S), by simp only [h1, Res.ok_bind, k1]; rfl, _, _, h5, hA, by rw [k0]; exact hA, W, Vn, An, k2.u, k2.v, k2.a,
    fun hsep i hi h0 => (k3 hsep i hi h0).2⟩

/-- a run with a material without memory -/
theorem Dynamics.State3.run_ok {D : Dynamics α} {s : α} {mass : Nat → α} (h : D.State3 nn ne c d x s) (dt : α) {material : List (Ten α) → Res (Ten α)} {Φ}
    (hm : HistoryFree3 ne material Φ) {fext : Ten α} {B : Nat → α} (hf : Is2 fext nn 3 fun m i => B (d m i)) (υ : Nat → Nat → Sched) (n : Nat)
    {S : Motion α} {X : (Nat → Nat → α) × (Nat → α) × (Nat → α)} (hS : S.Is3 D nn ne c d mass X.1 X.2.1 X.2.2) :
    ∃ S', D.run3 dt material fext υ n S = .ok S' ∧ ∀ Y, Y = (verlet d dt (fun U k => (B k - forceOf3 ne c d (dynG3 s x c) (dynVol3 s x c)
      (Φ (strainOf3 (dynG3 s x c) c U)) k) / mass k))^[n] X → S'.Is3 D nn ne c d mass Y.1 Y.2.1 Y.2.2 := by
  induction n with
  | zero => exact ⟨S, rfl, fun Y hY => by rw [hY]; exact hS⟩
  | succ n ih =>
    obtain ⟨S', i1, i2⟩ := ih
    obtain ⟨S'', T, j1, rfl, -, j2⟩ := h.step_ok dt (material := material) hf (υ n) (i2 _ rfl) (P := fun T => T = _) fun t ht => by
      obtain ⟨r, r1, r2⟩ := hm t S'.strains _ ht
      exact ⟨r, r1, _, r2, rfl⟩
    refine ⟨S'', by rw [Dynamics.run3, i1, Res.ok_bind]; exact j1, fun Y hY => ?_⟩
    rw [Function.iterate_succ_apply'] at hY
    rw [hY]
    exact j2

/-- **C118** (reversibility) for a material without memory: after the first increment, `n` increments, reversal of the velocity,
and again `n` increments lead back to the same state with reversed velocity -/
theorem C118_reversible (hM : HexMesh nn ne c x) (s : α) (σ : Nat → Sched)
    (υ υ' υ'' : Nat → Nat → Sched) {conn dofs : Ten Nat} {coor rho : Ten α} (hc : Is2 conn ne 8 c) (hx : Is2 coor nn 3 x) (hd : Is2 dofs nn 3 d)
    {R : Nat → Nat → α} (hr : Is2 rho ne 8 R) (dt : α) {material : List (Ten α) → Res (Ten α)} {Φ}
    (hm : HistoryFree3 ne material Φ) {u v a fext : Ten α} {U : Nat → Nat → α} {V A B : Nat → α} (hu : Is2 u nn 3 U) (hv : Is2 v nn 3 fun m i => V (d m i))
    (ha : Is2 a nn 3 fun m i => A (d m i)) (hf : Is2 fext nn 3 fun m i => B (d m i)) (n : Nat) :
    IsOk (do
      let (D, M) ← Dynamics.new3 s σ conn dofs coor rho
      let S ← D.run3 dt material fext υ 1 ⟨u, v, a, M, []⟩
      let T ← D.run3 dt material fext υ' n S
      let T ← T.reverse
      let T ← D.run3 dt material fext υ'' n T
      return (S, T)) fun t => ∃ U₁ V₁ A₁, Is2 t.1.u nn 3 U₁ ∧ Is2 t.1.v nn 3 V₁ ∧ Is2 t.1.a nn 3 A₁ ∧
        Is2 t.2.u nn 3 U₁ ∧ Is2 t.2.v nn 3 (fun m i => - V₁ m i) ∧ Is2 t.2.a nn 3 A₁ := by
  obtain ⟨D, M, h1, h2, h3, h4, h5⟩ := dynamics_new3 hM s σ hc hx hd hr
  obtain ⟨S, i1, i2⟩ := h2.run_ok dt hm hf υ 1 (S := ⟨u, v, a, M, []⟩) (X := (U, V, A)) ⟨hu, hv, ha, h4, h3, by simp⟩
  have i3 := i2 _ rfl
  obtain ⟨acc, hacc⟩ : ∃ acc, acc = (fun (U : Nat → Nat → α) (k : Nat) => (B k - forceOf3 ne c d (dynG3 s x c) (dynVol3 s x c)
    (Φ (strainOf3 (dynG3 s x c) c U)) k) / lumped3 x ne c d R k) := ⟨_, rfl⟩
  rw [← hacc, Function.iterate_one] at i3
  obtain ⟨X, hX⟩ : ∃ X, X = verlet d dt acc (U, V, A) := ⟨_, rfl⟩
  rw [← hX] at i3
  have hb : X.2.2 = acc X.1 := by rw [hX]; rfl
  obtain ⟨T, j1, j2⟩ := h2.run_ok dt hm hf υ' n (X := X) i3
  rw [← hacc] at j2
  obtain ⟨Y, hY⟩ : ∃ Y, Y = (verlet d dt acc)^[n] X := ⟨_, rfl⟩
  have j3 := j2 Y hY
  obtain ⟨v', w1, w2⟩ := nodeExpr_ok (fun v _ _ : α => - v) j3.v j3.v j3.v
  obtain ⟨T', k1, k2⟩ := h2.run_ok dt hm hf υ'' n (S := { T with v := v' }) (X := (Y.1, fun k => - Y.2.1 k, Y.2.2))
    ⟨j3.u, w2, j3.a, j3.M, j3.same, j3.strains⟩
  rw [← hacc] at k2
  have k3 := k2 (X.1, fun k => - X.2.1 k, X.2.2) (by
    rw [hY]
    exact (verlet_reverse_iter dt acc n X hb).symm)
  refine ⟨(S, T'), ?_, _, _, _, i3.u, i3.v, i3.a, k3.u, k3.v, k3.a⟩
  simp only [h1, i1, j1, Motion.reverse, w1, Res.ok_bind]
  change (D.run3 dt material fext υ'' n { T with v := v' } >>= fun T => pure (S, T)) = _
  rw [k1]
  rfl

/-- work of the assembled internal force of a symmetric stress -/
theorem Dynamics.State3.work {D : Dynamics α} {s : α} (h : D.State3 nn ne c d x s) {S : Nat → Nat → Nat → Nat → α}
    (hS : ∀ e q, e < ne → q < 8 → ∀ i j, i < 3 → j < 3 → S e q i j = S e q j i) (w : Nat → α) :
    ∑ k ∈ range D.vector.ndof, forceOf3 ne c d (dynG3 s x c) (dynVol3 s x c) S k * w k =
      ∑ e ∈ range ne, ∑ q ∈ range 8, power 3 (S e q) (strainOf3 (dynG3 s x c) c (fun m i => w (d m i)) e q) * dynVol3 s x c e q := by
  obtain ⟨e1, e2, e3, e4⟩ := h.dims
  have := dual_sum h.vec (fun e m i => ∑ q ∈ range 8, (∑ j ∈ range 3, dynG3 s x c e q m j * S e q j i) * dynVol3 s x c e q) w
  rw [e1, e2, e4] at this
  refine this.trans (sum_congr rfl fun e he => ?_)
  refine (virtual_work (nne := 8) (nd := 3) (nip := 8) (G := dynG3 s x c) (S := S) (V := dynVol3 s x c) (U := fun e m i => w (d (c e m) i)) e).trans ?_
  refine sum_congr rfl fun q hq => ?_
  congr 1
  have h' := hS e q (mem_range.1 he) (mem_range.1 hq)
  have e10 := h' 1 0 (by omega) (by omega)
  have e20 := h' 2 0 (by omega) (by omega)
  have e21 := h' 2 1 (by omega) (by omega)
  simp only [power, strainOf3, sum_range_succ, sum_range_zero]
  rw [e10, e20, e21]
  ring

/-- acceleration of a linear elastic body without load -/
def accel3 (ne : Nat) (c d : Nat → Nat → Nat) (s : α) (x : Nat → Nat → α) (R : Nat → Nat → α) (C : Nat → Nat → Nat → Nat → Nat → Nat → α)
    (U : Nat → Nat → α) (k : Nat) : α :=
  (0 - forceOf3 ne c d (dynG3 s x c) (dynVol3 s x c) (fun e q => ddot 3 (C e q) (strainOf3 (dynG3 s x c) c U e q)) k) / lumped3 x ne c d R k

/-- mass times acceleration -/
theorem accel_newton3 (hM : HexMesh nn ne c x) {s : α} {R : Nat → Nat → α} {C : Nat → Nat → Nat → Nat → Nat → Nat → α}
    (hpos : ∀ m i, m < nn → i < 3 → lumped3 x ne c d R (d m i) ≠ 0) (U : Nat → Nat → α) (k : Nat) :
    lumped3 x ne c d R k * accel3 ne c d s x R C U k = - forceOf3 ne c d (dynG3 s x c) (dynVol3 s x c)
      (fun e q => ddot 3 (C e q) (strainOf3 (dynG3 s x c) c U e q)) k := by
  rw [accel3]
  by_cases hk : ∃ m i, m < nn ∧ i < 3 ∧ d m i = k
  · obtain ⟨m, i, hm, hi, rfl⟩ := hk
    rw [mul_div_cancel₀ _ (hpos m i hm hi), zero_sub]
  · have z : ∀ F : Nat → Nat → Nat → α, ∑ e ∈ range ne, ∑ m ∈ range 8, ∑ i ∈ range 3, (if d (c e m) i = k then F e m i else 0) = 0 := by
      intro F
      refine sum_eq_zero fun e he => sum_eq_zero fun m hm => sum_eq_zero fun i hi => ?_
      rw [mem_range] at he hm hi
      exact if_neg fun e' => hk ⟨_, _, hM.valid e m he hm, hi, e'⟩
    rw [lumped3, z, forceOf3, z]
    simp

/-- the energy that velocity Verlet conserves -/
def verletEnergy3 (n ne : Nat) (c d : Nat → Nat → Nat) (s : α) (x : Nat → Nat → α) (R : Nat → Nat → α) (C : Nat → Nat → Nat → Nat → Nat → Nat → α)
    (dt : α) (X : (Nat → Nat → α) × (Nat → α) × (Nat → α)) : α :=
  1 / 2 * ∑ k ∈ range n, lumped3 x ne c d R k * X.2.1 k ^ 2 +
    1 / 2 * elasticWork3 ne (dynVol3 s x c) C (strainOf3 (dynG3 s x c) c X.1) -
    dt ^ 2 / 8 * ∑ k ∈ range n, lumped3 x ne c d R k * X.2.2 k ^ 2

/-- energy over any number of increments -/
theorem Dynamics.State3.energy {D : Dynamics α} {s : α} (h2 : D.State3 nn ne c d x s) (hM : HexMesh nn ne c x) {R : Nat → Nat → α}
    (hpos : ∀ m i, m < nn → i < 3 → lumped3 x ne c d R (d m i) ≠ 0) (dt : α) {C : Nat → Nat → Nat → Nat → Nat → Nat → α}
    (major : ∀ e q i j k l, e < ne → q < 8 → i < 3 → j < 3 → k < 3 → l < 3 → C e q i j k l = C e q k l i j)
    (left : ∀ e q i j k l, e < ne → q < 8 → i < 3 → j < 3 → k < 3 → l < 3 → C e q i j k l = C e q j i k l) (n : Nat) (X)
    (hX : X.2.2 = accel3 ne c d s x R C X.1) :
    verletEnergy3 D.vector.ndof ne c d s x R C dt ((verlet d dt (accel3 ne c d s x R C))^[n] X) = verletEnergy3 D.vector.ndof ne c d s x R C dt X := by
  obtain ⟨acc, hacc⟩ : ∃ acc, acc = accel3 ne c d s x R C := ⟨_, rfl⟩
  rw [← hacc] at hX ⊢
  have newton : ∀ U k, lumped3 x ne c d R k * acc U k = - forceOf3 ne c d (dynG3 s x c) (dynVol3 s x c)
      (fun e q => ddot 3 (C e q) (strainOf3 (dynG3 s x c) c U e q)) k := by
    rw [hacc]; exact accel_newton3 hM hpos
  have sym : ∀ e q, e < ne → q < 8 → ∀ i j k l, i < 3 → j < 3 → k < 3 → l < 3 → C e q i j k l = C e q l k j i := by
    intro e q he hq i j k l hi hj hk hl
    rw [major e q i j k l he hq hi hj hk hl, left e q k l i j he hq hk hl hi hj, major e q l k i j he hq hl hk hi hj,
      left e q i j l k he hq hi hj hl hk, major e q j i l k he hq hj hi hl hk]
  have ssym : ∀ E : Nat → Nat → Nat → Nat → α, ∀ e q, e < ne → q < 8 → ∀ i j, i < 3 → j < 3 → ddot 3 (C e q) (E e q) i j = ddot 3 (C e q) (E e q) j i := by
    intro E e q he hq i j hi hj
    simp only [ddot]
    refine sum_congr rfl fun k hk => sum_congr rfl fun l hl => ?_
    rw [left e q i j k l he hq hi hj (mem_range.1 hk) (mem_range.1 hl)]
  obtain ⟨H, hH, hH'⟩ : ∃ H : (Nat → Nat → α) × (Nat → α) × (Nat → α) → α, (∀ X, H X = 1 / 2 * ∑ k ∈ range D.vector.ndof, lumped3 x ne c d R k * X.2.1 k ^ 2 +
    1 / 2 * elasticWork3 ne (dynVol3 s x c) C (strainOf3 (dynG3 s x c) c X.1) -
    dt ^ 2 / 8 * ∑ k ∈ range D.vector.ndof, lumped3 x ne c d R k * X.2.2 k ^ 2) ∧
    verletEnergy3 D.vector.ndof ne c d s x R C dt = H := ⟨_, fun _ => rfl, rfl⟩
  -- one increment
  have one : ∀ X, X.2.2 = acc X.1 → H (verlet d dt acc X) = H X := by
    intro X hX
    obtain ⟨w, hw⟩ : ∃ w : Nat → α, ∀ k, w k = dt * X.2.1 k + 1 / 2 * dt ^ 2 * X.2.2 k := ⟨_, fun _ => rfl⟩
    obtain ⟨U', hU'⟩ : ∃ U', U' = (verlet d dt acc X).1 := ⟨_, rfl⟩
    have eU : ∀ m i, U' m i = X.1 m i + w (d m i) := fun m i => by rw [hU', hw]; simp only [verlet]; ring
    have eS : ∀ e q, strainOf3 (dynG3 s x c) c U' e q = fun i j => strainOf3 (dynG3 s x c) c X.1 e q i j +
        strainOf3 (dynG3 s x c) c (fun m i => w (d m i)) e q i j := by
      intro e q
      funext i j
      simp only [strainOf3, grad, eU, mul_add, sum_add_distrib]
      ring
    have w1 := h2.work (ssym (strainOf3 (dynG3 s x c) c X.1)) w
    have w2 := h2.work (ssym (strainOf3 (dynG3 s x c) c U')) w
    have el : elasticWork3 ne (dynVol3 s x c) C (strainOf3 (dynG3 s x c) c U') = elasticWork3 ne (dynVol3 s x c) C (strainOf3 (dynG3 s x c) c X.1) +
        (∑ k ∈ range D.vector.ndof, forceOf3 ne c d (dynG3 s x c) (dynVol3 s x c)
          (fun e q => ddot 3 (C e q) (strainOf3 (dynG3 s x c) c X.1 e q)) k * w k +
        ∑ k ∈ range D.vector.ndof, forceOf3 ne c d (dynG3 s x c) (dynVol3 s x c)
          (fun e q => ddot 3 (C e q) (strainOf3 (dynG3 s x c) c U' e q)) k * w k) := by
      rw [w1, w2, elasticWork3, elasticWork3, ← sum_add_distrib, ← sum_add_distrib]
      refine sum_congr rfl fun e he => ?_
      rw [← sum_add_distrib, ← sum_add_distrib]
      refine sum_congr rfl fun q hq => ?_
      rw [eS e q, power3_add_right, power3_add, power3_add,
        power3_comm (sym e q (mem_range.1 he) (mem_range.1 hq)) (strainOf3 (dynG3 s x c) c (fun m i => w (d m i)) e q) (strainOf3 (dynG3 s x c) c X.1 e q)]
      ring
    have el2 : elasticWork3 ne (dynVol3 s x c) C (strainOf3 (dynG3 s x c) c U') = elasticWork3 ne (dynVol3 s x c) C (strainOf3 (dynG3 s x c) c X.1) -
        ∑ k ∈ range D.vector.ndof, lumped3 x ne c d R k * (X.2.2 k + acc U' k) * w k := by
      rw [el, ← sum_add_distrib, sub_eq_add_neg, ← sum_neg_distrib]
      congr 1
      refine sum_congr rfl fun k _ => ?_
      have a1 := newton X.1 k
      have a2 := newton U' k
      rw [hX]
      linear_combination w k * a1 + w k * a2
    rw [hH, hH, ← hU', el2]
    have e1 : ∀ k, (verlet d dt acc X).2.1 k = X.2.1 k + 1 / 2 * dt * (X.2.2 k + acc U' k) := fun k => by rw [hU']; rfl
    have e2 : ∀ k, (verlet d dt acc X).2.2 k = acc U' k := fun k => by rw [hU']; rfl
    simp only [e1, e2]
    have key : ∑ k ∈ range D.vector.ndof, (1 / 2 * (lumped3 x ne c d R k * (X.2.1 k + 1 / 2 * dt * (X.2.2 k + acc U' k)) ^ 2) -
        1 / 2 * (lumped3 x ne c d R k * X.2.1 k ^ 2) - 1 / 2 * (lumped3 x ne c d R k * (X.2.2 k + acc U' k) * w k) -
        dt ^ 2 / 8 * (lumped3 x ne c d R k * acc U' k ^ 2) + dt ^ 2 / 8 * (lumped3 x ne c d R k * X.2.2 k ^ 2)) = 0 := by
      refine sum_eq_zero fun k _ => ?_
      rw [hw]
      ring
    simp only [sum_add_distrib, sum_sub_distrib, ← mul_sum] at key
    linear_combination key
  have iter : ∀ n X, X.2.2 = acc X.1 → H ((verlet d dt acc)^[n] X) = H X := by
    intro n
    induction n with
    | zero => exact fun _ _ => rfl
    | succ n ih =>
      intro X hX
      rw [Function.iterate_succ_apply, ih _ rfl, one X hX]
  rw [hH']
  exact iter n X hX

/-- **C118** (energy) for a linear elastic material and no load, the kinetic plus the elastic energy minus
`dt² / 8 Σ mass a²` has the same value after every increment: the energy has no drift -/
theorem C118_energy (hM : HexMesh nn ne c x) (s : α) (σ : Nat → Sched)
    (υ : Nat → Nat → Sched) {conn dofs : Ten Nat} {coor rho : Ten α} (hc : Is2 conn ne 8 c) (hx : Is2 coor nn 3 x) (hd : Is2 dofs nn 3 d)
    {R : Nat → Nat → α} (hr : Is2 rho ne 8 R) (hR : ∀ e q, e < ne → q < 8 → 0 < R e q) (dt : α) {material : List (Ten α) → Res (Ten α)} {C}
    (hm : HistoryFree3 ne material fun E e q => ddot 3 (C e q) (E e q))
    (major : ∀ e q i j k l, e < ne → q < 8 → i < 3 → j < 3 → k < 3 → l < 3 → C e q i j k l = C e q k l i j)
    (left : ∀ e q i j k l, e < ne → q < 8 → i < 3 → j < 3 → k < 3 → l < 3 → C e q i j k l = C e q j i k l)
    {u v a fext : Ten α} {U : Nat → Nat → α} {V A : Nat → α} (hu : Is2 u nn 3 U) (hv : Is2 v nn 3 fun m i => V (d m i))
    (ha : Is2 a nn 3 fun m i => A (d m i)) (hf : Is2 fext nn 3 fun _ _ => 0) (n : Nat) (ρ τ : Sched) :
    IsOk (do
      let (D, M) ← Dynamics.new3 s σ conn dofs coor rho
      let S ← D.run3 dt material fext υ 1 ⟨u, v, a, M, []⟩
      let E ← D.strain3 ρ τ S.u
      let S' ← D.run3 dt material fext υ (n + 1) ⟨u, v, a, M, []⟩
      let E' ← D.strain3 ρ τ S'.u
      return (D, M, S, E, S', E')) fun (D, M, S, E, S', E') => ∃ (N : Nat) (mass : Nat → α) (vol : Nat → Nat → α), NumDofs3 nn d N ∧ Is1 M.A N mass ∧ Is2 D.quad.vol ne 8 vol ∧
        ∃ (V₁ A₁ : Nat → α) (E₁ : Nat → Nat → Nat → Nat → α) (V₂ A₂ : Nat → α) (E₂ : Nat → Nat → Nat → Nat → α), Is2 S.v nn 3 (fun m i => V₁ (d m i)) ∧ Is2 S.a nn 3 (fun m i => A₁ (d m i)) ∧ Is4 E ne 8 3 3 E₁ ∧
          Is2 S'.v nn 3 (fun m i => V₂ (d m i)) ∧ Is2 S'.a nn 3 (fun m i => A₂ (d m i)) ∧ Is4 E' ne 8 3 3 E₂ ∧
          1 / 2 * ∑ k ∈ range N, mass k * V₂ k ^ 2 + 1 / 2 * elasticWork3 ne vol C E₂ - dt ^ 2 / 8 * ∑ k ∈ range N, mass k * A₂ k ^ 2 =
          1 / 2 * ∑ k ∈ range N, mass k * V₁ k ^ 2 + 1 / 2 * elasticWork3 ne vol C E₁ - dt ^ 2 / 8 * ∑ k ∈ range N, mass k * A₁ k ^ 2 := by
  obtain ⟨D, M, h1, h2, h3, h4, h5⟩ := dynamics_new3 hM s σ hc hx hd hr
  have hA := h4.A _ rfl
  rw [h3] at hA
  obtain ⟨t, g1, N, mass, g2, g3, g4, -⟩ := C118_mass hM s σ hc hx hd hr
  obtain rfl : (D, M) = t := by rw [h1] at g1; injection g1
  have hN : N = D.vector.ndof := by
    have := g3.1.symm.trans hA.1
    simpa using this
  subst hN
  have hpos : ∀ m i, m < nn → i < 3 → lumped3 x ne c d R (d m i) ≠ 0 := fun m i hm hi => by
    rw [← g3.unique hA (g2.1 m i hm hi)]
    exact (g4 hR m i hm hi).ne'
  have hf' : Is2 fext nn 3 fun m i => (fun _ : Nat => (0 : α)) (d m i) := hf
  obtain ⟨S, i1, i2⟩ := h2.run_ok (B := fun _ => 0) dt hm hf υ 1 (S := ⟨u, v, a, M, []⟩) (X := (U, V, A)) ⟨hu, hv, ha, h4, h3, by simp⟩
  obtain ⟨S', j1, j2⟩ := h2.run_ok (B := fun _ => 0) dt hm hf υ (n + 1) (S := ⟨u, v, a, M, []⟩) (X := (U, V, A)) ⟨hu, hv, ha, h4, h3, by simp⟩
  have i3 := i2 _ rfl
  have j3 := j2 _ rfl
  rw [Function.iterate_one] at i3
  rw [Function.iterate_succ_apply] at j3
  obtain ⟨E, k1, k2⟩ := h2.strain_ok ρ τ i3.u
  obtain ⟨E', l1, l2⟩ := h2.strain_ok ρ τ j3.u
  refine ⟨(D, M, S, E, S', E'), by simp only [h1, i1, k1, j1, l1, Res.ok_bind]; rfl, _, _, _, h5, hA, h2.volume, _, _, _, _, _, _, i3.v, i3.a, k2,
    j3.v, j3.a, l2, ?_⟩
  exact h2.energy hM hpos dt major left n (verlet d dt (accel3 ne c d s x R C) (U, V, A)) rfl



/-- **C118** (macroscopic deformation) on a mesh of a box: if nodes of a periodic pair share their DOFs and the initial displacement
is periodic up to the gradient `G`, then the average of the gradient of the displacement is `G` after any number of increments -/
theorem C118_macroscopic {g : BoxGrid} {p : Nat → Nat → α} (hB : BoxMesh nn ne c x g p) (hM : HexMesh nn ne c x) (p0 : ∀ a, a < 3 → p a 0 = 0)
    (s : α) (σ : Nat → Sched) (υ : Nat → Nat → Sched) {conn dofs : Ten Nat} {coor rho : Ten α} (hc : Is2 conn ne 8 c) (hx : Is2 coor nn 3 x)
    (hd : Is2 dofs nn 3 d) {R : Nat → Nat → α} (hr : Is2 rho ne 8 R) (hR : ∀ e q, e < ne → q < 8 → 0 < R e q) (dt : α)
    {material : List (Ten α) → Res (Ten α)} (hm : Responds3 ne material) {u v a fext : Ten α} {U : Nat → Nat → α} {V A B : Nat → α}
    (hu : Is2 u nn 3 U) (hv : Is2 v nn 3 fun m i => V (d m i)) (ha : Is2 a nn 3 fun m i => A (d m i)) (hf : Is2 fext nn 3 fun m i => B (d m i))
    (n : Nat) {np : Nat} {P : Nat → Nat → Nat} (hP : PeriodicPairs3 nn (p 0 g.nx) (p 1 g.ny) (p 2 g.nz) x np P)
    (hPd : ∀ k i, k < np → i < 3 → d (P k 1) i = d (P k 0) i) {G : Nat → Nat → α}
    (hU : ∀ k j, k < np → j < 3 → U (P k 1) j - U (P k 0) j = ∑ l ∈ range 3, G j l * (x (P k 1) l - x (P k 0) l)) (ρ τ : Sched) :
    IsOk (do
      let (D, M) ← Dynamics.new3 s σ conn dofs coor rho
      let S ← D.run3 dt material fext υ n ⟨u, v, a, M, []⟩
      let g ← gradient3 ρ τ D.vector D.quad S.u
      return (D.quad.vol, g)) fun t => ∃ vol g', Is2 t.1 ne 8 vol ∧ Is4 t.2 ne 8 3 3 g' ∧ ∀ i j, i < 3 → j < 3 →
        ∑ e ∈ range ne, ∑ q ∈ range 8, g' e q i j * vol e q = p 0 g.nx * p 1 g.ny * p 2 g.nz * G j i := by
  obtain ⟨D, M, h1, h2, h3, h4, h5⟩ := dynamics_new3 hM s σ hc hx hd hr
  obtain ⟨⟨M', S⟩, t1, N, mass, -, -, -, W, Vn, An, t2, -⟩ := C118_momentum hM s σ υ hc hx hd hr hR dt hm hu hv ha hf n
  rw [h1, Res.ok_bind] at t1
  obtain ⟨S', k1, k2⟩ : ∃ S', D.run3 dt material fext υ n ⟨u, v, a, M, []⟩ = .ok S' ∧ S' = S := by
    dsimp only at t1
    cases hh : D.run3 dt material fext υ n ⟨u, v, a, M, []⟩ <;> rw [hh] at t1
    · rw [Res.ok_bind] at t1
      have t1' : Res.ok (M, _) = Res.ok (M', S) := t1
      injection t1' with t1'
      exact ⟨_, rfl, (Prod.mk.inj t1').2⟩
    · cases t1
    · cases t1
  subst k2
  obtain ⟨e1, e2, e3, e4⟩ := h2.dims
  obtain ⟨ue, u1, u2⟩ := C03_element_of_node h2.vec ρ (x := S'.u) (g := fun m i => U m i + W (d m i)) (by rw [e3, e4]; exact t2)
  rw [e1, e2, e4] at u2
  obtain ⟨gt, g1, g2⟩ := Hex8.GradN_ok h2.live τ u2
  refine ⟨(D.quad.vol, gt), by simp only [h1, k1, Res.ok_bind, gradient3, u1, g1]; rfl, _, _, h2.volume, g2, fun i j hi hj => ?_⟩
  exact avg_gradient3 hB p0 s hP hj (U := fun m i => U m i + W (d m i)) (A := G) (fun k hk => by
    rw [hPd k j hk hj, add_sub_add_right_eq_sub, hU k j hk hj]
    exact sum_congr rfl fun l _ => mul_comm _ _) hi

/-! ### The meshes of the library -/

/-- boxes -/
theorem BoxMesh.hexMesh {g : BoxGrid} {p : Nat → Nat → α} (hB : BoxMesh nn ne c x g p) : HexMesh nn ne c x := by
  obtain ⟨s1, s2, s3⟩ := hB.size
  refine ⟨?_, hB.valid, fun m hm => ?_, fun e m he hm => ?_⟩
  · have := hB.node_lt 0 0 0 (by omega) (by omega) (by omega)
    omega
  · obtain ⟨i, j, k, hi, hj, hk, rfl⟩ := hB.node_surj m hm
    have pick : ∀ n a, 0 < n → a ≤ n → ∃ b o, b < n ∧ o < 2 ∧ a = b + o := by
      intro n a hn ha
      by_cases h : a < n
      · exact ⟨a, 0, h, by omega, by omega⟩
      · exact ⟨a - 1, 1, by omega, by omega, by omega⟩
    obtain ⟨i', o1, a1, b1, rfl⟩ := pick _ i s1 hi
    obtain ⟨j', o2, a2, b2, rfl⟩ := pick _ j s2 hj
    obtain ⟨k', o3, a3, b3, rfl⟩ := pick _ k s3 hk
    obtain ⟨m, hm, c0, c1, c2⟩ : ∃ m, m < 8 ∧ hexOffset m 0 = o1 ∧ hexOffset m 1 = o2 ∧ hexOffset m 2 = o3 := by
      have : ∀ o1 o2 o3 : Fin 2, ∃ m, m < 8 ∧ hexOffset m 0 = o1 ∧ hexOffset m 1 = o2 ∧ hexOffset m 2 = o3 := by decide
      exact this ⟨o1, b1⟩ ⟨o2, b2⟩ ⟨o3, b3⟩
    exact ⟨_, m, hB.cell_lt i' j' k' a1 a2 a3, hm, by rw [hB.conn i' j' k' m a1 a2 a3 hm, c0, c1, c2]⟩
  · obtain ⟨cc, hh, hX, h0, -⟩ := hB.boxes
    rw [det8_box hX he]
    exact mul_pos (mul_pos (h0 e 0 he (by omega)) (h0 e 1 he (by omega))) (h0 e 2 he (by omega))

/-- the DOFs of `dofsPeriodic` separate the components and are shared by the nodes of every periodic pair -/
theorem periodic_shared3 {Lx Ly Lz : α} {np : Nat} {P : Nat → Nat → Nat} (hP : PeriodicPairs3 nn Lx Ly Lz x np P) {d : Nat → Nat → Nat}
    (h : ∀ m i m' i', m < nn → i < 3 → m' < nn → i' < 3 → (d m i = d m' i' ↔ LatticeEq3 Lx Ly Lz (x m) (x m') ∧ i = i')) :
    (∀ m m' i j, m < nn → m' < nn → i < 3 → j < 3 → i ≠ j → d m i ≠ d m' j) ∧ ∀ k i, k < np → i < 3 → d (P k 1) i = d (P k 0) i := by
  refine ⟨fun m m' i j hm hm' hi hj hne e => hne ((h m i m' j hm hi hm' hj).1 e).2, fun k i hk hi => ?_⟩
  refine ((h _ i _ i (hP.valid k 0 hk (by omega)) hi (hP.valid k 1 hk (by omega)) hi).2 ⟨?_, rfl⟩).symm
  obtain ⟨h0, h1, h2⟩ := hP.shift k hk
  have pick : ∀ {a b L : α}, a = b ∨ a = b + L → ∃ z : Int, a = b + (z : α) * L := by
    intro a b L h
    rcases h with h | h
    · exact ⟨0, by rw [h]; simp⟩
    · exact ⟨1, by rw [h]; simp⟩
  obtain ⟨z0, q0⟩ := pick h0
  obtain ⟨z1, q1⟩ := pick h1
  obtain ⟨z2, q2⟩ := pick h2
  exact ⟨z0, z1, z2, q0, q1, q2⟩

/-- **C118** (Hex8 `FineLayer`) also with transition layers, whose elements are not boxes: for uniform density, any DOFs that separate
the components, and any material, any number of increments succeeds, the mass of each component is the density times the volume of the
block, and the momentum of each component grows with the total load. -/
theorem C118_finelayer (nelx nely nelz : Nat) (hx : 0 < nelx) (hy : 0 < nely) (hz : 0 < nelz) {h : α} (hh : 0 < h) (nfine : Nat) (s : α)
    (σ : Nat → Sched) (υ : Nat → Nat → Sched) :
    ∃ M n wx wz g r, FineLayer3.new nelx nely nelz h nfine = .ok M ∧ FineLayerSpec.Rows3 M nelx nelz n wx wz g r ∧
      ∀ (dofs : Ten Nat) (d : Nat → Nat → Nat), Is2 dofs M.nnode 3 d →
      (∀ m m' i j, m < M.nnode → m' < M.nnode → i < 3 → j < 3 → i ≠ j → d m i ≠ d m' j) →
      ∀ (rho : Ten α) (ρ₀ : α), 0 < ρ₀ → Is2 rho M.nelem 8 (fun _ _ => ρ₀) →
      ∀ material : List (Ten α) → Res (Ten α), Responds3 M.nelem material →
      ∀ (dt : α) (u v a fext : Ten α) (U : Nat → Nat → α) (V A B : Nat → α), Is2 u M.nnode 3 U → Is2 v M.nnode 3 (fun m i => V (d m i)) →
      Is2 a M.nnode 3 (fun m i => A (d m i)) → Is2 fext M.nnode 3 (fun m i => B (d m i)) → ∀ k : Nat,
      IsOk (do
        let conn ← M.conn
        let coor ← M.coor
        let (D, mass) ← Dynamics.new3 s σ conn dofs coor rho
        let S ← D.run3 dt material fext υ k ⟨u, v, a, mass, []⟩
        return (mass, S)) fun t => ∃ (N : Nat) (μ Vn : Nat → α), NumDofs3 M.nnode d N ∧ Is1 t.1.A N μ ∧ Is2 t.2.v M.nnode 3 (fun m i => Vn (d m i)) ∧
          (∀ m i, m < M.nnode → i < 3 → 0 < μ (d m i)) ∧
          ∀ i, i < 3 → ∑ j ∈ compDofs M.nnode d i, μ j = ρ₀ *
            (h * (nelx : α) * (h * ((FineLayerSpec.height (fun i => g (FineLayerSpec.dist n i)) (2 * n - 1) : Nat) : α)) * (h * (nelz : α))) ∧
          (∑ j ∈ compDofs M.nnode d i, μ j * A j = ∑ j ∈ compDofs M.nnode d i, B j →
            ∑ j ∈ compDofs M.nnode d i, μ j * Vn j = ∑ j ∈ compDofs M.nnode d i, μ j * V j + (k : α) * dt * ∑ j ∈ compDofs M.nnode d i, B j) := by
  obtain ⟨M, n, wx, wz, g, r, ct, x, t, c, st, h1, h3, h4, e1, e2, e3, e4, hF, -, hused, -⟩ := C67_mesh (α := α) nelx nely nelz hy h nfine
  have hL := FineLayer3.layers_of_half h3
  have hM : HexMesh M.nnode M.nelem c x := by
    refine ⟨FineLayer3.nnode_pos hx hz hF hL, hF.valid, hused hx hz, fun e m he hm => ?_⟩
    have b : ∀ i, -1 ≤ (1 : α) * corner8 m i ∧ (1 : α) * corner8 m i ≤ 1 := gauss8_in (by linarith) le_rfl m
    simp only [one_mul] at b
    exact FineLayer3.det8_pos hh hF hL he (b 0) (b 1) (b 2)
  refine ⟨M, n, wx, wz, g, r, h1, h4, fun dofs d hd sep rho ρ₀ hρ hr material hm dt u v a fext U V A B hu hv ha hf k => ?_⟩
  have hR : ∀ e q, e < M.nelem → q < 8 → 0 < (fun _ _ : Nat => ρ₀) e q := fun _ _ _ _ => hρ
  obtain ⟨⟨D, mass⟩, t1, N, μ, t2, t3, t4, t5⟩ := C118_mass hM s σ e4 e2 hd hr
  obtain ⟨⟨mass', S⟩, r1, N', μ', r2, r3, r4, W, Vn, An, r5, r6, r7, r8⟩ := C118_momentum hM s σ υ e4 e2 hd hr hR dt hm hu hv ha hf k
  refine ⟨(mass', S), by simp only [e1, e3, Res.ok_bind]; exact r1, N', μ', Vn, r2, r3, r6, ?_⟩
  obtain rfl : mass = mass' := by
    rw [t1, Res.ok_bind] at r1
    dsimp only at r1
    cases hh : D.run3 dt material fext υ k ⟨u, v, a, mass, []⟩ <;> rw [hh] at r1
    · rw [Res.ok_bind] at r1
      have r1' : Res.ok (mass, _) = Res.ok (mass', S) := r1
      injection r1' with r1'
      exact (Prod.mk.inj r1').1
    · cases r1
    · cases r1
  have hN : N = N' := by
    have := t3.1.symm.trans r3.1
    simpa using this
  subst hN
  have hμ : ∀ m i, m < M.nnode → i < 3 → μ (d m i) = μ' (d m i) := fun m i hm hi => t3.unique r3 (t2.1 m i hm hi)
  refine ⟨fun m i hm hi => by rw [← hμ m i hm hi]; exact t4 hR m i hm hi, fun i hi => ⟨?_, r8 sep i hi⟩⟩
  have hs : ∑ j ∈ compDofs M.nnode d i, μ' j = ∑ j ∈ compDofs M.nnode d i, μ j := by
    refine sum_congr rfl fun j hj => ?_
    obtain ⟨m, hm, rfl⟩ := mem_image.1 hj
    exact (hμ m i (mem_range.1 hm) hi).symm
  rw [hs, t5 sep i hi, ← FineLayer3.det8_sum hh hF hL 1]
  simp only [mul_sum, one_mul]


/-- **C118** (Hex8 `Regular`) the program of the example in three dimensions: uniform density, periodic DOFs, an affine displacement as
initial condition, and no load. After any number of increments, for any material, the total mass of each component is `ρ` times the
volume, the total momentum of each component is zero, and the average displacement gradient has its initial value -/
theorem C118_hex8_regular {nelx nely nelz : Nat} (hx : 0 < nelx) (hy : 0 < nely) (hz : 0 < nelz) {h : α} (hh : 0 < h) (s : α)
    (σ : Nat → Sched) (υ : Nat → Nat → Sched) {rho u v fext : Ten α} {ρ₀ : α} (hρ : 0 < ρ₀) (hr : Is2 rho (nelx * nely * nelz) 8 fun _ _ => ρ₀)
    (dt : α) {material : List (Ten α) → Res (Ten α)} (hm : Responds3 (nelx * nely * nelz) material) {U G : Nat → Nat → α}
    (hu : Is2 u ((nelx + 1) * (nely + 1) * (nelz + 1)) 3 U) (hU : ∀ iz iy ix j, iz ≤ nelz → iy ≤ nely → ix ≤ nelx → j < 3 →
      U ((iz * (nely + 1) + iy) * (nelx + 1) + ix) j = G j 0 * (h * (ix : α)) + G j 1 * (h * (iy : α)) + G j 2 * (h * (iz : α)))
    (hv : Is2 v ((nelx + 1) * (nely + 1) * (nelz + 1)) 3 fun _ _ => 0) (hf : Is2 fext ((nelx + 1) * (nely + 1) * (nelz + 1)) 3 fun _ _ => 0)
    (n : Nat) (ρ τ : Sched) :
    let M := Hex8.Regular.new nelx nely nelz h
    IsOk (do
      let conn ← Hex8.Regular.conn M
      let coor ← Hex8.Regular.coor M
      let dofs ← Hex8.Regular.dofsPeriodic M
      let (D, mass) ← Dynamics.new3 s σ conn dofs coor rho
      let S ← D.run3 dt material fext υ n ⟨u, v, v, mass, []⟩
      let g ← gradient3 ρ τ D.vector D.quad S.u
      return (dofs, mass, S, D.quad.vol, g)) fun (dofs, mass, S, dV, g) => ∃ (d : Nat → Nat → Nat) (μ Vn : Nat → α)
        (vol : Nat → Nat → α) (γ : Nat → Nat → Nat → Nat → α),
        Is2 dofs M.nnode 3 d ∧ Is1 mass.A (nelx * nely * nelz * 3) μ ∧ Is2 S.v M.nnode 3 (fun m i => Vn (d m i)) ∧
        Is2 dV M.nelem 8 vol ∧ Is4 g M.nelem 8 3 3 γ ∧
        (∀ m i, m < M.nnode → i < 3 → 0 < μ (d m i)) ∧
        ∀ i, i < 3 → ∑ k ∈ compDofs M.nnode d i, μ k = ρ₀ * (h * (nelx : α) * (h * (nely : α)) * (h * (nelz : α))) ∧
          ∑ k ∈ compDofs M.nnode d i, μ k * Vn k = 0 ∧
          ∀ j, j < 3 → ∑ e ∈ range M.nelem, ∑ q ∈ range 8, γ e q j i * vol e q =
            h * (nelx : α) * (h * (nely : α)) * (h * (nelz : α)) * G i j := by
  intro M
  obtain ⟨c, x, g, ⟨cn, a1, a2⟩, ⟨xt, b1, b2⟩, g1, g2, g3, hB⟩ := C89_hex8_regular hx hy hz hh
  have hM := hB.hexMesh
  obtain ⟨xt', x', pt, P, p1, p2, p3, p4, p5⟩ := C34_nodesPeriodic nelx nely nelz hx hy hz hh
  obtain rfl : xt = xt' := by rw [b1] at p1; injection p1
  have cg : ∀ {y : Nat → Nat → α}, Is2 xt M.nnode 3 y → PeriodicPairs3 M.nnode (h * (nelx : α)) (h * (nely : α)) (h * (nelz : α)) y
      ((nelx + 1) * (nely + 1) * (nelz + 1) - nelx * nely * nelz) P := by
    intro y hy
    have e : ∀ m i, m < M.nnode → i < 3 → x' m i = y m i := fun m i hm hi => p2.unique hy hm hi
    refine ⟨p5.valid, fun k hk => ?_, p5.distinct, p5.independent, fun m hm => ?_⟩
    · have := p5.shift k hk
      rw [e _ _ (p5.valid k 1 hk (by omega)) (by omega), e _ _ (p5.valid k 1 hk (by omega)) (by omega), e _ _ (p5.valid k 1 hk (by omega)) (by omega),
        e _ _ (p5.valid k 0 hk (by omega)) (by omega), e _ _ (p5.valid k 0 hk (by omega)) (by omega), e _ _ (p5.valid k 0 hk (by omega)) (by omega)] at this
      exact this
    · have := p5.dependent m hm
      rw [e m 0 hm (by omega), e m 1 hm (by omega), e m 2 hm (by omega)] at this
      exact this
  obtain ⟨xt', x'', dt', d, q1, q2, q3, q4, q5, q6⟩ := C34_dofsPeriodic nelx nely nelz hx hy hz hh
  obtain rfl : xt = xt' := by rw [b1] at q1; injection q1
  obtain ⟨sep, shared⟩ := periodic_shared3 (d := d) (cg q2) q5
  have p6 : PeriodicPairs3 M.nnode (h * ((g.nx : Nat) : α)) (h * ((g.ny : Nat) : α)) (h * ((g.nz : Nat) : α)) x
      ((nelx + 1) * (nely + 1) * (nelz + 1) - nelx * nely * nelz) P := by
    rw [g1, g2, g3]
    exact cg b2
  have hR : ∀ e q, e < M.nelem → q < 8 → 0 < (fun _ _ : Nat => ρ₀) e q := fun _ _ _ _ => hρ
  have eU : ∀ m j, m < M.nnode → j < 3 → U m j = G j 0 * x m 0 + G j 1 * x m 1 + G j 2 * x m 2 := by
    intro m j hm hj
    obtain ⟨xt', k1, k2⟩ := Hex8.Regular.coor_spec nelx nely nelz h
    obtain rfl : xt = xt' := by rw [b1] at k1; injection k1
    obtain ⟨ix, iy, iz, bx, by', bz, rfl⟩ := enc_exists (show m < (nelx + 1) * (nely + 1) * (nelz + 1) from hm)
    obtain ⟨f1, f2, f3⟩ := gridCoor3_enc h (z := iz) bx by'
    rw [b2.unique k2 hm (by omega), b2.unique k2 hm (by omega), b2.unique k2 hm (by omega), f1, f2, f3]
    have := hU iz iy ix j (by omega) (by omega) (by omega) hj
    rw [← this]
    congr 1
  have hU' : ∀ k j, k < (nelx + 1) * (nely + 1) * (nelz + 1) - nelx * nely * nelz → j < 3 →
      U (P k 1) j - U (P k 0) j = ∑ l ∈ range 3, G j l * (x (P k 1) l - x (P k 0) l) := by
    intro k j hk hj
    rw [eU _ j (p6.valid k 1 hk (by omega)) hj, eU _ j (p6.valid k 0 hk (by omega)) hj, sum_range_succ, sum_range_succ, sum_range_succ, sum_range_zero]
    ring
  obtain ⟨⟨D, mass⟩, t1, N, μ, t2, t3, t4, t5⟩ := C118_mass hM s σ a2 b2 q4 hr
  obtain ⟨⟨mass', S⟩, r1, N', μ', r2, r3, r4, W, Vn, An, r5, r6, r7, r8⟩ := C118_momentum (V := fun _ => 0) (A := fun _ => 0) (B := fun _ => 0)
    hM s σ υ a2 b2 q4 hr hR dt hm hu hv hv hf n
  obtain ⟨⟨dV, gt⟩, j1, vol, γ, j2, j3, j4⟩ := C118_macroscopic (V := fun _ => 0) (A := fun _ => 0) (B := fun _ => 0)
    hB hM (fun a _ => by simp) s σ υ a2 b2 q4 hr hR dt hm hu hv hv hf n p6 shared hU' ρ τ
  have a1' : Hex8.Regular.conn M = .ok cn := a1
  have b1' : Hex8.Regular.coor M = .ok xt := b1
  have q3' : Hex8.Regular.dofsPeriodic M = .ok dt' := q3
  rw [t1, Res.ok_bind] at r1 j1
  dsimp only at r1 j1
  cases hh' : D.run3 dt material fext υ n ⟨u, v, v, mass, []⟩ with
  | ok S' =>
    rw [hh', Res.ok_bind] at r1 j1
    have r1' : Res.ok (mass, S') = Res.ok (mass', S) := r1
    injection r1' with r1'
    obtain ⟨rfl, rfl⟩ := Prod.mk.inj r1'
    cases hg : gradient3 ρ τ D.vector D.quad S'.u with
    | ok g' =>
      rw [hg, Res.ok_bind] at j1
      have j1' : Res.ok (D.quad.vol, g') = Res.ok (dV, gt) := j1
      injection j1' with j1'
      obtain ⟨rfl, rfl⟩ := Prod.mk.inj j1'
      have hN : N = nelx * nely * nelz * 3 := by
        obtain ⟨t6, m, i, hm, hi, rfl⟩ := t2
        have h1 := (q6 (d m i)).1 ⟨m, i, hm, hi, rfl⟩
        obtain ⟨m', i', hm', hi', e'⟩ := (q6 (nelx * nely * nelz * 3 - 1)).2 (by omega)
        have := t6 m' i' hm' hi'
        omega
      subst hN
      have hN' : N' = nelx * nely * nelz * 3 := by
        have := r3.1.symm.trans t3.1
        simpa using this
      subst hN'
      have vol1 : ∑ e ∈ range M.nelem, ∑ q ∈ range 8, det8 (fun m i => x (c e m) i) (corner8 q 0) (corner8 q 1) (corner8 q 2) =
          h * (nelx : α) * (h * (nely : α)) * (h * (nelz : α)) := by
        have := hB.volume 1
        simp only [cellVol3, one_mul] at this
        rw [this, g1, g2, g3]
        simp
      refine ⟨(dt', mass, S', D.quad.vol, g'), by simp only [a1', b1', q3', t1, hh', hg, Res.ok_bind]; rfl, d, μ, Vn, vol, γ, q4, t3, r6, j2, j3,
        t4 hR, fun i hi => ⟨?_, ?_, fun j hj => ?_⟩⟩
      · rw [t5 sep i hi, ← vol1]
        simp only [mul_sum]
        rfl
      · have := r8 sep i hi (by simp)
        simp only [mul_zero, sum_const_zero, add_zero] at this
        rw [← this]
        refine sum_congr rfl fun k hk => ?_
        obtain ⟨m, hm, rfl⟩ := mem_image.1 hk
        rw [t3.unique r3 (t2.1 m i (mem_range.1 hm) hi)]
      · rw [j4 j i hj hi, g1, g2, g3]
    | _ => rw [hg] at j1; cases j1
  | _ => rw [hh'] at r1; cases r1


/-- a linear elastic material without memory: `Ten.of` of `C : E` -/
private def linear3 (ne : Nat) (C : Nat → Nat → Nat → Nat → ℚ) : List (Ten ℚ) → Res (Ten ℚ)
  | [] => .ub
  | t :: _ => .ok (Ten.of [ne, 8, 3, 3] fun i => match i with
    | [e, q, i, j] => ∑ k ∈ range 3, ∑ l ∈ range 3, C i j k l * (t.v [e, q, l, k]).getD 0
    | _ => 0)

private theorem linear3_ok (ne : Nat) (C : Nat → Nat → Nat → Nat → ℚ) :
    HistoryFree3 ne (linear3 ne C) (fun E e q => ddot 3 C (E e q)) ∧ Responds3 ne (linear3 ne C) := by
  have hist : HistoryFree3 ne (linear3 ne C) (fun E e q => ddot 3 C (E e q)) := by
    intro t l E hE
    refine ⟨_, rfl, rfl, fun e q i j he hq hi hj => congrArg some ?_⟩
    refine sum_congr rfl fun k hk => sum_congr rfl fun l hl => ?_
    rw [hE.2 e q l k he hq (mem_range.1 hl) (mem_range.1 hk)]
    rfl
  refine ⟨hist, fun l hl hE => ?_⟩
  cases l with
  | nil => exact absurd rfl hl
  | cons t l =>
    obtain ⟨E, h1⟩ := hE t (by simp)
    obtain ⟨s, h2, h3⟩ := hist t l E h1
    exact ⟨s, h2, _, h3⟩

/-- the hypotheses can be met: a 3 x 2 x 1 mesh with an isotropic material, sheared, and released for 100 increments -/
example : ∃ (material : List (Ten ℚ) → Res (Ten ℚ)) (C : Nat → Nat → Nat → Nat → ℚ), Responds3 6 material ∧
    HistoryFree3 6 material (fun E e q => ddot 3 C (E e q)) ∧
    C 0 1 0 1 = 1 ∧ ∃ rho u v : Ten ℚ, IsOk (do
      let M := Hex8.Regular.new 3 2 1 (1 : ℚ)
      let conn ← Hex8.Regular.conn M
      let coor ← Hex8.Regular.coor M
      let dofs ← Hex8.Regular.dofsPeriodic M
      let (D, mass) ← Dynamics.new3 (1 / 2) (fun _ => Sched.seq) conn dofs coor rho
      let S ← D.run3 (1 / 10) material v (fun _ _ => Sched.seq) 100 ⟨u, v, v, mass, []⟩
      let g ← gradient3 Sched.seq Sched.rev D.vector D.quad S.u
      return (dofs, mass, S, D.quad.vol, g)) fun t => ∃ (vol : Nat → Nat → ℚ) (γ : Nat → Nat → Nat → Nat → ℚ), Is2 t.2.2.2.1 6 8 vol ∧
        Is4 t.2.2.2.2 6 8 3 3 γ ∧
        ∑ e ∈ range 6, ∑ q ∈ range 8, γ e q 1 0 * vol e q = 6 * (1 / 20) := by
  obtain ⟨hist, resp⟩ := linear3_ok 6 fun i j k l => isotropic (1 : ℚ) 1 i j k l
  refine ⟨_, _, resp, hist, by norm_num [isotropic], Ten.of [6, 8] fun _ => 1, Ten.of [24, 3] fun i => match i with
    | [m, 0] => 1 / 20 * ((m / 4 % 3 : Nat) : ℚ)
    | _ => 0, Ten.of [24, 3] fun _ => 0, ?_⟩
  obtain ⟨t, t1, d, μ, Vn, vol, γ, -, -, -, t2, t3, -, t4⟩ := C118_hex8_regular (nelx := 3) (nely := 2) (nelz := 1) (by omega) (by omega) (by omega)
    (h := (1 : ℚ)) (by norm_num) (1 / 2) (fun _ => Sched.seq) (fun _ _ => Sched.seq) (ρ₀ := 1) (by norm_num)
    (is2_of 6 8 fun _ => 1) (1 / 10) resp (G := fun i j => if i = 0 ∧ j = 1 then 1 / 20 else 0) (is2_of 24 3 fun i => match i with
    | [m, 0] => 1 / 20 * ((m / 4 % 3 : Nat) : ℚ)
    | _ => 0) (by
      intro iz iy ix j hk hi hj hjj
      have hm : ((iz * (2 + 1) + iy) * (3 + 1) + ix) / 4 % 3 = iy := by omega
      obtain rfl | hj : j = 0 ∨ j ≠ 0 := by omega
      · change 1 / 20 * ((((iz * (2 + 1) + iy) * (3 + 1) + ix) / 4 % 3 : Nat) : ℚ) = _
        rw [hm]
        norm_num
      · obtain ⟨j, rfl⟩ : ∃ k, j = k + 1 := ⟨j - 1, by omega⟩
        change (0 : ℚ) = _
        norm_num) (is2_of 24 3 fun _ => 0) (is2_of 24 3 fun _ => 0) 100 Sched.seq Sched.rev
  have := (t4 0 (by omega)).2.2 1 (by omega)
  refine ⟨t, t1, vol, γ, t2, t3, this.trans ?_⟩
  norm_num

end GF
