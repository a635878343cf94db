import Verif.Lemmas.Dynamics
import Verif.Props.PeriodicCell

/-! **C83** (lumped mass), **C84** (momentum), **C85** (energy and reversibility): the time integration of
docs/examples/dynamics. -/

namespace GF
open Finset ElemSpec Element Element.Quad4

variable {α : Type} [Field α] [LinearOrder α] [IsStrictOrderedRing α]
variable {nn ne : Nat} {c d : Nat → Nat → Nat} {x : Nat → Nat → α} {Lx Ly : α} {O : Outline}

/-- what the constructors return -/
theorem dynamics_new (hM : RectMesh nn ne c x Lx Ly O) {s : α} (s1 : -1 ≤ s) (s2 : s ≤ 1) (σ : Nat → Sched) {conn dofs : Ten Nat} {coor rho : Ten α}
    (hc : Is2 conn ne 4 c) (hx : Is2 coor nn 2 x) (hd : Is2 dofs nn 2 d) {R : Nat → Nat → α} (hr : Is2 rho ne 4 R) :
    ∃ D M, Dynamics.new s σ conn dofs coor rho = .ok (D, M) ∧ D.State nn ne c d x s ∧ M.V = D.vector ∧
      M.Holds c d (some (lumped x ne c d R)) ∧ NumDofs nn d D.vector.ndof := by
  obtain ⟨V, Q, h1, hV, e1, e2, e3, e4, e5, hQ, -⟩ := hM.setup s1 s2 (σ 0) (σ 1) hc hx hd
  obtain ⟨xe, x1, x2⟩ := C03_element_of_node hV (σ 2) (x := coor) (g := x) (by rw [e3, e4]; exact hx)
  rw [e1, e2, e4] at x2
  obtain ⟨xi, r1, r2⟩ := nodal_ok (α := α)
  obtain ⟨w, r3, r4⟩ := (weights_ok (α := α)).2
  obtain ⟨Q', r5, hQ'⟩ := C53_constructor (σ 3) x2 r2 r4
  obtain ⟨V', K, vol, k1, k2, k3⟩ : ∃ V' K vol, IsOk (Int_N_scalar_NT_dV Q' (σ 4) rho) (fun t => t = K ∧ ∃ k, Is3 t ne 8 8 k ∧
      ∀ e m i, e < ne → m < 4 → i < 2 → k e (m * 2 + i) (m * 2 + i) = R e m * vol e m) ∧ V' = V ∧
      vol = fun e q => det4 (fun m i => x (c e m) i) (1 * corner4 q 0) (1 * corner4 q 1) := by
    obtain ⟨t, h7, k, h8, h9⟩ := mass_live hQ' (σ 4) hr (C46_volume hQ')
    refine ⟨V, t, _, ⟨t, h7, rfl, k, h8, fun e m i he hm hi => ?_⟩, rfl, rfl⟩
    have hN : ∀ m n, m < 4 → n < 4 → N4 m (1 * corner4 n 0 : α) (1 * corner4 n 1) = if m = n then 1 else 0 := by
      intro m n hm hn
      rw [one_mul, one_mul, N4_corner hm hn]
    rw [h9 e m m i i he hm hm hi hi, if_pos rfl, sum_eq_single m]
    · rw [hN m m hm hm, if_pos rfl]; ring
    · intro q hq hne
      rw [hN m q hm (mem_range.1 hq), if_neg (Ne.symm hne)]; ring
    · intro h; exact absurd (mem_range.2 hm) h
  obtain ⟨t, k4, rfl, k, k5, k6⟩ := k1
  subst k3
  obtain ⟨M, m1, m2, m3⟩ := C23_constructor (α := α) hc hd hM.valid
  obtain rfl : V = M.V := by
    have : Vector.new conn dofs = .ok V := by
      rw [setup] at h1
      rw [m2, Res.ok_bind] at h1
      obtain ⟨xe', y1, y2⟩ : ∃ xe' , M.V.AsElement (σ 0) coor = .ok xe' ∧ True := by
        cases hh : M.V.AsElement (σ 0) coor <;> rw [hh] at h1
        · exact ⟨_, rfl, trivial⟩
        · cases h1
        · cases h1
      rw [y1, Res.ok_bind] at h1
      cases hh : newGauss s (σ 1) xe' <;> rw [hh] at h1
      · rw [Res.ok_bind] at h1
        have h1' : Res.ok (M.V, _) = Res.ok (V, Q) := h1
        injection h1' with h1'
        rw [m2, (Prod.mk.inj h1').1]
      · cases h1
      · cases h1
    rw [m2] at this
    injection this with this
    exact this.symm
  obtain ⟨M', a1, a2, a3, a4⟩ := C23_assemble m3 (K := t) (k := k) (by rw [e1, e2, e4]; exact k5)
  refine ⟨⟨M.V, Q⟩, M', ?_, ⟨hV, ⟨e1, e2, e3, e4⟩, hQ⟩, a2, ?_, ?_⟩
  · simp only [Dynamics.new, h1, x1, r1, r3, r5, m1, k4, a1, Res.ok_bind]
    rfl
  · have : diagAssembled M.V c d k = lumped x ne c d R := by
      funext r
      rw [diagAssembled, lumped, e1, e2, e4]
      refine sum_congr rfl fun e he => sum_congr rfl fun m hm => sum_congr rfl fun i hi => ?_
      rw [mem_range] at he hm hi
      rw [k6 e m i he hm hi]
    rw [← this]
    exact a3
  · obtain ⟨m, i, hm, hi, hh⟩ := e5
    exact ⟨fun m i hm hi => hV.dofs_lt m i (by omega) (by omega), m, i, hm, hi, hh⟩

/-- volumes of the nodal rule -/
theorem nodal_pos (hM : RectMesh nn ne c x Lx Ly O) {e m : Nat} (he : e < ne) : 0 < det4 (fun m i => x (c e m) i) (1 * corner4 m 0) (1 * corner4 m 1) := by
  have hb : ∀ q i, -1 ≤ (1 : α) * corner4 q i ∧ (1 : α) * corner4 q i ≤ 1 := by
    intro q i
    have : corner4 (α := α) q i = 1 ∨ corner4 (α := α) q i = -1 := by unfold corner4; split <;> simp
    rcases this with h | h <;> rw [h] <;> constructor <;> linarith
  exact det_pos (hM.convex e he) (hb m 0).1 (hb m 0).2 (hb m 1).1 (hb m 1).2

/-- **C83** (lumped mass) the diagonal that is assembled with the nodal quadrature rule is positive on every DOF, and adds up
over the DOFs of each component to the integral of the density (`ρ Lx Ly` if it is uniform) -/
theorem C83_mass (hM : RectMesh nn ne c x Lx Ly O) (lx : 0 < Lx) (ly : 0 < Ly) {s : α} (s1 : -1 ≤ s) (s2 : s ≤ 1) (σ : Nat → Sched) {conn dofs : Ten Nat}
    {coor rho : Ten α} (hc : Is2 conn ne 4 c) (hx : Is2 coor nn 2 x) (hd : Is2 dofs nn 2 d) {R : Nat → Nat → α} (hr : Is2 rho ne 4 R) :
    IsOk (Dynamics.new s σ conn dofs coor rho) fun t => ∃ (n : Nat) (mass : Nat → α) (vol : Nat → Nat → α), NumDofs nn d n ∧ Is1 t.2.A n mass ∧
      (∀ e q, e < ne → q < 4 → 0 < vol e q) ∧ ∑ e ∈ range ne, ∑ q ∈ range 4, vol e q = Lx * Ly ∧
      ((∀ e q, e < ne → q < 4 → 0 < R e q) → ∀ m i, m < nn → i < 2 → 0 < mass (d m i)) ∧
      ((∀ m m', m < nn → m' < nn → d m 0 ≠ d m' 1) → ∀ i, i < 2 →
        ∑ k ∈ compDofs nn d i, mass k = ∑ e ∈ range ne, ∑ q ∈ range 4, R e q * vol e q ∧
        ∀ ρ, (∀ e q, e < ne → q < 4 → R e q = ρ) → ∑ k ∈ compDofs nn d i, mass k = ρ * (Lx * Ly)) := by
  obtain ⟨D, M, h1, h2, h3, h4, h5⟩ := dynamics_new hM s1 s2 σ hc hx hd hr
  have hA := h4.A _ rfl
  rw [h3] at hA
  have area : ∑ e ∈ range ne, ∑ q ∈ range 4, det4 (fun m i => x (c e m) i) (1 * corner4 q 0) (1 * corner4 q 1) = Lx * Ly := by
    rw [← C73_area hM]
    exact sum_congr rfl fun e _ => det4_sum _ 1
  have tot : (∀ m m', m < nn → m' < nn → d m 0 ≠ d m' 1) → ∀ i, i < 2 → ∑ k ∈ compDofs nn d i, lumped x ne c d R k =
      ∑ e ∈ range ne, ∑ q ∈ range 4, R e q * det4 (fun m i => x (c e m) i) (1 * corner4 q 0) (1 * corner4 q 1) :=
    fun hsep i hi => comp_sum hM.valid hsep hi fun e m _ => R e m * det4 (fun m i => x (c e m) i) (1 * corner4 m 0) (1 * corner4 m 1)
  refine ⟨(D, M), h1, _, _, fun e q => det4 (fun m i => x (c e m) i) (1 * corner4 q 0) (1 * corner4 q 1), h5, hA,
    fun e q he _ => nodal_pos hM he, area, fun hR m i hm hi => ?_, fun hsep i hi => ⟨tot hsep i hi, fun ρ hρ => ?_⟩⟩
  · obtain ⟨e, a, he, ha, rfl⟩ := hM.used lx ly m hm
    refine sum_pos' (fun e he => sum_nonneg fun m hm => sum_nonneg fun i _ => ?_) ⟨e, mem_range.2 he, sum_pos' (fun m hm => sum_nonneg fun i _ => ?_)
      ⟨a, mem_range.2 ha, sum_pos' (fun i _ => ?_) ⟨i, mem_range.2 hi, ?_⟩⟩⟩
    · split
      · exact (mul_pos (hR _ _ (mem_range.1 he) (mem_range.1 hm)) (nodal_pos hM (mem_range.1 he))).le
      · exact le_rfl
    · split
      · exact (mul_pos (hR _ _ he (mem_range.1 hm)) (nodal_pos hM he)).le
      · exact le_rfl
    · split
      · exact (mul_pos (hR _ _ he ha) (nodal_pos hM he)).le
      · exact le_rfl
    · rw [if_pos rfl]
      exact mul_pos (hR _ _ he ha) (nodal_pos hM he)
  · rw [tot hsep i hi, ← area, mul_sum]
    refine sum_congr rfl fun e he => ?_
    rw [mul_sum]
    refine sum_congr rfl fun q hq => ?_
    rw [hρ e q (mem_range.1 he) (mem_range.1 hq)]

/-! ### Momentum -/

/-- the internal forces add up to zero -/
theorem force_total (hM : RectMesh nn ne c x Lx Ly O) (hsep : ∀ m m', m < nn → m' < nn → d m 0 ≠ d m' 1) {i : Nat} (hi : i < 2) (s : α)
    (vol : Nat → Nat → α) (S : Nat → Nat → Nat → Nat → α) :
    ∑ k ∈ compDofs nn d i, forceOf ne c d (dynG s x c) vol S k = 0 := by
  refine (comp_sum hM.valid hsep hi fun e m i => ∑ q ∈ range 4, (∑ j ∈ range 2, dynG s x c e q m j * S e q j i) * vol e q).trans ?_
  refine sum_eq_zero fun e _ => ?_
  exact equilibrium (nne := 4) (nd := 2) (nip := 4) (G := dynG s x c) (S := S) (e := e) (V := vol)
    (fun q i _ _ => G_sum _ _ e q i) i

/-- **C84** (Newton's second law) for any material, also if its stress depends on the history, any number of increments
succeeds; the displacement changes, and the velocity and acceleration are, equal on nodes that share a DOF; and if the initial
acceleration is balanced in total, the momentum of each component grows with the total load: it is conserved without load -/
theorem C84_momentum (hM : RectMesh nn ne c x Lx Ly O) (lx : 0 < Lx) (ly : 0 < Ly) {s : α} (s1 : -1 ≤ s) (s2 : s ≤ 1) (σ : Nat → Sched)
    (υ : Nat → Nat → Sched) {conn dofs : Ten Nat} {coor rho : Ten α} (hc : Is2 conn ne 4 c) (hx : Is2 coor nn 2 x) (hd : Is2 dofs nn 2 d)
    {R : Nat → Nat → α} (hr : Is2 rho ne 4 R) (hR : ∀ e q, e < ne → q < 4 → 0 < R e q) (dt : α) {material : List (Ten α) → Res (Ten α)}
    (hm : Responds ne material) {u v a fext : Ten α} {U : Nat → Nat → α} {V A B : Nat → α} (hu : Is2 u nn 2 U) (hv : Is2 v nn 2 fun m i => V (d m i))
    (ha : Is2 a nn 2 fun m i => A (d m i)) (hf : Is2 fext nn 2 fun m i => B (d m i)) (n : Nat) :
    IsOk (do
      let (D, M) ← Dynamics.new s σ conn dofs coor rho
      let S ← D.run dt material fext υ n ⟨u, v, a, M, []⟩
      return (M, S)) fun t => ∃ N mass, NumDofs nn d N ∧ Is1 t.1.A N mass ∧ Is1 t.2.M.A N mass ∧ ∃ W Vn An : Nat → α,
        Is2 t.2.u nn 2 (fun m i => U m i + W (d m i)) ∧ Is2 t.2.v nn 2 (fun m i => Vn (d m i)) ∧ Is2 t.2.a nn 2 (fun m i => An (d m i)) ∧
        ((∀ m m', m < nn → m' < nn → d m 0 ≠ d m' 1) → ∀ i, i < 2 → ∑ k ∈ compDofs nn d i, mass k * A k = ∑ k ∈ compDofs nn d i, B k →
          ∑ k ∈ compDofs nn d i, mass k * Vn k = ∑ k ∈ compDofs nn d i, mass k * V k + (n : α) * dt * ∑ k ∈ compDofs nn d i, B k) := by
  obtain ⟨D, M, h1, h2, h3, h4, h5⟩ := dynamics_new hM s1 s2 σ hc hx hd hr
  have hA := h4.A _ rfl
  rw [h3] at hA
  obtain ⟨t, g1, N, mass, vol, g2, g3, -, -, g4, -⟩ := C83_mass hM lx ly s1 s2 σ hc hx hd hr
  obtain rfl : (D, M) = t := by rw [h1] at g1; injection g1
  have hN : N = D.vector.ndof := by
    have := g3.1.symm.trans hA.1
    simpa using this
  subst hN
  have pos : ∀ m i, m < nn → i < 2 → lumped x ne c d R (d m i) ≠ 0 := fun m i hm hi => by
    rw [← g3.unique hA (g2.1 m i hm hi)]
    exact (g4 hR m i hm hi).ne'
  have key : ∃ S, D.run dt material fext υ n ⟨u, v, a, M, []⟩ = .ok S ∧ S.M.A = M.A ∧ ∃ W Vn An : Nat → α,
      S.Is D nn ne c d (lumped x ne c d R) (fun m i => U m i + W (d m i)) Vn An ∧
      ((∀ m m', m < nn → m' < nn → d m 0 ≠ d m' 1) → ∀ i, i < 2 →
          ∑ k ∈ compDofs nn d i, lumped x ne c d R k * A k = ∑ k ∈ compDofs nn d i, B k →
          ∑ k ∈ compDofs nn d i, lumped x ne c d R k * An k = ∑ k ∈ compDofs nn d i, B k ∧
          ∑ k ∈ compDofs nn d i, lumped x ne c d R k * Vn k =
            ∑ k ∈ compDofs nn d i, lumped x ne c d R k * V k + (n : α) * dt * ∑ k ∈ compDofs nn d i, B k) := by
    induction n with
    | zero =>
      refine ⟨_, rfl, rfl, fun _ => 0, V, A, ⟨by simpa only [add_zero] using hu, hv, ha, h4, h3, by simp⟩, fun hsep i hi h0 => ⟨h0, by simp⟩⟩
    | succ n ih =>
      obtain ⟨S, i1, i0, W, Vn, An, i2, i3⟩ := ih
      obtain ⟨S', T, j1, -, j0, j2⟩ := h2.step_ok dt (material := material) hf (υ n) i2 (P := fun _ => True) fun t ht => by
        obtain ⟨r, r1, T, r2⟩ := hm (t :: S.strains) (by simp) (fun t' ht' => by
          rcases List.mem_cons.1 ht' with rfl | ht'
          · exact ⟨_, ht⟩
          · exact i2.strains _ ht')
        exact ⟨r, r1, T, r2, trivial⟩
      refine ⟨S', by rw [Dynamics.run, i1, Res.ok_bind]; exact j1, j0.trans i0, fun k => W k + (dt * Vn k + 1 / 2 * dt ^ 2 * An k),
        fun k => Vn k + 1 / 2 * dt * (An k + (B k - forceOf ne c d (dynG s x c) (dynVol s x c) T k) / lumped x ne c d R k),
        fun k => (B k - forceOf ne c d (dynG s x c) (dynVol s x c) T k) / lumped x ne c d R k, ?_, ?_⟩
      · simp only [add_assoc] at j2 ⊢
        exact j2
      · intro hsep i hi h0
        obtain ⟨k1, k2⟩ := i3 hsep i hi h0
        have a1 : ∑ k ∈ compDofs nn d i, lumped x ne c d R k *
            ((B k - forceOf ne c d (dynG s x c) (dynVol s x c) T k) / lumped x ne c d R k) = ∑ k ∈ compDofs nn d i, B k := by
          have : ∀ k ∈ compDofs nn d i, lumped x ne c d R k *
              ((B k - forceOf ne c d (dynG s x c) (dynVol s x c) T k) / lumped x ne c d R k) =
              B k - forceOf ne c d (dynG s x c) (dynVol s x c) T k := by
            intro k hk
            obtain ⟨m, hm, rfl⟩ := mem_image.1 hk
            rw [mul_div_cancel₀ _ (pos m i (mem_range.1 hm) hi)]
          rw [sum_congr rfl this, sum_sub_distrib, force_total hM hsep hi, sub_zero]
        refine ⟨a1, ?_⟩
        rw [sum_congr rfl fun k _ => show lumped x ne c d R k * (Vn k + 1 / 2 * dt * (An k +
          (B k - forceOf ne c d (dynG s x c) (dynVol s x c) T k) / lumped x ne c d R k)) = lumped x ne c d R k * Vn k +
            1 / 2 * dt * (lumped x ne c d R k * An k + lumped x ne c d R k *
            ((B k - forceOf ne c d (dynG s x c) (dynVol s x c) T k) / lumped x ne c d R k)) by ring, sum_add_distrib, ← mul_sum,
          sum_add_distrib, k1, a1, k2]
        push_cast
        ring
  obtain ⟨S, k1, k0, W, Vn, An, k2, k3⟩ := key
  refine ⟨(M, S), by simp only [h1, Res.ok_bind, k1]; rfl, _, _, h5, hA, by rw [k0]; exact hA, W, Vn, An, k2.u, k2.v, k2.a,
    fun hsep i hi h0 => (k3 hsep i hi h0).2⟩

/-- **C84** (macroscopic deformation) if nodes of a periodic pair share their DOFs and the initial displacement is periodic up
to the gradient `G` (as set up in the example), then the average of the gradient of the displacement is `G` after any number of
increments -/
theorem C84_macroscopic (hM : RectMesh nn ne c x Lx Ly O) (lx : 0 < Lx) (ly : 0 < Ly) {s : α} (s1 : -1 ≤ s) (s2 : s ≤ 1) (σ : Nat → Sched)
    (υ : Nat → Nat → Sched) {conn dofs : Ten Nat} {coor rho : Ten α} (hc : Is2 conn ne 4 c) (hx : Is2 coor nn 2 x) (hd : Is2 dofs nn 2 d)
    {R : Nat → Nat → α} (hr : Is2 rho ne 4 R) (hR : ∀ e q, e < ne → q < 4 → 0 < R e q) (dt : α) {material : List (Ten α) → Res (Ten α)}
    (hm : Responds ne material) {u v a fext : Ten α} {U : Nat → Nat → α} {V A B : Nat → α} (hu : Is2 u nn 2 U) (hv : Is2 v nn 2 fun m i => V (d m i))
    (ha : Is2 a nn 2 fun m i => A (d m i)) (hf : Is2 fext nn 2 fun m i => B (d m i)) (n : Nat)
    {np : Nat} {P : Nat → Nat → Nat} (hP : PeriodicPairs nn Lx Ly x np P) (hPd : ∀ k i, k < np → i < 2 → d (P k 1) i = d (P k 0) i)
    {G : Nat → Nat → α} (hU : ∀ k j, k < np → j < 2 → U (P k 1) j - U (P k 0) j = ∑ l ∈ range 2, G j l * (x (P k 1) l - x (P k 0) l)) (ρ τ : Sched) :
    IsOk (do
      let (D, M) ← Dynamics.new s σ conn dofs coor rho
      let S ← D.run dt material fext υ n ⟨u, v, a, M, []⟩
      let g ← gradient ρ τ D.vector D.quad S.u
      return (D.quad.vol, g)) fun t => ∃ vol g, Is2 t.1 ne 4 vol ∧ Is4 t.2 ne 4 2 2 g ∧ ∀ i j, i < 2 → j < 2 →
        ∑ e ∈ range ne, ∑ q ∈ range 4, g e q i j * vol e q = Lx * Ly * G j i := by
  obtain ⟨D, M, h1, h2, h3, h4, h5⟩ := dynamics_new hM s1 s2 σ hc hx hd hr
  obtain ⟨⟨M', S⟩, t1, N, mass, -, -, -, W, Vn, An, t2, -⟩ := C84_momentum hM lx ly s1 s2 σ υ hc hx hd hr hR dt hm hu hv ha hf n
  rw [h1, Res.ok_bind] at t1
  obtain ⟨S', k1, k2⟩ : ∃ S', D.run dt material fext υ n ⟨u, v, a, M, []⟩ = .ok S' ∧ S' = S := by
    dsimp only at t1
    cases hh : D.run dt material fext υ n ⟨u, v, a, M, []⟩ <;> rw [hh] at t1
    · rw [Res.ok_bind] at t1
      have t1' : Res.ok (M, _) = Res.ok (M', S) := t1
      injection t1' with t1'
      exact ⟨_, rfl, (Prod.mk.inj t1').2⟩
    · cases t1
    · cases t1
  subst k2
  obtain ⟨e1, e2, e3, e4⟩ := h2.dims
  obtain ⟨ue, u1, u2⟩ := C03_element_of_node h2.vec ρ (x := S'.u) (g := fun m i => U m i + W (d m i)) (by rw [e3, e4]; exact t2)
  rw [e1, e2, e4] at u2
  obtain ⟨gt, g1, g2⟩ := GradN_ok h2.live τ u2
  refine ⟨(D.quad.vol, gt), by simp only [h1, k1, Res.ok_bind, gradient, u1, g1]; rfl, _, _, h2.volume, g2, fun i j hi hj => ?_⟩
  obtain ⟨V', Q', r1, -, -, -, -, -, -, -, hp⟩ := hM.setup s1 s2 Sched.seq Sched.seq hc hx hd
  exact avg_gradient hM lx ly hp hP hj (U := fun m i => U m i + W (d m i)) (A := G) (fun k hk => by
    rw [hPd k j hk hj, add_sub_add_right_eq_sub, hU k j hk hj]
    exact sum_congr rfl fun l _ => mul_comm _ _) hi

/-! ### Energy and reversibility -/

/-- one increment, with a material without memory, as a map on displacement, velocity, and acceleration -/
def verlet (d : Nat → Nat → Nat) (dt : α) (acc : (Nat → Nat → α) → Nat → α) (X : (Nat → Nat → α) × (Nat → α) × (Nat → α)) :
    (Nat → Nat → α) × (Nat → α) × (Nat → α) :=
  let U : Nat → Nat → α := fun m i => X.1 m i + dt * X.2.1 (d m i) + 1 / 2 * dt ^ 2 * X.2.2 (d m i)
  (U, fun k => X.2.1 k + 1 / 2 * dt * (X.2.2 k + acc U k), acc U)

theorem verlet_reverse (dt : α) (acc : (Nat → Nat → α) → Nat → α) (U : Nat → Nat → α) (V : Nat → α) :
    let Y := verlet d dt acc (U, V, acc U)
    verlet d dt acc (Y.1, fun k => - Y.2.1 k, Y.2.2) = (U, fun k => - V k, acc U) := by
  intro Y
  have hU : (verlet d dt acc (Y.1, fun k => - Y.2.1 k, Y.2.2)).1 = U := by
    funext m i
    simp only [Y, verlet]
    ring
  have hA : (verlet d dt acc (Y.1, fun k => - Y.2.1 k, Y.2.2)).2.2 = acc U := by
    rw [← hU]; rfl
  refine Prod.ext hU (Prod.ext ?_ hA)
  funext k
  have : (verlet d dt acc (Y.1, fun k => - Y.2.1 k, Y.2.2)).2.1 k =
      - Y.2.1 k + 1 / 2 * dt * (Y.2.2 k + (verlet d dt acc (Y.1, fun k => - Y.2.1 k, Y.2.2)).2.2 k) := rfl
  rw [this, hA]
  simp only [Y, verlet]
  ring

theorem verlet_balanced (dt : α) (acc : (Nat → Nat → α) → Nat → α) (X) : (verlet d dt acc X).2.2 = acc (verlet d dt acc X).1 := rfl

theorem verlet_reverse_iter (dt : α) (acc : (Nat → Nat → α) → Nat → α) (n : Nat) (X) (h0 : X.2.2 = acc X.1) :
    let Y := (verlet d dt acc)^[n] X
    (verlet d dt acc)^[n] (Y.1, fun k => - Y.2.1 k, Y.2.2) = (X.1, fun k => - X.2.1 k, X.2.2) := by
  induction n with
  | zero => rfl
  | succ n ih =>
    intro Y
    have hb : ∀ n, ((verlet d dt acc)^[n] X).2.2 = acc ((verlet d dt acc)^[n] X).1 := by
      intro n
      cases n with
      | zero => exact h0
      | succ n => rw [Function.iterate_succ_apply']; rfl
    have hY : Y = verlet d dt acc ((verlet d dt acc)^[n] X) := Function.iterate_succ_apply' _ _ _
    rw [Function.iterate_succ_apply, hY]
    have := verlet_reverse (d := d) dt acc ((verlet d dt acc)^[n] X).1 ((verlet d dt acc)^[n] X).2.1
    rw [← hb n] at this
    exact (congrArg _ this).trans ih

/-- a run with a material without memory -/
theorem Dynamics.State.run_ok {D : Dynamics α} {s : α} {mass : Nat → α} (h : D.State nn ne c d x s) (dt : α) {material : List (Ten α) → Res (Ten α)} {Φ}
    (hm : HistoryFree ne material Φ) {fext : Ten α} {B : Nat → α} (hf : Is2 fext nn 2 fun m i => B (d m i)) (υ : Nat → Nat → Sched) (n : Nat)
    {S : Motion α} {X : (Nat → Nat → α) × (Nat → α) × (Nat → α)} (hS : S.Is D nn ne c d mass X.1 X.2.1 X.2.2) :
    ∃ S', D.run dt material fext υ n S = .ok S' ∧ ∀ Y, Y = (verlet d dt (fun U k => (B k - forceOf ne c d (dynG s x c) (dynVol s x c)
      (Φ (strainOf (dynG s x c) c U)) k) / mass k))^[n] X → S'.Is D nn ne c d mass Y.1 Y.2.1 Y.2.2 := by
  induction n with
  | zero => exact ⟨S, rfl, fun Y hY => by rw [hY]; exact hS⟩
  | succ n ih =>
    obtain ⟨S', i1, i2⟩ := ih
    obtain ⟨S'', T, j1, rfl, -, j2⟩ := h.step_ok dt (material := material) hf (υ n) (i2 _ rfl) (P := fun T => T = _) fun t ht => by
      obtain ⟨r, r1, r2⟩ := hm t S'.strains _ ht
      exact ⟨r, r1, _, r2, rfl⟩
    refine ⟨S'', by rw [Dynamics.run, i1, Res.ok_bind]; exact j1, fun Y hY => ?_⟩
    rw [Function.iterate_succ_apply'] at hY
    rw [hY]
    exact j2

theorem run_add (D : Dynamics α) (dt : α) (material : List (Ten α) → Res (Ten α)) (fext : Ten α) (υ : Nat → Nat → Sched) (k n : Nat) (S : Motion α) :
    D.run dt material fext υ (k + n) S = (D.run dt material fext υ k S).bind (D.run dt material fext (fun i => υ (k + i)) n) := by
  induction n with
  | zero => cases h : D.run dt material fext υ k S <;> simp [h, Dynamics.run, Res.bind]
  | succ n ih =>
    rw [← Nat.add_assoc, Dynamics.run, ih]
    cases h : D.run dt material fext υ k S <;> rfl

/-- **C85** (reversibility) for a material without memory: after the first increment, `n` increments, reversal of the velocity,
and again `n` increments lead back to the same state with reversed velocity -/
theorem C85_reversible (hM : RectMesh nn ne c x Lx Ly O) {s : α} (s1 : -1 ≤ s) (s2 : s ≤ 1) (σ : Nat → Sched)
    (υ υ' υ'' : Nat → Nat → Sched) {conn dofs : Ten Nat} {coor rho : Ten α} (hc : Is2 conn ne 4 c) (hx : Is2 coor nn 2 x) (hd : Is2 dofs nn 2 d)
    {R : Nat → Nat → α} (hr : Is2 rho ne 4 R) (dt : α) {material : List (Ten α) → Res (Ten α)} {Φ}
    (hm : HistoryFree ne material Φ) {u v a fext : Ten α} {U : Nat → Nat → α} {V A B : Nat → α} (hu : Is2 u nn 2 U) (hv : Is2 v nn 2 fun m i => V (d m i))
    (ha : Is2 a nn 2 fun m i => A (d m i)) (hf : Is2 fext nn 2 fun m i => B (d m i)) (n : Nat) :
    IsOk (do
      let (D, M) ← Dynamics.new s σ conn dofs coor rho
      let S ← D.run dt material fext υ 1 ⟨u, v, a, M, []⟩
      let T ← D.run dt material fext υ' n S
      let T ← T.reverse
      let T ← D.run dt material fext υ'' n T
      return (S, T)) fun t => ∃ U₁ V₁ A₁, Is2 t.1.u nn 2 U₁ ∧ Is2 t.1.v nn 2 V₁ ∧ Is2 t.1.a nn 2 A₁ ∧
        Is2 t.2.u nn 2 U₁ ∧ Is2 t.2.v nn 2 (fun m i => - V₁ m i) ∧ Is2 t.2.a nn 2 A₁ := by
  obtain ⟨D, M, h1, h2, h3, h4, h5⟩ := dynamics_new hM s1 s2 σ hc hx hd hr
  obtain ⟨S, i1, i2⟩ := h2.run_ok dt hm hf υ 1 (S := ⟨u, v, a, M, []⟩) (X := (U, V, A)) ⟨hu, hv, ha, h4, h3, by simp⟩
  have i3 := i2 _ rfl
  obtain ⟨acc, hacc⟩ : ∃ acc, acc = (fun (U : Nat → Nat → α) (k : Nat) => (B k - forceOf ne c d (dynG s x c) (dynVol s x c)
    (Φ (strainOf (dynG s x c) c U)) k) / lumped x ne c d R k) := ⟨_, rfl⟩
  rw [← hacc, Function.iterate_one] at i3
  obtain ⟨X, hX⟩ : ∃ X, X = verlet d dt acc (U, V, A) := ⟨_, rfl⟩
  rw [← hX] at i3
  have hb : X.2.2 = acc X.1 := by rw [hX]; rfl
  obtain ⟨T, j1, j2⟩ := h2.run_ok dt hm hf υ' n (X := X) i3
  rw [← hacc] at j2
  obtain ⟨Y, hY⟩ : ∃ Y, Y = (verlet d dt acc)^[n] X := ⟨_, rfl⟩
  have j3 := j2 Y hY
  obtain ⟨v', w1, w2⟩ := nodeExpr_ok (fun v _ _ : α => - v) j3.v j3.v j3.v
  obtain ⟨T', k1, k2⟩ := h2.run_ok dt hm hf υ'' n (S := { T with v := v' }) (X := (Y.1, fun k => - Y.2.1 k, Y.2.2))
    ⟨j3.u, w2, j3.a, j3.M, j3.same, j3.strains⟩
  rw [← hacc] at k2
  have k3 := k2 (X.1, fun k => - X.2.1 k, X.2.2) (by
    rw [hY]
    exact (verlet_reverse_iter dt acc n X hb).symm)
  refine ⟨(S, T'), ?_, _, _, _, i3.u, i3.v, i3.a, k3.u, k3.v, k3.a⟩
  simp only [h1, i1, j1, Motion.reverse, w1, Res.ok_bind]
  change (D.run dt material fext υ'' n { T with v := v' } >>= fun T => pure (S, T)) = _
  rw [k1]
  rfl

/-- the energy of a symmetric tangent is a symmetric bilinear form -/
theorem power_comm {C : Nat → Nat → Nat → Nat → α} (hs : ∀ i j k l, i < 2 → j < 2 → k < 2 → l < 2 → C i j k l = C l k j i) (a b : Nat → Nat → α) :
    power 2 (ddot 2 C a) b = power 2 (ddot 2 C b) a := by
  simp only [power, ddot, sum_range_succ, sum_range_zero]
  linear_combination a 0 0 * b 0 0 * hs 0 0 0 0 (by omega) (by omega) (by omega) (by omega) + a 1 0 * b 0 0 * hs 0 0 0 1 (by omega) (by omega) (by omega) (by omega) + a 0 1 * b 0 0 * hs 0 0 1 0 (by omega) (by omega) (by omega) (by omega) + a 1 1 * b 0 0 * hs 0 0 1 1 (by omega) (by omega) (by omega) (by omega) + a 0 0 * b 0 1 * hs 0 1 0 0 (by omega) (by omega) (by omega) (by omega) + a 1 0 * b 0 1 * hs 0 1 0 1 (by omega) (by omega) (by omega) (by omega) + a 0 1 * b 0 1 * hs 0 1 1 0 (by omega) (by omega) (by omega) (by omega) + a 1 1 * b 0 1 * hs 0 1 1 1 (by omega) (by omega) (by omega) (by omega) + a 0 0 * b 1 0 * hs 1 0 0 0 (by omega) (by omega) (by omega) (by omega) + a 1 0 * b 1 0 * hs 1 0 0 1 (by omega) (by omega) (by omega) (by omega) + a 0 1 * b 1 0 * hs 1 0 1 0 (by omega) (by omega) (by omega) (by omega) + a 1 1 * b 1 0 * hs 1 0 1 1 (by omega) (by omega) (by omega) (by omega) + a 0 0 * b 1 1 * hs 1 1 0 0 (by omega) (by omega) (by omega) (by omega) + a 1 0 * b 1 1 * hs 1 1 0 1 (by omega) (by omega) (by omega) (by omega) + a 0 1 * b 1 1 * hs 1 1 1 0 (by omega) (by omega) (by omega) (by omega) + a 1 1 * b 1 1 * hs 1 1 1 1 (by omega) (by omega) (by omega) (by omega)

theorem power_add (C : Nat → Nat → Nat → Nat → α) (a b g : Nat → Nat → α) :
    power 2 (ddot 2 C fun i j => a i j + b i j) g = power 2 (ddot 2 C a) g + power 2 (ddot 2 C b) g := by
  simp only [power, ddot, sum_range_succ, sum_range_zero]
  ring

theorem power_add_right (S a b : Nat → Nat → α) : power 2 S (fun i j => a i j + b i j) = power 2 S a + power 2 S b := by
  simp only [power, sum_range_succ, sum_range_zero]
  ring

/-- work of the assembled internal force of a symmetric stress -/
theorem Dynamics.State.work {D : Dynamics α} {s : α} (h : D.State nn ne c d x s) {S : Nat → Nat → Nat → Nat → α}
    (hS : ∀ e q, e < ne → q < 4 → S e q 0 1 = S e q 1 0) (w : Nat → α) :
    ∑ k ∈ range D.vector.ndof, forceOf ne c d (dynG s x c) (dynVol s x c) S k * w k =
      ∑ e ∈ range ne, ∑ q ∈ range 4, power 2 (S e q) (strainOf (dynG s x c) c (fun m i => w (d m i)) e q) * dynVol s x c e q := by
  obtain ⟨e1, e2, e3, e4⟩ := h.dims
  have := dual_sum h.vec (fun e m i => ∑ q ∈ range 4, (∑ j ∈ range 2, dynG s x c e q m j * S e q j i) * dynVol s x c e q) w
  rw [e1, e2, e4] at this
  refine this.trans (sum_congr rfl fun e he => ?_)
  refine (virtual_work (nne := 4) (nd := 2) (nip := 4) (G := dynG s x c) (S := S) (V := dynVol s x c) (U := fun e m i => w (d (c e m) i)) e).trans ?_
  refine sum_congr rfl fun q hq => ?_
  congr 1
  have h' := hS e q (mem_range.1 he) (mem_range.1 hq)
  simp only [power, strainOf, symf, sum_range_succ, sum_range_zero]
  norm_num [h']
  ring

/-- acceleration of a linear elastic body without load -/
def accel (ne : Nat) (c d : Nat → Nat → Nat) (s : α) (x : Nat → Nat → α) (R : Nat → Nat → α) (C : Nat → Nat → Nat → Nat → Nat → Nat → α)
    (U : Nat → Nat → α) (k : Nat) : α :=
  (0 - forceOf ne c d (dynG s x c) (dynVol s x c) (fun e q => ddot 2 (C e q) (strainOf (dynG s x c) c U e q)) k) / lumped x ne c d R k

/-- mass times acceleration -/
theorem accel_newton (hM : RectMesh nn ne c x Lx Ly O) {s : α} {R : Nat → Nat → α} {C : Nat → Nat → Nat → Nat → Nat → Nat → α}
    (hpos : ∀ m i, m < nn → i < 2 → lumped x ne c d R (d m i) ≠ 0) (U : Nat → Nat → α) (k : Nat) :
    lumped x ne c d R k * accel ne c d s x R C U k = - forceOf ne c d (dynG s x c) (dynVol s x c)
      (fun e q => ddot 2 (C e q) (strainOf (dynG s x c) c U e q)) k := by
  rw [accel]
  by_cases hk : ∃ m i, m < nn ∧ i < 2 ∧ d m i = k
  · obtain ⟨m, i, hm, hi, rfl⟩ := hk
    rw [mul_div_cancel₀ _ (hpos m i hm hi), zero_sub]
  · have z : ∀ F : Nat → Nat → Nat → α, ∑ e ∈ range ne, ∑ m ∈ range 4, ∑ i ∈ range 2, (if d (c e m) i = k then F e m i else 0) = 0 := by
      intro F
      refine sum_eq_zero fun e he => sum_eq_zero fun m hm => sum_eq_zero fun i hi => ?_
      rw [mem_range] at he hm hi
      exact if_neg fun e' => hk ⟨_, _, hM.valid e m he hm, hi, e'⟩
    rw [lumped, z, forceOf, z]
    simp

/-- the energy that velocity Verlet conserves -/
def verletEnergy (n ne : Nat) (c d : Nat → Nat → Nat) (s : α) (x : Nat → Nat → α) (R : Nat → Nat → α) (C : Nat → Nat → Nat → Nat → Nat → Nat → α)
    (dt : α) (X : (Nat → Nat → α) × (Nat → α) × (Nat → α)) : α :=
  1 / 2 * ∑ k ∈ range n, lumped x ne c d R k * X.2.1 k ^ 2 +
    1 / 2 * elasticWork ne (dynVol s x c) C (strainOf (dynG s x c) c X.1) -
    dt ^ 2 / 8 * ∑ k ∈ range n, lumped x ne c d R k * X.2.2 k ^ 2

/-- energy over any number of increments -/
theorem Dynamics.State.energy {D : Dynamics α} {s : α} (h2 : D.State nn ne c d x s) (hM : RectMesh nn ne c x Lx Ly O) {R : Nat → Nat → α}
    (hpos : ∀ m i, m < nn → i < 2 → lumped x ne c d R (d m i) ≠ 0) (dt : α) {C : Nat → Nat → Nat → Nat → Nat → Nat → α}
    (major : ∀ e q i j k l, e < ne → q < 4 → i < 2 → j < 2 → k < 2 → l < 2 → C e q i j k l = C e q k l i j)
    (left : ∀ e q i j k l, e < ne → q < 4 → i < 2 → j < 2 → k < 2 → l < 2 → C e q i j k l = C e q j i k l) (n : Nat) (X)
    (hX : X.2.2 = accel ne c d s x R C X.1) :
    verletEnergy D.vector.ndof ne c d s x R C dt ((verlet d dt (accel ne c d s x R C))^[n] X) = verletEnergy D.vector.ndof ne c d s x R C dt X := by
  obtain ⟨acc, hacc⟩ : ∃ acc, acc = accel ne c d s x R C := ⟨_, rfl⟩
  rw [← hacc] at hX ⊢
  have newton : ∀ U k, lumped x ne c d R k * acc U k = - forceOf ne c d (dynG s x c) (dynVol s x c)
      (fun e q => ddot 2 (C e q) (strainOf (dynG s x c) c U e q)) k := by
    rw [hacc]; exact accel_newton hM hpos
  have sym : ∀ e q, e < ne → q < 4 → ∀ i j k l, i < 2 → j < 2 → k < 2 → l < 2 → C e q i j k l = C e q l k j i := by
    intro e q he hq i j k l hi hj hk hl
    rw [major e q i j k l he hq hi hj hk hl, left e q k l i j he hq hk hl hi hj, major e q l k i j he hq hl hk hi hj,
      left e q i j l k he hq hi hj hl hk, major e q j i l k he hq hj hi hl hk]
  have ssym : ∀ E : Nat → Nat → Nat → Nat → α, ∀ e q, e < ne → q < 4 → ddot 2 (C e q) (E e q) 0 1 = ddot 2 (C e q) (E e q) 1 0 := by
    intro E e q he hq
    simp only [ddot]
    refine sum_congr rfl fun k hk => sum_congr rfl fun l hl => ?_
    rw [left e q 0 1 k l he hq (by omega) (by omega) (mem_range.1 hk) (mem_range.1 hl)]
  obtain ⟨H, hH, hH'⟩ : ∃ H : (Nat → Nat → α) × (Nat → α) × (Nat → α) → α, (∀ X, H X = 1 / 2 * ∑ k ∈ range D.vector.ndof, lumped x ne c d R k * X.2.1 k ^ 2 +
    1 / 2 * elasticWork ne (dynVol s x c) C (strainOf (dynG s x c) c X.1) -
    dt ^ 2 / 8 * ∑ k ∈ range D.vector.ndof, lumped x ne c d R k * X.2.2 k ^ 2) ∧
    verletEnergy D.vector.ndof ne c d s x R C dt = H := ⟨_, fun _ => rfl, rfl⟩
  -- one increment
  have one : ∀ X, X.2.2 = acc X.1 → H (verlet d dt acc X) = H X := by
    intro X hX
    obtain ⟨w, hw⟩ : ∃ w : Nat → α, ∀ k, w k = dt * X.2.1 k + 1 / 2 * dt ^ 2 * X.2.2 k := ⟨_, fun _ => rfl⟩
    obtain ⟨U', hU'⟩ : ∃ U', U' = (verlet d dt acc X).1 := ⟨_, rfl⟩
    have eU : ∀ m i, U' m i = X.1 m i + w (d m i) := fun m i => by rw [hU', hw]; simp only [verlet]; ring
    have eS : ∀ e q, strainOf (dynG s x c) c U' e q = fun i j => strainOf (dynG s x c) c X.1 e q i j +
        strainOf (dynG s x c) c (fun m i => w (d m i)) e q i j := by
      intro e q
      funext i j
      simp only [strainOf, symf, grad, eU, mul_add, sum_add_distrib]
      split <;> ring
    have w1 := h2.work (ssym (strainOf (dynG s x c) c X.1)) w
    have w2 := h2.work (ssym (strainOf (dynG s x c) c U')) w
    have el : elasticWork ne (dynVol s x c) C (strainOf (dynG s x c) c U') = elasticWork ne (dynVol s x c) C (strainOf (dynG s x c) c X.1) +
        (∑ k ∈ range D.vector.ndof, forceOf ne c d (dynG s x c) (dynVol s x c)
          (fun e q => ddot 2 (C e q) (strainOf (dynG s x c) c X.1 e q)) k * w k +
        ∑ k ∈ range D.vector.ndof, forceOf ne c d (dynG s x c) (dynVol s x c)
          (fun e q => ddot 2 (C e q) (strainOf (dynG s x c) c U' e q)) k * w k) := by
      rw [w1, w2, elasticWork, elasticWork, ← sum_add_distrib, ← sum_add_distrib]
      refine sum_congr rfl fun e he => ?_
      rw [← sum_add_distrib, ← sum_add_distrib]
      refine sum_congr rfl fun q hq => ?_
      rw [eS e q, power_add_right, power_add, power_add,
        power_comm (sym e q (mem_range.1 he) (mem_range.1 hq)) (strainOf (dynG s x c) c (fun m i => w (d m i)) e q) (strainOf (dynG s x c) c X.1 e q)]
      ring
    have el2 : elasticWork ne (dynVol s x c) C (strainOf (dynG s x c) c U') = elasticWork ne (dynVol s x c) C (strainOf (dynG s x c) c X.1) -
        ∑ k ∈ range D.vector.ndof, lumped x ne c d R k * (X.2.2 k + acc U' k) * w k := by
      rw [el, ← sum_add_distrib, sub_eq_add_neg, ← sum_neg_distrib]
      congr 1
      refine sum_congr rfl fun k _ => ?_
      have a1 := newton X.1 k
      have a2 := newton U' k
      rw [hX]
      linear_combination w k * a1 + w k * a2
    rw [hH, hH, ← hU', el2]
    have e1 : ∀ k, (verlet d dt acc X).2.1 k = X.2.1 k + 1 / 2 * dt * (X.2.2 k + acc U' k) := fun k => by rw [hU']; rfl
    have e2 : ∀ k, (verlet d dt acc X).2.2 k = acc U' k := fun k => by rw [hU']; rfl
    simp only [e1, e2]
    have key : ∑ k ∈ range D.vector.ndof, (1 / 2 * (lumped x ne c d R k * (X.2.1 k + 1 / 2 * dt * (X.2.2 k + acc U' k)) ^ 2) -
        1 / 2 * (lumped x ne c d R k * X.2.1 k ^ 2) - 1 / 2 * (lumped x ne c d R k * (X.2.2 k + acc U' k) * w k) -
        dt ^ 2 / 8 * (lumped x ne c d R k * acc U' k ^ 2) + dt ^ 2 / 8 * (lumped x ne c d R k * X.2.2 k ^ 2)) = 0 := by
      refine sum_eq_zero fun k _ => ?_
      rw [hw]
      ring
    simp only [sum_add_distrib, sum_sub_distrib, ← mul_sum] at key
    linear_combination key
  have iter : ∀ n X, X.2.2 = acc X.1 → H ((verlet d dt acc)^[n] X) = H X := by
    intro n
    induction n with
    | zero => exact fun _ _ => rfl
    | succ n ih =>
      intro X hX
      rw [Function.iterate_succ_apply, ih _ rfl, one X hX]
  rw [hH']
  exact iter n X hX

/-- **C85** (energy) for a linear elastic material and no load, the kinetic plus the elastic energy minus
`dt² / 8 Σ mass a²` has the same value after every increment: the energy has no drift -/
theorem C85_energy (hM : RectMesh nn ne c x Lx Ly O) (lx : 0 < Lx) (ly : 0 < Ly) {s : α} (s1 : -1 ≤ s) (s2 : s ≤ 1) (σ : Nat → Sched)
    (υ : Nat → Nat → Sched) {conn dofs : Ten Nat} {coor rho : Ten α} (hc : Is2 conn ne 4 c) (hx : Is2 coor nn 2 x) (hd : Is2 dofs nn 2 d)
    {R : Nat → Nat → α} (hr : Is2 rho ne 4 R) (hR : ∀ e q, e < ne → q < 4 → 0 < R e q) (dt : α) {material : List (Ten α) → Res (Ten α)} {C}
    (hm : HistoryFree ne material fun E e q => ddot 2 (C e q) (E e q))
    (major : ∀ e q i j k l, e < ne → q < 4 → i < 2 → j < 2 → k < 2 → l < 2 → C e q i j k l = C e q k l i j)
    (left : ∀ e q i j k l, e < ne → q < 4 → i < 2 → j < 2 → k < 2 → l < 2 → C e q i j k l = C e q j i k l)
    {u v a fext : Ten α} {U : Nat → Nat → α} {V A : Nat → α} (hu : Is2 u nn 2 U) (hv : Is2 v nn 2 fun m i => V (d m i))
    (ha : Is2 a nn 2 fun m i => A (d m i)) (hf : Is2 fext nn 2 fun _ _ => 0) (n : Nat) (ρ τ : Sched) :
    IsOk (do
      let (D, M) ← Dynamics.new s σ conn dofs coor rho
      let S ← D.run dt material fext υ 1 ⟨u, v, a, M, []⟩
      let E ← D.strain ρ τ S.u
      let S' ← D.run dt material fext υ (n + 1) ⟨u, v, a, M, []⟩
      let E' ← D.strain ρ τ S'.u
      return (D, M, S, E, S', E')) fun (D, M, S, E, S', E') => ∃ (N : Nat) (mass : Nat → α) (vol : Nat → Nat → α), NumDofs nn d N ∧ Is1 M.A N mass ∧ Is2 D.quad.vol ne 4 vol ∧
        ∃ (V₁ A₁ : Nat → α) (E₁ : Nat → Nat → Nat → Nat → α) (V₂ A₂ : Nat → α) (E₂ : Nat → Nat → Nat → Nat → α), Is2 S.v nn 2 (fun m i => V₁ (d m i)) ∧ Is2 S.a nn 2 (fun m i => A₁ (d m i)) ∧ Is4 E ne 4 2 2 E₁ ∧
          Is2 S'.v nn 2 (fun m i => V₂ (d m i)) ∧ Is2 S'.a nn 2 (fun m i => A₂ (d m i)) ∧ Is4 E' ne 4 2 2 E₂ ∧
          1 / 2 * ∑ k ∈ range N, mass k * V₂ k ^ 2 + 1 / 2 * elasticWork ne vol C E₂ - dt ^ 2 / 8 * ∑ k ∈ range N, mass k * A₂ k ^ 2 =
          1 / 2 * ∑ k ∈ range N, mass k * V₁ k ^ 2 + 1 / 2 * elasticWork ne vol C E₁ - dt ^ 2 / 8 * ∑ k ∈ range N, mass k * A₁ k ^ 2 := by
  obtain ⟨D, M, h1, h2, h3, h4, h5⟩ := dynamics_new hM s1 s2 σ hc hx hd hr
  have hA := h4.A _ rfl
  rw [h3] at hA
  obtain ⟨t, g1, N, mass, vol, g2, g3, -, -, g4, -⟩ := C83_mass hM lx ly s1 s2 σ hc hx hd hr
  obtain rfl : (D, M) = t := by rw [h1] at g1; injection g1
  have hN : N = D.vector.ndof := by
    have := g3.1.symm.trans hA.1
    simpa using this
  subst hN
  have hpos : ∀ m i, m < nn → i < 2 → lumped x ne c d R (d m i) ≠ 0 := fun m i hm hi => by
    rw [← g3.unique hA (g2.1 m i hm hi)]
    exact (g4 hR m i hm hi).ne'
  have hf' : Is2 fext nn 2 fun m i => (fun _ : Nat => (0 : α)) (d m i) := hf
  obtain ⟨S, i1, i2⟩ := h2.run_ok (B := fun _ => 0) dt hm hf υ 1 (S := ⟨u, v, a, M, []⟩) (X := (U, V, A)) ⟨hu, hv, ha, h4, h3, by simp⟩
  obtain ⟨S', j1, j2⟩ := h2.run_ok (B := fun _ => 0) dt hm hf υ (n + 1) (S := ⟨u, v, a, M, []⟩) (X := (U, V, A)) ⟨hu, hv, ha, h4, h3, by simp⟩
  have i3 := i2 _ rfl
  have j3 := j2 _ rfl
  rw [Function.iterate_one] at i3
  rw [Function.iterate_succ_apply] at j3
  obtain ⟨E, k1, k2⟩ := h2.strain_ok ρ τ i3.u
  obtain ⟨E', l1, l2⟩ := h2.strain_ok ρ τ j3.u
  refine ⟨(D, M, S, E, S', E'), by simp only [h1, i1, k1, j1, l1, Res.ok_bind]; rfl, _, _, _, h5, hA, h2.volume, _, _, _, _, _, _, i3.v, i3.a, k2,
    j3.v, j3.a, l2, ?_⟩
  exact h2.energy hM hpos dt major left n (verlet d dt (accel ne c d s x R C) (U, V, A)) rfl


/-! ### The meshes of the library -/

/-- the DOFs of `dofsPeriodic` separate the components and are shared by the nodes of every periodic pair -/
theorem periodic_shared {np : Nat} {P : Nat → Nat → Nat} (hP : PeriodicPairs nn Lx Ly x np P) {d : Nat → Nat → Nat}
    (h : ∀ m i m' i', m < nn → i < 2 → m' < nn → i' < 2 → (d m i = d m' i' ↔ LatticeEq2 Lx Ly (x m) (x m') ∧ i = i')) :
    (∀ m m', m < nn → m' < nn → d m 0 ≠ d m' 1) ∧ ∀ k i, k < np → i < 2 → d (P k 1) i = d (P k 0) i := by
  refine ⟨fun m m' hm hm' e => ?_, fun k i hk hi => ?_⟩
  · have := ((h m 0 m' 1 hm (by omega) hm' (by omega)).1 e).2
    omega
  · refine ((h _ i _ i (hP.valid k 0 hk (by omega)) hi (hP.valid k 1 hk (by omega)) hi).2 ⟨?_, rfl⟩).symm
    obtain ⟨h0, h1⟩ := hP.shift k hk
    rcases h0 with h0 | h0 <;> rcases h1 with h1 | h1
    · exact ⟨0, 0, by rw [h0]; simp, by rw [h1]; simp⟩
    · exact ⟨0, 1, by rw [h0]; simp, by rw [h1]; simp⟩
    · exact ⟨1, 0, by rw [h0]; simp, by rw [h1]; simp⟩
    · exact ⟨1, 1, by rw [h0]; simp, by rw [h1]; simp⟩

/-- **C83**, **C84** (Quad4 `Regular`) the program of the example: uniform density, periodic DOFs, an affine displacement as
initial condition, and no load. After any number of increments, for any material, the total mass of each component is `ρ` times
the area, the total momentum of each component is zero, and the average displacement gradient has its initial value -/
theorem C84_quad4_regular {nelx nely : Nat} (hx : 0 < nelx) (hy : 0 < nely) {h : α} (hh : 0 < h) {s : α} (s1 : -1 ≤ s) (s2 : s ≤ 1)
    (σ : Nat → Sched) (υ : Nat → Nat → Sched) {rho u v fext : Ten α} {ρ₀ : α} (hρ : 0 < ρ₀) (hr : Is2 rho (nelx * nely) 4 fun _ _ => ρ₀)
    (dt : α) {material : List (Ten α) → Res (Ten α)} (hm : Responds (nelx * nely) material) {U G : Nat → Nat → α}
    (hu : Is2 u ((nelx + 1) * (nely + 1)) 2 U) (hU : ∀ iy ix j, iy ≤ nely → ix ≤ nelx → j < 2 →
      U (iy * (nelx + 1) + ix) j = G j 0 * (h * (ix : α)) + G j 1 * (h * (iy : α)))
    (hv : Is2 v ((nelx + 1) * (nely + 1)) 2 fun _ _ => 0) (hf : Is2 fext ((nelx + 1) * (nely + 1)) 2 fun _ _ => 0) (n : Nat) (ρ τ : Sched) :
    let M := Quad4.Regular.new nelx nely h
    IsOk (do
      let conn ← Quad4.Regular.conn M
      let coor ← M.coor
      let dofs ← Quad4.Regular.dofsPeriodic M
      let (D, mass) ← Dynamics.new s σ conn dofs coor rho
      let S ← D.run dt material fext υ n ⟨u, v, v, mass, []⟩
      let g ← gradient ρ τ D.vector D.quad S.u
      return (dofs, mass, S, D.quad.vol, g)) fun (dofs, mass, S, dV, g) => ∃ (d : Nat → Nat → Nat) (μ Vn : Nat → α)
        (vol : Nat → Nat → α) (γ : Nat → Nat → Nat → Nat → α),
        Is2 dofs ((nelx + 1) * (nely + 1)) 2 d ∧ Is1 mass.A (nelx * nely * 2) μ ∧ Is2 S.v ((nelx + 1) * (nely + 1)) 2 (fun m i => Vn (d m i)) ∧
        Is2 dV (nelx * nely) 4 vol ∧ Is4 g (nelx * nely) 4 2 2 γ ∧
        (∀ m i, m < (nelx + 1) * (nely + 1) → i < 2 → 0 < μ (d m i)) ∧
        ∀ i, i < 2 → ∑ k ∈ compDofs ((nelx + 1) * (nely + 1)) d i, μ k = ρ₀ * (h * (nelx : α) * (h * (nely : α))) ∧
          ∑ k ∈ compDofs ((nelx + 1) * (nely + 1)) d i, μ k * Vn k = 0 ∧
          ∀ j, j < 2 → ∑ e ∈ range (nelx * nely), ∑ q ∈ range 4, γ e q j i * vol e q = h * (nelx : α) * (h * (nely : α)) * G i j := by
  intro M
  obtain ⟨c, x, O, hA, hM⟩ := C73_quad4_regular nelx nely hh
  obtain ⟨cn, a1, a2⟩ := hA.conn
  obtain ⟨xt, b1, b2⟩ := hA.coor
  obtain ⟨xt', x', pt, P, p1, p2, p3, p4, p5⟩ := C33_quad4_nodesPeriodic nelx nely hx hy hh
  obtain rfl : xt = xt' := by rw [b1] at p1; injection p1
  have p6 := p5.congr (x := x) fun m i hm hi => b2.unique p2 hm hi
  obtain ⟨xt', x'', dt', d, q1, q2, q3, q4, q5, q6⟩ := C33_quad4_dofsPeriodic nelx nely hx hy hh
  obtain rfl : xt = xt' := by rw [b1] at q1; injection q1
  obtain ⟨sep, shared⟩ := periodic_shared (d := d) (p5.congr (x := x'') fun m i hm hi => q2.unique p2 hm hi) q5
  have lx : 0 < h * (nelx : α) := mul_pos hh (by exact_mod_cast hx)
  have ly : 0 < h * (nely : α) := mul_pos hh (by exact_mod_cast hy)
  have hR : ∀ e q, e < nelx * nely → q < 4 → 0 < (fun _ _ : Nat => ρ₀) e q := fun _ _ _ _ => hρ
  have hU' : ∀ k j, k < nelx + nely + 1 → j < 2 → U (P k 1) j - U (P k 0) j = ∑ l ∈ range 2, G j l * (x (P k 1) l - x (P k 0) l) := by
    have eU : ∀ m j, m < M.nnode → j < 2 → U m j = G j 0 * x m 0 + G j 1 * x m 1 := by
      intro m j hm hj
      have hm' : m < (nelx + 1) * (nely + 1) := hm
      obtain ⟨xt', k1, k2⟩ := M.coor_spec rfl rfl
      obtain rfl : xt = xt' := by rw [b1] at k1; injection k1
      rw [b2.unique k2 hm (by omega), b2.unique k2 hm (by omega)]
      have hix : m % (nelx + 1) < nelx + 1 := Nat.mod_lt _ (by omega)
      have hiy : m / (nelx + 1) < nely + 1 := Nat.div_lt_of_lt_mul hm'
      have := hU (m / (nelx + 1)) (m % (nelx + 1)) j (by omega) (by omega) hj
      rw [Nat.div_add_mod'] at this
      rw [this]
      rfl
    intro k j hk hj
    rw [eU _ j (p6.valid k 1 hk (by omega)) hj, eU _ j (p6.valid k 0 hk (by omega)) hj, sum_range_succ, sum_range_succ, sum_range_zero]
    ring
  obtain ⟨⟨D, mass⟩, t1, N, μ, vol0, t2, t3, -, -, t4, t5⟩ := C83_mass hM lx ly s1 s2 σ a2 b2 q4 hr
  obtain ⟨⟨mass', S⟩, r1, N', μ', r2, r3, r4, W, Vn, An, r5, r6, r7, r8⟩ := C84_momentum (V := fun _ => 0) (A := fun _ => 0) (B := fun _ => 0)
    hM lx ly s1 s2 σ υ a2 b2 q4 hr hR dt hm hu hv hv hf n
  obtain ⟨⟨dV, g⟩, g1, vol, γ, g2, g3, g4⟩ := C84_macroscopic (V := fun _ => 0) (A := fun _ => 0) (B := fun _ => 0)
    hM lx ly s1 s2 σ υ a2 b2 q4 hr hR dt hm hu hv hv hf n p6 shared hU' ρ τ
  have a1' : Quad4.Regular.conn M = .ok cn := a1
  have b1' : M.coor = .ok xt := b1
  have q3' : Quad4.Regular.dofsPeriodic M = .ok dt' := q3
  rw [t1, Res.ok_bind] at r1 g1
  dsimp only at r1 g1
  cases hh : D.run dt material fext υ n ⟨u, v, v, mass, []⟩ with
  | ok S' =>
    rw [hh, Res.ok_bind] at r1 g1
    have r1' : Res.ok (mass, S') = Res.ok (mass', S) := r1
    injection r1' with r1'
    obtain ⟨rfl, rfl⟩ := Prod.mk.inj r1'
    cases hg : gradient ρ τ D.vector D.quad S'.u with
    | ok g' =>
      rw [hg, Res.ok_bind] at g1
      have g1' : Res.ok (D.quad.vol, g') = Res.ok (dV, g) := g1
      injection g1' with g1'
      obtain ⟨rfl, rfl⟩ := Prod.mk.inj g1'
      have hN : N = nelx * nely * 2 := by
        obtain ⟨t6, m, i, hm, hi, rfl⟩ := t2
        have h1 := (q6 (d m i)).1 ⟨m, i, hm, hi, rfl⟩
        obtain ⟨m', i', hm', hi', e'⟩ := (q6 (nelx * nely * 2 - 1)).2 (by omega)
        have := t6 m' i' hm' hi'
        omega
      subst hN
      have hN' : N' = nelx * nely * 2 := by
        have := r3.1.symm.trans t3.1
        simpa using this
      subst hN'
      refine ⟨(dt', mass, S', D.quad.vol, g'), by simp only [a1', b1', q3', t1, hh, hg, Res.ok_bind]; rfl, d, μ, Vn, vol, γ, q4, t3, r6, g2, g3,
        t4 hR, fun i hi => ⟨(t5 sep i hi).2 ρ₀ fun _ _ _ _ => rfl, ?_, fun j hj => g4 j i hj hi⟩⟩
      have := r8 sep i hi (by simp)
      simp only [mul_zero, sum_const_zero, add_zero] at this
      rw [← this]
      refine sum_congr rfl fun k hk => ?_
      obtain ⟨m, hm, rfl⟩ := mem_image.1 hk
      rw [t3.unique r3 (t2.1 m i (mem_range.1 hm) hi)]
    | _ => rw [hg] at g1; cases g1
  | _ => rw [hh] at r1; cases r1


/-- the hypotheses can be met: a 3 x 2 mesh with a linear elastic material, sheared, and released for 100 increments -/
example : ∃ (material : List (Ten ℚ) → Res (Ten ℚ)) (C : Nat → Nat → Nat → Nat → ℚ), Responds 6 material ∧
    HistoryFree 6 material (fun E e q => ddot 2 C (E e q)) ∧ (∀ i j k l, C i j k l = C k l i j) ∧ (∀ i j k l, C i j k l = C j i k l) ∧
    C 0 1 0 1 = 1 / 2 ∧ ∃ rho u v : Ten ℚ, IsOk (do
      let M := Quad4.Regular.new 3 2 (1 : ℚ)
      let conn ← Quad4.Regular.conn M
      let coor ← M.coor
      let dofs ← Quad4.Regular.dofsPeriodic M
      let (D, mass) ← Dynamics.new (1 / 2) (fun _ => Sched.seq) conn dofs coor rho
      let S ← D.run (1 / 10) material v (fun _ _ => Sched.seq) 100 ⟨u, v, v, mass, []⟩
      let g ← gradient Sched.seq Sched.rev D.vector D.quad S.u
      return (dofs, mass, S, D.quad.vol, g)) fun t => ∃ (vol : Nat → Nat → ℚ) (γ : Nat → Nat → Nat → Nat → ℚ), Is2 t.2.2.2.1 6 4 vol ∧
        Is4 t.2.2.2.2 6 4 2 2 γ ∧
        ∑ e ∈ range 6, ∑ q ∈ range 4, γ e q 1 0 * vol e q = 6 * (1 / 20) := by
  obtain ⟨C, hC⟩ : ∃ C : Nat → Nat → Nat → Nat → ℚ, ∀ i j k l, C i j k l =
    (if i = j ∧ k = l then 1 else 0) + (if i = k ∧ j = l then 1 / 2 else 0) + (if i = l ∧ j = k then 1 / 2 else 0) := ⟨_, fun _ _ _ _ => rfl⟩
  have C0 : C 0 1 0 1 = 1 / 2 := by rw [hC]; norm_num
  have s1 : ∀ i j k l, C i j k l = C k l i j := by
    intro i j k l
    rw [hC, hC]
    simp only [@eq_comm _ k i, @eq_comm _ l j, @eq_comm _ k j, @eq_comm _ l i, and_comm (a := k = l), and_comm (a := j = k)]
  have s2 : ∀ i j k l, C i j k l = C j i k l := by
    intro i j k l
    rw [hC, hC]
    simp only [@eq_comm _ j i, and_comm (a := j = k), and_comm (a := j = l)]
    ring
  obtain ⟨mat, hmat⟩ : ∃ mat : List (Ten ℚ) → Res (Ten ℚ), ∀ t l, mat (t :: l) = .ok (Ten.of [6, 4, 2, 2] fun i => match i with
    | [e, q, i, j] => ∑ k ∈ range 2, ∑ l ∈ range 2, C i j k l * (t.v [e, q, l, k]).getD 0
    | _ => 0) := ⟨fun l => match l with
    | [] => .ub
    | t :: _ => .ok (Ten.of [6, 4, 2, 2] fun i => match i with
      | [e, q, i, j] => ∑ k ∈ range 2, ∑ l ∈ range 2, C i j k l * (t.v [e, q, l, k]).getD 0
      | _ => 0), fun t l => rfl⟩
  have hist : HistoryFree 6 mat (fun E e q => ddot 2 C (E e q)) := by
    intro t l E hE
    refine ⟨_, hmat t l, rfl, fun e q i j he hq hi hj => congrArg some ?_⟩
    refine sum_congr rfl fun k hk => sum_congr rfl fun l hl => ?_
    rw [hE.2 e q l k he hq (mem_range.1 hl) (mem_range.1 hk)]
    rfl
  have resp : Responds 6 mat := by
    intro l hl hE
    cases l with
    | nil => exact absurd rfl hl
    | cons t l =>
      obtain ⟨E, h1⟩ := hE t (by simp)
      obtain ⟨s, h2, h3⟩ := hist t l E h1
      exact ⟨s, h2, _, h3⟩
  refine ⟨mat, C, resp, hist, s1, s2, C0, Ten.of [6, 4] fun _ => 1, Ten.of [12, 2] fun i => match i with
    | [m, 0] => 1 / 20 * ((m / 4 : Nat) : ℚ)
    | _ => 0, Ten.of [12, 2] fun _ => 0, ?_⟩
  obtain ⟨t, t1, d, μ, Vn, vol, γ, -, -, -, t2, t3, -, t4⟩ := C84_quad4_regular (nelx := 3) (nely := 2) (by omega) (by omega) (h := (1 : ℚ))
    (by norm_num) (s := 1 / 2) (by norm_num) (by norm_num) (fun _ => Sched.seq) (fun _ _ => Sched.seq) (ρ₀ := 1) (by norm_num)
    (is2_of 6 4 fun _ => 1) (1 / 10) resp (G := fun i j => if i = 0 ∧ j = 1 then 1 / 20 else 0) (is2_of 12 2 fun i => match i with
    | [m, 0] => 1 / 20 * ((m / 4 : Nat) : ℚ)
    | _ => 0) (by
      intro iy ix j hi hj hjj
      have hm : (iy * (3 + 1) + ix) / 4 = iy := by omega
      obtain rfl | rfl : j = 0 ∨ j = 1 := by omega
      · change 1 / 20 * (((iy * (3 + 1) + ix) / 4 : Nat) : ℚ) = _
        rw [hm]
        norm_num
      · change (0 : ℚ) = _
        norm_num) (is2_of 12 2 fun _ => 0) (is2_of 12 2 fun _ => 0) 100 Sched.seq Sched.rev
  have := (t4 0 (by omega)).2.2 1 (by omega)
  refine ⟨t, t1, vol, γ, t2, t3, this.trans ?_⟩
  norm_num

end GF
