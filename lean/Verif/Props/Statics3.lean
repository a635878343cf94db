import Verif.Props.Statics
import Verif.Props.Box
import Verif.Lemmas.BoxRigid

/-! **C91** (stiffness in three dimensions, no zero-energy modes), **C92** (linear problems in three dimensions, displacement
patch test). -/

namespace GF
open Finset ElemSpec Element Element.Hex8
open Element.Quad4 (ddot power)

section
variable {α : Type} [Field α] [CharZero α] {c d : Nat → Nat → Nat}
variable {nip : Nat} {Ξ : Nat → Nat → α} {W : Nat → α} {Q : Quadrature α} {X : Nat → Nat → Nat → α}

/-- **C91** (tangent) for a linear relation `σ = C : grad u` between stress and gradient of the displacement, the product of
the assembled stiffness with the displacements is the assembled internal force. (Any geometry: `GradN_vector` and the
stiffness share the defect of C45.) -/
theorem C91_tangent {M : SMatrix α} {D : Nat → Nat → α} (hM : M.Holds c d D) (e1 : M.V.nne = 8) (e2 : M.V.ndim = 3)
    (hQ : Live M.V.nelem nip Ξ W Q X) (σ τ ρ υ : Sched) {Ct u sig : Ten α} {C f g S}
    (hC : Is6 Ct M.V.nelem nip 3 3 3 3 C) (hu : Is1 u M.V.ndof f)
    (hg : IsOk (gradient3 σ τ M.V Q u) fun t => Is4 t M.V.nelem nip 3 3 g)
    (hs : Is4 sig M.V.nelem nip 3 3 S)
    (hS : ∀ e q i j, e < M.V.nelem → q < nip → i < 3 → j < 3 → S e q i j = ddot 3 (C e q) (g e q) i j) :
    ∃ F, IsOk (stiffnessDot ρ M Q Ct u) (fun t => Is1 t M.V.ndof F) ∧
      IsOk (internalForce3 υ M.V Q sig) (fun t => Is1 t M.V.ndof F) := by
  obtain ⟨ue, u1, u2⟩ := C03_element_of_dofs hM.base σ hu
  rw [gradient3, u1, Res.ok_bind] at hg
  rw [e1, e2] at u2
  obtain ⟨K, F, ⟨kt, k1, k2⟩, ⟨ft, f1, f2⟩, h3, -⟩ := C56_stiffness hQ ρ τ υ hC u2 hg hs hS
  obtain ⟨M', b, m1, m2, m3⟩ := C17_dot_assembled hM (K := kt) (k := K) (by rw [e1, e2]; exact k2) hu
  obtain ⟨y, y1, y2⟩ := C04_assemble_element hM.base (x := ft) (g := F) (by rw [e1, e2]; exact f2)
  refine ⟨_, ⟨b, by simp only [stiffnessDot, k1, m1, m2, Res.ok_bind], m3⟩, y, by simp only [internalForce3, f1, y1, Res.ok_bind],
    y2.congr fun r _ => ?_⟩
  refine sum_congr rfl fun e he => sum_congr rfl fun m hm => sum_congr rfl fun i hi => ?_
  rw [mem_range] at he hm hi
  split
  · rw [e1, e2]
    exact (h3 e m i he (by omega) (by omega)).symm
  · rfl

/-- **C91** (symmetry) the assembled stiffness is symmetric if the tangent has major and minor symmetry -/
theorem C91_symmetric {M : SMatrix α} {D : Nat → Nat → α} (hM : M.Holds c d D) (e1 : M.V.nne = 8) (e2 : M.V.ndim = 3)
    (hQ : Live M.V.nelem nip Ξ W Q X) (ρ : Sched) {Ct : Ten α} {C} (hC : Is6 Ct M.V.nelem nip 3 3 3 3 C)
    (major : ∀ e q i j k l, e < M.V.nelem → q < nip → i < 3 → j < 3 → k < 3 → l < 3 → C e q i j k l = C e q k l i j)
    (left : ∀ e q i j k l, e < M.V.nelem → q < nip → i < 3 → j < 3 → k < 3 → l < 3 → C e q i j k l = C e q j i k l)
    (right : ∀ e q i j k l, e < M.V.nelem → q < nip → i < 3 → j < 3 → k < 3 → l < 3 → C e q i j k l = C e q i j l k) :
    IsOk (do let K ← Q.Int_gradN_dot_tensor4_dot_gradNT_dV ρ Ct; let M ← M.assemble K; M.todense) fun t =>
      ∃ A, Is2 t M.V.ndof M.V.ndof A ∧ ∀ r s, r < M.V.ndof → s < M.V.ndof → A r s = A s r := by
  have hV := (live_holds hQ).1.V_is
  obtain ⟨kt, k1, K, k2, k3⟩ := stiff_live hQ ρ hC hV
  have hL : StiffLaws 8 3 M.V.nelem nip C K := stiffLaws k3 fun e q i _ _ _ => G_sum _ _ _ _ _
  have hsym := hL.symm fun e q i j k l he hq hi hj hk hl => by
    rw [major e q i j k l he hq hi hj hk hl, left e q k l i j he hq hk hl hi hj, right e q l k i j he hq hl hk hi hj]
  obtain ⟨M', y, m1, -, m2, m3⟩ := C15_assemble hM (K := kt) (k := K) (by rw [e1, e2]; exact k2)
  exact ⟨y, by simp only [k1, m1, m2, Res.ok_bind], _, m3, fun r s _ _ => assembled_symm K (by rw [e1, e2]; exact hsym) r s⟩

/-- **C91** (energy) the quadratic form of the assembled stiffness is the integral of the work of the stress -/
theorem C91_energy {M : SMatrix α} {D : Nat → Nat → α} (hM : M.Holds c d D) (e1 : M.V.nne = 8) (e2 : M.V.ndim = 3)
    (hQ : Live M.V.nelem nip Ξ W Q X) (σ τ ρ : Sched) {Ct u : Ten α} {C f g}
    (hC : Is6 Ct M.V.nelem nip 3 3 3 3 C) (hu : Is1 u M.V.ndof f)
    (hg : IsOk (gradient3 σ τ M.V Q u) fun t => Is4 t M.V.nelem nip 3 3 g) :
    ∃ F vol, IsOk (stiffnessDot ρ M Q Ct u) (fun t => Is1 t M.V.ndof F) ∧ Is2 Q.vol M.V.nelem nip vol ∧
      ∑ k ∈ range M.V.ndof, F k * f k =
        ∑ e ∈ range M.V.nelem, ∑ q ∈ range nip, power 3 (ddot 3 (C e q) (g e q)) (g e q) * vol e q := by
  obtain ⟨ue, u1, u2⟩ := C03_element_of_dofs hM.base σ hu
  have hg' := hg
  rw [gradient3, u1, Res.ok_bind] at hg'
  rw [e1, e2] at u2
  have hs : Is4 (Ten.of [M.V.nelem, nip, 3, 3] fun ix => ddot 3 (C (ix.getD 0 0) (ix.getD 1 0)) (g (ix.getD 0 0) (ix.getD 1 0))
      (ix.getD 2 0) (ix.getD 3 0)) M.V.nelem nip 3 3 (fun e q => ddot 3 (C e q) (g e q)) :=
    ⟨rfl, fun e q i j _ _ _ _ => by simp [Ten.of]⟩
  obtain ⟨F, F1, F2⟩ := C91_tangent hM e1 e2 hQ σ τ ρ ρ hC hu hg hs (fun _ _ _ _ _ _ _ _ => rfl)
  obtain ⟨Fe, g', ⟨ft, f1, f2⟩, ⟨gt', v2, v3⟩, -, v4⟩ := C56_internal_force hQ ρ τ hs u2
  obtain ⟨gt, g1, g2⟩ := hg'
  obtain rfl : gt = gt' := by rw [g1] at v2; injection v2
  obtain ⟨y, U, FF, UU, y1, y2, y3, y4, y5⟩ := C05_adjoint hM.base σ (x := ft) (g := Fe) (by rw [e1, e2]; exact f2) hu
  obtain ⟨y', z1, z2⟩ := F2
  simp only [internalForce3, f1, Res.ok_bind] at z1
  obtain rfl : y = y' := by rw [y1] at z1; injection z1
  obtain rfl : ue = U := by rw [u1] at y3; injection y3
  refine ⟨F, _, F1, C55_volume hQ, ?_⟩
  rw [sum_congr rfl fun k hk => by rw [z2.unique y2 (mem_range.1 hk)], y5]
  refine sum_congr rfl fun e he => ?_
  rw [mem_range] at he
  rw [e1, e2] at *
  rw [sum_congr rfl fun m hm => sum_congr rfl fun i hi => by
    rw [y4.unique u2 he (mem_range.1 hm) (mem_range.1 hi)], v4 e he]
  refine sum_congr rfl fun q hq => ?_
  rw [mem_range] at hq
  congr 1
  simp only [power]
  exact sum_congr rfl fun i hi => sum_congr rfl fun j hj => by
    rw [g2.unique v3 he hq (mem_range.1 hi) (mem_range.1 hj)]

end

variable {α : Type} [Field α] [LinearOrder α] [IsStrictOrderedRing α]
variable {nn ne : Nat} {c d : Nat → Nat → Nat} {x : Nat → Nat → α} {g : BoxGrid} {p : Nat → Nat → α}

/-- every combination of signs is a Gauss point -/
theorem gauss_sign {s ξ η ζ : α} (h0 : ξ = s ∨ ξ = -s) (h1 : η = s ∨ η = -s) (h2 : ζ = s ∨ ζ = -s) :
    ∃ q, q < 8 ∧ s * corner8 q 0 = ξ ∧ s * corner8 q 1 = η ∧ s * corner8 q 2 = ζ := by
  rcases h0 with rfl | rfl <;> rcases h1 with h1 | h1 <;> rcases h2 with h2 | h2 <;> rw [h1, h2]
  · exact ⟨6, by omega, by simp [corner8, corner4], by simp [corner8, corner4], by simp [corner8]⟩
  · exact ⟨2, by omega, by simp [corner8, corner4], by simp [corner8, corner4], by simp [corner8]⟩
  · exact ⟨5, by omega, by simp [corner8, corner4], by simp [corner8, corner4], by simp [corner8]⟩
  · exact ⟨1, by omega, by simp [corner8, corner4], by simp [corner8, corner4], by simp [corner8]⟩
  · exact ⟨7, by omega, by simp [corner8, corner4], by simp [corner8, corner4], by simp [corner8]⟩
  · exact ⟨3, by omega, by simp [corner8, corner4], by simp [corner8, corner4], by simp [corner8]⟩
  · exact ⟨4, by omega, by simp [corner8, corner4], by simp [corner8, corner4], by simp [corner8]⟩
  · exact ⟨0, by omega, by simp [corner8, corner4], by simp [corner8, corner4], by simp [corner8]⟩

/-- the energy is non-negative, and zero only for a rigid motion -/
theorem zero_energy3 (hM : BoxMesh nn ne c x g p) {s : α} (s0 : s ≠ 0) {M : SMatrix α} {D : Nat → Nat → α}
    (hS : M.Holds c d D) (e1 : M.V.nelem = ne) (e2 : M.V.nne = 8) (e4 : M.V.ndim = 3) {Q : Quadrature α}
    (hQ : Live ne 8 (fun q i => s * corner8 q i) (fun _ => 1) Q (fun e m i => x (c e m) i)) (ρ : Sched)
    {Ct u : Ten α} {C f} (hC : Is6 Ct ne 8 3 3 3 3 C) (hE : ∀ e q, e < ne → q < 8 → Elastic3 (C e q)) (hu : Is1 u M.V.ndof f) :
    ∃ F, IsOk (stiffnessDot ρ M Q Ct u) (fun t => Is1 t M.V.ndof F) ∧ 0 ≤ ∑ k ∈ range M.V.ndof, F k * f k ∧
      (∑ k ∈ range M.V.ndof, F k * f k = 0 → ∃ θ b, RigidMotion3 nn d x f θ b) := by
  obtain ⟨cc, hh, hB, h0, hl⟩ := hM.boxes
  obtain ⟨ue, u1, u2⟩ := C03_element_of_dofs hS.base ρ hu
  rw [e1, e2, e4] at u2
  obtain ⟨γ, ⟨gt, g1, g2⟩, -, -, g3, -⟩ := C45_box hQ hB (fun e i he hi => (h0 e i he hi).ne') ρ u2
  subst e1
  obtain ⟨F, vol, F1, v1, v2⟩ := C91_energy hS e2 e4 hQ ρ ρ ρ hC hu ⟨gt, by simp only [gradient3, u1, g1, Res.ok_bind], g2⟩
  have hv : ∀ e q, e < M.V.nelem → q < 8 → 0 < vol e q := fun e q he hq => by
    rw [v1.unique (C55_volume hQ) he hq, one_mul, det8_box hB he]
    exact mul_pos (mul_pos (h0 e 0 he (by omega)) (h0 e 1 he (by omega))) (h0 e 2 he (by omega))
  have nn0 : ∀ e ∈ range M.V.nelem, ∀ q ∈ range 8, 0 ≤ power 3 (ddot 3 (C e q) (γ e q)) (γ e q) * vol e q := fun e he q hq => by
    rw [mem_range] at he hq
    exact mul_nonneg ((hE e q he hq).nonneg _) (hv e q he hq).le
  refine ⟨F, F1, ?_, fun z => ?_⟩
  · rw [v2]
    exact sum_nonneg fun e he => sum_nonneg (nn0 e he)
  · rw [v2, sum_eq_zero_iff_of_nonneg fun e he => sum_nonneg (nn0 e he)] at z
    refine hM.rigid hl fun e he => ?_
    have h1 := z e (mem_range.2 he)
    rw [sum_eq_zero_iff_of_nonneg (nn0 e (mem_range.2 he))] at h1
    refine box_rigid (fun i hi => (h0 e i he hi).ne') s0 fun ξ η ζ hξ hη hζ i j hi hj => ?_
    obtain ⟨q, hq, rfl, rfl, rfl⟩ := gauss_sign hξ hη hζ
    have := (hE e q he hq).pos _ ((mul_eq_zero.1 (h1 q (mem_range.2 hq))).resolve_right (hv e q he hq).ne') i j hi hj
    rw [← g3 e q i j he hq hi hj, ← g3 e q j i he hq hj hi]
    linear_combination hh e i * hh e j * this

theorem NumDofs3.unique {n n' : Nat} (h : NumDofs3 nn d n) (h' : NumDofs3 nn d n') : n = n' := by
  obtain ⟨h1, m, i, hm, hi, h2⟩ := h
  obtain ⟨h1', m', i', hm', hi', h2'⟩ := h'
  have := h1 m' i' hm' hi'
  have := h1' m i hm hi
  omega

/-- a rigid motion has no strain, so gives no force -/
theorem rigid_zero3 (hM : BoxMesh nn ne c x g p) {s : α} {M : SMatrix α} {D : Nat → Nat → α}
    (hS : M.Holds c d D) (e1 : M.V.nelem = ne) (e2 : M.V.nne = 8) (e4 : M.V.ndim = 3) {Q : Quadrature α}
    (hQ : Live ne 8 (fun q i => s * corner8 q i) (fun _ => 1) Q (fun e m i => x (c e m) i)) (ρ : Sched)
    {Ct u : Ten α} {C f} (hC : Is6 Ct ne 8 3 3 3 3 C)
    (right : ∀ e q i j k l, e < ne → q < 8 → i < 3 → j < 3 → k < 3 → l < 3 → C e q i j k l = C e q i j l k) (hu : Is1 u M.V.ndof f)
    {θ b : Nat → α} (hf : RigidMotion3 nn d x f θ b) : IsOk (stiffnessDot ρ M Q Ct u) fun t => Is1 t M.V.ndof fun _ => 0 := by
  obtain ⟨cc, hh, hB, h0, hl⟩ := hM.boxes
  obtain ⟨ue, u1, u2⟩ := C03_element_of_dofs hS.base ρ hu
  rw [e1, e2, e4] at u2
  obtain ⟨γ, ⟨gt, g1, g2⟩, -, -, -, g3⟩ := C45_box hQ hB (fun e i he hi => (h0 e i he hi).ne') ρ u2
  have hA : ∀ e q i j, e < ne → q < 8 → i < 3 → j < 3 → γ e q i j = (fun j i => if j = 0 then (if i = 1 then -θ 2 else if i = 2 then θ 1 else 0)
      else if j = 1 then (if i = 0 then θ 2 else if i = 2 then -θ 0 else 0) else (if i = 0 then -θ 1 else if i = 1 then θ 0 else 0)) j i := by
    refine g3 _ b fun e m j he hm hj => ?_
    obtain ⟨r0, r1, r2⟩ := hf _ (hM.valid e m he hm)
    beta_reduce
    interval_cases j
    · rw [r0]; simp [sum_range_succ]; ring
    · rw [r1]; simp [sum_range_succ]; ring
    · rw [r2]; simp [sum_range_succ]; ring
  have hz : Is4 (Ten.of [ne, 8, 3, 3] fun _ => (0 : α)) ne 8 3 3 fun _ _ _ _ => 0 := ⟨rfl, fun e q i j _ _ _ _ => by simp [Ten.of]⟩
  subst e1
  obtain ⟨F, F1, t, F2, F3⟩ := C91_tangent hS e2 e4 hQ ρ ρ ρ ρ hC hu ⟨gt, by simp only [gradient3, u1, g1, Res.ok_bind], g2⟩ hz
    (fun e q i j he hq hi hj => by
      have R := fun k l hk hl => right e q i j k l he hq hi hj hk hl
      have r01 := R 0 1 (by omega) (by omega)
      have r02 := R 0 2 (by omega) (by omega)
      have r12 := R 1 2 (by omega) (by omega)
      simp only [ddot, sum_range_succ, sum_range_zero, zero_add]
      rw [hA e q 0 0 he hq (by omega) (by omega), hA e q 0 1 he hq (by omega) (by omega), hA e q 0 2 he hq (by omega) (by omega),
        hA e q 1 0 he hq (by omega) (by omega), hA e q 1 1 he hq (by omega) (by omega), hA e q 1 2 he hq (by omega) (by omega),
        hA e q 2 0 he hq (by omega) (by omega), hA e q 2 1 he hq (by omega) (by omega), hA e q 2 2 he hq (by omega) (by omega)]
      simp
      rw [r01, r02, r12]; ring)
  obtain ⟨y, y1, y2⟩ := force_live hQ ρ hz (live_holds hQ).1.V_is
  have y3 : Is3 y M.V.nelem M.V.nne M.V.ndim fun _ _ _ => 0 := by
    rw [e2, e4]; exact y2.congr fun e m j _ _ _ => by simp
  obtain ⟨w, w1, w2⟩ := C04_assemble_element hS.base y3
  obtain rfl : t = w := by
    simp only [internalForce3, y1, w1, Res.ok_bind] at F2
    injection F2 with F2; exact F2.symm
  obtain ⟨z, z1, z2⟩ := F1
  exact ⟨z, z1, z2.congr fun k hk => by rw [F3.unique w2 hk]; simp⟩

/-- **C91** On a box mesh with an elastic material the stiffness is positive semi-definite, and it gives no force exactly for
rigid motions (translations and rotations) of the whole mesh: with the eight Gauss points there are no spurious modes. -/
theorem C91_no_spurious_modes (hM : BoxMesh nn ne c x g p) {s : α} (s0 : s ≠ 0)
    (σ τ ρ : Sched) {conn dofs : Ten Nat} {coor : Ten α} (hc : Is2 conn ne 8 c) (hx : Is2 coor nn 3 x) (hd : Is2 dofs nn 3 d)
    {n : Nat} (hn : NumDofs3 nn d n) {Ct u : Ten α} {C f} (hC : Is6 Ct ne 8 3 3 3 3 C) (hE : ∀ e q, e < ne → q < 8 → Elastic3 (C e q))
    (hu : Is1 u n f) :
    IsOk (do
      let (_, Q) ← setup3 s σ τ conn dofs coor
      let K ← SMatrix.new conn dofs
      stiffnessDot ρ K Q Ct u) fun t => ∃ F, Is1 t n F ∧ 0 ≤ ∑ k ∈ range n, F k * f k ∧
        (∑ k ∈ range n, F k * f k = 0 ↔ ∃ θ b, RigidMotion3 nn d x f θ b) ∧
        ((∀ k, k < n → F k = 0) ↔ ∃ θ b, RigidMotion3 nn d x f θ b) := by
  obtain ⟨V, Q, h1, h2, hV, e1, e2, e3, e4, e5, hQ⟩ := hM.setup s σ τ hc hx hd
  obtain ⟨K, k1, k2, hK⟩ := C15_constructor (α := α) hc hd hM.valid
  obtain rfl : V = K.V := by rw [h2] at k2; injection k2
  obtain rfl := hn.unique e5
  obtain ⟨F, ⟨t, F1, F2⟩, F3, F4⟩ := zero_energy3 hM s0 hK e1 e2 e4 hQ ρ hC hE hu
  have rig : (∃ θ b, RigidMotion3 nn d x f θ b) → ∀ k, k < K.V.ndof → F k = 0 := by
    rintro ⟨θ, b, h⟩ k hk
    obtain ⟨t', z1, z2⟩ := rigid_zero3 hM hK e1 e2 e4 hQ ρ hC
      (fun e q i j k l he hq hi hj hk hl => (hE e q he hq).minor i j k l hi hj hk hl) hu h
    obtain rfl : t = t' := by rw [F1] at z1; injection z1
    exact F2.unique z2 hk
  have zero : (∀ k, k < K.V.ndof → F k = 0) → ∑ k ∈ range K.V.ndof, F k * f k = 0 := fun h =>
    sum_eq_zero fun k hk => by rw [h k (mem_range.1 hk), zero_mul]
  refine ⟨t, by simp only [h1, k1, F1, Res.ok_bind], F, F2, F3, ⟨F4, fun h => zero (rig h)⟩, fun h => F4 (zero h), rig⟩

end GF
