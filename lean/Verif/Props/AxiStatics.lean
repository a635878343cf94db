import Verif.Props.Axi
import Verif.Props.Linear3

/-! **C102** Axisymmetric linear problems: tangent, energy, zero-energy modes, solution, displacement patch test. -/

namespace GF
open Finset ElemSpec Element
open Element.Quad4 (ddot power)

section
variable {α : Type} [Field α] [CharZero α] {c d : Nat → Nat → Nat}
variable {nip : Nat} {pi : α} {Ξ : Nat → Nat → α} {W : Nat → α} {Q : QuadratureAxi α} {X : Nat → Nat → Nat → α}

/-- **C102** (tangent) for a linear relation `σ = C : grad u`, the product of the assembled stiffness with the displacements is the
assembled internal force -/
theorem C102_tangent {M : SMatrix α} {D : Nat → Nat → α} (hM : M.Holds c d D) (e1 : M.V.nne = 4) (e2 : M.V.ndim = 2)
    (hQ : Axi.Live pi M.V.nelem nip Ξ W Q X) (σ τ ρ υ : Sched) {Ct u sig : Ten α} {C f g S}
    (hC : Is6 Ct M.V.nelem nip 3 3 3 3 C) (hu : Is1 u M.V.ndof f)
    (hg : IsOk (gradientAxi σ τ M.V Q u) fun t => Is4 t M.V.nelem nip 3 3 g)
    (hs : Is4 sig M.V.nelem nip 3 3 S)
    (hS : ∀ e q i j, e < M.V.nelem → q < nip → i < 3 → j < 3 → S e q i j = ddot 3 (C e q) (g e q) i j) :
    ∃ F, IsOk (stiffnessDotAxi ρ M Q Ct u) (fun t => Is1 t M.V.ndof F) ∧
      IsOk (internalForceAxi υ M.V Q sig) (fun t => Is1 t M.V.ndof F) := by
  obtain ⟨ue, u1, u2⟩ := C03_element_of_dofs hM.base σ hu
  rw [gradientAxi, u1, Res.ok_bind] at hg
  rw [e1, e2] at u2
  obtain ⟨K, F, ⟨kt, k1, k2⟩, ⟨ft, f1, f2⟩, h3, -⟩ := Axi.C50_axisymmetric_stiffness hQ ρ τ υ hC u2 hg hs hS
  obtain ⟨M', b, m1, m2, m3⟩ := C17_dot_assembled hM (K := kt) (k := K) (by rw [e1, e2]; exact k2) hu
  obtain ⟨y, y1, y2⟩ := C04_assemble_element hM.base (x := ft) (g := F) (by rw [e1, e2]; exact f2)
  refine ⟨_, ⟨b, by simp only [stiffnessDotAxi, k1, m1, m2, Res.ok_bind], m3⟩, y, by simp only [internalForceAxi, f1, y1, Res.ok_bind],
    y2.congr fun r _ => ?_⟩
  refine sum_congr rfl fun e he => sum_congr rfl fun m hm => sum_congr rfl fun i hi => ?_
  rw [mem_range] at he hm hi
  split
  · rw [e1, e2]
    exact (h3 e m i he (by omega) (by omega)).symm
  · rfl

/-- **C102** (energy) the quadratic form of the assembled stiffness is the integral of the work of the stress -/
theorem C102_energy {M : SMatrix α} {D : Nat → Nat → α} (hM : M.Holds c d D) (e1 : M.V.nne = 4) (e2 : M.V.ndim = 2)
    (hQ : Axi.Live pi M.V.nelem nip Ξ W Q X) (σ τ ρ : Sched) {Ct u : Ten α} {C f g}
    (hC : Is6 Ct M.V.nelem nip 3 3 3 3 C) (hu : Is1 u M.V.ndof f)
    (hg : IsOk (gradientAxi σ τ M.V Q u) fun t => Is4 t M.V.nelem nip 3 3 g) :
    ∃ F vol, IsOk (stiffnessDotAxi ρ M Q Ct u) (fun t => Is1 t M.V.ndof F) ∧ Is2 Q.vol M.V.nelem nip vol ∧
      ∑ k ∈ range M.V.ndof, F k * f k =
        ∑ e ∈ range M.V.nelem, ∑ q ∈ range nip, power 3 (ddot 3 (C e q) (g e q)) (g e q) * vol e q := by
  obtain ⟨ue, u1, u2⟩ := C03_element_of_dofs hM.base σ hu
  have hg' := hg
  rw [gradientAxi, u1, Res.ok_bind] at hg'
  rw [e1, e2] at u2
  have hs : Is4 (Ten.of [M.V.nelem, nip, 3, 3] fun ix => ddot 3 (C (ix.getD 0 0) (ix.getD 1 0)) (g (ix.getD 0 0) (ix.getD 1 0))
      (ix.getD 2 0) (ix.getD 3 0)) M.V.nelem nip 3 3 (fun e q => ddot 3 (C e q) (g e q)) :=
    ⟨rfl, fun e q i j _ _ _ _ => by simp [Ten.of]⟩
  obtain ⟨F, F1, F2⟩ := C102_tangent hM e1 e2 hQ σ τ ρ ρ hC hu hg hs (fun _ _ _ _ _ _ _ _ => rfl)
  obtain ⟨vol, Fe, g', hv, ⟨ft, f1, f2⟩, ⟨gt', v2, v3⟩, -, v4⟩ := Axi.C50_axisymmetric_force hQ ρ τ hs u2
  obtain ⟨gt, g1, g2⟩ := hg'
  obtain rfl : gt = gt' := by rw [g1] at v2; injection v2
  obtain ⟨y, U, FF, UU, y1, y2, y3, y4, y5⟩ := C05_adjoint hM.base σ (x := ft) (g := Fe) (by rw [e1, e2]; exact f2) hu
  obtain ⟨y', z1, z2⟩ := F2
  simp only [internalForceAxi, f1, Res.ok_bind] at z1
  obtain rfl : y = y' := by rw [y1] at z1; injection z1
  obtain rfl : ue = U := by rw [u1] at y3; injection y3
  refine ⟨F, vol, F1, hv, ?_⟩
  rw [sum_congr rfl fun k hk => by rw [z2.unique y2 (mem_range.1 hk)], y5]
  refine sum_congr rfl fun e he => ?_
  rw [mem_range] at he
  rw [e1, e2] at *
  rw [sum_congr rfl fun m hm => sum_congr rfl fun i hi => by
    rw [y4.unique u2 he (mem_range.1 hm) (mem_range.1 hi)], v4 e he]
  refine sum_congr rfl fun q hq => ?_
  rw [mem_range] at hq
  congr 1
  simp only [power]
  exact sum_congr rfl fun i hi => sum_congr rfl fun j hj => by
    rw [g2.unique v3 he hq (mem_range.1 hi) (mem_range.1 hj)]

end

open Element.Quad4
variable {α : Type} [Field α] [LinearOrder α] [IsStrictOrderedRing α]
variable {nn ne : Nat} {c d : Nat → Nat → Nat} {x : Nat → Nat → α} {Lx Ly : α} {O : Outline}

omit [LinearOrder α] [IsStrictOrderedRing α] in
/-- a bilinear field that vanishes at the four Gauss points vanishes at the nodes -/
theorem gauss_unisolvent [CharZero α] {U : Nat → Nat → α} {j : Nat} {s : α} (s0 : s ≠ 0)
    (h : ∀ q, q < 4 → map4 U j (s * corner4 q 0) (s * corner4 q 1) = 0) : ∀ m, m < 4 → U m j = 0 := by
  have h0 := h 0 (by omega)
  have h1 := h 1 (by omega)
  have h2 := h 2 (by omega)
  have h3 := h 3 (by omega)
  simp only [map4_form, corner4] at h0 h1 h2 h3
  obtain ⟨a, ha⟩ : ∃ a, U 0 j = a := ⟨_, rfl⟩
  obtain ⟨b, hb⟩ : ∃ a, U 1 j = a := ⟨_, rfl⟩
  obtain ⟨c, hc⟩ : ∃ a, U 2 j = a := ⟨_, rfl⟩
  obtain ⟨e, he⟩ : ∃ a, U 3 j = a := ⟨_, rfl⟩
  rw [ha, hb, hc, he] at h0 h1 h2 h3
  have four : (4 : α) ≠ 0 := by norm_num
  have k1 : a + b + c + e = 0 := by
    refine mul_left_cancel₀ four ?_
    linear_combination 4 * h0 + 4 * h1 + 4 * h2 + 4 * h3
  have k2 : -a + b + c - e = 0 := by
    refine mul_left_cancel₀ (mul_ne_zero four s0) ?_
    linear_combination -4 * h0 + 4 * h1 + 4 * h2 - 4 * h3
  have k3 : -a - b + c + e = 0 := by
    refine mul_left_cancel₀ (mul_ne_zero four s0) ?_
    linear_combination -4 * h0 - 4 * h1 + 4 * h2 + 4 * h3
  have k4 : a - b + c - e = 0 := by
    refine mul_left_cancel₀ (mul_ne_zero four (pow_ne_zero 2 s0)) ?_
    linear_combination 4 * h0 - 4 * h1 + 4 * h2 - 4 * h3
  intro m hm
  interval_cases m
  · rw [ha]; refine mul_left_cancel₀ four ?_; linear_combination k1 - k2 - k3 + k4
  · rw [hb]; refine mul_left_cancel₀ four ?_; linear_combination k1 + k2 - k3 - k4
  · rw [hc]; refine mul_left_cancel₀ four ?_; linear_combination k1 + k2 + k3 + k4
  · rw [he]; refine mul_left_cancel₀ four ?_; linear_combination k1 - k2 + k3 - k4

/-- the energy is non-negative, and zero only for a translation along the axis -/
theorem zero_energyAxi (hM : RectMesh nn ne c x Lx Ly O) (lx : 0 < Lx) (ly : 0 < Ly) {R : α} {s pi : α} (s0 : s ≠ 0) (hpi : 0 < pi) {M : SMatrix α} {D : Nat → Nat → α}
    (hS : M.Holds c d D) (e1 : M.V.nelem = ne) (e2 : M.V.nne = 4) (e4 : M.V.ndim = 2) {Q : QuadratureAxi α}
    (hQ : Axi.Live pi ne 4 (fun q i => s * corner4 q i) (fun _ => 1) Q (fun e m i => ringPos R x (c e m) i))
    (hp : ∀ e q, e < ne → q < 4 → 0 < det4 (fun m i => ringPos R x (c e m) i) (s * corner4 q 0) (s * corner4 q 1))
    (hr : ∀ e q, e < ne → q < 4 → 0 < map4 (fun m i => ringPos R x (c e m) i) 1 (s * corner4 q 0) (s * corner4 q 1)) (ρ : Sched)
    {Ct u : Ten α} {C f} (hC : Is6 Ct ne 4 3 3 3 3 C) (hE : ∀ e q, e < ne → q < 4 → Elastic3 (C e q)) (hu : Is1 u M.V.ndof f) :
    ∃ F, IsOk (stiffnessDotAxi ρ M Q Ct u) (fun t => Is1 t M.V.ndof F) ∧ 0 ≤ ∑ k ∈ range M.V.ndof, F k * f k ∧
      (∑ k ∈ range M.V.ndof, F k * f k = 0 → ∃ b, AxialTranslation nn d f b) := by
  obtain ⟨ue, u1, u2⟩ := C03_element_of_dofs hS.base ρ hu
  rw [e1, e2, e4] at u2
  obtain ⟨⟨gt, g1, g2⟩, -⟩ := Axi.grads_ok (Axi.live_holds hQ).1 ρ u2
  subst e1
  obtain ⟨γ, hγ⟩ : ∃ γ : Nat → Nat → Nat → Nat → α, ∀ e q i j, γ e q i j = Axi.gA (Axi.bX (Axi.NΞ fun q i => s * corner4 q i)
    (D4 fun q i => s * corner4 q i) fun e m i => ringPos R x (c e m) i) (fun e m i => f (d (c e m) i)) e q i j := ⟨_, fun _ _ _ _ => rfl⟩
  have g2' : Is4 gt M.V.nelem 4 3 3 γ := g2.congr fun e q i j _ _ _ _ => (hγ e q i j).symm
  obtain ⟨F, vol, F1, v1, v2⟩ := C102_energy hS e2 e4 hQ ρ ρ ρ hC hu ⟨gt, by simp only [gradientAxi, u1, g1, Res.ok_bind], g2'⟩
  have hv : ∀ e q, e < M.V.nelem → q < 4 → 0 < vol e q := fun e q he hq => by
    have a := hp e q he hq
    have b := hr e q he hq
    rw [v1.unique (Axi.C50_axisymmetric_volume hQ) he hq, one_mul]
    exact mul_pos a (mul_pos (mul_pos two_pos hpi) b)
  have nn0 : ∀ e ∈ range M.V.nelem, ∀ q ∈ range 4, 0 ≤ power 3 (ddot 3 (C e q) (γ e q)) (γ e q) * vol e q := fun e he q hq => by
    rw [mem_range] at he hq
    exact mul_nonneg ((hE e q he hq).nonneg _) (hv e q he hq).le
  refine ⟨F, F1, ?_, fun z => ?_⟩
  · rw [v2]
    exact sum_nonneg fun e he => sum_nonneg (nn0 e he)
  rw [v2, sum_eq_zero_iff_of_nonneg fun e he => sum_nonneg (nn0 e he)] at z
  have sym : ∀ e q, e < M.V.nelem → q < 4 → ∀ i j, i < 3 → j < 3 → γ e q i j + γ e q j i = 0 := fun e q he hq => by
    have h1 := z e (mem_range.2 he)
    rw [sum_eq_zero_iff_of_nonneg (nn0 e (mem_range.2 he))] at h1
    exact (hE e q he hq).pos _ ((mul_eq_zero.1 (h1 q (mem_range.2 hq))).resolve_right (hv e q he hq).ne')
  have diag : ∀ e q, e < M.V.nelem → q < 4 → ∀ i, i < 3 → γ e q i i = 0 := fun e q he hq i hi => by
    have := sym e q he hq i i hi hi
    linarith
  -- radial displacements
  have rad : ∀ e m, e < M.V.nelem → m < 4 → f (d (c e m) 1) = 0 := by
    intro e m he hm
    refine gauss_unisolvent (U := fun m i => f (d (c e m) i)) (j := 1) s0 (fun q hq => ?_) m hm
    have h1 := diag e q he hq 1 (by omega)
    obtain ⟨t, t1, g, t2, t3⟩ := Axi.C50_axisymmetric_hoop hQ u2 ρ
    obtain rfl : gt = t := by rw [g1] at t1; injection t1
    rw [g2'.unique t2 he hq (by omega) (by omega), t3 e q he hq, div_eq_zero_iff] at h1
    exact h1.resolve_right (hr e q he hq).ne'
  obtain ⟨e0, a0, he0, -, -⟩ := hM.used lx ly 0 hM.nodes
  obtain ⟨θ, b₀, b₁, h⟩ := mesh_rigid hM lx ly (U := fun m i => if i = 0 then f (d m 0) else 0) fun e he => by
    have hz : ∀ q, q < 4 → grad 4 (Gf (D4 fun q i => s * corner4 q i) fun e m i => ringPos R x (c e m) i) (fun e m i => if i = 0 then f (d (c e m) 0) else 0) e q 0 0 = 0 ∧ grad 4 (Gf (D4 fun q i => s * corner4 q i) fun e m i => ringPos R x (c e m) i) (fun e m i => if i = 0 then f (d (c e m) 0) else 0) e q 1 1 = 0 ∧ grad 4 (Gf (D4 fun q i => s * corner4 q i) fun e m i => ringPos R x (c e m) i) (fun e m i => if i = 0 then f (d (c e m) 0) else 0) e q 0 1 + grad 4 (Gf (D4 fun q i => s * corner4 q i) fun e m i => ringPos R x (c e m) i) (fun e m i => if i = 0 then f (d (c e m) 0) else 0) e q 1 0 = 0 := fun q hq => by
      have z22 := diag e q he hq 2 (by omega)
      have z20 := sym e q he hq 2 0 (by omega) (by omega)
      rw [hγ, show Axi.gA _ _ e q 2 2 = _ from Axi.gA_of _ _ e q (a := 2) (by omega)] at z22
      rw [hγ, hγ, show Axi.gA _ _ e q 2 0 = _ from Axi.gA_of _ _ e q (a := 4) (by omega),
        show Axi.gA _ _ e q 0 2 = _ from Axi.gA_of _ _ e q (a := 3) (by omega)] at z20
      have r0 : Axi.ga (Axi.bX (Axi.NΞ fun q i => s * corner4 q i)
          (D4 fun q i => s * corner4 q i) fun e m i => ringPos R x (c e m) i) (fun e m i => f (d (c e m) i)) e q 4 = 0 :=
        sum_eq_zero fun m hm => by
          rw [mem_range] at hm
          change _ * f (d (c e m) 1) = 0
          rw [rad e m he hm, mul_zero]
      rw [r0, zero_add] at z20
      refine ⟨?_, ?_, ?_⟩
      · exact z22
      · exact sum_eq_zero fun m _ => by simp
      · have a : grad 4 (Gf (D4 fun q i => s * corner4 q i) fun e m i => ringPos R x (c e m) i) (fun e m i => if i = 0 then f (d (c e m) 0) else 0) e q 0 1 = 0 :=
          sum_eq_zero fun m _ => by simp
        rw [a, zero_add]
        exact z20
    obtain ⟨θ, b₀, b₁, h⟩ := elem_rigid (X := fun m i => ringPos R x (c e m) i) (U := fun m i => if i = 0 then f (d (c e m) 0) else 0) s0
      (g := fun q => grad 4 (Gf (D4 fun q i => s * corner4 q i) fun e m i => ringPos R x (c e m) i) (fun e m i => if i = 0 then f (d (c e m) 0) else 0) e q)
      (fun q hq => (hp e q he hq).ne') (fun q k j hq hk hj => grad_chain (Ξ := fun q i => s * corner4 q i) (X := fun e m i => ringPos R x (c e m) i)
        (U := fun e m i => if i = 0 then f (d (c e m) 0) else 0) (e := e) (q := q) (hp e q he hq).ne' hk j) hz
    refine ⟨θ, b₀ - θ * R, b₁, fun a ha => ?_⟩
    obtain ⟨h1, h2⟩ := h a ha
    rw [ringPos_one] at h1
    rw [ringPos_zero] at h2
    exact ⟨h1.trans (by ring), h2⟩
  obtain ⟨s1, s2, s3, s4⟩ := hM.sizes
  obtain ⟨k1, k2, -, -⟩ := hM.corners
  have w1 := (h (O.bottom 0) (hM.bottom 0 s1).1).2
  have w2 := (h (O.bottom (O.nb - 1)) (hM.bottom _ (by omega)).1).2
  rw [k1] at w1
  rw [k2] at w2
  simp only [if_neg one_ne_zero] at w1 w2
  have t0 : θ = 0 := by
    have : θ * Lx = 0 := by linarith
    exact (mul_eq_zero.1 this).resolve_right lx.ne'
  refine ⟨b₀, fun m hm => ⟨?_, ?_⟩⟩
  · have := (h m hm).1
    simp only [if_true] at this
    rw [this, t0]; ring
  · obtain ⟨e, a, he, ha, rfl⟩ := hM.used lx ly m hm
    exact rad e a he ha


/-- two numbers of DOFs of the same array are equal -/
theorem NumDofs.uniq {n m : Nat} (hn : NumDofs nn d n) (hm : NumDofs nn d m) : n = m := by
  obtain ⟨h1, a, i, ha, hi, e⟩ := hn
  obtain ⟨h2, b, j, hb, hj, e'⟩ := hm
  have := h1 b j hb hj
  have := h2 a i ha hi
  omega

/-- the assembled stiffness, and its regularity with respect to the unknown DOFs -/
theorem stiff_regularAxi (hM : RectMesh nn ne c x Lx Ly O) (lx : 0 < Lx) (ly : 0 < Ly) {R : α} {s pi : α} (s0 : s ≠ 0) (hpi : 0 < pi) {V : Vector}
    (hV : V.Holds c d) (e1 : V.nelem = ne) (e2 : V.nne = 4) (e4 : V.ndim = 2) {Q : QuadratureAxi α}
    (hQ : Axi.Live pi ne 4 (fun q i => s * corner4 q i) (fun _ => 1) Q (fun e m i => ringPos R x (c e m) i))
    (hp : ∀ e q, e < ne → q < 4 → 0 < det4 (fun m i => ringPos R x (c e m) i) (s * corner4 q 0) (s * corner4 q 1))
    (hr : ∀ e q, e < ne → q < 4 → 0 < map4 (fun m i => ringPos R x (c e m) i) 1 (s * corner4 q 0) (s * corner4 q 1)) (ρ : Sched)
    {Ct : Ten α} {C} (hC : Is6 Ct ne 4 3 3 3 3 C) (hE : ∀ e q, e < ne → q < 4 → Elastic3 (C e q)) :
    ∃ kt k, Axi.Int_gradN_dot_tensor4_dot_gradNT_dV Q ρ Ct = .ok kt ∧ Is3 kt V.nelem (V.nne * V.ndim) (V.nne * V.ndim) k ∧
      (∀ M : SMatrix α, M.V = V → (∃ D, M.Holds c d D) → ∀ u f, Is1 u V.ndof f →
        IsOk (stiffnessDotAxi ρ M Q Ct u) fun t => Is1 t V.ndof fun r => ∑ s ∈ range V.ndof, SMatrix.assembled V c d k r s * f s) ∧
      (∀ (iip : List Nat) (f : Nat → α), (∃ m, m < nn ∧ d m 0 ∈ iip) → (∀ r, r < V.ndof → r ∉ iip → ∑ s ∈ range V.ndof, SMatrix.assembled V c d k r s * f s = 0) →
        (∀ k ∈ iip, f k = 0) → ∀ m i, m < nn → i < 2 → f (d m i) = 0) ∧
      EnergyForm V.ndof (SMatrix.assembled V c d k) (fun iip f => (∃ m, m < nn ∧ d m 0 ∈ iip) → ∀ m i, m < nn → i < 2 → f (d m i) = 0)
        (∀ e q, e < ne → q < 4 → Major 3 (C e q)) := by
  -- the element matrices do not depend on the displacement: take the zero displacement
  have z3 : Is3 (Ten.of [ne, 4, 2] fun _ => (0 : α)) ne 4 2 (fun _ _ _ => 0) := ⟨rfl, fun _ _ _ _ _ _ => by simp [Ten.of]⟩
  obtain ⟨⟨gt, g1, g2⟩, -⟩ := Axi.grads_ok (Axi.live_holds hQ).1 ρ z3
  obtain ⟨γ, g2'⟩ : ∃ γ : Nat → Nat → Nat → Nat → α, Is4 gt ne 4 3 3 γ := ⟨_, g2⟩
  have hs : Is4 (Ten.of [ne, 4, 3, 3] fun ix => ddot 3 (C (ix.getD 0 0) (ix.getD 1 0)) (γ (ix.getD 0 0) (ix.getD 1 0))
      (ix.getD 2 0) (ix.getD 3 0)) ne 4 3 3 (fun e q => ddot 3 (C e q) (γ e q)) :=
    ⟨rfl, fun e q i j _ _ _ _ => by simp [Ten.of]⟩
  obtain ⟨k, -, ⟨kt, k1, k2⟩, -, -, ksym, -⟩ := Axi.C50_axisymmetric_stiffness hQ ρ ρ ρ hC z3 ⟨gt, g1, g2'⟩ hs (fun _ _ _ _ _ _ _ _ => rfl)
  have k2' : Is3 kt V.nelem (V.nne * V.ndim) (V.nne * V.ndim) k := by rw [e1, e2, e4]; exact k2
  have prod : ∀ M : SMatrix α, M.V = V → (∃ D, M.Holds c d D) → ∀ u f, Is1 u V.ndof f →
        IsOk (stiffnessDotAxi ρ M Q Ct u) fun t => Is1 t V.ndof fun r => ∑ s ∈ range V.ndof, SMatrix.assembled V c d k r s * f s := by
    rintro M rfl ⟨D, hD⟩ u f hu
    have a := SMatrix.assemble_spec hD.base k2'
    obtain ⟨b, b1, b2⟩ := C17_dot_dofval (M := ⟨M.V, ⟨M.V.ndof, M.V.ndof, SMatrix.assembled M.V c d k⟩, true⟩)
      ⟨hD.base, rfl, rfl, fun _ _ => rfl⟩ hu
    exact ⟨b, by simp only [stiffnessDotAxi, k1, a, b1, Res.ok_bind], b2⟩
  have hK : (⟨V, Mat.zero V.ndof V.ndof, true⟩ : SMatrix α).Holds c d (fun _ _ => 0) := ⟨hV, rfl, rfl, fun _ _ => rfl⟩
  have en : ∀ f : Nat → α, 0 ≤ ∑ r ∈ range V.ndof, (∑ s ∈ range V.ndof, SMatrix.assembled V c d k r s * f s) * f r ∧
      (∑ r ∈ range V.ndof, (∑ s ∈ range V.ndof, SMatrix.assembled V c d k r s * f s) * f r = 0 → ∃ b, AxialTranslation nn d f b) := by
    intro f
    have hu : Is1 (Ten.of [V.ndof] fun ix => f (ix.getD 0 0)) V.ndof f := ⟨rfl, fun i _ => by simp [Ten.of]⟩
    obtain ⟨t, t1, t2⟩ := prod _ rfl ⟨_, hK⟩ _ f hu
    obtain ⟨F, ⟨t', F1, F2⟩, F3, F4⟩ := zero_energyAxi hM lx ly s0 hpi hK e1 e2 e4 hQ hp hr ρ hC hE hu
    obtain rfl : t = t' := by rw [t1] at F1; injection F1
    have e : ∑ r ∈ range V.ndof, (∑ s ∈ range V.ndof, SMatrix.assembled V c d k r s * f s) * f r = ∑ r ∈ range V.ndof, F r * f r :=
      sum_congr rfl fun r hr => by rw [F2.unique t2 (mem_range.1 hr)]
    rw [e]
    exact ⟨F3, F4⟩
  have pd : ∀ (iip : List Nat) (f : Nat → α), (∀ k ∈ iip, f k = 0) →
      ∑ r ∈ range V.ndof, (∑ s ∈ range V.ndof, SMatrix.assembled V c d k r s * f s) * f r = 0 →
      (∃ m, m < nn ∧ d m 0 ∈ iip) → ∀ m i, m < nn → i < 2 → f (d m i) = 0 := by
    rintro iip f h2 h0 ⟨a, ha, hai⟩ m i hm hi
    obtain ⟨b, h⟩ := (en f).2 h0
    have hb : b = 0 := by rw [← (h a ha).1]; exact h2 _ hai
    interval_cases i
    · rw [(h m hm).1, hb]
    · exact (h m hm).2
  refine ⟨kt, k, k1, k2', prod, fun iip f hS h1 h2 => pd iip f h2 (sum_eq_zero fun r hr => ?_) hS, fun f => (en f).1, pd, fun hs r s _ _ => ?_⟩
  · rw [mem_range] at hr
    by_cases hi : r ∈ iip
    · rw [h2 r hi, mul_zero]
    · rw [h1 r hr hi, zero_mul]
  · refine assembled_symm k ?_ r s
    rw [e1, e2, e4]
    exact ksym fun e q i j k l he hq hi hj hk hl => by
      rw [(hE e q he hq).minor i j k l hi hj hk hl, hs e q he hq i j l k hi hj hl hk, (hE e q he hq).minor l k i j hl hk hi hj]

/-- **C102** (no spurious modes) the energy is non-negative; it is zero, and likewise the force is zero, exactly for the
translations along the axis -/
theorem C102_no_spurious_modes (hM : RectMesh nn ne c x Lx Ly O) (lx : 0 < Lx) (ly : 0 < Ly) {R : α} (hR : 0 ≤ R) {s pi : α} (s0 : s ≠ 0)
    (s1 : -1 < s) (s2 : s < 1) (hpi : 0 < pi) (σ τ ρ : Sched) {conn dofs : Ten Nat} {coor : Ten α} (hc : Is2 conn ne 4 c) (hx : Is2 coor nn 2 (ringPos R x)) (hd : Is2 dofs nn 2 d)
    {n : Nat} (hn : NumDofs nn d n) {Ct u : Ten α} {C f} (hC : Is6 Ct ne 4 3 3 3 3 C) (hE : ∀ e q, e < ne → q < 4 → Elastic3 (C e q))
    (hu : Is1 u n f) :
    IsOk (do
      let (_, Q) ← setupAxi s pi σ τ conn dofs coor
      let K ← SMatrix.new conn dofs
      stiffnessDotAxi ρ K Q Ct u) fun t => ∃ F, Is1 t n F ∧ 0 ≤ ∑ k ∈ range n, F k * f k ∧
        (∑ k ∈ range n, F k * f k = 0 ↔ ∃ b, AxialTranslation nn d f b) ∧
        ((∀ k, k < n → F k = 0) ↔ ∃ b, AxialTranslation nn d f b) := by
  obtain ⟨V, Q, h1, h2, hV, e1, e2, e3, e4, e5, hQ, hp, hr⟩ := hM.setupAxi hR s1 s2 pi σ τ hc hx hd
  obtain ⟨K, k1, k2, hK⟩ := C15_constructor (α := α) hc hd hM.valid
  obtain rfl : V = K.V := by rw [h2] at k2; injection k2
  obtain rfl := hn.ndof hV e3 e4 e5
  obtain ⟨F, ⟨t, F1, F2⟩, F3, F4⟩ := zero_energyAxi hM lx ly s0 hpi hK e1 e2 e4 hQ hp hr ρ hC hE hu
  have rig : (∃ b, AxialTranslation nn d f b) → ∀ k, k < K.V.ndof → F k = 0 := by
    rintro ⟨b, h⟩ k hk
    obtain ⟨ue, u1, u2⟩ := C03_element_of_dofs hV ρ hu
    rw [e1, e2, e4] at u2
    obtain ⟨⟨gt, g1, g2⟩, -⟩ := Axi.C50_axisymmetric_gradient hQ (fun e q he hq => (hp e q he hq).ne') u2
      (B := fun _ _ => 0) (b := fun i => if i = 0 then b else 0) (fun e m j he hm hj => by
        have := h _ (hM.valid e m he hm)
        interval_cases j
        · simpa using this.1
        · simpa using this.2) ρ (hoop := fun _ _ => 0) (fun e q he hq => by
        have : map4 (fun m i => f (d (c e m) i)) 1 (s * corner4 q 0) (s * corner4 q 1) = 0 :=
          sum_eq_zero fun m hm => by
            beta_reduce
            rw [(h _ (hM.valid e m he (mem_range.1 hm))).2, mul_zero]
        rw [this, zero_div])
    have gz : ∀ i j, Axi.cylGrad (fun _ _ => (0 : α)) 0 i j = 0 := fun i j => by unfold Axi.cylGrad; split <;> rfl
    have hs : Is4 (Ten.of [ne, 4, 3, 3] fun _ => (0 : α)) ne 4 3 3 (fun _ _ _ _ => 0) := ⟨rfl, fun e q i j _ _ _ _ => by simp [Ten.of]⟩
    obtain ⟨F', ⟨t1, T1, T2⟩, t2, T3, T4⟩ := C102_tangent hK e2 e4 (by rw [e1]; exact hQ) ρ ρ ρ ρ (by rw [e1]; exact hC) hu
      ⟨gt, by simp only [gradientAxi, u1, g1, Res.ok_bind], by rw [e1]; exact g2⟩ (by rw [e1]; exact hs)
      (fun e q i j he hq _ _ => by
        simp only [ddot]
        exact (sum_eq_zero fun k _ => sum_eq_zero fun l _ => by rw [gz, mul_zero]).symm)
    obtain rfl : t = t1 := by rw [F1] at T1; injection T1
    rw [F2.unique T2 hk]
    -- the zero displacement has the same (zero) stress
    have hu0 : Is1 (Ten.of [K.V.ndof] fun _ => (0 : α)) K.V.ndof (fun _ => 0) := ⟨rfl, fun i _ => by simp [Ten.of]⟩
    obtain ⟨ue0, w1, w2⟩ := C03_element_of_dofs hV ρ hu0
    rw [e1, e2, e4] at w2
    obtain ⟨⟨gt0, w3, w4⟩, -⟩ := Axi.C50_axisymmetric_gradient hQ (fun e q he hq => (hp e q he hq).ne') w2
      (B := fun _ _ => 0) (b := fun _ => 0) (fun e m j he hm hj => by simp) ρ (hoop := fun _ _ => 0) (fun e q he hq => by simp [map4])
    obtain ⟨F0, ⟨t0, T1', T2'⟩, t2', T3', T4'⟩ := C102_tangent hK e2 e4 (by rw [e1]; exact hQ) ρ ρ ρ ρ (by rw [e1]; exact hC) hu0
      ⟨gt0, by simp only [gradientAxi, w1, w3, Res.ok_bind], by rw [e1]; exact w4⟩ (by rw [e1]; exact hs)
      (fun e q i j he hq _ _ => by
        simp only [ddot]
        exact (sum_eq_zero fun k _ => sum_eq_zero fun l _ => by rw [gz, mul_zero]).symm)
    obtain rfl : t2 = t2' := by rw [T3] at T3'; injection T3'
    obtain ⟨kt, k, -, -, q3, -⟩ := stiff_regularAxi hM lx ly s0 hpi hV e1 e2 e4 hQ hp hr ρ hC hE
    obtain ⟨t3, t4, t5⟩ := q3 K rfl ⟨_, hK⟩ _ _ hu0
    obtain rfl : t0 = t3 := by rw [T1'] at t4; injection t4
    rw [T4.unique T4' hk, T2'.unique t5 hk]
    exact sum_eq_zero fun s _ => mul_zero _
  have zero : (∀ k, k < K.V.ndof → F k = 0) → ∑ k ∈ range K.V.ndof, F k * f k = 0 := fun h =>
    sum_eq_zero fun k hk => by rw [h k (mem_range.1 hk), zero_mul]
  refine ⟨t, by simp only [h1, k1, F1, Res.ok_bind], F, F2, F3, ⟨F4, fun h => zero (rig h)⟩, fun h => F4 (zero h), rig⟩

/-- the program of the linear problem, with the system of equations it solves -/
theorem solve_coreAxi (hM : RectMesh nn ne c x Lx Ly O) (lx : 0 < Lx) (ly : 0 < Ly) {R : α} (hR : 0 ≤ R) {s pi : α} (s0 : s ≠ 0)
    (s1 : -1 < s) (s2 : s < 1) (hpi : 0 < pi) (σ τ ρ : Sched) (υ : Nat → Sched) {conn dofs : Ten Nat} {coor : Ten α} (hc : Is2 conn ne 4 c)
    (hx : Is2 coor nn 2 (ringPos R x)) (hd : Is2 dofs nn 2 d)
    {n : Nat} (hn : NumDofs nn d n) (hgap : ∀ k, k < n → ∃ m i, m < nn ∧ i < 2 ∧ d m i = k) {Ct b u : Ten α} {C w f}
    (hC : Is6 Ct ne 4 3 3 3 3 C) (hE : ∀ e q, e < ne → q < 4 → Elastic3 (C e q)) (hb : Is1 b n w)
    (hu : Is1 u n f) {iip : List Nat} (hi : iip.Nodup) (hin : ∀ k ∈ iip, k < n) (hS : ∃ m, m < nn ∧ d m 0 ∈ iip)
    {S : LinSolver α} (hSol : S.Suits (∀ e q, e < ne → q < 4 → Major 3 (C e q))) :
    ∃ (K : SMatrix α) (Q : QuadratureAxi α) (y : Ten α) (f' : Nat → α) (B : Nat → Nat → α), setupAxi s pi σ τ conn dofs coor = .ok (K.V, Q) ∧
      SMatrix.new conn dofs = .ok K ∧
      K.Holds c d (fun _ _ => 0) ∧ K.V.nelem = ne ∧ K.V.nne = 4 ∧ K.V.nnode = nn ∧ K.V.ndim = 2 ∧ K.V.ndof = n ∧
      Axi.Live pi ne 4 (fun q i => s * corner4 q i) (fun _ => 1) Q (fun e m i => ringPos R x (c e m) i) ∧
      (∀ e q, e < ne → q < 4 → 0 < det4 (fun m i => ringPos R x (c e m) i) (s * corner4 q 0) (s * corner4 q 1)) ∧
      (∀ e q, e < ne → q < 4 → 0 < map4 (fun m i => ringPos R x (c e m) i) 1 (s * corner4 q 0) (s * corner4 q 1)) ∧
      solveLinearAxi S ρ υ conn dofs iip Q Ct b u = .ok y ∧ Is1 y n f' ∧ (∀ k ∈ iip, f' k = f k) ∧
      (∀ r, r < n → r ∉ iip → ∑ k ∈ range n, B r k * f' k = w r) ∧
      (∀ u f, Is1 u n f → IsOk (stiffnessDotAxi ρ K Q Ct u) fun t => Is1 t n fun r => ∑ s ∈ range n, B r s * f s) ∧
      (∀ f : Nat → α, (∀ r, r < n → r ∉ iip → ∑ s ∈ range n, B r s * f s = 0) → (∀ k ∈ iip, f k = 0) → ∀ m i, m < nn → i < 2 → f (d m i) = 0) := by
  obtain ⟨V, Q, h1, h2, hV, e1, e2, e3, e4, e5, hQ, hp, hr⟩ := hM.setupAxi hR s1 s2 pi σ τ hc hx hd
  obtain ⟨K, k1, k2, hK⟩ := C15_constructor (α := α) hc hd hM.valid
  obtain rfl : V = K.V := by rw [h2] at k2; injection k2
  obtain rfl := hn.ndof hV e3 e4 e5
  obtain ⟨kt, k, q1, q2, q3, q4, en⟩ := stiff_regularAxi hM lx ly s0 hpi hV e1 e2 e4 hQ hp hr ρ hC hE
  obtain ⟨M, q, m1, m2, m3, m4, hMP⟩ := C18_constructor (α := α) (iip := iip) hc hd hM.valid hi (fun k hk => by
      obtain ⟨m, i, hm, hi', h⟩ := hn.2
      exact ⟨m, i, hm, hi', by have := hin k hk; omega⟩) (fun m i hm hi' k hk => by
      obtain ⟨a, b', ha, hb', h⟩ := hgap k (by have := hn.1 m i hm hi'; omega)
      exact ⟨a, b', ha, hb', h⟩) ⟨hM.nodes, by omega⟩
  have mv : M.P.V = K.V := by rw [h2] at m3; injection m3 with m3; exact m3.symm
  obtain ⟨A, a1, a2⟩ := MatrixPartitioned.assemble_spec hMP (k := k) (by rw [mv]; exact q2)
  have hM' : MatrixPartitioned.Holds { M with A := A, changed := true } c d q (SMatrix.assembled M.P.V c d k) :=
    ⟨hMP.base, hMP.surj, hMP.part1d_shape, hMP.part1d, a2⟩
  rw [← mv] at en
  have hex : S.ExactOn A.uu := hM'.exact_uu en.symm en.nonneg (fun f h1 h2 m i hm hi =>
    en.pos iip f (by rw [← m4]; exact h1) h2 hS m i (by rw [← e3, ← mv]; exact hm) (by rw [← e4, ← mv]; exact hi)) hSol
  obtain ⟨s', M', y, f', y1, y2, y3, y4⟩ := C21_solve_dofval S SolverState.init hM' (Or.inl rfl) hex υ
    (b := b) (x := u) (by change Is1 b M.P.V.ndof w; rw [mv]; exact hb) (by change Is1 u M.P.V.ndof f; rw [mv]; exact hu)
  dsimp only at y2 y3 y4
  rw [m4] at y3 y4
  rw [mv] at y2 y4
  exact ⟨K, Q, y, f', SMatrix.assembled K.V c d k, h1, k1, hK, e1, e2, e3, e4, rfl, hQ, hp, hr,
    by simp only [solveLinearAxi, m1, q1, a1, y1, Res.ok_bind]; rfl, y2, y3, y4,
    fun u f hu => q3 K rfl ⟨_, hK⟩ u f hu, fun f => q4 iip f hS⟩

/-- **C102** (uniqueness) two displacements that agree on the prescribed DOFs (at least one of them axial) and have the same forces
on all other DOFs are equal -/
theorem C102_unique (hM : RectMesh nn ne c x Lx Ly O) (lx : 0 < Lx) (ly : 0 < Ly) {R : α} (hR : 0 ≤ R) {s pi : α} (s0 : s ≠ 0)
    (s1 : -1 < s) (s2 : s < 1) (hpi : 0 < pi) (σ τ ρ : Sched) {conn dofs : Ten Nat} {coor : Ten α} (hc : Is2 conn ne 4 c)
    (hx : Is2 coor nn 2 (ringPos R x)) (hd : Is2 dofs nn 2 d)
    {n : Nat} (hn : NumDofs nn d n) {Ct u u' : Ten α} {C f f'} (hC : Is6 Ct ne 4 3 3 3 3 C) (hE : ∀ e q, e < ne → q < 4 → Elastic3 (C e q))
    (hu : Is1 u n f) (hu' : Is1 u' n f') {iip : List Nat} (hS : ∃ m, m < nn ∧ d m 0 ∈ iip) (hi : ∀ k ∈ iip, f k = f' k) :
    IsOk (do
      let (_, Q) ← setupAxi s pi σ τ conn dofs coor
      let K ← SMatrix.new conn dofs
      let t ← stiffnessDotAxi ρ K Q Ct u
      let t' ← stiffnessDotAxi ρ K Q Ct u'
      return (t, t')) fun t => ∃ F F', Is1 t.1 n F ∧ Is1 t.2 n F' ∧
        ((∀ k, k < n → k ∉ iip → F k = F' k) → ∀ m i, m < nn → i < 2 → f (d m i) = f' (d m i)) := by
  obtain ⟨V, Q, h1, h2, hV, e1, e2, e3, e4, e5, hQ, hp, hr⟩ := hM.setupAxi hR s1 s2 pi σ τ hc hx hd
  obtain ⟨K, k1, k2, hK⟩ := C15_constructor (α := α) hc hd hM.valid
  obtain rfl : V = K.V := by rw [h2] at k2; injection k2
  obtain rfl := hn.ndof hV e3 e4 e5
  obtain ⟨kt, k, q1, q2, q3, q4, en⟩ := stiff_regularAxi hM lx ly s0 hpi hV e1 e2 e4 hQ hp hr ρ hC hE
  obtain ⟨t, t1, t2⟩ := q3 K rfl ⟨_, hK⟩ u f hu
  obtain ⟨t', t1', t2'⟩ := q3 K rfl ⟨_, hK⟩ u' f' hu'
  refine ⟨(t, t'), by simp only [h1, k1, t1, t1', Res.ok_bind]; rfl, _, _, t2, t2', fun h m i hm hi' => ?_⟩
  have := q4 iip (fun k => f k - f' k) hS (fun r hr hr' => by
    rw [sum_congr rfl fun s _ => mul_sub _ _ _, sum_sub_distrib, h r hr hr', sub_self]) (fun k hk => by rw [hi k hk, sub_self]) m i hm hi'
  exact sub_eq_zero.1 this

/-- **C102** (solution) `Solve` succeeds for every load and every prescribed displacement that includes an axial one: the
result has the prescribed values, and the internal force of its stress equals the load on all other DOFs. -/
theorem C102_solve (hM : RectMesh nn ne c x Lx Ly O) (lx : 0 < Lx) (ly : 0 < Ly) {R : α} (hR : 0 ≤ R) {s pi : α} (s0 : s ≠ 0)
    (s1 : -1 < s) (s2 : s < 1) (hpi : 0 < pi) (σ τ ρ : Sched) (υ : Nat → Sched) {conn dofs : Ten Nat} {coor : Ten α} (hc : Is2 conn ne 4 c)
    (hx : Is2 coor nn 2 (ringPos R x)) (hd : Is2 dofs nn 2 d)
    {n : Nat} (hn : NumDofs nn d n) (hgap : ∀ k, k < n → ∃ m i, m < nn ∧ i < 2 ∧ d m i = k) {Ct b u : Ten α} {C w f}
    (hC : Is6 Ct ne 4 3 3 3 3 C) (hE : ∀ e q, e < ne → q < 4 → Elastic3 (C e q)) (hb : Is1 b n w)
    (hu : Is1 u n f) {iip : List Nat} (hi : iip.Nodup) (hin : ∀ k ∈ iip, k < n) (hS : ∃ m, m < nn ∧ d m 0 ∈ iip)
    {S : LinSolver α} (hSol : S.Suits (∀ e q, e < ne → q < 4 → Major 3 (C e q))) :
    IsOk (do
      let (V, Q) ← setupAxi s pi σ τ conn dofs coor
      let y ← solveLinearAxi S ρ υ conn dofs iip Q Ct b u
      let gt ← gradientAxi σ τ V Q y
      return (V, Q, y, gt)) fun r => ∃ f' γ, Is1 r.2.2.1 n f' ∧ (∀ k ∈ iip, f' k = f k) ∧ Is4 r.2.2.2 ne 4 3 3 γ ∧
        ∀ sig, Is4 sig ne 4 3 3 (fun e q => ddot 3 (C e q) (γ e q)) →
          IsOk (internalForceAxi ρ r.1 r.2.1 sig) fun t => ∃ F, Is1 t n F ∧ ∀ k, k < n → k ∉ iip → F k = w k := by
  obtain ⟨K, Q, y, f', B, h1, -, hK, e1, e2, e3, e4, en, hQ, hp, hr, y0, y2, y3, y4, q3, -⟩ :=
    solve_coreAxi hM lx ly hR s0 s1 s2 hpi σ τ ρ υ hc hx hd hn hgap hC hE hb hu hi hin hS hSol
  have hV := hK.base
  obtain ⟨ue, u1, u2⟩ := C03_element_of_dofs hV σ (by rw [en]; exact y2)
  rw [e1, e2, e4] at u2
  obtain ⟨⟨gt, g1, g2⟩, -⟩ := Axi.grads_ok (Axi.live_holds hQ).1 τ u2
  obtain ⟨γ, g2'⟩ : ∃ γ : Nat → Nat → Nat → Nat → α, Is4 gt ne 4 3 3 γ := ⟨_, g2⟩
  refine ⟨(K.V, Q, y, gt), by
    have g0 : gradientAxi σ τ K.V Q y = .ok gt := by simp only [gradientAxi, u1, g1, Res.ok_bind]
    simp only [h1, y0, g0, Res.ok_bind]; rfl, f', γ, y2, y3, g2', fun sig hs => ?_⟩
  obtain ⟨F, ⟨t, F1, F2⟩, t', F3, F4⟩ := C102_tangent hK e2 e4 (by rw [e1]; exact hQ) σ τ ρ ρ (by rw [e1]; exact hC) (by rw [en]; exact y2)
    ⟨gt, by simp only [gradientAxi, u1, g1, Res.ok_bind], by rw [e1]; exact g2'⟩ (by rw [e1]; exact hs) (fun _ _ _ _ _ _ _ _ => rfl)
  obtain ⟨t'', F5, F6⟩ := q3 y f' y2
  obtain rfl : t = t'' := by rw [F1] at F5; injection F5
  refine ⟨t', F3, F, by rw [← en]; exact F4, fun r hr hri => ?_⟩
  rw [en] at F2
  rw [F2.unique F6 hr]
  exact y4 r hr hri

/-- **C102** (patch test in displacements) for a homogeneous material whose stress under the strain `diag(κ, κ, b)` has equal radial and
hoop components and no shear (such as every isotropic material): if the uniform axial stretch `u_z = a + b z` and the uniform
radial expansion `u_r = κ r` are prescribed on the surface and no load is applied, then the solution is that field at every node.
On the axis of a solid that is not hollow nothing needs to be prescribed. -/
theorem C102_patch (hM : RectMesh nn ne c x Lx Ly O) (lx : 0 < Lx) (ly : 0 < Ly) {R : α} (hR : 0 ≤ R) {s pi : α} (hs3 : 3 * s ^ 2 = 1)
    (hpi : 0 < pi) (σ τ ρ : Sched) (υ : Nat → Sched) {conn dofs : Ten Nat} {coor : Ten α} (hc : Is2 conn ne 4 c)
    (hx : Is2 coor nn 2 (ringPos R x)) (hd : Is2 dofs nn 2 d)
    {n : Nat} (hn : NumDofs nn d n) (hgap : ∀ k, k < n → ∃ m i, m < nn ∧ i < 2 ∧ d m i = k) {Ct b u : Ten α} {C f}
    (hC : Is6 Ct ne 4 3 3 3 3 fun _ _ => C) (hE : Elastic3 C) (hb : Is1 b n fun _ => 0)
    (hu : Is1 u n f) {iip : List Nat} (hi : iip.Nodup) (hin : ∀ k ∈ iip, k < n)
    (hbd : ∀ m i, m < nn → i < 2 → ¬ (0 < x m 0 ∧ x m 0 < Lx ∧ (0 < x m 1 ∨ R = 0) ∧ x m 1 < Ly) → d m i ∈ iip)
    {az bz κ : α} {fA : Nat → α} (hA : ∀ m, m < nn → fA (d m 0) = az + bz * x m 0 ∧ fA (d m 1) = κ * (R + x m 1))
    {E : Nat → Nat → α} (hEd : ∀ i j, i < 3 → j < 3 → E i j = if i = j then (if i = 2 then bz else κ) else 0)
    (hS00 : ddot 3 C E 0 0 = ddot 3 C E 1 1) (hS02 : ddot 3 C E 0 2 = 0)
    (hf : ∀ k ∈ iip, f k = fA k) {S : LinSolver α} (hSol : S.Suits (Major 3 C)) :
    IsOk (do
      let (_, Q) ← setupAxi s pi σ τ conn dofs coor
      solveLinearAxi S ρ υ conn dofs iip Q Ct b u) fun y => ∃ f', Is1 y n f' ∧
        ∀ m, m < nn → f' (d m 0) = az + bz * x m 0 ∧ f' (d m 1) = κ * (R + x m 1) := by
  have s0 : s ≠ 0 := by rintro rfl; norm_num at hs3
  obtain ⟨s1, s2⟩ := gauss_lt hs3
  have hS : ∃ m, m < nn ∧ d m 0 ∈ iip := by
    obtain ⟨z1, -⟩ := hM.sizes
    obtain ⟨k1, -⟩ := hM.corners
    refine ⟨O.bottom 0, (hM.bottom 0 z1).1, hbd _ 0 (hM.bottom 0 z1).1 (by omega) fun h => ?_⟩
    rw [k1] at h
    exact lt_irrefl _ h.1
  obtain ⟨K, Q, y, f', B, h1, -, hK, e1, e2, e3, e4, en, hQ, hp, hr, y0, y2, y3, y4, q3, q4⟩ :=
    solve_coreAxi hM lx ly hR s0 s1 s2 hpi σ τ ρ υ hc hx hd hn hgap hC (fun _ _ _ _ => hE) hb hu hi hin hS (hSol.imp fun h _ _ _ _ => h)
  have hV := hK.base
  refine ⟨y, by simp only [h1, y0, Res.ok_bind], f', y2, ?_⟩
  -- the homogeneous field
  have hw : Is1 (Ten.of [n] fun ix => fA (ix.getD 0 0)) n fA := ⟨rfl, fun i _ => by simp [Ten.of]⟩
  obtain ⟨ue, u1, u2⟩ := C03_element_of_dofs hV σ (by rw [en]; exact hw)
  rw [e1, e2, e4] at u2
  obtain ⟨⟨gt, g1, g2⟩, -⟩ := Axi.C50_axisymmetric_gradient hQ (fun e q he hq => (hp e q he hq).ne') u2
    (B := fun i j => if i = j then (if i = 0 then bz else κ) else 0) (b := fun i => if i = 0 then az else 0) (fun e m j he hm hj => by
      have := hA _ (hM.valid e m he hm)
      interval_cases j
      · simpa [sum_range_succ, ringPos] using this.1
      · simpa [sum_range_succ, ringPos] using this.2) τ (hoop := fun _ _ => κ) (fun e q he hq => by
      rw [eq_div_iff (hr e q he hq).ne', map4, map4, mul_sum]
      refine sum_congr rfl fun m hm => ?_
      beta_reduce
      rw [(hA _ (hM.valid e m he (mem_range.1 hm))).2, ringPos_one]
      ring)
  have gE : ∀ i j, i < 3 → j < 3 → Axi.cylGrad (fun i j => if i = j then (if i = 0 then bz else κ) else 0) κ i j = E i j := by
    intro i j hi hj
    rw [hEd i j hi hj]
    interval_cases i <;> interval_cases j <;> simp [Axi.cylGrad]
  have hs : Is4 (Ten.of [ne, 4, 3, 3] fun ix => ddot 3 C E (ix.getD 2 0) (ix.getD 3 0)) ne 4 3 3
      (fun _ _ => ddot 3 C E) := ⟨rfl, fun e q i j _ _ _ _ => by simp [Ten.of]⟩
  obtain ⟨F, ⟨t, F1, F2⟩, t', F3, F4⟩ := C102_tangent hK e2 e4 (by rw [e1]; exact hQ) σ τ ρ ρ (by rw [e1]; exact hC)
    (by rw [en]; exact hw) ⟨gt, by simp only [gradientAxi, u1, g1, Res.ok_bind], by rw [e1]; exact g2⟩ (by rw [e1]; exact hs)
    (fun e q i j he hq _ _ => by
      simp only [ddot]
      exact sum_congr rfl fun k hk => sum_congr rfl fun l hl => by
        rw [gE _ _ (by rw [mem_range] at hk hl; omega) (by rw [mem_range] at hk hl; omega)])
  obtain ⟨t'', F5, F6⟩ := q3 _ fA hw
  obtain rfl : t = t'' := by rw [F1] at F5; injection F5
  obtain ⟨t3, G1, n', G, G2, G3, G4⟩ := C101_interior hM hR hs3 pi σ τ ρ hc hx hd hs hS00 hS02
  rw [h1] at G1
  simp only [Res.ok_bind] at G1
  obtain rfl : t' = t3 := by rw [F3] at G1; injection G1
  have hzero : ∀ r, r < n → r ∉ iip → ∑ k ∈ range n, B r k * fA k = 0 := by
    intro r hr hri
    rw [en] at F2 F4
    obtain rfl : n = n' := hn.uniq G3
    rw [← F2.unique F6 hr, F4.unique G2 hr]
    refine G4 r fun m i hm hi hd' => ?_
    by_contra hn
    exact hri (by rw [← hd']; exact hbd m i hm hi hn)
  have fin : ∀ m i, m < nn → i < 2 → f' (d m i) = fA (d m i) := fun m i hm hi =>
    sub_eq_zero.1 (q4 (fun k => f' k - fA k) (fun r hr hri => by
      rw [sum_congr rfl fun s _ => mul_sub _ _ _, sum_sub_distrib, y4 r hr hri, hzero r hr hri, sub_self])
      (fun k hk => by rw [y3 k hk, hf k hk, sub_self]) m i hm hi)
  exact fun m hm => ⟨by rw [fin m 0 hm (by omega), (hA m hm).1], by rw [fin m 1 hm (by omega), (hA m hm).2]⟩

end GF
