import Verif.Props.NewtonFinite

/-! A mesh in simple shear. -/

namespace GF
open Finset ElemSpec Element Element.Quad4

variable {α : Type} [Field α] [LinearOrder α] [IsStrictOrderedRing α]
variable {nn ne : Nat} {c : Nat → Nat → Nat} {x : Nat → Nat → α} {Lx Ly : α} {O : Outline}
variable {Z : PeriodicCell α} {Q₂ : Quadrature α} {np : Nat} {P : Nat → Nat → Nat} {o : Nat} {s thick : α} {q : Nat → Nat → Nat} {Cm : Nat → Nat → α}

/-- simple shear `u_x = γ (y - y_o)` -/
def SimpleShear (nn : Nat) (x : Nat → Nat → α) (o : Nat) (γ : α) (U : Nat → Nat → α) : Prop :=
  ∀ m, m < nn → U m 0 = γ * (x m 1 - x o 1) ∧ U m 1 = 0

theorem shear_grad (hM : RectMesh nn ne c x Lx Ly O)
    (hd : ∀ e q, e < ne → q < 4 → 0 < det4 (fun m i => x (c e m) i) (s * corner4 q 0) (s * corner4 q 1)) {γ : α} {U : Nat → Nat → α}
    (hU : SimpleShear nn x o γ U) {e a i j : Nat} (he : e < ne) (ha : a < 4) (hi : i < 2) (hj : j < 2) :
    cellGrad s x c U e a i j = if i = 1 ∧ j = 0 then γ else 0 := by
  have hA : AffineField 2 4 ne (fun e m i => x (c e m) i) (fun e m i => U (c e m) i) (fun j i => if i = 1 ∧ j = 0 then γ else 0)
      (fun j => if j = 0 then - γ * x o 1 else 0) := by
    intro e m j he hm hj
    obtain ⟨u0, u1⟩ := hU _ (hM.valid e m he hm)
    beta_reduce
    interval_cases j
    · rw [u0]; simp [sum_range_succ]; ring
    · rw [u1]; simp
  exact grad_affine (Ξ := fun q i => s * corner4 q i) hA he (hd e a he ha).ne' hi hj

theorem shear_push (hM : RectMesh nn ne c x Lx Ly O)
    (hd : ∀ e q, e < ne → q < 4 → 0 < det4 (fun m i => x (c e m) i) (s * corner4 q 0) (s * corner4 q 1)) {γ : α} {U : Nat → Nat → α}
    (hU : SimpleShear nn x o γ U) {e a : Nat} (he : e < ne) (ha : a < 4) :
    cellVol s (fun m i => x m i + U m i) c e a = cellVol s x c e a ∧ ∀ W j, cellGrad s (fun m i => x m i + U m i) c W e a 0 j = cellGrad s x c W e a 0 j ∧
      cellGrad s (fun m i => x m i + U m i) c W e a 1 j = cellGrad s x c W e a 1 j - γ * cellGrad s x c W e a 0 j := by
  have pf := push_forward (Ξ := fun q i => s * corner4 q i) (X := fun e m i => x (c e m) i) (U := fun e m i => U (c e m) i)
    (X' := fun e m i => x (c e m) i + U (c e m) i) (e := e) (q := a) (fun _ _ _ _ => rfl) (hd e a he ha).ne'
  have g : ∀ i j, i < 2 → j < 2 → grad 4 (Gf (D4 fun q i => s * corner4 q i) fun e m i => x (c e m) i) (fun e m i => U (c e m) i) e a i j =
    if i = 1 ∧ j = 0 then γ else 0 := fun i j hi hj => shear_grad hM hd hU he ha hi hj
  have g00 := g 0 0 (by omega) (by omega)
  have g01 := g 0 1 (by omega) (by omega)
  have g10 := g 1 0 (by omega) (by omega)
  have g11 := g 1 1 (by omega) (by omega)
  norm_num at g00 g01 g10 g11
  dsimp only at pf
  rw [g00, g01, g10, g11] at pf
  obtain ⟨p1, p2⟩ := pf
  have p1' : cellVol s (fun m i => x m i + U m i) c e a = cellVol s x c e a := by
    have : cellVol s (fun m i => x m i + U m i) c e a = ((1 + 0) * (1 + 0) - 0 * γ) * cellVol s x c e a := p1
    rw [this]; ring
  have p3 := p2 (by
    have : 0 < cellVol s x c e a := hd e a he ha
    rw [← p1'] at this
    exact this.ne')
  refine ⟨p1', fun W j => ⟨?_, ?_⟩⟩
  · refine sum_congr rfl fun m _ => ?_
    obtain ⟨q0, q1⟩ := p3 m
    beta_reduce
    rw [q0]; ring
  · simp only [cellGrad, grad]
    rw [mul_sum, ← sum_sub_distrib]
    refine sum_congr rfl fun m _ => ?_
    obtain ⟨q0, q1⟩ := p3 m
    rw [q0, q1]; ring

/-- a uniform stress does no work on a periodic field -/
theorem uniform_work (hM : RectMesh nn ne c x Lx Ly O) (lx : 0 < Lx) (ly : 0 < Ly)
    (hd : ∀ e q, e < ne → q < 4 → 0 < det4 (fun m i => x (c e m) i) (s * corner4 q 0) (s * corner4 q 1)) (hP : PeriodicPairs nn Lx Ly x np P)
    {γ : α} {U : Nat → Nat → α} (hU : SimpleShear nn x o γ U) (T : Nat → Nat → α) {S : Nat → Nat → Nat → Nat → α}
    (hS : ∀ e a i j, e < ne → a < 4 → i < 2 → j < 2 → S e a i j = T i j) {W : Nat → Nat → α}
    (w0 : ∀ j l, j < 2 → l < 2 → W (nn + j) l = 0) (w2 : PeriodicField nn np P x W) :
    virtualWork ne (planarVol s thick (fun m i => x m i + U m i) c) S (cellGrad s (fun m i => x m i + U m i) c W) = 0 := by
  have av : ∀ i j, i < 2 → j < 2 → ∑ e ∈ range ne, ∑ a ∈ range 4, cellGrad s x c W e a i j * cellVol s x c e a = 0 := fun i j hi hj => by
    rw [show ∑ e ∈ range ne, ∑ a ∈ range 4, cellGrad s x c W e a i j * cellVol s x c e a = _ from
      avg_gradient hM lx ly hd hP hj (A := fun j l => W (nn + j) l) (fun k hk => w2 k j hk hj) hi, w0 j i hj hi, mul_zero]
  have e1 : virtualWork ne (planarVol s thick (fun m i => x m i + U m i) c) S (cellGrad s (fun m i => x m i + U m i) c W) =
      ∑ e ∈ range ne, ∑ a ∈ range 4, ((thick * T 0 0 - thick * γ * T 1 0) * (cellGrad s x c W e a 0 0 * cellVol s x c e a) +
        (thick * T 0 1 - thick * γ * T 1 1) * (cellGrad s x c W e a 0 1 * cellVol s x c e a) +
        thick * T 1 0 * (cellGrad s x c W e a 1 0 * cellVol s x c e a) + thick * T 1 1 * (cellGrad s x c W e a 1 1 * cellVol s x c e a)) := by
    refine sum_congr rfl fun e he => sum_congr rfl fun a ha => ?_
    rw [mem_range] at he ha
    obtain ⟨p1, p2⟩ := shear_push hM hd hU he ha
    simp only [power, sum_range_succ, sum_range_zero]
    rw [hS e a 0 0 he ha (by omega) (by omega), hS e a 0 1 he ha (by omega) (by omega), hS e a 1 0 he ha (by omega) (by omega),
      hS e a 1 1 he ha (by omega) (by omega), (p2 W 0).1, (p2 W 0).2, (p2 W 1).1, (p2 W 1).2, planarVol, p1]
    ring
  rw [e1]
  simp only [sum_add_distrib, ← mul_sum]
  rw [av 0 0 (by omega) (by omega), av 0 1 (by omega) (by omega), av 1 0 (by omega) (by omega), av 1 1 (by omega) (by omega)]
  ring

/-- no zero-energy modes in the sheared mesh -/
theorem shear_definite (h : Z.Planar Q₂ nn ne np c P x o s thick q Cm) (hM : RectMesh nn ne c x Lx Ly O) (lx : 0 < Lx) (ly : 0 < Ly) (s0 : s ≠ 0) (t0 : 0 < thick)
    (hP : PeriodicPairs nn Lx Ly x np P) (ho : o < nn) {γ : α} {U : Nat → Nat → α} (hU : SimpleShear nn x o γ U)
    {C : Nat → Nat → Nat → Nat → Nat → Nat → α} (hE : ∀ e q, e < ne → q < 4 → Elastic (C e q)) {W : Nat → Nat → α}
    (h0 : ∀ j l, j < 2 → l < 2 → W (nn + j) l = 0) (h1 : ∀ i, i < 2 → W o i = 0) (h2 : PeriodicField nn np P x W)
    (hw : virtualWork ne (planarVol s thick (fun m i => x m i + U m i) c) (fun e a => ddot 2 (C e a) (cellGrad s (fun m i => x m i + U m i) c W e a))
      (cellGrad s (fun m i => x m i + U m i) c W) = 0) : ∀ m i, m < nn → i < 2 → W m i = 0 := by
  have pos : ∀ e a, e < ne → a < 4 → 0 < planarVol s thick (fun m i => x m i + U m i) c e a := fun e a he ha => by
    rw [planarVol, (shear_push hM h.st.det hU he ha).1]
    exact mul_pos (h.st.det e a he ha) t0
  have nn' : ∀ e ∈ range ne, ∀ a ∈ range 4, 0 ≤ power 2 (ddot 2 (C e a) (cellGrad s (fun m i => x m i + U m i) c W e a))
      (cellGrad s (fun m i => x m i + U m i) c W e a) * planarVol s thick (fun m i => x m i + U m i) c e a := fun e he a ha =>
    mul_nonneg ((hE e a (mem_range.1 he) (mem_range.1 ha)).nonneg _) (pos e a (mem_range.1 he) (mem_range.1 ha)).le
  have z : ∀ e a, e < ne → a < 4 → cellGrad s (fun m i => x m i + U m i) c W e a 0 0 = 0 ∧ cellGrad s (fun m i => x m i + U m i) c W e a 1 1 = 0 ∧
      cellGrad s (fun m i => x m i + U m i) c W e a 0 1 + cellGrad s (fun m i => x m i + U m i) c W e a 1 0 = 0 := by
    intro e a he ha
    have a1 := (sum_eq_zero_iff_of_nonneg fun e he => sum_nonneg (nn' e he)).1 hw e (mem_range.2 he)
    have a2 := (sum_eq_zero_iff_of_nonneg (nn' e (mem_range.2 he))).1 a1 a (mem_range.2 ha)
    exact (hE e a he ha).pos _ ((mul_eq_zero.1 a2).resolve_right (pos e a he ha).ne')
  obtain ⟨V, hV⟩ : ∃ V : Nat → Nat → α, ∀ m j, V m j = if j = 0 then W m 0 else γ * W m 0 + W m 1 := ⟨_, fun _ _ => rfl⟩
  have hV0 : ∀ m, V m 0 = W m 0 := fun m => by rw [hV, if_pos rfl]
  have hV1 : ∀ m, V m 1 = γ * W m 0 + W m 1 := fun m => by rw [hV, if_neg (by omega)]
  have c0 : ∀ e a i, cellGrad s x c V e a i 0 = cellGrad s x c W e a i 0 := fun e a i => sum_congr rfl fun m _ => by beta_reduce; rw [hV0]
  have c1 : ∀ e a i, cellGrad s x c V e a i 1 = γ * cellGrad s x c W e a i 0 + cellGrad s x c W e a i 1 := fun e a i => by
    simp only [cellGrad, grad]
    rw [mul_sum, ← sum_add_distrib]
    exact sum_congr rfl fun m _ => by rw [hV1]; ring
  have key := h.st.definite hM lx ly s0 hP ho (C := fun _ _ => isotropic 1 1) (fun _ _ _ _ => isotropic_elastic one_pos (by norm_num)) (W := V)
    (fun j l hj hl => by
      interval_cases l
      · rw [hV0]; exact h0 j 0 hj (by omega)
      · rw [hV1, h0 j 0 hj (by omega), h0 j 1 hj (by omega)]; ring)
    (fun i hi => by
      interval_cases i
      · rw [hV0]; exact h1 0 (by omega)
      · rw [hV1, h1 0 (by omega), h1 1 (by omega)]; ring)
    (fun k j hk hj => by
      have p0 := h2 k 0 hk (by omega)
      have p1 := h2 k 1 hk (by omega)
      rw [sum_eq_zero fun l hl => by rw [h0 0 l (by omega) (mem_range.1 hl), mul_zero]] at p0
      rw [sum_eq_zero fun l hl => by rw [h0 1 l (by omega) (mem_range.1 hl), mul_zero]] at p1
      have vz : ∀ l, l < 2 → V (nn + j) l = 0 := fun l hl => by
        interval_cases l
        · rw [hV0]; exact h0 j 0 hj (by omega)
        · rw [hV1, h0 j 0 hj (by omega), h0 j 1 hj (by omega)]; ring
      rw [sum_eq_zero fun l hl => by rw [vz l (mem_range.1 hl), mul_zero]]
      interval_cases j
      · rw [hV0, hV0]; exact p0
      · rw [hV1, hV1]; linear_combination γ * p0 + p1)
    (by
      refine sum_eq_zero fun e he => sum_eq_zero fun a ha => ?_
      rw [mem_range] at he ha
      obtain ⟨z0, z1, z2⟩ := z e a he ha
      obtain ⟨-, p⟩ := shear_push hM h.st.det hU he ha
      rw [(p W 0).1] at z0
      rw [(p W 1).2] at z1
      rw [(p W 1).1, (p W 0).2, z0, mul_zero, sub_zero] at z2
      have g00 : cellGrad s x c V e a 0 0 = 0 := by rw [c0, z0]
      have g11 : cellGrad s x c V e a 1 1 = 0 := by rw [c1]; linear_combination z1 + γ * z2
      have g01 : cellGrad s x c V e a 0 1 + cellGrad s x c V e a 1 0 = 0 := by rw [c1, c0, z0]; linear_combination z2
      have : power 2 (ddot 2 (isotropic 1 1) (cellGrad s x c V e a)) (cellGrad s x c V e a) = 0 := by
        simp only [power, ddot, isotropic, sum_range_succ, sum_range_zero, g00, g11]
        simp
        linear_combination (cellGrad s x c V e a 0 1 + cellGrad s x c V e a 1 0) * g01
      rw [this, zero_mul])
  intro m i hm hi
  have k0 := key m 0 hm (by omega)
  have k1 := key m 1 hm (by omega)
  rw [hV0] at k0
  rw [hV1, k0, mul_zero, zero_add] at k1
  interval_cases i
  · exact k0
  · exact k1

end GF
