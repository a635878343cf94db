import Verif.Props.PeriodicCell
import Verif.Props.Spd
import Mathlib.Tactic.Linarith

/-! **C110** the homogenised response of a periodic unit cell: Hill's condition, minimum of the energy, the bounds of Voigt and
Reuss, comparison of materials, and a symmetric, positive macroscopic stiffness. -/

namespace GF
open Finset ElemSpec Element Element.Quad4

variable {α : Type} [Field α] [LinearOrder α] [IsStrictOrderedRing α]
variable {nn ne : Nat} {c : Nat → Nat → Nat} {x : Nat → Nat → α} {Lx Ly : α} {O : Outline}

omit [LinearOrder α] [IsStrictOrderedRing α] in
theorem work_ext {vol : Nat → Nat → α} {S S' γ γ' : Nat → Nat → Nat → Nat → α}
    (h : ∀ e q i j, e < ne → q < 4 → i < 2 → j < 2 → S e q i j = S' e q i j)
    (h' : ∀ e q i j, e < ne → q < 4 → i < 2 → j < 2 → γ e q i j = γ' e q i j) : virtualWork ne vol S γ = virtualWork ne vol S' γ' :=
  sum_congr rfl fun e he => sum_congr rfl fun a ha => by
    rw [mem_range] at he ha
    congr 1
    exact sum_congr rfl fun i hi => sum_congr rfl fun j hj => by
      rw [h e a i j he ha (mem_range.1 hi) (mem_range.1 hj), h' e a i j he ha (mem_range.1 hi) (mem_range.1 hj)]

omit [LinearOrder α] [IsStrictOrderedRing α] in
theorem work_add_right (vol : Nat → Nat → α) (S γ γ' : Nat → Nat → Nat → Nat → α) :
    virtualWork ne vol S (fun e q i j => γ e q i j + γ' e q i j) = virtualWork ne vol S γ + virtualWork ne vol S γ' := by
  simp only [virtualWork, power, mul_add, sum_add_distrib, add_mul]

omit [LinearOrder α] [IsStrictOrderedRing α] in
theorem work_sub_right (vol : Nat → Nat → α) (S γ γ' : Nat → Nat → Nat → Nat → α) :
    virtualWork ne vol S (fun e q i j => γ e q i j - γ' e q i j) = virtualWork ne vol S γ - virtualWork ne vol S γ' := by
  simp only [virtualWork, power, mul_sub, sum_sub_distrib, sub_mul]

omit [LinearOrder α] [IsStrictOrderedRing α] in
theorem ddot_sub' (C : Nat → Nat → Nat → Nat → α) (g g' : Nat → Nat → α) (i j : Nat) :
    ddot 2 C (fun k l => g k l - g' k l) i j = ddot 2 C g i j - ddot 2 C g' i j := by
  simp only [ddot, mul_sub, sum_sub_distrib]

omit [LinearOrder α] [IsStrictOrderedRing α] in
/-- the work on a constant gradient is the work of the integrated stress -/
theorem work_const_right (vol : Nat → Nat → α) (S : Nat → Nat → Nat → Nat → α) (A : Nat → Nat → α) :
    virtualWork ne vol S (fun _ _ i j => A i j) =
      ∑ i ∈ range 2, ∑ j ∈ range 2, (∑ e ∈ range ne, ∑ a ∈ range 4, S e a i j * vol e a) * A i j := by
  simp only [virtualWork, power, sum_mul]
  rw [sum_congr rfl fun e _ => sum_comm]
  rw [sum_comm]
  refine sum_congr rfl fun i _ => ?_
  rw [sum_congr rfl fun e _ => sum_comm, sum_comm]
  exact sum_congr rfl fun j _ => sum_congr rfl fun e _ => sum_congr rfl fun a _ => by ring

omit [LinearOrder α] [IsStrictOrderedRing α] in
/-- the work of a constant stress is its work on the integrated gradient -/
theorem work_const_left (vol : Nat → Nat → α) (T : Nat → Nat → α) (γ : Nat → Nat → Nat → Nat → α) :
    virtualWork ne vol (fun _ _ i j => T i j) γ =
      ∑ i ∈ range 2, ∑ j ∈ range 2, T i j * ∑ e ∈ range ne, ∑ a ∈ range 4, γ e a i j * vol e a := by
  have e : virtualWork ne vol (fun _ _ i j => T i j) γ = virtualWork ne vol γ (fun _ _ i j => T i j) := by
    simp only [virtualWork, power]
    exact sum_congr rfl fun _ _ => sum_congr rfl fun _ _ => by
      congr 1; exact sum_congr rfl fun _ _ => sum_congr rfl fun _ _ => mul_comm _ _
  rw [e, work_const_right]
  exact sum_congr rfl fun _ _ => sum_congr rfl fun _ _ => mul_comm _ _

/-- energy of a sum -/
theorem energy_expand {C : Nat → Nat → Nat → Nat → Nat → Nat → α}
    (hE : ∀ e q, e < ne → q < 4 → Elastic (C e q)) (hs : ∀ e q, e < ne → q < 4 → Major 2 (C e q)) (vol : Nat → Nat → α)
    (γ g : Nat → Nat → Nat → Nat → α) :
    virtualWork ne vol (fun e a => ddot 2 (C e a) (γ e a)) γ =
      virtualWork ne vol (fun e a => ddot 2 (C e a) (g e a)) g +
      2 * virtualWork ne vol (fun e a => ddot 2 (C e a) (g e a)) (fun e a i j => γ e a i j - g e a i j) +
      virtualWork ne vol (fun e a => ddot 2 (C e a) fun i j => γ e a i j - g e a i j) (fun e a i j => γ e a i j - g e a i j) := by
  have sy := virtualWork_symm (fun e q he hq => (hE e q he hq).minor) hs vol γ g
  have lin : virtualWork ne vol (fun e a => ddot 2 (C e a) fun i j => γ e a i j - g e a i j) (fun e a i j => γ e a i j - g e a i j) =
      virtualWork ne vol (fun e a => ddot 2 (C e a) (γ e a)) (fun e a i j => γ e a i j - g e a i j) -
      virtualWork ne vol (fun e a => ddot 2 (C e a) (g e a)) (fun e a i j => γ e a i j - g e a i j) := by
    simp only [virtualWork, power, ddot_sub', sub_mul, sum_sub_distrib]
  rw [lin, work_sub_right, work_sub_right, sy]
  ring

namespace PeriodicCell.State
variable {Z : PeriodicCell α} {np : Nat} {P : Nat → Nat → Nat} {o : Nat} {s : α} {q : Nat → Nat → Nat} {Cm : Nat → Nat → α}

/-- the gradient of an affine field -/
theorem cellGrad_affine (h : Z.State nn ne np c P x o s q Cm) (hM : RectMesh nn ne c x Lx Ly O) {F A : Nat → Nat → α} {b : Nat → α}
    (hF : ∀ m j, m < nn → j < 2 → F m j = b j + ∑ l ∈ range 2, A j l * x m l) {e a i j : Nat} (he : e < ne) (ha : a < 4) (hi : i < 2)
    (hj : j < 2) : cellGrad s x c F e a i j = A j i :=
  grad_affine (Ξ := fun q i => s * corner4 q i) (X := fun e m i => x (c e m) i) (U := fun e m i => F (c e m) i) (e := e) (q := a)
    (A := A) (b := b) (ne := ne) (i := i) (j := j) (fun e m j he hm hj => by
      beta_reduce
      rw [hF _ j (hM.valid e m he hm) hj]) he (h.det e a he ha).ne' hi hj

omit [LinearOrder α] [IsStrictOrderedRing α] in
theorem cellGrad_sub (F G : Nat → Nat → α) (e a i j : Nat) :
    cellGrad s x c (fun m i => F m i - G m i) e a i j = cellGrad s x c F e a i j - cellGrad s x c G e a i j := by
  simp only [cellGrad, grad, mul_sub, sum_sub_distrib]

/-- the stress of the solution does no work on any periodic virtual displacement: node `o` need not be kept in place -/
theorem weak_free (h : Z.State nn ne np c P x o s q Cm) (hM : RectMesh nn ne c x Lx Ly O) (hP : PeriodicPairs nn Lx Ly x np P) (ho : o < nn)
    {C : Nat → Nat → Nat → Nat → Nat → Nat → α} {U Y W : Nat → Nat → α}
    (hY : SolvesCell Z.vector.V Z.elem nn ne np P x o C (cellVol s x c) (fun _ _ => 0) U Y)
    (hW : PeriodicField nn np P x W) (h0 : ∀ j l, j < 2 → l < 2 → W (nn + j) l = 0) :
    virtualWork ne (cellVol s x c) (fun e a => ddot 2 (C e a) (cellGrad s x c Y e a)) (cellGrad s x c W) = 0 := by
  obtain ⟨K, hK⟩ : ∃ K : Nat → Nat → α, ∀ m i, K m i = if m < nn then W o i else 0 := ⟨_, fun _ _ => rfl⟩
  have w := hY.weak _ _ _ (h.gradientOf Y) (h.gradientOf fun m i => W m i - K m i)
    (fun j l hj hl => by rw [h0 j l hj hl, hK, if_neg (by omega), sub_zero]) (fun i hi => by rw [hK, if_pos ho, sub_self])
    (fun k j hk hj => by
      have := hW k j hk hj
      rw [sum_congr rfl fun l hl => by rw [h0 j l hj (mem_range.1 hl)]] at this
      rw [sum_congr rfl fun l hl => by rw [h0 j l hj (mem_range.1 hl), hK (nn + j), if_neg (by omega), sub_zero], ← this, hK, hK,
        if_pos (hP.valid k 1 hk (by omega)), if_pos (hP.valid k 0 hk (by omega))]
      ring)
  simp only [zero_mul, sum_const_zero] at w
  rw [← w]
  refine work_ext (fun _ _ _ _ _ _ _ _ => rfl) fun e a i j he ha hi hj => ?_
  rw [cellGrad_sub, h.cellGrad_affine hM (F := K) (A := fun _ _ => 0) (b := fun i => W o i) (fun m j hm _ => by
    rw [hK, if_pos hm]; simp) he ha hi hj, sub_zero]

/-- difference of two fields with the same macroscopic gradient -/
theorem weak_diff (h : Z.State nn ne np c P x o s q Cm) (hM : RectMesh nn ne c x Lx Ly O) (hP : PeriodicPairs nn Lx Ly x np P) (ho : o < nn)
    {C : Nat → Nat → Nat → Nat → Nat → Nat → α} {U Y V W : Nat → Nat → α}
    (hY : SolvesCell Z.vector.V Z.elem nn ne np P x o C (cellVol s x c) (fun _ _ => 0) U Y)
    (hV : PeriodicField nn np P x V) (hW : PeriodicField nn np P x W) (h0 : ∀ j l, j < 2 → l < 2 → V (nn + j) l = W (nn + j) l) :
    virtualWork ne (cellVol s x c) (fun e a => ddot 2 (C e a) (cellGrad s x c Y e a)) (cellGrad s x c V) =
    virtualWork ne (cellVol s x c) (fun e a => ddot 2 (C e a) (cellGrad s x c Y e a)) (cellGrad s x c W) := by
  have := h.weak_free hM hP ho hY (W := fun m i => V m i - W m i) (fun k j hk hj => by
      have a := hV k j hk hj
      have b := hW k j hk hj
      beta_reduce
      rw [sum_congr rfl fun l _ => mul_sub _ _ _, sum_sub_distrib, ← a, ← b]
      ring) fun j l hj hl => by rw [h0 j l hj hl, sub_self]
  rw [work_ext (fun _ _ _ _ _ _ _ _ => rfl) fun e a i j _ _ _ _ => cellGrad_sub V W e a i j, work_sub_right] at this
  exact sub_eq_zero.1 this

/-- the field that is affine with a given macroscopic gradient -/
theorem affine_field (hP : PeriodicPairs nn Lx Ly x np P) (A : Nat → Nat → α) :
    ∃ F : Nat → Nat → α, PeriodicField nn np P x F ∧ (∀ j l, j < 2 → l < 2 → F (nn + j) l = A j l) ∧
      ∀ m j, m < nn → j < 2 → F m j = 0 + ∑ l ∈ range 2, A j l * x m l := by
  obtain ⟨F, hF⟩ : ∃ F : Nat → Nat → α, ∀ m j, F m j = if m < nn then 0 + ∑ l ∈ range 2, A j l * x m l else A (m - nn) j := ⟨_, fun _ _ => rfl⟩
  refine ⟨F, fun k j hk hj => ?_, fun j l _ _ => by rw [hF, if_neg (by omega), Nat.add_sub_cancel_left], fun m j hm _ => by rw [hF, if_pos hm]⟩
  rw [hF, hF, if_pos (hP.valid k 1 hk (by omega)), if_pos (hP.valid k 0 hk (by omega)), add_sub_add_left_eq_sub, ← sum_sub_distrib]
  refine sum_congr rfl fun l _ => ?_
  rw [hF, if_neg (by omega), Nat.add_sub_cancel_left]
  ring

/-- Hill's condition for two fields -/
theorem hill (h : Z.State nn ne np c P x o s q Cm) (hM : RectMesh nn ne c x Lx Ly O) (hP : PeriodicPairs nn Lx Ly x np P) (ho : o < nn)
    {C : Nat → Nat → Nat → Nat → Nat → Nat → α} {U Y W : Nat → Nat → α}
    (hY : SolvesCell Z.vector.V Z.elem nn ne np P x o C (cellVol s x c) (fun _ _ => 0) U Y) (hW : PeriodicField nn np P x W) :
    virtualWork ne (cellVol s x c) (fun e a => ddot 2 (C e a) (cellGrad s x c Y e a)) (cellGrad s x c W) =
      ∑ i ∈ range 2, ∑ j ∈ range 2, (∑ e ∈ range ne, ∑ a ∈ range 4, ddot 2 (C e a) (cellGrad s x c Y e a) i j * cellVol s x c e a) *
        W (nn + j) i := by
  obtain ⟨F, f1, f2, f3⟩ := affine_field (x := x) hP fun j l => W (nn + j) l
  rw [h.weak_diff hM hP ho hY hW f1 fun j l hj hl => (f2 j l hj hl).symm, ← work_const_right _ _ fun i j => W (nn + j) i]
  exact work_ext (fun _ _ _ _ _ _ _ _ => rfl) fun e a i j he ha hi hj => h.cellGrad_affine hM f3 he ha hi hj

end PeriodicCell.State

/-- **C110** (minimum, Voigt, Reuss, Hill) For every periodic cell without load, every elastic material with a symmetric tangent
(that may differ per integration point) and every macroscopic gradient `A i j = ∂u_j/∂x_i` (in the control nodes): with `E` the
stress work `∫ (C : grad y) : grad y` of the computed displacement `y`
- (Hill) `E` is the work of the integrated stress on the macroscopic gradient;
- `E` is the smallest stress work of all periodic fields with that macroscopic gradient;
- (Voigt) `E` is at most the stress work of the homogeneous gradient;
- (Reuss) `E` is at least `2 V T : A - ∫ T : η` for every constant stress `T` and gradients `η` with `C : η = T`;
- `E ≥ 0`, and `E = 0` if and only if the symmetric part of the macroscopic gradient is zero. -/
theorem C110_bounds (hM : RectMesh nn ne c x Lx Ly O) (lx : 0 < Lx) (ly : 0 < Ly) {s : α} (s0 : s ≠ 0) (s1 : -1 ≤ s) (s2 : s ≤ 1)
    (σ τ ρ σ' τ' : Sched) (υ : Nat → Sched) {conn pairs : Ten Nat} {coor : Ten α} (hc : Is2 conn ne 4 c) (hx : Is2 coor nn 2 x) {np : Nat}
    {P : Nat → Nat → Nat} (hp : Is2 pairs np 2 P) (hP : PeriodicPairs nn Lx Ly x np P) {o : Nat} (ho : o < nn) (ho0 : x o 0 ≠ Lx) (ho1 : x o 1 ≠ Ly)
    {Ct b u : Ten α} {C} {U : Nat → Nat → α} (hC : Is6 Ct ne 4 2 2 2 2 C) (hE : ∀ e q, e < ne → q < 4 → Elastic (C e q))
    (hs : ∀ e q, e < ne → q < 4 → Major 2 (C e q)) (hb : Is2 b (nn + 2) 2 fun _ _ => 0) (hu : Is2 u (nn + 2) 2 U) {S : LinSolver α} (hS : S.Suits True) :
    IsOk (do
      let Z ← PeriodicCell.new s σ τ conn (meshDofs nn 2) coor pairs o
      let y ← Z.solve S ρ υ Ct b u
      let g ← gradient σ' τ' Z.vector.V Z.elem y
      return (Z, g)) fun t => ∃ vol g, Is2 t.1.elem.vol ne 4 vol ∧ Is4 t.2 ne 4 2 2 g ∧
        let E := virtualWork ne vol (fun e a => ddot 2 (C e a) (g e a)) g
        let A := fun i j => U (nn + j) i
        E = ∑ i ∈ range 2, ∑ j ∈ range 2, (∑ e ∈ range ne, ∑ a ∈ range 4, ddot 2 (C e a) (g e a) i j * vol e a) * A i j ∧
        (∀ W γ, PeriodicField nn np P x W → (∀ j l, j < 2 → l < 2 → W (nn + j) l = U (nn + j) l) →
          GradientOf t.1.vector.V t.1.elem (nn + 2) ne W γ → E ≤ virtualWork ne vol (fun e a => ddot 2 (C e a) (γ e a)) γ) ∧
        E ≤ ∑ e ∈ range ne, ∑ a ∈ range 4, power 2 (ddot 2 (C e a) A) A * vol e a ∧
        (∀ (T : Nat → Nat → α) (η : Nat → Nat → Nat → Nat → α), (∀ e a i j, e < ne → a < 4 → i < 2 → j < 2 → ddot 2 (C e a) (η e a) i j = T i j) →
          2 * (Lx * Ly * power 2 T A) - ∑ e ∈ range ne, ∑ a ∈ range 4, power 2 T (η e a) * vol e a ≤ E) ∧
        0 ≤ E ∧ (E = 0 ↔ A 0 0 = 0 ∧ A 1 1 = 0 ∧ A 0 1 + A 1 0 = 0) := by
  obtain ⟨Z, q, Cm, z1, h⟩ := cell_ok hM lx ly s1 s2 σ τ hc hx hp hP ho ho0 ho1
  obtain ⟨y, y1, Y, y2, y3⟩ := cell_solve hM lx ly s0 hP ho h (hS.imp fun _ => hs) ρ υ hC hE hb hu
  obtain ⟨gt, g1, g2⟩ := h.gradientOf Y σ' τ' y y2
  refine ⟨(Z, gt), by simp only [z1, y1, g1, Res.ok_bind]; rfl, _, _, h.vol, g2, ?_⟩
  have avg : ∀ i j, i < 2 → j < 2 → ∑ e ∈ range ne, ∑ a ∈ range 4, cellGrad s x c Y e a i j * cellVol s x c e a = Lx * Ly * U (nn + j) i := by
    intro i j hi hj
    rw [← y3.gradient j i hj hi]
    exact avg_gradient hM lx ly h.det hP hj (A := fun j l => Y (nn + j) l) (fun k hk => y3.periodic k j hk hj) hi
  have min : ∀ W, PeriodicField nn np P x W → (∀ j l, j < 2 → l < 2 → W (nn + j) l = U (nn + j) l) →
      virtualWork ne (cellVol s x c) (fun e a => ddot 2 (C e a) (cellGrad s x c Y e a)) (cellGrad s x c Y) ≤
      virtualWork ne (cellVol s x c) (fun e a => ddot 2 (C e a) (cellGrad s x c W e a)) (cellGrad s x c W) := by
    intro W hW w0
    have d := h.weak_diff hM hP ho y3 hW y3.periodic fun j l hj hl => (w0 j l hj hl).trans (y3.gradient j l hj hl).symm
    rw [energy_expand hE hs _ (cellGrad s x c W) (cellGrad s x c Y), work_sub_right, d, sub_self, mul_zero, add_zero]
    exact le_add_of_nonneg_right (h.work_nonneg hE fun e a i j => cellGrad s x c W e a i j - cellGrad s x c Y e a i j)
  obtain ⟨F, f1, f2, f3⟩ := PeriodicCell.State.affine_field (x := x) hP fun j l => U (nn + j) l
  have voigt := min F f1 f2
  have fA : virtualWork ne (cellVol s x c) (fun e a => ddot 2 (C e a) (cellGrad s x c F e a)) (cellGrad s x c F) =
      ∑ e ∈ range ne, ∑ a ∈ range 4, power 2 (ddot 2 (C e a) fun i j => U (nn + j) i) (fun i j => U (nn + j) i) * cellVol s x c e a :=
    work_ext (S' := fun e a => ddot 2 (C e a) fun i j => U (nn + j) i) (γ' := fun _ _ i j => U (nn + j) i) (fun e a i j he ha _ _ =>
      sum_congr rfl fun k hk => sum_congr rfl fun l hl => by
        rw [h.cellGrad_affine hM f3 he ha (mem_range.1 hl) (mem_range.1 hk)]) fun e a i j he ha hi hj => h.cellGrad_affine hM f3 he ha hi hj
  rw [fA] at voigt
  have nonneg := h.work_nonneg hE (cellGrad s x c Y)
  refine ⟨?_, fun W γ hW w0 hγ => ?_, voigt, fun T η hT => ?_, nonneg, fun z => ?_, fun z => le_antisymm (voigt.trans_eq ?_) nonneg⟩
  · rw [h.hill hM hP ho y3 y3.periodic]
    exact sum_congr rfl fun i hi => sum_congr rfl fun j hj => by rw [y3.gradient j i (mem_range.1 hj) (mem_range.1 hi)]
  · rw [h.work_congr h.vol hγ hγ]
    exact min W hW w0
  · have ex := energy_expand hE hs (cellVol s x c) (cellGrad s x c Y) η
    have nn0 := h.work_nonneg hE fun e a i j => cellGrad s x c Y e a i j - η e a i j
    have e1 : ∀ γ, virtualWork ne (cellVol s x c) (fun e a => ddot 2 (C e a) (η e a)) γ = virtualWork ne (cellVol s x c) (fun _ _ i j => T i j) γ :=
      fun γ => work_ext hT fun _ _ _ _ _ _ _ _ => rfl
    have e2 : virtualWork ne (cellVol s x c) (fun _ _ i j => T i j) (cellGrad s x c Y) = Lx * Ly * power 2 T fun i j => U (nn + j) i := by
      rw [work_const_left, power, mul_sum]
      refine sum_congr rfl fun i hi => ?_
      rw [mul_sum]
      refine sum_congr rfl fun j hj => ?_
      rw [avg i j (mem_range.1 hi) (mem_range.1 hj)]
      ring
    have e3 : virtualWork ne (cellVol s x c) (fun _ _ i j => T i j) η = ∑ e ∈ range ne, ∑ a ∈ range 4, power 2 T (η e a) * cellVol s x c e a := rfl
    rw [work_sub_right, e1, e1, e2, e3] at ex
    linarith
  · have zz : ∀ e, e < ne → ∀ a, a < 4 → power 2 (ddot 2 (C e a) (cellGrad s x c Y e a)) (cellGrad s x c Y e a) = 0 := by
      have p : ∀ e ∈ range ne, ∀ a ∈ range 4, 0 ≤ power 2 (ddot 2 (C e a) (cellGrad s x c Y e a)) (cellGrad s x c Y e a) * cellVol s x c e a :=
        fun e he a ha => mul_nonneg ((hE e a (mem_range.1 he) (mem_range.1 ha)).nonneg _) (h.det e a (mem_range.1 he) (mem_range.1 ha)).le
      intro e he a ha
      have z1 := (sum_eq_zero_iff_of_nonneg fun e he => sum_nonneg (p e he)).1 z e (mem_range.2 he)
      have z2 := (sum_eq_zero_iff_of_nonneg (p e (mem_range.2 he))).1 z1 a (mem_range.2 ha)
      exact (mul_eq_zero.1 z2).resolve_right (h.det e a he ha).ne'
    have V0 : Lx * Ly ≠ 0 := (mul_pos lx ly).ne'
    refine ⟨(mul_eq_zero.1 ((avg 0 0 (by omega) (by omega)).symm.trans ?_)).resolve_left V0,
      (mul_eq_zero.1 ((avg 1 1 (by omega) (by omega)).symm.trans ?_)).resolve_left V0, (mul_eq_zero.1 (?_ : Lx * Ly * _ = 0)).resolve_left V0⟩
    · exact sum_eq_zero fun e he => sum_eq_zero fun a ha => by
        rw [((hE e a (mem_range.1 he) (mem_range.1 ha)).pos _ (zz e (mem_range.1 he) a (mem_range.1 ha))).1, zero_mul]
    · exact sum_eq_zero fun e he => sum_eq_zero fun a ha => by
        rw [((hE e a (mem_range.1 he) (mem_range.1 ha)).pos _ (zz e (mem_range.1 he) a (mem_range.1 ha))).2.1, zero_mul]
    · rw [mul_add, ← avg 0 1 (by omega) (by omega), ← avg 1 0 (by omega) (by omega), ← sum_add_distrib]
      refine sum_eq_zero fun e he => ?_
      rw [← sum_add_distrib]
      exact sum_eq_zero fun a ha => by
        rw [← add_mul, ((hE e a (mem_range.1 he) (mem_range.1 ha)).pos _ (zz e (mem_range.1 he) a (mem_range.1 ha))).2.2, zero_mul]
  · refine sum_eq_zero fun e he => sum_eq_zero fun a ha => ?_
    have mi := (hE e a (mem_range.1 he) (mem_range.1 ha)).minor
    obtain ⟨z0, z1, z2⟩ := z
    beta_reduce at z0 z1 z2
    have : ∀ i j, i < 2 → j < 2 → ddot 2 (C e a) (fun i j => U (nn + j) i) i j = 0 := by
      intro i j hi hj
      have := mi i j 0 1 hi hj (by omega) (by omega)
      simp only [ddot, sum_range_succ, sum_range_zero, zero_add, add_zero, this] at *
      rw [z0, z1, mul_zero, mul_zero]
      linear_combination C e a i j 1 0 * z2
    rw [power, sum_eq_zero fun i hi => sum_eq_zero fun j hj => by rw [this i j (mem_range.1 hi) (mem_range.1 hj), zero_mul], zero_mul]

/-- **C110** (symmetric macroscopic stiffness) for two macroscopic gradients of the same cell, the integrated stress of the first
does the same work on the second gradient as the integrated stress of the second on the first -/
theorem C110_symmetric (hM : RectMesh nn ne c x Lx Ly O) (lx : 0 < Lx) (ly : 0 < Ly) {s : α} (s0 : s ≠ 0) (s1 : -1 ≤ s) (s2 : s ≤ 1)
    (σ τ ρ σ' τ' : Sched) (υ : Nat → Sched) {conn pairs : Ten Nat} {coor : Ten α} (hc : Is2 conn ne 4 c) (hx : Is2 coor nn 2 x) {np : Nat}
    {P : Nat → Nat → Nat} (hp : Is2 pairs np 2 P) (hP : PeriodicPairs nn Lx Ly x np P) {o : Nat} (ho : o < nn) (ho0 : x o 0 ≠ Lx) (ho1 : x o 1 ≠ Ly)
    {Ct b u₁ u₂ : Ten α} {C} {U₁ U₂ : Nat → Nat → α} (hC : Is6 Ct ne 4 2 2 2 2 C) (hE : ∀ e q, e < ne → q < 4 → Elastic (C e q))
    (hs : ∀ e q, e < ne → q < 4 → Major 2 (C e q)) (hb : Is2 b (nn + 2) 2 fun _ _ => 0) (hu₁ : Is2 u₁ (nn + 2) 2 U₁) (hu₂ : Is2 u₂ (nn + 2) 2 U₂)
    {S : LinSolver α} (hS : S.Suits True) :
    IsOk (do
      let Z ← PeriodicCell.new s σ τ conn (meshDofs nn 2) coor pairs o
      let y₁ ← Z.solve S ρ υ Ct b u₁
      let y₂ ← Z.solve S ρ υ Ct b u₂
      let g₁ ← gradient σ' τ' Z.vector.V Z.elem y₁
      let g₂ ← gradient σ' τ' Z.vector.V Z.elem y₂
      return (Z, g₁, g₂)) fun t => ∃ vol g₁ g₂, Is2 t.1.elem.vol ne 4 vol ∧ Is4 t.2.1 ne 4 2 2 g₁ ∧ Is4 t.2.2 ne 4 2 2 g₂ ∧
        ∑ i ∈ range 2, ∑ j ∈ range 2, (∑ e ∈ range ne, ∑ a ∈ range 4, ddot 2 (C e a) (g₁ e a) i j * vol e a) * U₂ (nn + j) i =
        ∑ i ∈ range 2, ∑ j ∈ range 2, (∑ e ∈ range ne, ∑ a ∈ range 4, ddot 2 (C e a) (g₂ e a) i j * vol e a) * U₁ (nn + j) i := by
  obtain ⟨Z, q, Cm, z1, h⟩ := cell_ok hM lx ly s1 s2 σ τ hc hx hp hP ho ho0 ho1
  obtain ⟨y, y1, Y, y2, y3⟩ := cell_solve hM lx ly s0 hP ho h (hS.imp fun _ => hs) ρ υ hC hE hb hu₁
  obtain ⟨y', y1', Y', y2', y3'⟩ := cell_solve hM lx ly s0 hP ho h (hS.imp fun _ => hs) ρ υ hC hE hb hu₂
  obtain ⟨gt, g1, g2⟩ := h.gradientOf Y σ' τ' y y2
  obtain ⟨gt', g1', g2'⟩ := h.gradientOf Y' σ' τ' y' y2'
  refine ⟨(Z, gt, gt'), by simp only [z1, y1, y1', g1, g1', Res.ok_bind]; rfl, _, _, _, h.vol, g2, g2', ?_⟩
  have a := h.hill hM hP ho y3 y3'.periodic
  have b := h.hill hM hP ho y3' y3.periodic
  rw [sum_congr rfl fun i hi => sum_congr rfl fun j hj => by rw [y3'.gradient j i (mem_range.1 hj) (mem_range.1 hi)]] at a
  rw [sum_congr rfl fun i hi => sum_congr rfl fun j hj => by rw [y3.gradient j i (mem_range.1 hj) (mem_range.1 hi)]] at b
  rw [← a, ← b]
  exact virtualWork_symm (fun e q he hq => (hE e q he hq).minor) hs _ _ _

/-- **C110** (comparison of materials) if at every integration point the second material is at least as stiff as the first, then for
the same macroscopic gradient the stress work of the second cell is at least that of the first -/
theorem C110_stiffer (hM : RectMesh nn ne c x Lx Ly O) (lx : 0 < Lx) (ly : 0 < Ly) {s : α} (s0 : s ≠ 0) (s1 : -1 ≤ s) (s2 : s ≤ 1)
    (σ τ ρ σ' τ' : Sched) (υ : Nat → Sched) {conn pairs : Ten Nat} {coor : Ten α} (hc : Is2 conn ne 4 c) (hx : Is2 coor nn 2 x) {np : Nat}
    {P : Nat → Nat → Nat} (hp : Is2 pairs np 2 P) (hP : PeriodicPairs nn Lx Ly x np P) {o : Nat} (ho : o < nn) (ho0 : x o 0 ≠ Lx) (ho1 : x o 1 ≠ Ly)
    {Ct₁ Ct₂ b u : Ten α} {C₁ C₂} {U : Nat → Nat → α} (hC₁ : Is6 Ct₁ ne 4 2 2 2 2 C₁) (hE₁ : ∀ e q, e < ne → q < 4 → Elastic (C₁ e q))
    (hs₁ : ∀ e q, e < ne → q < 4 → Major 2 (C₁ e q)) (hC₂ : Is6 Ct₂ ne 4 2 2 2 2 C₂) (hE₂ : ∀ e q, e < ne → q < 4 → Elastic (C₂ e q))
    (hs₂ : ∀ e q, e < ne → q < 4 → Major 2 (C₂ e q))
    (hle : ∀ e q g, e < ne → q < 4 → power 2 (ddot 2 (C₁ e q) g) g ≤ power 2 (ddot 2 (C₂ e q) g) g)
    (hb : Is2 b (nn + 2) 2 fun _ _ => 0) (hu : Is2 u (nn + 2) 2 U)
    {S : LinSolver α} (hS : S.Suits True) :
    IsOk (do
      let Z ← PeriodicCell.new s σ τ conn (meshDofs nn 2) coor pairs o
      let y₁ ← Z.solve S ρ υ Ct₁ b u
      let y₂ ← Z.solve S ρ υ Ct₂ b u
      let g₁ ← gradient σ' τ' Z.vector.V Z.elem y₁
      let g₂ ← gradient σ' τ' Z.vector.V Z.elem y₂
      return (Z, g₁, g₂)) fun t => ∃ vol g₁ g₂, Is2 t.1.elem.vol ne 4 vol ∧ Is4 t.2.1 ne 4 2 2 g₁ ∧ Is4 t.2.2 ne 4 2 2 g₂ ∧
        virtualWork ne vol (fun e a => ddot 2 (C₁ e a) (g₁ e a)) g₁ ≤ virtualWork ne vol (fun e a => ddot 2 (C₂ e a) (g₂ e a)) g₂ := by
  obtain ⟨Z, q, Cm, z1, h⟩ := cell_ok hM lx ly s1 s2 σ τ hc hx hp hP ho ho0 ho1
  obtain ⟨y, y1, Y, y2, y3⟩ := cell_solve hM lx ly s0 hP ho h (hS.imp fun _ => hs₁) ρ υ hC₁ hE₁ hb hu
  obtain ⟨y', y1', Y', y2', y3'⟩ := cell_solve hM lx ly s0 hP ho h (hS.imp fun _ => hs₂) ρ υ hC₂ hE₂ hb hu
  obtain ⟨gt, g1, g2⟩ := h.gradientOf Y σ' τ' y y2
  obtain ⟨gt', g1', g2'⟩ := h.gradientOf Y' σ' τ' y' y2'
  refine ⟨(Z, gt, gt'), by simp only [z1, y1, y1', g1, g1', Res.ok_bind]; rfl, _, _, _, h.vol, g2, g2', ?_⟩
  have d := h.weak_diff hM hP ho y3 y3'.periodic y3.periodic fun j l hj hl => (y3'.gradient j l hj hl).trans (y3.gradient j l hj hl).symm
  have ex := energy_expand hE₁ hs₁ (cellVol s x c) (cellGrad s x c Y') (cellGrad s x c Y)
  rw [work_sub_right, d, sub_self, mul_zero, add_zero] at ex
  refine (le_add_of_nonneg_right (h.work_nonneg hE₁ fun e a i j => cellGrad s x c Y' e a i j - cellGrad s x c Y e a i j)).trans (ex.symm.le.trans ?_)
  exact sum_le_sum fun e he => sum_le_sum fun a ha =>
    mul_le_mul_of_nonneg_right (hle e a _ (mem_range.1 he) (mem_range.1 ha)) (h.det e a (mem_range.1 he) (mem_range.1 ha)).le

/-! ### The meshes of the library -/

/-- the hypotheses on mesh, periodic pairs and origin of the theorems of C110 are met by every Quad4 `Regular` mesh -/
theorem Quad4.Regular.cell_hyps {nelx nely : Nat} (hx : 0 < nelx) (hy : 0 < nely) {h : α} (hh : 0 < h) :
    let M := Quad4.Regular.new nelx nely h
    ∃ c x O cn xt pt P, RectMesh M.nnode M.nelem c x (h * (nelx : α)) (h * (nely : α)) O ∧
      Quad4.Regular.conn M = .ok cn ∧ Is2 cn M.nelem 4 c ∧ M.coor = .ok xt ∧ Is2 xt M.nnode 2 x ∧
      Quad4.Regular.nodesPeriodic M = .ok pt ∧ Is2 pt (nelx + nely + 1) 2 P ∧
      PeriodicPairs M.nnode (h * (nelx : α)) (h * (nely : α)) x (nelx + nely + 1) P ∧ Quad4.Regular.nodesOrigin M < M.nnode ∧
      x (Quad4.Regular.nodesOrigin M) 0 ≠ h * (nelx : α) ∧ x (Quad4.Regular.nodesOrigin M) 1 ≠ h * (nely : α) := by
  intro M
  obtain ⟨c, x, O, hA, hM⟩ := C73_quad4_regular nelx nely hh
  obtain ⟨cn, a1, a2⟩ := hA.conn
  obtain ⟨xt, b1, b2⟩ := hA.coor
  obtain ⟨xt', x', pt, P, p1, p2, p3, p4, p5⟩ := C33_quad4_nodesPeriodic nelx nely hx hy hh
  obtain rfl : xt = xt' := by rw [b1] at p1; injection p1
  have p6 := p5.congr (x := x) fun m i hm hi => b2.unique p2 hm hi
  obtain ⟨xt'', x'', o1, o2, o3, o4, o5⟩ := C32_quad4_origin nelx nely h
  obtain rfl : xt = xt'' := by rw [b1] at o1; injection o1
  have lx : 0 < h * (nelx : α) := mul_pos hh (by exact_mod_cast hx)
  have ly : 0 < h * (nely : α) := mul_pos hh (by exact_mod_cast hy)
  exact ⟨c, x, O, cn, xt, pt, P, hM, a1, a2, b1, b2, p3, p4, p6, o3, by rw [b2.unique o2 o3 (by omega), o4]; exact lx.ne,
    by rw [b2.unique o2 o3 (by omega), o5]; exact ly.ne⟩

/-- **C110** (Quad4 `Regular`) the bounds of Voigt and Reuss with the tables of the mesh -/
theorem C110_quad4_regular {nelx nely : Nat} (hx : 0 < nelx) (hy : 0 < nely) {h : α} (hh : 0 < h) {s : α} (s0 : s ≠ 0) (s1 : -1 ≤ s) (s2 : s ≤ 1)
    (σ τ ρ σ' τ' : Sched) (υ : Nat → Sched) {Ct b u : Ten α} {C} {U : Nat → Nat → α} (hC : Is6 Ct (nelx * nely) 4 2 2 2 2 C)
    (hE : ∀ e q, e < nelx * nely → q < 4 → Elastic (C e q)) (hs : ∀ e q, e < nelx * nely → q < 4 → Major 2 (C e q))
    (hb : Is2 b ((nelx + 1) * (nely + 1) + 2) 2 fun _ _ => 0) (hu : Is2 u ((nelx + 1) * (nely + 1) + 2) 2 U) {S : LinSolver α} (hS : S.Suits True) :
    let M := Quad4.Regular.new nelx nely h
    IsOk (do
      let conn ← Quad4.Regular.conn M
      let coor ← M.coor
      let pairs ← Quad4.Regular.nodesPeriodic M
      let Z ← PeriodicCell.new s σ τ conn (meshDofs M.nnode 2) coor pairs (Quad4.Regular.nodesOrigin M)
      let y ← Z.solve S ρ υ Ct b u
      let g ← gradient σ' τ' Z.vector.V Z.elem y
      return (Z, g)) fun t => ∃ vol g, Is2 t.1.elem.vol M.nelem 4 vol ∧ Is4 t.2 M.nelem 4 2 2 g ∧
        let E := virtualWork M.nelem vol (fun e a => ddot 2 (C e a) (g e a)) g
        let A := fun i j => U (M.nnode + j) i
        E = ∑ i ∈ range 2, ∑ j ∈ range 2, (∑ e ∈ range M.nelem, ∑ a ∈ range 4, ddot 2 (C e a) (g e a) i j * vol e a) * A i j ∧
        E ≤ ∑ e ∈ range M.nelem, ∑ a ∈ range 4, power 2 (ddot 2 (C e a) A) A * vol e a ∧
        (∀ (T : Nat → Nat → α) (η : Nat → Nat → Nat → Nat → α), (∀ e a i j, e < M.nelem → a < 4 → i < 2 → j < 2 → ddot 2 (C e a) (η e a) i j = T i j) →
          2 * (h * (nelx : α) * (h * (nely : α)) * power 2 T A) - ∑ e ∈ range M.nelem, ∑ a ∈ range 4, power 2 T (η e a) * vol e a ≤ E) ∧
        0 ≤ E ∧ (E = 0 ↔ A 0 0 = 0 ∧ A 1 1 = 0 ∧ A 0 1 + A 1 0 = 0) := by
  intro M
  obtain ⟨c, x, O, cn, xt, pt, P, hM, a1, a2, b1, b2, p1, p2, p3, o1, o2, o3⟩ := Quad4.Regular.cell_hyps hx hy hh
  have lx : 0 < h * (nelx : α) := mul_pos hh (by exact_mod_cast hx)
  have ly : 0 < h * (nely : α) := mul_pos hh (by exact_mod_cast hy)
  obtain ⟨t, t1, vol, g, t2, t3, t4, -, t5⟩ := C110_bounds hM lx ly s0 s1 s2 σ τ ρ σ' τ' υ a2 b2 p2 p3 o1 o2 o3 hC hE hs hb hu hS
  exact ⟨t, by simp only [M, a1, b1, p1, Res.ok_bind]; exact t1, vol, g, t2, t3, t4, t5⟩

/-- the hypotheses can be met: a 3 x 2 cell of two materials (the shear modulus of element `e` is `e + 1`) in shear, with the default
solver: its stress work is positive -/
example : IsOk (do
      let M := Quad4.Regular.new 3 2 (1 : ℚ)
      let conn ← Quad4.Regular.conn M
      let coor ← M.coor
      let pairs ← Quad4.Regular.nodesPeriodic M
      let Z ← PeriodicCell.new (1 / 2) Sched.seq Sched.seq conn (meshDofs M.nnode 2) coor pairs (Quad4.Regular.nodesOrigin M)
      let y ← Z.solve ldlt Sched.seq (fun _ => Sched.seq)
        (Ten.of [6, 4, 2, 2, 2, 2] fun l => isotropic (1 : ℚ) ((l.getD 0 0 : Nat) + 1) (l.getD 2 0) (l.getD 3 0) (l.getD 4 0) (l.getD 5 0))
        (Ten.of [14, 2] fun _ => 0) (Ten.of [14, 2] fun l => if l = [12, 1] then 1 else 0)
      let g ← gradient Sched.seq Sched.seq Z.vector.V Z.elem y
      return (Z, g)) fun t => ∃ vol g, Is2 t.1.elem.vol 6 4 vol ∧ Is4 t.2 6 4 2 2 g ∧
        0 < virtualWork 6 vol (fun e a => ddot 2 (isotropic (1 : ℚ) ((e : Nat) + 1)) (g e a)) g := by
  obtain ⟨t, t1, vol, g, t2, t3, -, -, -, t4, t5⟩ := C110_quad4_regular (nelx := 3) (nely := 2) (h := (1 : ℚ)) (s := 1 / 2) (by norm_num) (by norm_num)
    (by norm_num) (by norm_num) (by norm_num) (by norm_num) Sched.seq Sched.seq Sched.seq Sched.seq Sched.seq (fun _ => Sched.seq)
    (Ct := Ten.of [6, 4, 2, 2, 2, 2] fun l => isotropic (1 : ℚ) ((l.getD 0 0 : Nat) + 1) (l.getD 2 0) (l.getD 3 0) (l.getD 4 0) (l.getD 5 0))
    (C := fun e _ => isotropic (1 : ℚ) ((e : Nat) + 1)) ⟨rfl, fun _ _ _ _ _ _ _ _ _ _ _ _ => rfl⟩
    (fun e _ _ _ => isotropic_elastic (by positivity) (by positivity)) (fun _ _ _ _ => isotropic_major _ _ _)
    (is2_of 14 2 fun _ => 0) (is2_of 14 2 fun l => if l = [12, 1] then 1 else 0) (S := ldlt) (Or.inr ⟨C98_ldlt, trivial⟩)
  refine ⟨t, t1, vol, g, t2, t3, lt_of_le_of_ne t4 fun e => ?_⟩
  have := (t5.1 e.symm).2.2
  norm_num [Quad4.Regular.new] at this

end GF
