import Verif.Props.PeriodicCell3
import Verif.Props.Spd
import Mathlib.Tactic.Linarith

/-! **C112** the homogenised response of a periodic unit cell in three dimensions: Hill's condition, minimum of the energy, the bounds of Voigt and
Reuss, comparison of materials, and a symmetric, positive macroscopic stiffness. -/

namespace GF
open Finset ElemSpec Element Element.Hex8
open Element.Quad4 (ddot power grad)

variable {α : Type} [Field α] [LinearOrder α] [IsStrictOrderedRing α]
variable {nn ne : Nat} {c : Nat → Nat → Nat} {x : Nat → Nat → α} {g : BoxGrid} {p : Nat → Nat → α}

omit [LinearOrder α] [IsStrictOrderedRing α] in
theorem work3_ext {vol : Nat → Nat → α} {S S' γ γ' : Nat → Nat → Nat → Nat → α}
    (h : ∀ e q i j, e < ne → q < 8 → i < 3 → j < 3 → S e q i j = S' e q i j)
    (h' : ∀ e q i j, e < ne → q < 8 → i < 3 → j < 3 → γ e q i j = γ' e q i j) : virtualWork3 ne vol S γ = virtualWork3 ne vol S' γ' :=
  sum_congr rfl fun e he => sum_congr rfl fun a ha => by
    rw [mem_range] at he ha
    congr 1
    exact sum_congr rfl fun i hi => sum_congr rfl fun j hj => by
      rw [h e a i j he ha (mem_range.1 hi) (mem_range.1 hj), h' e a i j he ha (mem_range.1 hi) (mem_range.1 hj)]

omit [LinearOrder α] [IsStrictOrderedRing α] in
theorem work3_add_right (vol : Nat → Nat → α) (S γ γ' : Nat → Nat → Nat → Nat → α) :
    virtualWork3 ne vol S (fun e q i j => γ e q i j + γ' e q i j) = virtualWork3 ne vol S γ + virtualWork3 ne vol S γ' := by
  simp only [virtualWork3, power, mul_add, sum_add_distrib, add_mul]

omit [LinearOrder α] [IsStrictOrderedRing α] in
theorem work3_sub_right (vol : Nat → Nat → α) (S γ γ' : Nat → Nat → Nat → Nat → α) :
    virtualWork3 ne vol S (fun e q i j => γ e q i j - γ' e q i j) = virtualWork3 ne vol S γ - virtualWork3 ne vol S γ' := by
  simp only [virtualWork3, power, mul_sub, sum_sub_distrib, sub_mul]

omit [LinearOrder α] [IsStrictOrderedRing α] in
theorem ddot3_sub' (C : Nat → Nat → Nat → Nat → α) (g g' : Nat → Nat → α) (i j : Nat) :
    ddot 3 C (fun k l => g k l - g' k l) i j = ddot 3 C g i j - ddot 3 C g' i j := by
  simp only [ddot, mul_sub, sum_sub_distrib]

omit [LinearOrder α] [IsStrictOrderedRing α] in
/-- the work on a constant gradient is the work of the integrated stress -/
theorem work3_const_right (vol : Nat → Nat → α) (S : Nat → Nat → Nat → Nat → α) (A : Nat → Nat → α) :
    virtualWork3 ne vol S (fun _ _ i j => A i j) =
      ∑ i ∈ range 3, ∑ j ∈ range 3, (∑ e ∈ range ne, ∑ a ∈ range 8, S e a i j * vol e a) * A i j := by
  simp only [virtualWork3, power, sum_mul]
  rw [sum_congr rfl fun e _ => sum_comm]
  rw [sum_comm]
  refine sum_congr rfl fun i _ => ?_
  rw [sum_congr rfl fun e _ => sum_comm, sum_comm]
  exact sum_congr rfl fun j _ => sum_congr rfl fun e _ => sum_congr rfl fun a _ => by ring

omit [LinearOrder α] [IsStrictOrderedRing α] in
/-- the work of a constant stress is its work on the integrated gradient -/
theorem work3_const_left (vol : Nat → Nat → α) (T : Nat → Nat → α) (γ : Nat → Nat → Nat → Nat → α) :
    virtualWork3 ne vol (fun _ _ i j => T i j) γ =
      ∑ i ∈ range 3, ∑ j ∈ range 3, T i j * ∑ e ∈ range ne, ∑ a ∈ range 8, γ e a i j * vol e a := by
  have e : virtualWork3 ne vol (fun _ _ i j => T i j) γ = virtualWork3 ne vol γ (fun _ _ i j => T i j) := by
    simp only [virtualWork3, power]
    exact sum_congr rfl fun _ _ => sum_congr rfl fun _ _ => by
      congr 1; exact sum_congr rfl fun _ _ => sum_congr rfl fun _ _ => mul_comm _ _
  rw [e, work3_const_right]
  exact sum_congr rfl fun _ _ => sum_congr rfl fun _ _ => mul_comm _ _

/-- energy of a sum -/
theorem energy3_expand {C : Nat → Nat → Nat → Nat → Nat → Nat → α}
    (hE : ∀ e q, e < ne → q < 8 → Elastic3 (C e q)) (hs : ∀ e q, e < ne → q < 8 → Major 3 (C e q)) (vol : Nat → Nat → α)
    (γ g : Nat → Nat → Nat → Nat → α) :
    virtualWork3 ne vol (fun e a => ddot 3 (C e a) (γ e a)) γ =
      virtualWork3 ne vol (fun e a => ddot 3 (C e a) (g e a)) g +
      2 * virtualWork3 ne vol (fun e a => ddot 3 (C e a) (g e a)) (fun e a i j => γ e a i j - g e a i j) +
      virtualWork3 ne vol (fun e a => ddot 3 (C e a) fun i j => γ e a i j - g e a i j) (fun e a i j => γ e a i j - g e a i j) := by
  have sy := virtualWork_symm3 (fun e q he hq => (hE e q he hq).minor) hs vol γ g
  have lin : virtualWork3 ne vol (fun e a => ddot 3 (C e a) fun i j => γ e a i j - g e a i j) (fun e a i j => γ e a i j - g e a i j) =
      virtualWork3 ne vol (fun e a => ddot 3 (C e a) (γ e a)) (fun e a i j => γ e a i j - g e a i j) -
      virtualWork3 ne vol (fun e a => ddot 3 (C e a) (g e a)) (fun e a i j => γ e a i j - g e a i j) := by
    simp only [virtualWork3, power, ddot3_sub', sub_mul, sum_sub_distrib]
  rw [lin, work3_sub_right, work3_sub_right, sy]
  ring

namespace PeriodicCell.State3
variable {Z : PeriodicCell α} {np : Nat} {P : Nat → Nat → Nat} {o : Nat} {s : α} {q : Nat → Nat → Nat} {Cm : Nat → Nat → α}

omit [LinearOrder α] [IsStrictOrderedRing α] in
theorem cellGrad_sub (F G : Nat → Nat → α) (e a i j : Nat) :
    cellGrad3 s x c (fun m i => F m i - G m i) e a i j = cellGrad3 s x c F e a i j - cellGrad3 s x c G e a i j := by
  simp only [cellGrad, grad, mul_sub, sum_sub_distrib]

/-- the stress of the solution does no work on any periodic virtual displacement: node `o` need not be kept in place -/
theorem weak_free (h : Z.State3 nn ne np c P x o s q Cm) (hM : BoxMesh nn ne c x g p) (hP : PeriodicPairs3 nn (p 0 g.nx) (p 1 g.ny) (p 2 g.nz) x np P) (ho : o < nn)
    {C : Nat → Nat → Nat → Nat → Nat → Nat → α} {U Y W : Nat → Nat → α}
    (hY : SolvesCell3 Z.vector.V Z.elem nn ne np P x o C (cellVol3 s x c) (fun _ _ => 0) U Y)
    (hW : PeriodicField3 nn np P x W) (h0 : ∀ j l, j < 3 → l < 3 → W (nn + j) l = 0) :
    virtualWork3 ne (cellVol3 s x c) (fun e a => ddot 3 (C e a) (cellGrad3 s x c Y e a)) (cellGrad3 s x c W) = 0 := by
  obtain ⟨K, hK⟩ : ∃ K : Nat → Nat → α, ∀ m i, K m i = if m < nn then W o i else 0 := ⟨_, fun _ _ => rfl⟩
  have w := hY.weak _ _ _ (h.gradientOf Y) (h.gradientOf fun m i => W m i - K m i)
    (fun j l hj hl => by rw [h0 j l hj hl, hK, if_neg (by omega), sub_zero]) (fun i hi => by rw [hK, if_pos ho, sub_self])
    (fun k j hk hj => by
      have := hW k j hk hj
      rw [sum_congr rfl fun l hl => by rw [h0 j l hj (mem_range.1 hl)]] at this
      rw [sum_congr rfl fun l hl => by rw [h0 j l hj (mem_range.1 hl), hK (nn + j), if_neg (by omega), sub_zero], ← this, hK, hK,
        if_pos (hP.valid k 1 hk (by omega)), if_pos (hP.valid k 0 hk (by omega))]
      ring)
  simp only [zero_mul, sum_const_zero] at w
  rw [← w]
  refine work3_ext (fun _ _ _ _ _ _ _ _ => rfl) fun e a i j he ha hi hj => ?_
  rw [cellGrad_sub, hM.grad_affine s (U := K) (A := fun _ _ => 0) (b := fun i => W o i) (fun m j hm _ => by
    rw [hK, if_pos hm]; simp) he hi hj, sub_zero]

/-- difference of two fields with the same macroscopic gradient -/
theorem weak_diff (h : Z.State3 nn ne np c P x o s q Cm) (hM : BoxMesh nn ne c x g p) (hP : PeriodicPairs3 nn (p 0 g.nx) (p 1 g.ny) (p 2 g.nz) x np P) (ho : o < nn)
    {C : Nat → Nat → Nat → Nat → Nat → Nat → α} {U Y V W : Nat → Nat → α}
    (hY : SolvesCell3 Z.vector.V Z.elem nn ne np P x o C (cellVol3 s x c) (fun _ _ => 0) U Y)
    (hV : PeriodicField3 nn np P x V) (hW : PeriodicField3 nn np P x W) (h0 : ∀ j l, j < 3 → l < 3 → V (nn + j) l = W (nn + j) l) :
    virtualWork3 ne (cellVol3 s x c) (fun e a => ddot 3 (C e a) (cellGrad3 s x c Y e a)) (cellGrad3 s x c V) =
    virtualWork3 ne (cellVol3 s x c) (fun e a => ddot 3 (C e a) (cellGrad3 s x c Y e a)) (cellGrad3 s x c W) := by
  have := h.weak_free hM hP ho hY (W := fun m i => V m i - W m i) (fun k j hk hj => by
      have a := hV k j hk hj
      have b := hW k j hk hj
      beta_reduce
      rw [sum_congr rfl fun l _ => mul_sub _ _ _, sum_sub_distrib, ← a, ← b]
      ring) fun j l hj hl => by rw [h0 j l hj hl, sub_self]
  rw [work3_ext (fun _ _ _ _ _ _ _ _ => rfl) fun e a i j _ _ _ _ => cellGrad_sub V W e a i j, work3_sub_right] at this
  exact sub_eq_zero.1 this

/-- the field that is affine with a given macroscopic gradient -/
theorem affine_field (hP : PeriodicPairs3 nn (p 0 g.nx) (p 1 g.ny) (p 2 g.nz) x np P) (A : Nat → Nat → α) :
    ∃ F : Nat → Nat → α, PeriodicField3 nn np P x F ∧ (∀ j l, j < 3 → l < 3 → F (nn + j) l = A j l) ∧
      ∀ m j, m < nn → j < 3 → F m j = 0 + ∑ l ∈ range 3, A j l * x m l := by
  obtain ⟨F, hF⟩ : ∃ F : Nat → Nat → α, ∀ m j, F m j = if m < nn then 0 + ∑ l ∈ range 3, A j l * x m l else A (m - nn) j := ⟨_, fun _ _ => rfl⟩
  refine ⟨F, fun k j hk hj => ?_, fun j l _ _ => by rw [hF, if_neg (by omega), Nat.add_sub_cancel_left], fun m j hm _ => by rw [hF, if_pos hm]⟩
  rw [hF, hF, if_pos (hP.valid k 1 hk (by omega)), if_pos (hP.valid k 0 hk (by omega)), add_sub_add_left_eq_sub, ← sum_sub_distrib]
  refine sum_congr rfl fun l _ => ?_
  rw [hF, if_neg (by omega), Nat.add_sub_cancel_left]
  ring

/-- Hill's condition for two fields -/
theorem hill (h : Z.State3 nn ne np c P x o s q Cm) (hM : BoxMesh nn ne c x g p) (hP : PeriodicPairs3 nn (p 0 g.nx) (p 1 g.ny) (p 2 g.nz) x np P) (ho : o < nn)
    {C : Nat → Nat → Nat → Nat → Nat → Nat → α} {U Y W : Nat → Nat → α}
    (hY : SolvesCell3 Z.vector.V Z.elem nn ne np P x o C (cellVol3 s x c) (fun _ _ => 0) U Y) (hW : PeriodicField3 nn np P x W) :
    virtualWork3 ne (cellVol3 s x c) (fun e a => ddot 3 (C e a) (cellGrad3 s x c Y e a)) (cellGrad3 s x c W) =
      ∑ i ∈ range 3, ∑ j ∈ range 3, (∑ e ∈ range ne, ∑ a ∈ range 8, ddot 3 (C e a) (cellGrad3 s x c Y e a) i j * cellVol3 s x c e a) *
        W (nn + j) i := by
  obtain ⟨F, f1, f2, f3⟩ := affine_field (x := x) hP fun j l => W (nn + j) l
  rw [h.weak_diff hM hP ho hY hW f1 fun j l hj hl => (f2 j l hj hl).symm, ← work3_const_right _ _ fun i j => W (nn + j) i]
  exact work3_ext (fun _ _ _ _ _ _ _ _ => rfl) fun e a i j he ha hi hj => hM.grad_affine s (fun m j hm hj => f3 m j hm hj) he hi hj

end PeriodicCell.State3

/-- **C112** (minimum, Voigt, Reuss, Hill) For every periodic cell without load, every elastic material with a symmetric tangent
(that may differ per integration point) and every macroscopic gradient `A i j = ∂u_j/∂x_i` (in the control nodes): with `E` the
stress work `∫ (C : grad y) : grad y` of the computed displacement `y`
- (Hill) `E` is the work of the integrated stress on the macroscopic gradient;
- `E` is the smallest stress work of all periodic fields with that macroscopic gradient;
- (Voigt) `E` is at most the stress work of the homogeneous gradient;
- (Reuss) `E` is at least `2 V T : A - ∫ T : η` for every constant stress `T` and gradients `η` with `C : η = T`;
- `E ≥ 0`, and `E = 0` if and only if the symmetric part of the macroscopic gradient is zero. -/
theorem C112_bounds (hM : BoxMesh nn ne c x g p) (p0 : ∀ a, a < 3 → p a 0 = 0) {s : α} (s0 : s ≠ 0)
    (σ τ ρ σ' τ' : Sched) (υ : Nat → Sched) {conn pairs : Ten Nat} {coor : Ten α} (hc : Is2 conn ne 8 c) (hx : Is2 coor nn 3 x) {np : Nat}
    {P : Nat → Nat → Nat} (hp : Is2 pairs np 2 P) (hP : PeriodicPairs3 nn (p 0 g.nx) (p 1 g.ny) (p 2 g.nz) x np P) {o : Nat} (ho : o < nn) (ho0 : x o 0 ≠ p 0 g.nx)
    (ho1 : x o 1 ≠ p 1 g.ny) (ho2 : x o 2 ≠ p 2 g.nz)
    {Ct b u : Ten α} {C} {U : Nat → Nat → α} (hC : Is6 Ct ne 8 3 3 3 3 C) (hE : ∀ e q, e < ne → q < 8 → Elastic3 (C e q))
    (hs : ∀ e q, e < ne → q < 8 → Major 3 (C e q)) (hb : Is2 b (nn + 3) 3 fun _ _ => 0) (hu : Is2 u (nn + 3) 3 U) {S : LinSolver α} (hS : S.Suits True) :
    IsOk (do
      let Z ← PeriodicCell.new3 s σ τ conn (meshDofs nn 3) coor pairs o
      let y ← Z.solve S ρ υ Ct b u
      let g ← gradient3 σ' τ' Z.vector.V Z.elem y
      return (Z, g)) fun t => ∃ vol γ₀, Is2 t.1.elem.vol ne 8 vol ∧ Is4 t.2 ne 8 3 3 γ₀ ∧
        let E := virtualWork3 ne vol (fun e a => ddot 3 (C e a) (γ₀ e a)) γ₀
        let A := fun i j => U (nn + j) i
        E = ∑ i ∈ range 3, ∑ j ∈ range 3, (∑ e ∈ range ne, ∑ a ∈ range 8, ddot 3 (C e a) (γ₀ e a) i j * vol e a) * A i j ∧
        (∀ W γ, PeriodicField3 nn np P x W → (∀ j l, j < 3 → l < 3 → W (nn + j) l = U (nn + j) l) →
          GradientOf3 t.1.vector.V t.1.elem (nn + 3) ne W γ → E ≤ virtualWork3 ne vol (fun e a => ddot 3 (C e a) (γ e a)) γ) ∧
        E ≤ ∑ e ∈ range ne, ∑ a ∈ range 8, power 3 (ddot 3 (C e a) A) A * vol e a ∧
        (∀ (T : Nat → Nat → α) (η : Nat → Nat → Nat → Nat → α), (∀ e a i j, e < ne → a < 8 → i < 3 → j < 3 → ddot 3 (C e a) (η e a) i j = T i j) →
          2 * (p 0 g.nx * p 1 g.ny * p 2 g.nz * power 3 T A) - ∑ e ∈ range ne, ∑ a ∈ range 8, power 3 T (η e a) * vol e a ≤ E) ∧
        0 ≤ E ∧ (E = 0 ↔ ∀ i j, i < 3 → j < 3 → A i j + A j i = 0) := by
  obtain ⟨Z, q, Cm, z1, h⟩ := cell_ok3 hM (s := s) σ τ hc hx hp hP ho ho0 ho1 ho2
  obtain ⟨y, y1, Y, y2, y3⟩ := cell_solve3 hM p0 s0 hP ho h (hS.imp fun _ => hs) ρ υ hC hE hb hu
  obtain ⟨gt, g1, g2⟩ := h.gradientOf Y σ' τ' y y2
  refine ⟨(Z, gt), by simp only [z1, y1, g1, Res.ok_bind]; rfl, _, _, h.vol, g2, ?_⟩
  have avg : ∀ i j, i < 3 → j < 3 → ∑ e ∈ range ne, ∑ a ∈ range 8, cellGrad3 s x c Y e a i j * cellVol3 s x c e a = p 0 g.nx * p 1 g.ny * p 2 g.nz * U (nn + j) i := by
    intro i j hi hj
    rw [← y3.gradient j i hj hi]
    exact avg_gradient3 hM p0 s hP hj (A := fun j l => Y (nn + j) l) (fun k hk => y3.periodic k j hk hj) hi
  have min : ∀ W, PeriodicField3 nn np P x W → (∀ j l, j < 3 → l < 3 → W (nn + j) l = U (nn + j) l) →
      virtualWork3 ne (cellVol3 s x c) (fun e a => ddot 3 (C e a) (cellGrad3 s x c Y e a)) (cellGrad3 s x c Y) ≤
      virtualWork3 ne (cellVol3 s x c) (fun e a => ddot 3 (C e a) (cellGrad3 s x c W e a)) (cellGrad3 s x c W) := by
    intro W hW w0
    have d := h.weak_diff hM hP ho y3 hW y3.periodic fun j l hj hl => (w0 j l hj hl).trans (y3.gradient j l hj hl).symm
    rw [energy3_expand hE hs _ (cellGrad3 s x c W) (cellGrad3 s x c Y), work3_sub_right, d, sub_self, mul_zero, add_zero]
    exact le_add_of_nonneg_right (h.work_nonneg hE fun e a i j => cellGrad3 s x c W e a i j - cellGrad3 s x c Y e a i j)
  obtain ⟨F, f1, f2, f3⟩ := PeriodicCell.State3.affine_field (x := x) hP fun j l => U (nn + j) l
  have voigt := min F f1 f2
  have fA : virtualWork3 ne (cellVol3 s x c) (fun e a => ddot 3 (C e a) (cellGrad3 s x c F e a)) (cellGrad3 s x c F) =
      ∑ e ∈ range ne, ∑ a ∈ range 8, power 3 (ddot 3 (C e a) fun i j => U (nn + j) i) (fun i j => U (nn + j) i) * cellVol3 s x c e a :=
    work3_ext (S' := fun e a => ddot 3 (C e a) fun i j => U (nn + j) i) (γ' := fun _ _ i j => U (nn + j) i) (fun e a i j he ha _ _ =>
      sum_congr rfl fun k hk => sum_congr rfl fun l hl => by
        rw [hM.grad_affine s (fun m j hm hj => f3 m j hm hj) he (mem_range.1 hl) (mem_range.1 hk)]) fun e a i j he ha hi hj => hM.grad_affine s (fun m j hm hj => f3 m j hm hj) he hi hj
  rw [fA] at voigt
  have nonneg := h.work_nonneg hE (cellGrad3 s x c Y)
  refine ⟨?_, fun W γ hW w0 hγ => ?_, voigt, fun T η hT => ?_, nonneg, fun z => ?_, fun z => le_antisymm (voigt.trans_eq ?_) nonneg⟩
  · rw [h.hill hM hP ho y3 y3.periodic]
    exact sum_congr rfl fun i hi => sum_congr rfl fun j hj => by rw [y3.gradient j i (mem_range.1 hj) (mem_range.1 hi)]
  · rw [h.work_congr h.vol hγ hγ]
    exact min W hW w0
  · have ex := energy3_expand hE hs (cellVol3 s x c) (cellGrad3 s x c Y) η
    have nn0 := h.work_nonneg hE fun e a i j => cellGrad3 s x c Y e a i j - η e a i j
    have e1 : ∀ γ, virtualWork3 ne (cellVol3 s x c) (fun e a => ddot 3 (C e a) (η e a)) γ = virtualWork3 ne (cellVol3 s x c) (fun _ _ i j => T i j) γ :=
      fun γ => work3_ext hT fun _ _ _ _ _ _ _ _ => rfl
    have e2 : virtualWork3 ne (cellVol3 s x c) (fun _ _ i j => T i j) (cellGrad3 s x c Y) = p 0 g.nx * p 1 g.ny * p 2 g.nz * power 3 T fun i j => U (nn + j) i := by
      rw [work3_const_left, power, mul_sum]
      refine sum_congr rfl fun i hi => ?_
      rw [mul_sum]
      refine sum_congr rfl fun j hj => ?_
      rw [avg i j (mem_range.1 hi) (mem_range.1 hj)]
      ring
    have e3 : virtualWork3 ne (cellVol3 s x c) (fun _ _ i j => T i j) η = ∑ e ∈ range ne, ∑ a ∈ range 8, power 3 T (η e a) * cellVol3 s x c e a := rfl
    rw [work3_sub_right, e1, e1, e2, e3] at ex
    linarith
  · have zz : ∀ e, e < ne → ∀ a, a < 8 → power 3 (ddot 3 (C e a) (cellGrad3 s x c Y e a)) (cellGrad3 s x c Y e a) = 0 := by
      have p : ∀ e ∈ range ne, ∀ a ∈ range 8, 0 ≤ power 3 (ddot 3 (C e a) (cellGrad3 s x c Y e a)) (cellGrad3 s x c Y e a) * cellVol3 s x c e a :=
        fun e he a ha => mul_nonneg ((hE e a (mem_range.1 he) (mem_range.1 ha)).nonneg _) (h.det e a (mem_range.1 he) (mem_range.1 ha)).le
      intro e he a ha
      have z1 := (sum_eq_zero_iff_of_nonneg fun e he => sum_nonneg (p e he)).1 z e (mem_range.2 he)
      have z2 := (sum_eq_zero_iff_of_nonneg (p e (mem_range.2 he))).1 z1 a (mem_range.2 ha)
      exact (mul_eq_zero.1 z2).resolve_right (h.det e a he ha).ne'
    obtain ⟨l0, l1, l2⟩ := hM.length_pos p0
    have V0 : p 0 g.nx * p 1 g.ny * p 2 g.nz ≠ 0 := (mul_pos (mul_pos l0 l1) l2).ne'
    intro i j hi hj
    refine (mul_eq_zero.1 (?_ : p 0 g.nx * p 1 g.ny * p 2 g.nz * _ = 0)).resolve_left V0
    rw [mul_add, ← avg i j hi hj, ← avg j i hj hi, ← sum_add_distrib]
    refine sum_eq_zero fun e he => ?_
    rw [← sum_add_distrib]
    exact sum_eq_zero fun a ha => by
      rw [← add_mul, (hE e a (mem_range.1 he) (mem_range.1 ha)).pos _ (zz e (mem_range.1 he) a (mem_range.1 ha)) i j hi hj, zero_mul]
  · refine sum_eq_zero fun e he => sum_eq_zero fun a ha => ?_
    have mi := (hE e a (mem_range.1 he) (mem_range.1 ha)).minor
    have : ∀ i j, i < 3 → j < 3 → ddot 3 (C e a) (fun i j => U (nn + j) i) i j = 0 := by
      intro i j hi hj
      have e1 : ddot 3 (C e a) (fun i j => U (nn + j) i) i j = - ddot 3 (C e a) (fun i j => U (nn + j) i) i j := by
        conv_lhs => rw [ddot, sum_comm]
        rw [ddot, ← sum_neg_distrib]
        refine sum_congr rfl fun l hl => ?_
        rw [← sum_neg_distrib]
        refine sum_congr rfl fun k hk => ?_
        rw [mem_range] at hl hk
        have := z k l hk hl
        beta_reduce at this ⊢
        rw [mi i j k l hi hj hk hl]
        linear_combination C e a i j l k * this
      linarith
    rw [power, sum_eq_zero fun i hi => sum_eq_zero fun j hj => by rw [this i j (mem_range.1 hi) (mem_range.1 hj), zero_mul], zero_mul]

/-- **C112** (symmetric macroscopic stiffness) for two macroscopic gradients of the same cell, the integrated stress of the first
does the same work on the second gradient as the integrated stress of the second on the first -/
theorem C112_symmetric (hM : BoxMesh nn ne c x g p) (p0 : ∀ a, a < 3 → p a 0 = 0) {s : α} (s0 : s ≠ 0)
    (σ τ ρ σ' τ' : Sched) (υ : Nat → Sched) {conn pairs : Ten Nat} {coor : Ten α} (hc : Is2 conn ne 8 c) (hx : Is2 coor nn 3 x) {np : Nat}
    {P : Nat → Nat → Nat} (hp : Is2 pairs np 2 P) (hP : PeriodicPairs3 nn (p 0 g.nx) (p 1 g.ny) (p 2 g.nz) x np P) {o : Nat} (ho : o < nn) (ho0 : x o 0 ≠ p 0 g.nx)
    (ho1 : x o 1 ≠ p 1 g.ny) (ho2 : x o 2 ≠ p 2 g.nz)
    {Ct b u₁ u₂ : Ten α} {C} {U₁ U₂ : Nat → Nat → α} (hC : Is6 Ct ne 8 3 3 3 3 C) (hE : ∀ e q, e < ne → q < 8 → Elastic3 (C e q))
    (hs : ∀ e q, e < ne → q < 8 → Major 3 (C e q)) (hb : Is2 b (nn + 3) 3 fun _ _ => 0) (hu₁ : Is2 u₁ (nn + 3) 3 U₁) (hu₂ : Is2 u₂ (nn + 3) 3 U₂)
    {S : LinSolver α} (hS : S.Suits True) :
    IsOk (do
      let Z ← PeriodicCell.new3 s σ τ conn (meshDofs nn 3) coor pairs o
      let y₁ ← Z.solve S ρ υ Ct b u₁
      let y₂ ← Z.solve S ρ υ Ct b u₂
      let g₁ ← gradient3 σ' τ' Z.vector.V Z.elem y₁
      let g₂ ← gradient3 σ' τ' Z.vector.V Z.elem y₂
      return (Z, g₁, g₂)) fun t => ∃ vol g₁ g₂, Is2 t.1.elem.vol ne 8 vol ∧ Is4 t.2.1 ne 8 3 3 g₁ ∧ Is4 t.2.2 ne 8 3 3 g₂ ∧
        ∑ i ∈ range 3, ∑ j ∈ range 3, (∑ e ∈ range ne, ∑ a ∈ range 8, ddot 3 (C e a) (g₁ e a) i j * vol e a) * U₂ (nn + j) i =
        ∑ i ∈ range 3, ∑ j ∈ range 3, (∑ e ∈ range ne, ∑ a ∈ range 8, ddot 3 (C e a) (g₂ e a) i j * vol e a) * U₁ (nn + j) i := by
  obtain ⟨Z, q, Cm, z1, h⟩ := cell_ok3 hM (s := s) σ τ hc hx hp hP ho ho0 ho1 ho2
  obtain ⟨y, y1, Y, y2, y3⟩ := cell_solve3 hM p0 s0 hP ho h (hS.imp fun _ => hs) ρ υ hC hE hb hu₁
  obtain ⟨y', y1', Y', y2', y3'⟩ := cell_solve3 hM p0 s0 hP ho h (hS.imp fun _ => hs) ρ υ hC hE hb hu₂
  obtain ⟨gt, g1, g2⟩ := h.gradientOf Y σ' τ' y y2
  obtain ⟨gt', g1', g2'⟩ := h.gradientOf Y' σ' τ' y' y2'
  refine ⟨(Z, gt, gt'), by simp only [z1, y1, y1', g1, g1', Res.ok_bind]; rfl, _, _, _, h.vol, g2, g2', ?_⟩
  have a := h.hill hM hP ho y3 y3'.periodic
  have b := h.hill hM hP ho y3' y3.periodic
  rw [sum_congr rfl fun i hi => sum_congr rfl fun j hj => by rw [y3'.gradient j i (mem_range.1 hj) (mem_range.1 hi)]] at a
  rw [sum_congr rfl fun i hi => sum_congr rfl fun j hj => by rw [y3.gradient j i (mem_range.1 hj) (mem_range.1 hi)]] at b
  rw [← a, ← b]
  exact virtualWork_symm3 (fun e q he hq => (hE e q he hq).minor) hs _ _ _

/-- **C112** (comparison of materials) if at every integration point the second material is at least as stiff as the first, then for
the same macroscopic gradient the stress work of the second cell is at least that of the first -/
theorem C112_stiffer (hM : BoxMesh nn ne c x g p) (p0 : ∀ a, a < 3 → p a 0 = 0) {s : α} (s0 : s ≠ 0)
    (σ τ ρ σ' τ' : Sched) (υ : Nat → Sched) {conn pairs : Ten Nat} {coor : Ten α} (hc : Is2 conn ne 8 c) (hx : Is2 coor nn 3 x) {np : Nat}
    {P : Nat → Nat → Nat} (hp : Is2 pairs np 2 P) (hP : PeriodicPairs3 nn (p 0 g.nx) (p 1 g.ny) (p 2 g.nz) x np P) {o : Nat} (ho : o < nn) (ho0 : x o 0 ≠ p 0 g.nx)
    (ho1 : x o 1 ≠ p 1 g.ny) (ho2 : x o 2 ≠ p 2 g.nz)
    {Ct₁ Ct₂ b u : Ten α} {C₁ C₂} {U : Nat → Nat → α} (hC₁ : Is6 Ct₁ ne 8 3 3 3 3 C₁) (hE₁ : ∀ e q, e < ne → q < 8 → Elastic3 (C₁ e q))
    (hs₁ : ∀ e q, e < ne → q < 8 → Major 3 (C₁ e q)) (hC₂ : Is6 Ct₂ ne 8 3 3 3 3 C₂) (hE₂ : ∀ e q, e < ne → q < 8 → Elastic3 (C₂ e q))
    (hs₂ : ∀ e q, e < ne → q < 8 → Major 3 (C₂ e q))
    (hle : ∀ e q g, e < ne → q < 8 → power 3 (ddot 3 (C₁ e q) g) g ≤ power 3 (ddot 3 (C₂ e q) g) g)
    (hb : Is2 b (nn + 3) 3 fun _ _ => 0) (hu : Is2 u (nn + 3) 3 U)
    {S : LinSolver α} (hS : S.Suits True) :
    IsOk (do
      let Z ← PeriodicCell.new3 s σ τ conn (meshDofs nn 3) coor pairs o
      let y₁ ← Z.solve S ρ υ Ct₁ b u
      let y₂ ← Z.solve S ρ υ Ct₂ b u
      let g₁ ← gradient3 σ' τ' Z.vector.V Z.elem y₁
      let g₂ ← gradient3 σ' τ' Z.vector.V Z.elem y₂
      return (Z, g₁, g₂)) fun t => ∃ vol g₁ g₂, Is2 t.1.elem.vol ne 8 vol ∧ Is4 t.2.1 ne 8 3 3 g₁ ∧ Is4 t.2.2 ne 8 3 3 g₂ ∧
        virtualWork3 ne vol (fun e a => ddot 3 (C₁ e a) (g₁ e a)) g₁ ≤ virtualWork3 ne vol (fun e a => ddot 3 (C₂ e a) (g₂ e a)) g₂ := by
  obtain ⟨Z, q, Cm, z1, h⟩ := cell_ok3 hM (s := s) σ τ hc hx hp hP ho ho0 ho1 ho2
  obtain ⟨y, y1, Y, y2, y3⟩ := cell_solve3 hM p0 s0 hP ho h (hS.imp fun _ => hs₁) ρ υ hC₁ hE₁ hb hu
  obtain ⟨y', y1', Y', y2', y3'⟩ := cell_solve3 hM p0 s0 hP ho h (hS.imp fun _ => hs₂) ρ υ hC₂ hE₂ hb hu
  obtain ⟨gt, g1, g2⟩ := h.gradientOf Y σ' τ' y y2
  obtain ⟨gt', g1', g2'⟩ := h.gradientOf Y' σ' τ' y' y2'
  refine ⟨(Z, gt, gt'), by simp only [z1, y1, y1', g1, g1', Res.ok_bind]; rfl, _, _, _, h.vol, g2, g2', ?_⟩
  have d := h.weak_diff hM hP ho y3 y3'.periodic y3.periodic fun j l hj hl => (y3'.gradient j l hj hl).trans (y3.gradient j l hj hl).symm
  have ex := energy3_expand hE₁ hs₁ (cellVol3 s x c) (cellGrad3 s x c Y') (cellGrad3 s x c Y)
  rw [work3_sub_right, d, sub_self, mul_zero, add_zero] at ex
  refine (le_add_of_nonneg_right (h.work_nonneg hE₁ fun e a i j => cellGrad3 s x c Y' e a i j - cellGrad3 s x c Y e a i j)).trans (ex.symm.le.trans ?_)
  exact sum_le_sum fun e he => sum_le_sum fun a ha =>
    mul_le_mul_of_nonneg_right (hle e a _ (mem_range.1 he) (mem_range.1 ha)) (h.det e a (mem_range.1 he) (mem_range.1 ha)).le/-! ### The mesh of the library -/

/-- the hypotheses on mesh, periodic pairs and origin of the theorems of C112 are met by every Hex8 `Regular` mesh -/
theorem Hex8.Regular.cell_hyps {nelx nely nelz : Nat} (hx : 0 < nelx) (hy : 0 < nely) (hz : 0 < nelz) {h : α} (hh : 0 < h) :
    let M := Hex8.Regular.new nelx nely nelz h
    let np := (nelx + 1) * (nely + 1) * (nelz + 1) - nelx * nely * nelz
    ∃ c x g p cn xt pt P, BoxMesh M.nnode M.nelem c x g p ∧ (∀ a, a < 3 → p a 0 = 0) ∧
      p 0 g.nx = h * (nelx : α) ∧ p 1 g.ny = h * (nely : α) ∧ p 2 g.nz = h * (nelz : α) ∧
      Hex8.Regular.conn M = .ok cn ∧ Is2 cn M.nelem 8 c ∧ Hex8.Regular.coor M = .ok xt ∧ Is2 xt M.nnode 3 x ∧
      Hex8.Regular.nodesPeriodic M = .ok pt ∧ Is2 pt np 2 P ∧ PeriodicPairs3 M.nnode (p 0 g.nx) (p 1 g.ny) (p 2 g.nz) x np P ∧
      Hex8.Regular.nodesOrigin M < M.nnode ∧ x (Hex8.Regular.nodesOrigin M) 0 ≠ p 0 g.nx ∧
      x (Hex8.Regular.nodesOrigin M) 1 ≠ p 1 g.ny ∧ x (Hex8.Regular.nodesOrigin M) 2 ≠ p 2 g.nz := by
  intro M np
  obtain ⟨c, x, g, ⟨cn, a1, a2⟩, ⟨xt, b1, b2⟩, g1, g2, g3, hM⟩ := C89_hex8_regular hx hy hz hh
  obtain ⟨xt', x', pt, P, p1, p2, p3, p4, p5⟩ := C34_nodesPeriodic nelx nely nelz hx hy hz hh
  obtain rfl : xt = xt' := by rw [b1] at p1; injection p1
  have p6 := p5.congr (x := x) fun m i hm hi => b2.unique p2 hm hi
  obtain ⟨xt3, q1, q2⟩ := Hex8.Regular.coor_spec nelx nely nelz h
  obtain rfl : xt = xt3 := by rw [b1] at q1; injection q1
  have lx : 0 < h * (nelx : α) := mul_pos hh (by exact_mod_cast hx)
  have ly : 0 < h * (nely : α) := mul_pos hh (by exact_mod_cast hy)
  have lz : 0 < h * (nelz : α) := mul_pos hh (by exact_mod_cast hz)
  have e00 : enc (nelx + 1) (nely + 1) 0 0 0 = 0 := by simp [enc]
  have o3 : 0 < M.nnode := by
    have : enc (nelx + 1) (nely + 1) 0 0 0 < M.nnode := enc_lt (show 0 < nelx + 1 by omega) (show 0 < nely + 1 by omega) (show 0 < nelz + 1 by omega)
    omega
  obtain ⟨r0, r1, r2⟩ := gridCoor3_enc h (nelx := nelx) (nely := nely) (x := 0) (y := 0) (z := 0) (by omega) (by omega)
  rw [e00, Nat.cast_zero, mul_zero] at r0 r1 r2
  have o4 : x 0 0 = 0 := (b2.unique q2 o3 (by omega)).trans r0
  have o5 : x 0 1 = 0 := (b2.unique q2 o3 (by omega)).trans r1
  have o6 : x 0 2 = 0 := (b2.unique q2 o3 (by omega)).trans r2
  have z : Hex8.Regular.nodesOrigin M = 0 := rfl
  refine ⟨c, x, g, fun _ i => h * (i : α), cn, xt, pt, P, hM, fun a _ => by simp, ?_, ?_, ?_, a1, a2, b1, b2, p3, p4, ?_, by rw [z]; exact o3, ?_, ?_, ?_⟩
  · rw [g1]
  · rw [g2]
  · rw [g3]
  · rw [g1, g2, g3]; exact p6
  · rw [z, o4, g1]; exact lx.ne
  · rw [z, o5, g2]; exact ly.ne
  · rw [z, o6, g3]; exact lz.ne

/-- **C112** (Hex8 `Regular`) the bounds of Voigt and Reuss with the tables of the mesh -/
theorem C112_hex8_regular {nelx nely nelz : Nat} (hx : 0 < nelx) (hy : 0 < nely) (hz : 0 < nelz) {h : α} (hh : 0 < h) {s : α} (s0 : s ≠ 0)
    (σ τ ρ σ' τ' : Sched) (υ : Nat → Sched) {Ct b u : Ten α} {C} {U : Nat → Nat → α} (hC : Is6 Ct (nelx * nely * nelz) 8 3 3 3 3 C)
    (hE : ∀ e q, e < nelx * nely * nelz → q < 8 → Elastic3 (C e q)) (hs : ∀ e q, e < nelx * nely * nelz → q < 8 → Major 3 (C e q))
    (hb : Is2 b ((nelx + 1) * (nely + 1) * (nelz + 1) + 3) 3 fun _ _ => 0) (hu : Is2 u ((nelx + 1) * (nely + 1) * (nelz + 1) + 3) 3 U)
    {S : LinSolver α} (hS : S.Suits True) :
    let M := Hex8.Regular.new nelx nely nelz h
    IsOk (do
      let conn ← Hex8.Regular.conn M
      let coor ← Hex8.Regular.coor M
      let pairs ← Hex8.Regular.nodesPeriodic M
      let Z ← PeriodicCell.new3 s σ τ conn (meshDofs M.nnode 3) coor pairs (Hex8.Regular.nodesOrigin M)
      let y ← Z.solve S ρ υ Ct b u
      let g ← gradient3 σ' τ' Z.vector.V Z.elem y
      return (Z, g)) fun t => ∃ vol γ₀, Is2 t.1.elem.vol M.nelem 8 vol ∧ Is4 t.2 M.nelem 8 3 3 γ₀ ∧
        let E := virtualWork3 M.nelem vol (fun e a => ddot 3 (C e a) (γ₀ e a)) γ₀
        let A := fun i j => U (M.nnode + j) i
        E = ∑ i ∈ range 3, ∑ j ∈ range 3, (∑ e ∈ range M.nelem, ∑ a ∈ range 8, ddot 3 (C e a) (γ₀ e a) i j * vol e a) * A i j ∧
        E ≤ ∑ e ∈ range M.nelem, ∑ a ∈ range 8, power 3 (ddot 3 (C e a) A) A * vol e a ∧
        (∀ (T : Nat → Nat → α) (η : Nat → Nat → Nat → Nat → α), (∀ e a i j, e < M.nelem → a < 8 → i < 3 → j < 3 → ddot 3 (C e a) (η e a) i j = T i j) →
          2 * (h * (nelx : α) * (h * (nely : α)) * (h * (nelz : α)) * power 3 T A) - ∑ e ∈ range M.nelem, ∑ a ∈ range 8, power 3 T (η e a) * vol e a ≤ E) ∧
        0 ≤ E ∧ (E = 0 ↔ ∀ i j, i < 3 → j < 3 → A i j + A j i = 0) := by
  intro M
  obtain ⟨c, x, g, p, cn, xt, pt, P, hM, p0, l0, l1, l2, a1, a2, b1, b2, p1, p2, p3, o1, o2, o3, o4⟩ := Hex8.Regular.cell_hyps hx hy hz hh
  obtain ⟨t, t1, vol, γ₀, t2, t3, t4, -, t5⟩ := C112_bounds hM p0 s0 σ τ ρ σ' τ' υ a2 b2 p2 p3 o1 o2 o3 o4 hC hE hs hb hu hS
  rw [l0, l1, l2] at t5
  exact ⟨t, by simp only [M, a1, b1, p1, Res.ok_bind]; exact t1, vol, γ₀, t2, t3, t4, t5⟩

/-- the hypotheses can be met: a 3 x 2 x 1 cell of two materials (the shear modulus of element `e` is `e + 1`) in shear, with the
default solver: its stress work is positive -/
example : IsOk (do
      let M := Hex8.Regular.new 3 2 1 (1 : ℚ)
      let conn ← Hex8.Regular.conn M
      let coor ← Hex8.Regular.coor M
      let pairs ← Hex8.Regular.nodesPeriodic M
      let Z ← PeriodicCell.new3 (1 / 2) Sched.seq Sched.seq conn (meshDofs M.nnode 3) coor pairs (Hex8.Regular.nodesOrigin M)
      let y ← Z.solve ldlt Sched.seq (fun _ => Sched.seq)
        (Ten.of [6, 8, 3, 3, 3, 3] fun l => isotropic (1 : ℚ) ((l.getD 0 0 : Nat) + 1) (l.getD 2 0) (l.getD 3 0) (l.getD 4 0) (l.getD 5 0))
        (Ten.of [27, 3] fun _ => 0) (Ten.of [27, 3] fun l => if l = [24, 1] then 1 else 0)
      let g ← gradient3 Sched.seq Sched.seq Z.vector.V Z.elem y
      return (Z, g)) fun t => ∃ vol γ₀, Is2 t.1.elem.vol 6 8 vol ∧ Is4 t.2 6 8 3 3 γ₀ ∧
        0 < virtualWork3 6 vol (fun e a => ddot 3 (isotropic (1 : ℚ) ((e : Nat) + 1)) (γ₀ e a)) γ₀ := by
  obtain ⟨t, t1, vol, γ₀, t2, t3, -, -, -, t4, t5⟩ := C112_hex8_regular (nelx := 3) (nely := 2) (nelz := 1) (h := (1 : ℚ)) (s := 1 / 2) (by norm_num)
    (by norm_num) (by norm_num) (by norm_num) (by norm_num) Sched.seq Sched.seq Sched.seq Sched.seq Sched.seq (fun _ => Sched.seq)
    (Ct := Ten.of [6, 8, 3, 3, 3, 3] fun l => isotropic (1 : ℚ) ((l.getD 0 0 : Nat) + 1) (l.getD 2 0) (l.getD 3 0) (l.getD 4 0) (l.getD 5 0))
    (C := fun e _ => isotropic (1 : ℚ) ((e : Nat) + 1)) ⟨rfl, fun _ _ _ _ _ _ _ _ _ _ _ _ => rfl⟩
    (fun e _ _ _ => isotropic_elastic3 (by positivity) (by positivity)) (fun _ _ _ _ => isotropic_major _ _ _)
    (is2_of 27 3 fun _ => 0) (is2_of 27 3 fun l => if l = [24, 1] then 1 else 0) (S := ldlt) (Or.inr ⟨C98_ldlt, trivial⟩)
  refine ⟨t, t1, vol, γ₀, t2, t3, lt_of_le_of_ne t4 fun e => ?_⟩
  have := t5.1 e.symm 1 0 (by omega) (by omega)
  norm_num [Hex8.Regular.new] at this

end GF
