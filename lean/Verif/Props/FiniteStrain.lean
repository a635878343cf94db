import Verif.Props.ElementPlanar
import Mathlib.Tactic.LinearCombination

/-! **C96** finite strain: `update_x(AsElement(coor + disp))`, as in docs/examples/statics/periodic_elastoplastic_finite-strain.py. -/

namespace GF.Element.Quad4
open Finset ElemSpec

variable {α : Type} [Field α] [CharZero α]
variable {ne nip : Nat} {thick : α} {Ξ : Nat → Nat → α} {W : Nat → α} {Q : Quadrature α} {X : Nat → Nat → Nat → α}

/-- the deformation gradient `F = I + H`, with `H i j = ∂u_i/∂X_j` -/
def defGrad (H : Nat → Nat → α) (i j : Nat) : α := (if i = j then 1 else 0) + H i j

/-- determinant of a 3 x 3 matrix -/
def det3 (F : Nat → Nat → α) : α :=
  F 0 0 * (F 1 1 * F 2 2 - F 1 2 * F 2 1) - F 0 1 * (F 1 0 * F 2 2 - F 1 2 * F 2 0) + F 0 2 * (F 1 0 * F 2 1 - F 1 1 * F 2 0)

omit [CharZero α] in
theorem push_aux {a b c d p r s t u v D D' : α} (hD : D = a * d - b * c) (hD' : D' = (a + p) * (d + t) - (b + r) * (c + s)) (h0 : D ≠ 0) (h0' : D' ≠ 0) :
    (d * u - b * v) / D = (1 + (d / D * p + -b / D * s)) * (((d + t) * u - (b + r) * v) / D') + (d / D * r + -b / D * t) * (((a + p) * v - (c + s) * u) / D') ∧
    (a * v - c * u) / D = (-c / D * p + a / D * s) * (((d + t) * u - (b + r) * v) / D') + (1 + (-c / D * r + a / D * t)) * (((a + p) * v - (c + s) * u) / D') := by
  constructor
  · field_simp
    rw [hD, hD']
    ring
  · field_simp
    rw [hD, hD']
    ring

/-- gradients in the two configurations -/
theorem push_forward {U : Nat → Nat → Nat → α} {X' : Nat → Nat → Nat → α} {e q : Nat} (hX : ∀ m i, m < 4 → i < 2 → X' e m i = X e m i + U e m i)
    (hd : det4 (X e) (Ξ q 0) (Ξ q 1) ≠ 0) :
    let g := grad 4 (Gf (D4 Ξ) X) U e q
    det4 (X' e) (Ξ q 0) (Ξ q 1) = ((1 + g 0 0) * (1 + g 1 1) - g 0 1 * g 1 0) * det4 (X e) (Ξ q 0) (Ξ q 1) ∧
    (det4 (X' e) (Ξ q 0) (Ξ q 1) ≠ 0 → ∀ m, Gf (D4 Ξ) X e q m 0 = (1 + g 0 0) * Gf (D4 Ξ) X' e q m 0 + g 0 1 * Gf (D4 Ξ) X' e q m 1 ∧
      Gf (D4 Ξ) X e q m 1 = g 1 0 * Gf (D4 Ξ) X' e q m 0 + (1 + g 1 1) * Gf (D4 Ξ) X' e q m 1) := by
  intro g
  rw [← detf_eq] at hd
  have J' : ∀ i j, j < 2 → Jf (D4 Ξ) X' e q i j = Jf (D4 Ξ) X e q i j + Jf (D4 Ξ) U e q i j := by
    intro i j hj
    simp only [Jf, ← sum_add_distrib, ← mul_add]
    exact sum_congr rfl fun m hm => by rw [hX m j (mem_range.1 hm) hj]
  have hg : ∀ i j, g i j = inv2f (Jf (D4 Ξ) X e q) i 0 * Jf (D4 Ξ) U e q 0 j + inv2f (Jf (D4 Ξ) X e q) i 1 * Jf (D4 Ξ) U e q 1 j := by
    intro i j
    simp only [g, grad, Gf, Jf, sum_range_succ, sum_range_zero]
    ring
  have h00 := hg 0 0
  have h01 := hg 0 1
  have h10 := hg 1 0
  have h11 := hg 1 1
  have j00 := J' 0 0 (by omega)
  have j01 := J' 0 1 (by omega)
  have j10 := J' 1 0 (by omega)
  have j11 := J' 1 1 (by omega)
  rw [← detf_eq, ← detf_eq]
  simp only [inv2f] at h00 h01 h10 h11
  have key : detf (Jf (D4 Ξ) X' e q) = ((1 + g 0 0) * (1 + g 1 1) - g 0 1 * g 1 0) * detf (Jf (D4 Ξ) X e q) := by
    rw [h00, h01, h10, h11]
    simp only [detf] at hd ⊢
    rw [j00, j01, j10, j11]
    field_simp
    ring
  refine ⟨key, fun hd' m => ?_⟩
  have G0 : ∀ Y : Nat → Nat → Nat → α, Gf (D4 Ξ) Y e q m 0 = (Jf (D4 Ξ) Y e q 1 1 * D4 Ξ q m 0 - Jf (D4 Ξ) Y e q 0 1 * D4 Ξ q m 1) / detf (Jf (D4 Ξ) Y e q) := by
    intro Y
    simp only [Gf, sum_range_succ, sum_range_zero, inv2f, detf]
    ring
  have G1 : ∀ Y : Nat → Nat → Nat → α, Gf (D4 Ξ) Y e q m 1 = (Jf (D4 Ξ) Y e q 0 0 * D4 Ξ q m 1 - Jf (D4 Ξ) Y e q 1 0 * D4 Ξ q m 0) / detf (Jf (D4 Ξ) Y e q) := by
    intro Y
    simp only [Gf, sum_range_succ, sum_range_zero, inv2f, detf]
    ring
  rw [G0, G1, G0, G1, h00, h01, h10, h11]
  rw [j00, j01, j10, j11]
  exact push_aux rfl (by rw [detf, j00, j01, j10, j11]) hd hd'

/-- **C96** (moving mesh) For every displacement `u` of the nodes (not only affine ones): `update_x(x + u)` succeeds, it multiplies the volume of
each integration point by the determinant of the deformation gradient `F = I + GradN_vector_T(u)`, and the nodal forces of a Cauchy stress on
the updated mesh are those of the nominal stress `P` (with `F P = det(F) Sig`) on the mesh before the update. -/
theorem C96_planar (hQ : Live 3 thick ne nip Ξ W Q X) (hdet : ∀ e q, e < ne → q < nip → det4 (X e) (Ξ q 0) (Ξ q 1) ≠ 0)
    (σ τ : Sched) {u y : Ten α} {U} (hu : Is3 u ne 4 2 U) (hy : Is3 y ne 4 2 fun e m i => X e m i + U e m i) :
    IsOk (update_x thick τ Q y) fun Q' => ∃ V V' H, Is2 Q.vol ne nip V ∧ Is2 Q'.vol ne nip V' ∧ IsOk (PlanarGradN_vector_T Q σ u) (fun t => Is4 t ne nip 3 3 H) ∧
      (∀ e q, e < ne → q < nip → V' e q = det3 (defGrad (H e q)) * V e q) ∧
      ∀ (sig p : Ten α) S P (ρ υ : Sched), Is4 sig ne nip 3 3 S → Is4 p ne nip 3 3 P →
        (∀ e q, e < ne → q < nip → det3 (defGrad (H e q)) ≠ 0 ∧
          ∀ i j, i < 3 → j < 3 → ∑ k ∈ range 3, defGrad (H e q) i k * P e q k j = det3 (defGrad (H e q)) * S e q i j) →
        ∃ f, IsOk (Int_gradN_dot_tensor2_dV Q' ρ sig) (fun t => Is3 t ne 4 2 f) ∧ IsOk (Int_gradN_dot_tensor2_dV Q υ p) (fun t => Is3 t ne 4 2 f) := by
  obtain ⟨Q', h1⟩ := update_ok hQ τ hy
  have hQ' : Live 3 thick ne nip Ξ W Q' _ := .update hQ hy h1
  have pf := fun (e q : Nat) (he : e < ne) (hq : q < nip) => push_forward (Ξ := Ξ) (X := X) (U := U) (X' := fun e m i => X e m i + U e m i) (e := e) (q := q)
    (fun _ _ _ _ => rfl) (hdet e q he hq)
  have hd3 : ∀ e q, det3 (defGrad fun i j => embed (grad 4 (Gf (D4 Ξ) X) U e q) j i) =
      (1 + grad 4 (Gf (D4 Ξ) X) U e q 0 0) * (1 + grad 4 (Gf (D4 Ξ) X) U e q 1 1) - grad 4 (Gf (D4 Ξ) X) U e q 0 1 * grad 4 (Gf (D4 Ξ) X) U e q 1 0 := by
    intro e q
    simp [det3, defGrad, embed]
    ring
  refine ⟨Q', h1, _, _, _, vol_ok hQ, vol_ok hQ', (planar_grads hQ σ hu).2.1, fun e q he hq => ?_, fun sig p S P ρ υ hs hp hSP => ?_⟩
  · rw [hd3, (pf e q he hq).1]
    ring
  · refine ⟨_, force_live hQ' (by omega) ρ hs (vol_ok hQ'), (force_live hQ (by omega) υ hp (vol_ok hQ)).imp fun t ⟨t1, t2⟩ => ⟨t1, t2.congr fun e m j he hm hj => ?_⟩⟩
    refine sum_congr rfl fun q hq => ?_
    rw [mem_range] at hq
    obtain ⟨d0, hSP⟩ := hSP e q he hq
    obtain ⟨p1, p2⟩ := pf e q he hq
    rw [hd3] at d0
    obtain ⟨p3, p4⟩ := p2 (by rw [p1]; exact mul_ne_zero d0 (hdet e q he hq)) m
    have s0 := hSP 0 j (by omega) (by omega)
    have s1 := hSP 1 j (by omega) (by omega)
    rw [hd3] at s0 s1
    rw [p1]
    simp only [sum_range_succ, sum_range_zero] at s0 s1 ⊢
    rw [p3, p4]
    simp only [defGrad, embed] at s0 s1
    norm_num at s0 s1
    linear_combination (W q * det4 (X e) (Ξ q 0) (Ξ q 1) * thick) * (Gf (D4 Ξ) (fun e m i => X e m i + U e m i) e q m 0 * s0 +
      Gf (D4 Ξ) (fun e m i => X e m i + U e m i) e q m 1 * s1)

/-- **C96** (deformation gradient) for an affine motion `x = F X + b`, `I + GradN_vector_T(x - X)` is `F`; `I + symGradN_vector(x - X)` is the symmetric
part of `F`. -/
theorem C96_gradient (hQ : Live 3 thick ne nip Ξ W Q X) (hdet : ∀ e q, e < ne → q < nip → det4 (X e) (Ξ q 0) (Ξ q 1) ≠ 0)
    (σ : Sched) {u : Ten α} {F : Nat → Nat → α} {b : Nat → α} (hu : Is3 u ne 4 2 fun e m i => b i + ∑ k ∈ range 2, F i k * X e m k - X e m i) :
    IsOk (PlanarGradN_vector_T Q σ u) (fun t => ∃ H, Is4 t ne nip 3 3 H ∧ ∀ e q i j, e < ne → q < nip → i < 2 → j < 2 → defGrad (H e q) i j = F i j) ∧
    IsOk (PlanarSymGradN_vector Q σ u) (fun t => ∃ H, Is4 t ne nip 3 3 H ∧ ∀ e q i j, e < ne → q < nip → i < 2 → j < 2 →
      defGrad (H e q) i j = (F i j + F j i) / 2) := by
  have hA : AffineField 2 4 ne X (fun e m i => b i + ∑ k ∈ range 2, F i k * X e m k - X e m i) (fun i j => F i j - if i = j then 1 else 0) b := by
    intro e m j he hm hj
    beta_reduce
    simp only [sub_mul, sum_sub_distrib, ite_mul, one_mul, zero_mul, sum_ite_eq, mem_range, hj, if_true]
    ring
  obtain ⟨-, ⟨t, t1, t2⟩, ⟨t', t1', t2'⟩⟩ := C50_planar_gradient hQ hdet hu hA σ
  refine ⟨⟨t, t1, _, t2, fun e q i j _ _ hi hj => ?_⟩, ⟨t', t1', _, t2', fun e q i j _ _ hi hj => ?_⟩⟩
  · rw [defGrad, if_pos (c := i < 2 ∧ j < 2) ⟨hi, hj⟩]; ring
  · rw [defGrad, if_pos (c := i < 2 ∧ j < 2) ⟨hi, hj⟩]
    by_cases hij : i = j
    · subst hij; simp only [if_true]; field_simp; ring
    · rw [if_neg hij, if_neg (Ne.symm hij)]; ring

/-- **C96** (rigid rotation) a rotation over an angle with cosine `c` and sine `s`: `GradN_vector_T` gives the rotation, `symGradN_vector` gives the
dilatation `c I`, which is not a rotation unless `c = ±1`: `det F = c²`. The finite-strain example uses the latter. -/
theorem C96_rotation (hQ : Live 3 thick ne nip Ξ W Q X) (hdet : ∀ e q, e < ne → q < nip → det4 (X e) (Ξ q 0) (Ξ q 1) ≠ 0)
    (σ : Sched) {u : Ten α} {c s : α} (h1 : c ^ 2 + s ^ 2 = 1)
    (hu : Is3 u ne 4 2 fun e m i => (if i = 0 then c * X e m 0 - s * X e m 1 else s * X e m 0 + c * X e m 1) - X e m i) :
    IsOk (PlanarGradN_vector_T Q σ u) (fun t => ∃ H, Is4 t ne nip 3 3 H ∧ ∀ e q, e < ne → q < nip → defGrad (H e q) 0 0 = c ∧ defGrad (H e q) 0 1 = -s ∧
      defGrad (H e q) 1 0 = s ∧ defGrad (H e q) 1 1 = c ∧ det3 (defGrad (H e q)) = 1) ∧
    IsOk (PlanarSymGradN_vector Q σ u) (fun t => ∃ H, Is4 t ne nip 3 3 H ∧ ∀ e q, e < ne → q < nip → defGrad (H e q) 0 0 = c ∧ defGrad (H e q) 0 1 = 0 ∧
      defGrad (H e q) 1 0 = 0 ∧ defGrad (H e q) 1 1 = c ∧ det3 (defGrad (H e q)) = c ^ 2) := by
  obtain ⟨⟨t, t1, H, t2, t3⟩, ⟨t', t1', H', t2', t3'⟩⟩ := C96_gradient hQ hdet σ (u := u) (b := fun _ => 0)
    (F := fun i j => if i = j then c else if i = 0 then -s else s) (hu.congr fun e m i _ _ hi => by
      interval_cases i <;> simp [sum_range_succ] <;> ring)
  have z : ∀ H : Nat → Nat → Nat → Nat → α, ∀ t : Ten α, Is4 t ne nip 3 3 H → (∀ e q i j, e < ne → q < nip → ¬ (i < 2 ∧ j < 2) → i < 3 → j < 3 → H e q i j = 0) →
      ∀ e q, e < ne → q < nip → det3 (defGrad (H e q)) = defGrad (H e q) 0 0 * defGrad (H e q) 1 1 - defGrad (H e q) 0 1 * defGrad (H e q) 1 0 := by
    intro H t _ h0 e q he hq
    have a : defGrad (H e q) 2 2 = 1 := by simp [defGrad, h0 e q 2 2 he hq (by omega) (by omega) (by omega)]
    have b : defGrad (H e q) 1 2 = 0 := by simp [defGrad, h0 e q 1 2 he hq (by omega) (by omega) (by omega)]
    have c : defGrad (H e q) 0 2 = 0 := by simp [defGrad, h0 e q 0 2 he hq (by omega) (by omega) (by omega)]
    rw [det3, a, b, c]
    ring
  obtain ⟨-, ⟨w, w1, w2⟩, ⟨w', w1', w2'⟩⟩ := planar_grads hQ σ hu
  obtain rfl : t = w := by rw [t1] at w1; injection w1
  obtain rfl : t' = w' := by rw [t1'] at w1'; injection w1'
  refine ⟨⟨t, t1, H, t2, fun e q he hq => ?_⟩, ⟨t', t1', H', t2', fun e q he hq => ?_⟩⟩
  · rw [z H t t2 (fun e q i j he hq hij hi hj => by
      rw [t2.unique w2 he hq hi hj]
      exact if_neg fun h => hij ⟨h.2, h.1⟩) e q he hq]
    rw [t3 e q 0 0 he hq (by omega) (by omega), t3 e q 0 1 he hq (by omega) (by omega), t3 e q 1 0 he hq (by omega) (by omega), t3 e q 1 1 he hq (by omega) (by omega)]
    simp
    rw [← h1]
    ring
  · rw [z H' t' t2' (fun e q i j he hq hij hi hj => by
      rw [t2'.unique w2' he hq hi hj]
      exact if_neg hij) e q he hq]
    rw [t3' e q 0 0 he hq (by omega) (by omega), t3' e q 0 1 he hq (by omega) (by omega), t3' e q 1 0 he hq (by omega) (by omega), t3' e q 1 1 he hq (by omega) (by omega)]
    simp
    ring

/-- the hypotheses can be met: two elements, also a displacement that is not affine, and a rotation with cosine 3/5 -/
example : ∃ (Q : Quadrature ℚ) (y u r : Ten ℚ), Live 3 3 2 4 exΞ (fun _ => 1) Q exX ∧
    (∀ e q, e < 2 → q < 4 → det4 (exX e) (exΞ q 0) (exΞ q 1) ≠ 0) ∧ Is3 u 2 4 2 (fun e m i => if m = 2 ∧ i = 0 then (e : ℚ) + 1 else 0) ∧
    Is3 y 2 4 2 (fun e m i => exX e m i + if m = 2 ∧ i = 0 then (e : ℚ) + 1 else 0) ∧ ((3 : ℚ) / 5) ^ 2 + (4 / 5) ^ 2 = 1 ∧
    Is3 r 2 4 2 fun e m i => (if i = 0 then 3 / 5 * exX e m 0 - 4 / 5 * exX e m 1 else 4 / 5 * exX e m 0 + 3 / 5 * exX e m 1) - exX e m i := by
  obtain ⟨Q, hQ⟩ := exPlanar
  refine ⟨Q, _, _, _, hQ, ?_, is3_of 2 4 2 fun ix => if ix.getD 1 0 = 2 ∧ ix.getD 2 0 = 0 then ((ix.getD 0 0 : Nat) : ℚ) + 1 else 0,
    is3_of 2 4 2 fun ix => exX (ix.getD 0 0) (ix.getD 1 0) (ix.getD 2 0) + if ix.getD 1 0 = 2 ∧ ix.getD 2 0 = 0 then ((ix.getD 0 0 : Nat) : ℚ) + 1 else 0,
    by norm_num, is3_of 2 4 2 fun ix => (if ix.getD 2 0 = 0 then 3 / 5 * exX (ix.getD 0 0) (ix.getD 1 0) 0 - 4 / 5 * exX (ix.getD 0 0) (ix.getD 1 0) 1 else
      4 / 5 * exX (ix.getD 0 0) (ix.getD 1 0) 0 + 3 / 5 * exX (ix.getD 0 0) (ix.getD 1 0) 1) - exX (ix.getD 0 0) (ix.getD 1 0) (ix.getD 2 0)⟩
  obtain ⟨-, -, hd⟩ := exLive
  exact hd

end GF.Element.Quad4
