import Verif.Spec.Dynamics
import Verif.Lemmas.CellWork
import Verif.Props.MatrixDiagonal
import Mathlib.Tactic.LinearCombination

/-! The program of docs/examples/dynamics as a map on functions. -/

namespace GF
open Finset ElemSpec Element Element.Quad4

variable {α : Type}

theorem nodeExpr_ok (f : α → α → α → α) {a b c : Ten α} {n m : Nat} {A B C : Nat → Nat → α} (ha : Is2 a n m A) (hb : Is2 b n m B)
    (hc : Is2 c n m C) : ∃ t, nodeExpr f a b c = .ok t ∧ Is2 t n m fun i j => f (A i j) (B i j) (C i j) := by
  obtain ⟨t, h1, h2⟩ := Vector.gather2 (it2 n m) (fun (r : Ten α) k => do
    let x ← a.get [k.1, k.2]
    let y ← b.get [k.1, k.2]
    let z ← c.get [k.1, k.2]
    r.set [k.1, k.2] (f x y z)) n m (Ten.empty [n, m]) rfl (fun i j => f (A i j) (B i j) (C i j)) (by simp) (by
      intro i j hi hj s
      simp only [ha.get hi hj, hb.get hi hj, hc.get hi hj, Res.ok_bind])
  refine ⟨t, ?_, h2⟩
  rw [nodeExpr, ha.1]
  simp only [hb.1, hc.1, and_self, if_true]
  exact h1

variable [Field α]

/-- the lumped mass of DOF `k`; `x m i` are the positions of the nodes -/
def lumped (x : Nat → Nat → α) (ne : Nat) (c d : Nat → Nat → Nat) (R : Nat → Nat → α) (k : Nat) : α :=
  ∑ e ∈ range ne, ∑ m ∈ range 4, ∑ i ∈ range 2, if d (c e m) i = k then
    R e m * det4 (fun m i => x (c e m) i) (1 * corner4 m 0) (1 * corner4 m 1) else 0

/-- shape function gradients and volumes of the Gauss points -/
def dynG (s : α) (x : Nat → Nat → α) (c : Nat → Nat → Nat) : Nat → Nat → Nat → Nat → α :=
  Gf (D4 fun q i => s * corner4 q i) fun e m i => x (c e m) i

def dynVol (s : α) (x : Nat → Nat → α) (c : Nat → Nat → Nat) (e q : Nat) : α :=
  det4 (fun m i => x (c e m) i) (s * corner4 q 0) (s * corner4 q 1)

/-- strain of a node vector -/
def strainOf (G : Nat → Nat → Nat → Nat → α) (c : Nat → Nat → Nat) (U : Nat → Nat → α) (e q : Nat) : Nat → Nat → α :=
  symf (grad 4 G (fun e m i => U (c e m) i) e q)

/-- assembled internal force -/
def forceOf (ne : Nat) (c d : Nat → Nat → Nat) (G : Nat → Nat → Nat → Nat → α) (vol : Nat → Nat → α) (S : Nat → Nat → Nat → Nat → α) (k : Nat) : α :=
  ∑ e ∈ range ne, ∑ m ∈ range 4, ∑ i ∈ range 2, if d (c e m) i = k then
    ∑ q ∈ range 4, (∑ j ∈ range 2, G e q m j * S e q j i) * vol e q else 0

/-- state of the objects -/
structure Dynamics.State (D : Dynamics α) (nn ne : Nat) (c d : Nat → Nat → Nat) (x : Nat → Nat → α) (s : α) : Prop where
  vec : D.vector.Holds c d
  dims : D.vector.nelem = ne ∧ D.vector.nne = 4 ∧ D.vector.nnode = nn ∧ D.vector.ndim = 2
  live : Live 2 1 ne 4 (fun q i => s * corner4 q i) (fun _ => 1) D.quad (fun e m i => x (c e m) i)

/-- state of the motion: node displacements `U`, velocities and accelerations `V`, `A` of the DOFs -/
structure Motion.Is (S : Motion α) (D : Dynamics α) (nn ne : Nat) (c d : Nat → Nat → Nat) (mass : Nat → α) (U : Nat → Nat → α) (V A : Nat → α) :
    Prop where
  u : Is2 S.u nn 2 U
  v : Is2 S.v nn 2 fun m i => V (d m i)
  a : Is2 S.a nn 2 fun m i => A (d m i)
  M : S.M.Holds c d (some mass)
  same : S.M.V = D.vector
  strains : ∀ t ∈ S.strains, ∃ E, Is4 t ne 4 2 2 E

section
variable [CharZero α]
variable {D : Dynamics α} {nn ne : Nat} {c d : Nat → Nat → Nat} {x : Nat → Nat → α} {s : α} {mass : Nat → α}

theorem Dynamics.State.volume (h : D.State nn ne c d x s) : Is2 D.quad.vol ne 4 (dynVol s x c) :=
  (C46_volume h.live).congr fun _ _ _ _ => one_mul _

theorem Dynamics.State.strain_ok (h : D.State nn ne c d x s) (σ τ : Sched) {u : Ten α} {U : Nat → Nat → α} (hu : Is2 u nn 2 U) :
    ∃ t, D.strain σ τ u = .ok t ∧ Is4 t ne 4 2 2 (strainOf (dynG s x c) c U) := by
  obtain ⟨e1, e2, e3, e4⟩ := h.dims
  obtain ⟨ue, u1, u2⟩ := C03_element_of_node h.vec σ (x := u) (g := U) (by rw [e3, e4]; exact hu)
  rw [e1, e2, e4] at u2
  have hq := (live_holds h.live).1
  obtain ⟨-, -, ⟨t, t1, t2, t3, -⟩⟩ := grads_ok hq (le_refl 2) τ u2 (Ten.empty (D.quad.shape_qtensor 2)) (by
      simp [Ten.empty, Quadrature.shape_qtensor, hq.ne_eq, hq.nip_eq, hq.td_eq])
  refine ⟨t, ?_, t2, t3⟩
  rw [Dynamics.strain, u1, Res.ok_bind]
  exact t1

theorem Dynamics.State.force_ok (h : D.State nn ne c d x s) (σ τ : Sched) {sig : Ten α} {S} (hs : Is4 sig ne 4 2 2 S) :
    ∃ fe t, Int_gradN_dot_tensor2_dV D.quad σ sig = .ok fe ∧ D.vector.AssembleNode τ fe = .ok t ∧
      Is2 t nn 2 fun m i => forceOf ne c d (dynG s x c) (dynVol s x c) S (d m i) := by
  obtain ⟨e1, e2, e3, e4⟩ := h.dims
  obtain ⟨fe, f1, f2⟩ := force_live h.live (le_refl 2) σ hs h.volume
  obtain ⟨t, t1, t2⟩ := C06_assembleNode h.vec τ (x := fe) (by rw [e1, e2, e4]; exact f2)
  rw [e1, e2, e3, e4] at t2
  exact ⟨fe, t, f1, t1, t2⟩

/-- one increment -/
theorem Dynamics.State.step_ok (h : D.State nn ne c d x s) (dt : α) {material : List (Ten α) → Res (Ten α)} {fext : Ten α} {B : Nat → α}
    (hf : Is2 fext nn 2 fun m i => B (d m i)) (σ : Nat → Sched) {S : Motion α} {U : Nat → Nat → α} {V A : Nat → α}
    (hS : S.Is D nn ne c d mass U V A) {P : (Nat → Nat → Nat → Nat → α) → Prop}
    (hm : ∀ t, Is4 t ne 4 2 2 (strainOf (dynG s x c) c fun m i => U m i + dt * V (d m i) + 1 / 2 * dt ^ 2 * A (d m i)) →
      IsOk (material (t :: S.strains)) fun t => ∃ T, Is4 t ne 4 2 2 T ∧ P T) :
    ∃ S' T, D.step dt material fext σ S = .ok S' ∧ P T ∧ S'.M.A = S.M.A ∧
      S'.Is D nn ne c d mass (fun m i => U m i + dt * V (d m i) + 1 / 2 * dt ^ 2 * A (d m i))
        (fun k => V k + 1 / 2 * dt * (A k + (B k - forceOf ne c d (dynG s x c) (dynVol s x c) T k) / mass k))
        (fun k => (B k - forceOf ne c d (dynG s x c) (dynVol s x c) T k) / mass k) := by
  obtain ⟨e1, e2, e3, e4⟩ := h.dims
  obtain ⟨u, u1, u2⟩ := nodeExpr_ok (fun u v a => u + dt * v + 1 / 2 * dt ^ 2 * a) hS.u hS.v hS.a
  obtain ⟨t, t1, t2⟩ := h.strain_ok (σ 0) (σ 1) u2
  obtain ⟨sig, s1, T, s2, hP⟩ := hm t t2
  obtain ⟨fe, fi, f1, f2, f3⟩ := h.force_ok (σ 2) (σ 3) s2
  obtain ⟨fr, r1, r2⟩ := nodeExpr_ok (fun f g _ => f - g) hf f3 f3
  obtain ⟨M', a, a1, a2, a3, a4, a5⟩ := MatrixDiagonal.solve_nodevec_spec hS.M (fun i => σ (4 + i)) (b := fr)
    (g := fun m i => B (d m i) - forceOf ne c d (dynG s x c) (dynVol s x c) T (d m i)) (by rw [hS.same, e3, e4]; exact r2)
  rw [hS.same, e3, e4] at a5
  obtain ⟨v, v1, v2⟩ := nodeExpr_ok (fun v a a' => v + 1 / 2 * dt * (a + a')) hS.v hS.a a5
  refine ⟨⟨u, v, a, M', t :: S.strains⟩, T, ?_, hP, a3, u2, v2, a5, a4, a2.trans hS.same, fun t' ht' => ?_⟩
  · simp only [Dynamics.step, Dynamics.stepWith, u1, t1, s1, f1, f2, r1, a1, v1, Res.ok_bind]
    rfl
  · rcases List.mem_cons.1 ht' with rfl | ht'
    · exact ⟨_, t2⟩
    · exact hS.strains _ ht'

end

section
variable {nn ne : Nat} {c d : Nat → Nat → Nat}

/-- the sum over the DOFs of one component of assembled values -/
theorem comp_sum (hc : ∀ e m, e < ne → m < 4 → c e m < nn) (hsep : ∀ m m', m < nn → m' < nn → d m 0 ≠ d m' 1) {i : Nat} (hi : i < 2)
    (F : Nat → Nat → Nat → α) :
    ∑ k ∈ compDofs nn d i, ∑ e ∈ range ne, ∑ m ∈ range 4, ∑ j ∈ range 2, (if d (c e m) j = k then F e m j else 0) =
      ∑ e ∈ range ne, ∑ m ∈ range 4, F e m i := by
  rw [sum_comm]
  refine sum_congr rfl fun e he => ?_
  rw [sum_comm]
  refine sum_congr rfl fun m hm => ?_
  rw [sum_comm]
  rw [mem_range] at he hm
  have hcm := hc e m he hm
  have key : ∀ j, j < 2 → (d (c e m) j ∈ compDofs nn d i ↔ j = i) := by
    intro j hj
    constructor
    · intro h
      obtain ⟨m', hm', e'⟩ := mem_image.1 h
      rw [mem_range] at hm'
      by_contra hne
      have : (i = 0 ∧ j = 1) ∨ (i = 1 ∧ j = 0) := by omega
      rcases this with ⟨rfl, rfl⟩ | ⟨rfl, rfl⟩
      · exact hsep _ _ hm' hcm e'
      · exact hsep _ _ hcm hm' e'.symm
    · rintro rfl
      exact mem_image.2 ⟨_, mem_range.2 hcm, rfl⟩
  simp only [sum_ite_eq]
  rw [sum_eq_single i]
  · rw [if_pos ((key i hi).2 rfl)]
  · intro j hj hne
    rw [if_neg fun hmem => hne ((key j (mem_range.1 hj)).1 hmem)]
  · intro hn
    exact absurd (mem_range.2 hi) hn

end
end GF
