import Verif.Spec.DynamicsAxi
import Verif.Lemmas.Dynamics
import Verif.Props.ElementAxi

/-! The axisymmetric time integration as a map on functions, compare Lemmas/Dynamics. -/

namespace GF
open Finset ElemSpec Element Element.Quad4

variable {α : Type} [Field α]

/-- volume of the nodal integration points: the part `det` of the area that belongs to the node, swept around the axis -/
def nodalVolA (pi : α) (x : Nat → Nat → α) (c : Nat → Nat → Nat) (e m : Nat) : α :=
  det4 (fun m i => x (c e m) i) (corner4 m 0) (corner4 m 1) * (2 * pi * x (c e m) 1)

/-- the lumped mass of DOF `k`; `x m i` are the positions of the nodes -/
def lumpedA (pi : α) (x : Nat → Nat → α) (ne : Nat) (c d : Nat → Nat → Nat) (R : Nat → Nat → α) (k : Nat) : α :=
  ∑ e ∈ range ne, ∑ m ∈ range 4, ∑ i ∈ range 2, if d (c e m) i = k then
    R e m * nodalVolA pi x c e m else 0

/-- coefficients of the gradient components and volumes of the Gauss points -/
def dynB (s : α) (x : Nat → Nat → α) (c : Nat → Nat → Nat) : Nat → Nat → Nat → Nat → α :=
  Axi.bX (Axi.NΞ fun q i => s * corner4 q i) (D4 fun q i => s * corner4 q i) fun e m i => x (c e m) i

def dynVolA (pi s : α) (x : Nat → Nat → α) (c : Nat → Nat → Nat) (e q : Nat) : α :=
  Axi.Vf pi (fun _ => 1) (Axi.NΞ fun q i => s * corner4 q i) (D4 fun q i => s * corner4 q i) (fun e m i => x (c e m) i) e q

/-- strain of a node vector -/
def strainOfA (b : Nat → Nat → Nat → Nat → α) (c : Nat → Nat → Nat) (U : Nat → Nat → α) (e q : Nat) : Nat → Nat → α :=
  Axi.sym3 (Axi.gA b (fun e m i => U (c e m) i) e q)

/-- assembled internal force -/
def forceOfA (ne : Nat) (c d : Nat → Nat → Nat) (b : Nat → Nat → Nat → Nat → α) (vol : Nat → Nat → α) (S : Nat → Nat → Nat → Nat → α) (k : Nat) : α :=
  ∑ e ∈ range ne, ∑ m ∈ range 4, ∑ i ∈ range 2, if d (c e m) i = k then
    ∑ q ∈ range 4, (∑ a ∈ range 5, if Axi.dof a = i then b a e q m * S e q (Axi.ci a) (Axi.cj a) else 0) * vol e q else 0

/-- state of the objects -/
structure DynamicsAxi.State (D : DynamicsAxi α) (nn ne : Nat) (c d : Nat → Nat → Nat) (x : Nat → Nat → α) (pi s : α) : Prop where
  vec : D.vector.Holds c d
  dims : D.vector.nelem = ne ∧ D.vector.nne = 4 ∧ D.vector.nnode = nn ∧ D.vector.ndim = 2
  live : Axi.Live pi ne 4 (fun q i => s * corner4 q i) (fun _ => 1) D.quad (fun e m i => x (c e m) i)

/-- state of the motion: node displacements `U`, velocities and accelerations `V`, `A` of the DOFs -/
structure Motion.IsAxi (S : Motion α) (D : DynamicsAxi α) (nn ne : Nat) (c d : Nat → Nat → Nat) (mass : Nat → α) (U : Nat → Nat → α) (V A : Nat → α) :
    Prop where
  u : Is2 S.u nn 2 U
  v : Is2 S.v nn 2 fun m i => V (d m i)
  a : Is2 S.a nn 2 fun m i => A (d m i)
  M : S.M.Holds c d (some mass)
  same : S.M.V = D.vector
  strains : ∀ t ∈ S.strains, ∃ E, Is4 t ne 4 3 3 E

section
variable [CharZero α]
variable {D : DynamicsAxi α} {nn ne : Nat} {c d : Nat → Nat → Nat} {x : Nat → Nat → α} {pi s : α} {mass : Nat → α}

theorem DynamicsAxi.State.volume (h : D.State nn ne c d x pi s) : Is2 D.quad.vol ne 4 (dynVolA pi s x c) :=
  (Axi.live_holds h.live).1.V_is

theorem DynamicsAxi.State.strain_ok (h : D.State nn ne c d x pi s) (σ τ : Sched) {u : Ten α} {U : Nat → Nat → α} (hu : Is2 u nn 2 U) :
    ∃ t, D.strain σ τ u = .ok t ∧ Is4 t ne 4 3 3 (strainOfA (dynB s x c) c U) := by
  obtain ⟨e1, e2, e3, e4⟩ := h.dims
  obtain ⟨ue, u1, u2⟩ := C03_element_of_node h.vec σ (x := u) (g := U) (by rw [e3, e4]; exact hu)
  rw [e1, e2, e4] at u2
  obtain ⟨-, -, ⟨t, t1, t2⟩⟩ := Axi.grads_ok (Axi.live_holds h.live).1 τ u2
  refine ⟨t, ?_, t2⟩
  rw [DynamicsAxi.strain, u1, Res.ok_bind]
  exact t1

theorem DynamicsAxi.State.force_ok (h : D.State nn ne c d x pi s) (σ τ : Sched) {sig : Ten α} {S} (hs : Is4 sig ne 4 3 3 S) :
    ∃ fe t, Axi.Int_gradN_dot_tensor2_dV D.quad σ sig = .ok fe ∧ D.vector.AssembleNode τ fe = .ok t ∧
      Is2 t nn 2 fun m i => forceOfA ne c d (dynB s x c) (dynVolA pi s x c) S (d m i) := by
  obtain ⟨e1, e2, e3, e4⟩ := h.dims
  obtain ⟨fe, f1, f2⟩ := Axi.force_ok (Axi.live_holds h.live).1 σ hs
  obtain ⟨t, t1, t2⟩ := C06_assembleNode h.vec τ (x := fe) (by rw [e1, e2, e4]; exact f2)
  rw [e1, e2, e3, e4] at t2
  exact ⟨fe, t, f1, t1, t2⟩

/-- one increment -/
theorem DynamicsAxi.State.step_ok (h : D.State nn ne c d x pi s) (dt : α) {material : List (Ten α) → Res (Ten α)} {fext : Ten α} {B : Nat → α}
    (hf : Is2 fext nn 2 fun m i => B (d m i)) (σ : Nat → Sched) {S : Motion α} {U : Nat → Nat → α} {V A : Nat → α}
    (hS : S.IsAxi D nn ne c d mass U V A) {P : (Nat → Nat → Nat → Nat → α) → Prop}
    (hm : ∀ t, Is4 t ne 4 3 3 (strainOfA (dynB s x c) c fun m i => U m i + dt * V (d m i) + 1 / 2 * dt ^ 2 * A (d m i)) →
      IsOk (material (t :: S.strains)) fun t => ∃ T, Is4 t ne 4 3 3 T ∧ P T) :
    ∃ S' T, D.step dt material fext σ S = .ok S' ∧ P T ∧ S'.M.A = S.M.A ∧
      S'.IsAxi D nn ne c d mass (fun m i => U m i + dt * V (d m i) + 1 / 2 * dt ^ 2 * A (d m i))
        (fun k => V k + 1 / 2 * dt * (A k + (B k - forceOfA ne c d (dynB s x c) (dynVolA pi s x c) T k) / mass k))
        (fun k => (B k - forceOfA ne c d (dynB s x c) (dynVolA pi s x c) T k) / mass k) := by
  obtain ⟨e1, e2, e3, e4⟩ := h.dims
  obtain ⟨u, u1, u2⟩ := nodeExpr_ok (fun u v a => u + dt * v + 1 / 2 * dt ^ 2 * a) hS.u hS.v hS.a
  obtain ⟨t, t1, t2⟩ := h.strain_ok (σ 0) (σ 1) u2
  obtain ⟨sig, s1, T, s2, hP⟩ := hm t t2
  obtain ⟨fe, fi, f1, f2, f3⟩ := h.force_ok (σ 2) (σ 3) s2
  obtain ⟨fr, r1, r2⟩ := nodeExpr_ok (fun f g _ => f - g) hf f3 f3
  obtain ⟨M', a, a1, a2, a3, a4, a5⟩ := MatrixDiagonal.solve_nodevec_spec hS.M (fun i => σ (4 + i)) (b := fr)
    (g := fun m i => B (d m i) - forceOfA ne c d (dynB s x c) (dynVolA pi s x c) T (d m i)) (by rw [hS.same, e3, e4]; exact r2)
  rw [hS.same, e3, e4] at a5
  obtain ⟨v, v1, v2⟩ := nodeExpr_ok (fun v a a' => v + 1 / 2 * dt * (a + a')) hS.v hS.a a5
  refine ⟨⟨u, v, a, M', t :: S.strains⟩, T, ?_, hP, a3, u2, v2, a5, a4, a2.trans hS.same, fun t' ht' => ?_⟩
  · simp only [DynamicsAxi.step, u1, t1, s1, f1, f2, r1, a1, v1, Res.ok_bind]
    rfl
  · rcases List.mem_cons.1 ht' with rfl | ht'
    · exact ⟨_, t2⟩
    · exact hS.strains _ ht'

end

end GF
