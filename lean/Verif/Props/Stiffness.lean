import Verif.Props.Patch
import Verif.Props.Matrix
import Verif.Props.MatrixPartitioned

/-! **C75** The assembled stiffness matrix is the linearisation of the assembled internal force. -/

namespace GF
open Finset ElemSpec Element Element.Quad4

section
variable {α : Type} {c d : Nat → Nat → Nat}

theorem Is1.unique {t : Ten α} {n : Nat} {f g : Nat → α} (hf : Is1 t n f) (hg : Is1 t n g) {i : Nat} (hi : i < n) :
    f i = g i := Option.some.inj ((hf.2 i hi).symm.trans (hg.2 i hi))

/-- product of the assembled matrix with a vector of DOFs -/
theorem assembled_mul [CommSemiring α] {V : Vector} (hV : V.Holds c d) (k : Nat → Nat → Nat → α) (f : Nat → α) (r : Nat) :
    ∑ s ∈ range V.ndof, SMatrix.assembled V c d k r s * f s =
      ∑ e ∈ range V.nelem, ∑ m ∈ range V.nne, ∑ i ∈ range V.ndim, if d (c e m) i = r then
        ∑ n ∈ range V.nne, ∑ j ∈ range V.ndim, k e (m * V.ndim + i) (n * V.ndim + j) * f (d (c e n) j) else 0 := by
  simp only [SMatrix.assembled, Finset.sum_mul]
  rw [Finset.sum_comm]
  refine Finset.sum_congr rfl fun e he => ?_
  rw [Finset.sum_comm]
  refine Finset.sum_congr rfl fun m hm => ?_
  rw [Finset.sum_comm]
  refine Finset.sum_congr rfl fun i hi => ?_
  by_cases h : d (c e m) i = r
  · simp only [h, true_and, if_true]
    rw [Finset.sum_comm]
    refine Finset.sum_congr rfl fun n hn => ?_
    rw [Finset.sum_comm]
    refine Finset.sum_congr rfl fun j hj => ?_
    simp only [mem_range] at he hn hj
    exact sum_fibre _ _ _ (hV.dofs_lt _ _ (hV.conn_lt e n he hn) hj) _
  · simp [h]

/-- assembly preserves symmetry -/
theorem assembled_symm [AddCommMonoid α] {V : Vector} (k : Nat → Nat → Nat → α)
    (hk : ∀ e a b, e < V.nelem → a < V.nne * V.ndim → b < V.nne * V.ndim → k e a b = k e b a) (r s : Nat) :
    SMatrix.assembled V c d k r s = SMatrix.assembled V c d k s r := by
  simp only [SMatrix.assembled]
  refine Finset.sum_congr rfl fun e he => ?_
  have e1 : ∀ (F : Nat → Nat → Nat → Nat → α), ∑ m ∈ range V.nne, ∑ i ∈ range V.ndim, ∑ n ∈ range V.nne, ∑ j ∈ range V.ndim, F m i n j =
      ∑ n ∈ range V.nne, ∑ j ∈ range V.ndim, ∑ m ∈ range V.nne, ∑ i ∈ range V.ndim, F m i n j := by
    intro F
    rw [sum_congr rfl fun m _ => sum_comm, sum_comm]
    refine sum_congr rfl fun n _ => ?_
    rw [sum_congr rfl fun m _ => sum_comm, sum_comm]
  rw [e1]
  refine sum_congr rfl fun m hm => sum_congr rfl fun i hi => sum_congr rfl fun n hn => sum_congr rfl fun j hj => ?_
  rw [mem_range] at he hm hi hn hj
  rw [hk e _ _ he (grid_lt hn hj) (grid_lt hm hi)]
  simp only [and_comm]

end

variable {α : Type} [Field α] [CharZero α] {c d : Nat → Nat → Nat}
variable {nip : Nat} {Ξ : Nat → Nat → α} {W : Nat → α} {Q : Quadrature α} {X : Nat → Nat → Nat → α}

/-- **C75** (tangent) for a linear relation `σ = C : grad u` between stress and gradient of the displacement, the product of
the assembled stiffness with the displacements is the assembled internal force -/
theorem C75_tangent {M : SMatrix α} {D : Nat → Nat → α} (hM : M.Holds c d D) (e1 : M.V.nne = 4) (e2 : M.V.ndim = 2)
    (hQ : Live 2 1 M.V.nelem nip Ξ W Q X) (σ τ ρ υ : Sched) {Ct u sig : Ten α} {C f g S}
    (hC : Is6 Ct M.V.nelem nip 2 2 2 2 C) (hu : Is1 u M.V.ndof f)
    (hg : IsOk (gradient σ τ M.V Q u) fun t => Is4 t M.V.nelem nip 2 2 g)
    (hs : Is4 sig M.V.nelem nip 2 2 S)
    (hS : ∀ e q i j, e < M.V.nelem → q < nip → i < 2 → j < 2 → S e q i j = ddot 2 (C e q) (g e q) i j) :
    ∃ F, IsOk (stiffnessDot ρ M Q Ct u) (fun t => Is1 t M.V.ndof F) ∧
      IsOk (internalForce υ M.V Q sig) (fun t => Is1 t M.V.ndof F) := by
  obtain ⟨ue, u1, u2⟩ := C03_element_of_dofs hM.base σ hu
  rw [gradient, u1, Res.ok_bind] at hg
  rw [e1, e2] at u2
  obtain ⟨K, F, ⟨kt, k1, k2⟩, ⟨ft, f1, f2⟩, h3, -⟩ := C49_stiffness hQ ρ τ υ hC u2 hg hs hS
  obtain ⟨M', b, m1, m2, m3⟩ := C17_dot_assembled hM (K := kt) (k := K) (by rw [e1, e2]; exact k2) hu
  obtain ⟨y, y1, y2⟩ := C04_assemble_element hM.base (x := ft) (g := F) (by rw [e1, e2]; exact f2)
  refine ⟨_, ⟨b, by simp only [stiffnessDot, k1, m1, m2, Res.ok_bind], m3⟩, y, by simp only [internalForce, f1, y1, Res.ok_bind],
    y2.congr fun r _ => ?_⟩
  refine sum_congr rfl fun e he => sum_congr rfl fun m hm => sum_congr rfl fun i hi => ?_
  rw [mem_range] at he hm hi
  split
  · rw [e1, e2]
    exact (h3 e m i he (by omega) (by omega)).symm
  · rfl

/-- **C75** (symmetry) the assembled stiffness is symmetric if the tangent has major and minor symmetry -/
theorem C75_symmetric {M : SMatrix α} {D : Nat → Nat → α} (hM : M.Holds c d D) (e1 : M.V.nne = 4) (e2 : M.V.ndim = 2)
    (hQ : Live 2 1 M.V.nelem nip Ξ W Q X) (ρ : Sched) {Ct : Ten α} {C} (hC : Is6 Ct M.V.nelem nip 2 2 2 2 C)
    (major : ∀ e q i j k l, e < M.V.nelem → q < nip → i < 2 → j < 2 → k < 2 → l < 2 → C e q i j k l = C e q k l i j)
    (left : ∀ e q i j k l, e < M.V.nelem → q < nip → i < 2 → j < 2 → k < 2 → l < 2 → C e q i j k l = C e q j i k l)
    (right : ∀ e q i j k l, e < M.V.nelem → q < nip → i < 2 → j < 2 → k < 2 → l < 2 → C e q i j k l = C e q i j l k) :
    IsOk (do let K ← Q.Int_gradN_dot_tensor4_dot_gradNT_dV ρ Ct; let M ← M.assemble K; M.todense) fun t =>
      ∃ A, Is2 t M.V.ndof M.V.ndof A ∧ ∀ r s, r < M.V.ndof → s < M.V.ndof → A r s = A s r := by
  have hV := (live_holds hQ).1.V_is
  obtain ⟨kt, k1, K, k2, k3⟩ := stiff_live hQ (le_refl 2) ρ hC hV
  have hL : StiffLaws 4 2 M.V.nelem nip C K := stiffLaws k3 fun e q i _ _ _ => G_sum _ _ _ _ _
  have hsym := C49_symmetry hL major left right
  obtain ⟨M', y, m1, -, m2, m3⟩ := C15_assemble hM (K := kt) (k := K) (by rw [e1, e2]; exact k2)
  exact ⟨y, by simp only [k1, m1, m2, Res.ok_bind], _, m3, fun r s _ _ => assembled_symm K (by rw [e1, e2]; exact hsym) r s⟩

/-- **C75** (rigid motions) a translation of all nodes gives no force; an infinitesimal rotation neither if the tangent has
minor symmetry -/
theorem C75_rigid {M : SMatrix α} {D : Nat → Nat → α} (hM : M.Holds c d D) (e1 : M.V.nne = 4) (e2 : M.V.ndim = 2) {x : Nat → Nat → α}
    (hQ : Live 2 1 M.V.nelem nip Ξ W Q (fun e m i => x (c e m) i)) (ρ : Sched) {Ct u : Ten α} {C f}
    (hdet : ∀ e q, e < M.V.nelem → q < nip → det4 (fun m i => x (c e m) i) (Ξ q 0) (Ξ q 1) ≠ 0)
    (hC : Is6 Ct M.V.nelem nip 2 2 2 2 C) (hu : Is1 u M.V.ndof f) (θ b₀ b₁ : α)
    (hf : ∀ m, m < M.V.nnode → f (d m 0) = b₀ - θ * x m 1 ∧ f (d m 1) = b₁ + θ * x m 0)
    (right : θ = 0 ∨ ∀ e q i j k l, e < M.V.nelem → q < nip → i < 2 → j < 2 → k < 2 → l < 2 → C e q i j k l = C e q i j l k) :
    IsOk (stiffnessDot ρ M Q Ct u) fun t => Is1 t M.V.ndof (fun _ => 0) := by
  have hV := hM.base
  have key : ∃ K, IsOk (Q.Int_gradN_dot_tensor4_dot_gradNT_dV ρ Ct) (fun t => Is3 t M.V.nelem 8 8 K) ∧
      ∀ e m j, e < M.V.nelem → m < 4 → j < 2 →
        ∑ n ∈ range 4, (K e (m * 2 + j) (n * 2 + 0) * (b₀ - θ * x (c e n) 1) +
          K e (m * 2 + j) (n * 2 + 1) * (b₁ + θ * x (c e n) 0)) = 0 := by
    rcases right with rfl | right
    · obtain ⟨kt, k1, K, k2, k3⟩ := stiff_live hQ (le_refl 2) ρ hC (live_holds hQ).1.V_is
      have hL : StiffLaws 4 2 M.V.nelem nip C K := stiffLaws k3 fun e q i _ _ _ => G_sum _ _ _ _ _
      refine ⟨K, ⟨kt, k1, k2⟩, fun e m j he hm hj => ?_⟩
      simp only [zero_mul, sub_zero, add_zero]
      rw [sum_add_distrib, ← sum_mul, ← sum_mul]
      have := hL.translation e (m * 2 + j) 0 he (by omega) (by omega)
      simp only [add_zero] at this
      rw [this, hL.translation e (m * 2 + j) 1 he (by omega) (by omega)]
      simp
    · obtain ⟨K, h1, h2⟩ := C49_rotation hQ ρ hC hdet right
      exact ⟨K, h1, h2 θ b₀ b₁⟩
  obtain ⟨K, ⟨kt, k1, k2⟩, h3⟩ := key
  obtain ⟨M', b, m1, m2, m3⟩ := C17_dot_assembled hM (K := kt) (k := K) (by rw [e1, e2]; exact k2) hu
  refine ⟨b, by simp only [stiffnessDot, k1, m1, m2, Res.ok_bind], m3.congr fun r _ => ?_⟩
  refine sum_eq_zero fun e he => sum_eq_zero fun m hm => sum_eq_zero fun i hi => ?_
  rw [mem_range] at he hm hi
  split
  · rw [e1, e2, ← h3 e m i he (by omega) (by omega)]
    refine sum_congr rfl fun n hn => ?_
    rw [mem_range] at hn
    have := hf (c e n) (hV.conn_lt e n he (by omega))
    rw [sum_range_succ, sum_range_succ, sum_range_zero, zero_add, this.1, this.2]
  · rfl

/-- **C75** (energy) the quadratic form of the assembled stiffness is the integral of the work of the stress -/
theorem C75_energy {M : SMatrix α} {D : Nat → Nat → α} (hM : M.Holds c d D) (e1 : M.V.nne = 4) (e2 : M.V.ndim = 2)
    (hQ : Live 2 1 M.V.nelem nip Ξ W Q X) (σ τ ρ : Sched) {Ct u : Ten α} {C f g}
    (hC : Is6 Ct M.V.nelem nip 2 2 2 2 C) (hu : Is1 u M.V.ndof f)
    (hg : IsOk (gradient σ τ M.V Q u) fun t => Is4 t M.V.nelem nip 2 2 g) :
    ∃ F vol, IsOk (stiffnessDot ρ M Q Ct u) (fun t => Is1 t M.V.ndof F) ∧ Is2 Q.vol M.V.nelem nip vol ∧
      ∑ k ∈ range M.V.ndof, F k * f k =
        ∑ e ∈ range M.V.nelem, ∑ q ∈ range nip, power 2 (ddot 2 (C e q) (g e q)) (g e q) * vol e q := by
  obtain ⟨ue, u1, u2⟩ := C03_element_of_dofs hM.base σ hu
  have hg' := hg
  rw [gradient, u1, Res.ok_bind] at hg'
  rw [e1, e2] at u2
  have hs : Is4 (Ten.of [M.V.nelem, nip, 2, 2] fun ix => ddot 2 (C (ix.getD 0 0) (ix.getD 1 0)) (g (ix.getD 0 0) (ix.getD 1 0))
      (ix.getD 2 0) (ix.getD 3 0)) M.V.nelem nip 2 2 (fun e q => ddot 2 (C e q) (g e q)) :=
    ⟨rfl, fun e q i j _ _ _ _ => by simp [Ten.of]⟩
  obtain ⟨F, F1, F2⟩ := C75_tangent hM e1 e2 hQ σ τ ρ ρ hC hu hg hs (fun _ _ _ _ _ _ _ _ => rfl)
  obtain ⟨vol, Fe, g', v1, ⟨ft, f1, f2⟩, ⟨gt', v2, v3⟩, -, v4⟩ := C48_internal_force hQ ρ τ hs u2
  obtain ⟨gt, g1, g2⟩ := hg'
  obtain rfl : gt = gt' := by rw [g1] at v2; injection v2
  obtain ⟨y, U, FF, UU, y1, y2, y3, y4, y5⟩ := C05_adjoint hM.base σ (x := ft) (g := Fe) (by rw [e1, e2]; exact f2) hu
  obtain ⟨y', z1, z2⟩ := F2
  simp only [internalForce, f1, Res.ok_bind] at z1
  obtain rfl : y = y' := by rw [y1] at z1; injection z1
  obtain rfl : ue = U := by rw [u1] at y3; injection y3
  refine ⟨F, vol, F1, v1, ?_⟩
  rw [sum_congr rfl fun k hk => by rw [z2.unique y2 (mem_range.1 hk)], y5]
  refine sum_congr rfl fun e he => ?_
  rw [mem_range] at he
  rw [e1, e2] at *
  rw [sum_congr rfl fun m hm => sum_congr rfl fun i hi => by
    rw [y4.unique u2 he (mem_range.1 hm) (mem_range.1 hi)], v4 e he]
  refine sum_congr rfl fun q hq => ?_
  rw [mem_range] at hq
  congr 1
  simp only [power]
  exact sum_congr rfl fun i hi => sum_congr rfl fun j hj => by
    rw [g2.unique v3 he hq (mem_range.1 hi) (mem_range.1 hj)]

/-- the hypotheses of these theorems are met by every conforming mesh, for example by a `Regular` mesh of 3 x 2 elements -/
example : ∃ (c : Nat → Nat → Nat) (x : Nat → Nat → ℚ) (M : SMatrix ℚ) (D : Nat → Nat → ℚ) (Q : Quadrature ℚ),
    M.Holds c (fun m i => m * 2 + i) D ∧ M.V.nelem = 6 ∧ M.V.nne = 4 ∧ M.V.ndim = 2 ∧ M.V.ndof = 24 ∧
    Live 2 1 M.V.nelem 4 (fun q i => 1 / 2 * corner4 q i) (fun _ => 1) Q (fun e m i => x (c e m) i) ∧
    ∀ e q, e < M.V.nelem → q < 4 → det4 (fun m i => x (c e m) i) (1 / 2 * corner4 q 0) (1 / 2 * corner4 q 1) ≠ 0 := by
  obtain ⟨c, x, O, hA, hM⟩ := C73_quad4_regular 3 2 (show (0 : ℚ) < 1 by norm_num)
  obtain ⟨ct, a1, a2⟩ := hA.conn
  obtain ⟨xt, b1, b2⟩ := hA.coor
  obtain ⟨V, Q, h1, hV, e1, e2, e3, e4, e5, hQ, hp⟩ := hM.setup (s := 1 / 2) (by norm_num) (by norm_num) .rev .seq a2 b2 (meshDofs_ok _)
  have en : V.ndof = 24 := by
    obtain ⟨m, i, hm, hi, h⟩ := e5
    have h3 : m < 12 := hm
    have := hV.dofs_lt 11 1 (by rw [e3]; decide) (by rw [e4]; decide)
    omega
  have e1' : V.nelem = 6 := e1
  refine ⟨c, x, ⟨V, Mat.zero V.ndof V.ndof, true⟩, fun _ _ => 0, Q, ⟨hV, rfl, rfl, fun _ _ => rfl⟩, e1', e2, e4, en, ?_, fun e q he hq => ?_⟩
  · rw [e1']; exact hQ
  · have he' : e < V.nelem := he
    rw [e1] at he'
    exact (hp e q he' hq).ne'

end GF
