import Verif.Props.Stiffness
import Verif.Lemmas.Rigid
import Verif.Lemmas.ExactUU
import Mathlib.LinearAlgebra.FiniteDimensional.Basic
import Mathlib.LinearAlgebra.Matrix.ToLin
import Mathlib.Tactic.Positivity

/-! **C76** (no zero-energy modes), **C77** (linear problems), **C78** (displacement patch test). -/

namespace GF
open Finset ElemSpec Element Element.Quad4

variable {α : Type} [Field α] [LinearOrder α] [IsStrictOrderedRing α]
variable {nn ne : Nat} {c d : Nat → Nat → Nat} {x : Nat → Nat → α} {Lx Ly : α} {O : Outline}

/-- the energy is non-negative, and zero only for a rigid motion -/
theorem zero_energy (hM : RectMesh nn ne c x Lx Ly O) (lx : 0 < Lx) (ly : 0 < Ly) {s : α} (s0 : s ≠ 0) {M : SMatrix α} {D : Nat → Nat → α}
    (hS : M.Holds c d D) (e1 : M.V.nelem = ne) (e2 : M.V.nne = 4) (e4 : M.V.ndim = 2) {Q : Quadrature α}
    (hQ : Live 2 1 ne 4 (fun q i => s * corner4 q i) (fun _ => 1) Q (fun e m i => x (c e m) i))
    (hp : ∀ e q, e < ne → q < 4 → 0 < det4 (fun m i => x (c e m) i) (s * corner4 q 0) (s * corner4 q 1)) (ρ : Sched)
    {Ct u : Ten α} {C f} (hC : Is6 Ct ne 4 2 2 2 2 C) (hE : ∀ e q, e < ne → q < 4 → Elastic (C e q)) (hu : Is1 u M.V.ndof f) :
    ∃ F, IsOk (stiffnessDot ρ M Q Ct u) (fun t => Is1 t M.V.ndof F) ∧ 0 ≤ ∑ k ∈ range M.V.ndof, F k * f k ∧
      (∑ k ∈ range M.V.ndof, F k * f k = 0 → ∃ θ b₀ b₁, RigidMotion nn d x f θ b₀ b₁) := by
  obtain ⟨ue, u1, u2⟩ := C03_element_of_dofs hS.base ρ hu
  rw [e1, e2, e4] at u2
  obtain ⟨gt, g1, g2⟩ := GradN_ok hQ ρ u2
  subst e1
  obtain ⟨F, vol, F1, v1, v2⟩ := C75_energy hS e2 e4 hQ ρ ρ ρ hC hu ⟨gt, by simp only [gradient, u1, g1, Res.ok_bind], g2⟩
  have hv : ∀ e q, e < M.V.nelem → q < 4 → 0 < vol e q := fun e q he hq => by
    rw [v1.unique (C46_volume hQ) he hq, one_mul]; exact hp e q he hq
  have nn0 : ∀ e ∈ range M.V.nelem, ∀ q ∈ range 4, 0 ≤ power 2 (ddot 2 (C e q) (grad 4 (Gf (D4 fun q i => s * corner4 q i)
      fun e m i => x (c e m) i) (fun e m i => f (d (c e m) i)) e q)) (grad 4 (Gf (D4 fun q i => s * corner4 q i)
      fun e m i => x (c e m) i) (fun e m i => f (d (c e m) i)) e q) * vol e q := fun e he q hq => by
    rw [mem_range] at he hq
    exact mul_nonneg ((hE e q he hq).nonneg _) (hv e q he hq).le
  refine ⟨F, F1, ?_, fun h0 => ?_⟩
  · rw [v2]
    exact sum_nonneg fun e he => sum_nonneg (nn0 e he)
  · rw [v2, sum_eq_zero_iff_of_nonneg fun e he => sum_nonneg (nn0 e he)] at h0
    refine mesh_rigid hM lx ly (U := fun m i => f (d m i)) fun e he => ?_
    have h1 := h0 e (mem_range.2 he)
    rw [sum_eq_zero_iff_of_nonneg (nn0 e (mem_range.2 he))] at h1
    refine elem_rigid (X := fun m i => x (c e m) i) (U := fun m i => f (d (c e m) i)) s0
      (g := fun q => grad 4 (Gf (D4 fun q i => s * corner4 q i) fun e m i => x (c e m) i) (fun e m i => f (d (c e m) i)) e q) (fun q hq => (hp e q he hq).ne')
      (fun q k j hq hk hj => ?_) fun q hq => ?_
    · exact grad_chain (Ξ := fun q i => s * corner4 q i) (X := fun e m i => x (c e m) i) (U := fun e m i => f (d (c e m) i))
        (e := e) (q := q) (hp e q he hq).ne' hk j
    · have := (mul_eq_zero.1 (h1 q (mem_range.2 hq))).resolve_right (hv e q he hq).ne'
      exact (hE e q he hq).pos _ this

omit [LinearOrder α] [IsStrictOrderedRing α] in
/-- `setup` contains the vector of the mesh -/
theorem setup_vector {s : α} {σ τ : Sched} {conn dofs : Ten Nat} {coor : Ten α} {V V' : Vector} {Q : Quadrature α}
    (h : setup s σ τ conn dofs coor = .ok (V, Q)) (h' : Vector.new conn dofs = .ok V') : V = V' := by
  simp only [GF.setup] at h
  rw [h', Res.ok_bind] at h
  revert h
  cases V'.AsElement σ coor <;> try (intro h; cases h)
  rename_i xe
  simp only [Res.ok_bind]
  cases newGauss s τ xe <;> intro h <;> cases h
  rfl

theorem NumDofs.ndof {n : Nat} (hn : NumDofs nn d n) {V : Vector} (hV : V.Holds c d) (e3 : V.nnode = nn) (e4 : V.ndim = 2)
    (e5 : ∃ m i, m < nn ∧ i < 2 ∧ V.ndof = d m i + 1) : V.ndof = n := by
  obtain ⟨n1, m, i, hm, hi, n2⟩ := hn
  obtain ⟨m', i', hm', hi', h'⟩ := e5
  have a := n1 m' i' hm' hi'
  have b := hV.dofs_lt m i (by omega) (by omega)
  omega

/-- **C76** On a mesh of a rectangle with an elastic material the stiffness is positive semi-definite, and it gives no
force exactly for rigid motions of the whole mesh: with the four Gauss points there are no spurious (hourglass) modes. -/
theorem C76_no_spurious_modes (hM : RectMesh nn ne c x Lx Ly O) (lx : 0 < Lx) (ly : 0 < Ly) {s : α} (s0 : s ≠ 0) (s1 : -1 ≤ s) (s2 : s ≤ 1)
    (σ τ ρ : Sched) {conn dofs : Ten Nat} {coor : Ten α} (hc : Is2 conn ne 4 c) (hx : Is2 coor nn 2 x) (hd : Is2 dofs nn 2 d)
    {n : Nat} (hn : NumDofs nn d n) {Ct u : Ten α} {C f} (hC : Is6 Ct ne 4 2 2 2 2 C) (hE : ∀ e q, e < ne → q < 4 → Elastic (C e q))
    (hu : Is1 u n f) :
    IsOk (do
      let (_, Q) ← setup s σ τ conn dofs coor
      let K ← SMatrix.new conn dofs
      stiffnessDot ρ K Q Ct u) fun t => ∃ F, Is1 t n F ∧ 0 ≤ ∑ k ∈ range n, F k * f k ∧
        (∑ k ∈ range n, F k * f k = 0 ↔ ∃ θ b₀ b₁, RigidMotion nn d x f θ b₀ b₁) ∧
        ((∀ k, k < n → F k = 0) ↔ ∃ θ b₀ b₁, RigidMotion nn d x f θ b₀ b₁) := by
  obtain ⟨V, Q, h1, hV, e1, e2, e3, e4, e5, hQ, hp⟩ := hM.setup s1 s2 σ τ hc hx hd
  obtain ⟨K, k1, k2, hK⟩ := C15_constructor (α := α) hc hd hM.valid
  obtain rfl := setup_vector h1 k2
  have en := hn.ndof hV e3 e4 e5
  subst en
  obtain ⟨F, ⟨t, F1, F2⟩, F3, F4⟩ := zero_energy hM lx ly s0 hK e1 e2 e4 hQ hp ρ hC hE hu
  have rig : (∃ θ b₀ b₁, RigidMotion nn d x f θ b₀ b₁) → ∀ k, k < K.V.ndof → F k = 0 := by
    rintro ⟨θ, b₀, b₁, h⟩ k hk
    subst e1
    obtain ⟨t', z1, z2⟩ := C75_rigid hK e2 e4 hQ ρ (fun e q he hq => (hp e q he hq).ne') hC hu θ b₀ b₁ (by rw [e3]; exact h)
      (Or.inr fun e q i j k l he hq hi hj hk hl => (hE e q he hq).minor i j k l hi hj hk hl)
    obtain rfl : t = t' := by rw [F1] at z1; injection z1
    exact F2.unique z2 hk
  have zero : (∀ k, k < K.V.ndof → F k = 0) → ∑ k ∈ range K.V.ndof, F k * f k = 0 := fun h =>
    sum_eq_zero fun k hk => by rw [h k (mem_range.1 hk), zero_mul]
  refine ⟨t, by simp only [h1, k1, F1, Res.ok_bind], F, F2, F3, ⟨F4, fun h => zero (rig h)⟩, fun h => F4 (zero h), rig⟩

/-- the assembled stiffness, and its regularity with respect to the unknown DOFs -/
theorem stiff_regular (hM : RectMesh nn ne c x Lx Ly O) (lx : 0 < Lx) (ly : 0 < Ly) {s : α} (s0 : s ≠ 0) {V : Vector}
    (hV : V.Holds c d) (e1 : V.nelem = ne) (e2 : V.nne = 4) (e3 : V.nnode = nn) (e4 : V.ndim = 2) {Q : Quadrature α}
    (hQ : Live 2 1 ne 4 (fun q i => s * corner4 q i) (fun _ => 1) Q (fun e m i => x (c e m) i))
    (hp : ∀ e q, e < ne → q < 4 → 0 < det4 (fun m i => x (c e m) i) (s * corner4 q 0) (s * corner4 q 1)) (ρ : Sched)
    {Ct : Ten α} {C} (hC : Is6 Ct ne 4 2 2 2 2 C) (hE : ∀ e q, e < ne → q < 4 → Elastic (C e q)) :
    ∃ kt k, Q.Int_gradN_dot_tensor4_dot_gradNT_dV ρ Ct = .ok kt ∧ Is3 kt V.nelem (V.nne * V.ndim) (V.nne * V.ndim) k ∧
      (∀ M : SMatrix α, M.V = V → (∃ D, M.Holds c d D) → ∀ u f, Is1 u V.ndof f →
        IsOk (stiffnessDot ρ M Q Ct u) fun t => Is1 t V.ndof fun r => ∑ s ∈ range V.ndof, SMatrix.assembled V c d k r s * f s) ∧
      (∀ (iip : List Nat) (f : Nat → α), Supported nn d x iip → (∀ r, r < V.ndof → r ∉ iip → ∑ s ∈ range V.ndof, SMatrix.assembled V c d k r s * f s = 0) →
        (∀ k ∈ iip, f k = 0) → ∀ m i, m < nn → i < 2 → f (d m i) = 0) ∧
      EnergyForm V.ndof (SMatrix.assembled V c d k) (fun iip f => Supported nn d x iip → ∀ m i, m < nn → i < 2 → f (d m i) = 0)
        (∀ e q, e < ne → q < 4 → Major 2 (C e q)) := by
  obtain ⟨kt, k1, k, k2, k3⟩ := stiff_live hQ (le_refl 2) ρ hC (live_holds hQ).1.V_is
  have hsym := C49_symmetry (C := C) (K := k) (stiffLaws k3 fun e q i _ _ _ => G_sum _ _ _ _ _)
  have k2' : Is3 kt V.nelem (V.nne * V.ndim) (V.nne * V.ndim) k := by rw [e1, e2, e4]; exact k2
  have prod : ∀ M : SMatrix α, M.V = V → (∃ D, M.Holds c d D) → ∀ u f, Is1 u V.ndof f →
        IsOk (stiffnessDot ρ M Q Ct u) fun t => Is1 t V.ndof fun r => ∑ s ∈ range V.ndof, SMatrix.assembled V c d k r s * f s := by
    rintro M rfl ⟨D, hD⟩ u f hu
    have a := SMatrix.assemble_spec hD.base k2'
    obtain ⟨b, b1, b2⟩ := C17_dot_dofval (M := ⟨M.V, ⟨M.V.ndof, M.V.ndof, SMatrix.assembled M.V c d k⟩, true⟩)
      ⟨hD.base, rfl, rfl, fun _ _ => rfl⟩ hu
    exact ⟨b, by simp only [stiffnessDot, k1, a, b1, Res.ok_bind], b2⟩
  have hK : (⟨V, Mat.zero V.ndof V.ndof, true⟩ : SMatrix α).Holds c d (fun _ _ => 0) := ⟨hV, rfl, rfl, fun _ _ => rfl⟩
  have en : ∀ f : Nat → α, 0 ≤ ∑ r ∈ range V.ndof, (∑ s ∈ range V.ndof, SMatrix.assembled V c d k r s * f s) * f r ∧
      (∑ r ∈ range V.ndof, (∑ s ∈ range V.ndof, SMatrix.assembled V c d k r s * f s) * f r = 0 → ∃ θ b₀ b₁, RigidMotion nn d x f θ b₀ b₁) := by
    intro f
    have hu : Is1 (Ten.of [V.ndof] fun ix => f (ix.getD 0 0)) V.ndof f := ⟨rfl, fun i _ => by simp [Ten.of]⟩
    obtain ⟨t, t1, t2⟩ := prod _ rfl ⟨_, hK⟩ _ f hu
    obtain ⟨F, ⟨t', F1, F2⟩, F3, F4⟩ := zero_energy hM lx ly s0 hK e1 e2 e4 hQ hp ρ hC hE hu
    obtain rfl : t = t' := by rw [t1] at F1; injection F1
    have e : ∑ r ∈ range V.ndof, (∑ s ∈ range V.ndof, SMatrix.assembled V c d k r s * f s) * f r = ∑ r ∈ range V.ndof, F r * f r :=
      sum_congr rfl fun r hr => by rw [F2.unique t2 (mem_range.1 hr)]
    rw [e]
    exact ⟨F3, F4⟩
  have pd : ∀ (iip : List Nat) (f : Nat → α), (∀ k ∈ iip, f k = 0) →
      ∑ r ∈ range V.ndof, (∑ s ∈ range V.ndof, SMatrix.assembled V c d k r s * f s) * f r = 0 →
      Supported nn d x iip → ∀ m i, m < nn → i < 2 → f (d m i) = 0 := by
    intro iip f h2 h0 hS m i hm hi
    obtain ⟨θ, b₀, b₁, h⟩ := (en f).2 h0
    obtain ⟨rfl, rfl, rfl⟩ := hS f θ b₀ b₁ h h2
    have := h m hm
    rcases Nat.lt_or_ge i 1 with h0 | h0
    · obtain rfl : i = 0 := by omega
      rw [this.1]; ring
    · obtain rfl : i = 1 := by omega
      rw [this.2]; ring
  refine ⟨kt, k, k1, k2', prod, fun iip f hS h1 h2 => pd iip f h2 (sum_eq_zero fun r hr => ?_) hS, fun f => (en f).1, pd, fun hs r s _ _ => ?_⟩
  · rw [mem_range] at hr
    by_cases hi : r ∈ iip
    · rw [h2 r hi, mul_zero]
    · rw [h1 r hr hi, zero_mul]
  · refine assembled_symm k ?_ r s
    rw [e1, e2, e4]
    exact hsym (fun e q i j k l he hq => hs e q he hq i j k l) (fun e q i j k l he hq hi hj hk hl => by
      rw [hs e q he hq i j k l hi hj hk hl, (hE e q he hq).minor k l i j hk hl hi hj, hs e q he hq k l j i hk hl hj hi])
      fun e q i j k l he hq => (hE e q he hq).minor i j k l

/-- **C77** (uniqueness) two displacements that agree on the prescribed DOFs and have the same forces on all other DOFs are
equal -/
theorem C77_unique (hM : RectMesh nn ne c x Lx Ly O) (lx : 0 < Lx) (ly : 0 < Ly) {s : α} (s0 : s ≠ 0) (s1 : -1 ≤ s) (s2 : s ≤ 1)
    (σ τ ρ : Sched) {conn dofs : Ten Nat} {coor : Ten α} (hc : Is2 conn ne 4 c) (hx : Is2 coor nn 2 x) (hd : Is2 dofs nn 2 d)
    {n : Nat} (hn : NumDofs nn d n) {Ct u u' : Ten α} {C f f'} (hC : Is6 Ct ne 4 2 2 2 2 C) (hE : ∀ e q, e < ne → q < 4 → Elastic (C e q))
    (hu : Is1 u n f) (hu' : Is1 u' n f') {iip : List Nat} (hS : Supported nn d x iip) (hi : ∀ k ∈ iip, f k = f' k) :
    IsOk (do
      let (_, Q) ← setup s σ τ conn dofs coor
      let K ← SMatrix.new conn dofs
      let t ← stiffnessDot ρ K Q Ct u
      let t' ← stiffnessDot ρ K Q Ct u'
      return (t, t')) fun t => ∃ F F', Is1 t.1 n F ∧ Is1 t.2 n F' ∧
        ((∀ k, k < n → k ∉ iip → F k = F' k) → ∀ m i, m < nn → i < 2 → f (d m i) = f' (d m i)) := by
  obtain ⟨V, Q, h1, hV, e1, e2, e3, e4, e5, hQ, hp⟩ := hM.setup s1 s2 σ τ hc hx hd
  obtain ⟨K, k1, k2, hK⟩ := C15_constructor (α := α) hc hd hM.valid
  obtain rfl := setup_vector h1 k2
  have en := hn.ndof hV e3 e4 e5
  subst en
  obtain ⟨kt, k, q1, q2, q3, q4, q5⟩ := stiff_regular hM lx ly s0 hV e1 e2 e3 e4 hQ hp ρ hC hE
  obtain ⟨t, t1, t2⟩ := q3 K rfl ⟨_, hK⟩ u f hu
  obtain ⟨t', t1', t2'⟩ := q3 K rfl ⟨_, hK⟩ u' f' hu'
  refine ⟨(t, t'), by simp only [h1, k1, t1, t1', Res.ok_bind]; rfl, _, _, t2, t2', fun h m i hm hi' => ?_⟩
  have := q4 iip (fun k => f k - f' k) hS (fun r hr hr' => by
    rw [sum_congr rfl fun s _ => mul_sub _ _ _, sum_sub_distrib, h r hr hr', sub_self]) (fun k hk => by rw [hi k hk, sub_self]) m i hm hi'
  exact sub_eq_zero.1 this

/-- the program of the linear problem, with the system of equations it solves -/
theorem solve_core (hM : RectMesh nn ne c x Lx Ly O) (lx : 0 < Lx) (ly : 0 < Ly) {s : α} (s0 : s ≠ 0) (s1 : -1 ≤ s) (s2 : s ≤ 1)
    (σ τ ρ : Sched) (υ : Nat → Sched) {conn dofs : Ten Nat} {coor : Ten α} (hc : Is2 conn ne 4 c) (hx : Is2 coor nn 2 x) (hd : Is2 dofs nn 2 d)
    {n : Nat} (hn : NumDofs nn d n) (hgap : ∀ k, k < n → ∃ m i, m < nn ∧ i < 2 ∧ d m i = k) {Ct b u : Ten α} {C g f}
    (hC : Is6 Ct ne 4 2 2 2 2 C) (hE : ∀ e q, e < ne → q < 4 → Elastic (C e q)) (hb : Is1 b n g)
    (hu : Is1 u n f) {iip : List Nat} (hi : iip.Nodup) (hin : ∀ k ∈ iip, k < n) (hS : Supported nn d x iip)
    {S : LinSolver α} (hSol : S.Suits (∀ e q, e < ne → q < 4 → Major 2 (C e q))) :
    ∃ (K : SMatrix α) (Q : Quadrature α) (y : Ten α) (f' : Nat → α) (B : Nat → Nat → α), setup s σ τ conn dofs coor = .ok (K.V, Q) ∧
      K.Holds c d (fun _ _ => 0) ∧ K.V.nelem = ne ∧ K.V.nne = 4 ∧ K.V.nnode = nn ∧ K.V.ndim = 2 ∧ K.V.ndof = n ∧
      Live 2 1 ne 4 (fun q i => s * corner4 q i) (fun _ => 1) Q (fun e m i => x (c e m) i) ∧
      (∀ e q, e < ne → q < 4 → 0 < det4 (fun m i => x (c e m) i) (s * corner4 q 0) (s * corner4 q 1)) ∧
      solveLinear S ρ υ conn dofs iip Q Ct b u = .ok y ∧ Is1 y n f' ∧ (∀ k ∈ iip, f' k = f k) ∧
      (∀ r, r < n → r ∉ iip → ∑ k ∈ range n, B r k * f' k = g r) ∧
      (∀ u f, Is1 u n f → IsOk (stiffnessDot ρ K Q Ct u) fun t => Is1 t n fun r => ∑ s ∈ range n, B r s * f s) ∧
      (∀ f : Nat → α, (∀ r, r < n → r ∉ iip → ∑ s ∈ range n, B r s * f s = 0) → (∀ k ∈ iip, f k = 0) → ∀ m i, m < nn → i < 2 → f (d m i) = 0) := by
  obtain ⟨V, Q, h1, hV, e1, e2, e3, e4, e5, hQ, hp⟩ := hM.setup s1 s2 σ τ hc hx hd
  obtain ⟨K, k1, k2, hK⟩ := C15_constructor (α := α) hc hd hM.valid
  obtain rfl := setup_vector h1 k2
  have en := hn.ndof hV e3 e4 e5
  obtain ⟨M, q, m1, m2, m3, m4, hMP⟩ := C18_constructor (α := α) (iip := iip) hc hd hM.valid hi (fun k hk => by
      obtain ⟨-, m, i, hm, hi', h⟩ := hn
      exact ⟨m, i, hm, hi', by have := hin k hk; omega⟩) (fun m i hm hi' k hk => by
      obtain ⟨a, b', ha, hb', h⟩ := hgap k (by have := hn.1 m i hm hi'; omega)
      exact ⟨a, b', ha, hb', h⟩) ⟨hM.nodes, by omega⟩
  have eV : K.V = M.P.V := by rw [k2] at m3; injection m3
  obtain ⟨kt, k, q1, q2, q3, q4, q5⟩ := stiff_regular hM lx ly s0 hV e1 e2 e3 e4 hQ hp ρ hC hE
  rw [eV] at q2
  obtain ⟨A, a1, a2⟩ := MatrixPartitioned.assemble_spec hMP q2
  have hM' : MatrixPartitioned.Holds { M with A := A, changed := true } c d q (SMatrix.assembled M.P.V c d k) :=
    ⟨hMP.base, hMP.surj, hMP.part1d_shape, hMP.part1d, a2⟩
  have hex : S.ExactOn A.uu := by
    rw [eV] at q5
    refine hM'.exact_uu q5.symm q5.nonneg (fun f h1 h2 m i hm hi => ?_) hSol
    exact q5.pos iip f (by rw [← m4]; exact h1) h2 hS m i (by rw [← e3, eV]; exact hm) (by rw [← e4, eV]; exact hi)
  have en' := en
  rw [eV] at en'
  have hb' := hb
  have hu' := hu
  rw [← en'] at hb' hu'
  obtain ⟨s', M', y, f', y1, y2, y3, y4⟩ := C21_solve_dofval S SolverState.init hM' (Or.inl rfl) hex υ hb' hu'
  have y0 : solveLinear S ρ υ conn dofs iip Q Ct b u = .ok y := by simp only [solveLinear, m1, q1, a1, y1, Res.ok_bind]; rfl
  rw [← eV] at y2 y4
  rw [en] at y2 q3
  rw [m4] at y3
  exact ⟨K, Q, y, f', SMatrix.assembled K.V c d k, h1, hK, e1, e2, e3, e4, en, hQ, hp, y0, y2, y3,
    fun r hr hri => by rw [← en] at hr ⊢; exact y4 r hr (by rw [m4]; exact hri),
    fun u f hu => q3 K rfl ⟨_, hK⟩ u f hu, fun f h1 h2 => q4 iip f hS (by rw [en]; exact h1) h2⟩

/-- **C77** (solution) `Solve` succeeds for every load and every prescribed displacement that excludes rigid motions: the
result has the prescribed values, and the internal force of its stress equals the load on all other DOFs. -/
theorem C77_solve (hM : RectMesh nn ne c x Lx Ly O) (lx : 0 < Lx) (ly : 0 < Ly) {s : α} (s0 : s ≠ 0) (s1 : -1 ≤ s) (s2 : s ≤ 1)
    (σ τ ρ : Sched) (υ : Nat → Sched) {conn dofs : Ten Nat} {coor : Ten α} (hc : Is2 conn ne 4 c) (hx : Is2 coor nn 2 x) (hd : Is2 dofs nn 2 d)
    {n : Nat} (hn : NumDofs nn d n) (hgap : ∀ k, k < n → ∃ m i, m < nn ∧ i < 2 ∧ d m i = k) {Ct b u : Ten α} {C g f}
    (hC : Is6 Ct ne 4 2 2 2 2 C) (hE : ∀ e q, e < ne → q < 4 → Elastic (C e q)) (hb : Is1 b n g)
    (hu : Is1 u n f) {iip : List Nat} (hi : iip.Nodup) (hin : ∀ k ∈ iip, k < n) (hS : Supported nn d x iip)
    {S : LinSolver α} (hSol : S.Suits (∀ e q, e < ne → q < 4 → Major 2 (C e q))) :
    IsOk (do
      let (V, Q) ← setup s σ τ conn dofs coor
      let y ← solveLinear S ρ υ conn dofs iip Q Ct b u
      let gt ← gradient σ τ V Q y
      return (V, Q, y, gt)) fun r => ∃ f' γ, Is1 r.2.2.1 n f' ∧ (∀ k ∈ iip, f' k = f k) ∧ Is4 r.2.2.2 ne 4 2 2 γ ∧
        ∀ sig, Is4 sig ne 4 2 2 (fun e q => ddot 2 (C e q) (γ e q)) →
          IsOk (internalForce ρ r.1 r.2.1 sig) fun t => ∃ F, Is1 t n F ∧ ∀ k, k < n → k ∉ iip → F k = g k := by
  obtain ⟨K, Q, y, f', B, h1, hK, e1, e2, e3, e4, en, hQ, hp, y0, y2, y3, y4, q3, -⟩ :=
    solve_core hM lx ly s0 s1 s2 σ τ ρ υ hc hx hd hn hgap hC hE hb hu hi hin hS hSol
  have hV := hK.base
  obtain ⟨ue, u1, u2⟩ := C03_element_of_dofs hV σ (by rw [en]; exact y2)
  rw [e1, e2, e4] at u2
  obtain ⟨gt, g1, g2⟩ := GradN_ok hQ τ u2
  refine ⟨(K.V, Q, y, gt), by
    have g0 : gradient σ τ K.V Q y = .ok gt := by simp only [gradient, u1, g1, Res.ok_bind]
    simp only [h1, y0, g0, Res.ok_bind]; rfl, f', _, y2, y3, g2, fun sig hs => ?_⟩
  obtain ⟨F, ⟨t, F1, F2⟩, t', F3, F4⟩ := C75_tangent hK e2 e4 (by rw [e1]; exact hQ) σ τ ρ ρ (by rw [e1]; exact hC) (by rw [en]; exact y2)
    ⟨gt, by simp only [gradient, u1, g1, Res.ok_bind], by rw [e1]; exact g2⟩ (by rw [e1]; exact hs) (fun _ _ _ _ _ _ _ _ => rfl)
  obtain ⟨t'', F5, F6⟩ := q3 y f' y2
  obtain rfl : t = t'' := by rw [F1] at F5; injection F5
  refine ⟨t', F3, F, by rw [← en]; exact F4, fun r hr hri => ?_⟩
  rw [en] at F2
  rw [F2.unique F6 hr]
  exact y4 r hr hri

/-- the boundary supports the mesh -/
theorem RectMesh.supported (hM : RectMesh nn ne c x Lx Ly O) (lx : 0 < Lx) {iip : List Nat}
    (hbd : ∀ m i, m < nn → i < 2 → ¬ (0 < x m 0 ∧ x m 0 < Lx ∧ 0 < x m 1 ∧ x m 1 < Ly) → d m i ∈ iip) : Supported nn d x iip := by
  intro f θ b₀ b₁ hf h0
  obtain ⟨s1, s2, s3, s4⟩ := hM.sizes
  obtain ⟨k1, k2, k3, k4⟩ := hM.corners
  have z : ∀ i, i < O.nb → ∀ j, j < 2 → f (d (O.bottom i) j) = 0 := fun i hi j hj =>
    h0 _ (hbd _ j (hM.bottom i hi).1 hj fun h => h.2.2.1.ne' (hM.bottom i hi).2)
  have a := hf _ (hM.bottom 0 s1).1
  have b := hf _ (hM.bottom (O.nb - 1) (by omega)).1
  rw [z 0 s1 0 (by omega), z 0 s1 1 (by omega), k1, (hM.bottom 0 s1).2] at a
  rw [z _ (by omega) 0 (by omega), z _ (by omega) 1 (by omega), k2, (hM.bottom (O.nb - 1) (by omega)).2] at b
  have h1 : b₁ = 0 := by linear_combination - a.2
  have h2 : θ * Lx = 0 := by linear_combination - b.2 + a.2
  exact ⟨(mul_eq_zero.1 h2).resolve_right lx.ne', by linear_combination - a.1, h1⟩

/-- **C78** (patch test in displacements) if the displacement of an affine field is prescribed on the whole boundary and no
load is applied, then the solution is that affine field, at every node. -/
theorem C78_patch (hM : RectMesh nn ne c x Lx Ly O) (lx : 0 < Lx) (ly : 0 < Ly) {s : α} (s0 : s ≠ 0) (s1 : -1 ≤ s) (s2 : s ≤ 1)
    (σ τ ρ : Sched) (υ : Nat → Sched) {conn dofs : Ten Nat} {coor : Ten α} (hc : Is2 conn ne 4 c) (hx : Is2 coor nn 2 x) (hd : Is2 dofs nn 2 d)
    {n : Nat} (hn : NumDofs nn d n) (hgap : ∀ k, k < n → ∃ m i, m < nn ∧ i < 2 ∧ d m i = k) {Ct b u : Ten α} {C f}
    (hC : Is6 Ct ne 4 2 2 2 2 fun _ _ => C) (hE : Elastic C) (hb : Is1 b n fun _ => 0)
    (hu : Is1 u n f) {iip : List Nat} (hi : iip.Nodup) (hin : ∀ k ∈ iip, k < n)
    (hbd : ∀ m i, m < nn → i < 2 → ¬ (0 < x m 0 ∧ x m 0 < Lx ∧ 0 < x m 1 ∧ x m 1 < Ly) → d m i ∈ iip)
    {A : Nat → Nat → α} {a fA : Nat → α} (hA : ∀ m i, m < nn → i < 2 → fA (d m i) = a i + ∑ j ∈ range 2, A i j * x m j)
    (hf : ∀ k ∈ iip, f k = fA k) {S : LinSolver α} (hSol : S.Suits (Major 2 C)) :
    IsOk (do
      let (_, Q) ← setup s σ τ conn dofs coor
      solveLinear S ρ υ conn dofs iip Q Ct b u) fun y => ∃ f', Is1 y n f' ∧
        ∀ m i, m < nn → i < 2 → f' (d m i) = a i + ∑ j ∈ range 2, A i j * x m j := by
  have hS := hM.supported lx hbd
  obtain ⟨K, Q, y, f', B, h1, hK, e1, e2, e3, e4, en, hQ, hp, y0, y2, y3, y4, q3, q4⟩ :=
    solve_core hM lx ly s0 s1 s2 σ τ ρ υ hc hx hd hn hgap hC (fun _ _ _ _ => hE) hb hu hi hin hS (hSol.imp fun h _ _ _ _ => h)
  have hV := hK.base
  refine ⟨y, by simp only [h1, y0, Res.ok_bind], f', y2, fun m i hm hi => ?_⟩
  rw [← hA m i hm hi]
  -- the affine field
  have hw : Is1 (Ten.of [n] fun ix => fA (ix.getD 0 0)) n fA := ⟨rfl, fun i _ => by simp [Ten.of]⟩
  obtain ⟨ue, u1, u2⟩ := C03_element_of_dofs hV σ (by rw [en]; exact hw)
  rw [e1, e2, e4] at u2
  obtain ⟨⟨gt, g1, g2⟩, -, -⟩ := C44_affine_gradient hQ (fun e q he hq => (hp e q he hq).ne') u2 (A := A) (b := a)
    (fun e m j he hm hj => hA _ j (hM.valid e m he hm) hj) τ
  have hs : Is4 (Ten.of [ne, 4, 2, 2] fun ix => ddot 2 C (fun i j => A j i) (ix.getD 2 0) (ix.getD 3 0)) ne 4 2 2
      (fun _ _ => ddot 2 C (fun i j => A j i)) := ⟨rfl, fun e q i j _ _ _ _ => by simp [Ten.of]⟩
  obtain ⟨F, ⟨t, F1, F2⟩, t', F3, F4⟩ := C75_tangent hK e2 e4 (by rw [e1]; exact hQ) σ τ ρ ρ (by rw [e1]; exact hC)
    (by rw [en]; exact hw) ⟨gt, by simp only [gradient, u1, g1, Res.ok_bind], by rw [e1]; exact g2⟩ (by rw [e1]; exact hs)
    (fun _ _ _ _ _ _ _ _ => rfl)
  obtain ⟨t'', F5, F6⟩ := q3 _ fA hw
  obtain rfl : t = t'' := by rw [F1] at F5; injection F5
  obtain ⟨t3, G1, n', G, G2, G3, G4⟩ := C74_interior hM s1 s2 σ τ ρ hc hx hd hs
  rw [h1] at G1
  simp only [Res.ok_bind] at G1
  obtain rfl : t' = t3 := by rw [F3] at G1; injection G1
  have hzero : ∀ r, r < n → r ∉ iip → ∑ k ∈ range n, B r k * fA k = 0 := by
    intro r hr hri
    rw [en] at F2 F4
    obtain rfl : n = n' := by have := F4.1.symm.trans G2.1; simpa using this
    rw [← F2.unique F6 hr, F4.unique G2 hr]
    refine G4 r fun m i hm hi hd' => ?_
    by_contra hn
    exact hri (by rw [← hd']; exact hbd m i hm hi hn)
  have := q4 (fun k => f' k - fA k) (fun r hr hri => by
    rw [sum_congr rfl fun s _ => mul_sub _ _ _, sum_sub_distrib, y4 r hr hri, hzero r hr hri, sub_self])
    (fun k hk => by rw [y3 k hk, hf k hk, sub_self]) m i hm hi
  exact sub_eq_zero.1 this

/-! ### The hypotheses can be met -/

/-- isotropic linear elasticity with Lamé parameters `l` and `μ` -/
def isotropic (l μ : α) (i j k m : Nat) : α :=
  (if i = j ∧ k = m then l else 0) + (if i = k ∧ j = m then μ else 0) + (if i = m ∧ j = k then μ else 0)

/-- isotropic elasticity is elastic (in two dimensions the bulk modulus is `l + μ`) -/
theorem isotropic_elastic {l μ : α} (hμ : 0 < μ) (hl : 0 < l + μ) : Elastic (isotropic l μ) := by
  have key : ∀ g : Nat → Nat → α, power 2 (ddot 2 (isotropic l μ) g) g =
      (l + μ) * (g 0 0 + g 1 1) ^ 2 + μ * (g 0 0 - g 1 1) ^ 2 + μ * (g 0 1 + g 1 0) ^ 2 := by
    intro g
    simp only [power, ddot, isotropic, sum_range_succ, sum_range_zero]
    norm_num
    ring
  refine ⟨fun i j k m hi hj hk hm => ?_, fun g => ?_, fun g h => ?_⟩
  · have e2 : ∀ a : Nat, a < 2 → a = 0 ∨ a = 1 := fun a h => by omega
    rcases e2 i hi with rfl | rfl <;> rcases e2 j hj with rfl | rfl <;> rcases e2 k hk with rfl | rfl <;>
      rcases e2 m hm with rfl | rfl <;> simp [isotropic]
  · rw [key]; positivity
  · rw [key] at h
    have a1 : 0 ≤ (l + μ) * (g 0 0 + g 1 1) ^ 2 := by positivity
    have a2 : 0 ≤ μ * (g 0 0 - g 1 1) ^ 2 := by positivity
    have a3 : 0 ≤ μ * (g 0 1 + g 1 0) ^ 2 := by positivity
    have b1 : (l + μ) * (g 0 0 + g 1 1) ^ 2 = 0 := by linarith
    have b2 : μ * (g 0 0 - g 1 1) ^ 2 = 0 := by linarith
    have b3 : μ * (g 0 1 + g 1 0) ^ 2 = 0 := by linarith
    have c1 := pow_eq_zero_iff (two_ne_zero) |>.1 ((mul_eq_zero.1 b1).resolve_left hl.ne')
    have c2 := pow_eq_zero_iff (two_ne_zero) |>.1 ((mul_eq_zero.1 b2).resolve_left hμ.ne')
    have c3 := pow_eq_zero_iff (two_ne_zero) |>.1 ((mul_eq_zero.1 b3).resolve_left hμ.ne')
    refine ⟨?_, ?_, c3⟩ <;> linarith

omit [LinearOrder α] [IsStrictOrderedRing α] in
/-- the isotropic tangent is symmetric -/
theorem isotropic_major (n : Nat) (l μ : α) : Major n (isotropic l μ) := by
  intro i j k m _ _ _ _
  unfold isotropic
  have e1 : (i = j ∧ k = m) ↔ (k = m ∧ i = j) := and_comm
  have e2 : (i = k ∧ j = m) ↔ (k = i ∧ m = j) := by constructor <;> rintro ⟨rfl, rfl⟩ <;> exact ⟨rfl, rfl⟩
  have e3 : (i = m ∧ j = k) ↔ (k = j ∧ m = i) := by constructor <;> rintro ⟨rfl, rfl⟩ <;> exact ⟨rfl, rfl⟩
  simp only [e1, e2, e3]

omit [LinearOrder α] [IsStrictOrderedRing α] in
open Classical in
/-- there are exact solvers -/
theorem exists_direct : ∃ S : LinSolver α, S.Direct := by
  refine ⟨⟨fun A b => if h : ∃ z : Nat → α, ∀ r, r < A.nr → ∑ k ∈ range A.nc, A.e r k * z k = b r then Classical.choose h else fun _ => 0⟩,
    fun A hA hinj b r hr => ?_⟩
  have hex : ∃ z : Nat → α, ∀ r, r < A.nr → ∑ k ∈ range A.nc, A.e r k * z k = b r := by
    let f : (Fin A.nc → α) →ₗ[α] (Fin A.nc → α) := Matrix.mulVecLin (Matrix.of fun i j => A.e i j)
    have hf : ∀ (v : Fin A.nc → α) (i : Fin A.nc), f v i = ∑ k ∈ range A.nc, A.e i k * (if h : k < A.nc then v ⟨k, h⟩ else 0) := by
      intro v i
      rw [← Fin.sum_univ_eq_sum_range (fun k => A.e i k * (if h : k < A.nc then v ⟨k, h⟩ else 0))]
      simp [f, Matrix.mulVec, dotProduct]
    have inj : Function.Injective f := by
      rw [← LinearMap.ker_eq_bot, LinearMap.ker_eq_bot']
      intro v hv
      funext i
      have := hinj (fun k => if h : k < A.nc then v ⟨k, h⟩ else 0) (fun r hr => by
        rw [hA] at hr
        rw [← hf v ⟨r, hr⟩, hv]; rfl) i i.2
      simpa using this
    obtain ⟨v, hv⟩ := LinearMap.injective_iff_surjective.1 inj (fun i => b i)
    refine ⟨fun k => if h : k < A.nc then v ⟨k, h⟩ else 0, fun r hr => ?_⟩
    rw [hA] at hr
    rw [← hf v ⟨r, hr⟩, hv]
  simp only [dif_pos hex]
  exact Classical.choose_spec hex r hr

/-! ### The patch test on the meshes of the library -/

/-- **C78** (Quad4 `Regular`) -/
theorem C78_quad4_regular {nelx nely : Nat} (hx : 0 < nelx) (hy : 0 < nely) {h : α} (hh : 0 < h) {s : α} (s0 : s ≠ 0) (s1 : -1 ≤ s) (s2 : s ≤ 1)
    (σ τ ρ : Sched) (υ : Nat → Sched) {Ct b u : Ten α} {C f} (hC : Is6 Ct (nelx * nely) 4 2 2 2 2 fun _ _ => C) (hE : Elastic C)
    (hb : Is1 b (2 * ((nelx + 1) * (nely + 1))) fun _ => 0) (hu : Is1 u (2 * ((nelx + 1) * (nely + 1))) f) {iip : List Nat} (hi : iip.Nodup)
    (hin : ∀ k ∈ iip, k < 2 * ((nelx + 1) * (nely + 1)))
    (hbd : ∀ iy ix j, iy ≤ nely → ix ≤ nelx → j < 2 → (iy = 0 ∨ iy = nely ∨ ix = 0 ∨ ix = nelx) → (iy * (nelx + 1) + ix) * 2 + j ∈ iip)
    {A : Nat → Nat → α} {a : Nat → α}
    (hf : ∀ iy ix j, iy ≤ nely → ix ≤ nelx → j < 2 → (iy * (nelx + 1) + ix) * 2 + j ∈ iip →
      f ((iy * (nelx + 1) + ix) * 2 + j) = a j + A j 0 * (h * (ix : α)) + A j 1 * (h * (iy : α)))
    {S : LinSolver α} (hSol : S.Suits (Major 2 C)) :
    let M := Quad4.Regular.new nelx nely h
    IsOk (do
      let conn ← Quad4.Regular.conn M
      let coor ← M.coor
      let dofs := meshDofs M.nnode M.ndim
      let (_, Q) ← setup s σ τ conn dofs coor
      solveLinear S ρ υ conn dofs iip Q Ct b u) fun y => ∃ f', Is1 y (2 * M.nnode) f' ∧ ∀ iy ix j, iy ≤ nely → ix ≤ nelx → j < 2 →
        f' ((iy * (nelx + 1) + ix) * 2 + j) = a j + A j 0 * (h * (ix : α)) + A j 1 * (h * (iy : α)) := by
  intro M
  obtain ⟨c, x, O, hA, hM⟩ := C73_quad4_regular nelx nely hh
  obtain ⟨ct, a1, a2⟩ := hA.conn
  obtain ⟨xt, b1, b2⟩ := hA.coor
  have hcoor := M.coor_spec rfl rfl
  obtain ⟨xt', b1', b2'⟩ := hcoor
  obtain rfl : xt = xt' := by rw [b1] at b1'; injection b1'
  have hN : M.nnode = (nelx + 1) * (nely + 1) := rfl
  have pos : ∀ iy ix, iy ≤ nely → ix ≤ nelx → x (iy * (nelx + 1) + ix) 0 = h * (ix : α) ∧ x (iy * (nelx + 1) + ix) 1 = h * (iy : α) := by
    intro iy ix h1 h2
    have hm : iy * (nelx + 1) + ix < M.nnode := by
      have := grid_lt (show iy < nely + 1 by omega) (show ix < nelx + 1 by omega)
      rw [Nat.mul_comm (nely + 1)] at this; exact this
    have p := gridCoor_node h (nelx := nelx) (i := iy) (j := ix) (by omega)
    exact ⟨(b2.unique b2' hm (by omega)).trans p.1, (b2.unique b2' hm (by omega)).trans p.2⟩
  have split : ∀ m, m < M.nnode → ∃ iy ix, iy ≤ nely ∧ ix ≤ nelx ∧ m = iy * (nelx + 1) + ix := by
    intro m hm
    have hm' : m < (nely + 1) * (nelx + 1) := by rw [Nat.mul_comm]; exact hm
    obtain ⟨i, j, hi, hj, e⟩ := grid_exists hm'
    exact ⟨i, j, by omega, by omega, e⟩
  have nd : NumDofs M.nnode (fun m i => m * 2 + i) (2 * M.nnode) := by
    refine ⟨fun m i hm hi => by beta_reduce; omega, M.nnode - 1, 1, ?_, by omega, ?_⟩
    · have := hM.nodes; change M.nnode - 1 < M.nnode; change 0 < M.nnode at this; omega
    · have := hM.nodes; change 0 < M.nnode at this; beta_reduce; omega
  have lx : 0 < h * (nelx : α) := mul_pos hh (by exact_mod_cast hx)
  have ly : 0 < h * (nely : α) := mul_pos hh (by exact_mod_cast hy)
  obtain ⟨y, y1, f', y2, y3⟩ := C78_patch hM lx ly s0 s1 s2 σ τ ρ υ a2 b2 (meshDofs_ok _) nd
    (fun k hk => ⟨k / 2, k % 2, by change k / 2 < M.nnode; omega, by omega, by beta_reduce; omega⟩) hC hE hb hu hi hin (fun m i hm hi' hin' => by
      obtain ⟨iy, ix, h1, h2, rfl⟩ := split m hm
      obtain ⟨p0, p1⟩ := pos iy ix h1 h2
      refine hbd iy ix i h1 h2 hi' ?_
      by_contra hc
      push Not at hc
      refine hin' ⟨?_, ?_, ?_, ?_⟩
      · rw [p0]; exact mul_pos hh (by exact_mod_cast Nat.pos_of_ne_zero hc.2.2.1)
      · rw [p0, mul_lt_mul_iff_right₀ hh]; exact_mod_cast lt_of_le_of_ne h2 hc.2.2.2
      · rw [p1]; exact mul_pos hh (by exact_mod_cast Nat.pos_of_ne_zero hc.1)
      · rw [p1, mul_lt_mul_iff_right₀ hh]; exact_mod_cast lt_of_le_of_ne h1 hc.2.1)
    (A := A) (a := a) (fA := fun k => a (k % 2) + ∑ j ∈ range 2, A (k % 2) j * x (k / 2) j)
    (fun m i hm hi' => by beta_reduce; rw [show (m * 2 + i) % 2 = i by omega, show (m * 2 + i) / 2 = m by omega])
    (fun k hk => by
      have hk' : k < 2 * M.nnode := hin k hk
      obtain ⟨iy, ix, h1, h2, e⟩ := split (k / 2) (by omega)
      have ek : k = (iy * (nelx + 1) + ix) * 2 + k % 2 := by rw [← e]; omega
      have := hf iy ix (k % 2) h1 h2 (by omega) (by rw [← ek]; exact hk)
      rw [← ek] at this
      rw [this, e, sum_range_succ, sum_range_succ, sum_range_zero, (pos iy ix h1 h2).1, (pos iy ix h1 h2).2]
      ring) hSol
  have a1' : Quad4.Regular.conn M = .ok ct := a1
  refine ⟨y, by simp only [a1', b1', Res.ok_bind]; exact y1, f', y2, fun iy ix j h1 h2 hj => ?_⟩
  have hm : iy * (nelx + 1) + ix < M.nnode := by
    have := grid_lt (show iy < nely + 1 by omega) (show ix < nelx + 1 by omega)
    rw [Nat.mul_comm (nely + 1)] at this; exact this
  have := y3 _ j hm hj
  beta_reduce at this
  rw [this, sum_range_succ, sum_range_succ, sum_range_zero, (pos iy ix h1 h2).1, (pos iy ix h1 h2).2]
  ring

/-- **C78** (Quad4 `FineLayer`) -/
theorem C78_finelayer {nelx nely : Nat} (hx : 0 < nelx) (hy : 0 < nely) {h : α} (hh : 0 < h) (nfine : Nat) {s : α} (s0 : s ≠ 0)
    (s1 : -1 ≤ s) (s2 : s ≤ 1) (σ τ ρ : Sched) (υ : Nat → Sched) {C} (hE : Elastic C) {A : Nat → Nat → α} {a : Nat → α}
    {S : LinSolver α} (hSol : S.Suits (Major 2 C)) :
    ∃ M Ny ct x, FineLayer.new nelx nely h nfine = .ok M ∧ M.nely = .ok Ny ∧ M.coor = .ok ct ∧ Is2 ct M.nnode 2 x ∧
      ∀ (Ct b u : Ten α) (f : Nat → α) (iip : List Nat), Is6 Ct M.nelem 4 2 2 2 2 (fun _ _ => C) → Is1 b (2 * M.nnode) (fun _ => 0) →
        Is1 u (2 * M.nnode) f → iip.Nodup → (∀ k ∈ iip, k < 2 * M.nnode) →
        (∀ m i, m < M.nnode → i < 2 → ¬ (0 < x m 0 ∧ x m 0 < h * (nelx : α) ∧ 0 < x m 1 ∧ x m 1 < h * (Ny : α)) → m * 2 + i ∈ iip) →
        (∀ m i, m < M.nnode → i < 2 → m * 2 + i ∈ iip → f (m * 2 + i) = a i + ∑ j ∈ range 2, A i j * x m j) →
    IsOk (do
      let conn ← M.conn
      let coor ← M.coor
      let dofs := meshDofs M.nnode 2
      let (_, Q) ← setup s σ τ conn dofs coor
      solveLinear S ρ υ conn dofs iip Q Ct b u) fun y => ∃ f', Is1 y (2 * M.nnode) f' ∧ ∀ m i, m < M.nnode → i < 2 →
        f' (m * 2 + i) = a i + ∑ j ∈ range 2, A i j * x m j := by
  obtain ⟨M, Ny, c, x, O, h1, h2, hA, hM⟩ := C73_finelayer nelx nely hy hh nfine
  obtain ⟨M', n, W, G, R, Ny', -, -, h1', -, -, e1, -, hNy, -⟩ := FineLayer.meshN nelx nely hy h nfine
  obtain rfl : M = M' := by rw [h1] at h1'; injection h1'
  obtain rfl : Ny = Ny' := by rw [h2] at e1; injection e1
  obtain ⟨ct, a1, a2⟩ := hA.conn
  obtain ⟨xt, b1, b2⟩ := hA.coor
  refine ⟨M, Ny, xt, x, h1, h2, b1, b2, fun Ct b u f iip hC hb hu hi hin hbd hf => ?_⟩
  have nd : NumDofs M.nnode (fun m i => m * 2 + i) (2 * M.nnode) := by
    have := hM.nodes
    exact ⟨fun m i hm hi => by beta_reduce; omega, M.nnode - 1, 1, by omega, by omega, by beta_reduce; omega⟩
  have lx : 0 < h * (nelx : α) := mul_pos hh (by exact_mod_cast hx)
  have ly : 0 < h * (Ny : α) := mul_pos hh (by exact_mod_cast hNy)
  obtain ⟨y, y1, f', y2, y3⟩ := C78_patch hM lx ly s0 s1 s2 σ τ ρ υ a2 b2 (meshDofs_ok _) nd
    (fun k hk => ⟨k / 2, k % 2, by omega, by omega, by beta_reduce; omega⟩) hC hE hb hu hi hin hbd
    (A := A) (a := a) (fA := fun k => a (k % 2) + ∑ j ∈ range 2, A (k % 2) j * x (k / 2) j)
    (fun m i hm hi' => by beta_reduce; rw [show (m * 2 + i) % 2 = i by omega, show (m * 2 + i) / 2 = m by omega])
    (fun k hk => by
      have hk' := hin k hk
      have ek : k = k / 2 * 2 + k % 2 := by omega
      have := hf (k / 2) (k % 2) (by omega) (by omega) (by rw [← ek]; exact hk)
      rw [← ek] at this
      exact this) hSol
  exact ⟨y, by simp only [a1, b1, Res.ok_bind]; exact y1, f', y2, y3⟩

/-- all hypotheses of `C78_quad4_regular` can be met: a stretched 2 x 2 mesh, with one unknown node -/
example : ∃ (S : LinSolver ℚ) (iip : List Nat) (f : Nat → ℚ), S.Suits (Major 2 (isotropic (1 : ℚ) 1)) ∧ Elastic (isotropic (1 : ℚ) 1) ∧ iip.Nodup ∧
    (∀ k ∈ iip, k < 2 * ((2 + 1) * (2 + 1))) ∧ 8 ∉ iip ∧ 9 ∉ iip ∧
    (∀ iy ix j, iy ≤ 2 → ix ≤ 2 → j < 2 → (iy = 0 ∨ iy = 2 ∨ ix = 0 ∨ ix = 2) → (iy * (2 + 1) + ix) * 2 + j ∈ iip) ∧ f 2 = 1 ∧
    ∀ iy ix j : Nat, iy ≤ 2 → ix ≤ 2 → j < 2 → (iy * (2 + 1) + ix) * 2 + j ∈ iip →
      f ((iy * (2 + 1) + ix) * 2 + j) = (0 : ℚ) + (if j = 0 then 1 else 0) * (1 * (ix : ℚ)) + 0 * (1 * (iy : ℚ)) := by
  obtain ⟨S, hS⟩ := exists_direct (α := ℚ)
  refine ⟨S, [0, 1, 2, 3, 4, 5, 6, 7, 10, 11, 12, 13, 14, 15, 16, 17], fun k => if k % 2 = 0 then ((k / 2 % 3 : Nat) : ℚ) else 0, hS.suits _,
    isotropic_elastic (by norm_num) (by norm_num), by decide, by decide, by decide, by decide, ?_, by norm_num, ?_⟩
  · intro iy ix j h1 h2 hj h
    have ey : iy = 0 ∨ iy = 1 ∨ iy = 2 := by omega
    have ex : ix = 0 ∨ ix = 1 ∨ ix = 2 := by omega
    have ej : j = 0 ∨ j = 1 := by omega
    rcases ey with rfl | rfl | rfl <;> rcases ex with rfl | rfl | rfl <;> rcases ej with rfl | rfl <;> simp at h ⊢
  · intro iy ix j h1 h2 hj _
    have e1 : ((iy * (2 + 1) + ix) * 2 + j) / 2 % 3 = ix := by omega
    have e2 : ((iy * (2 + 1) + ix) * 2 + j) % 2 = j := by omega
    simp only [e1, e2]
    split <;> simp

end GF
