import Verif.Spec.Energy
import Verif.Props.Statics

/-! **C109** the energy theorems of linear statics. -/

namespace GF
open Finset ElemSpec Element Element.Quad4

variable {α : Type} [Field α] [LinearOrder α] [IsStrictOrderedRing α]
variable {nn ne : Nat} {c d : Nat → Nat → Nat} {x : Nat → Nat → α} {Lx Ly : α} {O : Outline}

/-- the gradient of the shape functions and of the displacement, as functions -/
theorem dofGradient_ok {V : Vector} (hV : V.Holds c d) {n : Nat} (en : V.ndof = n) (e1 : V.nelem = ne) (e2 : V.nne = 4) (e4 : V.ndim = 2)
    {s : α} {Q : Quadrature α} (hQ : Live 2 1 ne 4 (fun q i => s * corner4 q i) (fun _ => 1) Q (fun e m i => x (c e m) i)) (f : Nat → α) :
    ∃ γ, DofGradient V Q n ne f γ := by
  refine ⟨grad 4 (Gf (D4 fun q i => s * corner4 q i) fun e m i => x (c e m) i) (fun e m i => f (d (c e m) i)), fun σ τ u hu => ?_⟩
  obtain ⟨ue, u1, u2⟩ := C03_element_of_dofs hV σ (by rw [en]; exact hu)
  rw [e1, e2, e4] at u2
  obtain ⟨gt, g1, g2⟩ := GradN_ok hQ τ u2
  exact ⟨gt, by simp only [gradient, u1, g1, Res.ok_bind], g2⟩

/-- the linear problem: the matrix `B` of its system of equations, the energy of its quadratic form, and the solution for every
load, prescribed displacement and set of prescribed DOFs -/
theorem energy_core (hM : RectMesh nn ne c x Lx Ly O) (lx : 0 < Lx) (ly : 0 < Ly) {s : α} (s0 : s ≠ 0) (s1 : -1 ≤ s) (s2 : s ≤ 1)
    (σ τ ρ : Sched) {conn dofs : Ten Nat} {coor : Ten α} (hc : Is2 conn ne 4 c) (hx : Is2 coor nn 2 x) (hd : Is2 dofs nn 2 d)
    {n : Nat} (hn : NumDofs nn d n) (hgap : ∀ k, k < n → ∃ m i, m < nn ∧ i < 2 ∧ d m i = k) {Ct : Ten α} {C}
    (hC : Is6 Ct ne 4 2 2 2 2 C) (hE : ∀ e q, e < ne → q < 4 → Elastic (C e q)) :
    ∃ (V : Vector) (Q : Quadrature α) (B : Nat → Nat → α) (vol : Nat → Nat → α), setup s σ τ conn dofs coor = .ok (V, Q) ∧
      Is2 Q.vol ne 4 vol ∧ (∀ e q, e < ne → q < 4 → 0 < vol e q) ∧
      EnergyForm n B (fun iip f => Supported nn d x iip → ∀ k, k < n → f k = 0) (∀ e q, e < ne → q < 4 → Major 2 (C e q)) ∧
      (∀ w, ∃ γ, DofGradient V Q n ne w γ) ∧
      (∀ w γ, DofGradient V Q n ne w γ → ∑ r ∈ range n, (∑ s ∈ range n, B r s * w s) * w r =
        virtualWork ne vol (fun e q => ddot 2 (C e q) (γ e q)) γ) ∧
      (∀ ρ w γ sig, DofGradient V Q n ne w γ → Is4 sig ne 4 2 2 (fun e q => ddot 2 (C e q) (γ e q)) →
        IsOk (internalForce ρ V Q sig) fun t => Is1 t n fun r => ∑ s ∈ range n, B r s * w s) ∧
      ∀ (υ : Nat → Sched) (b u : Ten α) (g f : Nat → α) (iip : List Nat) (S : LinSolver α), Is1 b n g → Is1 u n f → iip.Nodup → (∀ k ∈ iip, k < n) →
        Supported nn d x iip → S.Suits (∀ e q, e < ne → q < 4 → Major 2 (C e q)) →
        ∃ y f', solveLinear S ρ υ conn dofs iip Q Ct b u = .ok y ∧ Is1 y n f' ∧ (∀ k ∈ iip, f' k = f k) ∧
          ∀ r, r < n → r ∉ iip → ∑ k ∈ range n, B r k * f' k = g r := by
  obtain ⟨V, Q, h1, hV, e1, e2, e3, e4, e5, hQ, hp⟩ := hM.setup s1 s2 σ τ hc hx hd
  obtain ⟨K, k1, k2, hK⟩ := C15_constructor (α := α) hc hd hM.valid
  obtain rfl := setup_vector h1 k2
  have en := hn.ndof hV e3 e4 e5
  obtain ⟨kt, k, r1, r2, r3, r4, r5⟩ := stiff_regular hM lx ly s0 hV e1 e2 e3 e4 hQ hp ρ hC hE
  have of1 : ∀ w : Nat → α, Is1 (Ten.of [n] fun ix => w (ix.getD 0 0)) n w := fun w => ⟨rfl, fun i _ => by simp [Ten.of]⟩
  rw [en] at r3 r5
  have vol := C46_volume hQ
  have eF : EnergyForm n (SMatrix.assembled K.V c d k) (fun iip f => Supported nn d x iip → ∀ k, k < n → f k = 0)
      (∀ e q, e < ne → q < 4 → Major 2 (C e q)) :=
    ⟨r5.nonneg, fun iip f h h' hS k hk => by obtain ⟨m, i, hm, hi, rfl⟩ := hgap k hk; exact r5.pos iip f h h' hS m i hm hi, r5.symm⟩
  refine ⟨K.V, Q, SMatrix.assembled K.V c d k, _, h1, vol, fun e q he hq => by rw [one_mul]; exact hp e q he hq, eF,
    fun w => dofGradient_ok hV en e1 e2 e4 hQ w, fun w γ hw => ?_, fun ρ' w γ sig hw hs => ?_, fun υ b u g f iip S hb hu hi hin hS hSol => ?_⟩
  · obtain ⟨F, vol', F1, F2, F3⟩ := C75_energy hK e2 e4 (by rw [e1]; exact hQ) σ τ ρ (by rw [e1]; exact hC) (by rw [en]; exact of1 w)
      (by rw [e1]; exact hw σ τ _ (of1 w))
    obtain ⟨t, t1, t2⟩ := F1
    obtain ⟨t', t1', t2'⟩ := r3 K rfl ⟨_, hK⟩ _ _ (of1 w)
    obtain rfl : t = t' := by rw [t1] at t1'; injection t1'
    rw [en] at t2 F3
    rw [e1] at F2 F3
    have e : ∑ r ∈ range n, (∑ s ∈ range n, SMatrix.assembled K.V c d k r s * w s) * w r = ∑ r ∈ range n, F r * w r :=
      sum_congr rfl fun r hr => by rw [t2.unique t2' (mem_range.1 hr)]
    rw [e, F3]
    exact sum_congr rfl fun e he => sum_congr rfl fun q hq => by rw [F2.unique vol (mem_range.1 he) (mem_range.1 hq)]
  · obtain ⟨F, ⟨t, F1, F2⟩, t', F3, F4⟩ := C75_tangent hK e2 e4 (by rw [e1]; exact hQ) σ τ ρ ρ' (by rw [e1]; exact hC) (by rw [en]; exact of1 w)
      (by rw [e1]; exact hw σ τ _ (of1 w)) (by rw [e1]; exact hs) (fun _ _ _ _ _ _ _ _ => rfl)
    obtain ⟨t'', F5, F6⟩ := r3 K rfl ⟨_, hK⟩ _ _ (of1 w)
    obtain rfl : t = t'' := by rw [F1] at F5; injection F5
    rw [en] at F2 F4
    exact ⟨t', F3, F4.congr fun r hr => F2.unique F6 hr⟩
  · obtain ⟨K', Q', y, f', B, h1', hK', -, -, -, -, -, -, -, y0, y2, y3, y4, q3, -⟩ :=
      solve_core hM lx ly s0 s1 s2 σ τ ρ υ hc hx hd hn hgap hC hE hb hu hi hin hS hSol
    rw [h1] at h1'
    obtain ⟨eV, rfl⟩ := Prod.mk.inj (Res.ok.inj h1')
    refine ⟨y, f', y0, y2, y3, fun r hr hri => ?_⟩
    obtain ⟨t, t1, t2⟩ := q3 y f' y2
    obtain ⟨t', t1', t2'⟩ := r3 K' eV.symm ⟨_, hK'⟩ y f' y2
    obtain rfl : t = t' := by rw [t1] at t1'; injection t1'
    rw [← y4 r hr hri]
    exact t2'.unique t2 hr

/-- the quadratic form of a sum, for a symmetric matrix -/
theorem EnergyForm.add {n : Nat} {B : Nat → Nat → α} {zero sym} (h : EnergyForm n B zero sym) (hs : sym) (f e : Nat → α) :
    ∑ r ∈ range n, (∑ s ∈ range n, B r s * (f s + e s)) * (f r + e r) =
      ∑ r ∈ range n, (∑ s ∈ range n, B r s * f s) * f r + 2 * ∑ r ∈ range n, (∑ s ∈ range n, B r s * f s) * e r +
        ∑ r ∈ range n, (∑ s ∈ range n, B r s * e s) * e r := by
  have cross : ∑ r ∈ range n, (∑ s ∈ range n, B r s * e s) * f r = ∑ r ∈ range n, (∑ s ∈ range n, B r s * f s) * e r := by
    simp only [sum_mul]
    rw [sum_comm]
    refine sum_congr rfl fun s hs' => sum_congr rfl fun r hr => ?_
    rw [h.symm hs r s (mem_range.1 hr) (mem_range.1 hs')]
    ring
  have : ∀ r, (∑ s ∈ range n, B r s * (f s + e s)) * (f r + e r) = (∑ s ∈ range n, B r s * f s) * f r +
      (∑ s ∈ range n, B r s * f s) * e r + (∑ s ∈ range n, B r s * e s) * f r + (∑ s ∈ range n, B r s * e s) * e r := fun r => by
    simp only [mul_add, sum_add_distrib]
    ring
  rw [sum_congr rfl fun r _ => this r, sum_add_distrib, sum_add_distrib, sum_add_distrib, cross]
  ring

/-- **C109** (minimum of the potential energy) Among all displacements with the prescribed values, the result of `Solve` has
the smallest potential energy, and it is the only one (up to DOFs that no node uses, of which there are none). -/
theorem C109_minimum (hM : RectMesh nn ne c x Lx Ly O) (lx : 0 < Lx) (ly : 0 < Ly) {s : α} (s0 : s ≠ 0) (s1 : -1 ≤ s) (s2 : s ≤ 1)
    (σ τ ρ : Sched) (υ : Nat → Sched) {conn dofs : Ten Nat} {coor : Ten α} (hc : Is2 conn ne 4 c) (hx : Is2 coor nn 2 x) (hd : Is2 dofs nn 2 d)
    {n : Nat} (hn : NumDofs nn d n) (hgap : ∀ k, k < n → ∃ m i, m < nn ∧ i < 2 ∧ d m i = k) {Ct b u : Ten α} {C g f}
    (hC : Is6 Ct ne 4 2 2 2 2 C) (hE : ∀ e q, e < ne → q < 4 → Elastic (C e q)) (hmaj : ∀ e q, e < ne → q < 4 → Major 2 (C e q))
    (hb : Is1 b n g) (hu : Is1 u n f) {iip : List Nat} (hi : iip.Nodup) (hin : ∀ k ∈ iip, k < n) (hS : Supported nn d x iip)
    {S : LinSolver α} (hSol : S.Suits True) :
    IsOk (do
      let (V, Q) ← setup s σ τ conn dofs coor
      let y ← solveLinear S ρ υ conn dofs iip Q Ct b u
      return (V, Q, y)) fun r => ∃ f' γ' vol, Is1 r.2.2 n f' ∧ DofGradient r.1 r.2.1 n ne f' γ' ∧ Is2 r.2.1.vol ne 4 vol ∧
        (∀ k ∈ iip, f' k = f k) ∧ (∀ w, ∃ γ, DofGradient r.1 r.2.1 n ne w γ) ∧
        ∀ w γ, (∀ k ∈ iip, w k = f k) → DofGradient r.1 r.2.1 n ne w γ →
          potential n ne vol C g f' γ' ≤ potential n ne vol C g w γ ∧
          (potential n ne vol C g w γ = potential n ne vol C g f' γ' → ∀ k, k < n → w k = f' k) := by
  obtain ⟨V, Q, B, vol, h1, hv, -, eF, hγ, en, -, sol⟩ := energy_core hM lx ly s0 s1 s2 σ τ ρ hc hx hd hn hgap hC hE
  obtain ⟨y, f', y0, y1, y2, eq⟩ := sol υ b u g f iip S hb hu hi hin hS (hSol.imp fun _ => hmaj)
  obtain ⟨γ', hγ'⟩ := hγ f'
  refine ⟨(V, Q, y), by simp only [h1, y0, Res.ok_bind]; rfl, f', γ', vol, y1, hγ', hv, y2, hγ, fun w γ hw hg => ?_⟩
  have key : potential n ne vol C g w γ = potential n ne vol C g f' γ' +
      (∑ r ∈ range n, (∑ s ∈ range n, B r s * (w s - f' s)) * (w r - f' r)) / 2 := by
    unfold potential
    rw [← en w γ hg, ← en f' γ' hγ']
    have := eF.add hmaj f' (fun k => w k - f' k)
    simp only [add_sub_cancel] at this
    rw [this]
    have z : ∑ r ∈ range n, (∑ s ∈ range n, B r s * f' s) * (w r - f' r) = ∑ r ∈ range n, g r * (w r - f' r) :=
      sum_congr rfl fun r hr => by
        by_cases hri : r ∈ iip
        · rw [hw r hri, y2 r hri, sub_self, mul_zero, mul_zero]
        · rw [eq r (mem_range.1 hr) hri]
    rw [z]
    simp only [mul_sub, sum_sub_distrib]
    ring
  have nonneg := eF.nonneg fun k => w k - f' k
  refine ⟨by rw [key]; linarith, fun h k hk => ?_⟩
  have z : ∑ r ∈ range n, (∑ s ∈ range n, B r s * (w s - f' s)) * (w r - f' r) = 0 := by rw [key] at h; linarith
  exact sub_eq_zero.1 (eF.pos iip (fun k => w k - f' k) (fun k hk => by rw [hw k hk, y2 k hk, sub_self]) z hS k hk)

/-- **C109** (superposition) The result of `Solve` is linear in the load and the prescribed displacements. -/
theorem C109_superposition (hM : RectMesh nn ne c x Lx Ly O) (lx : 0 < Lx) (ly : 0 < Ly) {s : α} (s0 : s ≠ 0) (s1 : -1 ≤ s) (s2 : s ≤ 1)
    (σ τ ρ : Sched) (υ : Nat → Nat → Sched) {conn dofs : Ten Nat} {coor : Ten α} (hc : Is2 conn ne 4 c) (hx : Is2 coor nn 2 x) (hd : Is2 dofs nn 2 d)
    {n : Nat} (hn : NumDofs nn d n) (hgap : ∀ k, k < n → ∃ m i, m < nn ∧ i < 2 ∧ d m i = k) {Ct b₁ b₂ b₃ u₁ u₂ u₃ : Ten α} {C g₁ g₂ g₃ f₁ f₂ f₃}
    (hC : Is6 Ct ne 4 2 2 2 2 C) (hE : ∀ e q, e < ne → q < 4 → Elastic (C e q))
    (hb₁ : Is1 b₁ n g₁) (hb₂ : Is1 b₂ n g₂) (hb₃ : Is1 b₃ n g₃) (hu₁ : Is1 u₁ n f₁) (hu₂ : Is1 u₂ n f₂) (hu₃ : Is1 u₃ n f₃)
    {iip : List Nat} (hi : iip.Nodup) (hin : ∀ k ∈ iip, k < n) (hS : Supported nn d x iip) {a a' : α}
    (hg : ∀ k, k < n → k ∉ iip → g₃ k = a * g₁ k + a' * g₂ k) (hf : ∀ k ∈ iip, f₃ k = a * f₁ k + a' * f₂ k)
    {S : LinSolver α} (hSol : S.Suits (∀ e q, e < ne → q < 4 → Major 2 (C e q))) :
    IsOk (do
      let (_, Q) ← setup s σ τ conn dofs coor
      let y₁ ← solveLinear S ρ (υ 0) conn dofs iip Q Ct b₁ u₁
      let y₂ ← solveLinear S ρ (υ 1) conn dofs iip Q Ct b₂ u₂
      let y₃ ← solveLinear S ρ (υ 2) conn dofs iip Q Ct b₃ u₃
      return (y₁, y₂, y₃)) fun r => ∃ v₁ v₂ v₃, Is1 r.1 n v₁ ∧ Is1 r.2.1 n v₂ ∧ Is1 r.2.2 n v₃ ∧
        ∀ k, k < n → v₃ k = a * v₁ k + a' * v₂ k := by
  obtain ⟨V, Q, B, vol, h1, -, -, eF, -, -, -, sol⟩ := energy_core hM lx ly s0 s1 s2 σ τ ρ hc hx hd hn hgap hC hE
  obtain ⟨y₁, v₁, p1, p2, p3, p4⟩ := sol (υ 0) b₁ u₁ g₁ f₁ iip S hb₁ hu₁ hi hin hS hSol
  obtain ⟨y₂, v₂, q1, q2, q3, q4⟩ := sol (υ 1) b₂ u₂ g₂ f₂ iip S hb₂ hu₂ hi hin hS hSol
  obtain ⟨y₃, v₃, r1, r2, r3, r4⟩ := sol (υ 2) b₃ u₃ g₃ f₃ iip S hb₃ hu₃ hi hin hS hSol
  refine ⟨(y₁, y₂, y₃), by simp only [h1, p1, q1, r1, Res.ok_bind]; rfl, v₁, v₂, v₃, p2, q2, r2, fun k hk => ?_⟩
  have z : ∀ j ∈ iip, v₃ j - (a * v₁ j + a' * v₂ j) = 0 := fun j hj => by rw [r3 j hj, p3 j hj, q3 j hj, hf j hj, sub_self]
  refine sub_eq_zero.1 (eF.pos iip (fun j => v₃ j - (a * v₁ j + a' * v₂ j)) z (sum_eq_zero fun r hr => ?_) hS k hk)
  by_cases hri : r ∈ iip
  · rw [z r hri, mul_zero]
  · rw [mem_range] at hr
    have e : ∑ s ∈ range n, B r s * (v₃ s - (a * v₁ s + a' * v₂ s)) = ∑ s ∈ range n, B r s * v₃ s -
        (a * ∑ s ∈ range n, B r s * v₁ s + a' * ∑ s ∈ range n, B r s * v₂ s) := by
      rw [mul_sum, mul_sum, ← sum_add_distrib, ← sum_sub_distrib]
      exact sum_congr rfl fun _ _ => by ring
    rw [e, p4 r hr hri, q4 r hr hri, r4 r hr hri, hg r hr hri, sub_self, zero_mul]

/-- **C109** (reciprocity) With a symmetric tangent, the internal forces of one displacement do the same work on another one
as the internal forces of the latter on the former. -/
theorem C109_reciprocity (hM : RectMesh nn ne c x Lx Ly O) (lx : 0 < Lx) (ly : 0 < Ly) {s : α} (s0 : s ≠ 0) (s1 : -1 ≤ s) (s2 : s ≤ 1)
    (σ τ ρ ρ' : Sched) {conn dofs : Ten Nat} {coor : Ten α} (hc : Is2 conn ne 4 c) (hx : Is2 coor nn 2 x) (hd : Is2 dofs nn 2 d)
    {n : Nat} (hn : NumDofs nn d n) (hgap : ∀ k, k < n → ∃ m i, m < nn ∧ i < 2 ∧ d m i = k) {C : Nat → Nat → Nat → Nat → Nat → Nat → α}
    (hE : ∀ e q, e < ne → q < 4 → Elastic (C e q)) (hmaj : ∀ e q, e < ne → q < 4 → Major 2 (C e q)) (f₁ f₂ : Nat → α) :
    IsOk (setup s σ τ conn dofs coor) fun Z => ∃ γ₁ γ₂, DofGradient Z.1 Z.2 n ne f₁ γ₁ ∧ DofGradient Z.1 Z.2 n ne f₂ γ₂ ∧
      ∀ sig₁ sig₂, Is4 sig₁ ne 4 2 2 (fun e q => ddot 2 (C e q) (γ₁ e q)) → Is4 sig₂ ne 4 2 2 (fun e q => ddot 2 (C e q) (γ₂ e q)) →
        ∃ t₁ t₂ F₁ F₂, internalForce ρ Z.1 Z.2 sig₁ = .ok t₁ ∧ internalForce ρ' Z.1 Z.2 sig₂ = .ok t₂ ∧ Is1 t₁ n F₁ ∧ Is1 t₂ n F₂ ∧
          ∑ k ∈ range n, F₁ k * f₂ k = ∑ k ∈ range n, F₂ k * f₁ k := by
  have hC : Is6 (Ten.of [ne, 4, 2, 2, 2, 2] fun ix => C (ix.getD 0 0) (ix.getD 1 0) (ix.getD 2 0) (ix.getD 3 0) (ix.getD 4 0) (ix.getD 5 0))
      ne 4 2 2 2 2 C := ⟨rfl, fun e q i j k l _ _ _ _ _ _ => by simp [Ten.of]⟩
  obtain ⟨V, Q, B, vol, h1, -, -, eF, hγ, -, tang, -⟩ := energy_core hM lx ly s0 s1 s2 σ τ ρ hc hx hd hn hgap hC hE
  obtain ⟨γ₁, g1⟩ := hγ f₁
  obtain ⟨γ₂, g2⟩ := hγ f₂
  refine ⟨(V, Q), h1, γ₁, γ₂, g1, g2, fun sig₁ sig₂ h₁ h₂ => ?_⟩
  obtain ⟨t₁, a1, a2⟩ := tang ρ f₁ γ₁ sig₁ g1 h₁
  obtain ⟨t₂, b1, b2⟩ := tang ρ' f₂ γ₂ sig₂ g2 h₂
  refine ⟨t₁, t₂, _, _, a1, b1, a2, b2, ?_⟩
  simp only [sum_mul]
  rw [sum_comm]
  refine sum_congr rfl fun s hs' => sum_congr rfl fun r hr => ?_
  rw [eF.symm hmaj r s (mem_range.1 hr) (mem_range.1 hs')]
  ring

/-- **C109** (Clapeyron) Without prescribed movement the elastic energy of the result of `Solve` is half the work of the load. -/
theorem C109_clapeyron (hM : RectMesh nn ne c x Lx Ly O) (lx : 0 < Lx) (ly : 0 < Ly) {s : α} (s0 : s ≠ 0) (s1 : -1 ≤ s) (s2 : s ≤ 1)
    (σ τ ρ : Sched) (υ : Nat → Sched) {conn dofs : Ten Nat} {coor : Ten α} (hc : Is2 conn ne 4 c) (hx : Is2 coor nn 2 x) (hd : Is2 dofs nn 2 d)
    {n : Nat} (hn : NumDofs nn d n) (hgap : ∀ k, k < n → ∃ m i, m < nn ∧ i < 2 ∧ d m i = k) {Ct b u : Ten α} {C g f}
    (hC : Is6 Ct ne 4 2 2 2 2 C) (hE : ∀ e q, e < ne → q < 4 → Elastic (C e q))
    (hb : Is1 b n g) (hu : Is1 u n f) {iip : List Nat} (hf : ∀ k ∈ iip, f k = 0) (hi : iip.Nodup) (hin : ∀ k ∈ iip, k < n)
    (hS : Supported nn d x iip) {S : LinSolver α} (hSol : S.Suits (∀ e q, e < ne → q < 4 → Major 2 (C e q))) :
    IsOk (do
      let (V, Q) ← setup s σ τ conn dofs coor
      let y ← solveLinear S ρ υ conn dofs iip Q Ct b u
      return (V, Q, y)) fun r => ∃ f' γ' vol, Is1 r.2.2 n f' ∧ DofGradient r.1 r.2.1 n ne f' γ' ∧ Is2 r.2.1.vol ne 4 vol ∧
        virtualWork ne vol (fun e q => ddot 2 (C e q) (γ' e q)) γ' = ∑ k ∈ range n, g k * f' k := by
  obtain ⟨V, Q, B, vol, h1, hv, -, eF, hγ, en, -, sol⟩ := energy_core hM lx ly s0 s1 s2 σ τ ρ hc hx hd hn hgap hC hE
  obtain ⟨y, f', y0, y1, y2, eq⟩ := sol υ b u g f iip S hb hu hi hin hS hSol
  obtain ⟨γ', hγ'⟩ := hγ f'
  refine ⟨(V, Q, y), by simp only [h1, y0, Res.ok_bind]; rfl, f', γ', vol, y1, hγ', hv, ?_⟩
  rw [← en f' γ' hγ']
  refine sum_congr rfl fun r hr => ?_
  by_cases hri : r ∈ iip
  · rw [y2 r hri, hf r hri, mul_zero, mul_zero]
  · rw [eq r (mem_range.1 hr) hri]

/-- **C109** (support) Prescribing more DOFs (at the position zero) can only lower the work of the load: the structure gets stiffer. -/
theorem C109_support (hM : RectMesh nn ne c x Lx Ly O) (lx : 0 < Lx) (ly : 0 < Ly) {s : α} (s0 : s ≠ 0) (s1 : -1 ≤ s) (s2 : s ≤ 1)
    (σ τ ρ : Sched) (υ : Nat → Nat → Sched) {conn dofs : Ten Nat} {coor : Ten α} (hc : Is2 conn ne 4 c) (hx : Is2 coor nn 2 x) (hd : Is2 dofs nn 2 d)
    {n : Nat} (hn : NumDofs nn d n) (hgap : ∀ k, k < n → ∃ m i, m < nn ∧ i < 2 ∧ d m i = k) {Ct b u : Ten α} {C g}
    (hC : Is6 Ct ne 4 2 2 2 2 C) (hE : ∀ e q, e < ne → q < 4 → Elastic (C e q)) (hmaj : ∀ e q, e < ne → q < 4 → Major 2 (C e q))
    (hb : Is1 b n g) (hu : Is1 u n fun _ => 0) {iip iip' : List Nat} (hi : iip.Nodup) (hi' : iip'.Nodup) (hin' : ∀ k ∈ iip', k < n)
    (hsub : iip ⊆ iip') (hS : Supported nn d x iip) {S : LinSolver α} (hSol : S.Suits True) :
    IsOk (do
      let (_, Q) ← setup s σ τ conn dofs coor
      let y ← solveLinear S ρ (υ 0) conn dofs iip Q Ct b u
      let y' ← solveLinear S ρ (υ 1) conn dofs iip' Q Ct b u
      return (y, y')) fun r => ∃ v v', Is1 r.1 n v ∧ Is1 r.2 n v' ∧ ∑ k ∈ range n, g k * v' k ≤ ∑ k ∈ range n, g k * v k := by
  obtain ⟨V, Q, B, vol, h1, hv, -, eF, hγ, en, -, sol⟩ := energy_core hM lx ly s0 s1 s2 σ τ ρ hc hx hd hn hgap hC hE
  have hS' : Supported nn d x iip' := fun f θ b₀ b₁ h h' => hS f θ b₀ b₁ h fun k hk => h' k (hsub hk)
  obtain ⟨y, v, p1, p2, p3, p4⟩ := sol (υ 0) b u g _ iip S hb hu hi (fun k hk => hin' k (hsub hk)) hS (hSol.imp fun _ => hmaj)
  obtain ⟨y', v', q1, q2, q3, q4⟩ := sol (υ 1) b u g _ iip' S hb hu hi' hin' hS' (hSol.imp fun _ => hmaj)
  refine ⟨(y, y'), by simp only [h1, p1, q1, Res.ok_bind]; rfl, v, v', p2, q2, ?_⟩
  have a1 : ∑ r ∈ range n, (∑ s ∈ range n, B r s * v s) * v r = ∑ k ∈ range n, g k * v k := sum_congr rfl fun r hr => by
    by_cases hri : r ∈ iip
    · rw [p3 r hri, mul_zero, mul_zero]
    · rw [p4 r (mem_range.1 hr) hri]
  have a2 : ∑ r ∈ range n, (∑ s ∈ range n, B r s * v' s) * v' r = ∑ k ∈ range n, g k * v' k := sum_congr rfl fun r hr => by
    by_cases hri : r ∈ iip'
    · rw [q3 r hri, mul_zero, mul_zero]
    · rw [q4 r (mem_range.1 hr) hri]
  have a3 : ∑ r ∈ range n, (∑ s ∈ range n, B r s * v s) * v' r = ∑ k ∈ range n, g k * v' k := sum_congr rfl fun r hr => by
    by_cases hri : r ∈ iip
    · rw [q3 r (hsub hri), mul_zero, mul_zero]
    · rw [p4 r (mem_range.1 hr) hri]
  have e := eF.add hmaj v' (fun k => v k - v' k)
  simp only [add_sub_cancel] at e
  have e' := eF.add hmaj v (fun k => v' k - v k)
  simp only [add_sub_cancel] at e'
  have nn := eF.nonneg fun k => v' k - v k
  have a4 : ∑ r ∈ range n, (∑ s ∈ range n, B r s * v s) * (v' r - v r) =
      ∑ k ∈ range n, g k * v' k - ∑ k ∈ range n, g k * v k := by
    simp only [mul_sub, sum_sub_distrib, a1, a3]
  rw [a2, a1, a4] at e'
  linarith

/-- **C109** (stiffer material) If the energy density of one material is nowhere higher than that of another for any strain, then,
with the same prescribed displacements and no load, the same holds for the elastic energy of the results of `Solve`. -/
theorem C109_material (hM : RectMesh nn ne c x Lx Ly O) (lx : 0 < Lx) (ly : 0 < Ly) {s : α} (s0 : s ≠ 0) (s1 : -1 ≤ s) (s2 : s ≤ 1)
    (σ τ ρ : Sched) (υ : Nat → Nat → Sched) {conn dofs : Ten Nat} {coor : Ten α} (hc : Is2 conn ne 4 c) (hx : Is2 coor nn 2 x) (hd : Is2 dofs nn 2 d)
    {n : Nat} (hn : NumDofs nn d n) (hgap : ∀ k, k < n → ∃ m i, m < nn ∧ i < 2 ∧ d m i = k) {Ct Ct' b u : Ten α} {C C' f}
    (hC : Is6 Ct ne 4 2 2 2 2 C) (hE : ∀ e q, e < ne → q < 4 → Elastic (C e q)) (hmaj : ∀ e q, e < ne → q < 4 → Major 2 (C e q))
    (hC' : Is6 Ct' ne 4 2 2 2 2 C') (hE' : ∀ e q, e < ne → q < 4 → Elastic (C' e q)) (hmaj' : ∀ e q, e < ne → q < 4 → Major 2 (C' e q))
    (hle : ∀ e q γ, e < ne → q < 4 → power 2 (ddot 2 (C e q) γ) γ ≤ power 2 (ddot 2 (C' e q) γ) γ)
    (hb : Is1 b n fun _ => 0) (hu : Is1 u n f) {iip : List Nat} (hi : iip.Nodup) (hin : ∀ k ∈ iip, k < n)
    (hS : Supported nn d x iip) {S : LinSolver α} (hSol : S.Suits True) :
    IsOk (do
      let (V, Q) ← setup s σ τ conn dofs coor
      let y ← solveLinear S ρ (υ 0) conn dofs iip Q Ct b u
      let y' ← solveLinear S ρ (υ 1) conn dofs iip Q Ct' b u
      let g ← gradient σ τ V Q y
      let g' ← gradient σ τ V Q y'
      return (Q, g, g')) fun r => ∃ γ γ' vol, Is4 r.2.1 ne 4 2 2 γ ∧ Is4 r.2.2 ne 4 2 2 γ' ∧ Is2 r.1.vol ne 4 vol ∧
        virtualWork ne vol (fun e q => ddot 2 (C e q) (γ e q)) γ ≤ virtualWork ne vol (fun e q => ddot 2 (C' e q) (γ' e q)) γ' := by
  obtain ⟨V, Q, B, vol, h1, hv, hpos, eF, hγ, en, -, sol⟩ := energy_core hM lx ly s0 s1 s2 σ τ ρ hc hx hd hn hgap hC hE
  obtain ⟨V', Q', B', vol', h1', hv', -, eF', -, -, -, sol'⟩ := energy_core hM lx ly s0 s1 s2 σ τ ρ hc hx hd hn hgap hC' hE'
  rw [h1] at h1'
  obtain ⟨rfl, rfl⟩ := Prod.mk.inj (Res.ok.inj h1')
  obtain ⟨y, v, p1, p2, p3, p4⟩ := sol (υ 0) b u _ f iip S hb hu hi hin hS (hSol.imp fun _ => hmaj)
  obtain ⟨y', v', q1, q2, q3, q4⟩ := sol' (υ 1) b u _ f iip S hb hu hi hin hS (hSol.imp fun _ => hmaj')
  obtain ⟨γ, g⟩ := hγ v
  obtain ⟨γ', g'⟩ := hγ v'
  obtain ⟨t, t1, t2⟩ := g σ τ y p2
  obtain ⟨t', t1', t2'⟩ := g' σ τ y' q2
  refine ⟨(Q, t, t'), by simp only [h1, p1, q1, t1, t1', Res.ok_bind]; rfl, γ, γ', vol, t2, t2', hv, ?_⟩
  have le1 : virtualWork ne vol (fun e q => ddot 2 (C e q) (γ' e q)) γ' ≤ virtualWork ne vol (fun e q => ddot 2 (C' e q) (γ' e q)) γ' :=
    sum_le_sum fun e he => sum_le_sum fun q hq =>
      mul_le_mul_of_nonneg_right (hle e q _ (mem_range.1 he) (mem_range.1 hq)) (hpos e q (mem_range.1 he) (mem_range.1 hq)).le
  refine le_trans ?_ le1
  rw [← en v γ g, ← en v' γ' g']
  have e := eF.add hmaj v (fun k => v' k - v k)
  simp only [add_sub_cancel] at e
  have nn := eF.nonneg fun k => v' k - v k
  have z : ∑ r ∈ range n, (∑ s ∈ range n, B r s * v s) * (v' r - v r) = 0 := sum_eq_zero fun r hr => by
    by_cases hri : r ∈ iip
    · rw [q3 r hri, p3 r hri, sub_self, mul_zero]
    · rw [p4 r (mem_range.1 hr) hri, zero_mul]
  rw [e, z]
  linarith

end GF
