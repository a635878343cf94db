import Verif.Spec.Energy3
import Verif.Props.Energy
import Verif.Props.PeriodicCell3

/-! **C113** the energy theorems of linear statics in three dimensions. -/

namespace GF
open Finset ElemSpec Element Element.Hex8
open Element.Quad4 (ddot power grad)

variable {α : Type} [Field α] [LinearOrder α] [IsStrictOrderedRing α]
variable {nn ne : Nat} {c d : Nat → Nat → Nat} {x : Nat → Nat → α} {gr : BoxGrid} {p : Nat → Nat → α}

/-- the gradient of the shape functions and of the displacement, as functions -/
theorem dofGradient3_ok {V : Vector} (hV : V.Holds c d) {n : Nat} (en : V.ndof = n) (e1 : V.nelem = ne) (e2 : V.nne = 8) (e4 : V.ndim = 3)
    {s : α} {Q : Quadrature α} (hQ : Live ne 8 (fun q i => s * corner8 q i) (fun _ => 1) Q (fun e m i => x (c e m) i)) (f : Nat → α) :
    ∃ γ, DofGradient3 V Q n ne f γ := by
  refine ⟨grad 8 (G8 (D8 fun q i => s * corner8 q i) fun e m i => x (c e m) i) (fun e m i => f (d (c e m) i)), fun σ τ u hu => ?_⟩
  obtain ⟨ue, u1, u2⟩ := C03_element_of_dofs hV σ (by rw [en]; exact hu)
  rw [e1, e2, e4] at u2
  obtain ⟨gt, g1, g2⟩ := GradN_ok hQ τ u2
  exact ⟨gt, by simp only [gradient3, u1, g1, Res.ok_bind], g2⟩

/-- the linear problem: the matrix `B` of its system of equations, the energy of its quadratic form, and the solution for every
load, prescribed displacement and set of prescribed DOFs -/
theorem energy_core3 (hM : BoxMesh nn ne c x gr p) {s : α} (s0 : s ≠ 0)
    (σ τ ρ : Sched) {conn dofs : Ten Nat} {coor : Ten α} (hc : Is2 conn ne 8 c) (hx : Is2 coor nn 3 x) (hd : Is2 dofs nn 3 d)
    {n : Nat} (hn : NumDofs3 nn d n) (hgap : ∀ k, k < n → ∃ m i, m < nn ∧ i < 3 ∧ d m i = k) {Ct : Ten α} {C}
    (hC : Is6 Ct ne 8 3 3 3 3 C) (hE : ∀ e q, e < ne → q < 8 → Elastic3 (C e q)) :
    ∃ (V : Vector) (Q : Quadrature α) (B : Nat → Nat → α) (vol : Nat → Nat → α), setup3 s σ τ conn dofs coor = .ok (V, Q) ∧
      Is2 Q.vol ne 8 vol ∧ (∀ e q, e < ne → q < 8 → 0 < vol e q) ∧
      EnergyForm n B (fun iip f => Supported3 nn d x iip → ∀ k, k < n → f k = 0) (∀ e q, e < ne → q < 8 → Major 3 (C e q)) ∧
      (∀ w, ∃ γ, DofGradient3 V Q n ne w γ) ∧
      (∀ w γ, DofGradient3 V Q n ne w γ → ∑ r ∈ range n, (∑ s ∈ range n, B r s * w s) * w r =
        virtualWork3 ne vol (fun e q => ddot 3 (C e q) (γ e q)) γ) ∧
      (∀ ρ w γ sig, DofGradient3 V Q n ne w γ → Is4 sig ne 8 3 3 (fun e q => ddot 3 (C e q) (γ e q)) →
        IsOk (internalForce3 ρ V Q sig) fun t => Is1 t n fun r => ∑ s ∈ range n, B r s * w s) ∧
      ∀ (υ : Nat → Sched) (b u : Ten α) (g f : Nat → α) (iip : List Nat) (S : LinSolver α), Is1 b n g → Is1 u n f → iip.Nodup → (∀ k ∈ iip, k < n) →
        Supported3 nn d x iip → S.Suits (∀ e q, e < ne → q < 8 → Major 3 (C e q)) →
        ∃ y f', solveLinear S ρ υ conn dofs iip Q Ct b u = .ok y ∧ Is1 y n f' ∧ (∀ k ∈ iip, f' k = f k) ∧
          ∀ r, r < n → r ∉ iip → ∑ k ∈ range n, B r k * f' k = g r := by
  obtain ⟨V, Q, h1, h2, hV, e1, e2, e3, e4, e5, hQ⟩ := hM.setup s σ τ hc hx hd
  obtain ⟨K, k1, k2, hK⟩ := C15_constructor (α := α) hc hd hM.valid
  obtain rfl : V = K.V := by rw [h2] at k2; injection k2
  have en := (hn.unique e5).symm
  obtain ⟨kt, k, r1, r2, r3, r4, r5⟩ := stiff_regular3 hM s0 hV e1 e2 e4 hQ ρ hC hE
  have of1 : ∀ w : Nat → α, Is1 (Ten.of [n] fun ix => w (ix.getD 0 0)) n w := fun w => ⟨rfl, fun i _ => by simp [Ten.of]⟩
  rw [en] at r3 r5
  have vol : Is2 Q.vol ne 8 (cellVol3 s x c) := (C55_volume hQ).congr fun _ _ _ _ => one_mul _
  have eF : EnergyForm n (SMatrix.assembled K.V c d k) (fun iip f => Supported3 nn d x iip → ∀ k, k < n → f k = 0)
      (∀ e q, e < ne → q < 8 → Major 3 (C e q)) :=
    ⟨r5.nonneg, fun iip f h h' hS k hk => by obtain ⟨m, i, hm, hi, rfl⟩ := hgap k hk; exact r5.pos iip f h h' hS m i hm hi, r5.symm⟩
  refine ⟨K.V, Q, SMatrix.assembled K.V c d k, _, h1, vol, fun e q he hq => hM.vol_pos s he, eF,
    fun w => dofGradient3_ok hV en e1 e2 e4 hQ w, fun w γ hw => ?_, fun ρ' w γ sig hw hs => ?_, fun υ b u g f iip S hb hu hi hin hS hSol => ?_⟩
  · obtain ⟨F, vol', F1, F2, F3⟩ := C91_energy hK e2 e4 (by rw [e1]; exact hQ) σ τ ρ (by rw [e1]; exact hC) (by rw [en]; exact of1 w)
      (by rw [e1]; exact hw σ τ _ (of1 w))
    obtain ⟨t, t1, t2⟩ := F1
    obtain ⟨t', t1', t2'⟩ := r3 K rfl ⟨_, hK⟩ _ _ (of1 w)
    obtain rfl : t = t' := by rw [t1] at t1'; injection t1'
    rw [en] at t2 F3
    rw [e1] at F2 F3
    have e : ∑ r ∈ range n, (∑ s ∈ range n, SMatrix.assembled K.V c d k r s * w s) * w r = ∑ r ∈ range n, F r * w r :=
      sum_congr rfl fun r hr => by rw [t2.unique t2' (mem_range.1 hr)]
    rw [e, F3]
    exact sum_congr rfl fun e he => sum_congr rfl fun q hq => by rw [F2.unique vol (mem_range.1 he) (mem_range.1 hq)]
  · obtain ⟨F, ⟨t, F1, F2⟩, t', F3, F4⟩ := C91_tangent hK e2 e4 (by rw [e1]; exact hQ) σ τ ρ ρ' (by rw [e1]; exact hC) (by rw [en]; exact of1 w)
      (by rw [e1]; exact hw σ τ _ (of1 w)) (by rw [e1]; exact hs) (fun _ _ _ _ _ _ _ _ => rfl)
    obtain ⟨t'', F5, F6⟩ := r3 K rfl ⟨_, hK⟩ _ _ (of1 w)
    obtain rfl : t = t'' := by rw [F1] at F5; injection F5
    rw [en] at F2 F4
    exact ⟨t', F3, F4.congr fun r hr => F2.unique F6 hr⟩
  · obtain ⟨K', Q', y, f', B, h1', hK', -, -, -, -, -, -, y0, y2, y3, y4, q3, -⟩ :=
      solve_core3 hM s0 σ τ ρ υ hc hx hd hn hgap hC hE hb hu hi hin hS hSol
    rw [h1] at h1'
    obtain ⟨eV, rfl⟩ := Prod.mk.inj (Res.ok.inj h1')
    refine ⟨y, f', y0, y2, y3, fun r hr hri => ?_⟩
    obtain ⟨t, t1, t2⟩ := q3 y f' y2
    obtain ⟨t', t1', t2'⟩ := r3 K' eV.symm ⟨_, hK'⟩ y f' y2
    obtain rfl : t = t' := by rw [t1] at t1'; injection t1'
    rw [← y4 r hr hri]
    exact t2'.unique t2 hr

/-- **C113** (minimum of the potential3 energy) Among all displacements with the prescribed values, the result of `Solve` has
the smallest potential3 energy, and it is the only one (up to DOFs that no node uses, of which there are none). -/
theorem C113_minimum (hM : BoxMesh nn ne c x gr p) {s : α} (s0 : s ≠ 0)
    (σ τ ρ : Sched) (υ : Nat → Sched) {conn dofs : Ten Nat} {coor : Ten α} (hc : Is2 conn ne 8 c) (hx : Is2 coor nn 3 x) (hd : Is2 dofs nn 3 d)
    {n : Nat} (hn : NumDofs3 nn d n) (hgap : ∀ k, k < n → ∃ m i, m < nn ∧ i < 3 ∧ d m i = k) {Ct b u : Ten α} {C g f}
    (hC : Is6 Ct ne 8 3 3 3 3 C) (hE : ∀ e q, e < ne → q < 8 → Elastic3 (C e q)) (hmaj : ∀ e q, e < ne → q < 8 → Major 3 (C e q))
    (hb : Is1 b n g) (hu : Is1 u n f) {iip : List Nat} (hi : iip.Nodup) (hin : ∀ k ∈ iip, k < n) (hS : Supported3 nn d x iip)
    {S : LinSolver α} (hSol : S.Suits True) :
    IsOk (do
      let (V, Q) ← setup3 s σ τ conn dofs coor
      let y ← solveLinear S ρ υ conn dofs iip Q Ct b u
      return (V, Q, y)) fun r => ∃ f' γ' vol, Is1 r.2.2 n f' ∧ DofGradient3 r.1 r.2.1 n ne f' γ' ∧ Is2 r.2.1.vol ne 8 vol ∧
        (∀ k ∈ iip, f' k = f k) ∧ (∀ w, ∃ γ, DofGradient3 r.1 r.2.1 n ne w γ) ∧
        ∀ w γ, (∀ k ∈ iip, w k = f k) → DofGradient3 r.1 r.2.1 n ne w γ →
          potential3 n ne vol C g f' γ' ≤ potential3 n ne vol C g w γ ∧
          (potential3 n ne vol C g w γ = potential3 n ne vol C g f' γ' → ∀ k, k < n → w k = f' k) := by
  obtain ⟨V, Q, B, vol, h1, hv, -, eF, hγ, en, -, sol⟩ := energy_core3 hM s0 σ τ ρ hc hx hd hn hgap hC hE
  obtain ⟨y, f', y0, y1, y2, eq⟩ := sol υ b u g f iip S hb hu hi hin hS (hSol.imp fun _ => hmaj)
  obtain ⟨γ', hγ'⟩ := hγ f'
  refine ⟨(V, Q, y), by simp only [h1, y0, Res.ok_bind]; rfl, f', γ', vol, y1, hγ', hv, y2, hγ, fun w γ hw hg => ?_⟩
  have key : potential3 n ne vol C g w γ = potential3 n ne vol C g f' γ' +
      (∑ r ∈ range n, (∑ s ∈ range n, B r s * (w s - f' s)) * (w r - f' r)) / 2 := by
    unfold potential3
    rw [← en w γ hg, ← en f' γ' hγ']
    have := eF.add hmaj f' (fun k => w k - f' k)
    simp only [add_sub_cancel] at this
    rw [this]
    have z : ∑ r ∈ range n, (∑ s ∈ range n, B r s * f' s) * (w r - f' r) = ∑ r ∈ range n, g r * (w r - f' r) :=
      sum_congr rfl fun r hr => by
        by_cases hri : r ∈ iip
        · rw [hw r hri, y2 r hri, sub_self, mul_zero, mul_zero]
        · rw [eq r (mem_range.1 hr) hri]
    rw [z]
    simp only [mul_sub, sum_sub_distrib]
    ring
  have nonneg := eF.nonneg fun k => w k - f' k
  refine ⟨by rw [key]; linarith, fun h k hk => ?_⟩
  have z : ∑ r ∈ range n, (∑ s ∈ range n, B r s * (w s - f' s)) * (w r - f' r) = 0 := by rw [key] at h; linarith
  exact sub_eq_zero.1 (eF.pos iip (fun k => w k - f' k) (fun k hk => by rw [hw k hk, y2 k hk, sub_self]) z hS k hk)

/-- **C113** (superposition) The result of `Solve` is linear in the load and the prescribed displacements. -/
theorem C113_superposition (hM : BoxMesh nn ne c x gr p) {s : α} (s0 : s ≠ 0)
    (σ τ ρ : Sched) (υ : Nat → Nat → Sched) {conn dofs : Ten Nat} {coor : Ten α} (hc : Is2 conn ne 8 c) (hx : Is2 coor nn 3 x) (hd : Is2 dofs nn 3 d)
    {n : Nat} (hn : NumDofs3 nn d n) (hgap : ∀ k, k < n → ∃ m i, m < nn ∧ i < 3 ∧ d m i = k) {Ct b₁ b₂ b₃ u₁ u₂ u₃ : Ten α} {C g₁ g₂ g₃ f₁ f₂ f₃}
    (hC : Is6 Ct ne 8 3 3 3 3 C) (hE : ∀ e q, e < ne → q < 8 → Elastic3 (C e q))
    (hb₁ : Is1 b₁ n g₁) (hb₂ : Is1 b₂ n g₂) (hb₃ : Is1 b₃ n g₃) (hu₁ : Is1 u₁ n f₁) (hu₂ : Is1 u₂ n f₂) (hu₃ : Is1 u₃ n f₃)
    {iip : List Nat} (hi : iip.Nodup) (hin : ∀ k ∈ iip, k < n) (hS : Supported3 nn d x iip) {a a' : α}
    (hg : ∀ k, k < n → k ∉ iip → g₃ k = a * g₁ k + a' * g₂ k) (hf : ∀ k ∈ iip, f₃ k = a * f₁ k + a' * f₂ k)
    {S : LinSolver α} (hSol : S.Suits (∀ e q, e < ne → q < 8 → Major 3 (C e q))) :
    IsOk (do
      let (_, Q) ← setup3 s σ τ conn dofs coor
      let y₁ ← solveLinear S ρ (υ 0) conn dofs iip Q Ct b₁ u₁
      let y₂ ← solveLinear S ρ (υ 1) conn dofs iip Q Ct b₂ u₂
      let y₃ ← solveLinear S ρ (υ 2) conn dofs iip Q Ct b₃ u₃
      return (y₁, y₂, y₃)) fun r => ∃ v₁ v₂ v₃, Is1 r.1 n v₁ ∧ Is1 r.2.1 n v₂ ∧ Is1 r.2.2 n v₃ ∧
        ∀ k, k < n → v₃ k = a * v₁ k + a' * v₂ k := by
  obtain ⟨V, Q, B, vol, h1, -, -, eF, -, -, -, sol⟩ := energy_core3 hM s0 σ τ ρ hc hx hd hn hgap hC hE
  obtain ⟨y₁, v₁, p1, p2, p3, p4⟩ := sol (υ 0) b₁ u₁ g₁ f₁ iip S hb₁ hu₁ hi hin hS hSol
  obtain ⟨y₂, v₂, q1, q2, q3, q4⟩ := sol (υ 1) b₂ u₂ g₂ f₂ iip S hb₂ hu₂ hi hin hS hSol
  obtain ⟨y₃, v₃, r1, r2, r3, r4⟩ := sol (υ 2) b₃ u₃ g₃ f₃ iip S hb₃ hu₃ hi hin hS hSol
  refine ⟨(y₁, y₂, y₃), by simp only [h1, p1, q1, r1, Res.ok_bind]; rfl, v₁, v₂, v₃, p2, q2, r2, fun k hk => ?_⟩
  have z : ∀ j ∈ iip, v₃ j - (a * v₁ j + a' * v₂ j) = 0 := fun j hj => by rw [r3 j hj, p3 j hj, q3 j hj, hf j hj, sub_self]
  refine sub_eq_zero.1 (eF.pos iip (fun j => v₃ j - (a * v₁ j + a' * v₂ j)) z (sum_eq_zero fun r hr => ?_) hS k hk)
  by_cases hri : r ∈ iip
  · rw [z r hri, mul_zero]
  · rw [mem_range] at hr
    have e : ∑ s ∈ range n, B r s * (v₃ s - (a * v₁ s + a' * v₂ s)) = ∑ s ∈ range n, B r s * v₃ s -
        (a * ∑ s ∈ range n, B r s * v₁ s + a' * ∑ s ∈ range n, B r s * v₂ s) := by
      rw [mul_sum, mul_sum, ← sum_add_distrib, ← sum_sub_distrib]
      exact sum_congr rfl fun _ _ => by ring
    rw [e, p4 r hr hri, q4 r hr hri, r4 r hr hri, hg r hr hri, sub_self, zero_mul]

/-- **C113** (reciprocity) With a symmetric tangent, the internal forces of one displacement do the same work on another one
as the internal forces of the latter on the former. -/
theorem C113_reciprocity (hM : BoxMesh nn ne c x gr p) {s : α} (s0 : s ≠ 0)
    (σ τ ρ ρ' : Sched) {conn dofs : Ten Nat} {coor : Ten α} (hc : Is2 conn ne 8 c) (hx : Is2 coor nn 3 x) (hd : Is2 dofs nn 3 d)
    {n : Nat} (hn : NumDofs3 nn d n) (hgap : ∀ k, k < n → ∃ m i, m < nn ∧ i < 3 ∧ d m i = k) {C : Nat → Nat → Nat → Nat → Nat → Nat → α}
    (hE : ∀ e q, e < ne → q < 8 → Elastic3 (C e q)) (hmaj : ∀ e q, e < ne → q < 8 → Major 3 (C e q)) (f₁ f₂ : Nat → α) :
    IsOk (setup3 s σ τ conn dofs coor) fun Z => ∃ γ₁ γ₂, DofGradient3 Z.1 Z.2 n ne f₁ γ₁ ∧ DofGradient3 Z.1 Z.2 n ne f₂ γ₂ ∧
      ∀ sig₁ sig₂, Is4 sig₁ ne 8 3 3 (fun e q => ddot 3 (C e q) (γ₁ e q)) → Is4 sig₂ ne 8 3 3 (fun e q => ddot 3 (C e q) (γ₂ e q)) →
        ∃ t₁ t₂ F₁ F₂, internalForce3 ρ Z.1 Z.2 sig₁ = .ok t₁ ∧ internalForce3 ρ' Z.1 Z.2 sig₂ = .ok t₂ ∧ Is1 t₁ n F₁ ∧ Is1 t₂ n F₂ ∧
          ∑ k ∈ range n, F₁ k * f₂ k = ∑ k ∈ range n, F₂ k * f₁ k := by
  have hC : Is6 (Ten.of [ne, 8, 3, 3, 3, 3] fun ix => C (ix.getD 0 0) (ix.getD 1 0) (ix.getD 2 0) (ix.getD 3 0) (ix.getD 4 0) (ix.getD 5 0))
      ne 8 3 3 3 3 C := ⟨rfl, fun e q i j k l _ _ _ _ _ _ => by simp [Ten.of]⟩
  obtain ⟨V, Q, B, vol, h1, -, -, eF, hγ, -, tang, -⟩ := energy_core3 hM s0 σ τ ρ hc hx hd hn hgap hC hE
  obtain ⟨γ₁, g1⟩ := hγ f₁
  obtain ⟨γ₂, g2⟩ := hγ f₂
  refine ⟨(V, Q), h1, γ₁, γ₂, g1, g2, fun sig₁ sig₂ h₁ h₂ => ?_⟩
  obtain ⟨t₁, a1, a2⟩ := tang ρ f₁ γ₁ sig₁ g1 h₁
  obtain ⟨t₂, b1, b2⟩ := tang ρ' f₂ γ₂ sig₂ g2 h₂
  refine ⟨t₁, t₂, _, _, a1, b1, a2, b2, ?_⟩
  simp only [sum_mul]
  rw [sum_comm]
  refine sum_congr rfl fun s hs' => sum_congr rfl fun r hr => ?_
  rw [eF.symm hmaj r s (mem_range.1 hr) (mem_range.1 hs')]
  ring

/-- **C113** (Clapeyron) Without prescribed movement the elastic energy of the result of `Solve` is half the work of the load. -/
theorem C113_clapeyron (hM : BoxMesh nn ne c x gr p) {s : α} (s0 : s ≠ 0)
    (σ τ ρ : Sched) (υ : Nat → Sched) {conn dofs : Ten Nat} {coor : Ten α} (hc : Is2 conn ne 8 c) (hx : Is2 coor nn 3 x) (hd : Is2 dofs nn 3 d)
    {n : Nat} (hn : NumDofs3 nn d n) (hgap : ∀ k, k < n → ∃ m i, m < nn ∧ i < 3 ∧ d m i = k) {Ct b u : Ten α} {C g f}
    (hC : Is6 Ct ne 8 3 3 3 3 C) (hE : ∀ e q, e < ne → q < 8 → Elastic3 (C e q))
    (hb : Is1 b n g) (hu : Is1 u n f) {iip : List Nat} (hf : ∀ k ∈ iip, f k = 0) (hi : iip.Nodup) (hin : ∀ k ∈ iip, k < n)
    (hS : Supported3 nn d x iip) {S : LinSolver α} (hSol : S.Suits (∀ e q, e < ne → q < 8 → Major 3 (C e q))) :
    IsOk (do
      let (V, Q) ← setup3 s σ τ conn dofs coor
      let y ← solveLinear S ρ υ conn dofs iip Q Ct b u
      return (V, Q, y)) fun r => ∃ f' γ' vol, Is1 r.2.2 n f' ∧ DofGradient3 r.1 r.2.1 n ne f' γ' ∧ Is2 r.2.1.vol ne 8 vol ∧
        virtualWork3 ne vol (fun e q => ddot 3 (C e q) (γ' e q)) γ' = ∑ k ∈ range n, g k * f' k := by
  obtain ⟨V, Q, B, vol, h1, hv, -, eF, hγ, en, -, sol⟩ := energy_core3 hM s0 σ τ ρ hc hx hd hn hgap hC hE
  obtain ⟨y, f', y0, y1, y2, eq⟩ := sol υ b u g f iip S hb hu hi hin hS hSol
  obtain ⟨γ', hγ'⟩ := hγ f'
  refine ⟨(V, Q, y), by simp only [h1, y0, Res.ok_bind]; rfl, f', γ', vol, y1, hγ', hv, ?_⟩
  rw [← en f' γ' hγ']
  refine sum_congr rfl fun r hr => ?_
  by_cases hri : r ∈ iip
  · rw [y2 r hri, hf r hri, mul_zero, mul_zero]
  · rw [eq r (mem_range.1 hr) hri]

/-- **C113** (support) Prescribing more DOFs (at the position zero) can only lower the work of the load: the structure gets stiffer. -/
theorem C113_support (hM : BoxMesh nn ne c x gr p) {s : α} (s0 : s ≠ 0)
    (σ τ ρ : Sched) (υ : Nat → Nat → Sched) {conn dofs : Ten Nat} {coor : Ten α} (hc : Is2 conn ne 8 c) (hx : Is2 coor nn 3 x) (hd : Is2 dofs nn 3 d)
    {n : Nat} (hn : NumDofs3 nn d n) (hgap : ∀ k, k < n → ∃ m i, m < nn ∧ i < 3 ∧ d m i = k) {Ct b u : Ten α} {C g}
    (hC : Is6 Ct ne 8 3 3 3 3 C) (hE : ∀ e q, e < ne → q < 8 → Elastic3 (C e q)) (hmaj : ∀ e q, e < ne → q < 8 → Major 3 (C e q))
    (hb : Is1 b n g) (hu : Is1 u n fun _ => 0) {iip iip' : List Nat} (hi : iip.Nodup) (hi' : iip'.Nodup) (hin' : ∀ k ∈ iip', k < n)
    (hsub : iip ⊆ iip') (hS : Supported3 nn d x iip) {S : LinSolver α} (hSol : S.Suits True) :
    IsOk (do
      let (_, Q) ← setup3 s σ τ conn dofs coor
      let y ← solveLinear S ρ (υ 0) conn dofs iip Q Ct b u
      let y' ← solveLinear S ρ (υ 1) conn dofs iip' Q Ct b u
      return (y, y')) fun r => ∃ v v', Is1 r.1 n v ∧ Is1 r.2 n v' ∧ ∑ k ∈ range n, g k * v' k ≤ ∑ k ∈ range n, g k * v k := by
  obtain ⟨V, Q, B, vol, h1, hv, -, eF, hγ, en, -, sol⟩ := energy_core3 hM s0 σ τ ρ hc hx hd hn hgap hC hE
  have hS' : Supported3 nn d x iip' := fun f θ b₀ hR h => hS f θ b₀ hR fun k hk => h k (hsub hk)
  obtain ⟨y, v, p1, p2, p3, p4⟩ := sol (υ 0) b u g _ iip S hb hu hi (fun k hk => hin' k (hsub hk)) hS (hSol.imp fun _ => hmaj)
  obtain ⟨y', v', q1, q2, q3, q4⟩ := sol (υ 1) b u g _ iip' S hb hu hi' hin' hS' (hSol.imp fun _ => hmaj)
  refine ⟨(y, y'), by simp only [h1, p1, q1, Res.ok_bind]; rfl, v, v', p2, q2, ?_⟩
  have a1 : ∑ r ∈ range n, (∑ s ∈ range n, B r s * v s) * v r = ∑ k ∈ range n, g k * v k := sum_congr rfl fun r hr => by
    by_cases hri : r ∈ iip
    · rw [p3 r hri, mul_zero, mul_zero]
    · rw [p4 r (mem_range.1 hr) hri]
  have a2 : ∑ r ∈ range n, (∑ s ∈ range n, B r s * v' s) * v' r = ∑ k ∈ range n, g k * v' k := sum_congr rfl fun r hr => by
    by_cases hri : r ∈ iip'
    · rw [q3 r hri, mul_zero, mul_zero]
    · rw [q4 r (mem_range.1 hr) hri]
  have a3 : ∑ r ∈ range n, (∑ s ∈ range n, B r s * v s) * v' r = ∑ k ∈ range n, g k * v' k := sum_congr rfl fun r hr => by
    by_cases hri : r ∈ iip
    · rw [q3 r (hsub hri), mul_zero, mul_zero]
    · rw [p4 r (mem_range.1 hr) hri]
  have e := eF.add hmaj v' (fun k => v k - v' k)
  simp only [add_sub_cancel] at e
  have e' := eF.add hmaj v (fun k => v' k - v k)
  simp only [add_sub_cancel] at e'
  have nn := eF.nonneg fun k => v' k - v k
  have a4 : ∑ r ∈ range n, (∑ s ∈ range n, B r s * v s) * (v' r - v r) =
      ∑ k ∈ range n, g k * v' k - ∑ k ∈ range n, g k * v k := by
    simp only [mul_sub, sum_sub_distrib, a1, a3]
  rw [a2, a1, a4] at e'
  linarith

/-- **C113** (stiffer material) If the energy density of one material is nowhere higher than that of another for any strain, then,
with the same prescribed displacements and no load, the same holds for the elastic energy of the results of `Solve`. -/
theorem C113_material (hM : BoxMesh nn ne c x gr p) {s : α} (s0 : s ≠ 0)
    (σ τ ρ : Sched) (υ : Nat → Nat → Sched) {conn dofs : Ten Nat} {coor : Ten α} (hc : Is2 conn ne 8 c) (hx : Is2 coor nn 3 x) (hd : Is2 dofs nn 3 d)
    {n : Nat} (hn : NumDofs3 nn d n) (hgap : ∀ k, k < n → ∃ m i, m < nn ∧ i < 3 ∧ d m i = k) {Ct Ct' b u : Ten α} {C C' f}
    (hC : Is6 Ct ne 8 3 3 3 3 C) (hE : ∀ e q, e < ne → q < 8 → Elastic3 (C e q)) (hmaj : ∀ e q, e < ne → q < 8 → Major 3 (C e q))
    (hC' : Is6 Ct' ne 8 3 3 3 3 C') (hE' : ∀ e q, e < ne → q < 8 → Elastic3 (C' e q)) (hmaj' : ∀ e q, e < ne → q < 8 → Major 3 (C' e q))
    (hle : ∀ e q γ, e < ne → q < 8 → power 3 (ddot 3 (C e q) γ) γ ≤ power 3 (ddot 3 (C' e q) γ) γ)
    (hb : Is1 b n fun _ => 0) (hu : Is1 u n f) {iip : List Nat} (hi : iip.Nodup) (hin : ∀ k ∈ iip, k < n)
    (hS : Supported3 nn d x iip) {S : LinSolver α} (hSol : S.Suits True) :
    IsOk (do
      let (V, Q) ← setup3 s σ τ conn dofs coor
      let y ← solveLinear S ρ (υ 0) conn dofs iip Q Ct b u
      let y' ← solveLinear S ρ (υ 1) conn dofs iip Q Ct' b u
      let g ← gradient3 σ τ V Q y
      let g' ← gradient3 σ τ V Q y'
      return (Q, g, g')) fun r => ∃ γ γ' vol, Is4 r.2.1 ne 8 3 3 γ ∧ Is4 r.2.2 ne 8 3 3 γ' ∧ Is2 r.1.vol ne 8 vol ∧
        virtualWork3 ne vol (fun e q => ddot 3 (C e q) (γ e q)) γ ≤ virtualWork3 ne vol (fun e q => ddot 3 (C' e q) (γ' e q)) γ' := by
  obtain ⟨V, Q, B, vol, h1, hv, hpos, eF, hγ, en, -, sol⟩ := energy_core3 hM s0 σ τ ρ hc hx hd hn hgap hC hE
  obtain ⟨V', Q', B', vol', h1', hv', -, eF', -, -, -, sol'⟩ := energy_core3 hM s0 σ τ ρ hc hx hd hn hgap hC' hE'
  rw [h1] at h1'
  obtain ⟨rfl, rfl⟩ := Prod.mk.inj (Res.ok.inj h1')
  obtain ⟨y, v, p1, p2, p3, p4⟩ := sol (υ 0) b u _ f iip S hb hu hi hin hS (hSol.imp fun _ => hmaj)
  obtain ⟨y', v', q1, q2, q3, q4⟩ := sol' (υ 1) b u _ f iip S hb hu hi hin hS (hSol.imp fun _ => hmaj')
  obtain ⟨γ, g⟩ := hγ v
  obtain ⟨γ', g'⟩ := hγ v'
  obtain ⟨t, t1, t2⟩ := g σ τ y p2
  obtain ⟨t', t1', t2'⟩ := g' σ τ y' q2
  refine ⟨(Q, t, t'), by simp only [h1, p1, q1, t1, t1', Res.ok_bind]; rfl, γ, γ', vol, t2, t2', hv, ?_⟩
  have le1 : virtualWork3 ne vol (fun e q => ddot 3 (C e q) (γ' e q)) γ' ≤ virtualWork3 ne vol (fun e q => ddot 3 (C' e q) (γ' e q)) γ' :=
    sum_le_sum fun e he => sum_le_sum fun q hq =>
      mul_le_mul_of_nonneg_right (hle e q _ (mem_range.1 he) (mem_range.1 hq)) (hpos e q (mem_range.1 he) (mem_range.1 hq)).le
  refine le_trans ?_ le1
  rw [← en v γ g, ← en v' γ' g']
  have e := eF.add hmaj v (fun k => v' k - v k)
  simp only [add_sub_cancel] at e
  have nn := eF.nonneg fun k => v' k - v k
  have z : ∑ r ∈ range n, (∑ s ∈ range n, B r s * v s) * (v' r - v r) = 0 := sum_eq_zero fun r hr => by
    by_cases hri : r ∈ iip
    · rw [q3 r hri, p3 r hri, sub_self, mul_zero]
    · rw [p4 r (mem_range.1 hr) hri, zero_mul]
  rw [e, z]
  linarith

end GF
