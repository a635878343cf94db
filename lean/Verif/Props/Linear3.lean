import Verif.Props.Statics3
import Verif.Lemmas.ExactUU

/-! **C92** (linear problems in three dimensions, displacement patch test). -/

namespace GF
open Finset ElemSpec Element Element.Hex8
open Element.Quad4 (ddot power)

section
variable {α : Type} [Field α] [LinearOrder α] [IsStrictOrderedRing α] {nn ne nne nd : Nat} {c d : Nat → Nat → Nat}

/-- the program of the linear problem for any mesh and element: if the assembled matrix is positive with respect to the unknown
DOFs, the solution has the prescribed values and the equations of the unknown DOFs hold -/
theorem solve_generic (ρ : Sched) (υ : Nat → Sched) {conn dofs : Ten Nat} (hc : Is2 conn ne nne c) (hd : Is2 dofs nn nd d)
    (hv : ∀ e m, e < ne → m < nne → c e m < nn) (hpos : 0 < nn ∧ 0 < nd) {V : Vector} (v1 : Vector.new conn dofs = .ok V) (enn : V.nnode = nn) (ed : V.ndim = nd)
    (hlt : ∀ m i, m < nn → i < nd → d m i < V.ndof) (hmax : ∃ m i, m < nn ∧ i < nd ∧ V.ndof = d m i + 1)
    (hgap : ∀ k, k < V.ndof → ∃ m i, m < nn ∧ i < nd ∧ d m i = k) {Q : Quadrature α} {Ct kt b u : Ten α} {k g f}
    (q1 : Q.Int_gradN_dot_tensor4_dot_gradNT_dV ρ Ct = .ok kt) (q2 : Is3 kt V.nelem (V.nne * V.ndim) (V.nne * V.ndim) k)
    (hb : Is1 b V.ndof g) (hu : Is1 u V.ndof f) {iip : List Nat} (hi : iip.Nodup) (hin : ∀ k ∈ iip, k < V.ndof)
    {zero : List Nat → (Nat → α) → Prop} {sym : Prop} (en : EnergyForm V.ndof (SMatrix.assembled V c d k) zero sym)
    (reg : ∀ f : Nat → α, zero iip f → ∀ m i, m < nn → i < nd → f (d m i) = 0) {S : LinSolver α} (hSol : S.Suits sym) :
    ∃ (y : Ten α) (f' : Nat → α), solveLinear S ρ υ conn dofs iip Q Ct b u = .ok y ∧ Is1 y V.ndof f' ∧ (∀ k ∈ iip, f' k = f k) ∧
      ∀ r, r < V.ndof → r ∉ iip → ∑ s ∈ range V.ndof, SMatrix.assembled V c d k r s * f' s = g r := by
  obtain ⟨M, q, m1, m2, m3, m4, hMP⟩ := C18_constructor (α := α) (iip := iip) hc hd hv hi (fun k hk => by
      obtain ⟨m, i, hm, hi', h⟩ := hmax
      exact ⟨m, i, hm, hi', by have := hin k hk; omega⟩) (fun m i hm hi' k hk => by
      obtain ⟨a, b', ha, hb', h⟩ := hgap k (by have := hlt m i hm hi'; omega)
      exact ⟨a, b', ha, hb', h⟩) hpos
  obtain rfl : V = M.P.V := by rw [v1] at m3; injection m3
  obtain ⟨A, a1, a2⟩ := MatrixPartitioned.assemble_spec hMP q2
  have hM' : MatrixPartitioned.Holds { M with A := A, changed := true } c d q (SMatrix.assembled M.P.V c d k) :=
    ⟨hMP.base, hMP.surj, hMP.part1d_shape, hMP.part1d, a2⟩
  have hex : S.ExactOn A.uu := hM'.exact_uu en.symm en.nonneg (fun f h1 h2 m i hm hi =>
    reg f (en.pos iip f (by rw [← m4]; exact h1) h2) m i (by rw [← enn]; exact hm) (by rw [← ed]; exact hi)) hSol
  obtain ⟨s', M', y, f', y1, y2, y3, y4⟩ := C21_solve_dofval S SolverState.init hM' (Or.inl rfl) hex υ hb hu
  rw [m4] at y3
  exact ⟨y, f', by simp only [solveLinear, m1, q1, a1, y1, Res.ok_bind]; rfl, y2, y3, fun r hr hri => y4 r hr (by rw [m4]; exact hri)⟩

end

variable {α : Type} [Field α] [LinearOrder α] [IsStrictOrderedRing α]
variable {nn ne : Nat} {c d : Nat → Nat → Nat} {x : Nat → Nat → α} {g : BoxGrid} {p : Nat → Nat → α}

/-- the assembled stiffness, and its regularity with respect to the unknown DOFs -/
theorem stiff_regular3 (hM : BoxMesh nn ne c x g p) {s : α} (s0 : s ≠ 0) {V : Vector}
    (hV : V.Holds c d) (e1 : V.nelem = ne) (e2 : V.nne = 8) (e4 : V.ndim = 3) {Q : Quadrature α}
    (hQ : Live ne 8 (fun q i => s * corner8 q i) (fun _ => 1) Q (fun e m i => x (c e m) i)) (ρ : Sched)
    {Ct : Ten α} {C} (hC : Is6 Ct ne 8 3 3 3 3 C) (hE : ∀ e q, e < ne → q < 8 → Elastic3 (C e q)) :
    ∃ kt k, Q.Int_gradN_dot_tensor4_dot_gradNT_dV ρ Ct = .ok kt ∧ Is3 kt V.nelem (V.nne * V.ndim) (V.nne * V.ndim) k ∧
      (∀ M : SMatrix α, M.V = V → (∃ D, M.Holds c d D) → ∀ u f, Is1 u V.ndof f →
        IsOk (stiffnessDot ρ M Q Ct u) fun t => Is1 t V.ndof fun r => ∑ s ∈ range V.ndof, SMatrix.assembled V c d k r s * f s) ∧
      (∀ (iip : List Nat) (f : Nat → α), Supported3 nn d x iip → (∀ r, r < V.ndof → r ∉ iip → ∑ s ∈ range V.ndof, SMatrix.assembled V c d k r s * f s = 0) →
        (∀ k ∈ iip, f k = 0) → ∀ m i, m < nn → i < 3 → f (d m i) = 0) ∧
      EnergyForm V.ndof (SMatrix.assembled V c d k) (fun iip f => Supported3 nn d x iip → ∀ m i, m < nn → i < 3 → f (d m i) = 0)
        (∀ e q, e < ne → q < 8 → Major 3 (C e q)) := by
  obtain ⟨kt, k1, k, k2, k3⟩ := stiff_live hQ ρ hC (live_holds hQ).1.V_is
  have hL : StiffLaws 8 3 ne 8 C k := stiffLaws k3 fun e q i _ _ _ => G_sum _ _ _ _ _
  have k2' : Is3 kt V.nelem (V.nne * V.ndim) (V.nne * V.ndim) k := by rw [e1, e2, e4]; exact k2
  have prod : ∀ M : SMatrix α, M.V = V → (∃ D, M.Holds c d D) → ∀ u f, Is1 u V.ndof f →
        IsOk (stiffnessDot ρ M Q Ct u) fun t => Is1 t V.ndof fun r => ∑ s ∈ range V.ndof, SMatrix.assembled V c d k r s * f s := by
    rintro M rfl ⟨D, hD⟩ u f hu
    have a := SMatrix.assemble_spec hD.base k2'
    obtain ⟨b, b1, b2⟩ := C17_dot_dofval (M := ⟨M.V, ⟨M.V.ndof, M.V.ndof, SMatrix.assembled M.V c d k⟩, true⟩)
      ⟨hD.base, rfl, rfl, fun _ _ => rfl⟩ hu
    exact ⟨b, by simp only [stiffnessDot, k1, a, b1, Res.ok_bind], b2⟩
  have hK : (⟨V, Mat.zero V.ndof V.ndof, true⟩ : SMatrix α).Holds c d (fun _ _ => 0) := ⟨hV, rfl, rfl, fun _ _ => rfl⟩
  have en : ∀ f : Nat → α, 0 ≤ ∑ r ∈ range V.ndof, (∑ s ∈ range V.ndof, SMatrix.assembled V c d k r s * f s) * f r ∧
      (∑ r ∈ range V.ndof, (∑ s ∈ range V.ndof, SMatrix.assembled V c d k r s * f s) * f r = 0 → ∃ θ b, RigidMotion3 nn d x f θ b) := by
    intro f
    have hu : Is1 (Ten.of [V.ndof] fun ix => f (ix.getD 0 0)) V.ndof f := ⟨rfl, fun i _ => by simp [Ten.of]⟩
    obtain ⟨t, t1, t2⟩ := prod _ rfl ⟨_, hK⟩ _ f hu
    obtain ⟨F, ⟨t', F1, F2⟩, F3, F4⟩ := zero_energy3 hM s0 hK e1 e2 e4 hQ ρ hC hE hu
    obtain rfl : t = t' := by rw [t1] at F1; injection F1
    have e : ∑ r ∈ range V.ndof, (∑ s ∈ range V.ndof, SMatrix.assembled V c d k r s * f s) * f r = ∑ r ∈ range V.ndof, F r * f r :=
      sum_congr rfl fun r hr => by rw [F2.unique t2 (mem_range.1 hr)]
    rw [e]
    exact ⟨F3, F4⟩
  have pd : ∀ (iip : List Nat) (f : Nat → α), (∀ k ∈ iip, f k = 0) →
      ∑ r ∈ range V.ndof, (∑ s ∈ range V.ndof, SMatrix.assembled V c d k r s * f s) * f r = 0 →
      Supported3 nn d x iip → ∀ m i, m < nn → i < 3 → f (d m i) = 0 := by
    intro iip f h2 h0 hS m i hm hi
    obtain ⟨θ, b, h⟩ := (en f).2 h0
    have z := hS f θ b h h2
    obtain ⟨r0, r1, r2⟩ := h m hm
    obtain ⟨t0, b0⟩ := z 0 (by omega)
    obtain ⟨t1, b1⟩ := z 1 (by omega)
    obtain ⟨t2, b2⟩ := z 2 (by omega)
    interval_cases i
    · rw [r0, b0, t1, t2]; ring
    · rw [r1, b1, t0, t2]; ring
    · rw [r2, b2, t0, t1]; ring
  refine ⟨kt, k, k1, k2', prod, fun iip f hS h1 h2 => pd iip f h2 (sum_eq_zero fun r hr => ?_) hS, fun f => (en f).1, pd, fun hs r s _ _ => ?_⟩
  · rw [mem_range] at hr
    by_cases hi : r ∈ iip
    · rw [h2 r hi, mul_zero]
    · rw [h1 r hr hi, zero_mul]
  · refine assembled_symm k ?_ r s
    rw [e1, e2, e4]
    exact hL.symm fun e q i j k l he hq hi hj hk hl => by
      rw [(hE e q he hq).minor i j k l hi hj hk hl, hs e q he hq i j l k hi hj hl hk, (hE e q he hq).minor l k i j hl hk hi hj]

/-- **C92** (uniqueness) two displacements that agree on the prescribed DOFs and have the same forces on all other DOFs are
equal -/
theorem C92_unique (hM : BoxMesh nn ne c x g p) {s : α} (s0 : s ≠ 0)
    (σ τ ρ : Sched) {conn dofs : Ten Nat} {coor : Ten α} (hc : Is2 conn ne 8 c) (hx : Is2 coor nn 3 x) (hd : Is2 dofs nn 3 d)
    {n : Nat} (hn : NumDofs3 nn d n) {Ct u u' : Ten α} {C f f'} (hC : Is6 Ct ne 8 3 3 3 3 C) (hE : ∀ e q, e < ne → q < 8 → Elastic3 (C e q))
    (hu : Is1 u n f) (hu' : Is1 u' n f') {iip : List Nat} (hS : Supported3 nn d x iip) (hi : ∀ k ∈ iip, f k = f' k) :
    IsOk (do
      let (_, Q) ← setup3 s σ τ conn dofs coor
      let K ← SMatrix.new conn dofs
      let t ← stiffnessDot ρ K Q Ct u
      let t' ← stiffnessDot ρ K Q Ct u'
      return (t, t')) fun t => ∃ F F', Is1 t.1 n F ∧ Is1 t.2 n F' ∧
        ((∀ k, k < n → k ∉ iip → F k = F' k) → ∀ m i, m < nn → i < 3 → f (d m i) = f' (d m i)) := by
  obtain ⟨V, Q, h1, h2, hV, e1, e2, e3, e4, e5, hQ⟩ := hM.setup s σ τ hc hx hd
  obtain ⟨K, k1, k2, hK⟩ := C15_constructor (α := α) hc hd hM.valid
  obtain rfl : V = K.V := by rw [h2] at k2; injection k2
  obtain rfl := hn.unique e5
  obtain ⟨kt, k, q1, q2, q3, q4, q5⟩ := stiff_regular3 hM s0 hV e1 e2 e4 hQ ρ hC hE
  obtain ⟨t, t1, t2⟩ := q3 K rfl ⟨_, hK⟩ u f hu
  obtain ⟨t', t1', t2'⟩ := q3 K rfl ⟨_, hK⟩ u' f' hu'
  refine ⟨(t, t'), by simp only [h1, k1, t1, t1', Res.ok_bind]; rfl, _, _, t2, t2', fun h m i hm hi' => ?_⟩
  have := q4 iip (fun k => f k - f' k) hS (fun r hr hr' => by
    rw [sum_congr rfl fun s _ => mul_sub _ _ _, sum_sub_distrib, h r hr hr', sub_self]) (fun k hk => by rw [hi k hk, sub_self]) m i hm hi'
  exact sub_eq_zero.1 this

/-- the program of the linear problem, with the system of equations it solves -/
theorem solve_core3 (hM : BoxMesh nn ne c x g p) {s : α} (s0 : s ≠ 0)
    (σ τ ρ : Sched) (υ : Nat → Sched) {conn dofs : Ten Nat} {coor : Ten α} (hc : Is2 conn ne 8 c) (hx : Is2 coor nn 3 x) (hd : Is2 dofs nn 3 d)
    {n : Nat} (hn : NumDofs3 nn d n) (hgap : ∀ k, k < n → ∃ m i, m < nn ∧ i < 3 ∧ d m i = k) {Ct b u : Ten α} {C w f}
    (hC : Is6 Ct ne 8 3 3 3 3 C) (hE : ∀ e q, e < ne → q < 8 → Elastic3 (C e q)) (hb : Is1 b n w)
    (hu : Is1 u n f) {iip : List Nat} (hi : iip.Nodup) (hin : ∀ k ∈ iip, k < n) (hS : Supported3 nn d x iip)
    {S : LinSolver α} (hSol : S.Suits (∀ e q, e < ne → q < 8 → Major 3 (C e q))) :
    ∃ (K : SMatrix α) (Q : Quadrature α) (y : Ten α) (f' : Nat → α) (B : Nat → Nat → α), setup3 s σ τ conn dofs coor = .ok (K.V, Q) ∧
      K.Holds c d (fun _ _ => 0) ∧ K.V.nelem = ne ∧ K.V.nne = 8 ∧ K.V.nnode = nn ∧ K.V.ndim = 3 ∧ K.V.ndof = n ∧
      Live ne 8 (fun q i => s * corner8 q i) (fun _ => 1) Q (fun e m i => x (c e m) i) ∧
      solveLinear S ρ υ conn dofs iip Q Ct b u = .ok y ∧ Is1 y n f' ∧ (∀ k ∈ iip, f' k = f k) ∧
      (∀ r, r < n → r ∉ iip → ∑ k ∈ range n, B r k * f' k = w r) ∧
      (∀ u f, Is1 u n f → IsOk (stiffnessDot ρ K Q Ct u) fun t => Is1 t n fun r => ∑ s ∈ range n, B r s * f s) ∧
      (∀ f : Nat → α, (∀ r, r < n → r ∉ iip → ∑ s ∈ range n, B r s * f s = 0) → (∀ k ∈ iip, f k = 0) → ∀ m i, m < nn → i < 3 → f (d m i) = 0) := by
  obtain ⟨V, Q, h1, h2, hV, e1, e2, e3, e4, e5, hQ⟩ := hM.setup s σ τ hc hx hd
  obtain ⟨K, k1, k2, hK⟩ := C15_constructor (α := α) hc hd hM.valid
  obtain rfl : V = K.V := by rw [h2] at k2; injection k2
  obtain rfl := hn.unique e5
  obtain ⟨kt, k, q1, q2, q3, q4, q5⟩ := stiff_regular3 hM s0 hV e1 e2 e4 hQ ρ hC hE
  have n0 : 0 < nn := by obtain ⟨-, m, i, hm, -⟩ := hn; omega
  obtain ⟨y, f', y1, y2, y3, y4⟩ := solve_generic ρ υ hc hd hM.valid ⟨n0, by omega⟩ h2 e3 e4 hn.1 hn.2 hgap q1 q2 hb hu hi hin
    q5 (fun f h => h hS) hSol
  exact ⟨K, Q, y, f', SMatrix.assembled K.V c d k, h1, hK, e1, e2, e3, e4, rfl, hQ, y1, y2, y3, y4,
    fun u f hu => q3 K rfl ⟨_, hK⟩ u f hu, fun f => q4 iip f hS⟩

/-- **C92** (solution) `Solve` succeeds for every load and every prescribed displacement that excludes rigid motions: the
result has the prescribed values, and the internal force of its stress equals the load on all other DOFs. -/
theorem C92_solve (hM : BoxMesh nn ne c x g p) {s : α} (s0 : s ≠ 0)
    (σ τ ρ : Sched) (υ : Nat → Sched) {conn dofs : Ten Nat} {coor : Ten α} (hc : Is2 conn ne 8 c) (hx : Is2 coor nn 3 x) (hd : Is2 dofs nn 3 d)
    {n : Nat} (hn : NumDofs3 nn d n) (hgap : ∀ k, k < n → ∃ m i, m < nn ∧ i < 3 ∧ d m i = k) {Ct b u : Ten α} {C w f}
    (hC : Is6 Ct ne 8 3 3 3 3 C) (hE : ∀ e q, e < ne → q < 8 → Elastic3 (C e q)) (hb : Is1 b n w)
    (hu : Is1 u n f) {iip : List Nat} (hi : iip.Nodup) (hin : ∀ k ∈ iip, k < n) (hS : Supported3 nn d x iip)
    {S : LinSolver α} (hSol : S.Suits (∀ e q, e < ne → q < 8 → Major 3 (C e q))) :
    IsOk (do
      let (V, Q) ← setup3 s σ τ conn dofs coor
      let y ← solveLinear S ρ υ conn dofs iip Q Ct b u
      let gt ← gradient3 σ τ V Q y
      return (V, Q, y, gt)) fun r => ∃ f' γ, Is1 r.2.2.1 n f' ∧ (∀ k ∈ iip, f' k = f k) ∧ Is4 r.2.2.2 ne 8 3 3 γ ∧
        ∀ sig, Is4 sig ne 8 3 3 (fun e q => ddot 3 (C e q) (γ e q)) →
          IsOk (internalForce3 ρ r.1 r.2.1 sig) fun t => ∃ F, Is1 t n F ∧ ∀ k, k < n → k ∉ iip → F k = w k := by
  obtain ⟨K, Q, y, f', B, h1, hK, e1, e2, e3, e4, en, hQ, y0, y2, y3, y4, q3, -⟩ :=
    solve_core3 hM s0 σ τ ρ υ hc hx hd hn hgap hC hE hb hu hi hin hS hSol
  have hV := hK.base
  obtain ⟨ue, u1, u2⟩ := C03_element_of_dofs hV σ (by rw [en]; exact y2)
  rw [e1, e2, e4] at u2
  obtain ⟨cc, hh, hB, h0, hl⟩ := hM.boxes
  obtain ⟨γ, ⟨gt, g1, g2⟩, -⟩ := C45_box hQ hB (fun e i he hi => (h0 e i he hi).ne') τ u2
  refine ⟨(K.V, Q, y, gt), by
    have g0 : gradient3 σ τ K.V Q y = .ok gt := by simp only [gradient3, u1, g1, Res.ok_bind]
    simp only [h1, y0, g0, Res.ok_bind]; rfl, f', _, y2, y3, g2, fun sig hs => ?_⟩
  obtain ⟨F, ⟨t, F1, F2⟩, t', F3, F4⟩ := C91_tangent hK e2 e4 (by rw [e1]; exact hQ) σ τ ρ ρ (by rw [e1]; exact hC) (by rw [en]; exact y2)
    ⟨gt, by simp only [gradient3, u1, g1, Res.ok_bind], by rw [e1]; exact g2⟩ (by rw [e1]; exact hs) (fun _ _ _ _ _ _ _ _ => rfl)
  obtain ⟨t'', F5, F6⟩ := q3 y f' y2
  obtain rfl : t = t'' := by rw [F1] at F5; injection F5
  refine ⟨t', F3, F, by rw [← en]; exact F4, fun r hr hri => ?_⟩
  rw [en] at F2
  rw [F2.unique F6 hr]
  exact y4 r hr hri

/-- the boundary supports the mesh -/
theorem BoxMesh.supported (hM : BoxMesh nn ne c x g p) {iip : List Nat}
    (hbd : ∀ m i, m < nn → i < 3 → ¬ (p 0 0 < x m 0 ∧ x m 0 < p 0 g.nx ∧ p 1 0 < x m 1 ∧ x m 1 < p 1 g.ny ∧ p 2 0 < x m 2 ∧ x m 2 < p 2 g.nz) →
      d m i ∈ iip) : Supported3 nn d x iip := by
  intro f θ b hf h0
  obtain ⟨s0, s1, s2⟩ := hM.size
  have z : ∀ i j k, i ≤ 1 → j ≤ 1 → k ≤ 1 → (i = 0 ∨ j = 0) → ∀ a, a < 3 → f (d (g.node i j k) a) = 0 := by
    intro i j k hi hj hk hij a ha
    obtain ⟨q0, q1, q2⟩ := hM.position i j k (by omega) (by omega) (by omega)
    refine h0 _ (hbd _ a (hM.node_lt i j k (by omega) (by omega) (by omega)) ha fun h => ?_)
    rw [q0, q1] at h
    rcases hij with rfl | rfl
    · exact lt_irrefl _ h.1
    · exact lt_irrefl _ h.2.2.1
  have R : ∀ i j k, i ≤ 1 → j ≤ 1 → k ≤ 1 → (i = 0 ∨ j = 0) → 0 = b 0 + (θ 1 * p 2 k - θ 2 * p 1 j) ∧
      0 = b 1 + (θ 2 * p 0 i - θ 0 * p 2 k) ∧ 0 = b 2 + (θ 0 * p 1 j - θ 1 * p 0 i) := by
    intro i j k hi hj hk hij
    have r := hf _ (hM.node_lt i j k (by omega) (by omega) (by omega))
    obtain ⟨q0, q1, q2⟩ := hM.position i j k (by omega) (by omega) (by omega)
    rw [q0, q1, q2, z i j k hi hj hk hij 0 (by omega), z i j k hi hj hk hij 1 (by omega), z i j k hi hj hk hij 2 (by omega)] at r
    exact r
  obtain ⟨a0, a1, a2⟩ := R 0 0 0 (by omega) (by omega) (by omega) (Or.inl rfl)
  obtain ⟨b0, b1, b2⟩ := R 1 0 0 (by omega) (by omega) (by omega) (Or.inr rfl)
  obtain ⟨c0, c1, c2⟩ := R 0 0 1 (by omega) (by omega) (by omega) (Or.inr rfl)
  have dx : p 0 1 - p 0 0 ≠ 0 := (sub_pos.2 ((hM.mono 0).1 s0)).ne'
  have dz : p 2 1 - p 2 0 ≠ 0 := (sub_pos.2 ((hM.mono 0).2.2 s2)).ne'
  have t2 : θ 2 = 0 := (mul_eq_zero.1 (show θ 2 * (p 0 1 - p 0 0) = 0 by linear_combination a1 - b1)).resolve_right dx
  have t1 : θ 1 = 0 := (mul_eq_zero.1 (show θ 1 * (p 0 1 - p 0 0) = 0 by linear_combination b2 - a2)).resolve_right dx
  have t0 : θ 0 = 0 := (mul_eq_zero.1 (show θ 0 * (p 2 1 - p 2 0) = 0 by linear_combination c1 - a1)).resolve_right dz
  intro i hi
  interval_cases i
  · exact ⟨t0, by rw [t1, t2] at a0; linear_combination - a0⟩
  · exact ⟨t1, by rw [t0, t2] at a1; linear_combination - a1⟩
  · exact ⟨t2, by rw [t0, t1] at a2; linear_combination - a2⟩

/-- **C92** (patch test in displacements) if the displacement of an affine field is prescribed on the whole boundary and no
load is applied, then the solution is that affine field, at every node. -/
theorem C92_patch (hM : BoxMesh nn ne c x g p) {s : α} (s0 : s ≠ 0)
    (σ τ ρ : Sched) (υ : Nat → Sched) {conn dofs : Ten Nat} {coor : Ten α} (hc : Is2 conn ne 8 c) (hx : Is2 coor nn 3 x) (hd : Is2 dofs nn 3 d)
    {n : Nat} (hn : NumDofs3 nn d n) (hgap : ∀ k, k < n → ∃ m i, m < nn ∧ i < 3 ∧ d m i = k) {Ct b u : Ten α} {C f}
    (hC : Is6 Ct ne 8 3 3 3 3 fun _ _ => C) (hE : Elastic3 C) (hb : Is1 b n fun _ => 0)
    (hu : Is1 u n f) {iip : List Nat} (hi : iip.Nodup) (hin : ∀ k ∈ iip, k < n)
    (hbd : ∀ m i, m < nn → i < 3 → ¬ (p 0 0 < x m 0 ∧ x m 0 < p 0 g.nx ∧ p 1 0 < x m 1 ∧ x m 1 < p 1 g.ny ∧ p 2 0 < x m 2 ∧ x m 2 < p 2 g.nz) →
      d m i ∈ iip)
    {A : Nat → Nat → α} {a fA : Nat → α} (hA : ∀ m i, m < nn → i < 3 → fA (d m i) = a i + ∑ j ∈ range 3, A i j * x m j)
    (hf : ∀ k ∈ iip, f k = fA k) {S : LinSolver α} (hSol : S.Suits (Major 3 C)) :
    IsOk (do
      let (_, Q) ← setup3 s σ τ conn dofs coor
      solveLinear S ρ υ conn dofs iip Q Ct b u) fun y => ∃ f', Is1 y n f' ∧
        ∀ m i, m < nn → i < 3 → f' (d m i) = a i + ∑ j ∈ range 3, A i j * x m j := by
  have hS := hM.supported hbd
  obtain ⟨K, Q, y, f', B, h1, hK, e1, e2, e3, e4, en, hQ, y0, y2, y3, y4, q3, q4⟩ :=
    solve_core3 hM s0 σ τ ρ υ hc hx hd hn hgap hC (fun _ _ _ _ => hE) hb hu hi hin hS (hSol.imp fun h _ _ _ _ => h)
  have hV := hK.base
  refine ⟨y, by simp only [h1, y0, Res.ok_bind], f', y2, fun m i hm hi => ?_⟩
  rw [← hA m i hm hi]
  -- the affine field
  have hw : Is1 (Ten.of [n] fun ix => fA (ix.getD 0 0)) n fA := ⟨rfl, fun i _ => by simp [Ten.of]⟩
  obtain ⟨ue, u1, u2⟩ := C03_element_of_dofs hV σ (by rw [en]; exact hw)
  rw [e1, e2, e4] at u2
  obtain ⟨cc, hh, hB, h0, hl⟩ := hM.boxes
  obtain ⟨γ, ⟨gt, g1, g2⟩, -, -, -, g3⟩ := C45_box hQ hB (fun e i he hi => (h0 e i he hi).ne') τ u2
  have g4 := g3 A a (fun e m j he hm hj => hA _ j (hM.valid e m he hm) hj)
  have hs : Is4 (Ten.of [ne, 8, 3, 3] fun ix => ddot 3 C (fun i j => A j i) (ix.getD 2 0) (ix.getD 3 0)) ne 8 3 3
      (fun _ _ => ddot 3 C (fun i j => A j i)) := ⟨rfl, fun e q i j _ _ _ _ => by simp [Ten.of]⟩
  obtain ⟨F, ⟨t, F1, F2⟩, t', F3, F4⟩ := C91_tangent hK e2 e4 (by rw [e1]; exact hQ) σ τ ρ ρ (by rw [e1]; exact hC)
    (by rw [en]; exact hw) ⟨gt, by simp only [gradient3, u1, g1, Res.ok_bind], by rw [e1]; exact g2⟩ (by rw [e1]; exact hs)
    (fun e q i j he hq _ _ => by
      simp only [ddot]
      exact sum_congr rfl fun k hk => sum_congr rfl fun l hl => by
        rw [g4 e q _ _ (by omega) hq (by rw [mem_range] at hk hl; omega) (by rw [mem_range] at hk hl; omega)])
  obtain ⟨t'', F5, F6⟩ := q3 _ fA hw
  obtain rfl : t = t'' := by rw [F1] at F5; injection F5
  obtain ⟨t3, G1, n', G, G2, G3, G4⟩ := C90_interior hM s σ τ ρ hc hx hd hs
  rw [h1] at G1
  simp only [Res.ok_bind] at G1
  obtain rfl : t' = t3 := by rw [F3] at G1; injection G1
  have hzero : ∀ r, r < n → r ∉ iip → ∑ k ∈ range n, B r k * fA k = 0 := by
    intro r hr hri
    rw [en] at F2 F4
    obtain rfl : n = n' := hn.unique G3
    rw [← F2.unique F6 hr, F4.unique G2 hr]
    refine G4 r fun m i hm hi hd' => ?_
    by_contra hn
    exact hri (by rw [← hd']; exact hbd m i hm hi hn)
  have := q4 (fun k => f' k - fA k) (fun r hr hri => by
    rw [sum_congr rfl fun s _ => mul_sub _ _ _, sum_sub_distrib, y4 r hr hri, hzero r hr hri, sub_self])
    (fun k hk => by rw [y3 k hk, hf k hk, sub_self]) m i hm hi
  exact sub_eq_zero.1 this

/-! ### The hypotheses can be met -/

/-- isotropic elasticity is elastic (in three dimensions the bulk modulus is `l + 2 μ / 3`) -/
theorem isotropic_elastic3 {l μ : α} (hμ : 0 < μ) (hl : 0 < 3 * l + 2 * μ) : Elastic3 (isotropic l μ) := by
  have key : ∀ g : Nat → Nat → α, 3 * power 3 (ddot 3 (isotropic l μ) g) g =
      (3 * l + 2 * μ) * (g 0 0 + g 1 1 + g 2 2) ^ 2 + 2 * μ * ((g 0 0 - g 1 1) ^ 2 + (g 0 0 - g 2 2) ^ 2 + (g 1 1 - g 2 2) ^ 2) +
        3 * μ * ((g 0 1 + g 1 0) ^ 2 + (g 0 2 + g 2 0) ^ 2 + (g 1 2 + g 2 1) ^ 2) := by
    intro g
    simp only [power, ddot, isotropic, sum_range_succ, sum_range_zero]
    norm_num
    ring
  refine ⟨fun i j k m hi hj hk hm => ?_, fun g => ?_, fun g h => ?_⟩
  · interval_cases i <;> interval_cases j <;> interval_cases k <;> interval_cases m <;> simp [isotropic]
  · have : 0 ≤ 3 * power 3 (ddot 3 (isotropic l μ) g) g := by rw [key]; positivity
    linarith
  · have h' := key g
    rw [h, mul_zero] at h'
    have a1 : 0 ≤ (3 * l + 2 * μ) * (g 0 0 + g 1 1 + g 2 2) ^ 2 := by positivity
    have a2 : 0 ≤ 2 * μ * ((g 0 0 - g 1 1) ^ 2 + (g 0 0 - g 2 2) ^ 2 + (g 1 1 - g 2 2) ^ 2) := by positivity
    have a3 : 0 ≤ 3 * μ * ((g 0 1 + g 1 0) ^ 2 + (g 0 2 + g 2 0) ^ 2 + (g 1 2 + g 2 1) ^ 2) := by positivity
    have b1 : (3 * l + 2 * μ) * (g 0 0 + g 1 1 + g 2 2) ^ 2 = 0 := by linarith
    have b2 : 2 * μ * ((g 0 0 - g 1 1) ^ 2 + (g 0 0 - g 2 2) ^ 2 + (g 1 1 - g 2 2) ^ 2) = 0 := by linarith
    have b3 : 3 * μ * ((g 0 1 + g 1 0) ^ 2 + (g 0 2 + g 2 0) ^ 2 + (g 1 2 + g 2 1) ^ 2) = 0 := by linarith
    have c1 := pow_eq_zero_iff (two_ne_zero) |>.1 ((mul_eq_zero.1 b1).resolve_left hl.ne')
    have c2 := (mul_eq_zero.1 b2).resolve_left (by positivity)
    have c3 := (mul_eq_zero.1 b3).resolve_left (by positivity)
    have sq : ∀ a : α, a ^ 2 ≤ 0 → a = 0 := fun a h => pow_eq_zero_iff (two_ne_zero) |>.1 (le_antisymm h (sq_nonneg a))
    have d1 := sq (g 0 0 - g 1 1) (by linarith [sq_nonneg (g 0 0 - g 1 1), sq_nonneg (g 0 0 - g 2 2), sq_nonneg (g 1 1 - g 2 2)])
    have d2 := sq (g 0 0 - g 2 2) (by linarith [sq_nonneg (g 0 0 - g 1 1), sq_nonneg (g 0 0 - g 2 2), sq_nonneg (g 1 1 - g 2 2)])
    have f1 := sq (g 0 1 + g 1 0) (by linarith [sq_nonneg (g 0 1 + g 1 0), sq_nonneg (g 0 2 + g 2 0), sq_nonneg (g 1 2 + g 2 1)])
    have f2 := sq (g 0 2 + g 2 0) (by linarith [sq_nonneg (g 0 1 + g 1 0), sq_nonneg (g 0 2 + g 2 0), sq_nonneg (g 1 2 + g 2 1)])
    have f3 := sq (g 1 2 + g 2 1) (by linarith [sq_nonneg (g 0 1 + g 1 0), sq_nonneg (g 0 2 + g 2 0), sq_nonneg (g 1 2 + g 2 1)])
    intro i j hi hj
    interval_cases i <;> interval_cases j <;> linarith

/-- **C92** (Hex8 `Regular`) the patch test on the mesh of the library -/
theorem C92_hex8_regular {nelx nely nelz : Nat} (hx : 0 < nelx) (hy : 0 < nely) (hz : 0 < nelz) {h : α} (hh : 0 < h) {s : α} (s0 : s ≠ 0)
    (σ τ ρ : Sched) (υ : Nat → Sched) {Ct b u : Ten α} {C f} (hC : Is6 Ct (nelx * nely * nelz) 8 3 3 3 3 fun _ _ => C) (hE : Elastic3 C)
    {iip : List Nat} (hi : iip.Nodup) {A : Nat → Nat → α} {a : Nat → α} {S : LinSolver α} (hSol : S.Suits (Major 3 C)) :
    let M := Hex8.Regular.new nelx nely nelz h
    let N := fun iz iy ix j => ((iz * (nely + 1) + iy) * (nelx + 1) + ix) * 3 + j
    Is1 b (3 * M.nnode) (fun _ => 0) → Is1 u (3 * M.nnode) f → (∀ k ∈ iip, k < 3 * M.nnode) →
    (∀ iz iy ix j, iz ≤ nelz → iy ≤ nely → ix ≤ nelx → j < 3 → (iz = 0 ∨ iz = nelz ∨ iy = 0 ∨ iy = nely ∨ ix = 0 ∨ ix = nelx) → N iz iy ix j ∈ iip) →
    (∀ iz iy ix j, iz ≤ nelz → iy ≤ nely → ix ≤ nelx → j < 3 → N iz iy ix j ∈ iip →
      f (N iz iy ix j) = a j + A j 0 * (h * (ix : α)) + A j 1 * (h * (iy : α)) + A j 2 * (h * (iz : α))) →
    IsOk (do
      let conn ← Hex8.Regular.conn M
      let coor ← Hex8.Regular.coor M
      let dofs := meshDofs M.nnode M.ndim
      let (_, Q) ← setup3 s σ τ conn dofs coor
      solveLinear S ρ υ conn dofs iip Q Ct b u) fun y => ∃ f', Is1 y (3 * M.nnode) f' ∧ ∀ iz iy ix j, iz ≤ nelz → iy ≤ nely → ix ≤ nelx → j < 3 →
        f' (N iz iy ix j) = a j + A j 0 * (h * (ix : α)) + A j 1 * (h * (iy : α)) + A j 2 * (h * (iz : α)) := by
  intro M N hb hu hin hbd hf
  obtain ⟨c, x, g, ⟨ct, a1, a2⟩, ⟨xt, b1, b2⟩, g1, g2, g3, hM⟩ := C89_hex8_regular hx hy hz hh
  obtain ⟨xt', q1, q2⟩ := Hex8.Regular.coor_spec nelx nely nelz h
  obtain rfl : xt = xt' := by rw [b1] at q1; injection q1
  have hN : M.nnode = (nelx + 1) * (nely + 1) * (nelz + 1) := rfl
  have lt : ∀ iz iy ix, iz ≤ nelz → iy ≤ nely → ix ≤ nelx → enc (nelx + 1) (nely + 1) ix iy iz < M.nnode := fun iz iy ix h1 h2 h3 =>
    enc_lt (show ix < nelx + 1 by omega) (show iy < nely + 1 by omega) (show iz < nelz + 1 by omega)
  have pos : ∀ iz iy ix, iz ≤ nelz → iy ≤ nely → ix ≤ nelx → x (enc (nelx + 1) (nely + 1) ix iy iz) 0 = h * (ix : α) ∧
      x (enc (nelx + 1) (nely + 1) ix iy iz) 1 = h * (iy : α) ∧ x (enc (nelx + 1) (nely + 1) ix iy iz) 2 = h * (iz : α) := by
    intro iz iy ix h1 h2 h3
    obtain ⟨p0, p1, p2⟩ := gridCoor3_enc h (nelx := nelx) (nely := nely) (x := ix) (y := iy) (z := iz) (by omega) (by omega)
    have hm := lt iz iy ix h1 h2 h3
    exact ⟨(b2.unique q2 hm (by omega)).trans p0, (b2.unique q2 hm (by omega)).trans p1, (b2.unique q2 hm (by omega)).trans p2⟩
  have split : ∀ m, m < M.nnode → ∃ iz iy ix, iz ≤ nelz ∧ iy ≤ nely ∧ ix ≤ nelx ∧ m = enc (nelx + 1) (nely + 1) ix iy iz := by
    intro m hm
    obtain ⟨i, j, k, hi, hj, hk, e⟩ := enc_exists (N1 := nelx + 1) (N2 := nely + 1) (N3 := nelz + 1) (k := m) hm
    exact ⟨k, j, i, by omega, by omega, by omega, e⟩
  have NE : ∀ iz iy ix j, N iz iy ix j = enc (nelx + 1) (nely + 1) ix iy iz * 3 + j := fun iz iy ix j => rfl
  have m0 : 0 < M.nnode := by rw [hN]; positivity
  have nd : NumDofs3 M.nnode (fun m i => m * 3 + i) (3 * M.nnode) :=
    ⟨fun m i hm hi => by beta_reduce; omega, M.nnode - 1, 2, by omega, by omega, by beta_reduce; omega⟩
  obtain ⟨y, y1, f', y2, y3⟩ := C92_patch hM s0 σ τ ρ υ a2 b2 (meshDofs3_ok _) nd
    (fun k hk => ⟨k / 3, k % 3, by change k / 3 < M.nnode; omega, by omega, by beta_reduce; omega⟩) hC hE hb hu hi hin (fun m i hm hi' hin' => by
      obtain ⟨iz, iy, ix, h1, h2, h3, rfl⟩ := split m hm
      obtain ⟨p0, p1, p2⟩ := pos iz iy ix h1 h2 h3
      refine hbd iz iy ix i h1 h2 h3 hi' ?_
      by_contra hc
      push Not at hc
      obtain ⟨c1, c2, c3, c4, c5, c6⟩ := hc
      refine hin' ?_
      rw [p0, p1, p2, g1, g2, g3]
      refine ⟨?_, ?_, ?_, ?_, ?_, ?_⟩
      · simpa using mul_pos hh (Nat.cast_pos.2 (Nat.pos_of_ne_zero c5))
      · exact mul_lt_mul_of_pos_left (Nat.cast_lt.2 (by omega)) hh
      · simpa using mul_pos hh (Nat.cast_pos.2 (Nat.pos_of_ne_zero c3))
      · exact mul_lt_mul_of_pos_left (Nat.cast_lt.2 (by omega)) hh
      · simpa using mul_pos hh (Nat.cast_pos.2 (Nat.pos_of_ne_zero c1))
      · exact mul_lt_mul_of_pos_left (Nat.cast_lt.2 (by omega)) hh)
    (A := A) (a := a) (fA := fun k => a (k % 3) + ∑ j ∈ range 3, A (k % 3) j * x (k / 3) j)
    (fun m i hm hi' => by beta_reduce; rw [show (m * 3 + i) % 3 = i by omega, show (m * 3 + i) / 3 = m by omega])
    (fun k hk => by
      have hk' : k < 3 * M.nnode := hin k hk
      obtain ⟨iz, iy, ix, h1, h2, h3, e⟩ := split (k / 3) (by omega)
      have ek : k = N iz iy ix (k % 3) := by rw [NE, ← e]; omega
      have := hf iz iy ix (k % 3) h1 h2 h3 (by omega) (by rw [← ek]; exact hk)
      rw [← ek] at this
      obtain ⟨p0, p1, p2⟩ := pos iz iy ix h1 h2 h3
      rw [this, e, sum_range_succ, sum_range_succ, sum_range_succ, sum_range_zero, p0, p1, p2]
      ring) hSol
  refine ⟨y, by rw [a1, Res.ok_bind, b1, Res.ok_bind]; exact y1, f', y2, fun iz iy ix j h1 h2 h3 hj => ?_⟩
  have := y3 _ j (lt iz iy ix h1 h2 h3) hj
  beta_reduce at this
  obtain ⟨p0, p1, p2⟩ := pos iz iy ix h1 h2 h3
  rw [NE, this, sum_range_succ, sum_range_succ, sum_range_succ, sum_range_zero, p0, p1, p2]
  ring

/-- all hypotheses of `C92_hex8_regular` can be met: a stretched 2 x 2 x 2 mesh, with one unknown node (number 13) -/
example : ∃ (S : LinSolver ℚ) (iip : List Nat) (f : Nat → ℚ), S.Suits (Major 3 (isotropic (1 : ℚ) 1)) ∧ Elastic3 (isotropic (1 : ℚ) 1) ∧ iip.Nodup ∧
    (∀ k ∈ iip, k < 3 * 27) ∧ 39 ∉ iip ∧ 40 ∉ iip ∧ 41 ∉ iip ∧
    (∀ iz iy ix j, iz ≤ 2 → iy ≤ 2 → ix ≤ 2 → j < 3 → (iz = 0 ∨ iz = 2 ∨ iy = 0 ∨ iy = 2 ∨ ix = 0 ∨ ix = 2) →
      ((iz * (2 + 1) + iy) * (2 + 1) + ix) * 3 + j ∈ iip) ∧ f 3 = 1 ∧
    ∀ iz iy ix j : Nat, iz ≤ 2 → iy ≤ 2 → ix ≤ 2 → j < 3 →
      f (((iz * (2 + 1) + iy) * (2 + 1) + ix) * 3 + j) = (0 : ℚ) + (if j = 0 then 1 else 0) * (1 * (ix : ℚ)) + 0 * (1 * (iy : ℚ)) + 0 * (1 * (iz : ℚ)) := by
  obtain ⟨S, hS⟩ := exists_direct (α := ℚ)
  refine ⟨S, (List.range 81).filter fun k => k ≠ 39 ∧ k ≠ 40 ∧ k ≠ 41, fun k => if k % 3 = 0 then ((k / 3 % 3 : Nat) : ℚ) else 0, hS.suits _,
    isotropic_elastic3 (by norm_num) (by norm_num), List.nodup_range.filter _, ?_, by simp, by simp, by simp, ?_, by norm_num, ?_⟩
  · intro k hk
    rw [List.mem_filter, List.mem_range] at hk
    omega
  · intro iz iy ix j h1 h2 h3 hj h
    simp only [List.mem_filter, List.mem_range, decide_eq_true_eq]
    omega
  · intro iz iy ix j h1 h2 h3 hj
    have e1 : (((iz * (2 + 1) + iy) * (2 + 1) + ix) * 3 + j) / 3 % 3 = ix := by omega
    have e2 : (((iz * (2 + 1) + iy) * (2 + 1) + ix) * 3 + j) % 3 = j := by omega
    simp only [e1, e2]
    split <;> simp

end GF
