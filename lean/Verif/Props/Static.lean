import Verif.Lemmas.Static
import Verif.Props.Patch
import Verif.Props.Renumber

/-! **C93** The static example programs. -/

namespace GF
open Finset ElemSpec Element Element.Quad4

variable {α : Type} [Field α] [LinearOrder α] [IsStrictOrderedRing α]
variable {nn ne : Nat} {c d : Nat → Nat → Nat} {x : Nat → Nat → α} {Lx Ly : α} {O : Outline}

/-- the program, with the equations it solves -/
theorem static_core (hM : RectMesh nn ne c x Lx Ly O) (lx : 0 < Lx) (ly : 0 < Ly) {s : α} (s0 : s ≠ 0) (s1 : -1 ≤ s) (s2 : s ≤ 1) {thick : α}
    (t0 : 0 < thick) (σ : Nat → Nat → Sched) {conn dofs : Ten Nat} {coor : Ten α} (hc : Is2 conn ne 4 c) (hx : Is2 coor nn 2 x)
    (hd : Is2 dofs nn 2 d) {n : Nat} (hn : NumDofs nn d n) (hgap : ∀ k, k < n → ∃ m i, m < nn ∧ i < 2 ∧ d m i = k)
    {material : Ten α → Res (Ten α × Ten α)} {C} (hm : LinearMaterial ne C material) (hE : ∀ e q, e < ne → q < 4 → Elastic (C e q))
    {iip : List Nat} (hi : iip.Nodup) (hin : ∀ k ∈ iip, k < n) (hS : Supported nn d x iip)
    {fext disp0 disp1 : Ten α} {w f : Nat → α} {g1 : Nat → Nat → α} (hw : Is2 fext nn 2 fun m i => w (d m i)) (h0 : Is2 disp0 nn 2 fun _ _ => 0)
    (h1 : Is2 disp1 nn 2 g1) (hg : ∀ m i, m < nn → i < 2 → d m i ∈ iip → g1 m i = f (d m i)) {S : LinSolver α} (hSol : S.Suits (∀ e q, e < ne → q < 4 → Major 2 (C e q))) :
    ∃ (r : StaticResult α) (f' : Nat → α) (B : Nat → Nat → α) (V : Vector) (Q₂ : Quadrature α),
      staticProgram s thick S σ conn dofs iip coor material fext disp0 disp1 = .ok r ∧
      Is2 r.disp nn 2 (fun m i => f' (d m i)) ∧ (∀ k ∈ iip, f' k = f k) ∧
      Is2 r.fint nn 2 (fun m i => ∑ k ∈ range n, B (d m i) k * f' k) ∧ (∀ k, k < n → k ∉ iip → ∑ l ∈ range n, B k l * f' l = w k) ∧
      Is2 r.fext nn 2 (fun m i => ∑ k ∈ range n, B (d m i) k * f' k) ∧ Is2 r.fres nn 2 (fun _ _ => 0) ∧
      (∀ f'' : Nat → α, (∀ k ∈ iip, f'' k = f k) → (∀ k, k < n → k ∉ iip → ∑ l ∈ range n, B k l * f'' l = w k) →
        ∀ m i, m < nn → i < 2 → f'' (d m i) = f' (d m i)) ∧
      setup s (σ 0 0) (σ 0 1) conn dofs coor = .ok (V, Q₂) ∧ V.ndof = n ∧
      ∀ (ρ υ : Sched) (sig : Ten α) (f : Nat → α) (g : Nat → Nat → Nat → Nat → α),
        (∃ ue gt, Is3 ue ne 4 2 (fun e m i => f (d (c e m) i)) ∧ GradN_vector Q₂ ρ ue = .ok gt ∧ Is4 gt ne 4 2 2 g) →
        Is4 sig ne 4 2 2 (fun e q => ddot 2 (thickC thick C e q) (g e q)) →
        IsOk (internalForce υ V Q₂ sig) fun t => Is1 t n fun r => ∑ s ∈ range n, B r s * f s := by
  obtain ⟨M, q, m1, m2, m3, m4, hMP⟩ := C18_constructor (α := α) (iip := iip) hc hd hM.valid hi (fun k hk => by
      obtain ⟨-, m, i, hm, hi', h⟩ := hn
      exact ⟨m, i, hm, hi', by have := hin k hk; omega⟩) (fun m i hm hi' k hk => by
      obtain ⟨a, b', ha, hb', h⟩ := hgap k (by have := hn.1 m i hm hi'; omega)
      exact ⟨a, b', ha, hb', h⟩) ⟨hM.nodes, by omega⟩
  obtain ⟨Q, Q₂, B, q1, q2, hV, e1, e2, e3, e4, e5, sys, fin⟩ :=
    static_sys hM lx ly s0 s1 s2 t0 hc hx hd m3 (σ 0 0) (σ 0 1) hm hE
  have en : M.P.V.ndof = n := by
    obtain ⟨a1, m, i, hm, hi', a2⟩ := hn
    obtain ⟨b1, m', i', hm', hi'', b2⟩ := e5
    have := a1 m' i' hm' hi''
    have := b1 m i hm hi'
    omega
  rw [en] at sys fin
  -- first response
  obtain ⟨⟨fint0, Ct⟩, r1, r2, r3⟩ := sys.response (σ 1) disp0 (fun _ => 0) h0
  obtain ⟨kt, k, k1, k2, k3⟩ := sys.stiff (σ 0 2) Ct r3
  obtain ⟨A, a1, a2⟩ := MatrixPartitioned.assemble_spec hMP k2
  rw [k3] at a2
  have hM' : MatrixPartitioned.Holds { M with A := A, changed := true } c d q B :=
    ⟨hMP.base, hMP.surj, hMP.part1d_shape, hMP.part1d, a2⟩
  have hex : S.ExactOn A.uu := by
    have hE := sys.energy
    rw [← en] at hE
    refine hM'.exact_uu hE.symm hE.nonneg (fun f h1 h2 m i hm hi => ?_) hSol
    exact hE.pos iip f (by rw [← m4]; exact h1) h2 hS m i (by rw [← e3]; exact hm) (by rw [← e4]; exact hi)
  obtain ⟨fres0, n1, n2⟩ := nodeExpr_ok (fun f g _ => f - g) hw r2 r2
  obtain ⟨s', M', disp, f', y1, y2, y3, y4⟩ := C21_solve_nodevec S SolverState.init hM' (Or.inl rfl) hex (σ 2)
    (b := fres0) (x := disp1) (gb := fun m i => w (d m i)) (gx := g1) (g := w) (f := f)
    (by change Is2 fres0 M.P.V.nnode M.P.V.ndim _; rw [e3, e4]; exact n2.congr fun m i _ _ => by simp)
    (by change Is2 disp1 M.P.V.nnode M.P.V.ndim _; rw [e3, e4]; exact h1) (fun _ _ _ _ _ => rfl)
    (fun m i hm hi' hk => hg m i (by rw [← e3]; exact hm) (by rw [← e4]; exact hi') (by rw [← m4]; exact hk))
  dsimp only at y2 y3 y4
  rw [e3, e4] at y2
  rw [m4] at y3 y4
  rw [en] at y4
  obtain ⟨⟨fint, Ct'⟩, z1, z2, -⟩ := sys.response (σ 3) disp f' y2
  obtain ⟨fe, p1, p2⟩ := (C14_copy hMP.base (σ 0 3) (src := fint) (dest := fext) (by rw [e3, e4]; exact z2) (by rw [e3, e4]; exact hw)).2
  rw [e3, e4] at p2
  have p3 : Is2 fe nn 2 fun m i => ∑ k ∈ range n, B (d m i) k * f' k := p2.congr fun m i hm hi' => by
    split
    · rfl
    · rename_i h
      rw [m4] at h
      exact (y4 _ (hn.1 m i hm hi') h).symm
  obtain ⟨fr, o1, o2⟩ := nodeExpr_ok (fun f g _ => f - g) p3 z2 z2
  refine ⟨⟨disp, fe, fint, fr⟩, f', B, M.P.V, Q₂, ?_, y2, y3, z2, y4, p3, o2.congr fun m i _ _ => by simp, fun f'' u1 u2 m i hm hi' => ?_,
    q2, en, fin⟩
  · have q1' : ∀ {β : Type} (F : Quadrature α → Res β), (do let xe ← M.P.V.AsElement (σ 0 0) coor; let Q ← newPlanarGauss s (σ 0 1) xe thick; F Q) = F Q := by
      intro β F
      revert q1
      cases M.P.V.AsElement (σ 0 0) coor with
      | ok xe => intro q1; rw [Res.ok_bind] at q1; simp only [q1, Res.ok_bind]
      | throws => intro q1; cases q1
      | ub => intro q1; cases q1
    simp only [staticProgram, m2, m1, Res.ok_bind]
    rw [q1']
    simp only [r1, k1, a1, n1, y1, z1, p1, o1, Res.ok_bind]
    rfl
  · have := sys.regular iip (fun k => f'' k - f' k) hS (fun r hr hri => by
      rw [sum_congr rfl fun s _ => mul_sub _ _ _, sum_sub_distrib, u2 r hr hri, y4 r hr hri, sub_self])
      (fun k hk => by rw [u1 k hk, y3 k hk, sub_self]) m i hm hi'
    exact sub_eq_zero.1 this

/-- **C93** (residual) The program of the static examples succeeds for every elastic material (different at every integration
point), every load and all prescribed displacements that exclude rigid motions: nodes that share a DOF move together, the
prescribed displacements are those that were set, the load on all other components is the given one and is in equilibrium with
the internal force, and the residual at the end is exactly zero everywhere. -/
theorem C93_residual (hM : RectMesh nn ne c x Lx Ly O) (lx : 0 < Lx) (ly : 0 < Ly) {s : α} (s0 : s ≠ 0) (s1 : -1 ≤ s) (s2 : s ≤ 1) {thick : α}
    (t0 : 0 < thick) (σ : Nat → Nat → Sched) {conn dofs : Ten Nat} {coor : Ten α} (hc : Is2 conn ne 4 c) (hx : Is2 coor nn 2 x)
    (hd : Is2 dofs nn 2 d) {n : Nat} (hn : NumDofs nn d n) (hgap : ∀ k, k < n → ∃ m i, m < nn ∧ i < 2 ∧ d m i = k)
    {material : Ten α → Res (Ten α × Ten α)} {C} (hm : LinearMaterial ne C material) (hE : ∀ e q, e < ne → q < 4 → Elastic (C e q))
    {iip : List Nat} (hi : iip.Nodup) (hin : ∀ k ∈ iip, k < n) (hS : Supported nn d x iip)
    {fext disp0 disp1 : Ten α} {w f : Nat → α} {g1 : Nat → Nat → α} (hw : Is2 fext nn 2 fun m i => w (d m i)) (h0 : Is2 disp0 nn 2 fun _ _ => 0)
    (h1 : Is2 disp1 nn 2 g1) (hg : ∀ m i, m < nn → i < 2 → d m i ∈ iip → g1 m i = f (d m i)) {S : LinSolver α} (hSol : S.Suits (∀ e q, e < ne → q < 4 → Major 2 (C e q))) :
    IsOk (staticProgram s thick S σ conn dofs iip coor material fext disp0 disp1) fun r =>
      ∃ f' F : Nat → α, Is2 r.disp nn 2 (fun m i => f' (d m i)) ∧ (∀ m i, m < nn → i < 2 → d m i ∈ iip → f' (d m i) = g1 m i) ∧
        Is2 r.fint nn 2 (fun m i => F (d m i)) ∧ Is2 r.fext nn 2 (fun m i => F (d m i)) ∧
        (∀ m i, m < nn → i < 2 → d m i ∉ iip → F (d m i) = w (d m i)) ∧ Is2 r.fres nn 2 (fun _ _ => 0) := by
  obtain ⟨r, f', B, V, Q₂, a1, a2, a3, a4, a5, a6, a7, -⟩ := static_core hM lx ly s0 s1 s2 t0 σ hc hx hd hn hgap hm hE hi hin hS hw h0 h1 hg hSol
  exact ⟨r, a1, f', fun k => ∑ l ∈ range n, B k l * f' l, a2, fun m i hm hi' hk => by rw [a3 _ hk, hg m i hm hi' hk],
    a4, a6, fun m i hm hi' hk => a5 _ (hn.1 m i hm hi') hk, a7⟩

/-- a constant stress, given by a uniform tangent and an affine displacement, and free of tractions on all unknown DOFs: the
program returns that displacement -/
theorem static_affine (hM : RectMesh nn ne c x Lx Ly O) (lx : 0 < Lx) (ly : 0 < Ly) {s : α} (s0 : s ≠ 0) (s1 : -1 ≤ s) (s2 : s ≤ 1) {thick : α}
    (t0 : 0 < thick) (σ : Nat → Nat → Sched) {conn dofs : Ten Nat} {coor : Ten α} (hc : Is2 conn ne 4 c) (hx : Is2 coor nn 2 x)
    (hd : Is2 dofs nn 2 d) {n : Nat} (hn : NumDofs nn d n) (hgap : ∀ k, k < n → ∃ m i, m < nn ∧ i < 2 ∧ d m i = k)
    {material : Ten α → Res (Ten α × Ten α)} {C : Nat → Nat → Nat → Nat → α} (hm : LinearMaterial ne (fun _ _ => C) material) (hE : Elastic C)
    {iip : List Nat} (hi : iip.Nodup) (hin : ∀ k ∈ iip, k < n) (hS : Supported nn d x iip)
    {fext disp0 disp1 : Ten α} {g1 : Nat → Nat → α} (hw : Is2 fext nn 2 fun _ _ => 0) (h0 : Is2 disp0 nn 2 fun _ _ => 0)
    (h1 : Is2 disp1 nn 2 g1) {A : Nat → Nat → α} {a fA : Nat → α} (hA : ∀ m i, m < nn → i < 2 → fA (d m i) = a i + ∑ j ∈ range 2, A i j * x m j)
    (hg : ∀ m i, m < nn → i < 2 → d m i ∈ iip → g1 m i = a i + ∑ j ∈ range 2, A i j * x m j)
    (hz : ∀ (S : Nat → Nat → α) k, (∀ i j, i < 2 → j < 2 → S i j = thick * ddot 2 C (fun i j => A j i) i j) → k < n → k ∉ iip →
      O.sum (tractionForce d x S k) = 0) {S : LinSolver α} (hSol : S.Suits (Major 2 C)) :
    IsOk (staticProgram s thick S σ conn dofs iip coor material fext disp0 disp1) fun r =>
      Is2 r.disp nn 2 (fun m i => a i + ∑ j ∈ range 2, A i j * x m j) ∧ Is2 r.fres nn 2 (fun _ _ => 0) := by
  obtain ⟨r, f', B, V, Q₂, a1, a2, a3, a4, a5, a6, a7, a8, a9, en, a10⟩ := static_core hM lx ly s0 s1 s2 t0 σ hc hx hd hn hgap hm (fun _ _ _ _ => hE)
    hi hin hS (w := fun _ => 0) (f := fA) hw h0 h1 (fun m i hm hi' hk => by rw [hg m i hm hi' hk, hA m i hm hi']) (hSol.imp fun h _ _ _ _ => h)
  refine ⟨r, a1, a2.congr fun m i hm hi' => ?_, a7⟩
  rw [← hA m i hm hi']
  refine (a8 fA (fun _ _ => rfl) (fun k hk hki => ?_) m i hm hi').symm
  obtain ⟨V', Q', b1, hV, e1, e2, e3, e4, e5, hQ, hp⟩ := hM.setup s1 s2 (σ 0 0) (σ 0 1) hc hx hd
  obtain ⟨rfl, rfl⟩ : V = V' ∧ Q₂ = Q' := by rw [a9] at b1; injection b1 with b1; injection b1 with b1 b2; exact ⟨b1, b2⟩
  have hw' : Is1 (Ten.of [n] fun ix => fA (ix.getD 0 0)) n fA := ⟨rfl, fun i _ => by simp [Ten.of]⟩
  obtain ⟨ue, u1, u2⟩ := C03_element_of_dofs hV Sched.seq (by rw [en]; exact hw')
  rw [e1, e2, e4] at u2
  obtain ⟨⟨gt, g1, g2⟩, -, -⟩ := C44_affine_gradient hQ (fun e q he hq => (hp e q he hq).ne') u2 (A := A) (b := a)
    (fun e m j he hm hj => hA _ j (hM.valid e m he hm) hj) Sched.seq
  have hs : Is4 (Ten.of [ne, 4, 2, 2] fun ix => ddot 2 (fun i j k l => thick * C i j k l) (fun i j => A j i) (ix.getD 2 0) (ix.getD 3 0)) ne 4 2 2
      (fun _ _ => ddot 2 (fun i j k l => thick * C i j k l) (fun i j => A j i)) := ⟨rfl, fun e q i j _ _ _ _ => by simp [Ten.of]⟩
  obtain ⟨t, t1, t2⟩ := a10 Sched.seq Sched.seq _ fA _ ⟨ue, gt, u2, g1, g2⟩ hs
  obtain ⟨t', t1', n', F, t2', t3, t4⟩ := C74_constant_stress hM s1 s2 (σ 0 0) (σ 0 1) Sched.seq hc hx hd hs
  rw [a9] at t1'
  simp only [Res.ok_bind] at t1'
  obtain rfl : t = t' := by rw [t1] at t1'; injection t1'
  obtain rfl : n = n' := by
    have := t2.1.symm.trans t2'.1; simpa using this
  rw [← t2'.unique t2 hk, t4 k]
  refine hz _ k (fun i j _ _ => ?_) hk hki
  simp only [ddot, sum_range_succ, sum_range_zero]
  ring

end GF
