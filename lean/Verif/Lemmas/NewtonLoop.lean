import Verif.Lemmas.Newton

/-! The loops of the Newton program. -/

namespace GF
open Finset ElemSpec Element Element.Quad4

variable {α : Type} [Field α] [LinearOrder α] [IsStrictOrderedRing α]
variable {nn ne : Nat} {c : Nat → Nat → Nat} {x : Nat → Nat → α} {Lx Ly : α} {O : Outline}
variable {Z : PeriodicCell α} {Q₂ : Quadrature α} {np : Nat} {P : Nat → Nat → Nat} {o : Nat} {s thick : α} {q : Nat → Nat → Nat} {Cm : Nat → Nat → α}

/-- the response of the material to the displacement `U` -/
structure Newton.Response (Z : PeriodicCell α) (nn ne np : Nat) (c P : Nat → Nat → Nat) (x : Nat → Nat → α) (s thick : α) (q : Nat → Nat → Nat)
    (material : HistoryMaterial α) (calls : List (MatCall α)) (U : Nat → Nat → α) (Eps Sig Ct : Ten α) (S : Nat → Nat → Nat → Nat → α)
    (C : Nat → Nat → Nat → Nat → Nat → Nat → α) (F : Nat → Nat → α) (H : Nat → α) : Prop where
  isEps : Is4 Eps ne 4 3 3 (cellStrain s x c U)
  response : material (.refresh Eps :: calls) = .ok (Sig, Ct)
  isSig : Is4 Sig ne 4 3 3 S
  isCt : Is6 Ct ne 4 3 3 3 3 C
  force : ∀ σ τ, IsOk (Z.nodeForce σ τ Sig) fun t => Is2 t (nn + 2) 2 F
  work : ∀ W : Nat → Nat → α, ∑ m ∈ range (nn + 2), ∑ i ∈ range 2, F m i * W m i = virtualWork ne (planarVol s thick x c) S (cellGrad s x c W)
  reduced : ∀ (W : Nat → Nat → α) (v : Nat → α), PeriodicField nn np P x W → (∀ m i, m < nn + 2 → i < 2 → v (q m i) = W m i) →
        ∑ k ∈ range Z.vector.nni, H k * v k = ∑ m ∈ range (nn + 2), ∑ i ∈ range 2, F m i * W m i

theorem PeriodicField.add {U Y : Nat → Nat → α} (hU : PeriodicField nn np P x U) (hY : PeriodicField nn np P x Y) :
    PeriodicField nn np P x fun m i => U m i + Y m i := by
  intro k j hk hj
  have a := hU k j hk hj
  have b := hY k j hk hj
  beta_reduce
  rw [sum_congr rfl fun l _ => mul_add _ _ _, sum_add_distrib, ← a, ← b]
  ring

/-- one iteration -/
theorem newton_iter (hM : RectMesh nn ne c x Lx Ly O) (lx : 0 < Lx) (ly : 0 < Ly) (hP : PeriodicPairs nn Lx Ly x np P) (ho : o < nn)
    (h : Z.Planar Q₂ nn ne np c P x o s thick q Cm) (S₀ : LinSolver α) {material : HistoryMaterial α}
    {fext : Ten α} {B : Nat → Nat → α} (hb : Is2 fext (nn + 2) 2 B) {G : Nat → α}
    (hG : ∀ υ, IsOk (Z.vector.AsDofs_i υ fext) fun t => Is1 t Z.vector.nni G)
    (tol : α) (maxit : Nat) (dg : α) (σ : Nat → Nat → Nat → Sched) (n iiter : Nat) {N : Newton α} {U : Nat → Nat → α} (hU : Is2 N.disp (nn + 2) 2 U)
    (hK : SameSystem Z.K c q N.K) {Pr : (Nat → Nat → Nat → Nat → α) → (Nat → Nat → Nat → Nat → α) → (Nat → Nat → Nat → Nat → Nat → Nat → α) → Prop}
    (hm : ∀ Eps E, Is4 Eps ne 4 3 3 E → IsOk (material (.refresh Eps :: N.calls)) fun r => ∃ S C, Is4 r.1 ne 4 3 3 S ∧ Is6 r.2 ne 4 3 3 3 3 C ∧ Pr E S C) :
    ∃ Eps Sig Ct S C F H, Newton.Response Z nn ne np c P x s thick q material N.calls U Eps Sig Ct S C F H ∧ Pr (cellStrain s x c U) S C ∧
      (iiter ≠ 0 → relativeResidual Z.vector.nnu Z.vector.nnp G H < tol → ∃ N', Newton.loop Z S₀ material fext tol maxit dg σ (n + 1) iiter N = .ok N' ∧
        N'.disp = N.disp ∧ Is2 N'.fint (nn + 2) 2 F ∧ SameSystem Z.K c q N'.K ∧ N'.calls = .refresh Eps :: N.calls ∧
        ∀ υ, IsOk (Z.vector.AsDofs_i υ N'.fint) fun t => Is1 t Z.vector.nni H) ∧
      (iiter ≠ 0 → ¬ relativeResidual Z.vector.nnu Z.vector.nnp G H < tol → maxit < iiter →
        Newton.loop Z S₀ material fext tol maxit dg σ (n + 1) iiter N = .throws) ∧
      ((iiter = 0 ∨ ¬ relativeResidual Z.vector.nnu Z.vector.nnp G H < tol ∧ iiter ≤ maxit) → ∃ N' Y,
        Newton.loop Z S₀ material fext tol maxit dg σ (n + 1) iiter N = Newton.loop Z S₀ material fext tol maxit dg σ n (iiter + 1) N' ∧
        Is2 N'.disp (nn + 2) 2 (fun m i => U m i + Y m i) ∧ SameSystem Z.K c q N'.K ∧ N'.calls = .refresh Eps :: N.calls ∧
        (∀ j l, j < 2 → l < 2 → Y (nn + j) l = if iiter = 0 ∧ j = 0 ∧ l = 1 then dg else 0) ∧ (∀ i, i < 2 → Y o i = 0) ∧ PeriodicField nn np P x Y ∧
        (s ≠ 0 → 0 < thick → (∀ e q, e < ne → q < 4 → Elastic (C e q)) → S₀.Suits (∀ e q, e < ne → q < 4 → Major 2 (C e q)) → ∀ W : Nat → Nat → α, (∀ j l, j < 2 → l < 2 → W (nn + j) l = 0) →
          (∀ i, i < 2 → W o i = 0) → PeriodicField nn np P x W →
          virtualWork ne (planarVol s thick x c) (fun e a => ddot 2 (C e a) (cellGrad s x c Y e a)) (cellGrad s x c W) =
            ∑ m ∈ range (nn + 2), ∑ i ∈ range 2, (B m i - F m i) * W m i)) := by
  obtain ⟨Eps, a1, a2⟩ := h.strain (σ iiter 0 0) (σ iiter 0 1) hU
  obtain ⟨⟨Sig, Ct⟩, b1, S, C, b2, b3, pr⟩ := hm Eps _ a2
  obtain ⟨F, f1, f2⟩ := h.nodeForce hM b2
  obtain ⟨fint, f3, f4⟩ := f1 (σ iiter 0 2) (σ iiter 0 3)
  obtain ⟨kt, K, D, k1, k2, k3, k4, k5, k6⟩ := h.assemble (σ iiter 0 4) b3 hK
  obtain ⟨fres, r1, r2⟩ := nodeExpr_ok (fun f g _ => f - g) hb f4 f4
  obtain ⟨H, h1, h2⟩ := h.reduced hP f4
  have res := h.residual (σ iiter) hG h1
  refine ⟨Eps, Sig, Ct, S, C, F, H, ⟨a2, b1, b2, b3, f1, f2, h2⟩, pr, fun i0 hr => ?_, fun i0 hr hi => ?_, fun hc => ?_⟩
  · refine ⟨⟨N.disp, fint, K, N.solver, .refresh Eps :: N.calls⟩, ?_, rfl, f4, k5, rfl, h1⟩
    simp only [Newton.loop, a1, b1, f3, k1, k2, r1, Res.ok_bind, if_neg i0, res, if_pos hr, if_true]
  · simp only [Newton.loop, a1, b1, f3, k1, k2, r1, Res.ok_bind, if_neg i0, res, if_neg hr, if_pos hi, Res.throws_bind]
  · obtain ⟨du, d1, d2⟩ : ∃ du, (if iiter = 0 then (Ten.full N.disp.shape 0).set [nn, 1] dg else .ok (Ten.full N.disp.shape 0)) = .ok du ∧
        Is2 du (nn + 2) 2 fun m l => if iiter = 0 ∧ m = nn ∧ l = 1 then dg else 0 := by
      have hz : Is2 (Ten.full N.disp.shape (0 : α)) (nn + 2) 2 fun _ _ => 0 := by rw [hU.1]; exact ⟨rfl, fun _ _ _ _ => rfl⟩
      split
      · rename_i i0
        refine ⟨⟨(Ten.full N.disp.shape (0 : α)).shape, Function.update (Ten.full N.disp.shape 0).v [nn, 1] (some dg)⟩,
          by rw [Ten.set, if_pos (by rw [hz.1]; simp [inb])], ⟨hz.1, fun m l hm hl => ?_⟩⟩
        by_cases e : m = nn ∧ l = 1
        · obtain ⟨rfl, rfl⟩ := e
          simp [i0]
        · simp only [i0, true_and, if_neg e]
          rw [Function.update_of_ne (by simpa using e)]
          exact hz.2 m l hm hl
      · rename_i i0
        exact ⟨_, rfl, hz.congr fun m l _ _ => by simp [i0]⟩
    obtain ⟨st', K', y, Y, y1, y2, y3, y4, y5, y6, y7⟩ := h.solve hM lx ly hP ho k3 k5 k4 S₀ N.solver (σ iiter 3) r2 d2
    obtain ⟨disp, u1, u2⟩ := nodeExpr_ok (fun u d _ => u + d) hU y2 y2
    refine ⟨⟨disp, fint, K', st', .refresh Eps :: N.calls⟩, Y, ?_, u2, y3, rfl, fun j l hj hl => ?_, fun i hi => ?_, y6, y7 C k6⟩
    · rcases hc with i0 | ⟨hr, hi⟩
      · subst i0
        simp only [if_true] at d1
        simp only [Newton.loop, a1, b1, f3, k1, k2, r1, Res.ok_bind, if_true, Bool.false_eq_true, if_false, h.nodes, d1, y1, u1]
      · by_cases i0 : iiter = 0
        · subst i0
          simp only [if_true] at d1
          simp only [Newton.loop, a1, b1, f3, k1, k2, r1, Res.ok_bind, if_true, Bool.false_eq_true, if_false, h.nodes, d1, y1, u1]
        · simp only [if_neg i0] at d1
          simp only [Newton.loop, a1, b1, f3, k1, k2, r1, Res.ok_bind, if_neg i0, res, if_neg hr, if_neg (Nat.not_lt.2 hi), Bool.false_eq_true, if_false,
            h.nodes, d1, y1, u1]
    · rw [y4 j l hj hl]
      exact if_congr (by omega) rfl rfl
    · rw [y5 i hi]
      exact if_neg (by omega)

/-- the state after an increment -/
structure Newton.Done (Z : PeriodicCell α) (nn ne np : Nat) (c P : Nat → Nat → Nat) (x : Nat → Nat → α) (s thick : α) (q : Nat → Nat → Nat)
    (material : HistoryMaterial α) (tol : α) (G : Nat → α) (N : Newton α) (U : Nat → Nat → α) (calls : List (MatCall α)) (Eps Sig Ct : Ten α)
    (S : Nat → Nat → Nat → Nat → α) (C : Nat → Nat → Nat → Nat → Nat → Nat → α) (F : Nat → Nat → α) (H : Nat → α) : Prop where
  response : Newton.Response Z nn ne np c P x s thick q material calls U Eps Sig Ct S C F H
  calls : N.calls = .refresh Eps :: calls
  fint : Is2 N.fint (nn + 2) 2 F
  dofs : ∀ υ, IsOk (Z.vector.AsDofs_i υ N.fint) fun t => Is1 t Z.vector.nni H
  small : relativeResidual Z.vector.nnu Z.vector.nnp G H < tol

/-- the loop over the iterations ends, with convergence or with an exception -/
theorem newton_loop (hM : RectMesh nn ne c x Lx Ly O) (lx : 0 < Lx) (ly : 0 < Ly) (hP : PeriodicPairs nn Lx Ly x np P) (ho : o < nn)
    (h : Z.Planar Q₂ nn ne np c P x o s thick q Cm) (S₀ : LinSolver α) {material : HistoryMaterial α} (hm : material.Responds ne)
    {fext : Ten α} {B : Nat → Nat → α} (hb : Is2 fext (nn + 2) 2 B) {G : Nat → α}
    (hG : ∀ υ, IsOk (Z.vector.AsDofs_i υ fext) fun t => Is1 t Z.vector.nni G)
    (tol : α) (maxit : Nat) (dg : α) (σ : Nat → Nat → Nat → Sched) (n : Nat) : ∀ (iiter : Nat) (N : Newton α) (U : Nat → Nat → α),
    iiter ≤ maxit + 1 → maxit + 1 < iiter + n → Is2 N.disp (nn + 2) 2 U → SameSystem Z.K c q N.K →
    Newton.loop Z S₀ material fext tol maxit dg σ n iiter N = .throws ∨
    ∃ N' U', Newton.loop Z S₀ material fext tol maxit dg σ n iiter N = .ok N' ∧ Is2 N'.disp (nn + 2) 2 U' ∧ SameSystem Z.K c q N'.K ∧
      (∀ j l, j < 2 → l < 2 → U' (nn + j) l = U (nn + j) l + if iiter = 0 ∧ j = 0 ∧ l = 1 then dg else 0) ∧ (∀ i, i < 2 → U' o i = U o i) ∧
      (PeriodicField nn np P x U → PeriodicField nn np P x U') ∧
      ∃ calls Eps Sig Ct S C F H, Newton.Done Z nn ne np c P x s thick q material tol G N' U' calls Eps Sig Ct S C F H := by
  induction n with
  | zero => intro iiter N U h1 h2; omega
  | succ n ih =>
    intro iiter N U h1 h2 hU hK
    obtain ⟨Eps, Sig, Ct, S, C, F, H, a, -, a1, a2, a3⟩ := newton_iter hM lx ly hP ho h S₀ (material := material) hb hG tol maxit dg σ n iiter hU hK
      (Pr := fun _ _ _ => True) (fun Eps E hE => (hm _ Eps E hE).imp fun _ ⟨h0, S, C, h1, h2⟩ => ⟨h0, S, C, h1, h2, trivial⟩)
    by_cases i0 : iiter = 0
    · obtain ⟨N', Y, b1, b2, b3, b4, b5, b6, b7, -⟩ := a3 (Or.inl i0)
      rw [b1]
      rcases ih (iiter + 1) N' _ (by omega) (by omega) b2 b3 with t | ⟨N'', U'', c1, c2, c3, c4, c5, c6, c7⟩
      · exact Or.inl t
      · refine Or.inr ⟨N'', U'', c1, c2, c3, fun j l hj hl => ?_, fun i hi => by rw [c5 i hi, b6 i hi, add_zero], fun hp => c6 (hp.add b7), c7⟩
        rw [c4 j l hj hl, b5 j l hj hl, if_neg (c := iiter + 1 = 0 ∧ j = 0 ∧ l = 1) (by omega), add_zero]
    · by_cases hr : relativeResidual Z.vector.nnu Z.vector.nnp G H < tol
      · obtain ⟨N', b1, b2, b3, b4, b5, b6⟩ := a1 i0 hr
        refine Or.inr ⟨N', U, b1, by rw [b2]; exact hU, b4, fun j l _ _ => by rw [if_neg (by omega), add_zero], fun _ _ => rfl, id, N.calls, Eps, Sig, Ct, S, C, F, H,
          a, b5, b3, b6, hr⟩
      · by_cases hi : maxit < iiter
        · exact Or.inl (a2 i0 hr hi)
        · obtain ⟨N', Y, b1, b2, b3, b4, b5, b6, b7, -⟩ := a3 (Or.inr ⟨hr, by omega⟩)
          rw [b1]
          rcases ih (iiter + 1) N' _ (by omega) (by omega) b2 b3 with t | ⟨N'', U'', c1, c2, c3, c4, c5, c6, c7⟩
          · exact Or.inl t
          · refine Or.inr ⟨N'', U'', c1, c2, c3, fun j l hj hl => ?_, fun i hi => by rw [c5 i hi, b6 i hi, add_zero], fun hp => c6 (hp.add b7), c7⟩
            rw [c4 j l hj hl, b5 j l hj hl, if_neg (c := iiter + 1 = 0 ∧ j = 0 ∧ l = 1) (by omega), add_zero]

/-- the loop over the increments -/
theorem newton_run (hM : RectMesh nn ne c x Lx Ly O) (lx : 0 < Lx) (ly : 0 < Ly) (hP : PeriodicPairs nn Lx Ly x np P) (ho : o < nn)
    (h : Z.Planar Q₂ nn ne np c P x o s thick q Cm) (S₀ : LinSolver α) {material : HistoryMaterial α} (hm : material.Responds ne)
    {fext : Ten α} {B : Nat → Nat → α} (hb : Is2 fext (nn + 2) 2 B) {G : Nat → α}
    (hG : ∀ υ, IsOk (Z.vector.AsDofs_i υ fext) fun t => Is1 t Z.vector.nni G)
    (tol : α) {maxit iters : Nat} (hit : maxit + 1 < iters) (σ : Nat → Nat → Nat → Nat → Sched) (dgs : List α) : ∀ (inc : Nat) (N : Newton α) (U : Nat → Nat → α),
    Is2 N.disp (nn + 2) 2 U → SameSystem Z.K c q N.K →
    Newton.run Z S₀ material fext tol maxit iters σ dgs inc N = .throws ∨
    ∃ N' U', Newton.run Z S₀ material fext tol maxit iters σ dgs inc N = .ok N' ∧ Is2 N'.disp (nn + 2) 2 U' ∧
      (∀ j l, j < 2 → l < 2 → U' (nn + j) l = U (nn + j) l + if j = 0 ∧ l = 1 then dgs.sum else 0) ∧ (∀ i, i < 2 → U' o i = U o i) ∧
      (PeriodicField nn np P x U → PeriodicField nn np P x U') ∧
      (dgs ≠ [] → ∃ calls Eps Sig Ct S C F H, Newton.Done Z nn ne np c P x s thick q material tol G N' U' calls Eps Sig Ct S C F H) := by
  induction dgs with
  | nil => intro inc N U hU hK; exact Or.inr ⟨N, U, rfl, hU, by simp, by simp, id, fun h => absurd rfl h⟩
  | cons dg rest ih =>
    intro inc N U hU hK
    rw [Newton.run]
    rcases newton_loop hM lx ly hP ho h S₀ hm hb hG tol maxit dg (σ inc) iters 0 { N with calls := .increment :: N.calls } U (by omega) (by omega) hU hK with
      t | ⟨N', U', a1, a2, a3, a4, a5, a6, a7⟩
    · rw [t, Res.throws_bind]; exact Or.inl rfl
    · rw [a1, Res.ok_bind]
      rcases ih (inc + 1) N' U' a2 a3 with t | ⟨N'', U'', b1, b2, b3, b4, b5, b6⟩
      · exact Or.inl t
      · refine Or.inr ⟨N'', U'', b1, b2, fun j l hj hl => ?_, fun i hi => by rw [b4 i hi, a5 i hi], fun hp => b5 (a6 hp), fun _ => ?_⟩
        · rw [b3 j l hj hl, a4 j l hj hl, List.sum_cons]
          simp only [true_and]
          split <;> ring
        · by_cases hr : rest = []
          · subst hr
            rw [Newton.run] at b1
            injection b1 with b1
            subst b1
            obtain ⟨calls, Eps, Sig, Ct, S, C, F, H, hd⟩ := a7
            refine ⟨calls, Eps, Sig, Ct, S, C, F, H, ⟨?_, hd.calls, hd.fint, hd.dofs, hd.small⟩⟩
            have e := hd.response
            refine ⟨e.isEps.congr fun e' a i j he ha hi hj => ?_, e.response, e.isSig, e.isCt, e.force, e.work, e.reduced⟩
            have hU' : ∀ m i, m < nn → i < 2 → U' m i = U'' m i := fun m i hm hi => a2.unique b2 (by omega) hi
            have gr : ∀ i j, j < 2 → cellGrad s x c U' e' a i j = cellGrad s x c U'' e' a i j := fun i j hj =>
              sum_congr rfl fun m hm => by beta_reduce; rw [hU' _ _ (hM.valid e' m he (mem_range.1 hm)) hj]
            simp only [cellStrain, embed, symf]
            split
            · rename_i hij
              rw [gr i j hij.2, gr 0 1 (by omega), gr 1 0 (by omega)]
            · rfl
          · exact b6 hr

end GF
