import Verif.Spec.NewtonFinite
import Verif.Lemmas.NewtonLoop
import Verif.Props.FiniteStrain
import Verif.Props.Newton

/-! The loops of the Newton program for finite strain. -/

namespace GF
open Finset ElemSpec Element Element.Quad4

variable {α : Type} [Field α] [LinearOrder α] [IsStrictOrderedRing α]
variable {nn ne : Nat} {c : Nat → Nat → Nat} {x : Nat → Nat → α} {Lx Ly : α} {O : Outline}
variable {Z : PeriodicCell α} {Q₂ : Quadrature α} {np : Nat} {P : Nat → Nat → Nat} {o : Nat} {s thick : α} {q : Nat → Nat → Nat} {Cm : Nat → Nat → α}

omit [LinearOrder α] [IsStrictOrderedRing α] in
theorem addI2_ok {t : Ten α} {n : Nat} {E} (h : Is4 t n 4 3 3 E) : Is4 (addI2 t) n 4 3 3 fun e a => defGrad (E e a) :=
  ⟨h.1, fun e a i j he ha hi hj => by simp only [addI2, h.2 e a i j he ha hi hj, Option.map_some, defGrad, add_comm]⟩

/-- the response of the material to the displacement `U`, and the forces on the moved mesh -/
structure NewtonFinite.Response (Z : PeriodicCell α) (elem : Quadrature α) (nn ne np : Nat) (c P : Nat → Nat → Nat) (x : Nat → Nat → α) (s thick : α)
    (q : Nat → Nat → Nat) (material : HistoryMaterial α) (calls : List (MatCall α)) (U : Nat → Nat → α) (Eps Sig Ct : Ten α)
    (S : Nat → Nat → Nat → Nat → α) (C : Nat → Nat → Nat → Nat → Nat → Nat → α) (F : Nat → Nat → α) (H : Nat → α) : Prop where
  isEps : Is4 Eps ne 4 3 3 fun e a => defGrad (cellStrain s x c U e a)
  response : material (.refresh Eps :: calls) = .ok (Sig, Ct)
  isSig : Is4 Sig ne 4 3 3 S
  isCt : Is6 Ct ne 4 3 3 3 3 C
  force : ∀ σ τ, IsOk (({ Z with elem := elem } : PeriodicCell α).nodeForce σ τ Sig) fun t => Is2 t (nn + 2) 2 F
  work : ∀ W : Nat → Nat → α, ∑ m ∈ range (nn + 2), ∑ i ∈ range 2, F m i * W m i =
    virtualWork ne (planarVol s thick (fun m i => x m i + U m i) c) S (cellGrad s (fun m i => x m i + U m i) c W)
  reduced : ∀ (W : Nat → Nat → α) (v : Nat → α), PeriodicField nn np P x W → (∀ m i, m < nn + 2 → i < 2 → v (q m i) = W m i) →
        ∑ k ∈ range Z.vector.nni, H k * v k = ∑ m ∈ range (nn + 2), ∑ i ∈ range 2, F m i * W m i

/-- the quadrature is that of the mesh with the nodes at `x + U` -/
abbrev MovedTo (ne : Nat) (c : Nat → Nat → Nat) (x : Nat → Nat → α) (s thick : α) (Q : Quadrature α) (U : Nat → Nat → α) : Prop :=
  Live 3 thick ne 4 (fun q i => s * corner4 q i) (fun _ => 1) Q (fun e m i => x (c e m) i + U (c e m) i)

/-- one iteration -/
theorem newtonFinite_iter (hM : RectMesh nn ne c x Lx Ly O) (hP : PeriodicPairs nn Lx Ly x np P) (ho : o < nn)
    (h : Z.Planar Q₂ nn ne np c P x o s thick q Cm) (S₀ : LinSolver α) {material : HistoryMaterial α}
    {fext : Ten α} {B : Nat → Nat → α} (hb : Is2 fext (nn + 2) 2 B) {G : Nat → α}
    (hG : ∀ υ, IsOk (Z.vector.AsDofs_i υ fext) fun t => Is1 t Z.vector.nni G)
    (tol : α) (maxit : Nat) (dg : α) (σ : Nat → Nat → Nat → Sched) (n iiter : Nat) {N : NewtonFinite α} {U : Nat → Nat → α}
    (hU : Is2 N.disp (nn + 2) 2 U) (hQ : MovedTo ne c x s thick N.elem U) (hK : SameSystem Z.K c q N.K)
    {Pr : (Nat → Nat → Nat → Nat → α) → (Nat → Nat → Nat → Nat → Nat → Nat → α) → Prop}
    (hm : ∀ Eps, Is4 Eps ne 4 3 3 (fun e a => defGrad (cellStrain s x c U e a)) → IsOk (material (.refresh Eps :: N.calls)) fun r =>
      ∃ S C, Is4 r.1 ne 4 3 3 S ∧ Is6 r.2 ne 4 3 3 3 3 C ∧ Pr S C) :
    ∃ Eps Sig Ct S C F H, NewtonFinite.Response Z N.elem nn ne np c P x s thick q material N.calls U Eps Sig Ct S C F H ∧ Pr S C ∧
      (iiter ≠ 0 → relativeResidual Z.vector.nnu Z.vector.nnp G H < tol → ∃ N', NewtonFinite.loop Z thick S₀ material fext tol maxit dg σ (n + 1) iiter N = .ok N' ∧
        N'.disp = N.disp ∧ N'.elem = N.elem ∧ Is2 N'.fint (nn + 2) 2 F ∧ SameSystem Z.K c q N'.K ∧ N'.calls = .refresh Eps :: N.calls ∧
        ∀ υ, IsOk (Z.vector.AsDofs_i υ N'.fint) fun t => Is1 t Z.vector.nni H) ∧
      (iiter ≠ 0 → ¬ relativeResidual Z.vector.nnu Z.vector.nnp G H < tol → maxit < iiter →
        NewtonFinite.loop Z thick S₀ material fext tol maxit dg σ (n + 1) iiter N = .throws) ∧
      ((iiter = 0 ∨ ¬ relativeResidual Z.vector.nnu Z.vector.nnp G H < tol ∧ iiter ≤ maxit) → ∃ N' Y,
        NewtonFinite.loop Z thick S₀ material fext tol maxit dg σ (n + 1) iiter N = NewtonFinite.loop Z thick S₀ material fext tol maxit dg σ n (iiter + 1) N' ∧
        Is2 N'.disp (nn + 2) 2 (fun m i => U m i + Y m i) ∧ MovedTo ne c x s thick N'.elem (fun m i => U m i + Y m i) ∧ SameSystem Z.K c q N'.K ∧ N'.calls = .refresh Eps :: N.calls ∧
        (∀ j l, j < 2 → l < 2 → Y (nn + j) l = if iiter = 0 ∧ j = 0 ∧ l = 1 then dg else 0) ∧ (∀ i, i < 2 → Y o i = 0) ∧ PeriodicField nn np P x Y ∧
        ∀ (form : (Nat → Nat → α) → (Nat → Nat → α) → α) (sym : Prop), (∀ U' V', form U' V' = virtualWork ne (planarVol s thick (fun m i => x m i + U m i) c)
            (fun e a => ddot 2 (C e a) (cellGrad s (fun m i => x m i + U m i) c U' e a)) (cellGrad s (fun m i => x m i + U m i) c V')) →
          (sym → ∀ U V, form U V = form V U) → (∀ V, 0 ≤ form V V) →
          (∀ W : Nat → Nat → α, (∀ j l, j < 2 → l < 2 → W (nn + j) l = 0) → (∀ i, i < 2 → W o i = 0) → PeriodicField nn np P x W → form W W = 0 →
            ∀ m i, m < nn → i < 2 → W m i = 0) →
          S₀.Suits sym → ∀ W : Nat → Nat → α, (∀ j l, j < 2 → l < 2 → W (nn + j) l = 0) →
          (∀ i, i < 2 → W o i = 0) → PeriodicField nn np P x W → form Y W = ∑ m ∈ range (nn + 2), ∑ i ∈ range 2, (B m i - F m i) * W m i) := by
  obtain ⟨Eps, a1, a2⟩ := h.strain (σ iiter 0 0) (σ iiter 0 1) hU
  have a3 := addI2_ok a2
  obtain ⟨⟨Sig, Ct⟩, b1, S, C, b2, b3, pr⟩ := hm _ a3
  obtain ⟨F, f1, f2⟩ := h.nodeForce_live hM (y := fun m i => x m i + U m i) hQ b2
  obtain ⟨fint, f3, f4⟩ := f1 (σ iiter 0 2) (σ iiter 0 3)
  obtain ⟨kt, K, D, k1, k2, k3, k4, k5, k6⟩ := h.assemble_live (y := fun m i => x m i + U m i) hQ (σ iiter 0 4) b3 hK
  obtain ⟨fres, r1, r2⟩ := nodeExpr_ok (fun f g _ => f - g) hb f4 f4
  obtain ⟨H, h1, h2⟩ := h.reduced hP f4
  have res := h.residual (σ iiter) hG h1
  refine ⟨addI2 Eps, Sig, Ct, S, C, F, H, ⟨a3, b1, b2, b3, f1, f2, h2⟩, pr, fun i0 hr => ?_, fun i0 hr hi => ?_, fun hc => ?_⟩
  · refine ⟨⟨N.disp, fint, N.elem, K, N.solver, .refresh (addI2 Eps) :: N.calls⟩, ?_, rfl, rfl, f4, k5, rfl, h1⟩
    simp only [NewtonFinite.loop, a1, b1, f3, k1, k2, r1, Res.ok_bind, if_neg i0, res, if_pos hr, if_true]
  · simp only [NewtonFinite.loop, a1, b1, f3, k1, k2, r1, Res.ok_bind, if_neg i0, res, if_neg hr, if_pos hi, Res.throws_bind]
  · obtain ⟨du, d1, d2⟩ : ∃ du, (if iiter = 0 then (Ten.full N.disp.shape 0).set [nn, 1] dg else .ok (Ten.full N.disp.shape 0)) = .ok du ∧
        Is2 du (nn + 2) 2 fun m l => if iiter = 0 ∧ m = nn ∧ l = 1 then dg else 0 := by
      have hz : Is2 (Ten.full N.disp.shape (0 : α)) (nn + 2) 2 fun _ _ => 0 := by rw [hU.1]; exact ⟨rfl, fun _ _ _ _ => rfl⟩
      split
      · rename_i i0
        refine ⟨⟨(Ten.full N.disp.shape (0 : α)).shape, Function.update (Ten.full N.disp.shape 0).v [nn, 1] (some dg)⟩,
          by rw [Ten.set, if_pos (by rw [hz.1]; simp [inb])], ⟨hz.1, fun m l hm hl => ?_⟩⟩
        by_cases e : m = nn ∧ l = 1
        · obtain ⟨rfl, rfl⟩ := e
          simp [i0]
        · simp only [i0, true_and, if_neg e]
          rw [Function.update_of_ne (by simpa using e)]
          exact hz.2 m l hm hl
      · rename_i i0
        exact ⟨_, rfl, hz.congr fun m l _ _ => by simp [i0]⟩
    obtain ⟨st', K', y, Y, y1, y2, y3, y4, y5, y6, y7⟩ := h.solve_form hP ho k3 k5 k4 S₀ N.solver (σ iiter 3) r2 d2
    obtain ⟨disp, u1, u2⟩ := nodeExpr_ok (fun u d _ => u + d) hU y2 y2
    obtain ⟨pos, p1, p2⟩ := nodeExpr_ok (fun u d _ => u + d) h.coor u2 u2
    obtain ⟨e1, e2, e3, e4⟩ := h.dimsV
    obtain ⟨xe, x1, x2⟩ := C03_element_of_node h.st.vector.base (σ iiter 0 6) (x := pos) (g := fun m i => (if m < nn then x m i else 0) + (U m i + Y m i)) (by
      change Is2 _ Z.vector.V.nnode Z.vector.V.ndim _
      rw [e3, e4]; exact p2)
    have x1' : Z.vector.V.AsElement (σ iiter 0 6) pos = .ok xe := x1
    have x2' : Is3 xe Z.vector.V.nelem Z.vector.V.nne Z.vector.V.ndim _ := x2
    rw [e1, e2, e4] at x2'
    have x3 : Is3 xe ne 4 2 fun e m i => x (c e m) i + (U (c e m) i + Y (c e m) i) :=
      x2'.congr fun e m i he hm hi => by beta_reduce; rw [if_pos (hM.valid e m he hm)]
    obtain ⟨Q', q1⟩ := update_ok hQ (σ iiter 0 7) x3
    have hQ' : MovedTo ne c x s thick Q' fun m i => U m i + Y m i := .update hQ x3 q1
    refine ⟨⟨disp, fint, Q', K', st', .refresh (addI2 Eps) :: N.calls⟩, Y, ?_, u2, hQ', y3, rfl, fun j l hj hl => ?_, fun i hi => ?_, y6,
      fun form sym hf => y7 form sym (fun f v => by rw [k6, hf]) (fun U' V V' hV => by
        rw [hf, hf]
        refine sum_congr rfl fun e he => sum_congr rfl fun a ha => ?_
        congr 1
        refine sum_congr rfl fun i hi => sum_congr rfl fun j hj => ?_
        congr 1
        refine sum_congr rfl fun m hm => ?_
        rw [mem_range] at he hm hj
        beta_reduce
        rw [hV _ _ (hM.valid e m he hm) hj])⟩
    · rcases hc with i0 | ⟨hr, hi⟩
      · subst i0
        simp only [if_true] at d1
        simp only [NewtonFinite.loop, a1, b1, f3, k1, k2, r1, Res.ok_bind, if_true, Bool.false_eq_true, if_false, h.nodes, d1, y1, u1, p1, x1', q1]
      · by_cases i0 : iiter = 0
        · subst i0
          simp only [if_true] at d1
          simp only [NewtonFinite.loop, a1, b1, f3, k1, k2, r1, Res.ok_bind, if_true, Bool.false_eq_true, if_false, h.nodes, d1, y1, u1, p1, x1', q1]
        · simp only [if_neg i0] at d1
          simp only [NewtonFinite.loop, a1, b1, f3, k1, k2, r1, Res.ok_bind, if_neg i0, res, if_neg hr, if_neg (Nat.not_lt.2 hi), Bool.false_eq_true, if_false,
            h.nodes, d1, y1, u1, p1, x1', q1]
    · rw [y4 j l hj hl]
      exact if_congr (by omega) rfl rfl
    · rw [y5 i hi]
      exact if_neg (by omega)

/-- the state after an increment -/
def NewtonFinite.Done (Z : PeriodicCell α) (nn ne np : Nat) (c P : Nat → Nat → Nat) (x : Nat → Nat → α) (s thick : α) (q : Nat → Nat → Nat)
    (material : HistoryMaterial α) (tol : α) (G : Nat → α) (N : NewtonFinite α) (U : Nat → Nat → α) : Prop :=
  ∃ calls Eps Sig Ct S C F H, NewtonFinite.Response Z N.elem nn ne np c P x s thick q material calls U Eps Sig Ct S C F H ∧
    N.calls = .refresh Eps :: calls ∧ Is2 N.fint (nn + 2) 2 F ∧ (∀ υ, IsOk (Z.vector.AsDofs_i υ N.fint) fun t => Is1 t Z.vector.nni H) ∧
    relativeResidual Z.vector.nnu Z.vector.nnp G H < tol

/-- the loop over the iterations ends, with convergence or with an exception -/
theorem newtonFinite_loop (hM : RectMesh nn ne c x Lx Ly O) (lx : 0 < Lx) (ly : 0 < Ly) (hP : PeriodicPairs nn Lx Ly x np P) (ho : o < nn)
    (h : Z.Planar Q₂ nn ne np c P x o s thick q Cm) (S₀ : LinSolver α) {material : HistoryMaterial α} (hm : material.Responds ne)
    {fext : Ten α} {B : Nat → Nat → α} (hb : Is2 fext (nn + 2) 2 B) {G : Nat → α}
    (hG : ∀ υ, IsOk (Z.vector.AsDofs_i υ fext) fun t => Is1 t Z.vector.nni G)
    (tol : α) (maxit : Nat) (dg : α) (σ : Nat → Nat → Nat → Sched) (n : Nat) : ∀ (iiter : Nat) (N : NewtonFinite α) (U : Nat → Nat → α),
    iiter ≤ maxit + 1 → maxit + 1 < iiter + n → Is2 N.disp (nn + 2) 2 U → MovedTo ne c x s thick N.elem U → SameSystem Z.K c q N.K →
    NewtonFinite.loop Z thick S₀ material fext tol maxit dg σ n iiter N = .throws ∨
    ∃ N' U', NewtonFinite.loop Z thick S₀ material fext tol maxit dg σ n iiter N = .ok N' ∧ Is2 N'.disp (nn + 2) 2 U' ∧
      MovedTo ne c x s thick N'.elem U' ∧ SameSystem Z.K c q N'.K ∧
      (∀ j l, j < 2 → l < 2 → U' (nn + j) l = U (nn + j) l + if iiter = 0 ∧ j = 0 ∧ l = 1 then dg else 0) ∧ (∀ i, i < 2 → U' o i = U o i) ∧
      (PeriodicField nn np P x U → PeriodicField nn np P x U') ∧ NewtonFinite.Done Z nn ne np c P x s thick q material tol G N' U' := by
  induction n with
  | zero => intro iiter N U h1 h2; omega
  | succ n ih =>
    intro iiter N U h1 h2 hU hQ hK
    obtain ⟨Eps, Sig, Ct, S, C, F, H, a, -, a1, a2, a3⟩ := newtonFinite_iter hM hP ho h S₀ (material := material) hb hG tol maxit dg σ n iiter hU hQ hK
      (Pr := fun _ _ => True) (fun Eps hE => (hm _ Eps _ hE).imp fun _ ⟨h0, S, C, h1, h2⟩ => ⟨h0, S, C, h1, h2, trivial⟩)
    have go : (iiter = 0 ∨ ¬ relativeResidual Z.vector.nnu Z.vector.nnp G H < tol ∧ iiter ≤ maxit) →
      NewtonFinite.loop Z thick S₀ material fext tol maxit dg σ (n + 1) iiter N = .throws ∨
      ∃ N' U', NewtonFinite.loop Z thick S₀ material fext tol maxit dg σ (n + 1) iiter N = .ok N' ∧ Is2 N'.disp (nn + 2) 2 U' ∧
        MovedTo ne c x s thick N'.elem U' ∧ SameSystem Z.K c q N'.K ∧
        (∀ j l, j < 2 → l < 2 → U' (nn + j) l = U (nn + j) l + if iiter = 0 ∧ j = 0 ∧ l = 1 then dg else 0) ∧ (∀ i, i < 2 → U' o i = U o i) ∧
        (PeriodicField nn np P x U → PeriodicField nn np P x U') ∧ NewtonFinite.Done Z nn ne np c P x s thick q material tol G N' U' := by
      intro hc
      obtain ⟨N', Y, b1, b2, b2', b3, -, b5, b6, b7, -⟩ := a3 hc
      rw [b1]
      rcases ih (iiter + 1) N' _ (by omega) (by omega) b2 b2' b3 with t | ⟨N'', U'', c1, c2, c2', c3, c4, c5, c6, c7⟩
      · exact Or.inl t
      · refine Or.inr ⟨N'', U'', c1, c2, c2', c3, fun j l hj hl => ?_, fun i hi => by rw [c5 i hi, b6 i hi, add_zero], fun hp => c6 (hp.add b7), c7⟩
        rw [c4 j l hj hl, b5 j l hj hl, if_neg (c := iiter + 1 = 0 ∧ j = 0 ∧ l = 1) (by omega), add_zero]
    by_cases i0 : iiter = 0
    · exact go (Or.inl i0)
    · by_cases hr : relativeResidual Z.vector.nnu Z.vector.nnp G H < tol
      · obtain ⟨N', b1, b2, b2', b3, b4, b5, b6⟩ := a1 i0 hr
        refine Or.inr ⟨N', U, b1, by rw [b2]; exact hU, by rw [b2']; exact hQ, b4, fun j l _ _ => by rw [if_neg (by omega), add_zero], fun _ _ => rfl, id,
          N.calls, Eps, Sig, Ct, S, C, F, H, by rw [b2']; exact a, b5, b3, b6, hr⟩
      · by_cases hi : maxit < iiter
        · exact Or.inl (a2 i0 hr hi)
        · exact go (Or.inr ⟨hr, by omega⟩)

/-- the loop over the increments -/
theorem newtonFinite_run (hM : RectMesh nn ne c x Lx Ly O) (lx : 0 < Lx) (ly : 0 < Ly) (hP : PeriodicPairs nn Lx Ly x np P) (ho : o < nn)
    (h : Z.Planar Q₂ nn ne np c P x o s thick q Cm) (S₀ : LinSolver α) {material : HistoryMaterial α} (hm : material.Responds ne)
    {fext : Ten α} {B : Nat → Nat → α} (hb : Is2 fext (nn + 2) 2 B) {G : Nat → α}
    (hG : ∀ υ, IsOk (Z.vector.AsDofs_i υ fext) fun t => Is1 t Z.vector.nni G)
    (tol : α) {maxit iters : Nat} (hit : maxit + 1 < iters) (σ : Nat → Nat → Nat → Nat → Sched) (dgs : List α) : ∀ (inc : Nat) (N : NewtonFinite α) (U : Nat → Nat → α),
    Is2 N.disp (nn + 2) 2 U → MovedTo ne c x s thick N.elem U → SameSystem Z.K c q N.K →
    NewtonFinite.run Z thick S₀ material fext tol maxit iters σ dgs inc N = .throws ∨
    ∃ N' U', NewtonFinite.run Z thick S₀ material fext tol maxit iters σ dgs inc N = .ok N' ∧ Is2 N'.disp (nn + 2) 2 U' ∧
      MovedTo ne c x s thick N'.elem U' ∧
      (∀ j l, j < 2 → l < 2 → U' (nn + j) l = U (nn + j) l + if j = 0 ∧ l = 1 then dgs.sum else 0) ∧ (∀ i, i < 2 → U' o i = U o i) ∧
      (PeriodicField nn np P x U → PeriodicField nn np P x U') ∧
      (dgs ≠ [] ∨ NewtonFinite.Done Z nn ne np c P x s thick q material tol G N U → NewtonFinite.Done Z nn ne np c P x s thick q material tol G N' U') := by
  induction dgs with
  | nil => intro inc N U hU hQ hK; exact Or.inr ⟨N, U, rfl, hU, hQ, by simp, by simp, id, fun h => h.resolve_left fun h => h rfl⟩
  | cons dg rest ih =>
    intro inc N U hU hQ hK
    rw [NewtonFinite.run]
    rcases newtonFinite_loop hM lx ly hP ho h S₀ hm hb hG tol maxit dg (σ inc) iters 0 { N with calls := .increment :: N.calls } U (by omega) (by omega) hU hQ hK with
      t | ⟨N', U', a1, a2, a2', a3, a4, a5, a6, a7⟩
    · rw [t, Res.throws_bind]; exact Or.inl rfl
    · rw [a1, Res.ok_bind]
      rcases ih (inc + 1) N' U' a2 a2' a3 with t | ⟨N'', U'', b1, b2, b2', b3, b4, b5, b6⟩
      · exact Or.inl t
      · refine Or.inr ⟨N'', U'', b1, b2, b2', fun j l hj hl => ?_, fun i hi => by rw [b4 i hi, a5 i hi], fun hp => b5 (a6 hp), fun _ => b6 (Or.inr a7)⟩
        rw [b3 j l hj hl, a4 j l hj hl, List.sum_cons]
        simp only [true_and]
        split <;> ring

end GF
