import Verif.Lemmas.Sheared

/-! **C99** (continued) homogeneous materials. -/

namespace GF
open Finset ElemSpec Element Element.Quad4

variable {α : Type} [Field α] [LinearOrder α] [IsStrictOrderedRing α]
variable {nn ne : Nat} {c : Nat → Nat → Nat} {x : Nat → Nat → α} {Lx Ly : α} {O : Outline}
variable {Z : PeriodicCell α} {Q₂ : Quadrature α} {np : Nat} {P : Nat → Nat → Nat} {o : Nat} {s thick : α} {q : Nat → Nat → Nat} {Cm : Nat → Nat → α}

theorem virtualWork_sub (C : Nat → Nat → Nat → Nat → Nat → Nat → α) (vol : Nat → Nat → α) (y U V : Nat → Nat → α) (g : Nat → Nat → Nat → Nat → α) :
    virtualWork ne vol (fun e a => ddot 2 (C e a) (cellGrad s y c (fun m i => U m i - V m i) e a)) g =
      virtualWork ne vol (fun e a => ddot 2 (C e a) (cellGrad s y c U e a)) g - virtualWork ne vol (fun e a => ddot 2 (C e a) (cellGrad s y c V e a)) g := by
  simp only [virtualWork, ← sum_sub_distrib, ← sub_mul]
  refine sum_congr rfl fun e _ => sum_congr rfl fun a _ => ?_
  congr 1
  have lin : ∀ i j, ddot 2 (C e a) (cellGrad s y c (fun m i => U m i - V m i) e a) i j =
      ddot 2 (C e a) (cellGrad s y c U e a) i j - ddot 2 (C e a) (cellGrad s y c V e a) i j := by
    intro i j
    simp only [ddot, cellGrad, grad, ← sum_sub_distrib, ← mul_sub]
  simp only [power, lin, sub_mul, sum_sub_distrib]

/-- the state of the program in simple shear -/
structure NewtonFinite.Sheared (Z : PeriodicCell α) (nn ne np : Nat) (c P : Nat → Nat → Nat) (x : Nat → Nat → α) (o : Nat) (s thick : α) (q : Nat → Nat → Nat)
    (N : NewtonFinite α) (γ : α) (U : Nat → Nat → α) : Prop where
  disp : Is2 N.disp (nn + 2) 2 U
  elem : MovedTo ne c x s thick N.elem U
  K : SameSystem Z.K c q N.K
  calls : ∀ k ∈ N.calls, MatCall.Uniform ne k
  shear : SimpleShear nn x o γ U

/-- one increment: two iterations, the second one finds equilibrium -/
theorem newtonFinite_homogeneous_loop (hM : RectMesh nn ne c x Lx Ly O) (lx : 0 < Lx) (ly : 0 < Ly) (hP : PeriodicPairs nn Lx Ly x np P) (ho : o < nn)
    (h : Z.Planar Q₂ nn ne np c P x o s thick q Cm) (s0 : s ≠ 0) (t0 : 0 < thick) {S₀ : LinSolver α} {material : HistoryMaterial α}
    (hm : material.Homogeneous ne S₀) {fext : Ten α} (hb : Is2 fext (nn + 2) 2 fun _ _ => 0) {G : Nat → α}
    (hG : ∀ υ, IsOk (Z.vector.AsDofs_i υ fext) fun t => Is1 t Z.vector.nni G)
    (hG' : ∀ (W : Nat → Nat → α) (v : Nat → α), PeriodicField nn np P x W → (∀ m i, m < nn + 2 → i < 2 → v (q m i) = W m i) →
        ∑ k ∈ range Z.vector.nni, G k * v k = ∑ m ∈ range (nn + 2), ∑ i ∈ range 2, 0 * W m i)
    {tol : α} (htol : 0 < tol) (maxit : Nat) (dg : α) (σ : Nat → Nat → Nat → Sched) (n : Nat) {N : NewtonFinite α} {γ : α} {U : Nat → Nat → α}
    (hN : NewtonFinite.Sheared Z nn ne np c P x o s thick q N γ U) :
    ∃ N' U', NewtonFinite.loop Z thick S₀ material fext tol maxit dg σ (n + 2) 0 N = .ok N' ∧
      NewtonFinite.Sheared Z nn ne np c P x o s thick q N' (γ + dg) U' ∧ N'.calls.length = N.calls.length + 2 := by
  have resp : ∀ (N : NewtonFinite α) (γ : α) (U : Nat → Nat → α), NewtonFinite.Sheared Z nn ne np c P x o s thick q N γ U →
      ∀ Eps, Is4 Eps ne 4 3 3 (fun e a => defGrad (cellStrain s x c U e a)) → MatCall.Uniform ne (.refresh Eps) ∧ IsOk (material (.refresh Eps :: N.calls)) fun r =>
        ∃ S C, Is4 r.1 ne 4 3 3 S ∧ Is6 r.2 ne 4 3 3 3 3 C ∧ ∃ T C₀, S = (fun _ _ => T) ∧ C = (fun _ _ => C₀) ∧ Elastic C₀ ∧ S₀.Suits (Major 2 C₀) := by
    intro N γ U hN Eps hE
    have un : MatCall.Uniform ne (.refresh Eps) := ⟨defGrad (embed (symf fun i j => if i = 1 ∧ j = 0 then γ else 0)), hE.congr fun e a i j he ha hi hj => by
      simp only [defGrad, cellStrain, embed, symf]
      congr 1
      by_cases hij : i < 2 ∧ j < 2
      · have g := fun i j hi hj => shear_grad (i := i) (j := j) hM h.st.det hN.shear he ha hi hj
        simp only [if_pos hij, g i j hij.1 hij.2, g 0 1 (by omega) (by omega), g 1 0 (by omega) (by omega)]
      · simp only [if_neg hij]⟩
    refine ⟨un, (hm N.calls Eps hN.calls un).imp ?_⟩
    rintro r ⟨r0, T, C, r1, r2, r3, r4⟩
    exact ⟨r0, _, _, r1, r2, T, C, rfl, rfl, r3, r4⟩
  obtain ⟨Eps, Sig, Ct, S, C, F, H, a, ⟨T, C₀, rfl, rfl, hE, hS⟩, -, -, a3⟩ := newtonFinite_iter hM hP ho h S₀ (material := material) hb hG tol maxit dg σ (n + 1) 0
    hN.disp hN.elem hN.K (fun Eps hE => (resp N γ U hN Eps hE).2)
  obtain ⟨N₁, Y, b1, b2, b3, b4, b5, b6, b7, b8, b9⟩ := a3 (Or.inl rfl)
  obtain ⟨form, hf⟩ : ∃ form : (Nat → Nat → α) → (Nat → Nat → α) → α, ∀ U' V', form U' V' = virtualWork ne (planarVol s thick (fun m i => x m i + U m i) c)
    (fun e a => ddot 2 C₀ (cellGrad s (fun m i => x m i + U m i) c U' e a)) (cellGrad s (fun m i => x m i + U m i) c V') := ⟨_, fun _ _ => rfl⟩
  have def' : ∀ W : Nat → Nat → α, (∀ j l, j < 2 → l < 2 → W (nn + j) l = 0) → (∀ i, i < 2 → W o i = 0) → PeriodicField nn np P x W → form W W = 0 →
            ∀ m i, m < nn → i < 2 → W m i = 0 := fun W w0 w1 w2 w3 => by
    rw [hf] at w3
    exact shear_definite h hM lx ly s0 t0 hP ho hN.shear (C := fun _ _ => C₀) (fun _ _ _ _ => hE) w0 w1 w2 w3
  have weak := b9 form _ hf (fun hs U V => by rw [hf, hf]; exact virtualWork_symm (C := fun _ _ => C₀) (fun _ _ _ _ => hE.minor) (fun _ _ _ _ => hs) _ _ _)
    (fun V => by
      rw [hf]
      refine sum_nonneg fun e he => sum_nonneg fun a ha => mul_nonneg (hE.nonneg _) ?_
      rw [mem_range] at he ha
      rw [planarVol, (shear_push hM h.st.det hN.shear he ha).1]
      exact (mul_pos (h.st.det e a he ha) t0).le) def' hS
  -- the solution is simple shear
  obtain ⟨A, hA⟩ : ∃ A : Nat → Nat → α, ∀ m i, A m i = if m < nn then (if i = 0 then dg * (x m 1 - x o 1) else 0) else if m = nn ∧ i = 1 then dg else 0 :=
    ⟨_, fun _ _ => rfl⟩
  have hA' : SimpleShear nn x o dg A := fun m hm => ⟨by rw [hA, if_pos hm, if_pos rfl], by rw [hA, if_pos hm, if_neg (by omega)]⟩
  have A0 : ∀ j l, j < 2 → l < 2 → A (nn + j) l = if j = 0 ∧ l = 1 then dg else 0 := fun j l _ _ => by
    rw [hA, if_neg (by omega)]
    exact if_congr (by omega) rfl rfl
  have A2 : PeriodicField nn np P x A := by
    intro k j hk hj
    rw [sum_congr rfl fun l hl => by rw [A0 j l hj (mem_range.1 hl)]]
    obtain ⟨p0, p1⟩ := hA' _ (hP.valid k 1 hk (by omega))
    obtain ⟨q0, q1⟩ := hA' _ (hP.valid k 0 hk (by omega))
    interval_cases j
    · rw [p0, q0]; simp [sum_range_succ]; ring
    · rw [p1, q1]; simp
  have D0 : ∀ j l, j < 2 → l < 2 → Y (nn + j) l - A (nn + j) l = 0 := fun j l hj hl => by
    rw [b6 j l hj hl, A0 j l hj hl]; simp
  have D1 : ∀ i, i < 2 → Y o i - A o i = 0 := fun i hi => by
    rw [b7 i hi, hA, if_pos ho]; simp
  have D2 : PeriodicField nn np P x fun m i => Y m i - A m i := by
    intro k j hk hj
    have p0 := b8 k j hk hj
    have p1 := A2 k j hk hj
    beta_reduce
    simp only [mul_sub, sum_sub_distrib]
    linear_combination p0 - p1
  have uni : ∀ W : Nat → Nat → α, (∀ j l, j < 2 → l < 2 → W (nn + j) l = 0) → PeriodicField nn np P x W → form A W = 0 := fun W w0 w2 => by
    rw [hf]
    refine uniform_work hM lx ly h.st.det hP hN.shear (ddot 2 C₀ fun i j => if i = 1 ∧ j = 0 then dg else 0) (fun e a i j he ha hi hj => ?_) w0 w2
    refine sum_congr rfl fun k hk => sum_congr rfl fun l hl => ?_
    rw [mem_range] at hk hl
    congr 1
    obtain ⟨-, p⟩ := shear_push hM h.st.det hN.shear he ha
    interval_cases l
    · rw [(p A k).1, shear_grad hM h.st.det hA' he ha (by omega) hk]
    · rw [(p A k).2, shear_grad hM h.st.det hA' he ha (by omega) hk, shear_grad hM h.st.det hA' he ha (by omega) hk]; simp
  have eqY : ∀ m i, m < nn → i < 2 → Y m i = A m i := by
    have z := def' (fun m i => Y m i - A m i) D0 D1 D2 (by
      have l := virtualWork_sub (ne := ne) (c := c) (s := s) (fun _ _ => C₀) (planarVol s thick (fun m i => x m i + U m i) c) (fun m i => x m i + U m i) Y A
        (cellGrad s (fun m i => x m i + U m i) c fun m i => Y m i - A m i)
      rw [hf, l, ← hf, ← hf, uni _ D0 D2, sub_zero, weak _ D0 D1 D2]
      simp only [zero_sub, neg_mul, sum_neg_distrib]
      rw [a.work, uniform_work hM lx ly h.st.det hP hN.shear T (fun _ _ _ _ _ _ _ _ => rfl) D0 D2, neg_zero])
    exact fun m i hm hi => sub_eq_zero.1 (z m i hm hi)
  have hN₁ : NewtonFinite.Sheared Z nn ne np c P x o s thick q N₁ (γ + dg) fun m i => U m i + Y m i := by
    refine ⟨b2, b3, b4, fun k hk => ?_, fun m hm => ?_⟩
    · rw [b5, List.mem_cons] at hk
      rcases hk with rfl | hk
      · exact (resp N γ U hN Eps a.isEps).1
      · exact hN.calls k hk
    · obtain ⟨u0, u1⟩ := hN.shear m hm
      obtain ⟨v0, v1⟩ := hA' m hm
      exact ⟨by rw [u0, eqY m 0 hm (by omega), v0]; ring, by rw [u1, eqY m 1 hm (by omega), v1]; ring⟩
  obtain ⟨Eps', Sig', Ct', S', C', F', H', a', ⟨T', C₁, rfl, rfl, -, -⟩, c1, -, -⟩ := newtonFinite_iter hM hP ho h S₀ (material := material) hb hG tol maxit dg σ n 1
    hN₁.disp hN₁.elem hN₁.K (fun Eps hE => (resp N₁ _ _ hN₁ Eps hE).2)
  have eq : ∀ k, k < Z.vector.nnu → G k = H' k := fun k hk => h.reduced_eq (B := fun _ _ => 0) ho hG' a'.reduced (fun W w0 w1 w2 => by
    rw [a'.work W, uniform_work hM lx ly h.st.det hP hN₁.shear T' (fun _ _ _ _ _ _ _ _ => rfl) w0 w2]
    simp) hk
  have res : relativeResidual Z.vector.nnu Z.vector.nnp G H' < tol := by
    have z : ∑ k ∈ range Z.vector.nnu, |G k - H' k| = 0 := sum_eq_zero fun k hk => by rw [eq k (mem_range.1 hk), sub_self, abs_zero]
    simp only [relativeResidual, z, zero_div]
    split <;> exact htol
  obtain ⟨N₂, d1, d2, d2', d3, d4, d5, d6⟩ := c1 (by omega) res
  refine ⟨N₂, _, b1.trans d1, ⟨by rw [d2]; exact b2, by rw [d2']; exact b3, d4, fun k hk => ?_, hN₁.shear⟩, by rw [d5, b5]; simp⟩
  rw [d5, List.mem_cons] at hk
  rcases hk with rfl | hk
  · exact (resp N₁ _ _ hN₁ Eps' a'.isEps).1
  · exact hN₁.calls k hk

/-- the increments -/
theorem newtonFinite_homogeneous_run (hM : RectMesh nn ne c x Lx Ly O) (lx : 0 < Lx) (ly : 0 < Ly) (hP : PeriodicPairs nn Lx Ly x np P) (ho : o < nn)
    (h : Z.Planar Q₂ nn ne np c P x o s thick q Cm) (s0 : s ≠ 0) (t0 : 0 < thick) {S₀ : LinSolver α} {material : HistoryMaterial α}
    (hm : material.Homogeneous ne S₀) {fext : Ten α} (hb : Is2 fext (nn + 2) 2 fun _ _ => 0) {G : Nat → α}
    (hG : ∀ υ, IsOk (Z.vector.AsDofs_i υ fext) fun t => Is1 t Z.vector.nni G)
    (hG' : ∀ (W : Nat → Nat → α) (v : Nat → α), PeriodicField nn np P x W → (∀ m i, m < nn + 2 → i < 2 → v (q m i) = W m i) →
        ∑ k ∈ range Z.vector.nni, G k * v k = ∑ m ∈ range (nn + 2), ∑ i ∈ range 2, 0 * W m i)
    {tol : α} (htol : 0 < tol) (maxit n : Nat) (σ : Nat → Nat → Nat → Nat → Sched) (dgs : List α) : ∀ (inc : Nat) (N : NewtonFinite α) (γ : α) (U : Nat → Nat → α),
    NewtonFinite.Sheared Z nn ne np c P x o s thick q N γ U → ∃ N' U', NewtonFinite.run Z thick S₀ material fext tol maxit (n + 2) σ dgs inc N = .ok N' ∧
      NewtonFinite.Sheared Z nn ne np c P x o s thick q N' (γ + dgs.sum) U' ∧ N'.calls.length = N.calls.length + 3 * dgs.length := by
  induction dgs with
  | nil => intro inc N γ U hN; exact ⟨N, U, rfl, by simpa using hN, by simp⟩
  | cons dg rest ih =>
    intro inc N γ U hN
    rw [NewtonFinite.run]
    obtain ⟨N', U', a1, a2, a3⟩ := newtonFinite_homogeneous_loop hM lx ly hP ho h s0 t0 hm hb hG hG' htol maxit dg (σ inc) n
      (N := { N with calls := .increment :: N.calls }) (γ := γ) (U := U) ⟨hN.disp, hN.elem, hN.K, fun k hk => by
        rw [List.mem_cons] at hk
        rcases hk with rfl | hk
        · trivial
        · exact hN.calls k hk, hN.shear⟩
    obtain ⟨N'', U'', b1, b2, b3⟩ := ih (inc + 1) N' _ U' a2
    refine ⟨N'', U'', by rw [a1, Res.ok_bind, b1], by rw [List.sum_cons, ← add_assoc]; exact b2, ?_⟩
    rw [b3, a3]
    simp only [List.length_cons]
    omega

/-- **C99** (homogeneous material) for every homogeneous material with any memory, without load: every increment takes two iterations, and the
program ends in simple shear, with the total shear: `u_x = γ (y - y_o)` and `u_y = 0` in all nodes; `elem` is at these positions, and each
integration point keeps its volume. -/
theorem C99_homogeneous (hM : RectMesh nn ne c x Lx Ly O) (lx : 0 < Lx) (ly : 0 < Ly) {s : α} (s0 : s ≠ 0) (s1 : -1 ≤ s) (s2 : s ≤ 1) {thick : α} (t0 : 0 < thick)
    (σ τ : Sched) (υ : Nat → Nat → Nat → Nat → Sched) {conn pairs : Ten Nat} {coor : Ten α} (hc : Is2 conn ne 4 c) (hx : Is2 coor nn 2 x) {np : Nat}
    {P : Nat → Nat → Nat} (hp : Is2 pairs np 2 P) (hP : PeriodicPairs nn Lx Ly x np P) {o : Nat} (ho : o < nn) (ho0 : x o 0 ≠ Lx) (ho1 : x o 1 ≠ Ly)
    {S : LinSolver α} {material : HistoryMaterial α} (hm : material.Homogeneous ne S) {fext : Ten α} (hb : Is2 fext (nn + 2) 2 fun _ _ => 0)
    {tol : α} (htol : 0 < tol) (maxit : Nat) {iters : Nat} (hit : 2 ≤ iters) (dgamma : List α) :
    IsOk (newtonFiniteProgram s thick σ τ conn (meshDofs nn 2) coor pairs o S material fext tol maxit iters υ dgamma) fun t =>
      ∃ U vol, Is2 t.2.disp (nn + 2) 2 U ∧ (∀ m, m < nn → U m 0 = dgamma.sum * (x m 1 - x o 1) ∧ U m 1 = 0) ∧
        t.2.calls.length = 3 * dgamma.length ∧ Is3 t.2.elem.x ne 4 2 (fun e m i => x (c e m) i + U (c e m) i) ∧
        Is2 t.1.elem.vol ne 4 vol ∧ Is2 t.2.elem.vol ne 4 vol := by
  obtain ⟨n, rfl⟩ : ∃ n, iters = n + 2 := ⟨iters - 2, by omega⟩
  obtain ⟨Z, Q₂, q, Cm, z1, z2, h⟩ := cell_planar hM lx ly s1 s2 thick σ τ hc hx hp hP ho ho0 ho1
  obtain ⟨G, g1, g2⟩ := h.reduced hP hb
  have hz : Is2 (Ten.full Z.control.coor.shape (0 : α)) (nn + 2) 2 fun _ _ => 0 := by rw [h.coor.1]; exact ⟨rfl, fun _ _ _ _ => rfl⟩
  have hK : SameSystem Z.K c q Z.K := ⟨⟨_, h.st.K⟩, rfl, rfl, rfl, rfl, rfl, rfl, rfl, rfl⟩
  obtain ⟨e1, e2, e3, e4⟩ := h.dimsV
  obtain ⟨xe, x1, x2⟩ := C03_element_of_node h.st.vector.base σ (x := Z.control.coor) (g := fun m i => if m < nn then x m i else 0) (by
    change Is2 _ Z.vector.V.nnode Z.vector.V.ndim _
    rw [e3, e4]; exact h.coor)
  have x1' : Z.vector.V.AsElement σ Z.control.coor = .ok xe := x1
  have x2' : Is3 xe Z.vector.V.nelem Z.vector.V.nne Z.vector.V.ndim _ := x2
  rw [e1, e2, e4] at x2'
  have x3 : Is3 xe ne 4 2 fun e m i => x (c e m) i + 0 :=
    x2'.congr fun e m i he hm hi => by beta_reduce; rw [if_pos (hM.valid e m he hm), add_zero]
  obtain ⟨Q, q1, hQ⟩ := newPlanarGauss_ok s thick τ x3
  obtain ⟨N, U, a1, a2, a3⟩ := newtonFinite_homogeneous_run hM lx ly hP ho h s0 t0 hm hb g1 g2 htol maxit n υ dgamma 0
    ⟨Ten.full Z.control.coor.shape 0, Ten.full Z.control.coor.shape 0, Q, Z.K, SolverState.init, []⟩ 0 (fun _ _ => 0)
    ⟨hz, hQ, hK, fun k hk => absurd hk (by simp), fun m _ => by simp⟩
  rw [zero_add] at a2
  refine ⟨(Z, N), by simp only [newtonFiniteProgram, z1, Res.ok_bind, x1', q1, a1]; rfl, U, _, a2.disp, a2.shear, by simpa using a3, (live_holds a2.elem).2.2.1,
    h.vol, (vol_ok a2.elem).congr fun e a he ha => ?_⟩
  have := (shear_push hM h.st.det a2.shear he ha).1
  rw [one_mul, planarVol, ← this]

/-! ### The hypotheses can be met -/

/-- a material with memory and a stress that is not linear: the stress is `1 + n F²` (component by component), with `n` the number of calls until now -/
def quadratic (ne : Nat) (C : Nat → Nat → Nat → Nat → α) : HistoryMaterial α
  | .refresh F :: calls => .ok (⟨F.shape, fun ix => (F.v ix).map fun a => 1 + (calls.length : α) * a ^ 2⟩,
      Ten.of [ne, 4, 3, 3, 3, 3] fun ix => C (ix.getD 2 0) (ix.getD 3 0) (ix.getD 4 0) (ix.getD 5 0))
  | _ => .throws

omit [IsStrictOrderedRing α] in
theorem quadratic_homogeneous (ne : Nat) {C : Nat → Nat → Nat → Nat → α} (hC : Elastic C) {S : LinSolver α} (hS : S.Suits (Major 2 C)) :
    (quadratic ne C).Homogeneous ne S := by
  intro calls F _ ⟨M, hF⟩
  refine ⟨_, rfl, fun i j => 1 + (calls.length : α) * M i j ^ 2, C, ⟨hF.1, fun e a i j he ha hi hj => ?_⟩, ⟨rfl, fun e a i j k l _ _ _ _ _ _ => ?_⟩, hC, hS⟩
  · simp only [hF.2 e a i j he ha hi hj, Option.map_some]
  · simp [Ten.of]

/-- **C99** (Quad4 `Regular`) the program with the tables of the mesh -/
theorem C99_quad4_regular {nelx nely : Nat} (hx : 0 < nelx) (hy : 0 < nely) {h : α} (hh : 0 < h) {s : α} (s0 : s ≠ 0) (s1 : -1 ≤ s) (s2 : s ≤ 1) {thick : α} (t0 : 0 < thick)
    (σ τ : Sched) (υ : Nat → Nat → Nat → Nat → Sched) {S : LinSolver α} {material : HistoryMaterial α} {fext : Ten α}
    (hb : Is2 fext ((nelx + 1) * (nely + 1) + 2) 2 fun _ _ => 0) {tol : α} (htol : 0 < tol) (maxit : Nat) {iters : Nat} (hit : 2 ≤ iters) (dgamma : List α) :
    let M := Quad4.Regular.new nelx nely h
    material.Homogeneous M.nelem S → IsOk (do
      let conn ← Quad4.Regular.conn M
      let coor ← M.coor
      let pairs ← Quad4.Regular.nodesPeriodic M
      newtonFiniteProgram s thick σ τ conn (meshDofs M.nnode 2) coor pairs (Quad4.Regular.nodesOrigin M) S material fext tol maxit iters υ dgamma)
      fun t => ∃ U, Is2 t.2.disp (M.nnode + 2) 2 U ∧ ∀ iy ix, iy ≤ nely → ix ≤ nelx →
        U (iy * (nelx + 1) + ix) 0 = dgamma.sum * (h * (iy : α)) ∧ U (iy * (nelx + 1) + ix) 1 = 0 := by
  intro M hm
  obtain ⟨c, x, O, hA, hM⟩ := C73_quad4_regular nelx nely hh
  obtain ⟨cn, a1, a2⟩ := hA.conn
  obtain ⟨xt, b1, b2⟩ := hA.coor
  obtain ⟨xt', x', pt, P, p1, p2, p3, p4, p5⟩ := C33_quad4_nodesPeriodic nelx nely hx hy hh
  obtain rfl : xt = xt' := by rw [b1] at p1; injection p1
  have p6 := p5.congr (x := x) fun m i hm hi => b2.unique p2 hm hi
  obtain ⟨xt'', x'', o1, o2, o3, o4, o5⟩ := C32_quad4_origin nelx nely h
  obtain rfl : xt = xt'' := by rw [b1] at o1; injection o1
  have lx : 0 < h * (nelx : α) := mul_pos hh (by exact_mod_cast hx)
  have ly : 0 < h * (nely : α) := mul_pos hh (by exact_mod_cast hy)
  have e2 : x (Quad4.Regular.nodesOrigin M) 0 = 0 := (b2.unique o2 o3 (by omega)).trans o4
  have e3 : x (Quad4.Regular.nodesOrigin M) 1 = 0 := (b2.unique o2 o3 (by omega)).trans o5
  have a1' : Quad4.Regular.conn M = .ok cn := a1
  have b1' : M.coor = .ok xt := b1
  have p3' : Quad4.Regular.nodesPeriodic M = .ok pt := p3
  simp only [a1', b1', p3', Res.ok_bind]
  obtain ⟨t, t1, U, vol, u1, u2, -⟩ := C99_homogeneous hM lx ly s0 s1 s2 t0 σ τ υ a2 b2 p4 p6 o3 (by rw [e2]; exact lx.ne) (by rw [e3]; exact ly.ne) hm hb htol maxit hit dgamma
  refine ⟨t, t1, U, u1, fun iy ix hi hj => ?_⟩
  obtain ⟨xt3, q1, q2⟩ := M.coor_spec rfl rfl
  obtain rfl : xt = xt3 := by rw [b1'] at q1; injection q1
  have hm : iy * (nelx + 1) + ix < M.nnode := by
    have := grid_lt (show iy < nely + 1 by omega) (show ix < nelx + 1 by omega)
    rw [Nat.mul_comm (nely + 1)] at this; exact this
  have p := gridCoor_node h (nelx := nelx) (i := iy) (j := ix) (by omega)
  have e1 : x (iy * (nelx + 1) + ix) 1 = h * (iy : α) := (b2.unique q2 hm (by omega)).trans p.2
  obtain ⟨v1, v2⟩ := u2 _ hm
  have e3' : x (Quad4.Regular.nodesOrigin (Quad4.Regular.new nelx nely h)) 1 = 0 := e3
  rw [e1, e3', sub_zero] at v1
  exact ⟨v1, v2⟩

/-- a 3 x 2 mesh in which the shear is applied in three steps, with a nonlinear material with memory -/
example : ∃ S : LinSolver ℚ, IsOk (do
      let M := Quad4.Regular.new 3 2 (1 : ℚ)
      let conn ← Quad4.Regular.conn M
      let coor ← M.coor
      let pairs ← Quad4.Regular.nodesPeriodic M
      newtonFiniteProgram (1 / 2) 1 Sched.seq Sched.seq conn (meshDofs M.nnode 2) coor pairs (Quad4.Regular.nodesOrigin M) S
        (quadratic 6 (isotropic (1 : ℚ) 1)) (Ten.full [14, 2] 0) (1 / 100000) 20 100 (fun _ _ _ _ => Sched.seq) [0, 1 / 10, 2 / 10])
      fun t => t.2.disp.get [11, 0] = .ok (6 / 10) ∧ t.2.disp.get [11, 1] = .ok 0 := by
  obtain ⟨S, hS⟩ := exists_direct (α := ℚ)
  obtain ⟨t, t1, U, u1, u2⟩ := C99_quad4_regular (nelx := 3) (nely := 2) (by omega) (by omega) (h := (1 : ℚ)) (by norm_num) (s := 1 / 2) (by norm_num) (by norm_num)
    (by norm_num) (thick := 1) (by norm_num) Sched.seq Sched.seq (fun _ _ _ _ => Sched.seq) (full_zero (nn := 14) (m := 2)) (tol := 1 / 100000) (by norm_num) 20
    (iters := 100) (by omega) [0, 1 / 10, 2 / 10] (quadratic_homogeneous 6 (C := isotropic (1 : ℚ) 1) (isotropic_elastic (by norm_num) (by norm_num)) (hS.suits _))
  refine ⟨S, t, t1, ?_, ?_⟩
  · rw [u1.get (show 11 < 12 + 2 by omega) (by omega)]
    have := (u2 2 3 (by omega) (by omega)).1
    rw [show (11 : Nat) = 2 * (3 + 1) + 3 by rfl, this]
    norm_num
  · rw [u1.get (show 11 < 12 + 2 by omega) (by omega)]
    have := (u2 2 3 (by omega) (by omega)).2
    rw [show (11 : Nat) = 2 * (3 + 1) + 3 by rfl, this]

omit [IsStrictOrderedRing α] in
theorem quadratic_responds (ne : Nat) (C : Nat → Nat → Nat → Nat → α) : (quadratic ne C).Responds ne := by
  intro calls F E hF
  refine ⟨_, rfl, fun e a i j => 1 + (calls.length : α) * E e a i j ^ 2, fun _ _ => C, ⟨hF.1, fun e a i j he ha hi hj => ?_⟩, ⟨rfl, fun e a i j k l _ _ _ _ _ _ => ?_⟩⟩
  · simp only [hF.2 e a i j he ha hi hj, Option.map_some]
  · simp [Ten.of]

/-- the hypotheses of `C99_run`, `C99_converged` and `C99_not_gradient` can be met, in a case in which the program ends without exception: a mesh with
3 x 2 elements, a nonlinear material with memory and a total shear of 3/10 -/
example : ∃ (S : LinSolver ℚ) (conn pairs : Ten Nat) (coor fext : Ten ℚ) (c P : Nat → Nat → Nat) (x : Nat → Nat → ℚ) (O : Outline) (np : Nat),
    RectMesh 12 6 c x 3 2 O ∧ Is2 conn 6 4 c ∧ Is2 coor 12 2 x ∧ Is2 pairs np 2 P ∧ PeriodicPairs 12 3 2 x np P ∧ x 0 0 ≠ 3 ∧ x 0 1 ≠ 2 ∧
    (quadratic 6 (isotropic (1 : ℚ) 1)).Responds 6 ∧ Is2 fext (12 + 2) 2 (fun _ _ => 0) ∧
    ∃ t, newtonFiniteProgram (1 / 2) 1 Sched.seq Sched.seq conn (meshDofs 12 2) coor pairs 0 S (quadratic 6 (isotropic (1 : ℚ) 1)) fext (1 / 100000) 20 100
        (fun _ _ _ _ => Sched.seq) [0, 1 / 10, 2 / 10] = .ok t ∧
      ∃ Fm calls M H, t.2.calls = .refresh Fm :: calls ∧ Is4 Fm 6 4 3 3 M ∧
        (∀ σ τ, IsOk (do let ue ← t.1.vector.V.AsElement σ t.2.disp; PlanarGradN_vector_T t.1.elem τ ue) fun z => Is4 z 6 4 3 3 H) ∧
        ∃ e a, e < 6 ∧ a < 4 ∧ M e a 1 0 ≠ defGrad (H e a) 1 0 := by
  obtain ⟨S, hS⟩ := exists_direct (α := ℚ)
  obtain ⟨c, x, O, hA, hM⟩ := C73_quad4_regular 3 2 (h := (1 : ℚ)) (by norm_num)
  obtain ⟨cn, a1, a2⟩ := hA.conn
  obtain ⟨xt, b1, b2⟩ := hA.coor
  obtain ⟨xt', x', pt, P, p1, p2, p3, p4, p5⟩ := C33_quad4_nodesPeriodic 3 2 (by omega) (by omega) (h := (1 : ℚ)) (by norm_num)
  obtain rfl : xt = xt' := by rw [b1] at p1; injection p1
  have p6 := p5.congr (x := x) fun m i hm hi => b2.unique p2 hm hi
  obtain ⟨xt'', x'', o1, o2, o3, o4, o5⟩ := C32_quad4_origin 3 2 (1 : ℚ)
  obtain rfl : xt = xt'' := by rw [b1] at o1; injection o1
  have e2 : x 0 0 = 0 := (b2.unique o2 o3 (by omega)).trans o4
  have e3 : x 0 1 = 0 := (b2.unique o2 o3 (by omega)).trans o5
  have e4 : ((1 : ℚ) * ((3 : Nat) : ℚ)) = 3 := by norm_num
  have e5 : ((1 : ℚ) * ((2 : Nat) : ℚ)) = 2 := by norm_num
  rw [e4, e5] at hM p6
  have hM' : RectMesh 12 6 c x 3 2 O := hM
  have p6' : PeriodicPairs 12 3 2 x _ P := p6
  have z := full_zero (α := ℚ) (nn := 12 + 2) (m := 2)
  refine ⟨S, cn, pt, xt, _, c, P, x, O, _, hM', a2, b2, p4, p6', by rw [e2]; norm_num, by rw [e3]; norm_num, quadratic_responds _ _, z, ?_⟩
  obtain ⟨t, t1, -⟩ := C99_homogeneous hM' (by norm_num) (by norm_num) (s := 1 / 2) (by norm_num) (by norm_num) (by norm_num) (thick := 1) (by norm_num) Sched.seq Sched.seq
    (fun _ _ _ _ => Sched.seq) a2 b2 p4 p6' (o := 0) (by omega) (by rw [e2]; norm_num) (by rw [e3]; norm_num)
    (quadratic_homogeneous 6 (C := isotropic (1 : ℚ) 1) (isotropic_elastic (by norm_num) (by norm_num)) (hS.suits _)) z (tol := 1 / 100000) (by norm_num) 20
    (iters := 100) (by omega) [0, 1 / 10, 2 / 10]
  refine ⟨t, t1, ?_⟩
  rcases C99_not_gradient hM' (by norm_num) (by norm_num) (s := 1 / 2) (by norm_num) (by norm_num) (thick := 1) (by norm_num) Sched.seq Sched.seq
    (fun _ _ _ _ => Sched.seq) a2 b2 p4 p6' (o := 0) (by omega) (by rw [e2]; norm_num) (by rw [e3]; norm_num) S
    (quadratic_responds 6 (isotropic (1 : ℚ) 1)) z (1 / 100000) (maxit := 20)
    (iters := 100) (by omega) (dgamma := [0, 1 / 10, 2 / 10]) (by norm_num) with e | ⟨t', t1', r⟩
  · rw [t1] at e; exact absurd e (by simp)
  · obtain rfl : t = t' := by rw [t1] at t1'; injection t1'
    exact r

end GF
