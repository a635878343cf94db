import Verif.Spec.CriticalStep
import Verif.Props.Stability
import Verif.Props.Stability3

/-! **C122**: a critical time step that is computed per element, for any mesh. -/

namespace GF
open Finset ElemSpec Element Element.Quad4

variable {α : Type} [Field α] [LinearOrder α] [IsStrictOrderedRing α]
variable {nn ne : Nat} {c d : Nat → Nat → Nat} {x : Nat → Nat → α} {Lx Ly : α} {O : Outline}

omit [LinearOrder α] [IsStrictOrderedRing α] in
theorem power_congr {n : Nat} {C : Nat → Nat → Nat → Nat → α} {g g' : Nat → Nat → α} (h : ∀ i j, i < n → j < n → g i j = g' i j) :
    power n (ddot n C g) g = power n (ddot n C g') g' := by
  simp only [power, ddot]
  refine sum_congr rfl fun i hi => sum_congr rfl fun j hj => ?_
  rw [mem_range] at hi hj
  rw [h i j hi hj]
  congr 1
  refine sum_congr rfl fun k hk => sum_congr rfl fun l hl => ?_
  rw [h l k (mem_range.1 hl) (mem_range.1 hk)]

/-- the symmetric part is not larger -/
theorem sym_power (n : Nat) (g : Nat → Nat → α) :
    power n (fun i j => 1 / 2 * (g i j + g j i)) (fun i j => 1 / 2 * (g i j + g j i)) ≤ ∑ i ∈ range n, ∑ j ∈ range n, g i j ^ 2 := by
  have e : ∑ i ∈ range n, ∑ j ∈ range n, g i j ^ 2 = ∑ i ∈ range n, ∑ j ∈ range n, (1 / 2 * g i j ^ 2 + 1 / 2 * g j i ^ 2) := by
    have k : ∑ i ∈ range n, ∑ j ∈ range n, g j i ^ 2 = ∑ i ∈ range n, ∑ j ∈ range n, g i j ^ 2 := sum_comm
    simp only [sum_add_distrib, ← mul_sum]
    rw [k]
    ring
  rw [e, power]
  refine sum_le_sum fun i _ => sum_le_sum fun j _ => ?_
  have := sq_nonneg (g i j - g j i)
  nlinarith

/-- the elastic energy of an element is bounded by its gradients -/
theorem elemWork_le {nd nne : Nat} {G : Nat → Nat → Nat → Nat → α} {vol : Nat → Nat → α} {C : Nat → Nat → Nat → Nat → Nat → Nat → α} {e : Nat}
    {κ : α} (hκ : 0 ≤ κ) (stiff : ∀ q g, q < nne → power nd (ddot nd (C e q) g) g ≤ κ * power nd g g) (hv : ∀ q, q < nne → 0 ≤ vol e q)
    (w : Nat → Nat → α) : elemWork nd nne G vol C e w ≤ κ * elemGradient nd nne G vol e * ∑ n ∈ range nne, ∑ j ∈ range nd, w n j ^ 2 := by
  rw [elemWork, elemGradient, mul_assoc, sum_mul, mul_sum]
  refine sum_le_sum fun q hq => ?_
  rw [mem_range] at hq
  refine (mul_le_mul_of_nonneg_right (stiff q _ hq) (hv q hq)).trans ?_
  rw [mul_assoc]
  refine mul_le_mul_of_nonneg_left ?_ hκ
  rw [mul_right_comm]
  refine mul_le_mul_of_nonneg_right ?_ (hv q hq)
  have e1 : elemStrain nne G e q w = fun i j => 1 / 2 * ((∑ n ∈ range nne, G e q n i * w n j) + ∑ n ∈ range nne, G e q n j * w n i) := by
    funext i j
    rw [elemStrain, sum_add_distrib]
  rw [e1]
  refine (sym_power nd fun i j => ∑ n ∈ range nne, G e q n i * w n j).trans ?_
  have e2 : ∑ n ∈ range nne, ∑ j ∈ range nd, w n j ^ 2 = ∑ j ∈ range nd, ∑ n ∈ range nne, w n j ^ 2 := sum_comm
  have e3 : ∑ n ∈ range nne, ∑ i ∈ range nd, G e q n i ^ 2 = ∑ i ∈ range nd, ∑ n ∈ range nne, G e q n i ^ 2 := sum_comm
  rw [e2, e3, sum_mul]
  refine sum_le_sum fun i _ => ?_
  rw [mul_sum]
  exact sum_le_sum fun j _ => sum_mul_sq_le_sq_mul_sq _ _ _

/-- a positive number that is small enough for a finite number of conditions -/
theorem small_step (n : Nat) (f g : Nat → α) (hf : ∀ k, k < n → 0 ≤ f k) (hg : ∀ k, k < n → 0 < g k) :
    ∃ δ : α, 0 < δ ∧ δ ≤ 1 ∧ ∀ k, k < n → δ * f k ≤ g k := by
  induction n with
  | zero => exact ⟨1, one_pos, le_rfl, fun k hk => absurd hk (by omega)⟩
  | succ n ih =>
    obtain ⟨δ, h1, h2, h3⟩ := ih (fun k hk => hf k (by omega)) fun k hk => hg k (by omega)
    have f0 := hf n (by omega)
    have g0 := hg n (by omega)
    have q : 0 < g n / (f n + 1) := div_pos g0 (by linarith)
    refine ⟨min δ (g n / (f n + 1)), lt_min h1 q, (min_le_left _ _).trans h2, fun k hk => ?_⟩
    by_cases e : k = n
    · rw [e]
      refine (mul_le_mul_of_nonneg_right (min_le_right _ _) f0).trans ?_
      rw [div_mul_eq_mul_div, div_le_iff₀ (by linarith)]
      exact mul_le_mul_of_nonneg_left (by linarith) g0.le
    · exact (mul_le_mul_of_nonneg_right (min_le_left _ _) (hf k (by omega))).trans (h3 k (by omega))

theorem corner_box (q i : Nat) : -1 ≤ corner4 (α := α) q i ∧ corner4 (α := α) q i ≤ 1 := by
  have : corner4 (α := α) q i = 1 ∨ corner4 (α := α) q i = -1 := by unfold corner4; split <;> simp
  rcases this with h | h <;> rw [h] <;> constructor <;> linarith

theorem crit_quad4 (hM : RectMesh nn ne c x Lx Ly O) (lx : 0 < Lx) (ly : 0 < Ly) {s : α} (s1 : -1 ≤ s) (s2 : s ≤ 1) (σ : Nat → Sched)
    (υ : Nat → Nat → Sched) {conn dofs : Ten Nat} {coor rho : Ten α} (hc : Is2 conn ne 4 c) (hx : Is2 coor nn 2 x) (hd : Is2 dofs nn 2 d)
    {R : Nat → Nat → α} (hr : Is2 rho ne 4 R) (hR : ∀ e q, e < ne → q < 4 → 0 < R e q) (dt : α)
    {material : List (Ten α) → Res (Ten α)} {C : Nat → Nat → Nat → Nat → Nat → Nat → α}
    (hm : HistoryFree ne material fun E e q => ddot 2 (C e q) (E e q))
    (major : ∀ e q i j k l, e < ne → q < 4 → i < 2 → j < 2 → k < 2 → l < 2 → C e q i j k l = C e q k l i j)
    (left : ∀ e q i j k l, e < ne → q < 4 → i < 2 → j < 2 → k < 2 → l < 2 → C e q i j k l = C e q j i k l)
    (nonneg : ∀ e q (g : Nat → Nat → α), e < ne → q < 4 → 0 ≤ power 2 (ddot 2 (C e q) g) g)
    {u v a fext : Ten α} {U : Nat → Nat → α} {V A : Nat → α} (hu : Is2 u nn 2 U) (hv : Is2 v nn 2 fun m i => V (d m i))
    (ha : Is2 a nn 2 fun m i => A (d m i)) (hf : Is2 fext nn 2 fun _ _ => 0) (n : Nat) (ρ τ : Sched) {θ : α} (hθ : 0 < θ) :
    IsOk (do
      let (D, M) ← Dynamics.new s σ conn dofs coor rho
      let S ← D.run dt material fext υ 1 ⟨u, v, a, M, []⟩
      let E ← D.strain ρ τ S.u
      let S' ← D.run dt material fext υ (n + 1) ⟨u, v, a, M, []⟩
      let E' ← D.strain ρ τ S'.u
      return (D, M, S, E, S', E')) fun (D, M, S, E, S', E') => ∃ (N : Nat) (mass : Nat → α) (vol : Nat → Nat → α),
        Is4 D.quad.dNx ne 4 4 2 (dynG s x c) ∧ (∀ e q, e < ne → q < 4 → vol e q = dynVol s x c e q) ∧
        NumDofs nn d N ∧ Is1 M.A N mass ∧ Is2 D.quad.vol ne 4 vol ∧
        ∃ (V₁ : Nat → α) (E₁ : Nat → Nat → Nat → Nat → α) (V₂ : Nat → α) (E₂ : Nat → Nat → Nat → Nat → α), Is2 S.v nn 2 (fun m i => V₁ (d m i)) ∧ Is4 E ne 4 2 2 E₁ ∧
          Is2 S'.v nn 2 (fun m i => V₂ (d m i)) ∧ Is4 E' ne 4 2 2 E₂ ∧
          ((∀ e, e < ne → ∀ w : Nat → Nat → α, dt ^ 2 * elemWork 2 4 (dynG s x c) vol C e w ≤
              4 * θ * ∑ m ∈ range 4, ∑ i ∈ range 2, R e m * (det4 (fun m i => x (c e m) i) (corner4 m 0) (corner4 m 1)) * w m i ^ 2) →
            1 / 2 * ∑ k ∈ range N, mass k * V₂ k ^ 2 + (1 - θ) * (1 / 2 * elasticWork ne vol C E₂) ≤ 1 / 2 * ∑ k ∈ range N, mass k * V₁ k ^ 2 + 1 / 2 * elasticWork ne vol C E₁) ∧
          (∀ κ : α, 0 ≤ κ → (∀ e q (g : Nat → Nat → α), e < ne → q < 4 → power 2 (ddot 2 (C e q) g) g ≤ κ * power 2 g g) →
            (∀ e m, e < ne → m < 4 → dt ^ 2 * (κ * elemGradient 2 4 (dynG s x c) vol e) ≤ 4 * θ * (R e m * (det4 (fun m i => x (c e m) i) (corner4 m 0) (corner4 m 1)))) →
            1 / 2 * ∑ k ∈ range N, mass k * V₂ k ^ 2 + (1 - θ) * (1 / 2 * elasticWork ne vol C E₂) ≤ 1 / 2 * ∑ k ∈ range N, mass k * V₁ k ^ 2 + 1 / 2 * elasticWork ne vol C E₁) := by
  obtain ⟨⟨D, M, S, E, S', E'⟩, t1, N, mass, vol, b1, b2, b3, V₁, E₁, V₂, E₂, c1, c2, c3, c4, c5⟩ := C106_stable hM lx ly s1 s2 σ υ hc hx hd hr
    hR dt hm major left nonneg hu hv ha hf n ρ τ hθ
  have t0 := t1
  obtain ⟨D', M', h1, h2, h3, h4, h5⟩ := dynamics_new hM s1 s2 σ hc hx hd hr
  rw [h1, Res.ok_bind] at t1
  dsimp only at t1
  have same : D' = D ∧ M' = M := by
    cases r1 : D'.run dt material fext υ 1 ⟨u, v, a, M', []⟩ with
    | ok S0 =>
      rw [r1, Res.ok_bind] at t1
      cases r2 : D'.strain ρ τ S0.u with
      | ok E0 =>
        rw [r2, Res.ok_bind] at t1
        cases r3 : D'.run dt material fext υ (n + 1) ⟨u, v, a, M', []⟩ with
        | ok S1 =>
          rw [r3, Res.ok_bind] at t1
          cases r4 : D'.strain ρ τ S1.u with
          | ok E1 =>
            rw [r4, Res.ok_bind] at t1
            have t1' : Res.ok (D', M', S0, E0, S1, E1) = Res.ok (D, M, S, E, S', E') := t1
            injection t1' with t1'
            exact ⟨(Prod.mk.inj t1').1, (Prod.mk.inj (Prod.mk.inj t1').2).1⟩
          | _ => rw [r4] at t1; cases t1
        | _ => rw [r3] at t1; cases t1
      | _ => rw [r2] at t1; cases t1
    | _ => rw [r1] at t1; cases t1
  obtain ⟨rfl, rfl⟩ := same
  have hA := h4.A _ rfl
  rw [h3] at hA
  have hN : N = D'.vector.ndof := by
    have := b2.1.symm.trans hA.1
    simpa using this
  subst hN
  have hq := (live_holds h2.live).1.G_is
  have hGG : ∀ e q, e < ne → q < 4 → vol e q = dynVol s x c e q := fun e q he hq => b3.unique h2.volume he hq
  have vpos : ∀ e q, e < ne → q < 4 → 0 ≤ vol e q := fun e q he hq => by rw [hGG e q he hq]; exact (dynVol_pos hM s1 s2 he).le
  have main : (∀ e, e < ne → ∀ w : Nat → Nat → α, dt ^ 2 * elemWork 2 4 (dynG s x c) vol C e w ≤
              4 * θ * ∑ m ∈ range 4, ∑ i ∈ range 2, R e m * det4 (fun m i => x (c e m) i) (corner4 m 0) (corner4 m 1) * w m i ^ 2) →
            1 / 2 * ∑ k ∈ range D'.vector.ndof, mass k * V₂ k ^ 2 + (1 - θ) * (1 / 2 * elasticWork ne vol C E₂) ≤ 1 / 2 * ∑ k ∈ range D'.vector.ndof, mass k * V₁ k ^ 2 + 1 / 2 * elasticWork ne vol C E₁ := by
    intro crit
    refine c5 ?_
    intro w W t ε hw ht hε
    obtain ⟨t', k1, k2⟩ := h2.strain_ok ρ τ hw
    obtain rfl : t' = t := by rw [k1] at ht; injection ht
    obtain ⟨e1, e2, e3, e4⟩ := h2.dims
    have dual := dual_sum h2.vec (fun e m _ => R e m * det4 (fun m i => x (c e m) i) (1 * corner4 m 0) (1 * corner4 m 1)) fun k => W k ^ 2
    rw [e1, e2, e4] at dual
    have f2 : ∑ k ∈ range D'.vector.ndof, mass k * W k ^ 2 = ∑ e ∈ range ne, ∑ m ∈ range 4, ∑ i ∈ range 2,
        R e m * det4 (fun m i => x (c e m) i) (1 * corner4 m 0) (1 * corner4 m 1) * W (d (c e m) i) ^ 2 :=
      (sum_congr rfl fun k hk => by rw [b2.unique hA (mem_range.1 hk)]; rfl).trans dual
    rw [f2, elasticWork, mul_sum, mul_sum]
    refine sum_le_sum fun e he => ?_
    rw [mem_range] at he
    have k := crit e he fun m i => W (d (c e m) i)
    have f1 : elemWork 2 4 (dynG s x c) vol C e (fun m i => W (d (c e m) i)) =
        ∑ q ∈ range 4, power 2 (ddot 2 (C e q) (ε e q)) (ε e q) * vol e q := by
      rw [elemWork]
      refine sum_congr rfl fun q hq => ?_
      rw [mem_range] at hq
      congr 1
      refine power_congr fun i j hi hj => ?_
      rw [hε.unique k2 he hq hi hj]
      have hh : elemStrain 4 (dynG s x c) e q (fun m i => W (d (c e m) i)) i j =
          1 / 2 * (grad 4 (dynG s x c) (fun e m i => W (d (c e m) i)) e q i j + grad 4 (dynG s x c) (fun e m i => W (d (c e m) i)) e q j i) := by
        rw [elemStrain, sum_add_distrib]; rfl
      have two : (2 : α) ≠ 0 := two_ne_zero
      rw [hh]
      change _ = symf (grad 4 (dynG s x c) (fun e m i => W (d (c e m) i)) e q) i j
      obtain rfl | rfl : i = 0 ∨ i = 1 := by omega
      all_goals obtain rfl | rfl : j = 0 ∨ j = 1 := by omega
      all_goals simp only [symf, if_true, if_neg (show (1 : Nat) ≠ 0 by omega), if_neg (show (0 : Nat) ≠ 1 by omega)]
      all_goals ring
    rw [← f1]
    refine k.trans_eq ?_
    simp only [one_mul]
  refine ⟨_, t0, _, mass, vol, hq, hGG, b1, b2, b3, V₁, E₁, V₂, E₂, c1, c2, c3, c4, main, fun κ hκ stiff crit => main fun e he w => ?_⟩
  have k1 := elemWork_le (vol := vol) (G := dynG s x c) (C := C) (e := e) hκ (fun q g hq => stiff e q g he hq) (fun q hq => vpos e q he hq) w
  refine (mul_le_mul_of_nonneg_left k1 (sq_nonneg dt)).trans ?_
  rw [← mul_assoc, mul_sum, mul_sum]
  refine sum_le_sum fun m hm => ?_
  rw [← mul_sum, ← mul_assoc (4 * θ)]
  exact mul_le_mul_of_nonneg_right (crit e m he (mem_range.1 hm)) (sum_nonneg fun _ _ => sq_nonneg _)

/-- **C122** (any mesh of convex quadrilaterals of a rectangle) the explicit time integration of a linear elastic body is stable if, for
every element by itself, `dt²` times its elastic energy is at most `4 θ` times its lumped-mass norm (`J e m` is the part of the area of
element `e` that belongs to its corner `m`), and this holds if `dt² κ Σ_q vol_q Σ_ni (∂N_n / ∂x_i)² ≤ 4 θ R e m J e m` for all corners, where
`κ` bounds the stiffness: a criterion that can be computed from the arrays of the library -/
theorem C122_quad4 (hM : RectMesh nn ne c x Lx Ly O) (lx : 0 < Lx) (ly : 0 < Ly) {s : α} (s1 : -1 ≤ s) (s2 : s ≤ 1) (σ : Nat → Sched)
    (υ : Nat → Nat → Sched) {conn dofs : Ten Nat} {coor rho : Ten α} (hc : Is2 conn ne 4 c) (hx : Is2 coor nn 2 x) (hd : Is2 dofs nn 2 d)
    {R : Nat → Nat → α} (hr : Is2 rho ne 4 R) (hR : ∀ e q, e < ne → q < 4 → 0 < R e q) (dt : α)
    {material : List (Ten α) → Res (Ten α)} {C : Nat → Nat → Nat → Nat → Nat → Nat → α}
    (hm : HistoryFree ne material fun E e q => ddot 2 (C e q) (E e q))
    (major : ∀ e q i j k l, e < ne → q < 4 → i < 2 → j < 2 → k < 2 → l < 2 → C e q i j k l = C e q k l i j)
    (left : ∀ e q i j k l, e < ne → q < 4 → i < 2 → j < 2 → k < 2 → l < 2 → C e q i j k l = C e q j i k l)
    (nonneg : ∀ e q (g : Nat → Nat → α), e < ne → q < 4 → 0 ≤ power 2 (ddot 2 (C e q) g) g)
    {u v a fext : Ten α} {U : Nat → Nat → α} {V A : Nat → α} (hu : Is2 u nn 2 U) (hv : Is2 v nn 2 fun m i => V (d m i))
    (ha : Is2 a nn 2 fun m i => A (d m i)) (hf : Is2 fext nn 2 fun _ _ => 0) (n : Nat) (ρ τ : Sched) {θ : α} (hθ : 0 < θ) :
    IsOk (do
      let (D, M) ← Dynamics.new s σ conn dofs coor rho
      let S ← D.run dt material fext υ 1 ⟨u, v, a, M, []⟩
      let E ← D.strain ρ τ S.u
      let S' ← D.run dt material fext υ (n + 1) ⟨u, v, a, M, []⟩
      let E' ← D.strain ρ τ S'.u
      return (D, M, S, E, S', E')) fun (D, M, S, E, S', E') => ∃ (N : Nat) (mass : Nat → α) (vol : Nat → Nat → α) (G : Nat → Nat → Nat → Nat → α) (J : Nat → Nat → α),
        Is4 D.quad.dNx ne 4 4 2 G ∧ (∀ e m, e < ne → m < 4 → J e m = det4 (fun m i => x (c e m) i) (corner4 m 0) (corner4 m 1)) ∧
        NumDofs nn d N ∧ Is1 M.A N mass ∧ Is2 D.quad.vol ne 4 vol ∧
        ∃ (V₁ : Nat → α) (E₁ : Nat → Nat → Nat → Nat → α) (V₂ : Nat → α) (E₂ : Nat → Nat → Nat → Nat → α), Is2 S.v nn 2 (fun m i => V₁ (d m i)) ∧ Is4 E ne 4 2 2 E₁ ∧
          Is2 S'.v nn 2 (fun m i => V₂ (d m i)) ∧ Is4 E' ne 4 2 2 E₂ ∧
          ((∀ e, e < ne → ∀ w : Nat → Nat → α, dt ^ 2 * elemWork 2 4 G vol C e w ≤
              4 * θ * ∑ m ∈ range 4, ∑ i ∈ range 2, R e m * J e m * w m i ^ 2) →
            1 / 2 * ∑ k ∈ range N, mass k * V₂ k ^ 2 + (1 - θ) * (1 / 2 * elasticWork ne vol C E₂) ≤ 1 / 2 * ∑ k ∈ range N, mass k * V₁ k ^ 2 + 1 / 2 * elasticWork ne vol C E₁) ∧
          (∀ κ : α, 0 ≤ κ → (∀ e q (g : Nat → Nat → α), e < ne → q < 4 → power 2 (ddot 2 (C e q) g) g ≤ κ * power 2 g g) →
            (∀ e m, e < ne → m < 4 → dt ^ 2 * (κ * elemGradient 2 4 G vol e) ≤ 4 * θ * (R e m * J e m)) →
            1 / 2 * ∑ k ∈ range N, mass k * V₂ k ^ 2 + (1 - θ) * (1 / 2 * elasticWork ne vol C E₂) ≤ 1 / 2 * ∑ k ∈ range N, mass k * V₁ k ^ 2 + 1 / 2 * elasticWork ne vol C E₁) := by
  obtain ⟨t, t1, N, mass, vol, h1, -, h2⟩ := crit_quad4 hM lx ly s1 s2 σ υ hc hx hd hr hR dt hm major left nonneg hu hv ha hf n ρ τ hθ
  exact ⟨t, t1, N, mass, vol, dynG s x c, fun e m => det4 (fun m i => x (c e m) i) (corner4 m 0) (corner4 m 1), h1, fun _ _ _ _ => rfl, h2⟩

/-- **C122** every mesh (of convex quadrilaterals of a rectangle) has a critical time step: below it, the time integration is stable for all
DOFs (also if the mesh is periodic), materials with a stiffness of at most `κ`, initial conditions, and numbers of increments -/
theorem C122_quad4_exists (hM : RectMesh nn ne c x Lx Ly O) (lx : 0 < Lx) (ly : 0 < Ly) {s : α} (s1 : -1 ≤ s) (s2 : s ≤ 1) {R : Nat → Nat → α}
    (hR : ∀ e q, e < ne → q < 4 → 0 < R e q) {κ θ : α} (hκ : 0 ≤ κ) (hθ : 0 < θ) :
    ∃ dt₀ : α, 0 < dt₀ ∧ ∀ dt : α, 0 ≤ dt → dt ≤ dt₀ → ∀ {d : Nat → Nat → Nat} (σ : Nat → Sched)
    (υ : Nat → Nat → Sched) {conn dofs : Ten Nat} {coor rho : Ten α} (hc : Is2 conn ne 4 c) (hx : Is2 coor nn 2 x) (hd : Is2 dofs nn 2 d)
    (hr : Is2 rho ne 4 R) 
    {material : List (Ten α) → Res (Ten α)} {C : Nat → Nat → Nat → Nat → Nat → Nat → α}
    (hm : HistoryFree ne material fun E e q => ddot 2 (C e q) (E e q))
    (major : ∀ e q i j k l, e < ne → q < 4 → i < 2 → j < 2 → k < 2 → l < 2 → C e q i j k l = C e q k l i j)
    (left : ∀ e q i j k l, e < ne → q < 4 → i < 2 → j < 2 → k < 2 → l < 2 → C e q i j k l = C e q j i k l)
    (nonneg : ∀ e q (g : Nat → Nat → α), e < ne → q < 4 → 0 ≤ power 2 (ddot 2 (C e q) g) g)
    (stiff : ∀ e q (g : Nat → Nat → α), e < ne → q < 4 → power 2 (ddot 2 (C e q) g) g ≤ κ * power 2 g g)
    {u v a fext : Ten α} {U : Nat → Nat → α} {V A : Nat → α} (hu : Is2 u nn 2 U) (hv : Is2 v nn 2 fun m i => V (d m i))
    (ha : Is2 a nn 2 fun m i => A (d m i)) (hf : Is2 fext nn 2 fun _ _ => 0) (n : Nat) (ρ τ : Sched),
    IsOk (do
      let (D, M) ← Dynamics.new s σ conn dofs coor rho
      let S ← D.run dt material fext υ 1 ⟨u, v, a, M, []⟩
      let E ← D.strain ρ τ S.u
      let S' ← D.run dt material fext υ (n + 1) ⟨u, v, a, M, []⟩
      let E' ← D.strain ρ τ S'.u
      return (D, M, S, E, S', E')) fun (D, M, S, E, S', E') => ∃ (N : Nat) (mass : Nat → α) (vol : Nat → Nat → α), NumDofs nn d N ∧ Is1 M.A N mass ∧ Is2 D.quad.vol ne 4 vol ∧
        ∃ (V₁ : Nat → α) (E₁ : Nat → Nat → Nat → Nat → α) (V₂ : Nat → α) (E₂ : Nat → Nat → Nat → Nat → α), Is2 S.v nn 2 (fun m i => V₁ (d m i)) ∧ Is4 E ne 4 2 2 E₁ ∧
          Is2 S'.v nn 2 (fun m i => V₂ (d m i)) ∧ Is4 E' ne 4 2 2 E₂ ∧
          1 / 2 * ∑ k ∈ range N, mass k * V₂ k ^ 2 + (1 - θ) * (1 / 2 * elasticWork ne vol C E₂) ≤ 1 / 2 * ∑ k ∈ range N, mass k * V₁ k ^ 2 + 1 / 2 * elasticWork ne vol C E₁ := by
  obtain ⟨δ, p1, p2, p3⟩ := small_step (ne * 4) (fun k => κ * elemGradient 2 4 (dynG s x c) (dynVol s x c) (k / 4))
    (fun k => 4 * θ * (R (k / 4) (k % 4) * (fun e m => det4 (fun m i => x (c e m) i) (corner4 m 0) (corner4 m 1)) (k / 4) (k % 4))) (fun k hk => by
      have he : k / 4 < ne := by omega
      generalize k / 4 = e at he
      refine mul_nonneg hκ (sum_nonneg fun q hq => mul_nonneg (sum_nonneg fun _ _ => sum_nonneg fun _ _ => sq_nonneg _) ?_)
      rw [mem_range] at hq
      exact (dynVol_pos hM s1 s2 he).le) (fun k hk => by
      have he : k / 4 < ne := by omega
      have hm : k % 4 < 4 := by omega
      generalize k / 4 = e at he ⊢
      generalize k % 4 = m at hm ⊢
      exact mul_pos (by linarith) (mul_pos (hR e m he hm) (det_pos (hM.convex e he) (corner_box m 0).1 (corner_box m 0).2 (corner_box m 1).1 (corner_box m 1).2)))
  refine ⟨δ, p1, fun dt d0 d1 => ?_⟩
  intro d σ υ conn dofs coor rho hc hx hd hr material C hm major left nonneg stiff u v a fext U V A hu hv ha hf n ρ τ
  obtain ⟨t, t1, N, mass, vol, -, hvol, b1, b2, b3, V₁, E₁, V₂, E₂, c1, c2, c3, c4, -, c5⟩ := crit_quad4 hM lx ly s1 s2 σ υ hc hx hd hr hR dt hm major left nonneg hu hv ha hf n ρ τ hθ
  refine ⟨t, t1, N, mass, vol, b1, b2, b3, V₁, E₁, V₂, E₂, c1, c2, c3, c4, c5 κ hκ stiff fun e m he hm => ?_⟩
  have k := p3 (e * 4 + m) (by nlinarith)
  dsimp only at k
  rw [show (e * 4 + m) / 4 = e by omega, show (e * 4 + m) % 4 = m by omega] at k
  have eg : elemGradient 2 4 (dynG s x c) vol e = elemGradient 2 4 (dynG s x c) (dynVol s x c) e :=
    sum_congr rfl fun q hq => by rw [hvol e q he (mem_range.1 hq)]
  rw [eg]
  have nn : 0 ≤ κ * elemGradient 2 4 (dynG s x c) (dynVol s x c) e :=
    mul_nonneg hκ (sum_nonneg fun q hq => mul_nonneg (sum_nonneg fun _ _ => sum_nonneg fun _ _ => sq_nonneg _) (by
      rw [mem_range] at hq
      exact (dynVol_pos hM s1 s2 he).le))
  refine le_trans (mul_le_mul_of_nonneg_right ?_ nn) k
  rw [sq]
  calc dt * dt ≤ 1 * δ := mul_le_mul (d1.trans p2) d1 d0 zero_le_one
    _ = δ := one_mul δ

theorem crit_hex8 (hM : HexMesh nn ne c x) (s : α) 
    (hG : ∀ e q, e < ne → q < 8 → 0 < det8 (fun m i => x (c e m) i) (s * corner8 q 0) (s * corner8 q 1) (s * corner8 q 2)) (σ : Nat → Sched)
    (υ : Nat → Nat → Sched) {conn dofs : Ten Nat} {coor rho : Ten α} (hc : Is2 conn ne 8 c) (hx : Is2 coor nn 3 x) (hd : Is2 dofs nn 3 d)
    {R : Nat → Nat → α} (hr : Is2 rho ne 8 R) (hR : ∀ e q, e < ne → q < 8 → 0 < R e q) (dt : α)
    {material : List (Ten α) → Res (Ten α)} {C : Nat → Nat → Nat → Nat → Nat → Nat → α}
    (hm : HistoryFree3 ne material fun E e q => ddot 3 (C e q) (E e q))
    (major : ∀ e q i j k l, e < ne → q < 8 → i < 3 → j < 3 → k < 3 → l < 3 → C e q i j k l = C e q k l i j)
    (left : ∀ e q i j k l, e < ne → q < 8 → i < 3 → j < 3 → k < 3 → l < 3 → C e q i j k l = C e q j i k l)
    (nonneg : ∀ e q (g : Nat → Nat → α), e < ne → q < 8 → 0 ≤ power 3 (ddot 3 (C e q) g) g)
    {u v a fext : Ten α} {U : Nat → Nat → α} {V A : Nat → α} (hu : Is2 u nn 3 U) (hv : Is2 v nn 3 fun m i => V (d m i))
    (ha : Is2 a nn 3 fun m i => A (d m i)) (hf : Is2 fext nn 3 fun _ _ => 0) (n : Nat) (ρ τ : Sched) {θ : α} (hθ : 0 < θ) :
    IsOk (do
      let (D, M) ← Dynamics.new3 s σ conn dofs coor rho
      let S ← D.run3 dt material fext υ 1 ⟨u, v, a, M, []⟩
      let E ← D.strain3 ρ τ S.u
      let S' ← D.run3 dt material fext υ (n + 1) ⟨u, v, a, M, []⟩
      let E' ← D.strain3 ρ τ S'.u
      return (D, M, S, E, S', E')) fun (D, M, S, E, S', E') => ∃ (N : Nat) (mass : Nat → α) (vol : Nat → Nat → α),
        Is4 D.quad.dNx ne 8 8 3 (dynG3 s x c) ∧ (∀ e q, e < ne → q < 8 → vol e q = dynVol3 s x c e q) ∧
        NumDofs3 nn d N ∧ Is1 M.A N mass ∧ Is2 D.quad.vol ne 8 vol ∧
        ∃ (V₁ : Nat → α) (E₁ : Nat → Nat → Nat → Nat → α) (V₂ : Nat → α) (E₂ : Nat → Nat → Nat → Nat → α), Is2 S.v nn 3 (fun m i => V₁ (d m i)) ∧ Is4 E ne 8 3 3 E₁ ∧
          Is2 S'.v nn 3 (fun m i => V₂ (d m i)) ∧ Is4 E' ne 8 3 3 E₂ ∧
          ((∀ e, e < ne → ∀ w : Nat → Nat → α, dt ^ 2 * elemWork 3 8 (dynG3 s x c) vol C e w ≤
              4 * θ * ∑ m ∈ range 8, ∑ i ∈ range 3, R e m * (det8 (fun m i => x (c e m) i) (corner8 m 0) (corner8 m 1) (corner8 m 2)) * w m i ^ 2) →
            1 / 2 * ∑ k ∈ range N, mass k * V₂ k ^ 2 + (1 - θ) * (1 / 2 * elasticWork3 ne vol C E₂) ≤ 1 / 2 * ∑ k ∈ range N, mass k * V₁ k ^ 2 + 1 / 2 * elasticWork3 ne vol C E₁) ∧
          (∀ κ : α, 0 ≤ κ → (∀ e q (g : Nat → Nat → α), e < ne → q < 8 → power 3 (ddot 3 (C e q) g) g ≤ κ * power 3 g g) →
            (∀ e m, e < ne → m < 8 → dt ^ 2 * (κ * elemGradient 3 8 (dynG3 s x c) vol e) ≤ 4 * θ * (R e m * (det8 (fun m i => x (c e m) i) (corner8 m 0) (corner8 m 1) (corner8 m 2)))) →
            1 / 2 * ∑ k ∈ range N, mass k * V₂ k ^ 2 + (1 - θ) * (1 / 2 * elasticWork3 ne vol C E₂) ≤ 1 / 2 * ∑ k ∈ range N, mass k * V₁ k ^ 2 + 1 / 2 * elasticWork3 ne vol C E₁) := by
  obtain ⟨⟨D, M, S, E, S', E'⟩, t1, N, mass, vol, b1, b2, b3, V₁, E₁, V₂, E₂, c1, c2, c3, c4, c5⟩ := C119_stable hM s hG σ υ hc hx hd hr
    hR dt hm major left nonneg hu hv ha hf n ρ τ hθ
  have t0 := t1
  obtain ⟨D', M', h1, h2, h3, h4, h5⟩ := dynamics_new3 hM s σ hc hx hd hr
  rw [h1, Res.ok_bind] at t1
  dsimp only at t1
  have same : D' = D ∧ M' = M := by
    cases r1 : D'.run3 dt material fext υ 1 ⟨u, v, a, M', []⟩ with
    | ok S0 =>
      rw [r1, Res.ok_bind] at t1
      cases r2 : D'.strain3 ρ τ S0.u with
      | ok E0 =>
        rw [r2, Res.ok_bind] at t1
        cases r3 : D'.run3 dt material fext υ (n + 1) ⟨u, v, a, M', []⟩ with
        | ok S1 =>
          rw [r3, Res.ok_bind] at t1
          cases r4 : D'.strain3 ρ τ S1.u with
          | ok E1 =>
            rw [r4, Res.ok_bind] at t1
            have t1' : Res.ok (D', M', S0, E0, S1, E1) = Res.ok (D, M, S, E, S', E') := t1
            injection t1' with t1'
            exact ⟨(Prod.mk.inj t1').1, (Prod.mk.inj (Prod.mk.inj t1').2).1⟩
          | _ => rw [r4] at t1; cases t1
        | _ => rw [r3] at t1; cases t1
      | _ => rw [r2] at t1; cases t1
    | _ => rw [r1] at t1; cases t1
  obtain ⟨rfl, rfl⟩ := same
  have hA := h4.A _ rfl
  rw [h3] at hA
  have hN : N = D'.vector.ndof := by
    have := b2.1.symm.trans hA.1
    simpa using this
  subst hN
  have hq := (Hex8.live_holds h2.live).1.G_is
  have hGG : ∀ e q, e < ne → q < 8 → vol e q = dynVol3 s x c e q := fun e q he hq => b3.unique h2.volume he hq
  have vpos : ∀ e q, e < ne → q < 8 → 0 ≤ vol e q := fun e q he hq => by rw [hGG e q he hq]; exact (hG e q he hq).le
  have main : (∀ e, e < ne → ∀ w : Nat → Nat → α, dt ^ 2 * elemWork 3 8 (dynG3 s x c) vol C e w ≤
              4 * θ * ∑ m ∈ range 8, ∑ i ∈ range 3, R e m * det8 (fun m i => x (c e m) i) (corner8 m 0) (corner8 m 1) (corner8 m 2) * w m i ^ 2) →
            1 / 2 * ∑ k ∈ range D'.vector.ndof, mass k * V₂ k ^ 2 + (1 - θ) * (1 / 2 * elasticWork3 ne vol C E₂) ≤ 1 / 2 * ∑ k ∈ range D'.vector.ndof, mass k * V₁ k ^ 2 + 1 / 2 * elasticWork3 ne vol C E₁ := by
    intro crit
    refine c5 ?_
    intro w W t ε hw ht hε
    obtain ⟨t', k1, k2⟩ := h2.strain_ok ρ τ hw
    obtain rfl : t' = t := by rw [k1] at ht; injection ht
    obtain ⟨e1, e2, e3, e4⟩ := h2.dims
    have dual := dual_sum h2.vec (fun e m _ => R e m * det8 (fun m i => x (c e m) i) (corner8 m 0) (corner8 m 1) (corner8 m 2)) fun k => W k ^ 2
    rw [e1, e2, e4] at dual
    have f2 : ∑ k ∈ range D'.vector.ndof, mass k * W k ^ 2 = ∑ e ∈ range ne, ∑ m ∈ range 8, ∑ i ∈ range 3,
        R e m * det8 (fun m i => x (c e m) i) (corner8 m 0) (corner8 m 1) (corner8 m 2) * W (d (c e m) i) ^ 2 :=
      (sum_congr rfl fun k hk => by rw [b2.unique hA (mem_range.1 hk)]; rfl).trans dual
    rw [f2, elasticWork3, mul_sum, mul_sum]
    refine sum_le_sum fun e he => ?_
    rw [mem_range] at he
    have k := crit e he fun m i => W (d (c e m) i)
    have f1 : elemWork 3 8 (dynG3 s x c) vol C e (fun m i => W (d (c e m) i)) =
        ∑ q ∈ range 8, power 3 (ddot 3 (C e q) (ε e q)) (ε e q) * vol e q := by
      rw [elemWork]
      refine sum_congr rfl fun q hq => ?_
      rw [mem_range] at hq
      congr 1
      refine power_congr fun i j hi hj => ?_
      rw [hε.unique k2 he hq hi hj]
      rw [elemStrain, sum_add_distrib]
      rfl
    rw [← f1]
    refine k.trans_eq ?_
    rfl
  refine ⟨_, t0, _, mass, vol, hq, hGG, b1, b2, b3, V₁, E₁, V₂, E₂, c1, c2, c3, c4, main, fun κ hκ stiff crit => main fun e he w => ?_⟩
  have k1 := elemWork_le (vol := vol) (G := dynG3 s x c) (C := C) (e := e) hκ (fun q g hq => stiff e q g he hq) (fun q hq => vpos e q he hq) w
  refine (mul_le_mul_of_nonneg_left k1 (sq_nonneg dt)).trans ?_
  rw [← mul_assoc, mul_sum, mul_sum]
  refine sum_le_sum fun m hm => ?_
  rw [← mul_sum, ← mul_assoc (4 * θ)]
  exact mul_le_mul_of_nonneg_right (crit e m he (mem_range.1 hm)) (sum_nonneg fun _ _ => sq_nonneg _)

/-- **C122** (any mesh of hexahedra) as `C122_quad4` in three dimensions -/
theorem C122_hex8 (hM : HexMesh nn ne c x) (s : α) 
    (hG : ∀ e q, e < ne → q < 8 → 0 < det8 (fun m i => x (c e m) i) (s * corner8 q 0) (s * corner8 q 1) (s * corner8 q 2)) (σ : Nat → Sched)
    (υ : Nat → Nat → Sched) {conn dofs : Ten Nat} {coor rho : Ten α} (hc : Is2 conn ne 8 c) (hx : Is2 coor nn 3 x) (hd : Is2 dofs nn 3 d)
    {R : Nat → Nat → α} (hr : Is2 rho ne 8 R) (hR : ∀ e q, e < ne → q < 8 → 0 < R e q) (dt : α)
    {material : List (Ten α) → Res (Ten α)} {C : Nat → Nat → Nat → Nat → Nat → Nat → α}
    (hm : HistoryFree3 ne material fun E e q => ddot 3 (C e q) (E e q))
    (major : ∀ e q i j k l, e < ne → q < 8 → i < 3 → j < 3 → k < 3 → l < 3 → C e q i j k l = C e q k l i j)
    (left : ∀ e q i j k l, e < ne → q < 8 → i < 3 → j < 3 → k < 3 → l < 3 → C e q i j k l = C e q j i k l)
    (nonneg : ∀ e q (g : Nat → Nat → α), e < ne → q < 8 → 0 ≤ power 3 (ddot 3 (C e q) g) g)
    {u v a fext : Ten α} {U : Nat → Nat → α} {V A : Nat → α} (hu : Is2 u nn 3 U) (hv : Is2 v nn 3 fun m i => V (d m i))
    (ha : Is2 a nn 3 fun m i => A (d m i)) (hf : Is2 fext nn 3 fun _ _ => 0) (n : Nat) (ρ τ : Sched) {θ : α} (hθ : 0 < θ) :
    IsOk (do
      let (D, M) ← Dynamics.new3 s σ conn dofs coor rho
      let S ← D.run3 dt material fext υ 1 ⟨u, v, a, M, []⟩
      let E ← D.strain3 ρ τ S.u
      let S' ← D.run3 dt material fext υ (n + 1) ⟨u, v, a, M, []⟩
      let E' ← D.strain3 ρ τ S'.u
      return (D, M, S, E, S', E')) fun (D, M, S, E, S', E') => ∃ (N : Nat) (mass : Nat → α) (vol : Nat → Nat → α) (G : Nat → Nat → Nat → Nat → α) (J : Nat → Nat → α),
        Is4 D.quad.dNx ne 8 8 3 G ∧ (∀ e m, e < ne → m < 8 → J e m = det8 (fun m i => x (c e m) i) (corner8 m 0) (corner8 m 1) (corner8 m 2)) ∧
        NumDofs3 nn d N ∧ Is1 M.A N mass ∧ Is2 D.quad.vol ne 8 vol ∧
        ∃ (V₁ : Nat → α) (E₁ : Nat → Nat → Nat → Nat → α) (V₂ : Nat → α) (E₂ : Nat → Nat → Nat → Nat → α), Is2 S.v nn 3 (fun m i => V₁ (d m i)) ∧ Is4 E ne 8 3 3 E₁ ∧
          Is2 S'.v nn 3 (fun m i => V₂ (d m i)) ∧ Is4 E' ne 8 3 3 E₂ ∧
          ((∀ e, e < ne → ∀ w : Nat → Nat → α, dt ^ 2 * elemWork 3 8 G vol C e w ≤
              4 * θ * ∑ m ∈ range 8, ∑ i ∈ range 3, R e m * J e m * w m i ^ 2) →
            1 / 2 * ∑ k ∈ range N, mass k * V₂ k ^ 2 + (1 - θ) * (1 / 2 * elasticWork3 ne vol C E₂) ≤ 1 / 2 * ∑ k ∈ range N, mass k * V₁ k ^ 2 + 1 / 2 * elasticWork3 ne vol C E₁) ∧
          (∀ κ : α, 0 ≤ κ → (∀ e q (g : Nat → Nat → α), e < ne → q < 8 → power 3 (ddot 3 (C e q) g) g ≤ κ * power 3 g g) →
            (∀ e m, e < ne → m < 8 → dt ^ 2 * (κ * elemGradient 3 8 G vol e) ≤ 4 * θ * (R e m * J e m)) →
            1 / 2 * ∑ k ∈ range N, mass k * V₂ k ^ 2 + (1 - θ) * (1 / 2 * elasticWork3 ne vol C E₂) ≤ 1 / 2 * ∑ k ∈ range N, mass k * V₁ k ^ 2 + 1 / 2 * elasticWork3 ne vol C E₁) := by
  obtain ⟨t, t1, N, mass, vol, h1, -, h2⟩ := crit_hex8 hM s hG σ υ hc hx hd hr hR dt hm major left nonneg hu hv ha hf n ρ τ hθ
  exact ⟨t, t1, N, mass, vol, dynG3 s x c, fun e m => det8 (fun m i => x (c e m) i) (corner8 m 0) (corner8 m 1) (corner8 m 2), h1, fun _ _ _ _ => rfl, h2⟩

/-- **C122** every mesh of hexahedra has a critical time step -/
theorem C122_hex8_exists (hM : HexMesh nn ne c x) (s : α) 
    (hG : ∀ e q, e < ne → q < 8 → 0 < det8 (fun m i => x (c e m) i) (s * corner8 q 0) (s * corner8 q 1) (s * corner8 q 2)) {R : Nat → Nat → α}
    (hR : ∀ e q, e < ne → q < 8 → 0 < R e q) {κ θ : α} (hκ : 0 ≤ κ) (hθ : 0 < θ) :
    ∃ dt₀ : α, 0 < dt₀ ∧ ∀ dt : α, 0 ≤ dt → dt ≤ dt₀ → ∀ {d : Nat → Nat → Nat} (σ : Nat → Sched)
    (υ : Nat → Nat → Sched) {conn dofs : Ten Nat} {coor rho : Ten α} (hc : Is2 conn ne 8 c) (hx : Is2 coor nn 3 x) (hd : Is2 dofs nn 3 d)
    (hr : Is2 rho ne 8 R) 
    {material : List (Ten α) → Res (Ten α)} {C : Nat → Nat → Nat → Nat → Nat → Nat → α}
    (hm : HistoryFree3 ne material fun E e q => ddot 3 (C e q) (E e q))
    (major : ∀ e q i j k l, e < ne → q < 8 → i < 3 → j < 3 → k < 3 → l < 3 → C e q i j k l = C e q k l i j)
    (left : ∀ e q i j k l, e < ne → q < 8 → i < 3 → j < 3 → k < 3 → l < 3 → C e q i j k l = C e q j i k l)
    (nonneg : ∀ e q (g : Nat → Nat → α), e < ne → q < 8 → 0 ≤ power 3 (ddot 3 (C e q) g) g)
    (stiff : ∀ e q (g : Nat → Nat → α), e < ne → q < 8 → power 3 (ddot 3 (C e q) g) g ≤ κ * power 3 g g)
    {u v a fext : Ten α} {U : Nat → Nat → α} {V A : Nat → α} (hu : Is2 u nn 3 U) (hv : Is2 v nn 3 fun m i => V (d m i))
    (ha : Is2 a nn 3 fun m i => A (d m i)) (hf : Is2 fext nn 3 fun _ _ => 0) (n : Nat) (ρ τ : Sched),
    IsOk (do
      let (D, M) ← Dynamics.new3 s σ conn dofs coor rho
      let S ← D.run3 dt material fext υ 1 ⟨u, v, a, M, []⟩
      let E ← D.strain3 ρ τ S.u
      let S' ← D.run3 dt material fext υ (n + 1) ⟨u, v, a, M, []⟩
      let E' ← D.strain3 ρ τ S'.u
      return (D, M, S, E, S', E')) fun (D, M, S, E, S', E') => ∃ (N : Nat) (mass : Nat → α) (vol : Nat → Nat → α), NumDofs3 nn d N ∧ Is1 M.A N mass ∧ Is2 D.quad.vol ne 8 vol ∧
        ∃ (V₁ : Nat → α) (E₁ : Nat → Nat → Nat → Nat → α) (V₂ : Nat → α) (E₂ : Nat → Nat → Nat → Nat → α), Is2 S.v nn 3 (fun m i => V₁ (d m i)) ∧ Is4 E ne 8 3 3 E₁ ∧
          Is2 S'.v nn 3 (fun m i => V₂ (d m i)) ∧ Is4 E' ne 8 3 3 E₂ ∧
          1 / 2 * ∑ k ∈ range N, mass k * V₂ k ^ 2 + (1 - θ) * (1 / 2 * elasticWork3 ne vol C E₂) ≤ 1 / 2 * ∑ k ∈ range N, mass k * V₁ k ^ 2 + 1 / 2 * elasticWork3 ne vol C E₁ := by
  obtain ⟨δ, p1, p2, p3⟩ := small_step (ne * 8) (fun k => κ * elemGradient 3 8 (dynG3 s x c) (dynVol3 s x c) (k / 8))
    (fun k => 4 * θ * (R (k / 8) (k % 8) * (fun e m => det8 (fun m i => x (c e m) i) (corner8 m 0) (corner8 m 1) (corner8 m 2)) (k / 8) (k % 8))) (fun k hk => by
      have he : k / 8 < ne := by omega
      generalize k / 8 = e at he
      refine mul_nonneg hκ (sum_nonneg fun q hq => mul_nonneg (sum_nonneg fun _ _ => sum_nonneg fun _ _ => sq_nonneg _) ?_)
      rw [mem_range] at hq
      exact (hG e q he hq).le) (fun k hk => by
      have he : k / 8 < ne := by omega
      have hm : k % 8 < 8 := by omega
      generalize k / 8 = e at he ⊢
      generalize k % 8 = m at hm ⊢
      exact mul_pos (by linarith) (mul_pos (hR e m he hm) (hM.corners e m he hm)))
  refine ⟨δ, p1, fun dt d0 d1 => ?_⟩
  intro d σ υ conn dofs coor rho hc hx hd hr material C hm major left nonneg stiff u v a fext U V A hu hv ha hf n ρ τ
  obtain ⟨t, t1, N, mass, vol, -, hvol, b1, b2, b3, V₁, E₁, V₂, E₂, c1, c2, c3, c4, -, c5⟩ := crit_hex8 hM s hG σ υ hc hx hd hr hR dt hm major left nonneg hu hv ha hf n ρ τ hθ
  refine ⟨t, t1, N, mass, vol, b1, b2, b3, V₁, E₁, V₂, E₂, c1, c2, c3, c4, c5 κ hκ stiff fun e m he hm => ?_⟩
  have k := p3 (e * 8 + m) (by nlinarith)
  dsimp only at k
  rw [show (e * 8 + m) / 8 = e by omega, show (e * 8 + m) % 8 = m by omega] at k
  have eg : elemGradient 3 8 (dynG3 s x c) vol e = elemGradient 3 8 (dynG3 s x c) (dynVol3 s x c) e :=
    sum_congr rfl fun q hq => by rw [hvol e q he (mem_range.1 hq)]
  rw [eg]
  have nn : 0 ≤ κ * elemGradient 3 8 (dynG3 s x c) (dynVol3 s x c) e :=
    mul_nonneg hκ (sum_nonneg fun q hq => mul_nonneg (sum_nonneg fun _ _ => sum_nonneg fun _ _ => sq_nonneg _) (by
      rw [mem_range] at hq
      exact (hG e q he hq).le))
  refine le_trans (mul_le_mul_of_nonneg_right ?_ nn) k
  rw [sq]
  calc dt * dt ≤ 1 * δ := mul_le_mul (d1.trans p2) d1 d0 zero_le_one
    _ = δ := one_mul δ

end GF
