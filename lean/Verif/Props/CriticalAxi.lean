import Verif.Spec.CriticalAxi
import Verif.Props.StabilityAxi
import Verif.Props.CriticalStep

/-! **C122**: a critical time step that is computed per element, for axisymmetric bodies. -/

namespace GF
open Finset ElemSpec Element Element.Quad4

variable {α : Type} [Field α] [LinearOrder α] [IsStrictOrderedRing α]
variable {nn ne : Nat} {c d : Nat → Nat → Nat} {x : Nat → Nat → α}

/-- shape functions over the radius of the integration points -/
def dynT (s : α) (x : Nat → Nat → α) (c : Nat → Nat → Nat) (e q m : Nat) : α :=
  1 / Axi.Rf (Axi.NΞ fun q i => s * corner4 q i) (fun e m i => x (c e m) i) e q * Axi.NΞ (fun q i => s * corner4 q i) q m

theorem dynB_eq (s : α) (x : Nat → Nat → α) (c : Nat → Nat → Nat) : dynB s x c = Axi.bv (dynG s x c) (dynT s x c) := rfl

/-- the strain of the program, element by element -/
theorem elemStrainAxi_eq (s : α) (U : Nat → Nat → α) (e q : Nat) {i j : Nat} (hi : i < 3) (hj : j < 3) :
    strainOfA (dynB s x c) c U e q i j = elemStrainAxi (dynG s x c) (dynT s x c) e q (fun m i => U (c e m) i) i j := by
  have two : (2 : α) ≠ 0 := two_ne_zero
  rw [dynB_eq, strainOfA, Axi.sym3]
  obtain rfl | rfl | rfl : i = 0 ∨ i = 1 ∨ i = 2 := by omega
  all_goals obtain rfl | rfl | rfl : j = 0 ∨ j = 1 ∨ j = 2 := by omega
  all_goals simp [elemStrainAxi, Axi.gA, Axi.ga, Axi.bv, Axi.ci, Axi.cj, Axi.dof, sum_range_succ] <;> try ring

theorem elemWorkAxi_le {G : Nat → Nat → Nat → Nat → α} {T : Nat → Nat → Nat → α} {vol : Nat → Nat → α} {C : Nat → Nat → Nat → Nat → Nat → Nat → α} {e : Nat}
    {κ : α} (hκ : 0 ≤ κ) (stiff : ∀ q g, q < 4 → power 3 (ddot 3 (C e q) g) g ≤ κ * power 3 g g) (hv : ∀ q, q < 4 → 0 ≤ vol e q)
    (w : Nat → Nat → α) : elemWorkAxi G T vol C e w ≤ κ * elemGradientAxi G T vol e * ∑ n ∈ range 4, ∑ j ∈ range 2, w n j ^ 2 := by
  rw [elemWorkAxi, elemGradientAxi, mul_assoc, sum_mul, mul_sum]
  refine sum_le_sum fun q hq => ?_
  rw [mem_range] at hq
  refine (mul_le_mul_of_nonneg_right (stiff q _ hq) (hv q hq)).trans ?_
  rw [mul_assoc]
  refine mul_le_mul_of_nonneg_left ?_ hκ
  rw [mul_right_comm]
  refine mul_le_mul_of_nonneg_right ?_ (hv q hq)
  have cs : ∀ (f : Nat → α) (k : Nat), (∑ n ∈ range 4, f n * w n k) ^ 2 ≤ (∑ n ∈ range 4, f n ^ 2) * ∑ n ∈ range 4, w n k ^ 2 :=
    fun f k => sum_mul_sq_le_sq_mul_sq _ _ _
  have c1 := cs (fun n => G e q n 1) 1
  have c2 := cs (fun n => G e q n 0) 1
  have c3 := cs (fun n => T e q n) 1
  have c4 := cs (fun n => G e q n 1) 0
  have c5 := cs (fun n => G e q n 0) 0
  have t1 : 0 ≤ (∑ n ∈ range 4, T e q n ^ 2) * ∑ n ∈ range 4, w n 0 ^ 2 := mul_nonneg (sum_nonneg fun _ _ => sq_nonneg _) (sum_nonneg fun _ _ => sq_nonneg _)
  have e1 : ∑ n ∈ range 4, ∑ j ∈ range 2, w n j ^ 2 = ∑ n ∈ range 4, w n 0 ^ 2 + ∑ n ∈ range 4, w n 1 ^ 2 := by
    rw [← sum_add_distrib]
    exact sum_congr rfl fun n _ => by rw [sum_range_succ, sum_range_succ, sum_range_zero, zero_add]
  have e2 : ∑ n ∈ range 4, (G e q n 0 ^ 2 + G e q n 1 ^ 2 + T e q n ^ 2) = ∑ n ∈ range 4, G e q n 0 ^ 2 + ∑ n ∈ range 4, G e q n 1 ^ 2 + ∑ n ∈ range 4, T e q n ^ 2 := by
    rw [sum_add_distrib, sum_add_distrib]
  have e3 : power 3 (elemStrainAxi G T e q w) (elemStrainAxi G T e q w) = (∑ n ∈ range 4, G e q n 1 * w n 1) ^ 2 + (∑ n ∈ range 4, T e q n * w n 1) ^ 2 +
      (∑ n ∈ range 4, G e q n 0 * w n 0) ^ 2 + 2 * (1 / 2 * (∑ n ∈ range 4, G e q n 1 * w n 0 + ∑ n ∈ range 4, G e q n 0 * w n 1)) ^ 2 := by
    rw [power]
    generalize h1 : ∑ n ∈ range 4, G e q n 1 * w n 1 = a1
    generalize h2 : ∑ n ∈ range 4, T e q n * w n 1 = a2
    generalize h3 : ∑ n ∈ range 4, G e q n 0 * w n 0 = a3
    generalize h4 : ∑ n ∈ range 4, G e q n 1 * w n 0 = a4
    generalize h5 : ∑ n ∈ range 4, G e q n 0 * w n 1 = a5
    rw [sum_range_succ, sum_range_succ, sum_range_succ, sum_range_zero]
    simp only [sum_range_succ _ 2, sum_range_succ _ 1, sum_range_succ _ 0, sum_range_zero, elemStrainAxi]
    rw [h1, h2, h3, h4, h5]
    ring
  rw [e1, e2, e3]
  beta_reduce at c1 c2 c3 c4 c5
  generalize ∑ n ∈ range 4, G e q n 1 * w n 1 = a1 at *
  generalize ∑ n ∈ range 4, T e q n * w n 1 = a2 at *
  generalize ∑ n ∈ range 4, G e q n 0 * w n 0 = a3 at *
  generalize ∑ n ∈ range 4, G e q n 1 * w n 0 = a4 at *
  generalize ∑ n ∈ range 4, G e q n 0 * w n 1 = a5 at *
  nlinarith [sq_nonneg (a4 - a5)]

theorem crit_axi (hM : RingMesh nn ne c x) {s : α} (s1 : -1 ≤ s) (s2 : s ≤ 1) {pi : α} (hpi : 0 < pi) (σ : Nat → Sched)
    (υ : Nat → Nat → Sched) {conn dofs : Ten Nat} {coor rho : Ten α} (hc : Is2 conn ne 4 c) (hx : Is2 coor nn 2 x) (hd : Is2 dofs nn 2 d)
    {R : Nat → Nat → α} (hr : Is2 rho ne 4 R) (hR : ∀ e q, e < ne → q < 4 → 0 < R e q) (off : ∀ m, m < nn → 0 < x m 1) (dt : α)
    {material : List (Ten α) → Res (Ten α)} {C : Nat → Nat → Nat → Nat → Nat → Nat → α}
    (hm : HistoryFreeAxi ne material fun E e q => ddot 3 (C e q) (E e q))
    (major : ∀ e q i j k l, e < ne → q < 4 → i < 3 → j < 3 → k < 3 → l < 3 → C e q i j k l = C e q k l i j)
    (left : ∀ e q i j k l, e < ne → q < 4 → i < 3 → j < 3 → k < 3 → l < 3 → C e q i j k l = C e q j i k l)
    (nonneg : ∀ e q (g : Nat → Nat → α), e < ne → q < 4 → 0 ≤ power 3 (ddot 3 (C e q) g) g)
    {u v a fext : Ten α} {U : Nat → Nat → α} {V A : Nat → α} (hu : Is2 u nn 2 U) (hv : Is2 v nn 2 fun m i => V (d m i))
    (ha : Is2 a nn 2 fun m i => A (d m i)) (hf : Is2 fext nn 2 fun _ _ => 0) (n : Nat) (ρ τ : Sched) {θ : α} (hθ : 0 < θ) :
    IsOk (do
      let (D, M) ← DynamicsAxi.new s pi σ conn dofs coor rho
      let S ← D.run dt material fext υ 1 ⟨u, v, a, M, []⟩
      let E ← D.strain ρ τ S.u
      let S' ← D.run dt material fext υ (n + 1) ⟨u, v, a, M, []⟩
      let E' ← D.strain ρ τ S'.u
      return (D, M, S, E, S', E')) fun (D, M, S, E, S', E') => ∃ (N : Nat) (mass : Nat → α) (vol : Nat → Nat → α),
        (∀ e q m a, e < ne → q < 4 → m < 4 → a < 5 → D.quad.B.get ([e, q, m] ++ Axi.bI a) = .ok (dynB s x c a e q m)) ∧ (∀ e q, e < ne → q < 4 → vol e q = dynVolA pi s x c e q) ∧
        NumDofs nn d N ∧ Is1 M.A N mass ∧ Is2 D.quad.vol ne 4 vol ∧
        ∃ (V₁ : Nat → α) (E₁ : Nat → Nat → Nat → Nat → α) (V₂ : Nat → α) (E₂ : Nat → Nat → Nat → Nat → α), Is2 S.v nn 2 (fun m i => V₁ (d m i)) ∧ Is4 E ne 4 3 3 E₁ ∧
          Is2 S'.v nn 2 (fun m i => V₂ (d m i)) ∧ Is4 E' ne 4 3 3 E₂ ∧
          ((∀ e, e < ne → ∀ w : Nat → Nat → α, dt ^ 2 * elemWorkAxi (dynG s x c) (dynT s x c) vol C e w ≤
              4 * θ * ∑ m ∈ range 4, ∑ i ∈ range 2, R e m * nodalVolA pi x c e m * w m i ^ 2) →
            1 / 2 * ∑ k ∈ range N, mass k * V₂ k ^ 2 + (1 - θ) * (1 / 2 * elasticWorkAxi ne vol C E₂) ≤ 1 / 2 * ∑ k ∈ range N, mass k * V₁ k ^ 2 + 1 / 2 * elasticWorkAxi ne vol C E₁) ∧
          (∀ κ : α, 0 ≤ κ → (∀ e q (g : Nat → Nat → α), e < ne → q < 4 → power 3 (ddot 3 (C e q) g) g ≤ κ * power 3 g g) →
            (∀ e m, e < ne → m < 4 → dt ^ 2 * (κ * elemGradientAxi (dynG s x c) (dynT s x c) vol e) ≤ 4 * θ * (R e m * nodalVolA pi x c e m)) →
            1 / 2 * ∑ k ∈ range N, mass k * V₂ k ^ 2 + (1 - θ) * (1 / 2 * elasticWorkAxi ne vol C E₂) ≤ 1 / 2 * ∑ k ∈ range N, mass k * V₁ k ^ 2 + 1 / 2 * elasticWorkAxi ne vol C E₁) := by
  obtain ⟨⟨D, M, S, E, S', E'⟩, t1, N, mass, vol, b1, b2, b3, V₁, E₁, V₂, E₂, c1, c2, c3, c4, c5⟩ := C121_stable hM s1 s2 hpi σ υ hc hx hd hr
    hR off dt hm major left nonneg hu hv ha hf n ρ τ hθ
  have t0 := t1
  obtain ⟨D', M', h1, h2, h3, h4, h5⟩ := dynamics_newA hM s pi σ hc hx hd hr
  rw [h1, Res.ok_bind] at t1
  dsimp only at t1
  have same : D' = D ∧ M' = M := by
    cases r1 : D'.run dt material fext υ 1 ⟨u, v, a, M', []⟩ with
    | ok S0 =>
      rw [r1, Res.ok_bind] at t1
      cases r2 : D'.strain ρ τ S0.u with
      | ok E0 =>
        rw [r2, Res.ok_bind] at t1
        cases r3 : D'.run dt material fext υ (n + 1) ⟨u, v, a, M', []⟩ with
        | ok S1 =>
          rw [r3, Res.ok_bind] at t1
          cases r4 : D'.strain ρ τ S1.u with
          | ok E1 =>
            rw [r4, Res.ok_bind] at t1
            have t1' : Res.ok (D', M', S0, E0, S1, E1) = Res.ok (D, M, S, E, S', E') := t1
            injection t1' with t1'
            exact ⟨(Prod.mk.inj t1').1, (Prod.mk.inj (Prod.mk.inj t1').2).1⟩
          | _ => rw [r4] at t1; cases t1
        | _ => rw [r3] at t1; cases t1
      | _ => rw [r2] at t1; cases t1
    | _ => rw [r1] at t1; cases t1
  obtain ⟨rfl, rfl⟩ := same
  have hA := h4.A _ rfl
  rw [h3] at hA
  have hN : N = D'.vector.ndof := by
    have := b2.1.symm.trans hA.1
    simpa using this
  subst hN
  have hq : ∀ e q m a, e < ne → q < 4 → m < 4 → a < 5 → D'.quad.B.get ([e, q, m] ++ Axi.bI a) = .ok (dynB s x c a e q m) :=
    fun e q m a he hq hm ha => (Axi.live_holds h2.live).1.B_is a e q m ha he hq hm
  have hGG : ∀ e q, e < ne → q < 4 → vol e q = dynVolA pi s x c e q := fun e q he hq => b3.unique h2.volume he hq
  have vpos : ∀ e q, e < ne → q < 4 → 0 ≤ vol e q := fun e q he hq => by rw [hGG e q he hq]; exact dynVolA_nonneg hM hpi s1 s2 he q
  have main : (∀ e, e < ne → ∀ w : Nat → Nat → α, dt ^ 2 * elemWorkAxi (dynG s x c) (dynT s x c) vol C e w ≤
              4 * θ * ∑ m ∈ range 4, ∑ i ∈ range 2, R e m * nodalVolA pi x c e m * w m i ^ 2) →
            1 / 2 * ∑ k ∈ range D'.vector.ndof, mass k * V₂ k ^ 2 + (1 - θ) * (1 / 2 * elasticWorkAxi ne vol C E₂) ≤ 1 / 2 * ∑ k ∈ range D'.vector.ndof, mass k * V₁ k ^ 2 + 1 / 2 * elasticWorkAxi ne vol C E₁ := by
    intro crit
    refine c5 ?_
    intro w W t ε hw ht hε
    obtain ⟨t', k1, k2⟩ := h2.strain_ok ρ τ hw
    obtain rfl : t' = t := by rw [k1] at ht; injection ht
    obtain ⟨e1, e2, e3, e4⟩ := h2.dims
    have dual := dual_sum h2.vec (fun e m _ => R e m * nodalVolA pi x c e m) fun k => W k ^ 2
    rw [e1, e2, e4] at dual
    have f2 : ∑ k ∈ range D'.vector.ndof, mass k * W k ^ 2 = ∑ e ∈ range ne, ∑ m ∈ range 4, ∑ i ∈ range 2,
        R e m * nodalVolA pi x c e m * W (d (c e m) i) ^ 2 :=
      (sum_congr rfl fun k hk => by rw [b2.unique hA (mem_range.1 hk)]; rfl).trans dual
    rw [f2, elasticWorkAxi, mul_sum, mul_sum]
    refine sum_le_sum fun e he => ?_
    rw [mem_range] at he
    have k := crit e he fun m i => W (d (c e m) i)
    have f1 : elemWorkAxi (dynG s x c) (dynT s x c) vol C e (fun m i => W (d (c e m) i)) =
        ∑ q ∈ range 4, power 3 (ddot 3 (C e q) (ε e q)) (ε e q) * vol e q := by
      rw [elemWorkAxi]
      refine sum_congr rfl fun q hq => ?_
      rw [mem_range] at hq
      congr 1
      refine power_congr fun i j hi hj => ?_
      rw [hε.unique k2 he hq hi hj]
      exact (elemStrainAxi_eq s (fun m i => W (d m i)) e q hi hj).symm
    rw [← f1]
    exact k
  refine ⟨_, t0, _, mass, vol, hq, hGG, b1, b2, b3, V₁, E₁, V₂, E₂, c1, c2, c3, c4, main, fun κ hκ stiff crit => main fun e he w => ?_⟩
  have k1 := elemWorkAxi_le (vol := vol) (G := dynG s x c) (T := dynT s x c) (C := C) (e := e) hκ (fun q g hq => stiff e q g he hq) (fun q hq => vpos e q he hq) w
  refine (mul_le_mul_of_nonneg_left k1 (sq_nonneg dt)).trans ?_
  rw [← mul_assoc, mul_sum, mul_sum]
  refine sum_le_sum fun m hm => ?_
  rw [← mul_sum, ← mul_assoc (4 * θ)]
  exact mul_le_mul_of_nonneg_right (crit e m he (mem_range.1 hm)) (sum_nonneg fun _ _ => sq_nonneg _)

/-- **C122** (any mesh of convex quadrilaterals off the axis) as `C122_quad4` for axisymmetric bodies: `G` and `T` are read off the array `B`
of the library, `J e m` is the part of the volume of the ring element `e` that belongs to its corner `m` -/
theorem C122_axi (hM : RingMesh nn ne c x) {s : α} (s1 : -1 ≤ s) (s2 : s ≤ 1) {pi : α} (hpi : 0 < pi) (σ : Nat → Sched)
    (υ : Nat → Nat → Sched) {conn dofs : Ten Nat} {coor rho : Ten α} (hc : Is2 conn ne 4 c) (hx : Is2 coor nn 2 x) (hd : Is2 dofs nn 2 d)
    {R : Nat → Nat → α} (hr : Is2 rho ne 4 R) (hR : ∀ e q, e < ne → q < 4 → 0 < R e q) (off : ∀ m, m < nn → 0 < x m 1) (dt : α)
    {material : List (Ten α) → Res (Ten α)} {C : Nat → Nat → Nat → Nat → Nat → Nat → α}
    (hm : HistoryFreeAxi ne material fun E e q => ddot 3 (C e q) (E e q))
    (major : ∀ e q i j k l, e < ne → q < 4 → i < 3 → j < 3 → k < 3 → l < 3 → C e q i j k l = C e q k l i j)
    (left : ∀ e q i j k l, e < ne → q < 4 → i < 3 → j < 3 → k < 3 → l < 3 → C e q i j k l = C e q j i k l)
    (nonneg : ∀ e q (g : Nat → Nat → α), e < ne → q < 4 → 0 ≤ power 3 (ddot 3 (C e q) g) g)
    {u v a fext : Ten α} {U : Nat → Nat → α} {V A : Nat → α} (hu : Is2 u nn 2 U) (hv : Is2 v nn 2 fun m i => V (d m i))
    (ha : Is2 a nn 2 fun m i => A (d m i)) (hf : Is2 fext nn 2 fun _ _ => 0) (n : Nat) (ρ τ : Sched) {θ : α} (hθ : 0 < θ) :
    IsOk (do
      let (D, M) ← DynamicsAxi.new s pi σ conn dofs coor rho
      let S ← D.run dt material fext υ 1 ⟨u, v, a, M, []⟩
      let E ← D.strain ρ τ S.u
      let S' ← D.run dt material fext υ (n + 1) ⟨u, v, a, M, []⟩
      let E' ← D.strain ρ τ S'.u
      return (D, M, S, E, S', E')) fun (D, M, S, E, S', E') => ∃ (N : Nat) (mass : Nat → α) (vol : Nat → Nat → α) (G : Nat → Nat → Nat → Nat → α) (T : Nat → Nat → Nat → α) (J : Nat → Nat → α),
        (∀ e q m, e < ne → q < 4 → m < 4 → D.quad.B.get [e, q, m, 0, 0, 0] = .ok (G e q m 1) ∧ D.quad.B.get [e, q, m, 2, 2, 2] = .ok (G e q m 0) ∧
          D.quad.B.get [e, q, m, 1, 1, 0] = .ok (T e q m)) ∧
        (∀ e m, e < ne → m < 4 → J e m = det4 (fun m i => x (c e m) i) (corner4 m 0) (corner4 m 1) * (2 * pi * x (c e m) 1)) ∧
        NumDofs nn d N ∧ Is1 M.A N mass ∧ Is2 D.quad.vol ne 4 vol ∧
        ∃ (V₁ : Nat → α) (E₁ : Nat → Nat → Nat → Nat → α) (V₂ : Nat → α) (E₂ : Nat → Nat → Nat → Nat → α), Is2 S.v nn 2 (fun m i => V₁ (d m i)) ∧ Is4 E ne 4 3 3 E₁ ∧
          Is2 S'.v nn 2 (fun m i => V₂ (d m i)) ∧ Is4 E' ne 4 3 3 E₂ ∧
          ((∀ e, e < ne → ∀ w : Nat → Nat → α, dt ^ 2 * elemWorkAxi G T vol C e w ≤
              4 * θ * ∑ m ∈ range 4, ∑ i ∈ range 2, R e m * J e m * w m i ^ 2) →
            1 / 2 * ∑ k ∈ range N, mass k * V₂ k ^ 2 + (1 - θ) * (1 / 2 * elasticWorkAxi ne vol C E₂) ≤ 1 / 2 * ∑ k ∈ range N, mass k * V₁ k ^ 2 + 1 / 2 * elasticWorkAxi ne vol C E₁) ∧
          (∀ κ : α, 0 ≤ κ → (∀ e q (g : Nat → Nat → α), e < ne → q < 4 → power 3 (ddot 3 (C e q) g) g ≤ κ * power 3 g g) →
            (∀ e m, e < ne → m < 4 → dt ^ 2 * (κ * elemGradientAxi G T vol e) ≤ 4 * θ * (R e m * J e m)) →
            1 / 2 * ∑ k ∈ range N, mass k * V₂ k ^ 2 + (1 - θ) * (1 / 2 * elasticWorkAxi ne vol C E₂) ≤ 1 / 2 * ∑ k ∈ range N, mass k * V₁ k ^ 2 + 1 / 2 * elasticWorkAxi ne vol C E₁) := by
  obtain ⟨t, t1, N, mass, vol, h1, -, h2⟩ := crit_axi hM s1 s2 hpi σ υ hc hx hd hr hR off dt hm major left nonneg hu hv ha hf n ρ τ hθ
  exact ⟨t, t1, N, mass, vol, dynG s x c, dynT s x c, nodalVolA pi x c, fun e q m he hq hm => ⟨h1 e q m 0 he hq hm (by omega), h1 e q m 2 he hq hm (by omega),
    h1 e q m 1 he hq hm (by omega)⟩, fun _ _ _ _ => rfl, h2⟩

/-- **C122** every mesh of convex quadrilaterals off the axis has a critical time step -/
theorem C122_axi_exists (hM : RingMesh nn ne c x) {s : α} (s1 : -1 ≤ s) (s2 : s ≤ 1) {pi : α} (hpi : 0 < pi) (off : ∀ m, m < nn → 0 < x m 1)
    {R : Nat → Nat → α} (hR : ∀ e q, e < ne → q < 4 → 0 < R e q) {κ θ : α} (hκ : 0 ≤ κ) (hθ : 0 < θ) :
    ∃ dt₀ : α, 0 < dt₀ ∧ ∀ dt : α, 0 ≤ dt → dt ≤ dt₀ → ∀ {d : Nat → Nat → Nat} (σ : Nat → Sched)
    (υ : Nat → Nat → Sched) {conn dofs : Ten Nat} {coor rho : Ten α} (hc : Is2 conn ne 4 c) (hx : Is2 coor nn 2 x) (hd : Is2 dofs nn 2 d)
    (hr : Is2 rho ne 4 R)
    {material : List (Ten α) → Res (Ten α)} {C : Nat → Nat → Nat → Nat → Nat → Nat → α}
    (hm : HistoryFreeAxi ne material fun E e q => ddot 3 (C e q) (E e q))
    (major : ∀ e q i j k l, e < ne → q < 4 → i < 3 → j < 3 → k < 3 → l < 3 → C e q i j k l = C e q k l i j)
    (left : ∀ e q i j k l, e < ne → q < 4 → i < 3 → j < 3 → k < 3 → l < 3 → C e q i j k l = C e q j i k l)
    (nonneg : ∀ e q (g : Nat → Nat → α), e < ne → q < 4 → 0 ≤ power 3 (ddot 3 (C e q) g) g)
    (stiff : ∀ e q (g : Nat → Nat → α), e < ne → q < 4 → power 3 (ddot 3 (C e q) g) g ≤ κ * power 3 g g)
    {u v a fext : Ten α} {U : Nat → Nat → α} {V A : Nat → α} (hu : Is2 u nn 2 U) (hv : Is2 v nn 2 fun m i => V (d m i))
    (ha : Is2 a nn 2 fun m i => A (d m i)) (hf : Is2 fext nn 2 fun _ _ => 0) (n : Nat) (ρ τ : Sched),
    IsOk (do
      let (D, M) ← DynamicsAxi.new s pi σ conn dofs coor rho
      let S ← D.run dt material fext υ 1 ⟨u, v, a, M, []⟩
      let E ← D.strain ρ τ S.u
      let S' ← D.run dt material fext υ (n + 1) ⟨u, v, a, M, []⟩
      let E' ← D.strain ρ τ S'.u
      return (D, M, S, E, S', E')) fun (D, M, S, E, S', E') => ∃ (N : Nat) (mass : Nat → α) (vol : Nat → Nat → α), NumDofs nn d N ∧ Is1 M.A N mass ∧ Is2 D.quad.vol ne 4 vol ∧
        ∃ (V₁ : Nat → α) (E₁ : Nat → Nat → Nat → Nat → α) (V₂ : Nat → α) (E₂ : Nat → Nat → Nat → Nat → α), Is2 S.v nn 2 (fun m i => V₁ (d m i)) ∧ Is4 E ne 4 3 3 E₁ ∧
          Is2 S'.v nn 2 (fun m i => V₂ (d m i)) ∧ Is4 E' ne 4 3 3 E₂ ∧
          1 / 2 * ∑ k ∈ range N, mass k * V₂ k ^ 2 + (1 - θ) * (1 / 2 * elasticWorkAxi ne vol C E₂) ≤ 1 / 2 * ∑ k ∈ range N, mass k * V₁ k ^ 2 + 1 / 2 * elasticWorkAxi ne vol C E₁ := by
  obtain ⟨δ, p1, p2, p3⟩ := small_step (ne * 4) (fun k => κ * elemGradientAxi (dynG s x c) (dynT s x c) (dynVolA pi s x c) (k / 4))
    (fun k => 4 * θ * (R (k / 4) (k % 4) * nodalVolA pi x c (k / 4) (k % 4))) (fun k hk => by
      have he : k / 4 < ne := by omega
      generalize k / 4 = e at he
      exact mul_nonneg hκ (sum_nonneg fun q hq => mul_nonneg (sum_nonneg fun _ _ => by positivity) (dynVolA_nonneg hM hpi s1 s2 he q))) (fun k hk => by
      have he : k / 4 < ne := by omega
      have hm : k % 4 < 4 := by omega
      generalize k / 4 = e at he ⊢
      generalize k % 4 = m at hm ⊢
      have r := off _ (hM.valid e m he hm)
      exact mul_pos (by linarith) (mul_pos (hR e m he hm) (mul_pos (hM.corners e m he hm) (mul_pos (by linarith) r))))
  refine ⟨δ, p1, fun dt d0 d1 => ?_⟩
  intro d σ υ conn dofs coor rho hc hx hd hr material C hm major left nonneg stiff u v a fext U V A hu hv ha hf n ρ τ
  obtain ⟨t, t1, N, mass, vol, -, hvol, b1, b2, b3, V₁, E₁, V₂, E₂, c1, c2, c3, c4, -, c5⟩ := crit_axi hM s1 s2 hpi σ υ hc hx hd hr hR off dt hm major left nonneg hu hv ha hf n ρ τ hθ
  refine ⟨t, t1, N, mass, vol, b1, b2, b3, V₁, E₁, V₂, E₂, c1, c2, c3, c4, c5 κ hκ stiff fun e m he hm => ?_⟩
  have k := p3 (e * 4 + m) (by nlinarith)
  rw [show (e * 4 + m) / 4 = e by omega, show (e * 4 + m) % 4 = m by omega] at k
  have eg : elemGradientAxi (dynG s x c) (dynT s x c) vol e = elemGradientAxi (dynG s x c) (dynT s x c) (dynVolA pi s x c) e :=
    sum_congr rfl fun q hq => by rw [hvol e q he (mem_range.1 hq)]
  rw [eg]
  have nn : 0 ≤ κ * elemGradientAxi (dynG s x c) (dynT s x c) (dynVolA pi s x c) e :=
    mul_nonneg hκ (sum_nonneg fun q hq => mul_nonneg (sum_nonneg fun _ _ => by positivity) (dynVolA_nonneg hM hpi s1 s2 he q))
  refine le_trans (mul_le_mul_of_nonneg_right ?_ nn) k
  rw [sq]
  calc dt * dt ≤ 1 * δ := mul_le_mul (d1.trans p2) d1 d0 zero_le_one
    _ = δ := one_mul δ

end GF
