import Verif.Spec.Ldlt
import Verif.Props.Linear3
import Verif.Props.PeriodicCell
import Verif.Props.StaticMeshes

/-! **C98** The matrices that are handed to the solver are symmetric and positive definite, so that the default solver suffices. -/

namespace GF
open Finset ElemSpec Element Element.Quad4

section
variable {α : Type} [Field α]

theorem ldltRun_congr (n : Nat) : ∀ {a a' : Nat → Nat → α} {b b' : Nat → α}, (∀ i j, i < n → j ≤ i → a i j = a' i j) →
    (∀ i, i < n → b i = b' i) → ∀ k, k < n → ldltRun n a b k = ldltRun n a' b' k := by
  induction n with
  | zero => intro a a' b b' _ _ k hk; omega
  | succ n ih =>
    intro a a' b b' h hb k hk
    have hn := fun j (hj : j ≤ n) => h n j (by omega) hj
    have e := ih (a := fun i j => a i j - a n i * a n j / a n n) (a' := fun i j => a' i j - a' n i * a' n j / a' n n)
      (b := fun i => b i - a n i * b n / a n n) (b' := fun i => b' i - a' n i * b' n / a' n n)
      (fun i j hi hj => by rw [h i j (by omega) hj, hn i (by omega), hn j (by omega), hn n (by omega)])
      (fun i hi => by rw [hb i (by omega), hb n (by omega), hn i (by omega), hn n (by omega)])
    simp only [ldltRun]
    split
    · have e2 : ∑ j ∈ range n, a n j * ldltRun n (fun i j => a i j - a n i * a n j / a n n) (fun i => b i - a n i * b n / a n n) j =
          ∑ j ∈ range n, a' n j * ldltRun n (fun i j => a' i j - a' n i * a' n j / a' n n) (fun i => b' i - a' n i * b' n / a' n n) j :=
        sum_congr rfl fun j hj => by
          rw [mem_range] at hj
          rw [e j hj, hn j (by omega)]
      rw [e2, hb n (by omega), hn n (by omega)]
    · exact e k (by omega)

/-- `ldlt` reads the lower triangle of the matrix only -/
theorem ldlt_lower {A A' : Mat α} (hn : A.nr = A'.nr) (h : ∀ i j, i < A.nr → j ≤ i → A.e i j = A'.e i j) (b : Nat → α) :
    ∀ k, k < A.nr → ldlt.run A b k = ldlt.run A' b k := fun k hk => by
  change ldltRun A.nr _ _ _ = ldltRun A'.nr _ _ _
  rw [← hn]
  exact ldltRun_congr A.nr h (fun _ _ => rfl) k hk

variable [LinearOrder α] [IsStrictOrderedRing α]

theorem ldltRun_exact (n : Nat) : ∀ (a : Nat → Nat → α) (b : Nat → α), (∀ i j, i < n → j < n → a i j = a j i) →
    (∀ z : Nat → α, (∃ k, k < n ∧ z k ≠ 0) → 0 < ∑ i ∈ range n, ∑ j ∈ range n, z i * a i j * z j) →
    ∀ r, r < n → ∑ k ∈ range n, a r k * ldltRun n a b k = b r := by
  induction n with
  | zero => intro a b _ _ r hr; omega
  | succ n ih =>
    intro a b hs hp r hr
    have hd : 0 < a n n := by
      have := hp (fun k => if k = n then 1 else 0) ⟨n, by omega, by simp⟩
      simpa using this
    have hn : ∀ j, j ≤ n → a j n = a n j := fun j hj => hs j n (by omega) (by omega)
    have e := ih (fun i j => a i j - a n i * a n j / a n n) (fun i => b i - a n i * b n / a n n)
      (fun i j hi hj => by rw [hs i j (by omega) (by omega)]; ring) (fun z ⟨k, hk, hz⟩ => by
        -- the last component that minimizes the quadratic form
        obtain ⟨p, hp'⟩ : ∃ p, p = ∑ j ∈ range n, a n j * z j := ⟨_, rfl⟩
        obtain ⟨w, w0, w1⟩ : ∃ w : Nat → α, (∀ i, i < n → w i = z i) ∧ w n = -p / a n n :=
          ⟨fun i => if i = n then -p / a n n else z i, fun i hi => if_neg (by omega), if_pos rfl⟩
        have := hp w ⟨k, by omega, by rw [w0 k hk]; exact hz⟩
        refine this.trans_eq ?_
        have h1 : ∀ i ∈ range n, ∑ j ∈ range (n + 1), w i * a i j * w j = ∑ j ∈ range n, z i * a i j * z j + a n i * z i * w n := by
          intro i hi
          rw [mem_range] at hi
          rw [sum_range_succ, hn i (by omega), w0 i hi]
          exact congrArg₂ _ (sum_congr rfl fun j hj => by rw [w0 j (mem_range.1 hj)]) (by ring)
        rw [sum_range_succ, sum_congr rfl h1, sum_add_distrib, ← sum_mul, ← hp', sum_range_succ]
        rw [show ∑ j ∈ range n, w n * a n j * w j = w n * p by
          rw [hp', mul_sum]; exact sum_congr rfl fun j hj => by rw [w0 j (mem_range.1 hj)]; ring]
        rw [w1]
        have h2 : ∑ i ∈ range n, ∑ j ∈ range n, z i * (a i j - a n i * a n j / a n n) * z j =
            ∑ i ∈ range n, ∑ j ∈ range n, z i * a i j * z j - p * p / a n n := by
          rw [hp', sum_mul_sum, sum_div, ← sum_sub_distrib]
          refine sum_congr rfl fun i _ => ?_
          rw [sum_div, ← sum_sub_distrib]
          exact sum_congr rfl fun j _ => by ring
        rw [h2]
        have hd' := hd.ne'
        field_simp
        ring)
    simp only [ldltRun]
    obtain ⟨z, hz⟩ : ∃ z, z = ldltRun n (fun i j => a i j - a n i * a n j / a n n) (fun i => b i - a n i * b n / a n n) := ⟨_, rfl⟩
    rw [← hz] at e ⊢
    obtain ⟨p, hp'⟩ : ∃ p, p = ∑ j ∈ range n, a n j * z j := ⟨_, rfl⟩
    rw [sum_range_succ, if_pos rfl, ← hp']
    rw [sum_congr rfl fun j hj => show a r j * (if j = n then (b n - p) / a n n else z j) = a r j * z j by
      rw [if_neg (by have := mem_range.1 hj; omega)]]
    by_cases h : r = n
    · subst h
      rw [← hp']
      have hd' := hd.ne'
      field_simp
      ring
    · have := e r (by omega)
      rw [sum_congr rfl fun j _ => sub_mul _ _ _, sum_sub_distrib] at this
      rw [show ∑ j ∈ range n, a n r * a n j / a n n * z j = a n r / a n n * p by
        rw [hp', mul_sum]; exact sum_congr rfl fun j _ => by ring] at this
      rw [hn r (by omega)]
      have hd' := hd.ne'
      have e2 : ∑ j ∈ range n, a r j * z j = b r - a n r * b n / a n n + a n r / a n n * p := by rw [← this]; ring
      rw [e2]
      ring

/-- **C98** (the default solver) The default solver solves every linear system exactly whose matrix is symmetric and positive definite. -/
theorem C98_ldlt : (ldlt : LinSolver α).Ldlt := fun A hA b r hr => by
  rw [← hA.square]
  exact ldltRun_exact A.nr A.e b hA.symm hA.pos r hr

/-- It does not solve every regular system (here: two equations `x₁ = b₀`, `x₀ = b₁`), and not every system with a positive definite
matrix that is not symmetric (here: `x₀ + x₁ = b₀`, `x₁ = b₁`): the hypotheses are needed. -/
theorem C98_ldlt_not_direct : ¬ (ldlt : LinSolver α).Direct ∧
    ∃ A : Mat α, A.nr = A.nc ∧ (∀ z : Nat → α, (∃ k, k < A.nr ∧ z k ≠ 0) → 0 < ∑ i ∈ range A.nr, ∑ j ∈ range A.nr, z i * A.e i j * z j) ∧
      ¬ ldlt.ExactOn A := by
  constructor
  · intro h
    have := h ⟨2, 2, fun i j => if i = j then 0 else 1⟩ rfl (fun z hz k hk => by
      have a0 := hz 0 (by norm_num)
      have a1 := hz 1 (by norm_num)
      simp [sum_range_succ] at a0 a1
      have : k = 0 ∨ k = 1 := by change k < 2 at hk; omega
      rcases this with rfl | rfl <;> assumption) (fun _ => 1) 0 (by norm_num)
    simp [sum_range_succ, ldlt, ldltRun] at this
  · refine ⟨⟨2, 2, fun i j => if i ≤ j then 1 else 0⟩, rfl, fun z ⟨k, hk, hz⟩ => ?_, fun h => ?_⟩
    · simp [sum_range_succ]
      have e : z 0 * z 0 + z 0 * z 1 + z 1 * z 1 = ((z 0 + z 1) ^ 2 + z 0 ^ 2 + z 1 ^ 2) / 2 := by ring
      have : k = 0 ∨ k = 1 := by change k < 2 at hk; omega
      rw [e]
      rcases this with rfl | rfl <;> positivity
    · have := h (fun _ => 1) 0 (by norm_num)
      simp [sum_range_succ, ldlt, ldltRun] at this

end

section
variable {α : Type} [Field α] [LinearOrder α] [IsStrictOrderedRing α]
variable {nn ne : Nat} {c d : Nat → Nat → Nat} {x : Nat → Nat → α} {Lx Ly : α} {O : Outline}

/-- **C98** (partitioned matrix) The block of the unknown DOFs, which is factorized by the solver, is symmetric and positive definite for
every mesh of a rectangle and every elastic material with a symmetric tangent, if and only if the prescribed DOFs exclude rigid motions. -/
theorem C98_partitioned (hM : RectMesh nn ne c x Lx Ly O) (lx : 0 < Lx) (ly : 0 < Ly) {s : α} (s0 : s ≠ 0) (s1 : -1 ≤ s) (s2 : s ≤ 1)
    (σ τ ρ : Sched) {conn dofs : Ten Nat} {coor : Ten α} (hc : Is2 conn ne 4 c) (hx : Is2 coor nn 2 x) (hd : Is2 dofs nn 2 d)
    {n : Nat} (hn : NumDofs nn d n) (hgap : ∀ k, k < n → ∃ m i, m < nn ∧ i < 2 ∧ d m i = k) {Ct : Ten α} {C}
    (hC : Is6 Ct ne 4 2 2 2 2 C) (hE : ∀ e q, e < ne → q < 4 → Elastic (C e q)) (hS : ∀ e q, e < ne → q < 4 → Major 2 (C e q))
    {iip : List Nat} (hi : iip.Nodup) (hin : ∀ k ∈ iip, k < n) :
    IsOk (do
      let (_, Q) ← setup s σ τ conn dofs coor
      stiffnessBlock ρ conn dofs iip Q Ct) fun A => A.nr = n - iip.length ∧ (A.Spd ↔ Supported nn d x iip) := by
  obtain ⟨V, Q, h1, hV, e1, e2, e3, e4, e5, hQ, hp⟩ := hM.setup s1 s2 σ τ hc hx hd
  have en := hn.ndof hV e3 e4 e5
  obtain ⟨M, q, m1, m2, m3, m4, hMP⟩ := C18_constructor (α := α) (iip := iip) hc hd hM.valid hi (fun k hk => by
      obtain ⟨-, m, i, hm, hi', h⟩ := hn
      exact ⟨m, i, hm, hi', by have := hin k hk; omega⟩) (fun m i hm hi' k hk => by
      obtain ⟨a, b', ha, hb', h⟩ := hgap k (by have := hn.1 m i hm hi'; omega)
      exact ⟨a, b', ha, hb', h⟩) ⟨hM.nodes, by omega⟩
  obtain rfl : V = M.P.V := setup_vector h1 m3
  obtain ⟨kt, k, q1, q2, q3, q4, q5⟩ := stiff_regular hM lx ly s0 hV e1 e2 e3 e4 hQ hp ρ hC hE
  obtain ⟨A, a1, a2⟩ := MatrixPartitioned.assemble_spec hMP q2
  have hM' : MatrixPartitioned.Holds { M with A := A, changed := true } c d q (SMatrix.assembled M.P.V c d k) :=
    ⟨hMP.base, hMP.surj, hMP.part1d_shape, hMP.part1d, a2⟩
  refine ⟨A.uu, by simp only [h1, stiffnessBlock, m1, q1, a1, Res.ok_bind]; rfl, ?_, fun h => ?_, fun h => ?_⟩
  · have := (C12_bijection hMP.base hMP.surj).2.1
    have u1 : A.uu.nr = M.P.nnu := a2.uu_dim.1.trans hMP.base.nnu.symm
    have u2 := hMP.base.nnp
    rw [m4] at u2
    omega
  · intro f θ b₀ b₁ hf f0
    obtain ⟨K, k1, k2, hK⟩ := C15_constructor (α := α) hc hd hM.valid
    have eV : K.V = M.P.V := by rw [k2] at m3; injection m3
    obtain ⟨u, hu⟩ : ∃ u, Is1 u M.P.V.ndof f := ⟨Ten.of [M.P.V.ndof] fun ix => f (ix.getD 0 0), rfl, fun i _ => by simp [Ten.of]⟩
    obtain ⟨t, t1, t2⟩ := q3 K eV ⟨_, hK⟩ u f hu
    rw [← eV] at e1 e2 e3 e4 hu t2
    subst e1
    obtain ⟨t', z1, z2⟩ := C75_rigid hK e2 e4 hQ ρ (fun e q he hq => (hp e q he hq).ne') hC hu θ b₀ b₁ (by rw [e3]; exact hf)
      (Or.inr fun e q i j k l he hq hi hj hk hl => (hE e q he hq).minor i j k l hi hj hk hl)
    obtain rfl : t = t' := by rw [t1] at z1; injection z1
    have hz := hM'.form_uu f (by rw [m4]; exact f0)
    dsimp only at hz
    rw [sum_eq_zero fun r hr => by rw [← eV] at hr; rw [← eV, t2.unique z2 (mem_range.1 hr), zero_mul], ← h.square] at hz
    have zero : ∀ b, b < M.P.iiu.length → f (M.P.iiu.getD b 0) = 0 := by
      intro b hb
      by_contra h0
      refine (h.pos (fun b => f (M.P.iiu.getD b 0)) ⟨b, by rw [a2.uu_dim.1]; exact hb, h0⟩).ne ?_
      rw [hz]
      exact sum_congr rfl fun i _ => by rw [sum_mul]; exact sum_congr rfl fun j _ => by ring
    have all : ∀ m i, m < nn → i < 2 → f (d m i) = 0 := by
      intro m i hm hi'
      by_cases hk : d m i ∈ M.P.iip
      · rw [m4] at hk; exact f0 _ hk
      · have : d m i ∈ M.P.iiu := (hMP.base.iiu_mem _).2 ⟨⟨m, i, by rw [← eV, e3]; exact hm, by rw [← eV, e4]; exact hi', rfl⟩, hk⟩
        obtain ⟨b, hb, e⟩ := List.getElem_of_mem this
        have := zero b hb
        rwa [iip_getD hb, e] at this
    obtain ⟨c0, c1, -, -⟩ := hM.corners
    obtain ⟨z1, z2, -, -⟩ := hM.sizes
    have B0 := hM.bottom 0 z1
    have B1 := hM.bottom (O.nb - 1) (by omega)
    have r0 := hf _ B0.1
    have r1 := hf _ B1.1
    rw [all _ _ B0.1 (by omega), all _ _ B0.1 (by omega), c0] at r0
    rw [all _ _ B1.1 (by omega), all _ _ B1.1 (by omega), c1] at r1
    have hb1 : b₁ = 0 := by have := r0.2; linarith
    have ht : θ = 0 := by
      have := r1.2
      rw [hb1, zero_add] at this
      exact (mul_eq_zero.1 this.symm).resolve_right lx.ne'
    refine ⟨ht, ?_, hb1⟩
    have := r0.1
    rw [ht] at this
    linarith
  · refine (hM'.pos_uu q5.symm q5.nonneg fun f h1 h2 m i hm hi => ?_).spd hS
    exact q5.pos iip f (by rw [← m4]; exact h1) h2 h m i (by rw [← e3]; exact hm) (by rw [← e4]; exact hi)

/-- **C98** (tyings) The matrix of the periodic unit cell in terms of the unknown DOFs, which is factorized by the solver, is symmetric and
positive definite for every mesh of a rectangle, all periodic pairs and every elastic material with a symmetric tangent. -/
theorem C98_tyings (hM : RectMesh nn ne c x Lx Ly O) (lx : 0 < Lx) (ly : 0 < Ly) {s : α} (s0 : s ≠ 0) (s1 : -1 ≤ s) (s2 : s ≤ 1)
    (σ τ ρ : Sched) {conn pairs : Ten Nat} {coor : Ten α} (hc : Is2 conn ne 4 c) (hx : Is2 coor nn 2 x) {np : Nat} {P : Nat → Nat → Nat}
    (hp : Is2 pairs np 2 P) (hP : PeriodicPairs nn Lx Ly x np P) {o : Nat} (ho : o < nn) (ho0 : x o 0 ≠ Lx) (ho1 : x o 1 ≠ Ly)
    {Ct : Ten α} {C} (hC : Is6 Ct ne 4 2 2 2 2 C) (hE : ∀ e q, e < ne → q < 4 → Elastic (C e q)) (hS : ∀ e q, e < ne → q < 4 → Major 2 (C e q)) :
    IsOk (do
      let Z ← PeriodicCell.new s σ τ conn (meshDofs nn 2) coor pairs o
      let Ke ← Z.elem.Int_gradN_dot_tensor4_dot_gradNT_dV ρ Ct
      let K ← Z.K.assemble Ke
      MatrixPartitionedTyings.factorize SolverState.init K) fun r => ∃ A, r.1.fact = some A ∧ A.Spd := by
  obtain ⟨Z, q, Cm, z1, h⟩ := cell_ok hM lx ly s1 s2 σ τ hc hx hp hP ho ho0 ho1
  obtain ⟨e1, e2, e3, e4⟩ := h.dims
  obtain ⟨kt, k1, k, k2, k3⟩ := stiff_live h.live (le_refl 2) ρ hC h.vol
  obtain ⟨M, m1, m2, m3, m4, m5, m6⟩ := MatrixPartitionedTyings.C28_assemble h.K (K := kt) (k := k) (by rw [e1, e2, e4]; exact k2)
  have m1' := m1
  obtain ⟨T, n1⟩ : ∃ T, M = { Z.K with A := T, changed := true } := by
    simp only [MatrixPartitionedTyings.assemble] at m1'
    revert m1'
    cases Z.K.assembleLoop kt <;> simp only [Res.ok_bind, Res.throws_bind, Res.ub_bind, reduceCtorEq, false_imp_iff]
    rename_i T
    cases T.toMat9 Z.K.nnu Z.K.nnp Z.K.nnd <;> simp only [Res.ok_bind, Res.throws_bind, Res.ub_bind, reduceCtorEq, false_imp_iff]
    rename_i A
    intro m1'
    injection m1' with m1'
    exact ⟨A, m1'.symm⟩
  have f1 : M.nnu = Z.K.nnu := by rw [n1]
  have f3 : M.nnd = Z.K.nnd := by rw [n1]
  have f4 : M.nni = Z.K.nni := by rw [n1]
  have f5 : M.iip = Z.K.iip := by rw [n1]
  clear n1 m1'
  obtain ⟨A, Aup, s', M', u1, -, u3, u4, -⟩ := MatrixPartitionedTyings.factorize_ok m2 (s := SolverState.init) (Or.inl m3)
  refine ⟨(s', M'), by simp only [z1, k1, m1, u3, Res.ok_bind], A, u4, ?_⟩
  refine (MatrixPartitionedTyings.condensed_pos m2 (sym := ∀ e q, e < ne → q < 4 → Major 2 (C e q)) (fun hs => form_symm fun f v => by
      rw [m4, h.work_stiff k3, h.work_stiff k3]
      exact virtualWork_symm (fun e q he hq => (hE e q he hq).minor) hs _ _ _) (fun v => by
      rw [m4, h.work_stiff k3]; exact h.work_nonneg hE _) (fun v v0 v1 v2 a ha => ?_) A u1).spd hS
  rw [f5] at v0
  rw [f3, f4, f1, m5] at v1
  rw [m4, h.work_stiff k3] at v2
  obtain ⟨w0, w1, w2⟩ := (h.admissible ho).1 ⟨v0, v1⟩
  have z := h.definite hM lx ly s0 hP ho hE (W := fun m i => v (q m i)) w0 w1 w2 v2
  rw [f1] at ha
  obtain ⟨m, i, hm, hi, rfl⟩ := h.K.surj a (by have := h.K.ndof; have := h.K.nni; omega)
  rw [e3] at hm
  rw [e4] at hi
  exact z m i ((h.unknown m i hm hi).1 ha).1 hi

/-- **C98** (`Quad4::Regular`) Three DOFs suffice: both displacements of the lower left node and the vertical displacement of the lower
right node. With the lower left node only the matrix is singular: the mesh rotates about that node. -/
theorem C98_quad4_regular {nelx nely : Nat} (hx : 0 < nelx) (hy : 0 < nely) {h : α} (hh : 0 < h) {s : α} (s0 : s ≠ 0) (s1 : -1 ≤ s) (s2 : s ≤ 1)
    (σ τ ρ : Sched) {Ct : Ten α} {C} (hC : Is6 Ct (nelx * nely) 4 2 2 2 2 C) (hE : ∀ e q, e < nelx * nely → q < 4 → Elastic (C e q))
    (hS : ∀ e q, e < nelx * nely → q < 4 → Major 2 (C e q)) :
    let M := Quad4.Regular.new nelx nely h
    let block := fun iip => (do
      let conn ← Quad4.Regular.conn M
      let coor ← M.coor
      let (_, Q) ← setup s σ τ conn (meshDofs M.nnode 2) coor
      stiffnessBlock ρ conn (meshDofs M.nnode 2) iip Q Ct : Res (Mat α))
    IsOk (block [0, 1, 2 * nelx + 1]) (fun A => A.nr = 2 * ((nelx + 1) * (nely + 1)) - 3 ∧ A.Spd) ∧
    IsOk (block [0, 1]) (fun A => A.nr = 2 * ((nelx + 1) * (nely + 1)) - 2 ∧ ¬ A.Spd) := by
  intro M block
  obtain ⟨c, x, O, ct, xt, bt, rt, tt, lt, lo, ro, hM, a1, a2, b1, b2, -, -, -, -, -, -, -, -, -, -, -, -, pos, -⟩ :=
    Quad4.Regular.static nelx nely hh
  have lx : 0 < h * (nelx : α) := mul_pos hh (by exact_mod_cast hx)
  have ly : 0 < h * (nely : α) := mul_pos hh (by exact_mod_cast hy)
  have hnn : M.nnode = (nelx + 1) * (nely + 1) := rfl
  have p0 := pos 0 0 (by omega) (by omega)
  have p1 := pos 0 nelx (by omega) (by omega)
  simp only [Nat.zero_mul, Nat.zero_add, Nat.cast_zero, mul_zero] at p0 p1
  have key := fun iip hi hin => C98_partitioned hM lx ly s0 s1 s2 σ τ ρ a2 b2 (meshDofs_ok _) (plain_numDofs hM.nodes) plain_gap
    (iip := iip) hC hE hS hi hin
  have run : ∀ iip, block iip = (do
      let (_, Q) ← setup s σ τ ct (meshDofs M.nnode 2) xt
      stiffnessBlock ρ ct (meshDofs M.nnode 2) iip Q Ct) := fun iip => by simp only [block, M, a1, b1, Res.ok_bind]
  constructor
  · rw [run]
    refine (key [0, 1, 2 * nelx + 1] (by simp; omega) (fun k hk => ?_)).imp fun A ⟨h0, h1, h2⟩ => ⟨h0, h1, h2.2 ?_⟩
    · have := p1.1
      simp only [List.mem_cons, List.not_mem_nil, or_false] at hk
      omega
    · intro f θ b₀ b₁ hf h0
      obtain ⟨u0, u1⟩ := hf 0 p0.1
      obtain ⟨v0, v1⟩ := hf nelx p1.1
      dsimp only at u0 u1 v1
      rw [Nat.zero_mul, Nat.zero_add, h0 0 (by simp), p0.2.2] at u0
      rw [Nat.zero_mul, Nat.zero_add, h0 1 (by simp), p0.2.1] at u1
      rw [h0 (nelx * 2 + 1) (by simp; omega), p1.2.1] at v1
      have hb : b₁ = 0 := by linarith
      rw [hb, zero_add] at v1
      refine ⟨(mul_eq_zero.1 v1.symm).resolve_right lx.ne', by linarith, hb⟩
  · rw [run]
    refine (key [0, 1] (by simp) (fun k hk => ?_)).imp fun A ⟨h0, h1, h2⟩ => ⟨h0, h1, fun hA => ?_⟩
    · have := p1.1
      simp only [List.mem_cons, List.not_mem_nil, or_false] at hk
      omega
    · have := h2.1 hA (fun k => if k % 2 = 0 then -x (k / 2) 1 else x (k / 2) 0) 1 0 0 (fun m _ => ?_) (fun k hk => ?_)
      · exact one_ne_zero this.1
      · dsimp only
        rw [if_pos (by omega), if_neg (by omega), show (m * 2 + 0) / 2 = m by omega, show (m * 2 + 1) / 2 = m by omega]
        constructor <;> ring
      · simp only [List.mem_cons, List.not_mem_nil, or_false] at hk
        rcases hk with rfl | rfl
        · simp [p0.2.2]
        · simp [p0.2.1]

/-- all hypotheses can be met, and the programs run with the default solver: docs/examples/statics/fixed-displacement_elastic.py on a mesh of
any size, with `ldlt` and isotropic elasticity -/
example {nelx nely : Nat} (hx : 0 < nelx) (hy : 0 < nely) (σ : Nat → Nat → Sched) (a b : ℚ) :
    let M := Quad4.Regular.new nelx nely (1 : ℚ)
    IsOk (do
      let conn ← Quad4.Regular.conn M
      let coor ← M.coor
      let bottom ← Quad4.Regular.nodesBottomEdge M
      let right ← Quad4.Regular.nodesRightEdge M
      let top ← Quad4.Regular.nodesTopEdge M
      let left ← Quad4.Regular.nodesLeftEdge M
      fixedDisplacement (1 / 2) 1 ldlt σ conn (meshDofs M.nnode 2) coor bottom right top left
        (linearMaterial (nelx * nely) fun _ _ => isotropic 1 1) a b) fun r => ∃ u : Nat → Nat → ℚ,
        Is2 r.disp M.nnode 2 u ∧ Is2 r.fres M.nnode 2 (fun _ _ => 0) ∧ ∀ iy ix, iy ≤ nely → ix ≤ nelx →
          u (iy * (nelx + 1) + ix) 0 = a * ix / nelx ∧ u (iy * (nelx + 1) + ix) 1 = b * iy / nely :=
  C93_quad4_fixed hx hy one_pos (by norm_num) (by norm_num) (by norm_num) one_pos σ (by norm_num) (by norm_num) (linearMaterial_ok _ _) a b C98_ldlt

example : IsOk (do
      let conn ← Quad4.Regular.conn (Quad4.Regular.new 3 2 (1 : ℚ))
      let coor ← (Quad4.Regular.new 3 2 (1 : ℚ)).coor
      let (_, Q) ← setup (1 / 2) Sched.seq Sched.seq conn (meshDofs 12 2) coor
      stiffnessBlock Sched.seq conn (meshDofs 12 2) [0, 1, 7] Q
        (Ten.of [6, 4, 2, 2, 2, 2] fun ix => isotropic 1 1 (ix.getD 2 0) (ix.getD 3 0) (ix.getD 4 0) (ix.getD 5 0)))
    fun A => A.nr = 21 ∧ A.Spd :=
  (C98_quad4_regular (nelx := 3) (nely := 2) (by omega) (by omega) (h := (1 : ℚ)) one_pos (s := 1 / 2) (by norm_num) (by norm_num) (by norm_num)
    Sched.seq Sched.seq Sched.seq (C := fun _ _ => isotropic 1 1) ⟨rfl, fun e q i j k l _ _ _ _ _ _ => by simp [Ten.of]⟩
    (fun _ _ _ _ => isotropic_elastic (by norm_num) (by norm_num)) (fun _ _ _ _ => isotropic_major 2 1 1)).1

end

namespace Element.Hex8
variable {α : Type} [Field α] [LinearOrder α] [IsStrictOrderedRing α]
variable {nn ne : Nat} {c d : Nat → Nat → Nat} {x : Nat → Nat → α} {g : BoxGrid} {p : Nat → Nat → α}

/-- **C98** (three dimensions) The same for meshes of boxes. -/
theorem C98_partitioned3 (hM : BoxMesh nn ne c x g p) {s : α} (s0 : s ≠ 0)
    (σ τ ρ : Sched) {conn dofs : Ten Nat} {coor : Ten α} (hc : Is2 conn ne 8 c) (hx : Is2 coor nn 3 x) (hd : Is2 dofs nn 3 d)
    {n : Nat} (hn : NumDofs3 nn d n) (hgap : ∀ k, k < n → ∃ m i, m < nn ∧ i < 3 ∧ d m i = k) {Ct : Ten α} {C}
    (hC : Is6 Ct ne 8 3 3 3 3 C) (hE : ∀ e q, e < ne → q < 8 → Elastic3 (C e q)) (hS : ∀ e q, e < ne → q < 8 → Major 3 (C e q))
    {iip : List Nat} (hi : iip.Nodup) (hin : ∀ k ∈ iip, k < n) (h3 : Supported3 nn d x iip) :
    IsOk (do
      let (_, Q) ← setup3 s σ τ conn dofs coor
      stiffnessBlock ρ conn dofs iip Q Ct) fun A => A.nr = n - iip.length ∧ A.Spd := by
  obtain ⟨V, Q, h1, h2, hV, e1, e2, e3, e4, e5, hQ⟩ := hM.setup s σ τ hc hx hd
  obtain rfl := hn.unique e5
  obtain ⟨kt, k, q1, q2, q3, q4, q5⟩ := stiff_regular3 hM s0 hV e1 e2 e4 hQ ρ hC hE
  have n0 : 0 < nn := by obtain ⟨-, m, i, hm, -⟩ := hn; omega
  obtain ⟨M, q, m1, m2, m3, m4, hMP⟩ := C18_constructor (α := α) (iip := iip) hc hd hM.valid hi (fun k hk => by
      obtain ⟨m, i, hm, hi', h⟩ := hn.2
      exact ⟨m, i, hm, hi', by have := hin k hk; omega⟩) (fun m i hm hi' k hk => by
      obtain ⟨a, b', ha, hb', h⟩ := hgap k (by have := hn.1 m i hm hi'; omega)
      exact ⟨a, b', ha, hb', h⟩) ⟨n0, by omega⟩
  obtain rfl : V = M.P.V := by rw [h2] at m3; injection m3
  obtain ⟨A, a1, a2⟩ := MatrixPartitioned.assemble_spec hMP q2
  have hM' : MatrixPartitioned.Holds { M with A := A, changed := true } c d q (SMatrix.assembled M.P.V c d k) :=
    ⟨hMP.base, hMP.surj, hMP.part1d_shape, hMP.part1d, a2⟩
  refine ⟨A.uu, by simp only [h1, stiffnessBlock, m1, q1, a1, Res.ok_bind]; rfl, ?_, ?_⟩
  · have := (C12_bijection hMP.base hMP.surj).2.1
    have u1 : A.uu.nr = M.P.nnu := a2.uu_dim.1.trans hMP.base.nnu.symm
    have u2 := hMP.base.nnp
    rw [m4] at u2
    omega
  · refine (hM'.pos_uu q5.symm q5.nonneg fun f h1 h2 m i hm hi => ?_).spd hS
    exact q5.pos iip f (by rw [← m4]; exact h1) h2 h3 m i (by rw [← e3]; exact hm) (by rw [← e4]; exact hi)

end Element.Hex8
end GF
