import Verif.Props.Statics
import Verif.Props.MatrixPartitionedTyings
import Verif.Props.VectorPartitionedTyings
import Verif.Props.TyingsPeriodic
import Verif.Lemmas.Cell

/-! Virtual work of assembled forces and stiffness; regularity of condensed systems. -/

namespace GF
open Finset ElemSpec Element Element.Quad4

section
variable {α : Type} {c d : Nat → Nat → Nat}

/-- the work of assembled nodal forces is the sum of the work in the elements -/
theorem dual_sum [CommSemiring α] {V : Vector} (hV : V.Holds c d) (F : Nat → Nat → Nat → α) (v : Nat → α) :
    ∑ r ∈ range V.ndof, (∑ e ∈ range V.nelem, ∑ m ∈ range V.nne, ∑ i ∈ range V.ndim, if d (c e m) i = r then F e m i else 0) * v r =
      ∑ e ∈ range V.nelem, ∑ m ∈ range V.nne, ∑ i ∈ range V.ndim, F e m i * v (d (c e m) i) := by
  simp only [Finset.sum_mul]
  rw [sum_comm]
  refine sum_congr rfl fun e he => ?_
  rw [sum_comm]
  refine sum_congr rfl fun m hm => ?_
  rw [sum_comm]
  refine sum_congr rfl fun i hi => ?_
  rw [mem_range] at he hm hi
  exact sum_fibre _ _ _ (hV.dofs_lt _ _ (hV.conn_lt e m he hm) hi) _

end

section
variable {α : Type} [Field α] {c d : Nat → Nat → Nat}
variable {nip : Nat} {Ξ : Nat → Nat → α} {W : Nat → α} {Q : Quadrature α} {X : Nat → Nat → Nat → α}

/-- the work of the assembled stiffness is the work of the stress `C : grad f` -/
theorem bilinear {V : Vector} (hV : V.Holds c d) (e1 : V.nne = 4) (e2 : V.ndim = 2) {C k} {vol : Nat → Nat → α} {G : Nat → Nat → Nat → Nat → α}
    (hk : ∀ e m j n l, e < V.nelem → m < 4 → n < 4 → j < 2 → l < 2 → k e (m * 2 + j) (n * 2 + l) = Kf 2 nip G C vol e m j n l) (f v : Nat → α) :
    ∑ r ∈ range V.ndof, (∑ s ∈ range V.ndof, SMatrix.assembled V c d k r s * f s) * v r =
      ∑ e ∈ range V.nelem, ∑ q ∈ range nip, power 2 (ddot 2 (C e q) (grad 4 G (fun e m i => f (d (c e m) i)) e q))
        (grad 4 G (fun e m i => v (d (c e m) i)) e q) * vol e q := by
  rw [sum_congr rfl fun r _ => by rw [assembled_mul hV k f r], dual_sum hV]
  refine sum_congr rfl fun e he => ?_
  rw [mem_range] at he
  rw [e1, e2]
  have := virtual_work (nne := 4) (nd := 2) (nip := nip) (G := G)
    (S := fun e q => ddot 2 (C e q) (grad 4 G (fun e m i => f (d (c e m) i)) e q)) (V := vol) (U := fun e m i => v (d (c e m) i)) e
  simp only [power]
  rw [← this]
  refine sum_congr rfl fun m hm => sum_congr rfl fun j hj => ?_
  rw [mem_range] at hm hj
  congr 1
  rw [sum_congr rfl fun n hn => sum_congr rfl fun l hl => by rw [hk e m j n l he hm (mem_range.1 hn) hj (mem_range.1 hl)]]
  exact (stiff_linear (nne := 4) (nd := 2) (nip := nip) (G := G) (C := C) (V := vol) (U := fun e m i => f (d (c e m) i)) e m j).symm

end

/-- the work of a symmetric tangent is symmetric -/
theorem power_symm {α : Type} [Field α] {n : Nat} {C : Nat → Nat → Nat → Nat → α}
    (minor : ∀ i j k l, i < n → j < n → k < n → l < n → C i j k l = C i j l k) (major : Major n C) (g h : Nat → Nat → α) :
    power n (ddot n C g) h = power n (ddot n C h) g := by
  have e : ∀ g h : Nat → Nat → α, power n (ddot n C g) h =
      ∑ i ∈ range n, ∑ j ∈ range n, ∑ k ∈ range n, ∑ l ∈ range n, C i j k l * g k l * h i j := by
    intro g h
    simp only [power, ddot, sum_mul]
    refine sum_congr rfl fun i hi => sum_congr rfl fun j hj => ?_
    rw [sum_comm]
    refine sum_congr rfl fun k hk => sum_congr rfl fun l hl => ?_
    rw [mem_range] at hi hj hk hl
    rw [minor i j l k hi hj hl hk]
  rw [e, e, sum_congr rfl fun i _ => sum_comm, sum_comm]
  refine sum_congr rfl fun k hk => ?_
  rw [sum_congr rfl fun i _ => sum_congr rfl fun j _ => rfl, sum_congr rfl fun i _ => sum_comm, sum_comm]
  refine sum_congr rfl fun l hl => sum_congr rfl fun i hi => sum_congr rfl fun j hj => ?_
  rw [mem_range] at hi hj hk hl
  rw [major i j k l hi hj hk hl]
  ring

/-- a matrix is symmetric if its bilinear form is -/
theorem form_symm {α : Type} [Field α] {n : Nat} {D : Nat → Nat → α} (h : ∀ f v : Nat → α,
      ∑ r ∈ range n, (∑ l ∈ range n, D r l * f l) * v r = ∑ r ∈ range n, (∑ l ∈ range n, D r l * v l) * f r) (k l : Nat) (hk : k < n) (hl : l < n) :
    D k l = D l k := by
  have := h (fun i => if i = l then 1 else 0) (fun i => if i = k then 1 else 0)
  simpa [hk, hl] using this

/-- the bilinear form of the condensed matrix is that of the full matrix on the tied fields -/
theorem MatrixPartitionedTyings.condensed_form {α : Type} [Field α] {c d : Nat → Nat → Nat} {D : Nat → Nat → α} {M : MatrixPartitionedTyings α}
    (hM : M.Holds c d D) {A : Mat α} (hA : condense M.A.uu M.A.ud M.Cdu M.Cud M.A.du M.A.dd = .ok A) :
    A.nr = M.nnu ∧ A.nc = M.nnu ∧ ∃ ext : (Nat → α) → Nat → α,
      (∀ z k, k < M.nnu → ext z k = z k) ∧ (∀ z, ∀ k ∈ M.iip, ext z k = 0) ∧
      (∀ z r, r < M.nnd → ext z (M.nni + r) = ∑ k ∈ range M.nnu, M.Cdu.e r k * ext z k) ∧
      ∀ z w : Nat → α, ∑ a ∈ range M.nnu, (∑ k ∈ range M.nnu, A.e a k * z k) * w a =
        ∑ k ∈ range M.V.ndof, (∑ l ∈ range M.V.ndof, D k l * ext z l) * ext w k := by
  obtain ⟨Auu, Aup, s', M', u1, p1, f1, f2, f3, a1, a2, a3, a4, hM', alg⟩ := factorize_ok hM (s := SolverState.init) (Or.inr (Or.inl rfl))
  obtain rfl : Auu = A := by rw [u1] at hA; injection hA
  have hni := hM.nni
  have hnd := hM.ndof
  refine ⟨a1, a2, fun z k => if k < M.nnu then z k else if k < M.nni then 0 else
      ∑ l ∈ range M.nnu, M.Cdu.e (k - M.nni) l * z l, fun z k hk => if_pos hk, fun z k hk => ?_, fun z r hr => ?_, fun z w => ?_⟩
  · rw [hM.iip, List.mem_map] at hk
    obtain ⟨a, ha, rfl⟩ := hk
    have := List.mem_range.1 ha
    dsimp only
    rw [if_neg (by omega), if_pos (by omega)]
  · dsimp only
    rw [if_neg (by omega), if_neg (by omega), Nat.add_sub_cancel_left]
    exact sum_congr rfl fun l hl => by rw [if_pos (mem_range.1 hl)]
  · have split : ∀ (F z : Nat → α), ∑ k ∈ range M.V.ndof, F k * (if k < M.nnu then z k else if k < M.nni then 0 else
        ∑ l ∈ range M.nnu, M.Cdu.e (k - M.nni) l * z l) = ∑ k ∈ range M.nnu, F k * z k +
        ∑ r ∈ range M.nnd, F (M.nni + r) * ∑ l ∈ range M.nnu, M.Cdu.e r l * z l := by
      intro F z
      rw [hnd, hni, sum_range_add, sum_range_add]
      congr 1
      · rw [sum_eq_zero (s := range M.nnp) fun k hk => ?_, add_zero]
        · exact sum_congr rfl fun k hk => by rw [if_pos (mem_range.1 hk)]
        · rw [mem_range] at hk
          rw [if_neg (by omega), if_pos (by omega), mul_zero]
      · refine sum_congr rfl fun r hr => ?_
        rw [if_neg (by omega), if_neg (by omega), ← hni, Nat.add_sub_cancel_left]
    rw [split (fun k => ∑ l ∈ range M.V.ndof, D k l * _) w]
    have row : ∀ a, a < M.nnu → ∑ k ∈ range M.nnu, Auu.e a k * z k =
        ∑ l ∈ range M.V.ndof, D a l * (if l < M.nnu then z l else if l < M.nni then 0 else ∑ m ∈ range M.nnu, M.Cdu.e (l - M.nni) m * z m) +
        ∑ r ∈ range M.nnd, M.Cdu.e r a * ∑ l ∈ range M.V.ndof, D (M.nni + r) l *
          (if l < M.nnu then z l else if l < M.nni then 0 else ∑ m ∈ range M.nnu, M.Cdu.e (l - M.nni) m * z m) := by
      intro a ha
      have h1 := alg z (fun _ => 0) a ha
      simp only [mul_zero, sum_const_zero, add_zero] at h1
      rw [h1]
      simp only [split]
    rw [sum_congr rfl fun a ha => by rw [row a (mem_range.1 ha), add_mul], sum_add_distrib]
    congr 1
    simp only [sum_mul, mul_sum]
    rw [sum_comm]
    refine sum_congr rfl fun r _ => sum_congr rfl fun a _ => sum_congr rfl fun l _ => ?_
    ring

/-- a system that is positive on the tied fields can be condensed: a suitable solver is exact on the result -/
theorem MatrixPartitionedTyings.condensed_pos {α : Type} [Field α] [LinearOrder α] [IsStrictOrderedRing α] {c d : Nat → Nat → Nat}
    {D : Nat → Nat → α} {M : MatrixPartitionedTyings α} (hM : M.Holds c d D) {sym : Prop}
    (hsym : sym → ∀ k l, k < M.V.ndof → l < M.V.ndof → D k l = D l k)
    (h0 : ∀ v : Nat → α, 0 ≤ ∑ k ∈ range M.V.ndof, (∑ l ∈ range M.V.ndof, D k l * v l) * v k)
    (hpos : ∀ v : Nat → α, (∀ k ∈ M.iip, v k = 0) → (∀ r, r < M.nnd → v (M.nni + r) = ∑ k ∈ range M.nnu, M.Cdu.e r k * v k) →
      ∑ k ∈ range M.V.ndof, (∑ l ∈ range M.V.ndof, D k l * v l) * v k = 0 → ∀ k, k < M.nnu → v k = 0) :
    ∀ A, condense M.A.uu M.A.ud M.Cdu M.Cud M.A.du M.A.dd = .ok A → A.PosDef sym := by
  intro A hA
  obtain ⟨a1, a2, ext, e1, e2, e3, e4⟩ := condensed_form hM hA
  refine .mk (a1.trans a2.symm) (fun hs i j hi hj => ?_) (fun z => ?_) fun z hz k hk => ?_
  · rw [a1] at hi hj
    have unit : ∀ i j, i < M.nnu → j < M.nnu → A.e i j = ∑ k ∈ range M.V.ndof,
        (∑ l ∈ range M.V.ndof, D k l * ext (fun k => if k = j then 1 else 0) l) * ext (fun k => if k = i then 1 else 0) k := by
      intro i j hi hj
      rw [← e4]
      simp [hi, hj]
    rw [unit i j hi hj, unit j i hj hi]
    simp only [sum_mul]
    rw [sum_comm]
    refine sum_congr rfl fun l hl => sum_congr rfl fun k hk => ?_
    rw [hsym hs k l (mem_range.1 hk) (mem_range.1 hl)]
    ring
  · rw [a1, a2, e4]
    exact h0 _
  · rw [a1] at hk
    rw [a1, a2, e4] at hz
    rw [← e1 z k hk]
    exact hpos _ (e2 z) (e3 z) hz k hk

theorem MatrixPartitionedTyings.condensed_exact {α : Type} [Field α] [LinearOrder α] [IsStrictOrderedRing α] {c d : Nat → Nat → Nat}
    {D : Nat → Nat → α} {M : MatrixPartitionedTyings α} (hM : M.Holds c d D) {sym : Prop}
    (hsym : sym → ∀ k l, k < M.V.ndof → l < M.V.ndof → D k l = D l k)
    (h0 : ∀ v : Nat → α, 0 ≤ ∑ k ∈ range M.V.ndof, (∑ l ∈ range M.V.ndof, D k l * v l) * v k)
    (hpos : ∀ v : Nat → α, (∀ k ∈ M.iip, v k = 0) → (∀ r, r < M.nnd → v (M.nni + r) = ∑ k ∈ range M.nnu, M.Cdu.e r k * v k) →
      ∑ k ∈ range M.V.ndof, (∑ l ∈ range M.V.ndof, D k l * v l) * v k = 0 → ∀ k, k < M.nnu → v k = 0) {S : LinSolver α} (hS : S.Suits sym) :
    ∀ A, condense M.A.uu M.A.ud M.Cdu M.Cud M.A.du M.A.dd = .ok A → S.ExactOn A :=
  fun A hA => hS.exact (condensed_pos hM hsym h0 hpos A hA)

variable {α : Type} [Field α] [LinearOrder α] [IsStrictOrderedRing α]
variable {nn ne : Nat} {c d : Nat → Nat → Nat} {x : Nat → Nat → α} {Lx Ly : α} {O : Outline}

/-- zero work of an elastic material means a rigid motion -/
theorem zero_work (hM : RectMesh nn ne c x Lx Ly O) (lx : 0 < Lx) (ly : 0 < Ly) {s : α} (s0 : s ≠ 0)
    {C : Nat → Nat → Nat → Nat → Nat → Nat → α} {vol : Nat → Nat → α}
    (hp : ∀ e q, e < ne → q < 4 → 0 < det4 (fun m i => x (c e m) i) (s * corner4 q 0) (s * corner4 q 1))
    (hv : ∀ e q, e < ne → q < 4 → 0 < vol e q)
    (hE : ∀ e q, e < ne → q < 4 → Elastic (C e q)) (U : Nat → Nat → α)
    (h0 : ∑ e ∈ range ne, ∑ q ∈ range 4, power 2 (ddot 2 (C e q) (grad 4 (Gf (D4 fun q i => s * corner4 q i)
      fun e m i => x (c e m) i) (fun e m i => U (c e m) i) e q)) (grad 4 (Gf (D4 fun q i => s * corner4 q i)
      fun e m i => x (c e m) i) (fun e m i => U (c e m) i) e q) * vol e q = 0) :
    ∃ θ b₀ b₁, ∀ m, m < nn → U m 0 = b₀ - θ * x m 1 ∧ U m 1 = b₁ + θ * x m 0 := by
  have nn0 : ∀ e ∈ range ne, ∀ q ∈ range 4, 0 ≤ power 2 (ddot 2 (C e q) (grad 4 (Gf (D4 fun q i => s * corner4 q i)
      fun e m i => x (c e m) i) (fun e m i => U (c e m) i) e q)) (grad 4 (Gf (D4 fun q i => s * corner4 q i)
      fun e m i => x (c e m) i) (fun e m i => U (c e m) i) e q) * vol e q := fun e he q hq => by
    rw [mem_range] at he hq
    exact mul_nonneg ((hE e q he hq).nonneg _) (hv e q he hq).le
  rw [sum_eq_zero_iff_of_nonneg fun e he => sum_nonneg (nn0 e he)] at h0
  refine mesh_rigid hM lx ly (U := U) fun e he => ?_
  have h1 := h0 e (mem_range.2 he)
  rw [sum_eq_zero_iff_of_nonneg (nn0 e (mem_range.2 he))] at h1
  refine elem_rigid (X := fun m i => x (c e m) i) (U := fun m i => U (c e m) i) s0
    (g := fun q => grad 4 (Gf (D4 fun q i => s * corner4 q i) fun e m i => x (c e m) i) (fun e m i => U (c e m) i) e q) (fun q hq => (hp e q he hq).ne')
    (fun q k j hq hk hj => ?_) fun q hq => ?_
  · exact grad_chain (Ξ := fun q i => s * corner4 q i) (X := fun e m i => x (c e m) i) (U := fun e m i => U (c e m) i)
      (e := e) (q := q) (hp e q he hq).ne' hk j
  · have := (mul_eq_zero.1 (h1 q (mem_range.2 hq))).resolve_right (hv e q he hq).ne'
    exact (hE e q he hq).pos _ this

/-- a rigid motion that is periodic and keeps one node in place is zero -/
theorem periodic_rigid (hM : RectMesh nn ne c x Lx Ly O) (lx : 0 < Lx) {n : Nat} {P : Nat → Nat → Nat} (hP : PeriodicPairs nn Lx Ly x n P)
    {U : Nat → Nat → α} (hU : ∀ k j, k < n → j < 2 → U (P k 1) j = U (P k 0) j) {θ b₀ b₁ : α}
    (hR : ∀ m, m < nn → U m 0 = b₀ - θ * x m 1 ∧ U m 1 = b₁ + θ * x m 0) {o : Nat} (ho : o < nn) (h0 : ∀ i, i < 2 → U o i = 0) :
    ∀ m i, m < nn → i < 2 → U m i = 0 := by
  have tz : θ = 0 := by
    -- the lower right corner is dependent
    obtain ⟨z1, z2, z3, z4⟩ := hM.sizes
    have hr := hM.right 0 (by omega)
    obtain ⟨k, hk, hk'⟩ := (hP.dependent _ hr.1).2 (Or.inl hr.2.1)
    have v0 := hP.valid k 0 hk (by omega)
    have v1 := hP.valid k 1 hk (by omega)
    have hne : x (P k 1) 0 ≠ x (P k 0) 0 ∨ x (P k 1) 1 ≠ x (P k 0) 1 := by
      by_contra hc
      push Not at hc
      have := hM.distinct _ _ v1 v0 hc.1 hc.2
      exact hP.independent k k hk hk this.symm
    have a := hU k 0 hk (by omega)
    have b := hU k 1 hk (by omega)
    rw [(hR _ v0).1, (hR _ v1).1] at a
    rw [(hR _ v0).2, (hR _ v1).2] at b
    rcases hne with h | h
    · have : θ * (x (P k 1) 0 - x (P k 0) 0) = 0 := by linear_combination b
      exact (mul_eq_zero.1 this).resolve_right (sub_ne_zero.2 h)
    · have : θ * (x (P k 1) 1 - x (P k 0) 1) = 0 := by linear_combination -a
      exact (mul_eq_zero.1 this).resolve_right (sub_ne_zero.2 h)
  subst tz
  have c0 := h0 0 (by omega)
  have c1 := h0 1 (by omega)
  rw [(hR o ho).1] at c0
  rw [(hR o ho).2] at c1
  intro m i hm hi
  rcases Nat.lt_or_ge i 1 with h | h
  · obtain rfl : i = 0 := by omega
    rw [(hR m hm).1]; linear_combination c0
  · obtain rfl : i = 1 := by omega
    rw [(hR m hm).2]; linear_combination c1

end GF
