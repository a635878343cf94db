import Verif.Lemmas.CellState3
import Verif.Props.Linear3

/-! **C100**: periodic unit cells in three dimensions (compare C79-C82). -/

namespace GF
open Finset ElemSpec Element Element.Hex8
open Element.Quad4 (ddot power grad)

variable {α : Type} [Field α] [LinearOrder α] [IsStrictOrderedRing α]
variable {nn ne : Nat} {c : Nat → Nat → Nat} {x : Nat → Nat → α} {g : BoxGrid} {p : Nat → Nat → α}

/-- **C100** (average gradient) if the displacements of the two nodes of each periodic pair differ by `A (x₁ - x₀)`, then the
average of the gradient of the displacement over the box is `A`, whatever the displacement is inside -/
theorem C100_average (hM : BoxMesh nn ne c x g p) (p0 : ∀ a, a < 3 → p a 0 = 0) (s : α)
    (σ τ ρ υ : Sched) {conn dofs : Ten Nat} {coor u : Ten α} {d : Nat → Nat → Nat} {U : Nat → Nat → α} (hc : Is2 conn ne 8 c) (hx : Is2 coor nn 3 x)
    (hd : Is2 dofs nn 3 d) (hu : Is2 u nn 3 U) {np : Nat} {P : Nat → Nat → Nat}
    (hP : PeriodicPairs3 nn (p 0 g.nx) (p 1 g.ny) (p 2 g.nz) x np P) {A : Nat → Nat → α}
    (hU : ∀ k j, k < np → j < 3 → U (P k 1) j - U (P k 0) j = ∑ l ∈ range 3, A j l * (x (P k 1) l - x (P k 0) l)) :
    IsOk (do
      let (V, Q) ← setup3 s σ τ conn dofs coor
      let g ← gradient3 ρ υ V Q u
      return (Q.vol, g)) fun t => ∃ vol γ, Is2 t.1 ne 8 vol ∧ Is4 t.2 ne 8 3 3 γ ∧ ∀ i j, i < 3 → j < 3 →
        ∑ e ∈ range ne, ∑ q ∈ range 8, γ e q i j * vol e q = p 0 g.nx * p 1 g.ny * p 2 g.nz * A j i := by
  obtain ⟨V, Q, h1, -, hV, e1, e2, e3, e4, e5, hQ⟩ := hM.setup s σ τ hc hx hd
  obtain ⟨ue, u1, u2⟩ := C03_element_of_node hV ρ (x := u) (g := U) (by rw [e3, e4]; exact hu)
  rw [e1, e2, e4] at u2
  obtain ⟨gt, g1, g2⟩ := GradN_ok hQ υ u2
  refine ⟨(Q.vol, gt), by simp only [h1, Res.ok_bind, gradient3, u1, g1]; rfl, _, _, C55_volume hQ, g2, fun i j hi hj => ?_⟩
  simp only [one_mul]
  exact avg_gradient3 hM p0 s hP hj (fun k hk => by rw [hU k j hk hj]; exact sum_congr rfl fun l _ => mul_comm _ _) hi

/-- the virtual work is symmetric if the tangent is -/
theorem virtualWork_symm3 {α : Type} [Field α] {ne : Nat} {C : Nat → Nat → Nat → Nat → Nat → Nat → α}
    (minor : ∀ e q, e < ne → q < 8 → ∀ i j k l, i < 3 → j < 3 → k < 3 → l < 3 → C e q i j k l = C e q i j l k)
    (major : ∀ e q, e < ne → q < 8 → Major 3 (C e q)) (vol : Nat → Nat → α) (g h : Nat → Nat → Nat → Nat → α) :
    virtualWork3 ne vol (fun e a => ddot 3 (C e a) (g e a)) h = virtualWork3 ne vol (fun e a => ddot 3 (C e a) (h e a)) g :=
  sum_congr rfl fun e he => sum_congr rfl fun a ha => by
    rw [mem_range] at he ha
    rw [power_symm (minor e a he ha) (major e a he ha)]

namespace PeriodicCell.State3
variable {Z : PeriodicCell α} {np : Nat} {P : Nat → Nat → Nat} {o : Nat} {s : α} {q : Nat → Nat → Nat} {Cm : Nat → Nat → α}

theorem vol (h : Z.State3 nn ne np c P x o s q Cm) : Is2 Z.elem.vol ne 8 (cellVol3 s x c) :=
  (C55_volume h.live).congr fun _ _ _ _ => one_mul _

theorem gradientOf (h : Z.State3 nn ne np c P x o s q Cm) (U : Nat → Nat → α) :
    GradientOf3 Z.vector.V Z.elem (nn + 3) ne U (cellGrad3 s x c U) := by
  intro σ τ u hu
  obtain ⟨e1, e2, e3, e4⟩ := h.dims
  have hV := h.vector.base
  rw [h.same.1] at e1 e2 e3 e4
  obtain ⟨ue, u1, u2⟩ := C03_element_of_node hV σ (x := u) (g := U) (by rw [e3, e4]; exact hu)
  rw [e1, e2, e4] at u2
  obtain ⟨gt, g1, g2⟩ := GradN_ok h.live τ u2
  exact ⟨gt, by simp only [gradient3, u1, g1, Res.ok_bind], g2⟩

/-- the gradient of the library is unique -/
theorem gradientOf_eq (h : Z.State3 nn ne np c P x o s q Cm) {U : Nat → Nat → α} {γ} (hγ : GradientOf3 Z.vector.V Z.elem (nn + 3) ne U γ)
    {e a i j : Nat} (he : e < ne) (ha : a < 8) (hi : i < 3) (hj : j < 3) : γ e a i j = cellGrad3 s x c U e a i j := by
  have hu : Is2 (Ten.of [nn + 3, 3] fun ix => U (ix.getD 0 0) (ix.getD 1 0)) (nn + 3) 3 U := ⟨rfl, fun i j _ _ => by simp [Ten.of]⟩
  obtain ⟨t, t1, t2⟩ := hγ Sched.seq Sched.seq _ hu
  obtain ⟨t', t1', t2'⟩ := h.gradientOf U Sched.seq Sched.seq _ hu
  obtain rfl : t = t' := by rw [t1] at t1'; injection t1'
  exact t2.unique t2' he ha hi hj

/-- every field is given by DOFs -/
theorem dofval (h : Z.State3 nn ne np c P x o s q Cm) (U : Nat → Nat → α) : ∃ v : Nat → α, ∀ m i, m < nn + 3 → i < 3 → v (q m i) = U m i := by
  have := h.K.surj
  obtain ⟨e1, e2, e3, e4⟩ := h.dims
  rw [e3, e4] at this
  choose! M I hMI using this
  refine ⟨fun k => U (M k) (I k), fun m i hm hi => ?_⟩
  have hk : q m i < Z.K.V.ndof := h.K.base.dofs_lt m i (by rw [e3]; exact hm) (by rw [e4]; exact hi)
  obtain ⟨a, b, e⟩ := hMI _ hk
  obtain ⟨e5, e6⟩ := h.inj _ _ _ _ a b hm hi e
  beta_reduce
  rw [e5, e6]

/-- a sum over the DOFs is a sum over the nodes -/
theorem sum_dofs (h : Z.State3 nn ne np c P x o s q Cm) (F : Nat → α) :
    ∑ k ∈ range Z.K.V.ndof, F k = ∑ m ∈ range (nn + 3), ∑ i ∈ range 3, F (q m i) := by
  obtain ⟨e1, e2, e3, e4⟩ := h.dims
  have hs := h.K.surj
  rw [e3, e4] at hs
  rw [← sum_product']
  symm
  refine sum_bij (fun p _ => q p.1 p.2) (fun p hp => ?_) (fun p hp p' hp' e => ?_) (fun k hk => ?_) fun _ _ => rfl
  · rw [mem_product, mem_range, mem_range] at hp
    exact mem_range.2 (h.K.base.dofs_lt _ _ (by rw [e3]; exact hp.1) (by rw [e4]; exact hp.2))
  · rw [mem_product, mem_range, mem_range] at hp hp'
    have := h.inj _ _ _ _ hp.1 hp.2 hp'.1 hp'.2 e
    exact Prod.ext this.1 this.2
  · obtain ⟨m, i, hm, hi, e⟩ := hs k (mem_range.1 hk)
    exact ⟨(m, i), by rw [mem_product, mem_range, mem_range]; exact ⟨hm, hi⟩, e⟩

/-- a virtual displacement that does no work with an elastic material is zero -/
theorem definite (h : Z.State3 nn ne np c P x o s q Cm) (hM : BoxMesh nn ne c x g p) (p0 : ∀ a, a < 3 → p a 0 = 0) (s0 : s ≠ 0)
    (hP : PeriodicPairs3 nn (p 0 g.nx) (p 1 g.ny) (p 2 g.nz) x np P) (ho : o < nn) {C : Nat → Nat → Nat → Nat → Nat → Nat → α}
    (hE : ∀ e q, e < ne → q < 8 → Elastic3 (C e q)) {W : Nat → Nat → α}
    (h0 : ∀ j l, j < 3 → l < 3 → W (nn + j) l = 0) (h1 : ∀ i, i < 3 → W o i = 0) (h2 : PeriodicField3 nn np P x W)
    (hw : virtualWork3 ne (cellVol3 s x c) (fun e q => ddot 3 (C e q) (cellGrad3 s x c W e q)) (cellGrad3 s x c W) = 0) :
    ∀ m i, m < nn → i < 3 → W m i = 0 := by
  obtain ⟨θ, b, hR⟩ := zero_work3 hM s0 hE W hw
  refine periodic_rigid3 hM p0 hP (fun k j hk hj => ?_) hR ho h1
  have := h2 k j hk hj
  rw [sum_eq_zero fun l hl => by rw [h0 j l hj (mem_range.1 hl), mul_zero]] at this
  exact sub_eq_zero.1 this

/-- the work of an elastic material is not negative -/
theorem work_nonneg (h : Z.State3 nn ne np c P x o s q Cm) {C : Nat → Nat → Nat → Nat → Nat → Nat → α}
    (hE : ∀ e q, e < ne → q < 8 → Elastic3 (C e q)) (γ : Nat → Nat → Nat → Nat → α) :
    0 ≤ virtualWork3 ne (cellVol3 s x c) (fun e q => ddot 3 (C e q) (γ e q)) γ :=
  sum_nonneg fun e he => sum_nonneg fun a ha =>
    mul_nonneg ((hE e a (mem_range.1 he) (mem_range.1 ha)).nonneg _) (h.det e a (mem_range.1 he) (mem_range.1 ha)).le

/-- a field that is zero in the prescribed DOFs and tied -/
theorem admissible (h : Z.State3 nn ne np c P x o s q Cm) (ho : o < nn) {v : Nat → α} : ((∀ k ∈ Z.K.iip, v k = 0) ∧
      ∀ r, r < Z.K.nnd → v (Z.K.nni + r) = ∑ k ∈ range Z.K.nnu, Z.K.Cdu.e r k * v k) ↔
    (∀ j l, j < 3 → l < 3 → v (q (nn + j) l) = 0) ∧ (∀ i, i < 3 → v (q o i) = 0) ∧ PeriodicField3 nn np P x fun m i => v (q m i) := by
  have step : (∀ k ∈ Z.K.iip, v k = 0) → ((∀ r, r < Z.K.nnd → v (Z.K.nni + r) = ∑ k ∈ range Z.K.nnu, Z.K.Cdu.e r k * v k) ↔
      PeriodicField3 nn np P x fun m i => v (q m i)) := by
    intro h0
    rw [← h.tied]
    refine forall_congr' fun r => forall_congr' fun hr => ?_
    rw [sum_eq_zero (s := range Z.K.nnp), add_zero]
    intro k hk
    rw [h0 _ (by rw [h.K.iip, List.mem_map]; exact ⟨k, List.mem_range.2 (mem_range.1 hk), rfl⟩), mul_zero]
  constructor
  · rintro ⟨h0, h1⟩
    exact ⟨fun j l hj hl => h0 _ ((h.iip _ _ (by omega) hl).2 (by omega)), fun i hi => h0 _ ((h.iip _ _ (by omega) hi).2 (by omega)),
      (step h0).1 h1⟩
  · rintro ⟨h0, h1, h2⟩
    have hi : ∀ k ∈ Z.K.iip, v k = 0 := by
      intro k hk
      have hk' : k < Z.K.V.ndof := by
        rw [h.K.iip, List.mem_map] at hk
        obtain ⟨a, ha, rfl⟩ := hk
        have := List.mem_range.1 ha
        have := h.K.ndof
        have := h.K.nni
        omega
      obtain ⟨m, i, hm, hi, rfl⟩ := h.K.surj k hk'
      rw [h.dims.2.2.1] at hm
      rw [h.dims.2.2.2] at hi
      rcases (h.iip m i hm hi).1 hk with a | a
      · obtain ⟨j, rfl⟩ := Nat.exists_eq_add_of_le a
        exact h0 j i (by omega) hi
      · rw [a]; exact h1 i hi
    exact ⟨hi, (step hi).2 h2⟩

/-- virtual work depends on the values at the Gauss points only -/
theorem work_congr (h : Z.State3 nn ne np c P x o s q Cm) {C : Nat → Nat → Nat → Nat → Nat → Nat → α} {vol : Nat → Nat → α} {U W : Nat → Nat → α}
    {g γ} (hv : Is2 Z.elem.vol ne 8 vol) (hg : GradientOf3 Z.vector.V Z.elem (nn + 3) ne U g) (hγ : GradientOf3 Z.vector.V Z.elem (nn + 3) ne W γ) :
    virtualWork3 ne vol (fun e q => ddot 3 (C e q) (g e q)) γ =
      virtualWork3 ne (cellVol3 s x c) (fun e q => ddot 3 (C e q) (cellGrad3 s x c U e q)) (cellGrad3 s x c W) := by
  refine sum_congr rfl fun e he => sum_congr rfl fun a ha => ?_
  rw [mem_range] at he ha
  rw [hv.unique h.vol he ha]
  congr 1
  refine sum_congr rfl fun i hi => sum_congr rfl fun j hj => ?_
  rw [mem_range] at hi hj
  rw [h.gradientOf_eq hγ he ha hi hj]
  congr 1
  refine sum_congr rfl fun k hk => sum_congr rfl fun l hl => ?_
  rw [mem_range] at hk hl
  rw [h.gradientOf_eq hg he ha hl hk]

/-- the work of the assembled stiffness -/
theorem work_stiff (h : Z.State3 nn ne np c P x o s q Cm) {C k}
    (hk : ∀ e m j n l, e < ne → m < 8 → n < 8 → j < 3 → l < 3 → k e (m * 3 + j) (n * 3 + l) =
      Kf 3 8 (G8 (D8 fun q i => s * corner8 q i) fun e m i => x (c e m) i) C (cellVol3 s x c) e m j n l) (f v : Nat → α) :
    ∑ r ∈ range Z.K.V.ndof, (∑ l ∈ range Z.K.V.ndof, SMatrix.assembled Z.K.V c q k r l * f l) * v r =
      virtualWork3 ne (cellVol3 s x c) (fun e a => ddot 3 (C e a) (cellGrad3 s x c (fun m i => f (q m i)) e a)) (cellGrad3 s x c fun m i => v (q m i)) := by
  obtain ⟨e1, e2, e3, e4⟩ := h.dims
  rw [bilinear3 h.K.base e2 e4 (nip := 8) (by rw [e1]; exact hk) f v, e1]
  rfl

end PeriodicCell.State3

/-- solution of the problem of the cell -/
theorem cell_solve3 (hM : BoxMesh nn ne c x g p) (p0 : ∀ a, a < 3 → p a 0 = 0) {s : α} (s0 : s ≠ 0) {Z : PeriodicCell α} {np : Nat}
    {P : Nat → Nat → Nat} (hP : PeriodicPairs3 nn (p 0 g.nx) (p 1 g.ny) (p 2 g.nz) x np P) {o : Nat} (ho : o < nn) {q : Nat → Nat → Nat} {Cm : Nat → Nat → α}
    (h : Z.State3 nn ne np c P x o s q Cm) {S : LinSolver α} {C : Nat → Nat → Nat → Nat → Nat → Nat → α} (hS : S.Suits (∀ e q, e < ne → q < 8 → Major 3 (C e q))) (ρ : Sched) (υ : Nat → Sched) {Ct b u : Ten α}
    {B U : Nat → Nat → α} (hC : Is6 Ct ne 8 3 3 3 3 C) (hE : ∀ e q, e < ne → q < 8 → Elastic3 (C e q)) (hb : Is2 b (nn + 3) 3 B) (hu : Is2 u (nn + 3) 3 U) :
    IsOk (Z.solve S ρ υ Ct b u) fun y => ∃ Y, Is2 y (nn + 3) 3 Y ∧
      SolvesCell3 Z.vector.V Z.elem nn ne np P x o C (cellVol3 s x c) B U Y := by
  obtain ⟨e1, e2, e3, e4⟩ := h.dims
  obtain ⟨kt, k1, k, k2, k3⟩ := stiff_live h.live ρ hC h.vol
  obtain ⟨M, m1, m2, m3, m4, m5, m6⟩ := MatrixPartitionedTyings.C28_assemble h.K (K := kt) (k := k) (by rw [e1, e2, e4]; exact k2)
  have m1' := m1
  obtain ⟨T, n1⟩ : ∃ T, M = { Z.K with A := T, changed := true } := by
    simp only [MatrixPartitionedTyings.assemble] at m1'
    revert m1'
    cases Z.K.assembleLoop kt <;> simp only [Res.ok_bind, Res.throws_bind, Res.ub_bind, reduceCtorEq, false_imp_iff]
    rename_i T
    cases T.toMat9 Z.K.nnu Z.K.nnp Z.K.nnd <;> simp only [Res.ok_bind, Res.throws_bind, Res.ub_bind, reduceCtorEq, false_imp_iff]
    rename_i A
    intro m1'
    injection m1' with m1'
    exact ⟨A, m1'.symm⟩
  have f1 : M.nnu = Z.K.nnu := by rw [n1]
  have f2 : M.nnp = Z.K.nnp := by rw [n1]
  have f3 : M.nnd = Z.K.nnd := by rw [n1]
  have f4 : M.nni = Z.K.nni := by rw [n1]
  have f5 : M.iip = Z.K.iip := by rw [n1]
  clear n1 m1'
  have fr : MatrixPartitionedTyings.Fresh SolverState.init M := Or.inl m3
  -- the condensed matrix is positive definite
  have hex := MatrixPartitionedTyings.condensed_exact m2 (S := S) (sym := ∀ e q, e < ne → q < 8 → Major 3 (C e q)) (fun hs => form_symm fun f v => by
      rw [m4, h.work_stiff k3, h.work_stiff k3]
      exact virtualWork_symm3 (fun e q he hq => (hE e q he hq).minor) hs _ _ _) (fun v => by
      rw [m4, h.work_stiff k3]; exact h.work_nonneg hE _) (fun v v0 v1 v2 a ha => by
    rw [f5] at v0
    rw [f3, f4, f1, m5] at v1
    rw [m4, h.work_stiff k3] at v2
    obtain ⟨w0, w1, w2⟩ := (h.admissible ho).1 ⟨v0, v1⟩
    have z := h.definite hM p0 s0 hP ho hE (W := fun m i => v (q m i)) w0 w1 w2 v2
    rw [f1] at ha
    obtain ⟨m, i, hm, hi, rfl⟩ := h.K.surj a (by have := h.K.ndof; have := h.K.nni; omega)
    rw [e3] at hm
    rw [e4] at hi
    exact z m i ((h.unknown m i hm hi).1 ha).1 hi) hS
  obtain ⟨f, hf⟩ := h.dofval U
  obtain ⟨g, hg⟩ := h.dofval B
  obtain ⟨s', M', y, f', y1, y2, y3, y4, y5⟩ := MatrixPartitionedTyings.C28_solve_nodevec S SolverState.init m2 fr hex υ (b := b) (x := u)
    (g := g) (f := f) (by rw [m4, e3, e4]; exact hb) (by rw [m4, e3, e4]; exact hu)
    (fun m i hm hi => (hg m i (by rw [m4, e3] at hm; exact hm) (by rw [m4, e4] at hi; exact hi)).symm)
    (fun m i hm hi _ => (hf m i (by rw [m4, e3] at hm; exact hm) (by rw [m4, e4] at hi; exact hi)).symm)
  rw [m4, e3, e4] at y2
  refine ⟨y, by simp only [PeriodicCell.solve, k1, m1, y1, Res.ok_bind]; rfl, _, y2, ⟨fun j l hj hl => ?_, fun i hi => ?_, ?_, ?_⟩⟩
  · have := y3 _ (by rw [f5]; exact (h.iip (nn + j) l (by omega) hl).2 (by omega))
    rw [this, hf _ _ (by omega) hl]
  · have := y3 _ (by rw [f5]; exact (h.iip o i (by omega) hi).2 (by omega))
    rw [this, hf _ _ (by omega) hi]
  · rw [f1, f2, f3, f4, m5, m6] at y4
    exact (h.tied f').1 y4
  · intro γY γ W hγY hγ w0 w1 w2
    rw [h.work_congr h.vol hγY hγ]
    obtain ⟨v, hv⟩ := h.dofval W
    have w2' : PeriodicField3 nn np P x fun m i => v (q m i) := by
      intro k j hk hj
      have := w2 k j hk hj
      beta_reduce
      rw [hv _ _ (by have := hP.valid k 1 hk (by omega); omega) hj, hv _ _ (by have := hP.valid k 0 hk (by omega); omega) hj, this]
      exact sum_congr rfl fun l hl => by rw [hv _ _ (by omega) (mem_range.1 hl)]
    obtain ⟨a1, a2⟩ := (h.admissible ho (v := v)).2 ⟨fun j l hj hl => by rw [hv _ _ (by omega) hl]; exact w0 j l hj hl,
      fun i hi => by rw [hv _ _ (by omega) hi]; exact w1 i hi, w2'⟩
    have vw := MatrixPartitionedTyings.C28_virtual_work m2 y5 (v := v) (by rw [f5]; exact a1) (by rw [f3, f4, f1, m5]; exact a2)
    have ws := h.work_stiff k3 f' v
    rw [m4] at vw
    have e6 : virtualWork3 ne (cellVol3 s x c) (fun e a => ddot 3 (C e a) (cellGrad3 s x c (fun m i => f' (q m i)) e a)) (cellGrad3 s x c fun m i => v (q m i)) =
        virtualWork3 ne (cellVol3 s x c) (fun e a => ddot 3 (C e a) (cellGrad3 s x c (fun m i => f' (q m i)) e a)) (cellGrad3 s x c W) := by
      refine sum_congr rfl fun e he => sum_congr rfl fun a ha => ?_
      congr 1
      refine sum_congr rfl fun i hi => sum_congr rfl fun j hj => ?_
      congr 1
      refine sum_congr rfl fun m hm => ?_
      rw [mem_range] at he hm hj
      beta_reduce
      rw [hv _ _ (by have := hM.valid e m he hm; omega) hj]
    rw [← e6, ← ws]
    have e7 : ∑ k ∈ range Z.K.V.ndof, v k * g k = ∑ m ∈ range nn, ∑ i ∈ range 3, B m i * W m i := by
      rw [h.sum_dofs, sum_range_add, sum_eq_zero (s := range 3), add_zero]
      · refine sum_congr rfl fun m hm => sum_congr rfl fun i hi => ?_
        rw [mem_range] at hm hi
        rw [hv _ _ (by omega) hi, hg _ _ (by omega) hi, mul_comm]
      · intro j hj
        refine sum_eq_zero fun l hl => ?_
        rw [mem_range] at hj hl
        rw [hv _ _ (by omega) hl, w0 j l hj hl, zero_mul]
    rw [← e7, ← sub_eq_zero, ← sum_sub_distrib, ← vw]
    exact sum_congr rfl fun k _ => by ring

/-- uniqueness -/
theorem periodicCell_unique3 (hM : BoxMesh nn ne c x g p) (p0 : ∀ a, a < 3 → p a 0 = 0) {s : α} (s0 : s ≠ 0) {Z : PeriodicCell α} {np : Nat}
    {P : Nat → Nat → Nat} (hP : PeriodicPairs3 nn (p 0 g.nx) (p 1 g.ny) (p 2 g.nz) x np P) {o : Nat} (ho : o < nn) {q : Nat → Nat → Nat} {Cm : Nat → Nat → α}
    (h : Z.State3 nn ne np c P x o s q Cm) {C} (hE : ∀ e q, e < ne → q < 8 → Elastic3 (C e q)) {B U Y Y' : Nat → Nat → α}
    (hY : SolvesCell3 Z.vector.V Z.elem nn ne np P x o C (cellVol3 s x c) B U Y)
    (hY' : SolvesCell3 Z.vector.V Z.elem nn ne np P x o C (cellVol3 s x c) B U Y') : ∀ m i, m < nn → i < 3 → Y m i = Y' m i := by
  have w0 : ∀ j l, j < 3 → l < 3 → Y (nn + j) l - Y' (nn + j) l = 0 := fun j l hj hl => by
    rw [hY.gradient j l hj hl, hY'.gradient j l hj hl, sub_self]
  have w1 : ∀ i, i < 3 → Y o i - Y' o i = 0 := fun i hi => by rw [hY.fixed i hi, hY'.fixed i hi, sub_self]
  have w2 : PeriodicField3 nn np P x fun m i => Y m i - Y' m i := by
    intro k j hk hj
    have a := hY.periodic k j hk hj
    have b := hY'.periodic k j hk hj
    beta_reduce
    rw [sum_congr rfl fun l _ => mul_sub _ _ _, sum_sub_distrib, ← a, ← b]
    ring
  have a := hY.weak _ _ _ (h.gradientOf Y) (h.gradientOf fun m i => Y m i - Y' m i) w0 w1 w2
  have b := hY'.weak _ _ _ (h.gradientOf Y') (h.gradientOf fun m i => Y m i - Y' m i) w0 w1 w2
  have key : virtualWork3 ne (cellVol3 s x c) (fun e a => ddot 3 (C e a) (cellGrad3 s x c (fun m i => Y m i - Y' m i) e a))
      (cellGrad3 s x c fun m i => Y m i - Y' m i) = 0 := by
    rw [← sub_self (∑ m ∈ range nn, ∑ i ∈ range 3, B m i * (Y m i - Y' m i))]
    nth_rw 1 [← a]
    rw [← b]
    simp only [virtualWork3, ← sum_sub_distrib]
    refine sum_congr rfl fun e _ => sum_congr rfl fun a _ => ?_
    rw [← sub_mul]
    congr 1
    have lin : ∀ i j, ddot 3 (C e a) (cellGrad3 s x c (fun m i => Y m i - Y' m i) e a) i j =
        ddot 3 (C e a) (cellGrad3 s x c Y e a) i j - ddot 3 (C e a) (cellGrad3 s x c Y' e a) i j := by
      intro i j
      simp only [ddot, cellGrad3, grad, ← sum_sub_distrib, ← mul_sub]
    simp only [power, lin, sub_mul, sum_sub_distrib]
  have z := h.definite hM p0 s0 hP ho hE (W := fun m i => Y m i - Y' m i) w0 w1 w2 key
  exact fun m i hm hi => sub_eq_zero.1 (z m i hm hi)

/-- **C100** For every mesh of a box, every list of periodic pairs, every elastic material (that may differ per integration
point), every macroscopic gradient (in the control nodes of `u`) and every load `b`: the program of the periodic unit cell
runs and returns the solution of the problem of the cell; the solution is unique; the average of its gradient is the
prescribed macroscopic gradient. -/
theorem C100_solve (hM : BoxMesh nn ne c x g p) (p0 : ∀ a, a < 3 → p a 0 = 0) {s : α} (s0 : s ≠ 0) 
    (σ τ ρ : Sched) (υ : Nat → Sched) {conn pairs : Ten Nat} {coor : Ten α} (hc : Is2 conn ne 8 c) (hx : Is2 coor nn 3 x) {np : Nat} {P : Nat → Nat → Nat}
    (hp : Is2 pairs np 2 P) (hP : PeriodicPairs3 nn (p 0 g.nx) (p 1 g.ny) (p 2 g.nz) x np P) {o : Nat} (ho : o < nn) (ho0 : x o 0 ≠ p 0 g.nx)
    (ho1 : x o 1 ≠ p 1 g.ny) (ho2 : x o 2 ≠ p 2 g.nz)
    {Ct b u : Ten α} {C} {B U : Nat → Nat → α} (hC : Is6 Ct ne 8 3 3 3 3 C) (hE : ∀ e q, e < ne → q < 8 → Elastic3 (C e q))
    (hb : Is2 b (nn + 3) 3 B) (hu : Is2 u (nn + 3) 3 U) {S : LinSolver α} (hS : S.Suits (∀ e q, e < ne → q < 8 → Major 3 (C e q))) :
    IsOk (do
      let Z ← PeriodicCell.new3 s σ τ conn (meshDofs nn 3) coor pairs o
      let y ← Z.solve S ρ υ Ct b u
      return (Z, y)) fun t => ∃ Y vol, Is2 t.2 (nn + 3) 3 Y ∧ Is2 t.1.elem.vol ne 8 vol ∧
        (∀ W, ∃ γ, GradientOf3 t.1.vector.V t.1.elem (nn + 3) ne W γ) ∧
        SolvesCell3 t.1.vector.V t.1.elem nn ne np P x o C vol B U Y ∧
        (∀ Y', SolvesCell3 t.1.vector.V t.1.elem nn ne np P x o C vol B U Y' → ∀ m i, m < nn → i < 3 → Y' m i = Y m i) ∧
        ∀ G, GradientOf3 t.1.vector.V t.1.elem (nn + 3) ne Y G → ∀ i j, i < 3 → j < 3 →
          ∑ e ∈ range ne, ∑ a ∈ range 8, G e a i j * vol e a = p 0 g.nx * p 1 g.ny * p 2 g.nz * U (nn + j) i := by
  obtain ⟨Z, q, Cm, z1, h⟩ := cell_ok3 hM (s := s) σ τ hc hx hp hP ho ho0 ho1 ho2
  obtain ⟨y, y1, Y, y2, y3⟩ := cell_solve3 hM p0 s0 hP ho h hS ρ υ hC hE hb hu
  refine ⟨(Z, y), by simp only [z1, y1, Res.ok_bind]; rfl, Y, _, y2, h.vol, fun W => ⟨_, h.gradientOf W⟩, y3,
    fun Y' hY' => periodicCell_unique3 hM p0 s0 hP ho h hE hY' y3, fun g hg i j hi hj => ?_⟩
  rw [sum_congr rfl fun e he => sum_congr rfl fun a ha => by rw [h.gradientOf_eq hg (mem_range.1 he) (mem_range.1 ha) hi hj]]
  rw [← y3.gradient j i hj hi]
  exact avg_gradient3 hM p0 s hP hj (A := fun j l => Y (nn + j) l) (fun k hk => y3.periodic k j hk hj) hi

/-- an affine displacement solves the problem of a homogeneous cell without load -/
theorem affine_solvesCell3 (hM : BoxMesh nn ne c x g p) (p0 : ∀ a, a < 3 → p a 0 = 0) {s : α} {Z : PeriodicCell α} {np : Nat}
    {P : Nat → Nat → Nat} (hP : PeriodicPairs3 nn (p 0 g.nx) (p 1 g.ny) (p 2 g.nz) x np P) {o : Nat} (ho : o < nn) {q : Nat → Nat → Nat} {Cm : Nat → Nat → α}
    (h : Z.State3 nn ne np c P x o s q Cm) {C : Nat → Nat → Nat → Nat → α} {U A : Nat → Nat → α}
    (hA : ∀ m j, A m j = if m < nn then U o j + ∑ l ∈ range 3, U (nn + j) l * (x m l - x o l) else U m j) :
    SolvesCell3 Z.vector.V Z.elem nn ne np P x o (fun _ _ => C) (cellVol3 s x c) (fun _ _ => 0) U A := by
  refine ⟨fun j l _ _ => by rw [hA, if_neg (by omega)], fun i _ => by rw [hA, if_pos ho]; simp, fun k j hk hj => ?_, ?_⟩
  · rw [hA, hA, if_pos (hP.valid k 1 hk (by omega)), if_pos (hP.valid k 0 hk (by omega)), add_sub_add_left_eq_sub, ← sum_sub_distrib]
    refine sum_congr rfl fun l _ => ?_
    rw [hA, if_neg (by omega)]
    ring
  · intro g γ W hg hγ w0 w1 w2
    rw [h.work_congr h.vol hg hγ]
    -- the gradient of the affine field
    have gA : ∀ e a l k, e < ne → a < 8 → l < 3 → k < 3 → cellGrad3 s x c A e a l k = U (nn + k) l := by
      intro e a l k he ha hl hk
      exact hM.grad_affine s (A := fun j l => U (nn + j) l) (b := fun j => U o j - ∑ l ∈ range 3, U (nn + j) l * x o l) (fun m j hm _ => by
        rw [hA, if_pos hm, sum_congr rfl fun l _ => mul_sub _ _ _, sum_sub_distrib]
        ring) he hl hk
    simp only [zero_mul, sum_const_zero]
    have cst : ∀ e ∈ range ne, ∑ a ∈ range 8, power 3 (ddot 3 C (cellGrad3 s x c A e a)) (cellGrad3 s x c W e a) * cellVol3 s x c e a =
        ∑ i ∈ range 3, ∑ j ∈ range 3, ddot 3 C (fun l k => U (nn + k) l) i j * ∑ a ∈ range 8, cellGrad3 s x c W e a i j * cellVol3 s x c e a := by
      intro e he
      rw [mem_range] at he
      simp only [mul_sum]
      rw [sum_congr (s₁ := range 3) rfl fun i _ => sum_comm, sum_comm]
      refine sum_congr rfl fun a ha => ?_
      rw [mem_range] at ha
      rw [power, sum_mul]
      refine sum_congr rfl fun i _ => ?_
      rw [sum_mul]
      refine sum_congr rfl fun j _ => ?_
      rw [mul_assoc]
      congr 1
      exact sum_congr rfl fun k hk => sum_congr rfl fun l hl => by rw [gA e a l k he ha (mem_range.1 hl) (mem_range.1 hk)]
    rw [virtualWork3, sum_congr rfl cst, sum_comm]
    refine sum_eq_zero fun i hi => ?_
    rw [sum_comm]
    refine sum_eq_zero fun j hj => ?_
    rw [← mul_sum, avg_gradient3 hM p0 s hP (mem_range.1 hj) (U := W) (A := fun _ _ => 0) (fun k hk => by
      rw [w2 k j hk (mem_range.1 hj)]
      exact sum_congr rfl fun l hl => by rw [w0 j l (mem_range.1 hj) (mem_range.1 hl)]) (mem_range.1 hi), mul_zero, mul_zero]

/-- **C100** (homogeneous cell) without load, and with the same tangent everywhere, the displacement is affine with exactly the
macroscopic gradient -/
theorem C100_homogeneous (hM : BoxMesh nn ne c x g p) (p0 : ∀ a, a < 3 → p a 0 = 0) {s : α} (s0 : s ≠ 0) 
    (σ τ ρ : Sched) (υ : Nat → Sched) {conn pairs : Ten Nat} {coor : Ten α} (hc : Is2 conn ne 8 c) (hx : Is2 coor nn 3 x) {np : Nat} {P : Nat → Nat → Nat}
    (hp : Is2 pairs np 2 P) (hP : PeriodicPairs3 nn (p 0 g.nx) (p 1 g.ny) (p 2 g.nz) x np P) {o : Nat} (ho : o < nn) (ho0 : x o 0 ≠ p 0 g.nx)
    (ho1 : x o 1 ≠ p 1 g.ny) (ho2 : x o 2 ≠ p 2 g.nz)
    {Ct b u : Ten α} {C} {U : Nat → Nat → α} (hC : Is6 Ct ne 8 3 3 3 3 fun _ _ => C) (hE : Elastic3 C)
    (hb : Is2 b (nn + 3) 3 fun _ _ => 0) (hu : Is2 u (nn + 3) 3 U) {S : LinSolver α} (hS : S.Suits (Major 3 C)) :
    IsOk (do
      let Z ← PeriodicCell.new3 s σ τ conn (meshDofs nn 3) coor pairs o
      Z.solve S ρ υ Ct b u) fun y => ∃ Y, Is2 y (nn + 3) 3 Y ∧
        ∀ m j, m < nn → j < 3 → Y m j = U o j + ∑ l ∈ range 3, U (nn + j) l * (x m l - x o l) := by
  obtain ⟨Z, q, Cm, z1, h⟩ := cell_ok3 hM (s := s) σ τ hc hx hp hP ho ho0 ho1 ho2
  obtain ⟨y, y1, Y, y2, y3⟩ := cell_solve3 hM p0 s0 hP ho h (hS.imp fun h _ _ _ _ => h) ρ υ hC (fun _ _ _ _ => hE) hb hu
  refine ⟨y, by simp only [z1, y1, Res.ok_bind], Y, y2, ?_⟩
  obtain ⟨A, hA⟩ : ∃ A : Nat → Nat → α, ∀ m j, A m j = if m < nn then U o j + ∑ l ∈ range 3, U (nn + j) l * (x m l - x o l) else U m j :=
    ⟨_, fun _ _ => rfl⟩
  have aff := affine_solvesCell3 hM p0 hP ho h (C := C) hA
  intro m j hm hj
  rw [periodicCell_unique3 hM p0 s0 hP ho h (fun _ _ _ _ => hE) y3 aff m j hm hj, hA, if_pos hm]

/-! ### Reaction forces -/

/-- the reduced internal force, and its work -/
theorem PeriodicCell.State3.force {Z : PeriodicCell α} {np : Nat} {P : Nat → Nat → Nat} {o : Nat} {s : α} {q : Nat → Nat → Nat} {Cm : Nat → Nat → α}
    (hM : BoxMesh nn ne c x g p) (hP : PeriodicPairs3 nn (p 0 g.nx) (p 1 g.ny) (p 2 g.nz) x np P)
    (h : Z.State3 nn ne np c P x o s q Cm) (ρ ω : Sched) (υ : Nat → Sched) {sig : Ten α} {S} (hs : Is4 sig ne 8 3 3 S) :
    IsOk (Z.internalForce3 ρ ω υ sig) fun t => ∃ F, Is1 t Z.K.nni F ∧ ∀ (W : Nat → Nat → α) (v : Nat → α), PeriodicField3 nn np P x W →
      (∀ m i, m < nn + 3 → i < 3 → v (q m i) = W m i) →
      ∑ k ∈ range Z.K.nni, F k * v k = virtualWork3 ne (cellVol3 s x c) S (cellGrad3 s x c W) := by
  obtain ⟨e1, e2, e3, e4⟩ := h.dims
  obtain ⟨s1, s2, s3, s4, s5⟩ := h.same
  rw [s1] at e1 e2 e3 e4
  obtain ⟨ft, f1, f2⟩ := force_live h.live ρ hs h.vol
  obtain ⟨Fe, hFe⟩ : ∃ Fe : Nat → Nat → Nat → α, ∀ e m j, Fe e m j = ∑ a ∈ range 8, (∑ i ∈ range 3, G8 (D8 fun q i => s * corner8 q i)
    (fun e m i => x (c e m) i) e a m i * S e a i j) * cellVol3 s x c e a := ⟨_, fun _ _ _ => rfl⟩
  obtain ⟨nt, n1, n2⟩ := C06_assembleNode h.vector.base ω (x := ft) (g := Fe) (by rw [e1, e2, e4]; exact f2.congr fun e m j _ _ _ => (hFe e m j).symm)
  obtain ⟨N, hN⟩ : ∃ N : Nat → α, ∀ r, N r = ∑ e ∈ range Z.vector.V.nelem, ∑ m ∈ range Z.vector.V.nne,
    ∑ i ∈ range Z.vector.V.ndim, if q (c e m) i = r then Fe e m i else 0 := ⟨_, fun _ => rfl⟩
  have n3 := n2.congr (g := fun m i => N (q m i)) fun m i _ _ => (hN _).symm
  obtain ⟨t, t1, t2⟩ := VectorPartitionedTyings.C27_AsDofs_i h.vector υ n3 (f := N) fun _ _ _ _ => rfl
  refine ⟨t, by simp only [PeriodicCell.internalForce3, f1, n1, t1, Res.ok_bind], _, by rw [s4]; exact t2, fun W v hW hv => ?_⟩
  have hv' : ∀ r, r < Z.vector.nnd → v (Z.vector.nni + r) = ∑ k ∈ range Z.vector.nni, Cm r k * v k := by
    rw [← s5, ← s4]
    refine (h.tied' v).2 fun k j hk hj => ?_
    beta_reduce
    rw [hv _ _ (by have := hP.valid k 1 hk (by omega); omega) hj, hv _ _ (by have := hP.valid k 0 hk (by omega); omega) hj, hW k j hk hj]
    exact sum_congr rfl fun l hl => by rw [hv _ _ (by omega) (mem_range.1 hl)]
  obtain ⟨t', fi, t1', t2', t3'⟩ := VectorPartitionedTyings.C27_virtual_work h.vector υ n3 (f := N) (fun _ _ _ _ => rfl) hv'
  obtain rfl : t = t' := by rw [t1] at t1'; injection t1'
  rw [s4, sum_congr rfl fun k hk => by rw [t2.unique t2' (mem_range.1 hk)], t3', sum_congr rfl fun k _ => by rw [hN k],
    dual_sum h.vector.base, e1, e2, e4]
  refine sum_congr rfl fun e he => ?_
  rw [mem_range] at he
  simp only [power]
  rw [← virtual_work]
  refine sum_congr rfl fun m hm => sum_congr rfl fun i hi => ?_
  rw [mem_range] at hm hi
  rw [hv _ _ (by have := hM.valid e m he hm; omega) hi, hFe]

/-- **C100** (reaction forces) For every stress field: the reduced internal force is the power-conjugate of the independent
DOFs. If it vanishes for all unknown DOFs (equilibrium), then the reaction force on the control nodes is the integral of the
stress, there is no reaction force on the node that is kept in place, and (Hill-Mandel) the virtual work of the stress on
any periodic field is that of the integral of the stress on the macroscopic gradient. -/
theorem C100_reaction (hM : BoxMesh nn ne c x g p) (p0 : ∀ a, a < 3 → p a 0 = 0) {s : α} 
    (σ τ ρ ω : Sched) (υ : Nat → Sched) {conn pairs : Ten Nat} {coor : Ten α} (hc : Is2 conn ne 8 c) (hx : Is2 coor nn 3 x) {np : Nat} {P : Nat → Nat → Nat}
    (hp : Is2 pairs np 2 P) (hP : PeriodicPairs3 nn (p 0 g.nx) (p 1 g.ny) (p 2 g.nz) x np P) {o : Nat} (ho : o < nn) (ho0 : x o 0 ≠ p 0 g.nx)
    (ho1 : x o 1 ≠ p 1 g.ny) (ho2 : x o 2 ≠ p 2 g.nz)
    {sig : Ten α} {S} (hs : Is4 sig ne 8 3 3 S) :
    IsOk (do
      let Z ← PeriodicCell.new3 s σ τ conn (meshDofs nn 3) coor pairs o
      let f ← Z.internalForce3 ρ ω υ sig
      return (Z, f)) fun t => ∃ F q p vol, Is1 t.2 t.1.vector.nni F ∧ Is2 t.1.tyings.dofs (nn + 3) 3 q ∧ Is2 t.1.tyings.control 3 3 p ∧
        Is2 t.1.elem.vol ne 8 vol ∧
        (∀ W γ, PeriodicField3 nn np P x W → GradientOf3 t.1.vector.V t.1.elem (nn + 3) ne W γ →
          ∑ m ∈ range (nn + 3), ∑ i ∈ range 3, (if q m i < t.1.vector.nni then F (q m i) * W m i else 0) = virtualWork3 ne vol S γ) ∧
        ((∀ k ∈ t.1.vector.iiu, F k = 0) →
          (∀ j l, j < 3 → l < 3 → F (p j l) = ∑ e ∈ range ne, ∑ a ∈ range 8, S e a l j * vol e a) ∧
          (∀ i, i < 3 → F (q o i) = 0) ∧
          ∀ W γ, PeriodicField3 nn np P x W → GradientOf3 t.1.vector.V t.1.elem (nn + 3) ne W γ →
            virtualWork3 ne vol S γ = ∑ j ∈ range 3, ∑ l ∈ range 3, (∑ e ∈ range ne, ∑ a ∈ range 8, S e a l j * vol e a) * W (nn + j) l) := by
  obtain ⟨Z, q, Cm, z1, h⟩ := cell_ok3 hM (s := s) σ τ hc hx hp hP ho ho0 ho1 ho2
  obtain ⟨t, t1, F, t2, t3⟩ := h.force hM hP ρ ω υ hs
  obtain ⟨e1, e2, e3, e4⟩ := h.dims
  obtain ⟨g1, g2, g3, g4, g5⟩ := h.same
  have hni := h.K.nni
  have hnd := h.K.ndof
  -- work in terms of the nodes
  have work : ∀ W, PeriodicField3 nn np P x W → ∑ m ∈ range (nn + 3), ∑ i ∈ range 3, (if q m i < Z.K.nni then F (q m i) * W m i else 0) =
      virtualWork3 ne (cellVol3 s x c) S (cellGrad3 s x c W) := by
    intro W hW
    obtain ⟨v, hv⟩ := h.dofval W
    rw [← t3 W v hW hv]
    have : ∑ k ∈ range Z.K.nni, F k * v k = ∑ k ∈ range Z.K.V.ndof, if k < Z.K.nni then F k * v k else 0 := by
      rw [hnd, sum_range_add, sum_congr rfl fun k hk => by rw [← if_pos (c := k < Z.K.nni) (mem_range.1 hk) (t := F k * v k) (e := 0)],
        sum_eq_zero (s := range Z.K.nnd), add_zero]
      exact fun k _ => if_neg (by omega)
    rw [this, h.sum_dofs]
    refine sum_congr rfl fun m hm => sum_congr rfl fun i hi => ?_
    rw [hv _ _ (mem_range.1 hm) (mem_range.1 hi)]
  have gcon : ∀ W γ, GradientOf3 Z.vector.V Z.elem (nn + 3) ne W γ →
      virtualWork3 ne (cellVol3 s x c) S γ = virtualWork3 ne (cellVol3 s x c) S (cellGrad3 s x c W) := fun W γ hγ =>
    sum_congr rfl fun e he => sum_congr rfl fun a ha => by
      congr 1
      exact sum_congr rfl fun i hi => sum_congr rfl fun j hj => by
        rw [h.gradientOf_eq hγ (mem_range.1 he) (mem_range.1 ha) (mem_range.1 hi) (mem_range.1 hj)]
  refine ⟨(Z, t), by simp only [z1, t1, Res.ok_bind]; rfl, F, q, _, _, by rw [← g4]; exact t2, h.dofs, h.control, h.vol, fun W γ hW hγ => ?_,
    fun heq => ?_⟩
  · rw [gcon W γ hγ, ← g4]; exact work W hW
  · -- only the prescribed DOFs do work
    have work' : ∀ W, PeriodicField3 nn np P x W → (∑ j ∈ range 3, ∑ l ∈ range 3, F (q (nn + j) l) * W (nn + j) l) + ∑ i ∈ range 3, F (q o i) * W o i =
        virtualWork3 ne (cellVol3 s x c) S (cellGrad3 s x c W) := by
      intro W hW
      rw [← work W hW, sum_range_add, add_comm]
      symm
      congr 1
      · rw [sum_eq_single o]
        · refine sum_congr rfl fun i hi => ?_
          rw [mem_range] at hi
          have := (h.iip o i (by omega) hi).2 (Or.inr rfl)
          rw [h.K.iip, List.mem_map] at this
          obtain ⟨a, ha, e⟩ := this
          rw [if_pos (by have := List.mem_range.1 ha; omega)]
        · intro m hm hmo
          rw [mem_range] at hm
          refine sum_eq_zero fun i hi => ?_
          rw [mem_range] at hi
          split
          · rename_i hlt
            rw [heq (q m i) ?_, zero_mul]
            rw [h.vector.iiu, List.mem_range, ← g2]
            by_contra hn
            have : q m i ∈ Z.K.iip := by
              rw [h.K.iip, List.mem_map]
              exact ⟨q m i - Z.K.nnu, List.mem_range.2 (by omega), by omega⟩
            rcases (h.iip m i (by omega) hi).1 this with a | a
            · omega
            · exact hmo a
          · rfl
        · intro hn
          exact absurd (mem_range.2 ho) hn
      · refine sum_congr rfl fun j hj => sum_congr rfl fun l hl => ?_
        rw [mem_range] at hj hl
        have := (h.iip (nn + j) l (by omega) hl).2 (by omega)
        rw [h.K.iip, List.mem_map] at this
        obtain ⟨a, ha, e⟩ := this
        rw [if_pos (by have := List.mem_range.1 ha; omega)]
    -- affine fields
    have aff : ∀ (A : Nat → Nat → α) (b : Nat → α), (∑ j ∈ range 3, ∑ l ∈ range 3, F (q (nn + j) l) * A j l) + ∑ i ∈ range 3, F (q o i) * b i =
        ∑ j ∈ range 3, ∑ l ∈ range 3, (∑ e ∈ range ne, ∑ a ∈ range 8, S e a l j * cellVol3 s x c e a) * A j l := by
      intro A b
      obtain ⟨W, hW⟩ : ∃ W : Nat → Nat → α, ∀ m j, W m j = if m < nn then b j + ∑ l ∈ range 3, A j l * (x m l - x o l) else A (m - nn) j :=
        ⟨_, fun _ _ => rfl⟩
      have per : PeriodicField3 nn np P x W := by
        intro k j hk hj
        rw [hW, hW, if_pos (hP.valid k 1 hk (by omega)), if_pos (hP.valid k 0 hk (by omega)), add_sub_add_left_eq_sub, ← sum_sub_distrib]
        refine sum_congr rfl fun l _ => ?_
        rw [hW, if_neg (by omega), Nat.add_sub_cancel_left]
        ring
      have := work' W per
      have ctl : ∀ j l, W (nn + j) l = A j l := fun j l => by rw [hW, if_neg (by omega), Nat.add_sub_cancel_left]
      have wo : ∀ i, W o i = b i := fun i => by rw [hW, if_pos ho]; simp
      simp only [ctl, wo] at this
      rw [this]
      have gA : ∀ e a l k, e < ne → a < 8 → l < 3 → k < 3 → cellGrad3 s x c W e a l k = A k l := by
        intro e a l k he ha hl hk
        exact hM.grad_affine s (A := A) (b := fun j => b j - ∑ l ∈ range 3, A j l * x o l) (fun m j hm _ => by
          rw [hW, if_pos hm, sum_congr rfl fun l _ => mul_sub _ _ _, sum_sub_distrib]
          ring) he hl hk
      have swap : ∀ (n : Nat) (f : Nat → Nat → Nat → α), ∑ j ∈ range 3, ∑ l ∈ range 3, ∑ e ∈ range n, f j l e =
          ∑ e ∈ range n, ∑ j ∈ range 3, ∑ l ∈ range 3, f j l e := fun n f => by
        rw [sum_comm (s := range n)]
        exact sum_congr rfl fun j _ => sum_comm
      simp only [virtualWork3, sum_mul]
      rw [swap]
      refine sum_congr rfl fun e he => ?_
      rw [swap]
      refine sum_congr rfl fun a ha => ?_
      rw [mem_range] at he ha
      rw [power, sum_mul, sum_congr rfl fun i _ => sum_mul _ _ _, sum_comm]
      refine sum_congr rfl fun j hj => sum_congr rfl fun l hl => ?_
      rw [gA e a l j he ha (mem_range.1 hl) (mem_range.1 hj)]
      ring
    have r1 : ∀ j l, j < 3 → l < 3 → F (q (nn + j) l) = ∑ e ∈ range ne, ∑ a ∈ range 8, S e a l j * cellVol3 s x c e a := by
      intro j l hj hl
      have := aff (fun j' l' => if j' = j ∧ l' = l then 1 else 0) fun _ => 0
      simpa [ite_and, hj, hl] using this
    have r2 : ∀ i, i < 3 → F (q o i) = 0 := by
      intro i hi
      have := aff (fun _ _ => 0) fun i' => if i' = i then 1 else 0
      simpa [hi] using this
    refine ⟨r1, r2, fun W γ hW hγ => ?_⟩
    change virtualWork3 ne (cellVol3 s x c) S γ = _
    rw [gcon W γ hγ, ← work' W hW, sum_eq_zero (f := fun i => F (q o i) * W o i) fun i hi => by rw [r2 i (mem_range.1 hi), zero_mul], add_zero]
    exact sum_congr rfl fun j hj => sum_congr rfl fun l hl => by rw [r1 j l (mem_range.1 hj) (mem_range.1 hl)]

/-- **C100** (equilibrium) after solving, the reduced internal force of the stress `C : grad y` is equal to the reduced load for
all unknown DOFs: the convergence check of the program holds after one iteration -/
theorem C100_equilibrium (hM : BoxMesh nn ne c x g p) (p0 : ∀ a, a < 3 → p a 0 = 0) {s : α} (s0 : s ≠ 0) 
    (σ τ ρ ω ρ' : Sched) (υ υ' υ'' : Nat → Sched) {conn pairs : Ten Nat} {coor : Ten α} (hc : Is2 conn ne 8 c) (hx : Is2 coor nn 3 x) {np : Nat}
    {P : Nat → Nat → Nat} (hp : Is2 pairs np 2 P) (hP : PeriodicPairs3 nn (p 0 g.nx) (p 1 g.ny) (p 2 g.nz) x np P) {o : Nat} (ho : o < nn) (ho0 : x o 0 ≠ p 0 g.nx)
    (ho1 : x o 1 ≠ p 1 g.ny) (ho2 : x o 2 ≠ p 2 g.nz)
    {Ct b u : Ten α} {C} {B U : Nat → Nat → α} (hC : Is6 Ct ne 8 3 3 3 3 C) (hE : ∀ e q, e < ne → q < 8 → Elastic3 (C e q))
    (hb : Is2 b (nn + 3) 3 B) (hu : Is2 u (nn + 3) 3 U) {S : LinSolver α} (hS : S.Suits (∀ e q, e < ne → q < 8 → Major 3 (C e q))) :
    IsOk (do
      let Z ← PeriodicCell.new3 s σ τ conn (meshDofs nn 3) coor pairs o
      let y ← Z.solve S ρ υ Ct b u
      let g ← gradient3 σ τ Z.vector.V Z.elem y
      return (Z, g)) fun t => ∃ g, Is4 t.2 ne 8 3 3 g ∧ ∀ sig, Is4 sig ne 8 3 3 (fun e q => ddot 3 (C e q) (g e q)) →
        IsOk (do
          let fint ← t.1.internalForce3 ρ' ω υ' sig
          let fext ← t.1.vector.AsDofs_i υ'' b
          return (fint, fext)) fun f => ∃ F F', Is1 f.1 t.1.vector.nni F ∧ Is1 f.2 t.1.vector.nni F' ∧ ∀ k ∈ t.1.vector.iiu, F k = F' k := by
  obtain ⟨Z, q, Cm, z1, h⟩ := cell_ok3 hM (s := s) σ τ hc hx hp hP ho ho0 ho1 ho2
  obtain ⟨y, y1, Y, y2, y3⟩ := cell_solve3 hM p0 s0 hP ho h hS ρ υ hC hE hb hu
  obtain ⟨gt, g1, g2⟩ := h.gradientOf Y σ τ y y2
  refine ⟨(Z, gt), by simp only [z1, y1, g1, Res.ok_bind]; rfl, _, g2, fun sig hs => ?_⟩
  obtain ⟨e1, e2, e3, e4⟩ := h.dims
  obtain ⟨k1, k2, k3, k4, k5⟩ := h.same
  have hni := h.K.nni
  have hnd := h.K.ndof
  obtain ⟨t, t1, F, t2, t3⟩ := h.force hM hP ρ' ω υ' hs
  obtain ⟨f, hf⟩ := h.dofval B
  have hb' : Is2 b Z.vector.V.nnode Z.vector.V.ndim B := by rw [← k1, e3, e4]; exact hb
  have hg : ∀ m i, m < Z.vector.V.nnode → i < Z.vector.V.ndim → B m i = f (q m i) := fun m i hm hi =>
    (hf m i (by rw [← k1, e3] at hm; exact hm) (by rw [← k1, e4] at hi; exact hi)).symm
  obtain ⟨t', t1', t2'⟩ := VectorPartitionedTyings.C27_AsDofs_i h.vector υ'' hb' hg
  refine ⟨(t, t'), by simp only [t1, t1', Res.ok_bind]; rfl, F, _, by rw [← k4]; exact t2, t2', fun k hk => ?_⟩
  rw [h.vector.iiu, List.mem_range, ← k2] at hk
  -- a virtual displacement of one unknown
  obtain ⟨v, hv⟩ : ∃ v : Nat → α, ∀ a, v a = if a < Z.K.nni then (if a = k then 1 else 0) else Cm (a - Z.K.nni) k := ⟨_, fun _ => rfl⟩
  have vi : ∀ a, a < Z.K.nni → v a = if a = k then 1 else 0 := fun a ha => by rw [hv, if_pos ha]
  have tied : ∀ r, r < Z.vector.nnd → v (Z.vector.nni + r) = ∑ a ∈ range Z.vector.nni, Cm r a * v a := by
    intro r hr
    rw [← k4, hv, if_neg (by omega), Nat.add_sub_cancel_left, sum_eq_single k]
    · rw [vi k (by omega), if_pos rfl, mul_one]
    · intro a ha hne
      rw [vi a (mem_range.1 ha), if_neg hne, mul_zero]
    · intro hn
      exact absurd (mem_range.2 (by omega)) hn
  have per : PeriodicField3 nn np P x fun m i => v (q m i) := by
    refine (h.tied' v).1 ?_
    rw [k4, k5]; exact tied
  have zero : ∀ m i, m < nn + 3 → i < 3 → nn ≤ m ∨ m = o → v (q m i) = 0 := by
    intro m i hm hi hmo
    have := (h.iip m i hm hi).2 hmo
    rw [h.K.iip, List.mem_map] at this
    obtain ⟨a, ha, e⟩ := this
    have := List.mem_range.1 ha
    rw [← e, vi _ (by omega), if_neg (by omega)]
  have single : ∀ G : Nat → α, ∑ a ∈ range Z.K.nni, G a * v a = G k := by
    intro G
    rw [sum_eq_single k]
    · rw [vi k (by omega), if_pos rfl, mul_one]
    · intro a ha hne
      rw [vi a (mem_range.1 ha), if_neg hne, mul_zero]
    · intro hn
      exact absurd (mem_range.2 (by omega)) hn
  have w1 := t3 _ v per fun _ _ _ _ => rfl
  rw [single] at w1
  have w2 := y3.weak _ _ _ (h.gradientOf Y) (h.gradientOf fun m i => v (q m i)) (fun j l hj hl => zero _ _ (by omega) hl (by omega))
    (fun i hi => zero _ _ (by omega) hi (Or.inr rfl)) per
  obtain ⟨t4, fi, t5, t6, t7⟩ := VectorPartitionedTyings.C27_virtual_work h.vector υ'' hb' hg tied
  obtain rfl : t' = t4 := by rw [t1'] at t5; injection t5
  have t8 := t2'.unique t6 (show k < Z.vector.nni by omega)
  rw [← k4] at t6 t7
  rw [single, ← k1, h.sum_dofs, sum_range_add, sum_eq_zero (s := range 3) fun j hj => sum_eq_zero fun l hl => by
    rw [mem_range] at hj hl
    rw [zero _ _ (by omega) hl (by omega), mul_zero], add_zero] at t7
  rw [w1, w2, t8, t7]
  refine sum_congr rfl fun m hm => sum_congr rfl fun i hi => ?_
  rw [mem_range] at hm hi
  rw [hf _ _ (by omega) hi]


/-! ### The mesh of the library -/

omit [LinearOrder α] [IsStrictOrderedRing α] in
theorem PeriodicPairs3.congr {Lx Ly Lz : α} {np : Nat} {P : Nat → Nat → Nat} {y : Nat → Nat → α} (hP : PeriodicPairs3 nn Lx Ly Lz y np P)
    (h : ∀ m i, m < nn → i < 3 → x m i = y m i) : PeriodicPairs3 nn Lx Ly Lz x np P := by
  refine ⟨hP.valid, fun k hk => ?_, hP.distinct, hP.independent, fun m hm => ?_⟩
  · have v1 := hP.valid k 1 hk (by omega)
    have v0 := hP.valid k 0 hk (by omega)
    rw [h _ 0 v1 (by omega), h _ 1 v1 (by omega), h _ 2 v1 (by omega), h _ 0 v0 (by omega), h _ 1 v0 (by omega), h _ 2 v0 (by omega)]
    exact hP.shift k hk
  · rw [h _ 0 hm (by omega), h _ 1 hm (by omega), h _ 2 hm (by omega)]
    exact hP.dependent m hm

/-- **C100** (Hex8 `Regular`): the program with the tables of the mesh; a homogeneous cell deforms affinely -/
theorem C100_hex8_regular {nelx nely nelz : Nat} (hx : 0 < nelx) (hy : 0 < nely) (hz : 0 < nelz) {h : α} (hh : 0 < h) {s : α} (s0 : s ≠ 0)
    (σ τ ρ : Sched) (υ : Nat → Sched) (S : LinSolver α) :
    let M := Hex8.Regular.new nelx nely nelz h
    let np := (nelx + 1) * (nely + 1) * (nelz + 1) - nelx * nely * nelz
    ∃ ct x pt P, Hex8.Regular.coor M = .ok ct ∧ Is2 ct M.nnode 3 x ∧ Hex8.Regular.nodesPeriodic M = .ok pt ∧ Is2 pt np 2 P ∧
      PeriodicPairs3 M.nnode (h * (nelx : α)) (h * (nely : α)) (h * (nelz : α)) x np P ∧
      ∀ (Ct b u : Ten α) C (B U : Nat → Nat → α), Is6 Ct M.nelem 8 3 3 3 3 C → (∀ e q, e < M.nelem → q < 8 → Elastic3 (C e q)) →
        S.Suits (∀ e q, e < M.nelem → q < 8 → Major 3 (C e q)) → Is2 b (M.nnode + 3) 3 B → Is2 u (M.nnode + 3) 3 U →
        IsOk (do
          let conn ← Hex8.Regular.conn M
          let coor ← Hex8.Regular.coor M
          let pairs ← Hex8.Regular.nodesPeriodic M
          let Z ← PeriodicCell.new3 s σ τ conn (meshDofs M.nnode 3) coor pairs (Hex8.Regular.nodesOrigin M)
          let y ← Z.solve S ρ υ Ct b u
          return (Z, y)) fun t => ∃ Y vol, Is2 t.2 (M.nnode + 3) 3 Y ∧ Is2 t.1.elem.vol M.nelem 8 vol ∧
            (∀ W, ∃ γ, GradientOf3 t.1.vector.V t.1.elem (M.nnode + 3) M.nelem W γ) ∧
            SolvesCell3 t.1.vector.V t.1.elem M.nnode M.nelem np P x (Hex8.Regular.nodesOrigin M) C vol B U Y ∧
            ((∀ e e' q q' i j k l, C e q i j k l = C e' q' i j k l) → (∀ m i, B m i = 0) →
              ∀ iz iy ix j, iz ≤ nelz → iy ≤ nely → ix ≤ nelx → j < 3 → Y ((iz * (nely + 1) + iy) * (nelx + 1) + ix) j =
                U 0 j + U (M.nnode + j) 0 * (h * (ix : α)) + U (M.nnode + j) 1 * (h * (iy : α)) + U (M.nnode + j) 2 * (h * (iz : α))) := by
  intro M np
  obtain ⟨c, x, g, ⟨cn, a1, a2⟩, ⟨xt, b1, b2⟩, g1, g2, g3, hM⟩ := C89_hex8_regular hx hy hz hh
  obtain ⟨xt', x', pt, P, p1, p2, p3, p4, p5⟩ := C34_nodesPeriodic nelx nely nelz hx hy hz hh
  obtain rfl : xt = xt' := by rw [b1] at p1; injection p1
  have p6 := p5.congr (x := x) fun m i hm hi => b2.unique p2 hm hi
  obtain ⟨xt3, q1, q2⟩ := Hex8.Regular.coor_spec nelx nely nelz h
  obtain rfl : xt = xt3 := by rw [b1] at q1; injection q1
  have lx : 0 < h * (nelx : α) := mul_pos hh (by exact_mod_cast hx)
  have ly : 0 < h * (nely : α) := mul_pos hh (by exact_mod_cast hy)
  have lz : 0 < h * (nelz : α) := mul_pos hh (by exact_mod_cast hz)
  have p0 : ∀ a, a < 3 → (fun (_ : Nat) (i : Nat) => h * (i : α)) a 0 = 0 := fun a _ => by simp
  have hm : ∀ iz iy ix, iz ≤ nelz → iy ≤ nely → ix ≤ nelx → enc (nelx + 1) (nely + 1) ix iy iz < M.nnode := fun iz iy ix h1 h2 h3 =>
    enc_lt (show ix < nelx + 1 by omega) (show iy < nely + 1 by omega) (show iz < nelz + 1 by omega)
  have pos : ∀ iz iy ix, iz ≤ nelz → iy ≤ nely → ix ≤ nelx → x (enc (nelx + 1) (nely + 1) ix iy iz) 0 = h * (ix : α) ∧
      x (enc (nelx + 1) (nely + 1) ix iy iz) 1 = h * (iy : α) ∧ x (enc (nelx + 1) (nely + 1) ix iy iz) 2 = h * (iz : α) := by
    intro iz iy ix h1 h2 h3
    obtain ⟨r0, r1, r2⟩ := gridCoor3_enc h (nelx := nelx) (nely := nely) (x := ix) (y := iy) (z := iz) (by omega) (by omega)
    have := hm iz iy ix h1 h2 h3
    exact ⟨(b2.unique q2 this (by omega)).trans r0, (b2.unique q2 this (by omega)).trans r1, (b2.unique q2 this (by omega)).trans r2⟩
  have e00 : enc (nelx + 1) (nely + 1) 0 0 0 = 0 := by simp [enc]
  have o3 : Hex8.Regular.nodesOrigin M < M.nnode := by have := hm 0 0 0 (by omega) (by omega) (by omega); rw [e00] at this; exact this
  obtain ⟨o4, o5, o6⟩ := pos 0 0 0 (by omega) (by omega) (by omega)
  rw [e00] at o4 o5 o6
  rw [Nat.cast_zero, mul_zero] at o4 o5 o6
  have o4' : x (Hex8.Regular.nodesOrigin M) 0 = 0 := o4
  have o5' : x (Hex8.Regular.nodesOrigin M) 1 = 0 := o5
  have o6' : x (Hex8.Regular.nodesOrigin M) 2 = 0 := o6
  have hP : PeriodicPairs3 M.nnode ((fun (_ : Nat) (i : Nat) => h * (i : α)) 0 g.nx) ((fun (_ : Nat) (i : Nat) => h * (i : α)) 1 g.ny)
      ((fun (_ : Nat) (i : Nat) => h * (i : α)) 2 g.nz) x np P := by rw [g1, g2, g3]; exact p6
  have n0 : x (Hex8.Regular.nodesOrigin M) 0 ≠ (fun (_ : Nat) (i : Nat) => h * (i : α)) 0 g.nx := by rw [o4', g1]; exact lx.ne
  have n1 : x (Hex8.Regular.nodesOrigin M) 1 ≠ (fun (_ : Nat) (i : Nat) => h * (i : α)) 1 g.ny := by rw [o5', g2]; exact ly.ne
  have n2 : x (Hex8.Regular.nodesOrigin M) 2 ≠ (fun (_ : Nat) (i : Nat) => h * (i : α)) 2 g.nz := by rw [o6', g3]; exact lz.ne
  refine ⟨xt, x, pt, P, b1, b2, p3, p4, p6, fun Ct b u C B U hC hE hS hb hu => ?_⟩
  obtain ⟨t, t1, Y, vol, t2, t3, t4, t5, -⟩ := C100_solve hM p0 s0 σ τ ρ υ a2 b2 p4 hP o3 n0 n1 n2 hC hE hb hu hS
  have a1' : Hex8.Regular.conn M = .ok cn := a1
  have b1' : Hex8.Regular.coor M = .ok xt := b1
  have p3' : Hex8.Regular.nodesPeriodic M = .ok pt := p3
  refine ⟨t, by simp only [a1', b1', p3', Res.ok_bind]; exact t1, Y, vol, t2, t3, t4, t5, fun hom hB iz iy ix j h1 h2 h3 hj => ?_⟩
  have he0 : 0 < M.nelem := by change 0 < nelx * nely * nelz; positivity
  obtain ⟨y, y1, Y', y2, y3⟩ := C100_homogeneous hM p0 s0 σ τ ρ υ a2 b2 p4 hP o3 n0 n1 n2 (C := C 0 0)
    ⟨hC.1, fun e q i j k l h1 h2 h3 h4 h5 h6 => (hC.2 e q i j k l h1 h2 h3 h4 h5 h6).trans (congrArg some (hom _ _ _ _ _ _ _ _))⟩
    (hE 0 0 he0 (by omega)) (hb.congr fun m i _ _ => hB m i) hu (hS.imp fun h => h 0 0 he0 (by omega))
  have : y = t.2 := by
    obtain ⟨Z, -, -, z1, -⟩ := cell_ok3 hM (s := s) σ τ a2 b2 p4 hP o3 n0 n1 n2
    rw [z1, Res.ok_bind] at t1 y1
    rw [y1] at t1
    have t1' : Res.ok (Z, y) = Res.ok t := t1
    injection t1' with t1'
    rw [← t1']
  subst this
  have hme := hm iz iy ix h1 h2 h3
  obtain ⟨r0, r1, r2⟩ := pos iz iy ix h1 h2 h3
  change Y (enc (nelx + 1) (nely + 1) ix iy iz) j = _
  rw [t2.unique y2 (Nat.lt_add_right 3 hme) hj, y3 _ j hme hj, sum_range_succ, sum_range_succ, sum_range_succ, sum_range_zero, o4', o5', o6', r0, r1, r2]
  have : Hex8.Regular.nodesOrigin M = 0 := rfl
  rw [this]
  change U 0 j + (0 + U (M.nnode + j) 0 * (h * ↑ix - 0) + U (M.nnode + j) 1 * (h * ↑iy - 0) + U (M.nnode + j) 2 * (h * ↑iz - 0)) = _
  ring

/-- the hypotheses can be met: a 3 x 2 x 1 mesh in simple shear; the node at (3, 2, 1) moves over the height of the mesh -/
example : ∃ (S : LinSolver ℚ) (Ct b u : Ten ℚ), IsOk (do
      let M := Hex8.Regular.new 3 2 1 (1 : ℚ)
      let conn ← Hex8.Regular.conn M
      let coor ← Hex8.Regular.coor M
      let pairs ← Hex8.Regular.nodesPeriodic M
      let Z ← PeriodicCell.new3 (1 / 2) Sched.seq Sched.seq conn (meshDofs M.nnode 3) coor pairs (Hex8.Regular.nodesOrigin M)
      let y ← Z.solve S Sched.seq (fun _ => Sched.seq) Ct b u
      return (Z, y)) fun t => t.2.get [23, 0] = .ok 2 ∧ t.2.get [23, 1] = .ok 0 := by
  obtain ⟨S, hS⟩ := exists_direct (α := ℚ)
  obtain ⟨ct, x, pt, P, -, -, -, -, -, h⟩ := C100_hex8_regular (nelx := 3) (nely := 2) (nelz := 1) (by omega) (by omega) (by omega) (h := (1 : ℚ))
    (by norm_num) (s := 1 / 2) (by norm_num) Sched.seq Sched.seq Sched.seq (fun _ => Sched.seq) S
  obtain ⟨t, t1, Y, vol, t2, -, -, -, t3⟩ := h
    (Ten.of [6, 8, 3, 3, 3, 3] fun l => match l with | [_, _, i, j, k, l] => isotropic (1 : ℚ) 1 i j k l | _ => 0)
    (Ten.of [27, 3] fun _ => 0) (Ten.of [27, 3] fun l => if l = [24, 1] then 1 else 0) (fun _ _ => isotropic (1 : ℚ) 1) (fun _ _ => 0)
    (fun m i => if [m, i] = [24, 1] then 1 else 0)
    ⟨rfl, fun _ _ _ _ _ _ _ _ _ _ _ _ => rfl⟩ (fun _ _ _ _ => isotropic_elastic3 (by norm_num) (by norm_num)) (hS.suits _)
    (is2_of 27 3 fun _ => 0) (is2_of 27 3 fun l => if l = [24, 1] then 1 else 0)
  have t4 := t3 (fun _ _ _ _ _ _ _ _ => rfl) fun _ _ => rfl
  refine ⟨S, _, _, _, t, t1, ?_, ?_⟩
  · rw [t2.get (show 23 < 24 + 3 by omega) (by omega)]
    have := t4 1 2 3 0 (by omega) (by omega) (by omega) (by omega)
    rw [show (23 : Nat) = (1 * (2 + 1) + 2) * (3 + 1) + 3 by rfl, this]
    norm_num [Hex8.Regular.new]
  · rw [t2.get (show 23 < 24 + 3 by omega) (by omega)]
    have := t4 1 2 3 1 (by omega) (by omega) (by omega) (by omega)
    rw [show (23 : Nat) = (1 * (2 + 1) + 2) * (3 + 1) + 3 by rfl, this]
    norm_num [Hex8.Regular.new]

end GF
