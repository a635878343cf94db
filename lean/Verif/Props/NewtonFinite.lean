import Verif.Lemmas.NewtonFinite

/-! **C99** the Newton loop of a periodic unit cell for finite strain: the mesh moves with the material. -/

namespace GF
open Finset ElemSpec Element Element.Quad4

variable {α : Type} [Field α] [LinearOrder α] [IsStrictOrderedRing α]
variable {nn ne : Nat} {c : Nat → Nat → Nat} {x : Nat → Nat → α} {Lx Ly : α} {O : Outline}
variable {Z : PeriodicCell α} {Q₂ : Quadrature α} {np : Nat} {P : Nat → Nat → Nat} {o : Nat} {s thick : α} {q : Nat → Nat → Nat} {Cm : Nat → Nat → α}

/-- the area of a cell that deforms periodically: that of the parallelogram -/
theorem moved_area (hM : RectMesh nn ne c x Lx Ly O) (lx : 0 < Lx) (ly : 0 < Ly) (hP : PeriodicPairs nn Lx Ly x np P) {U : Nat → Nat → α}
    (hU : PeriodicField nn np P x U) : ∑ e ∈ range ne, area4 (fun a i => x (c e a) i + U (c e a) i) =
      Lx * Ly * ((1 + U nn 0) * (1 + U (nn + 1) 1) - U nn 1 * U (nn + 1) 0) := by
  obtain ⟨y, hy⟩ : ∃ y : Nat → Nat → α, ∀ m i, y m i = x m i + U m i := ⟨_, fun _ _ => rfl⟩
  have per : ∀ m m' j, m < nn → m' < nn → j < 2 → LatticeEq2 Lx Ly (x m) (x m') →
      U m j - ∑ l ∈ range 2, x m l * U (nn + j) l = U m' j - ∑ l ∈ range 2, x m' l * U (nn + j) l := by
    intro m m' j hm hm' hj hl
    refine pairs_lattice (hM.inRect lx ly) hP (f := fun m => U m j - ∑ l ∈ range 2, x m l * U (nn + j) l) (fun k hk => ?_) hm hm' hl
    have := hU k j hk hj
    simp only [sum_range_succ, sum_range_zero, zero_add] at this ⊢
    linear_combination this
  obtain ⟨s1, s2, s3, s4⟩ := hM.sizes
  have hr : ∀ i, i < O.nl → y (O.right i) 0 = y (O.left i) 0 + Lx * (1 + U nn 0) ∧ y (O.right i) 1 = y (O.left i) 1 + Lx * U (nn + 1) 0 := fun i hi => by
    have l := hM.left i hi
    have r := hM.right i (by omega)
    have e : LatticeEq2 Lx Ly (x (O.left i)) (x (O.right i)) := ⟨1, 0, by rw [r.2.1, l.2]; simp, by rw [r.2.2]; simp⟩
    have p0 := per _ _ 0 l.1 r.1 (by omega) e
    have p1 := per _ _ 1 l.1 r.1 (by omega) e
    simp only [sum_range_succ, sum_range_zero, zero_add, add_zero] at p0 p1
    rw [r.2.1, r.2.2, l.2] at p0 p1
    rw [hy, hy, hy, hy, r.2.1, r.2.2, l.2]
    exact ⟨by linear_combination -p0, by linear_combination -p1⟩
  have ht : ∀ i, i < O.nb → y (O.top i) 0 = y (O.bottom i) 0 + Ly * U nn 1 ∧ y (O.top i) 1 = y (O.bottom i) 1 + Ly * (1 + U (nn + 1) 1) := fun i hi => by
    have l := hM.bottom i hi
    have r := hM.top i (by omega)
    have e : LatticeEq2 Lx Ly (x (O.bottom i)) (x (O.top i)) := ⟨0, 1, by rw [r.2.2]; simp, by rw [r.2.1, l.2]; simp⟩
    have p0 := per _ _ 0 l.1 r.1 (by omega) e
    have p1 := per _ _ 1 l.1 r.1 (by omega) e
    simp only [sum_range_succ, sum_range_zero, zero_add, add_zero] at p0 p1
    rw [r.2.1, r.2.2, l.2] at p0 p1
    rw [hy, hy, hy, hy, r.2.1, r.2.2, l.2]
    exact ⟨by linear_combination -p0, by linear_combination -p1⟩
  have h := hM.perimeter.stokes (fun p q => (y p 0 * y q 1 - y q 0 * y p 1) / 2) (fun p q => by ring)
  have h0 : ∑ e ∈ range ne, area4 (fun a i => x (c e a) i + U (c e a) i) = edgeSum 4 ne c (fun p q => (y p 0 * y q 1 - y q 0 * y p 1) / 2) := by
    refine sum_congr rfl fun e _ => ?_
    simp only [sum_range_succ, sum_range_zero, area4, hy]
    norm_num
    ring
  have t1 : pathSum O.nr O.right (fun p q => (y p 0 * y q 1 - y q 0 * y p 1) / 2) = pathSum O.nl O.left (fun p q => (y p 0 * y q 1 - y q 0 * y p 1) / 2) +
      pathSum O.nl O.left (fun p q => (Lx * (1 + U nn 0) / 2 * y q 1 - Lx * U (nn + 1) 0 / 2 * y q 0) - (Lx * (1 + U nn 0) / 2 * y p 1 - Lx * U (nn + 1) 0 / 2 * y p 0)) := by
    rw [s4, pathSum, pathSum, pathSum, ← sum_add_distrib]
    refine sum_congr rfl fun i hi => ?_
    rw [mem_range] at hi
    beta_reduce
    obtain ⟨a, b⟩ := hr i (by omega)
    obtain ⟨a', b'⟩ := hr (i + 1) (by omega)
    rw [a, b, a', b']; ring
  have t2 : pathSum O.nt O.top (fun p q => (y p 0 * y q 1 - y q 0 * y p 1) / 2) = pathSum O.nb O.bottom (fun p q => (y p 0 * y q 1 - y q 0 * y p 1) / 2) +
      pathSum O.nb O.bottom (fun p q => (Ly * U nn 1 / 2 * y q 1 - Ly * (1 + U (nn + 1) 1) / 2 * y q 0) - (Ly * U nn 1 / 2 * y p 1 - Ly * (1 + U (nn + 1) 1) / 2 * y p 0)) := by
    rw [s2, pathSum, pathSum, pathSum, ← sum_add_distrib]
    refine sum_congr rfl fun i hi => ?_
    rw [mem_range] at hi
    beta_reduce
    obtain ⟨a, b⟩ := ht i (by omega)
    obtain ⟨a', b'⟩ := ht (i + 1) (by omega)
    rw [a, b, a', b']; ring
  rw [h0, h, t1, t2, pathSum_sub (y := fun m => Lx * (1 + U nn 0) / 2 * y m 1 - Lx * U (nn + 1) 0 / 2 * y m 0),
    pathSum_sub (y := fun m => Ly * U nn 1 / 2 * y m 1 - Ly * (1 + U (nn + 1) 1) / 2 * y m 0), ← hM.perimeter.tl, hM.perimeter.br, ← hM.perimeter.bl]
  obtain ⟨a, b⟩ := ht 0 (by omega)
  obtain ⟨a', b'⟩ := hr 0 (by omega)
  rw [← hM.perimeter.bl] at a' b'
  rw [a, b, a', b']
  ring

/-- the volume of the moved mesh -/
theorem MovedTo.total (hM : RectMesh nn ne c x Lx Ly O) (lx : 0 < Lx) (ly : 0 < Ly) (hP : PeriodicPairs nn Lx Ly x np P) {U : Nat → Nat → α}
    (hU : PeriodicField nn np P x U) {vol : Nat → Nat → α} {Q : Quadrature α} (hQ : MovedTo ne c x s thick Q U) (hv : Is2 Q.vol ne 4 vol) :
    ∑ e ∈ range ne, ∑ a ∈ range 4, vol e a = thick * (Lx * Ly * ((1 + U nn 0) * (1 + U (nn + 1) 1) - U nn 1 * U (nn + 1) 0)) := by
  rw [← moved_area hM lx ly hP hU, mul_sum]
  refine sum_congr rfl fun e he => ?_
  rw [mem_range] at he
  rw [← det4_sum _ s, mul_sum]
  refine sum_congr rfl fun a ha => ?_
  rw [mem_range] at ha
  rw [hv.unique (vol_ok hQ) he ha]
  ring

namespace PeriodicCell.Planar

theorem gradient_live (h : Z.Planar Q₂ nn ne np c P x o s thick q Cm) {Q : Quadrature α} {y : Nat → Nat → α}
    (hQ : Live 3 thick ne 4 (fun q i => s * corner4 q i) (fun _ => 1) Q (fun e m i => y (c e m) i)) (W : Nat → Nat → α) :
    ({ Z with elem := Q } : PeriodicCell α).PlanarGradient (nn + 2) ne W fun e a => embed (cellGrad s y c W e a) := by
  intro σ τ u hu
  obtain ⟨e1, e2, e3, e4⟩ := h.dimsV
  obtain ⟨ue, u1, u2⟩ := C03_element_of_node h.st.vector.base σ (x := u) (g := W) (by
    change Is2 _ Z.vector.V.nnode Z.vector.V.ndim _
    rw [e3, e4]; exact hu)
  have u1' : Z.vector.V.AsElement σ u = .ok ue := u1
  have u2' : Is3 ue Z.vector.V.nelem Z.vector.V.nne Z.vector.V.ndim _ := u2
  rw [e1, e2, e4] at u2'
  obtain ⟨g, g1, g2⟩ := (planar_grads hQ τ u2').1
  exact ⟨g, by simp only [u1', g1, Res.ok_bind], g2⟩

theorem work_live (h : Z.Planar Q₂ nn ne np c P x o s thick q Cm) {Q : Quadrature α} {y : Nat → Nat → α}
    (hQ : Live 3 thick ne 4 (fun q i => s * corner4 q i) (fun _ => 1) Q (fun e m i => y (c e m) i)) {W : Nat → Nat → α} {γ}
    (hγ : ({ Z with elem := Q } : PeriodicCell α).PlanarGradient (nn + 2) ne W γ) {vol : Nat → Nat → α} (hv : Is2 Q.vol ne 4 vol)
    (S : Nat → Nat → Nat → Nat → α) : planarWork ne vol S γ = virtualWork ne (planarVol s thick y c) S (cellGrad s y c W) := by
  have hu : Is2 (Ten.of [nn + 2, 2] fun ix => W (ix.getD 0 0) (ix.getD 1 0)) (nn + 2) 2 W := ⟨rfl, fun i j _ _ => by simp [Ten.of]⟩
  obtain ⟨t, t1, t2⟩ := hγ Sched.seq Sched.seq _ hu
  obtain ⟨t', t1', t2'⟩ := h.gradient_live hQ W Sched.seq Sched.seq _ hu
  obtain rfl : t = t' := by rw [t1] at t1'; injection t1'
  refine sum_congr rfl fun e he => sum_congr rfl fun a ha => ?_
  rw [mem_range] at he ha
  rw [hv.unique (vol_ok hQ) he ha]
  simp only [power, sum_range_succ, sum_range_zero]
  repeat rw [t2.unique t2' he ha (by omega) (by omega)]
  simp [embed]

/-- the deformation gradient of a displacement, `I + elem0.GradN_vector_T(disp)` -/
theorem defGradient (h : Z.Planar Q₂ nn ne np c P x o s thick q Cm) {u : Ten α} {U : Nat → Nat → α} (hu : Is2 u (nn + 2) 2 U) (σ τ : Sched) :
    IsOk (do let ue ← Z.vector.V.AsElement σ u; PlanarGradN_vector_T Z.elem τ ue) fun t =>
      Is4 t ne 4 3 3 fun e a i j => embed (cellGrad s x c U e a) j i := by
  obtain ⟨e1, e2, e3, e4⟩ := h.dimsV
  obtain ⟨ue, u1, u2⟩ := C03_element_of_node h.st.vector.base σ (x := u) (g := U) (by
    change Is2 _ Z.vector.V.nnode Z.vector.V.ndim _
    rw [e3, e4]; exact hu)
  have u1' : Z.vector.V.AsElement σ u = .ok ue := u1
  have u2' : Is3 ue Z.vector.V.nelem Z.vector.V.nne Z.vector.V.ndim _ := u2
  rw [e1, e2, e4] at u2'
  obtain ⟨g, g1, g2⟩ := (planar_grads h.live τ u2').2.1
  exact ⟨g, by simp only [u1', g1, Res.ok_bind], g2⟩

/-- volumes before and after -/
theorem moved_vol (h : Z.Planar Q₂ nn ne np c P x o s thick q Cm) {Q : Quadrature α} {U : Nat → Nat → α} (hQ : MovedTo ne c x s thick Q U) {e a : Nat}
    (he : e < ne) (ha : a < 4) :
    planarVol s thick (fun m i => x m i + U m i) c e a = Quad4.det3 (defGrad fun i j => embed (cellGrad s x c U e a) j i) * planarVol s thick x c e a := by
  have pf := (push_forward (Ξ := fun q i => s * corner4 q i) (X := fun e m i => x (c e m) i) (U := fun e m i => U (c e m) i)
    (X' := fun e m i => x (c e m) i + U (c e m) i) (e := e) (q := a) (fun _ _ _ _ => rfl) (h.st.det e a he ha).ne').1
  have d : Quad4.det3 (defGrad fun i j => embed (cellGrad s x c U e a) j i) =
      (1 + cellGrad s x c U e a 0 0) * (1 + cellGrad s x c U e a 1 1) - cellGrad s x c U e a 0 1 * cellGrad s x c U e a 1 0 := by
    simp [Quad4.det3, defGrad, embed]
    ring
  rw [d, planarVol, planarVol, ← mul_assoc]
  exact congrArg (· * thick) pf

/-- the average deformation gradient -/
theorem average_F (h : Z.Planar Q₂ nn ne np c P x o s thick q Cm) (hM : RectMesh nn ne c x Lx Ly O) (lx : 0 < Lx) (ly : 0 < Ly)
    (hP : PeriodicPairs nn Lx Ly x np P) {U : Nat → Nat → α} {g : α} (h0 : ∀ j l, j < 2 → l < 2 → U (nn + j) l = if j = 0 ∧ l = 1 then g else 0)
    (h1 : PeriodicField nn np P x U) {i j : Nat} (hi : i < 3) (hj : j < 3) :
    ∑ e ∈ range ne, ∑ a ∈ range 4, defGrad (fun i j => embed (cellGrad s x c U e a) j i) i j * planarVol s thick x c e a =
      thick * (Lx * Ly) * if i = j then 1 else if i = 0 ∧ j = 1 then g else 0 := by
  have av : ∀ i j, i < 2 → j < 2 → ∑ e ∈ range ne, ∑ a ∈ range 4, cellGrad s x c U e a i j * cellVol s x c e a = Lx * Ly * U (nn + j) i :=
    fun i j hi hj => avg_gradient hM lx ly h.st.det hP hj (A := fun j l => U (nn + j) l) (fun k hk => h1 k j hk hj) hi
  have vs : ∑ e ∈ range ne, ∑ a ∈ range 4, cellVol s x c e a = Lx * Ly := by
    rw [← C73_area hM]
    exact sum_congr rfl fun e _ => det4_sum _ s
  have e1 : ∀ e a, defGrad (fun i j => embed (cellGrad s x c U e a) j i) i j * planarVol s thick x c e a =
      (thick * if i = j then 1 else 0) * cellVol s x c e a + thick * if i < 2 ∧ j < 2 then cellGrad s x c U e a j i * cellVol s x c e a else 0 := by
    intro e a
    simp only [defGrad, embed, planarVol, and_comm (a := j < 2)]
    split_ifs <;> ring
  simp only [e1, sum_add_distrib, ← mul_sum, vs]
  by_cases hij : i < 2 ∧ j < 2
  · simp only [if_pos hij]
    rw [av j i hij.2 hij.1, h0 i j hij.1 hij.2]
    obtain ⟨hi', hj'⟩ := hij
    interval_cases i <;> interval_cases j <;> simp [mul_assoc]
  · simp only [if_neg hij, sum_const_zero, mul_zero, add_zero]
    rw [if_neg (c := i = 0 ∧ j = 1) (by omega)]
    ring

end PeriodicCell.Planar

/-- the objects and the loop together -/
theorem newtonFinite_program (hM : RectMesh nn ne c x Lx Ly O) (lx : 0 < Lx) (ly : 0 < Ly) {s : α} (s1 : -1 ≤ s) (s2 : s ≤ 1) (thick : α)
    (σ τ : Sched) (υ : Nat → Nat → Nat → Nat → Sched) {conn pairs : Ten Nat} {coor : Ten α} (hc : Is2 conn ne 4 c) (hx : Is2 coor nn 2 x) {np : Nat}
    {P : Nat → Nat → Nat} (hp : Is2 pairs np 2 P) (hP : PeriodicPairs nn Lx Ly x np P) {o : Nat} (ho : o < nn) (ho0 : x o 0 ≠ Lx) (ho1 : x o 1 ≠ Ly)
    (S : LinSolver α) {material : HistoryMaterial α} (hm : material.Responds ne) {fext : Ten α} {B : Nat → Nat → α} (hb : Is2 fext (nn + 2) 2 B)
    (tol : α) {maxit iters : Nat} (hit : maxit + 1 < iters) (dgamma : List α) :
    newtonFiniteProgram s thick σ τ conn (meshDofs nn 2) coor pairs o S material fext tol maxit iters υ dgamma = .throws ∨
    IsOk (newtonFiniteProgram s thick σ τ conn (meshDofs nn 2) coor pairs o S material fext tol maxit iters υ dgamma) fun t =>
      ∃ Q₂ q Cm G U, t.1.Planar Q₂ nn ne np c P x o s thick q Cm ∧ (∀ υ, IsOk (t.1.vector.AsDofs_i υ fext) fun z => Is1 z t.1.vector.nni G) ∧
        (∀ (W : Nat → Nat → α) (v : Nat → α), PeriodicField nn np P x W → (∀ m i, m < nn + 2 → i < 2 → v (q m i) = W m i) →
          ∑ k ∈ range t.1.vector.nni, G k * v k = ∑ m ∈ range (nn + 2), ∑ i ∈ range 2, B m i * W m i) ∧
        Is2 t.2.disp (nn + 2) 2 U ∧ MovedTo ne c x s thick t.2.elem U ∧
        (∀ j l, j < 2 → l < 2 → U (nn + j) l = if j = 0 ∧ l = 1 then dgamma.sum else 0) ∧
        (∀ i, i < 2 → U o i = 0) ∧ PeriodicField nn np P x U ∧
        (dgamma ≠ [] → NewtonFinite.Done t.1 nn ne np c P x s thick q material tol G t.2 U) := by
  obtain ⟨Z, Q₂, q, Cm, z1, z2, h⟩ := cell_planar hM lx ly s1 s2 thick σ τ hc hx hp hP ho ho0 ho1
  obtain ⟨G, g1, g2⟩ := h.reduced hP hb
  have hz : Is2 (Ten.full Z.control.coor.shape (0 : α)) (nn + 2) 2 fun _ _ => 0 := by rw [h.coor.1]; exact ⟨rfl, fun _ _ _ _ => rfl⟩
  have hK : SameSystem Z.K c q Z.K := ⟨⟨_, h.st.K⟩, rfl, rfl, rfl, rfl, rfl, rfl, rfl, rfl⟩
  obtain ⟨e1, e2, e3, e4⟩ := h.dimsV
  obtain ⟨xe, x1, x2⟩ := C03_element_of_node h.st.vector.base σ (x := Z.control.coor) (g := fun m i => if m < nn then x m i else 0) (by
    change Is2 _ Z.vector.V.nnode Z.vector.V.ndim _
    rw [e3, e4]; exact h.coor)
  have x1' : Z.vector.V.AsElement σ Z.control.coor = .ok xe := x1
  have x2' : Is3 xe Z.vector.V.nelem Z.vector.V.nne Z.vector.V.ndim _ := x2
  rw [e1, e2, e4] at x2'
  have x3 : Is3 xe ne 4 2 fun e m i => x (c e m) i + 0 :=
    x2'.congr fun e m i he hm hi => by beta_reduce; rw [if_pos (hM.valid e m he hm), add_zero]
  obtain ⟨Q, q1, hQ⟩ := newPlanarGauss_ok s thick τ x3
  rcases newtonFinite_run hM lx ly hP ho h S hm hb g1 tol hit υ dgamma 0
    ⟨Ten.full Z.control.coor.shape 0, Ten.full Z.control.coor.shape 0, Q, Z.K, SolverState.init, []⟩ (fun _ _ => 0) hz hQ hK with
      t | ⟨N, U, a1, a2, a2', a3, a4, a5, a6⟩
  · left
    simp only [newtonFiniteProgram, z1, Res.ok_bind, x1', q1, t, Res.throws_bind]
  · right
    refine ⟨(Z, N), by simp only [newtonFiniteProgram, z1, Res.ok_bind, x1', q1, a1]; rfl, Q₂, q, Cm, G, U, h, g1, g2, a2, a2', fun j l hj hl => ?_, a4, a5 ?_,
      fun hd => a6 (Or.inl hd)⟩
    · rw [a3 j l hj hl, zero_add]
    · intro k j _ _; simp

/-- **C99** (kinematics) For every mesh of a rectangle, every material with any memory, every load, every history of the shear and every
linear solver (also one that is wrong): the program ends, with the exception of `iiter > maxit` or with a displacement that is periodic up
to the total shear and leaves the origin in place; `elem` is at `coor + disp`; with `F = I + elem0.GradN_vector_T(disp)` its volumes are
those of `elem0` times `det F`; its total volume is still that of the rectangle; the average of `F` is the macroscopic simple shear. -/
theorem C99_run (hM : RectMesh nn ne c x Lx Ly O) (lx : 0 < Lx) (ly : 0 < Ly) {s : α} (s1 : -1 ≤ s) (s2 : s ≤ 1) (thick : α)
    (σ τ : Sched) (υ : Nat → Nat → Nat → Nat → Sched) {conn pairs : Ten Nat} {coor : Ten α} (hc : Is2 conn ne 4 c) (hx : Is2 coor nn 2 x) {np : Nat}
    {P : Nat → Nat → Nat} (hp : Is2 pairs np 2 P) (hP : PeriodicPairs nn Lx Ly x np P) {o : Nat} (ho : o < nn) (ho0 : x o 0 ≠ Lx) (ho1 : x o 1 ≠ Ly)
    (S : LinSolver α) {material : HistoryMaterial α} (hm : material.Responds ne) {fext : Ten α} {B : Nat → Nat → α} (hb : Is2 fext (nn + 2) 2 B)
    (tol : α) {maxit iters : Nat} (hit : maxit + 1 < iters) (dgamma : List α) :
    newtonFiniteProgram s thick σ τ conn (meshDofs nn 2) coor pairs o S material fext tol maxit iters υ dgamma = .throws ∨
    IsOk (newtonFiniteProgram s thick σ τ conn (meshDofs nn 2) coor pairs o S material fext tol maxit iters υ dgamma) fun t =>
      ∃ U H vol vol', Is2 t.2.disp (nn + 2) 2 U ∧ (∀ j l, j < 2 → l < 2 → U (nn + j) l = if j = 0 ∧ l = 1 then dgamma.sum else 0) ∧
        (∀ i, i < 2 → U o i = 0) ∧ PeriodicField nn np P x U ∧ Is2 t.1.elem.vol ne 4 vol ∧ Is2 t.2.elem.vol ne 4 vol' ∧
        Is3 t.2.elem.x ne 4 2 (fun e m i => x (c e m) i + U (c e m) i) ∧
        (∀ σ τ, IsOk (do let ue ← t.1.vector.V.AsElement σ t.2.disp; PlanarGradN_vector_T t.1.elem τ ue) fun z => Is4 z ne 4 3 3 H) ∧
        (∀ e a, e < ne → a < 4 → vol' e a = Quad4.det3 (defGrad (H e a)) * vol e a) ∧
        (∑ e ∈ range ne, ∑ a ∈ range 4, vol' e a = thick * (Lx * Ly)) ∧
        ∀ i j, i < 3 → j < 3 → ∑ e ∈ range ne, ∑ a ∈ range 4, defGrad (H e a) i j * vol e a =
          thick * (Lx * Ly) * if i = j then 1 else if i = 0 ∧ j = 1 then dgamma.sum else 0 := by
  refine (newtonFinite_program hM lx ly s1 s2 thick σ τ υ hc hx hp hP ho ho0 ho1 S hm hb tol hit dgamma).imp id ?_
  rintro ⟨t, t1, Q₂, q, Cm, G, U, h, -, -, a1, a2, a3, a4, a5, -⟩
  have v' : Is2 t.2.elem.vol ne 4 (planarVol s thick (fun m i => x m i + U m i) c) := (vol_ok a2).congr fun _ _ _ _ => by simp
  refine ⟨t, t1, U, _, _, _, a1, a3, a4, a5, h.vol, v', (live_holds a2).2.2.1, fun σ τ => h.defGradient a1 σ τ, fun e a he ha => h.moved_vol a2 he ha, ?_,
    fun i j hi hj => h.average_F hM lx ly hP a3 a5 hi hj⟩
  rw [MovedTo.total hM lx ly hP a5 a2 v', a3 1 1 (by omega) (by omega), a3 1 0 (by omega) (by omega)]
  have e0 := a3 0 0 (by omega) (by omega)
  simp only [add_zero] at e0
  rw [e0]
  simp

/-- **C99** (convergence) if the program ends without exception, then its last question to the material was about `mat.F = I + E`, with `E` the
strain of the displacement that it returns on the mesh before the deformation; `fint` are the nodal forces, on the deformed mesh, of the
stress that the material answered; the relative residual of these forces is below the tolerance; and the stress is in equilibrium with the
load on the deformed mesh up to the residual: for all periodic virtual displacements `W` that keep the origin in place the difference in
virtual work is at most the sum of the residual forces times the largest `|W|`. -/
theorem C99_converged (hM : RectMesh nn ne c x Lx Ly O) (lx : 0 < Lx) (ly : 0 < Ly) {s : α} (s1 : -1 ≤ s) (s2 : s ≤ 1) (thick : α)
    (σ τ : Sched) (υ : Nat → Nat → Nat → Nat → Sched) {conn pairs : Ten Nat} {coor : Ten α} (hc : Is2 conn ne 4 c) (hx : Is2 coor nn 2 x) {np : Nat}
    {P : Nat → Nat → Nat} (hp : Is2 pairs np 2 P) (hP : PeriodicPairs nn Lx Ly x np P) {o : Nat} (ho : o < nn) (ho0 : x o 0 ≠ Lx) (ho1 : x o 1 ≠ Ly)
    (S : LinSolver α) {material : HistoryMaterial α} (hm : material.Responds ne) {fext : Ten α} {B : Nat → Nat → α} (hb : Is2 fext (nn + 2) 2 B)
    (tol : α) {maxit iters : Nat} (hit : maxit + 1 < iters) {dgamma : List α} (hd : dgamma ≠ []) :
    newtonFiniteProgram s thick σ τ conn (meshDofs nn 2) coor pairs o S material fext tol maxit iters υ dgamma = .throws ∨
    IsOk (newtonFiniteProgram s thick σ τ conn (meshDofs nn 2) coor pairs o S material fext tol maxit iters υ dgamma) fun t =>
      ∃ U E F T vol' G H calls Fm Sig Ct, Is2 t.2.disp (nn + 2) 2 U ∧ t.1.PlanarStrain (nn + 2) ne U E ∧ Is4 Fm ne 4 3 3 (fun e a => defGrad (E e a)) ∧
        t.2.calls = .refresh Fm :: calls ∧ material t.2.calls = .ok (Sig, Ct) ∧ Is4 Sig ne 4 3 3 T ∧
        Is2 t.2.fint (nn + 2) 2 F ∧ (∀ σ τ, IsOk (({ t.1 with elem := t.2.elem } : PeriodicCell α).nodeForce σ τ Sig) fun f => Is2 f (nn + 2) 2 F) ∧
        (∀ υ, IsOk (t.1.vector.AsDofs_i υ fext) fun z => Is1 z t.1.vector.nni G) ∧
        (∀ υ, IsOk (t.1.vector.AsDofs_i υ t.2.fint) fun z => Is1 z t.1.vector.nni H) ∧
        relativeResidual t.1.vector.nnu t.1.vector.nnp G H < tol ∧ Is2 t.2.elem.vol ne 4 vol' ∧
        ∀ W γ w, ({ t.1 with elem := t.2.elem } : PeriodicCell α).PlanarGradient (nn + 2) ne W γ → (∀ j l, j < 2 → l < 2 → W (nn + j) l = 0) →
          (∀ i, i < 2 → W o i = 0) → PeriodicField nn np P x W → (∀ m i, m < nn → i < 2 → |W m i| ≤ w) →
          |planarWork ne vol' T γ - ∑ m ∈ range nn, ∑ i ∈ range 2, B m i * W m i| ≤ w * ∑ k ∈ range t.1.vector.nnu, |G k - H k| := by
  refine (newtonFinite_program hM lx ly s1 s2 thick σ τ υ hc hx hp hP ho ho0 ho1 S hm hb tol hit dgamma).imp id ?_
  rintro ⟨t, t1, Q₂, q, Cm, G, U, h, g1, g2, a1, hQ, a2, a3, a4, a5⟩
  obtain ⟨calls, Eps, Sig, Ct, T, C, F, H, r, b1, b2, b3, b4⟩ := a5 hd
  have v' : Is2 t.2.elem.vol ne 4 (planarVol s thick (fun m i => x m i + U m i) c) := (vol_ok hQ).congr fun _ _ _ _ => by simp
  refine ⟨t, t1, U, _, F, T, _, G, H, calls, Eps, Sig, Ct, a1, fun σ τ u hu => h.strain σ τ hu, r.isEps, b1, by rw [b1]; exact r.response, r.isSig, b2, r.force,
    g1, b3, b4, v', fun W γ w hγ w0 w1 w2 hw => ?_⟩
  have := h.work_bound g2 r.reduced w0 w1 w2 hw
  rw [h.work_live (y := fun m i => x m i + U m i) hQ hγ v', ← r.work]
  have e : ∑ m ∈ range (nn + 2), ∑ i ∈ range 2, B m i * W m i = ∑ m ∈ range nn, ∑ i ∈ range 2, B m i * W m i := by
    rw [sum_range_add, sum_eq_zero (s := range 2), add_zero]
    intro j hj
    exact sum_eq_zero fun l hl => by rw [w0 j l (mem_range.1 hj) (mem_range.1 hl), mul_zero]
  rwa [e] at this

/-- **C99** (what the example gives the material) `mat.F` is not the deformation gradient: whenever the total shear is not zero, the tensor that
the material was asked about last differs from `I + elem0.GradN_vector_T(disp)` (the example fills `mat.F` with the symmetric part). -/
theorem C99_not_gradient (hM : RectMesh nn ne c x Lx Ly O) (lx : 0 < Lx) (ly : 0 < Ly) {s : α} (s1 : -1 ≤ s) (s2 : s ≤ 1) {thick : α} (t0 : thick ≠ 0)
    (σ τ : Sched) (υ : Nat → Nat → Nat → Nat → Sched) {conn pairs : Ten Nat} {coor : Ten α} (hc : Is2 conn ne 4 c) (hx : Is2 coor nn 2 x) {np : Nat}
    {P : Nat → Nat → Nat} (hp : Is2 pairs np 2 P) (hP : PeriodicPairs nn Lx Ly x np P) {o : Nat} (ho : o < nn) (ho0 : x o 0 ≠ Lx) (ho1 : x o 1 ≠ Ly)
    (S : LinSolver α) {material : HistoryMaterial α} (hm : material.Responds ne) {fext : Ten α} {B : Nat → Nat → α} (hb : Is2 fext (nn + 2) 2 B)
    (tol : α) {maxit iters : Nat} (hit : maxit + 1 < iters) {dgamma : List α} (hd : dgamma.sum ≠ 0) :
    newtonFiniteProgram s thick σ τ conn (meshDofs nn 2) coor pairs o S material fext tol maxit iters υ dgamma = .throws ∨
    IsOk (newtonFiniteProgram s thick σ τ conn (meshDofs nn 2) coor pairs o S material fext tol maxit iters υ dgamma) fun t =>
      ∃ Fm calls M H, t.2.calls = .refresh Fm :: calls ∧ Is4 Fm ne 4 3 3 M ∧
        (∀ σ τ, IsOk (do let ue ← t.1.vector.V.AsElement σ t.2.disp; PlanarGradN_vector_T t.1.elem τ ue) fun z => Is4 z ne 4 3 3 H) ∧
        ∃ e a, e < ne ∧ a < 4 ∧ M e a 1 0 ≠ defGrad (H e a) 1 0 := by
  refine (newtonFinite_program hM lx ly s1 s2 thick σ τ υ hc hx hp hP ho ho0 ho1 S hm hb tol hit dgamma).imp id ?_
  rintro ⟨t, t1, Q₂, q, Cm, G, U, h, g1, g2, a1, hQ, a2, a3, a4, a5⟩
  obtain ⟨calls, Eps, Sig, Ct, T, C, F, H, r, b1, b2, b3, b4⟩ := a5 (by rintro rfl; simp at hd)
  refine ⟨t, t1, Eps, calls, _, _, b1, r.isEps, fun σ τ => h.defGradient a1 σ τ, ?_⟩
  by_contra hne
  have f := h.average_F (thick := thick) hM lx ly hP a2 a4 (i := 1) (j := 0) (by omega) (by omega)
  have g := h.average (thick := thick) hM lx ly hP a2 a4 (i := 1) (j := 0) (by omega) (by omega)
  have : ∑ e ∈ range ne, ∑ a ∈ range 4, defGrad (fun i j => embed (cellGrad s x c U e a) j i) 1 0 * planarVol s thick x c e a =
      ∑ e ∈ range ne, ∑ a ∈ range 4, cellStrain s x c U e a 1 0 * planarVol s thick x c e a := by
    refine sum_congr rfl fun e he => sum_congr rfl fun a ha => ?_
    by_contra hn
    refine hne ⟨e, a, mem_range.1 he, mem_range.1 ha, fun eq => hn ?_⟩
    rw [← eq]
    simp [defGrad]
  rw [f, g] at this
  simp only [one_ne_zero, if_false, zero_ne_one, and_false, mul_zero, false_and, false_or, true_and, and_true, if_true] at this
  refine hd ?_
  have h0 := this.symm
  rcases mul_eq_zero.1 h0 with h1 | h1
  · exact absurd h1 (mul_ne_zero t0 (mul_ne_zero lx.ne' ly.ne'))
  · linarith

end GF
