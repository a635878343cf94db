import Verif.Lemmas.NewtonLoop
import Verif.Props.StaticMeshes
import Verif.Props.StaticExamples

/-! **C95** the Newton loop of a periodic unit cell. -/

namespace GF
open Finset ElemSpec Element Element.Quad4

variable {α : Type} [Field α] [LinearOrder α] [IsStrictOrderedRing α]
variable {nn ne : Nat} {c : Nat → Nat → Nat} {x : Nat → Nat → α} {Lx Ly : α} {O : Outline}

namespace PeriodicCell.Planar
variable {Z : PeriodicCell α} {Q₂ : Quadrature α} {np : Nat} {P : Nat → Nat → Nat} {o : Nat} {s thick : α} {q : Nat → Nat → Nat} {Cm : Nat → Nat → α}

theorem gradient (h : Z.Planar Q₂ nn ne np c P x o s thick q Cm) (W : Nat → Nat → α) :
    Z.PlanarGradient (nn + 2) ne W fun e a => embed (cellGrad s x c W e a) := by
  intro σ τ u hu
  obtain ⟨e1, e2, e3, e4⟩ := h.dimsV
  obtain ⟨ue, u1, u2⟩ := C03_element_of_node h.st.vector.base σ (x := u) (g := W) (by
    change Is2 _ Z.vector.V.nnode Z.vector.V.ndim _
    rw [e3, e4]; exact hu)
  have u1' : Z.vector.V.AsElement σ u = .ok ue := u1
  have u2' : Is3 ue Z.vector.V.nelem Z.vector.V.nne Z.vector.V.ndim _ := u2
  rw [e1, e2, e4] at u2'
  obtain ⟨g, g1, g2⟩ := (planar_grads h.live τ u2').1
  exact ⟨g, by simp only [u1', g1, Res.ok_bind], g2⟩

/-- the gradient of the library is unique -/
theorem gradient_eq (h : Z.Planar Q₂ nn ne np c P x o s thick q Cm) {W : Nat → Nat → α} {γ} (hγ : Z.PlanarGradient (nn + 2) ne W γ)
    {e a i j : Nat} (he : e < ne) (ha : a < 4) (hi : i < 3) (hj : j < 3) : γ e a i j = embed (cellGrad s x c W e a) i j := by
  have hu : Is2 (Ten.of [nn + 2, 2] fun ix => W (ix.getD 0 0) (ix.getD 1 0)) (nn + 2) 2 W := ⟨rfl, fun i j _ _ => by simp [Ten.of]⟩
  obtain ⟨t, t1, t2⟩ := hγ Sched.seq Sched.seq _ hu
  obtain ⟨t', t1', t2'⟩ := h.gradient W Sched.seq Sched.seq _ hu
  obtain rfl : t = t' := by rw [t1] at t1'; injection t1'
  exact t2.unique t2' he ha hi hj

theorem strain_eq (h : Z.Planar Q₂ nn ne np c P x o s thick q Cm) {U : Nat → Nat → α} {E} (hE : Z.PlanarStrain (nn + 2) ne U E)
    {e a i j : Nat} (he : e < ne) (ha : a < 4) (hi : i < 3) (hj : j < 3) : E e a i j = cellStrain s x c U e a i j := by
  have hu : Is2 (Ten.of [nn + 2, 2] fun ix => U (ix.getD 0 0) (ix.getD 1 0)) (nn + 2) 2 U := ⟨rfl, fun i j _ _ => by simp [Ten.of]⟩
  obtain ⟨t, t1, t2⟩ := hE Sched.seq Sched.seq _ hu
  obtain ⟨t', t1', t2'⟩ := h.strain Sched.seq Sched.seq hu
  obtain rfl : t = t' := by rw [t1] at t1'; injection t1'
  exact t2.unique t2' he ha hi hj

/-- virtual work in three and in two dimensions -/
theorem work_eq (h : Z.Planar Q₂ nn ne np c P x o s thick q Cm) {W : Nat → Nat → α} {γ} (hγ : Z.PlanarGradient (nn + 2) ne W γ)
    {vol : Nat → Nat → α} (hv : Is2 Z.elem.vol ne 4 vol) (S : Nat → Nat → Nat → Nat → α) :
    planarWork ne vol S γ = virtualWork ne (planarVol s thick x c) S (cellGrad s x c W) := by
  refine sum_congr rfl fun e he => sum_congr rfl fun a ha => ?_
  rw [mem_range] at he ha
  rw [hv.unique h.vol he ha]
  congr 1
  simp only [power, sum_range_succ, sum_range_zero]
  repeat rw [h.gradient_eq hγ he ha (by omega) (by omega)]
  simp [embed]

/-- the stress of a linear material in two dimensions -/
theorem work_linear {C : Nat → Nat → Nat → Nat → Nat → Nat → α} (hC : ∀ e q, e < ne → q < 4 → Elastic (C e q)) {E : Nat → Nat → Nat → Nat → α} {U : Nat → Nat → α}
    (hE : ∀ e a i j, e < ne → a < 4 → i < 3 → j < 3 → E e a i j = cellStrain s x c U e a i j) (γ : Nat → Nat → Nat → Nat → α) (vol : Nat → Nat → α) :
    virtualWork ne vol (fun e a => ddot 3 (C e a) (E e a)) γ = virtualWork ne vol (fun e a => ddot 2 (C e a) (cellGrad s x c U e a)) γ := by
  refine sum_congr rfl fun e he => sum_congr rfl fun a ha => ?_
  rw [mem_range] at he ha
  congr 1
  refine sum_congr rfl fun i hi => sum_congr rfl fun j hj => ?_
  rw [mem_range] at hi hj
  congr 1
  beta_reduce
  rw [show ddot 2 (C e a) (cellGrad s x c U e a) i j = ∑ k ∈ range 2, ∑ l ∈ range 2, C e a i j k l * cellGrad s x c U e a l k from rfl,
    ← ddot_embed ((hC e a he ha).minor i j 0 1 hi hj (by omega) (by omega))]
  refine sum_congr rfl fun k hk => sum_congr rfl fun l hl => ?_
  rw [hE e a l k he ha (mem_range.1 hl) (mem_range.1 hk)]

/-- average strain -/
theorem average (h : Z.Planar Q₂ nn ne np c P x o s thick q Cm) (hM : RectMesh nn ne c x Lx Ly O) (lx : 0 < Lx) (ly : 0 < Ly)
    (hP : PeriodicPairs nn Lx Ly x np P) {U : Nat → Nat → α} {g : α} (h0 : ∀ j l, j < 2 → l < 2 → U (nn + j) l = if j = 0 ∧ l = 1 then g else 0)
    (h1 : PeriodicField nn np P x U) {i j : Nat} (hi : i < 3) (hj : j < 3) :
    ∑ e ∈ range ne, ∑ a ∈ range 4, cellStrain s x c U e a i j * planarVol s thick x c e a =
      thick * (Lx * Ly) * if (i = 0 ∧ j = 1) ∨ (i = 1 ∧ j = 0) then g / 2 else 0 := by
  have av : ∀ i j, i < 2 → j < 2 → ∑ e ∈ range ne, ∑ a ∈ range 4, cellGrad s x c U e a i j * cellVol s x c e a = Lx * Ly * U (nn + j) i :=
    fun i j hi hj => avg_gradient hM lx ly h.st.det hP hj (A := fun j l => U (nn + j) l) (fun k hk => h1 k j hk hj) hi
  by_cases hij : i < 2 ∧ j < 2
  · have e1 : ∀ e a, cellStrain s x c U e a i j * planarVol s thick x c e a =
        thick / 2 * (cellGrad s x c U e a i j * cellVol s x c e a) + thick / 2 * (cellGrad s x c U e a j i * cellVol s x c e a) := by
      intro e a
      obtain ⟨hi', hj'⟩ := hij
      simp only [cellStrain, embed, symf]
      interval_cases i <;> interval_cases j <;> simp <;> ring
    simp only [e1, sum_add_distrib, ← mul_sum]
    rw [av i j hij.1 hij.2, av j i hij.2 hij.1, h0 j i hij.2 hij.1, h0 i j hij.1 hij.2]
    obtain ⟨hi', hj'⟩ := hij
    interval_cases i <;> interval_cases j <;> simp <;> ring
  · rw [if_neg (by omega), mul_zero]
    refine sum_eq_zero fun e _ => sum_eq_zero fun a _ => ?_
    simp only [cellStrain, embed, if_neg hij, zero_mul]

end PeriodicCell.Planar

/-- the objects and the loop together -/
theorem newton_program (hM : RectMesh nn ne c x Lx Ly O) (lx : 0 < Lx) (ly : 0 < Ly) {s : α} (s1 : -1 ≤ s) (s2 : s ≤ 1) (thick : α)
    (σ τ : Sched) (υ : Nat → Nat → Nat → Nat → Sched) {conn pairs : Ten Nat} {coor : Ten α} (hc : Is2 conn ne 4 c) (hx : Is2 coor nn 2 x) {np : Nat}
    {P : Nat → Nat → Nat} (hp : Is2 pairs np 2 P) (hP : PeriodicPairs nn Lx Ly x np P) {o : Nat} (ho : o < nn) (ho0 : x o 0 ≠ Lx) (ho1 : x o 1 ≠ Ly)
    (S : LinSolver α) {material : HistoryMaterial α} (hm : material.Responds ne) {fext : Ten α} {B : Nat → Nat → α} (hb : Is2 fext (nn + 2) 2 B)
    (tol : α) {maxit iters : Nat} (hit : maxit + 1 < iters) (dgamma : List α) :
    newtonProgram s thick σ τ conn (meshDofs nn 2) coor pairs o S material fext tol maxit iters υ dgamma = .throws ∨
    IsOk (newtonProgram s thick σ τ conn (meshDofs nn 2) coor pairs o S material fext tol maxit iters υ dgamma) fun t =>
      ∃ Q₂ q Cm G U, t.1.Planar Q₂ nn ne np c P x o s thick q Cm ∧ (∀ υ, IsOk (t.1.vector.AsDofs_i υ fext) fun z => Is1 z t.1.vector.nni G) ∧
        (∀ (W : Nat → Nat → α) (v : Nat → α), PeriodicField nn np P x W → (∀ m i, m < nn + 2 → i < 2 → v (q m i) = W m i) →
          ∑ k ∈ range t.1.vector.nni, G k * v k = ∑ m ∈ range (nn + 2), ∑ i ∈ range 2, B m i * W m i) ∧
        Is2 t.2.disp (nn + 2) 2 U ∧ (∀ j l, j < 2 → l < 2 → U (nn + j) l = if j = 0 ∧ l = 1 then dgamma.sum else 0) ∧
        (∀ i, i < 2 → U o i = 0) ∧ PeriodicField nn np P x U ∧
        (dgamma ≠ [] → ∃ calls Eps Sig Ct S C F H, Newton.Done t.1 nn ne np c P x s thick q material tol G t.2 U calls Eps Sig Ct S C F H) := by
  obtain ⟨Z, Q₂, q, Cm, z1, z2, h⟩ := cell_planar hM lx ly s1 s2 thick σ τ hc hx hp hP ho ho0 ho1
  obtain ⟨G, g1, g2⟩ := h.reduced hP hb
  have hz : Is2 (Ten.full Z.control.coor.shape (0 : α)) (nn + 2) 2 fun _ _ => 0 := by rw [h.coor.1]; exact ⟨rfl, fun _ _ _ _ => rfl⟩
  have hK : SameSystem Z.K c q Z.K := ⟨⟨_, h.st.K⟩, rfl, rfl, rfl, rfl, rfl, rfl, rfl, rfl⟩
  rcases newton_run hM lx ly hP ho h S hm hb g1 tol hit υ dgamma 0
    ⟨Ten.full Z.control.coor.shape 0, Ten.full Z.control.coor.shape 0, Z.K, SolverState.init, []⟩ _ hz hK with t | ⟨N, U, a1, a2, a3, a4, a5, a6⟩
  · left
    simp only [newtonProgram, z1, Res.ok_bind, t, Res.throws_bind]
  · right
    refine ⟨(Z, N), by simp only [newtonProgram, z1, Res.ok_bind, a1]; rfl, Q₂, q, Cm, G, U, h, g1, g2, a2, fun j l hj hl => ?_, a4, a5 ?_, a6⟩
    · rw [a3 j l hj hl, zero_add]
    · intro k j _ _; simp

/-- **C95** (kinematics) For every mesh of a rectangle, every material with any memory, every load, every history of the shear and
every linear solver (also one that is wrong): the program ends, with the exception of `iiter > maxit` or with a displacement that is
periodic up to the total shear, that leaves the origin in place, and whose average strain is that of the total shear. -/
theorem C95_run (hM : RectMesh nn ne c x Lx Ly O) (lx : 0 < Lx) (ly : 0 < Ly) {s : α} (s1 : -1 ≤ s) (s2 : s ≤ 1) (thick : α)
    (σ τ : Sched) (υ : Nat → Nat → Nat → Nat → Sched) {conn pairs : Ten Nat} {coor : Ten α} (hc : Is2 conn ne 4 c) (hx : Is2 coor nn 2 x) {np : Nat}
    {P : Nat → Nat → Nat} (hp : Is2 pairs np 2 P) (hP : PeriodicPairs nn Lx Ly x np P) {o : Nat} (ho : o < nn) (ho0 : x o 0 ≠ Lx) (ho1 : x o 1 ≠ Ly)
    (S : LinSolver α) {material : HistoryMaterial α} (hm : material.Responds ne) {fext : Ten α} {B : Nat → Nat → α} (hb : Is2 fext (nn + 2) 2 B)
    (tol : α) {maxit iters : Nat} (hit : maxit + 1 < iters) (dgamma : List α) :
    newtonProgram s thick σ τ conn (meshDofs nn 2) coor pairs o S material fext tol maxit iters υ dgamma = .throws ∨
    IsOk (newtonProgram s thick σ τ conn (meshDofs nn 2) coor pairs o S material fext tol maxit iters υ dgamma) fun t =>
      ∃ U E vol, Is2 t.2.disp (nn + 2) 2 U ∧ (∀ j l, j < 2 → l < 2 → U (nn + j) l = if j = 0 ∧ l = 1 then dgamma.sum else 0) ∧
        (∀ i, i < 2 → U o i = 0) ∧ PeriodicField nn np P x U ∧ Is2 t.1.elem.vol ne 4 vol ∧ t.1.PlanarStrain (nn + 2) ne U E ∧
        ∀ i j, i < 3 → j < 3 → ∑ e ∈ range ne, ∑ a ∈ range 4, E e a i j * vol e a =
          thick * (Lx * Ly) * if (i = 0 ∧ j = 1) ∨ (i = 1 ∧ j = 0) then dgamma.sum / 2 else 0 := by
  refine (newton_program hM lx ly s1 s2 thick σ τ υ hc hx hp hP ho ho0 ho1 S hm hb tol hit dgamma).imp id ?_
  rintro ⟨t, t1, Q₂, q, Cm, G, U, h, -, -, a1, a2, a3, a4, -⟩
  exact ⟨t, t1, U, _, _, a1, a2, a3, a4, h.vol, fun σ τ u hu => h.strain σ τ hu, fun i j hi hj => h.average hM lx ly hP a2 a4 hi hj⟩

/-- **C95** (convergence) if the program ends without exception, then its last question to the material was about the strain of the
displacement that it returns, `fint` are the nodal forces of the stress that the material answered, the relative residual of these
forces is below the tolerance, and the stress is in equilibrium with the load up to the residual: for all periodic virtual
displacements `W` that keep the origin in place the difference in virtual work is at most the sum of the residual forces times the
largest `|W|`. -/
theorem C95_converged (hM : RectMesh nn ne c x Lx Ly O) (lx : 0 < Lx) (ly : 0 < Ly) {s : α} (s1 : -1 ≤ s) (s2 : s ≤ 1) (thick : α)
    (σ τ : Sched) (υ : Nat → Nat → Nat → Nat → Sched) {conn pairs : Ten Nat} {coor : Ten α} (hc : Is2 conn ne 4 c) (hx : Is2 coor nn 2 x) {np : Nat}
    {P : Nat → Nat → Nat} (hp : Is2 pairs np 2 P) (hP : PeriodicPairs nn Lx Ly x np P) {o : Nat} (ho : o < nn) (ho0 : x o 0 ≠ Lx) (ho1 : x o 1 ≠ Ly)
    (S : LinSolver α) {material : HistoryMaterial α} (hm : material.Responds ne) {fext : Ten α} {B : Nat → Nat → α} (hb : Is2 fext (nn + 2) 2 B)
    (tol : α) {maxit iters : Nat} (hit : maxit + 1 < iters) {dgamma : List α} (hd : dgamma ≠ []) :
    newtonProgram s thick σ τ conn (meshDofs nn 2) coor pairs o S material fext tol maxit iters υ dgamma = .throws ∨
    IsOk (newtonProgram s thick σ τ conn (meshDofs nn 2) coor pairs o S material fext tol maxit iters υ dgamma) fun t =>
      ∃ U E F T vol G H calls Eps Sig Ct, Is2 t.2.disp (nn + 2) 2 U ∧ t.1.PlanarStrain (nn + 2) ne U E ∧ Is4 Eps ne 4 3 3 E ∧
        t.2.calls = .refresh Eps :: calls ∧ material t.2.calls = .ok (Sig, Ct) ∧ Is4 Sig ne 4 3 3 T ∧
        Is2 t.2.fint (nn + 2) 2 F ∧ (∀ σ τ, IsOk (t.1.nodeForce σ τ Sig) fun f => Is2 f (nn + 2) 2 F) ∧
        (∀ υ, IsOk (t.1.vector.AsDofs_i υ fext) fun z => Is1 z t.1.vector.nni G) ∧
        (∀ υ, IsOk (t.1.vector.AsDofs_i υ t.2.fint) fun z => Is1 z t.1.vector.nni H) ∧
        relativeResidual t.1.vector.nnu t.1.vector.nnp G H < tol ∧ Is2 t.1.elem.vol ne 4 vol ∧
        ∀ W γ w, t.1.PlanarGradient (nn + 2) ne W γ → (∀ j l, j < 2 → l < 2 → W (nn + j) l = 0) → (∀ i, i < 2 → W o i = 0) →
          PeriodicField nn np P x W → (∀ m i, m < nn → i < 2 → |W m i| ≤ w) →
          |planarWork ne vol T γ - ∑ m ∈ range nn, ∑ i ∈ range 2, B m i * W m i| ≤ w * ∑ k ∈ range t.1.vector.nnu, |G k - H k| := by
  refine (newton_program hM lx ly s1 s2 thick σ τ υ hc hx hp hP ho ho0 ho1 S hm hb tol hit dgamma).imp id ?_
  rintro ⟨t, t1, Q₂, q, Cm, G, U, h, g1, g2, a1, a2, a3, a4, a5⟩
  obtain ⟨calls, Eps, Sig, Ct, T, C, F, H, r, b1, b2, b3, b4⟩ := a5 hd
  refine ⟨t, t1, U, _, F, T, _, G, H, calls, Eps, Sig, Ct, a1, fun σ τ u hu => h.strain σ τ hu, r.isEps, b1, by rw [b1]; exact r.response, r.isSig, b2, r.force,
    g1, b3, b4, h.vol, fun W γ w hγ w0 w1 w2 hw => ?_⟩
  have := h.work_bound g2 r.reduced w0 w1 w2 hw
  rw [h.work_eq hγ h.vol, ← r.work]
  have e : ∑ m ∈ range (nn + 2), ∑ i ∈ range 2, B m i * W m i = ∑ m ∈ range nn, ∑ i ∈ range 2, B m i * W m i := by
    rw [sum_range_add, sum_eq_zero (s := range 2), add_zero]
    intro j hj
    exact sum_eq_zero fun l hl => by rw [w0 j l (mem_range.1 hj) (mem_range.1 hl), mul_zero]
  rwa [e] at this

/-! ### Linear materials -/

namespace PeriodicCell.Planar
variable {Z : PeriodicCell α} {Q₂ : Quadrature α} {np : Nat} {P : Nat → Nat → Nat} {o : Nat} {s thick : α} {q : Nat → Nat → Nat} {Cm : Nat → Nat → α}

/-- forces that do the same virtual work have the same reduced values on the unknown DOFs -/
theorem reduced_eq (h : Z.Planar Q₂ nn ne np c P x o s thick q Cm) (ho : o < nn) {B F : Nat → Nat → α} {G H : Nat → α}
    (hG : ∀ (W : Nat → Nat → α) (v : Nat → α), PeriodicField nn np P x W → (∀ m i, m < nn + 2 → i < 2 → v (q m i) = W m i) →
        ∑ k ∈ range Z.vector.nni, G k * v k = ∑ m ∈ range (nn + 2), ∑ i ∈ range 2, B m i * W m i)
    (hH : ∀ (W : Nat → Nat → α) (v : Nat → α), PeriodicField nn np P x W → (∀ m i, m < nn + 2 → i < 2 → v (q m i) = W m i) →
        ∑ k ∈ range Z.vector.nni, H k * v k = ∑ m ∈ range (nn + 2), ∑ i ∈ range 2, F m i * W m i)
    (hw : ∀ W : Nat → Nat → α, (∀ j l, j < 2 → l < 2 → W (nn + j) l = 0) → (∀ i, i < 2 → W o i = 0) → PeriodicField nn np P x W →
      ∑ m ∈ range (nn + 2), ∑ i ∈ range 2, F m i * W m i = ∑ m ∈ range (nn + 2), ∑ i ∈ range 2, B m i * W m i)
    {k : Nat} (hk : k < Z.vector.nnu) : G k = H k := by
  obtain ⟨g1, g2, g3, g4, g5⟩ := h.st.same
  have g2 : Z.K.nnu = Z.vector.nnu := g2
  have g3 : Z.K.nnp = Z.vector.nnp := g3
  have g4 : Z.K.nni = Z.vector.nni := g4
  have ni : Z.vector.nni = Z.vector.nnu + Z.vector.nnp := h.st.vector.nni
  obtain ⟨v, hv⟩ : ∃ v : Nat → α, ∀ a, v a = if a < Z.K.nni then (if a = k then 1 else 0) else Cm (a - Z.K.nni) k := ⟨_, fun _ => rfl⟩
  have one : ∀ f : Nat → α, ∑ a ∈ range Z.vector.nni, f a * v a = f k := by
    intro f
    rw [sum_eq_single_of_mem k (mem_range.2 (by omega)) fun a ha hak => ?_]
    · rw [hv, if_pos (by omega), if_pos rfl, mul_one]
    · rw [hv, if_pos (by rw [g4]; exact mem_range.1 ha), if_neg hak, mul_zero]
  have per : PeriodicField nn np P x fun m i => v (q m i) := by
    refine (h.st.tied' v).1 fun r hr => ?_
    have := one (Cm r)
    change v (Z.K.nni + r) = ∑ k ∈ range Z.K.nni, Cm r k * v k
    rw [g4, this, hv, g4, if_neg (by omega), Nat.add_sub_cancel_left]
  have zero : ∀ a ∈ Z.K.iip, v a = 0 := by
    intro a ha
    have e : Z.K.iip = (List.range Z.K.nnp).map (Z.K.nnu + ·) := h.st.K.iip
    rw [e, List.mem_map] at ha
    obtain ⟨b, hb, rfl⟩ := ha
    have := List.mem_range.1 hb
    rw [hv, if_pos (by omega), if_neg (by omega)]
  have w := hw (fun m i => v (q m i)) (fun j l hj hl => zero _ ((h.st.iip (nn + j) l (by omega) hl).2 (by omega)))
    (fun i hi => zero _ ((h.st.iip o i (by omega) hi).2 (by omega))) per
  rw [← hG _ v per fun _ _ _ _ => rfl, ← hH _ v per fun _ _ _ _ => rfl, one, one] at w
  exact w.symm

/-- the linear problem of the planar cell -/
theorem solvesShear (h : Z.Planar Q₂ nn ne np c P x o s thick q Cm) {C : Nat → Nat → Nat → Nat → Nat → Nat → α}
    (hC : ∀ e q, e < ne → q < 4 → Elastic (C e q)) {vol : Nat → Nat → α} (hv : Is2 Z.elem.vol ne 4 vol) {B Y : Nat → Nat → α} {γ : α}
    (h0 : ∀ j l, j < 2 → l < 2 → Y (nn + j) l = if j = 0 ∧ l = 1 then γ else 0) (h1 : ∀ i, i < 2 → Y o i = 0) (h2 : PeriodicField nn np P x Y)
    (hw : ∀ W : Nat → Nat → α, (∀ j l, j < 2 → l < 2 → W (nn + j) l = 0) → (∀ i, i < 2 → W o i = 0) → PeriodicField nn np P x W →
      virtualWork ne (planarVol s thick x c) (fun e a => ddot 2 (C e a) (cellGrad s x c Y e a)) (cellGrad s x c W) =
        ∑ m ∈ range (nn + 2), ∑ i ∈ range 2, B m i * W m i) : Z.SolvesShear nn ne np P x o C vol B γ Y := by
  refine ⟨h0, h1, h2, fun E g W hE hg w0 w1 w2 => ?_⟩
  rw [h.work_eq hg hv, work_linear hC (fun e a i j he ha hi hj => h.strain_eq hE he ha hi hj), hw W w0 w1 w2, sum_range_add,
    sum_eq_zero (s := range 2), add_zero]
  intro j hj
  exact sum_eq_zero fun l hl => by rw [w0 j l (mem_range.1 hj) (mem_range.1 hl), mul_zero]

/-- it is the problem in two dimensions with the thickness in the tangent -/
theorem toCell (h : Z.Planar Q₂ nn ne np c P x o s thick q Cm) (ho : o < nn) {C : Nat → Nat → Nat → Nat → Nat → Nat → α}
    (hC : ∀ e q, e < ne → q < 4 → Elastic (C e q)) {vol : Nat → Nat → α} (hv : Is2 Z.elem.vol ne 4 vol) {B Y : Nat → Nat → α} {γ : α}
    (hY : Z.SolvesShear nn ne np P x o C vol B γ Y) : SolvesCell Z.vector.V Q₂ nn ne np P x o (thickC thick C) (cellVol s x c) B
      (fun m l => if m = nn ∧ l = 1 then γ else 0) Y := by
  refine ⟨fun j l hj hl => ?_, fun i hi => ?_, hY.periodic, fun g γ W hg hγ w0 w1 w2 => ?_⟩
  · rw [hY.shear j l hj hl]; exact if_congr (by omega) rfl rfl
  · rw [hY.fixed i hi]; exact (if_neg (by omega)).symm
  · have := hY.weak _ _ W (fun σ τ u hu => h.strain σ τ hu) (h.gradient W) w0 w1 w2
    rw [h.work_eq (h.gradient W) hv, work_linear hC (fun _ _ _ _ _ _ _ _ => rfl)] at this
    rw [← this]
    have e := h.st.work_congr (C := thickC thick C) h.st.vol hg hγ
    rw [e, virtualWork_thick]

end PeriodicCell.Planar

section
variable {Z : PeriodicCell α} {Q₂ : Quadrature α} {np : Nat} {P : Nat → Nat → Nat} {o : Nat} {s thick : α} {q : Nat → Nat → Nat} {Cm : Nat → Nat → α}

/-- one increment with a linear material: two iterations, the second one finds equilibrium -/
theorem newton_linear_loop (hM : RectMesh nn ne c x Lx Ly O) (lx : 0 < Lx) (ly : 0 < Ly) (hP : PeriodicPairs nn Lx Ly x np P) (ho : o < nn)
    (h : Z.Planar Q₂ nn ne np c P x o s thick q Cm) (s0 : s ≠ 0) (t0 : 0 < thick) {S₀ : LinSolver α} {material : HistoryMaterial α}
    {C : Nat → Nat → Nat → Nat → Nat → Nat → α} (hS : S₀.Suits (∀ e q, e < ne → q < 4 → Major 2 (C e q))) (hC : ∀ e q, e < ne → q < 4 → Elastic (C e q)) (hm : material.Linear ne C)
    {fext : Ten α} {B : Nat → Nat → α} (hb : Is2 fext (nn + 2) 2 B) {G : Nat → α}
    (hG : ∀ υ, IsOk (Z.vector.AsDofs_i υ fext) fun t => Is1 t Z.vector.nni G)
    (hG' : ∀ (W : Nat → Nat → α) (v : Nat → α), PeriodicField nn np P x W → (∀ m i, m < nn + 2 → i < 2 → v (q m i) = W m i) →
        ∑ k ∈ range Z.vector.nni, G k * v k = ∑ m ∈ range (nn + 2), ∑ i ∈ range 2, B m i * W m i)
    {tol : α} (htol : 0 < tol) (maxit : Nat) (dg : α) (σ : Nat → Nat → Nat → Sched) (n : Nat) {N : Newton α} {U : Nat → Nat → α}
    (hU : Is2 N.disp (nn + 2) 2 U) (hK : SameSystem Z.K c q N.K) :
    ∃ N' Y, Newton.loop Z S₀ material fext tol maxit dg σ (n + 2) 0 N = .ok N' ∧ Is2 N'.disp (nn + 2) 2 (fun m i => U m i + Y m i) ∧
      SameSystem Z.K c q N'.K ∧ N'.calls.length = N.calls.length + 2 ∧ (∀ j l, j < 2 → l < 2 → Y (nn + j) l = if j = 0 ∧ l = 1 then dg else 0) ∧
      (∀ i, i < 2 → Y o i = 0) ∧ PeriodicField nn np P x Y ∧
      ∀ W : Nat → Nat → α, (∀ j l, j < 2 → l < 2 → W (nn + j) l = 0) → (∀ i, i < 2 → W o i = 0) → PeriodicField nn np P x W →
        virtualWork ne (planarVol s thick x c) (fun e a => ddot 2 (C e a) (cellGrad s x c (fun m i => U m i + Y m i) e a)) (cellGrad s x c W) =
          ∑ m ∈ range (nn + 2), ∑ i ∈ range 2, B m i * W m i := by
  have hm' : ∀ calls Eps E, Is4 Eps ne 4 3 3 E → IsOk (material (.refresh Eps :: calls)) fun r => ∃ S C', Is4 r.1 ne 4 3 3 S ∧ Is6 r.2 ne 4 3 3 3 3 C' ∧
      (S = (fun e q => ddot 3 (C e q) (E e q)) ∧ C' = C) := fun calls Eps E hE =>
    (hm calls Eps E hE).imp fun _ ⟨h0, h1, h2⟩ => ⟨h0, _, _, h1, h2, rfl, rfl⟩
  obtain ⟨Eps, Sig, Ct, S, C', F, H, a, ⟨rfl, rfl⟩, -, -, a3⟩ := newton_iter hM lx ly hP ho h S₀ (material := material) hb hG tol maxit dg σ (n + 1) 0 hU hK
    (Pr := fun E S C' => S = (fun e q => ddot 3 (C e q) (E e q)) ∧ C' = C) (hm' _)
  obtain ⟨N₁, Y, b1, b2, b3, b4, b5, b6, b7, b8⟩ := a3 (Or.inl rfl)
  have weak : ∀ W : Nat → Nat → α, (∀ j l, j < 2 → l < 2 → W (nn + j) l = 0) → (∀ i, i < 2 → W o i = 0) → PeriodicField nn np P x W →
        virtualWork ne (planarVol s thick x c) (fun e a => ddot 2 (C' e a) (cellGrad s x c (fun m i => U m i + Y m i) e a)) (cellGrad s x c W) =
          ∑ m ∈ range (nn + 2), ∑ i ∈ range 2, B m i * W m i := by
    intro W w0 w1 w2
    have e1 := b8 s0 t0 hC hS W w0 w1 w2
    have e2 := a.work W
    rw [PeriodicCell.Planar.work_linear (U := U) hC fun _ _ _ _ _ _ _ _ => rfl] at e2
    have e3 : virtualWork ne (planarVol s thick x c) (fun e a => ddot 2 (C' e a) (cellGrad s x c (fun m i => U m i + Y m i) e a)) (cellGrad s x c W) =
        virtualWork ne (planarVol s thick x c) (fun e a => ddot 2 (C' e a) (cellGrad s x c U e a)) (cellGrad s x c W) +
        virtualWork ne (planarVol s thick x c) (fun e a => ddot 2 (C' e a) (cellGrad s x c Y e a)) (cellGrad s x c W) := by
      simp only [virtualWork, ← sum_add_distrib, ← add_mul]
      refine sum_congr rfl fun e _ => sum_congr rfl fun a _ => ?_
      congr 1
      have lin : ∀ i j, ddot 2 (C' e a) (cellGrad s x c (fun m i => U m i + Y m i) e a) i j =
          ddot 2 (C' e a) (cellGrad s x c U e a) i j + ddot 2 (C' e a) (cellGrad s x c Y e a) i j := by
        intro i j
        simp only [ddot, cellGrad, grad, ← sum_add_distrib, ← mul_add]
      simp only [power, lin, add_mul, sum_add_distrib]
    rw [e3, e1, ← e2, ← sum_add_distrib]
    refine sum_congr rfl fun m _ => ?_
    rw [← sum_add_distrib]
    exact sum_congr rfl fun i _ => by ring
  obtain ⟨Eps', Sig', Ct', S', C'', F', H', a', ⟨rfl, rfl⟩, c1, -, -⟩ := newton_iter hM lx ly hP ho h S₀ (material := material) hb hG tol maxit dg σ n 1 b2 b3
    (Pr := fun E S C => S = (fun e q => ddot 3 (C' e q) (E e q)) ∧ C = C') (hm' _)
  have eq : ∀ k, k < Z.vector.nnu → G k = H' k := fun k hk => h.reduced_eq ho hG' a'.reduced (fun W w0 w1 w2 => by
    rw [a'.work W, PeriodicCell.Planar.work_linear (U := fun m i => U m i + Y m i) hC fun _ _ _ _ _ _ _ _ => rfl]
    exact weak W w0 w1 w2) hk
  have res : relativeResidual Z.vector.nnu Z.vector.nnp G H' < tol := by
    have z : ∑ k ∈ range Z.vector.nnu, |G k - H' k| = 0 := sum_eq_zero fun k hk => by rw [eq k (mem_range.1 hk), sub_self, abs_zero]
    simp only [relativeResidual, z, zero_div]
    split <;> exact htol
  obtain ⟨N₂, d1, d2, d3, d4, d5, d6⟩ := c1 (by omega) res
  refine ⟨N₂, Y, b1.trans d1, by rw [d2]; exact b2, d4, by rw [d5, b4]; simp, fun j l hj hl => by rw [b5 j l hj hl]; simp, b6, b7, weak⟩

/-- the increments with a linear material -/
theorem newton_linear_run (hM : RectMesh nn ne c x Lx Ly O) (lx : 0 < Lx) (ly : 0 < Ly) (hP : PeriodicPairs nn Lx Ly x np P) (ho : o < nn)
    (h : Z.Planar Q₂ nn ne np c P x o s thick q Cm) (s0 : s ≠ 0) (t0 : 0 < thick) {S₀ : LinSolver α} {material : HistoryMaterial α}
    {C : Nat → Nat → Nat → Nat → Nat → Nat → α} (hS : S₀.Suits (∀ e q, e < ne → q < 4 → Major 2 (C e q))) (hC : ∀ e q, e < ne → q < 4 → Elastic (C e q)) (hm : material.Linear ne C)
    {fext : Ten α} {B : Nat → Nat → α} (hb : Is2 fext (nn + 2) 2 B) {G : Nat → α}
    (hG : ∀ υ, IsOk (Z.vector.AsDofs_i υ fext) fun t => Is1 t Z.vector.nni G)
    (hG' : ∀ (W : Nat → Nat → α) (v : Nat → α), PeriodicField nn np P x W → (∀ m i, m < nn + 2 → i < 2 → v (q m i) = W m i) →
        ∑ k ∈ range Z.vector.nni, G k * v k = ∑ m ∈ range (nn + 2), ∑ i ∈ range 2, B m i * W m i)
    {tol : α} (htol : 0 < tol) (maxit n : Nat) (σ : Nat → Nat → Nat → Nat → Sched) (dgs : List α) : ∀ (inc : Nat) (N : Newton α) (U : Nat → Nat → α),
    Is2 N.disp (nn + 2) 2 U → SameSystem Z.K c q N.K → PeriodicField nn np P x U → ∃ N' U', Newton.run Z S₀ material fext tol maxit (n + 2) σ dgs inc N = .ok N' ∧
      Is2 N'.disp (nn + 2) 2 U' ∧ N'.calls.length = N.calls.length + 3 * dgs.length ∧
      (∀ j l, j < 2 → l < 2 → U' (nn + j) l = U (nn + j) l + if j = 0 ∧ l = 1 then dgs.sum else 0) ∧ (∀ i, i < 2 → U' o i = U o i) ∧
      PeriodicField nn np P x U' ∧ (dgs ≠ [] →
      ∀ W : Nat → Nat → α, (∀ j l, j < 2 → l < 2 → W (nn + j) l = 0) → (∀ i, i < 2 → W o i = 0) → PeriodicField nn np P x W →
        virtualWork ne (planarVol s thick x c) (fun e a => ddot 2 (C e a) (cellGrad s x c U' e a)) (cellGrad s x c W) =
          ∑ m ∈ range (nn + 2), ∑ i ∈ range 2, B m i * W m i) := by
  induction dgs with
  | nil => intro inc N U hU hK hp; exact ⟨N, U, rfl, hU, by simp, by simp, by simp, hp, fun h => absurd rfl h⟩
  | cons dg rest ih =>
    intro inc N U hU hK hp
    rw [Newton.run]
    obtain ⟨N', Y, a1, a2, a3, a4, a5, a6, a7, a8⟩ := newton_linear_loop hM lx ly hP ho h s0 t0 hS hC hm hb hG hG' htol maxit dg (σ inc) n
      (N := { N with calls := .increment :: N.calls }) hU hK
    rw [a1, Res.ok_bind]
    by_cases hr : rest = []
    · subst hr
      refine ⟨N', _, rfl, a2, by rw [a4]; simp, fun j l hj hl => by rw [a5 j l hj hl]; simp, fun i hi => by rw [a6 i hi, add_zero], hp.add a7, fun _ => a8⟩
    · obtain ⟨N'', U'', b1, b2, b3, b4, b5, b6, b7⟩ := ih (inc + 1) N' _ a2 a3 (hp.add a7)
      refine ⟨N'', U'', b1, b2, by rw [b3, a4, List.length_cons, List.length_cons]; omega, fun j l hj hl => ?_, fun i hi => by rw [b5 i hi, a6 i hi, add_zero], b6, fun _ => b7 hr⟩
      rw [b4 j l hj hl, a5 j l hj hl, List.sum_cons]
      split <;> ring

end

/-- **C95** (linear material) with a linear elastic material that has no memory, a solver that suits it, a positive tolerance and at least two
iterations per increment, the program never throws; each increment takes two iterations (one call `increment` and two calls `refresh`);
and the displacement is the unique solution of the linear problem of the cell under the total shear. -/
theorem C95_linear (hM : RectMesh nn ne c x Lx Ly O) (lx : 0 < Lx) (ly : 0 < Ly) {s : α} (s0 : s ≠ 0) (s1 : -1 ≤ s) (s2 : s ≤ 1) {thick : α} (t0 : 0 < thick)
    (σ τ : Sched) (υ : Nat → Nat → Nat → Nat → Sched) {conn pairs : Ten Nat} {coor : Ten α} (hc : Is2 conn ne 4 c) (hx : Is2 coor nn 2 x) {np : Nat}
    {P : Nat → Nat → Nat} (hp : Is2 pairs np 2 P) (hP : PeriodicPairs nn Lx Ly x np P) {o : Nat} (ho : o < nn) (ho0 : x o 0 ≠ Lx) (ho1 : x o 1 ≠ Ly)
    {S : LinSolver α} {material : HistoryMaterial α} {C : Nat → Nat → Nat → Nat → Nat → Nat → α} (hS : S.Suits (∀ e q, e < ne → q < 4 → Major 2 (C e q)))
    (hC : ∀ e q, e < ne → q < 4 → Elastic (C e q)) (hm : material.Linear ne C) {fext : Ten α} {B : Nat → Nat → α} (hb : Is2 fext (nn + 2) 2 B)
    {tol : α} (htol : 0 < tol) (maxit : Nat) {iters : Nat} (hit : 2 ≤ iters) {dgamma : List α} (hd : dgamma ≠ []) :
    IsOk (newtonProgram s thick σ τ conn (meshDofs nn 2) coor pairs o S material fext tol maxit iters υ dgamma) fun t =>
      ∃ U vol, Is2 t.2.disp (nn + 2) 2 U ∧ Is2 t.1.elem.vol ne 4 vol ∧ t.2.calls.length = 3 * dgamma.length ∧
        (∀ W, ∃ E g, t.1.PlanarStrain (nn + 2) ne W E ∧ t.1.PlanarGradient (nn + 2) ne W g) ∧
        t.1.SolvesShear nn ne np P x o C vol B dgamma.sum U ∧
        ∀ U', t.1.SolvesShear nn ne np P x o C vol B dgamma.sum U' → ∀ m i, m < nn → i < 2 → U' m i = U m i := by
  obtain ⟨n, rfl⟩ := Nat.exists_eq_add_of_le' hit
  obtain ⟨Z, Q₂, q, Cm, z1, z2, h⟩ := cell_planar hM lx ly s1 s2 thick σ τ hc hx hp hP ho ho0 ho1
  obtain ⟨G, g1, g2⟩ := h.reduced hP hb
  have hz : Is2 (Ten.full Z.control.coor.shape (0 : α)) (nn + 2) 2 fun _ _ => 0 := by rw [h.coor.1]; exact ⟨rfl, fun _ _ _ _ => rfl⟩
  have hK : SameSystem Z.K c q Z.K := ⟨⟨_, h.st.K⟩, rfl, rfl, rfl, rfl, rfl, rfl, rfl, rfl⟩
  obtain ⟨N, U, a1, a2, a3, a4, a5, a6, a7⟩ := newton_linear_run hM lx ly hP ho h s0 t0 hS hC hm hb g1 g2 htol maxit n υ dgamma 0
    ⟨Ten.full Z.control.coor.shape 0, Ten.full Z.control.coor.shape 0, Z.K, SolverState.init, []⟩ _ hz hK (by intro k j _ _; simp)
  have sol := h.solvesShear hC h.vol (B := B) (γ := dgamma.sum) (fun j l hj hl => by rw [a4 j l hj hl, zero_add]) a5 a6 (a7 hd)
  refine ⟨(Z, N), by simp only [newtonProgram, z1, Res.ok_bind, a1]; rfl, U, _, a2, h.vol, by rw [a3]; simp,
    fun W => ⟨_, _, fun σ τ u hu => h.strain σ τ hu, h.gradient W⟩, sol, fun U' hU' => ?_⟩
  exact periodicCell_unique hM lx ly s0 hP ho h.st (fun e q he hq => thickC_elastic t0 (hC e q he hq)) (h.toCell ho hC h.vol hU') (h.toCell ho hC h.vol sol)

/-- **C95** (homogeneous linear material) without load the displacement is the simple shear `u_x = γ y` with the total shear `γ` -/
theorem C95_homogeneous (hM : RectMesh nn ne c x Lx Ly O) (lx : 0 < Lx) (ly : 0 < Ly) {s : α} (s0 : s ≠ 0) (s1 : -1 ≤ s) (s2 : s ≤ 1) {thick : α} (t0 : 0 < thick)
    (σ τ : Sched) (υ : Nat → Nat → Nat → Nat → Sched) {conn pairs : Ten Nat} {coor : Ten α} (hc : Is2 conn ne 4 c) (hx : Is2 coor nn 2 x) {np : Nat}
    {P : Nat → Nat → Nat} (hp : Is2 pairs np 2 P) (hP : PeriodicPairs nn Lx Ly x np P) {o : Nat} (ho : o < nn) (ho0 : x o 0 ≠ Lx) (ho1 : x o 1 ≠ Ly)
    {S : LinSolver α} {material : HistoryMaterial α} {C : Nat → Nat → Nat → Nat → α} (hS : S.Suits (Major 2 C))
    (hC : Elastic C) (hm : material.Linear ne fun _ _ => C) {fext : Ten α} (hb : Is2 fext (nn + 2) 2 fun _ _ => 0)
    {tol : α} (htol : 0 < tol) (maxit : Nat) {iters : Nat} (hit : 2 ≤ iters) (dgamma : List α) :
    IsOk (newtonProgram s thick σ τ conn (meshDofs nn 2) coor pairs o S material fext tol maxit iters υ dgamma) fun t =>
      ∃ U, Is2 t.2.disp (nn + 2) 2 U ∧ ∀ m, m < nn → U m 0 = dgamma.sum * (x m 1 - x o 1) ∧ U m 1 = 0 := by
  obtain ⟨Z, Q₂, q, Cm, z1, z2, h⟩ := cell_planar hM lx ly s1 s2 thick σ τ hc hx hp hP ho ho0 ho1
  by_cases hd : dgamma = []
  · subst hd
    refine ⟨_, by simp only [newtonProgram, z1, Res.ok_bind, Newton.run]; rfl, fun _ _ => 0, ?_, by simp⟩
    dsimp only
    rw [h.coor.1]
    exact ⟨rfl, fun _ _ _ _ => rfl⟩
  obtain ⟨t, t1, U, vol, b1, b2, -, -, b3, -⟩ := C95_linear hM lx ly s0 s1 s2 t0 σ τ υ hc hx hp hP ho ho0 ho1 (hS.imp fun h _ _ _ _ => h) (fun _ _ _ _ => hC) hm hb htol maxit hit hd
  refine ⟨t, t1, U, b1, ?_⟩
  obtain rfl : t.1 = Z := by
    simp only [newtonProgram, z1, Res.ok_bind] at t1
    obtain ⟨N, n1, n2⟩ := Res.bind_ok t1
    have n2' : Res.ok (Z, N) = .ok t := n2
    injection n2' with n2'
    rw [← n2']
  obtain ⟨A, hA⟩ : ∃ A : Nat → Nat → α, ∀ m j, A m j = if m < nn then (fun m l => if m = nn ∧ l = 1 then dgamma.sum else 0) o j +
      ∑ l ∈ range 2, (fun m l => if m = nn ∧ l = 1 then dgamma.sum else 0) (nn + j) l * (x m l - x o l) else
      (fun m l => if m = nn ∧ l = 1 then dgamma.sum else 0) m j := ⟨_, fun _ _ => rfl⟩
  have aff := affine_solvesCell hM lx ly hP ho h.st (C := fun i j k l => thick * C i j k l) hA
  have u := periodicCell_unique hM lx ly s0 hP ho h.st (fun e q _ _ => thickC_elastic (C := fun _ _ => C) (e := e) (q := q) t0 hC)
    (h.toCell ho (fun _ _ _ _ => hC) b2 b3) aff
  intro m hm
  rw [u m 0 hm (by omega), u m 1 hm (by omega), hA, hA, if_pos hm, if_pos hm]
  have : o ≠ nn := by omega
  simp [sum_range_succ, this]

/-- **C95** (Quad4 `Regular`): the program with the tables of the mesh; for every material with any memory it ends with the exception or
with average strain `γ / 2`; for a homogeneous linear material it ends in simple shear. -/
theorem C95_quad4_regular {nelx nely : Nat} (hx : 0 < nelx) (hy : 0 < nely) {h : α} (hh : 0 < h) {s : α} (s1 : -1 ≤ s) (s2 : s ≤ 1) (thick : α)
    (σ τ : Sched) (υ : Nat → Nat → Nat → Nat → Sched) (S : LinSolver α) (material : HistoryMaterial α) {fext : Ten α} {B : Nat → Nat → α}
    (hb : Is2 fext ((nelx + 1) * (nely + 1) + 2) 2 B) (tol : α) (maxit iters : Nat) (dgamma : List α) :
    let M := Quad4.Regular.new nelx nely h
    let program : Res (PeriodicCell α × Newton α) := do
      let conn ← Quad4.Regular.conn M
      let coor ← M.coor
      let pairs ← Quad4.Regular.nodesPeriodic M
      newtonProgram s thick σ τ conn (meshDofs M.nnode 2) coor pairs (Quad4.Regular.nodesOrigin M) S material fext tol maxit iters υ dgamma
    (material.Responds M.nelem → maxit + 1 < iters → program = .throws ∨ IsOk program fun t => ∃ U E vol, Is2 t.2.disp (M.nnode + 2) 2 U ∧
      Is2 t.1.elem.vol M.nelem 4 vol ∧ t.1.PlanarStrain (M.nnode + 2) M.nelem U E ∧ U 0 0 = 0 ∧ U 0 1 = 0 ∧
      ∀ i j, i < 3 → j < 3 → ∑ e ∈ range M.nelem, ∑ a ∈ range 4, E e a i j * vol e a =
        thick * (h * (nelx : α) * (h * (nely : α))) * if (i = 0 ∧ j = 1) ∨ (i = 1 ∧ j = 0) then dgamma.sum / 2 else 0) ∧
    (∀ C, s ≠ 0 → 0 < thick → S.Suits (Major 2 C) → Elastic C → (material.Linear M.nelem fun _ _ => C) → (∀ m i, B m i = 0) → 0 < tol → 2 ≤ iters →
      IsOk program fun t => ∃ U, Is2 t.2.disp (M.nnode + 2) 2 U ∧ ∀ iy ix, iy ≤ nely → ix ≤ nelx →
        U (iy * (nelx + 1) + ix) 0 = dgamma.sum * (h * (iy : α)) ∧ U (iy * (nelx + 1) + ix) 1 = 0) := by
  intro M program
  obtain ⟨c, x, O, hA, hM⟩ := C73_quad4_regular nelx nely hh
  obtain ⟨cn, a1, a2⟩ := hA.conn
  obtain ⟨xt, b1, b2⟩ := hA.coor
  obtain ⟨xt', x', pt, P, p1, p2, p3, p4, p5⟩ := C33_quad4_nodesPeriodic nelx nely hx hy hh
  obtain rfl : xt = xt' := by rw [b1] at p1; injection p1
  have p6 := p5.congr (x := x) fun m i hm hi => b2.unique p2 hm hi
  obtain ⟨xt'', x'', o1, o2, o3, o4, o5⟩ := C32_quad4_origin nelx nely h
  obtain rfl : xt = xt'' := by rw [b1] at o1; injection o1
  have lx : 0 < h * (nelx : α) := mul_pos hh (by exact_mod_cast hx)
  have ly : 0 < h * (nely : α) := mul_pos hh (by exact_mod_cast hy)
  have e2 : x (Quad4.Regular.nodesOrigin M) 0 = 0 := (b2.unique o2 o3 (by omega)).trans o4
  have e3 : x (Quad4.Regular.nodesOrigin M) 1 = 0 := (b2.unique o2 o3 (by omega)).trans o5
  have a1' : Quad4.Regular.conn M = .ok cn := a1
  have b1' : M.coor = .ok xt := b1
  have p3' : Quad4.Regular.nodesPeriodic M = .ok pt := p3
  have pr : program = newtonProgram s thick σ τ cn (meshDofs M.nnode 2) xt pt (Quad4.Regular.nodesOrigin M) S material fext tol maxit iters υ dgamma := by
    simp only [program, a1', b1', p3', Res.ok_bind]
  rw [pr]
  refine ⟨fun hm hit => ?_, fun C s0 t0 hS hC hm hB htol hit => ?_⟩
  · refine (C95_run hM lx ly s1 s2 thick σ τ υ a2 b2 p4 p6 o3 (by rw [e2]; exact lx.ne) (by rw [e3]; exact ly.ne) S hm hb tol hit dgamma).imp id ?_
    rintro ⟨t, t1, U, E, vol, u1, u2, u3, u4, u5, u6, u7⟩
    exact ⟨t, t1, U, E, vol, u1, u5, u6, u3 0 (by omega), u3 1 (by omega), u7⟩
  · obtain ⟨t, t1, U, u1, u2⟩ := C95_homogeneous hM lx ly s0 s1 s2 t0 σ τ υ a2 b2 p4 p6 o3 (by rw [e2]; exact lx.ne) (by rw [e3]; exact ly.ne) hS hC hm
      (hb.congr fun m i _ _ => hB m i) htol maxit hit dgamma
    refine ⟨t, t1, U, u1, fun iy ix hi hj => ?_⟩
    obtain ⟨xt3, q1, q2⟩ := M.coor_spec rfl rfl
    obtain rfl : xt = xt3 := by rw [b1'] at q1; injection q1
    have hm : iy * (nelx + 1) + ix < M.nnode := by
      have := grid_lt (show iy < nely + 1 by omega) (show ix < nelx + 1 by omega)
      rw [Nat.mul_comm (nely + 1)] at this; exact this
    have p := gridCoor_node h (nelx := nelx) (i := iy) (j := ix) (by omega)
    have e1 : x (iy * (nelx + 1) + ix) 1 = h * (iy : α) := (b2.unique q2 hm (by omega)).trans p.2
    obtain ⟨v1, v2⟩ := u2 _ hm
    have e3' : x (Quad4.Regular.nodesOrigin (Quad4.Regular.new nelx nely h)) 1 = 0 := e3
    rw [e1, e3', sub_zero] at v1
    exact ⟨v1, v2⟩

/-! ### The hypotheses can be met -/

/-- a material that hardens with each call of `increment`: its stress depends on the history -/
def hardening (ne : Nat) (C : Nat → Nat → Nat → Nat → Nat → Nat → α) : HistoryMaterial α
  | .refresh Eps :: calls =>
    linearMaterial ne (fun e q i j k l => (1 + ((calls.filter fun | .increment => true | .refresh _ => false).length : α)) * C e q i j k l) Eps
  | _ => .throws

omit [LinearOrder α] [IsStrictOrderedRing α] in
theorem hardening_responds (ne : Nat) (C : Nat → Nat → Nat → Nat → Nat → Nat → α) : (hardening ne C).Responds ne := by
  intro calls Eps E hE
  obtain ⟨r, r1, r2, r3⟩ := linearMaterial_ok ne (fun e q i j k l => (1 + ((calls.filter fun | .increment => true | .refresh _ => false).length : α)) * C e q i j k l) Eps E hE
  exact ⟨r, r1, _, _, r2, r3⟩

/-- a linear material without memory -/
def linearHistory (ne : Nat) (C : Nat → Nat → Nat → Nat → Nat → Nat → α) : HistoryMaterial α
  | .refresh Eps :: _ => linearMaterial ne C Eps
  | _ => .throws

omit [LinearOrder α] [IsStrictOrderedRing α] in
theorem linearHistory_linear (ne : Nat) (C : Nat → Nat → Nat → Nat → Nat → Nat → α) : (linearHistory ne C).Linear ne C :=
  fun _ Eps E hE => linearMaterial_ok ne C Eps E hE

/-- a 3 x 2 mesh in which the shear is applied in three steps: the upper right node moves over the height times the total shear -/
example : ∃ S : LinSolver ℚ, IsOk (do
      let M := Quad4.Regular.new 3 2 (1 : ℚ)
      let conn ← Quad4.Regular.conn M
      let coor ← M.coor
      let pairs ← Quad4.Regular.nodesPeriodic M
      newtonProgram (1 / 2) 1 Sched.seq Sched.seq conn (meshDofs M.nnode 2) coor pairs (Quad4.Regular.nodesOrigin M) S
        (linearHistory 6 fun _ _ => isotropic (1 : ℚ) 1) (Ten.full [14, 2] 0) (1 / 100000) 20 100 (fun _ _ _ _ => Sched.seq) [0, 1 / 10, 2 / 10])
      fun t => t.2.disp.get [11, 0] = .ok (6 / 10) ∧ t.2.disp.get [11, 1] = .ok 0 := by
  obtain ⟨S, hS⟩ := exists_direct (α := ℚ)
  obtain ⟨t, t1, U, u1, u2⟩ := (C95_quad4_regular (nelx := 3) (nely := 2) (by omega) (by omega) (h := (1 : ℚ)) (by norm_num) (s := 1 / 2) (by norm_num)
    (by norm_num) 1 Sched.seq Sched.seq (fun _ _ _ _ => Sched.seq) S (linearHistory 6 fun _ _ => isotropic (1 : ℚ) 1) (full_zero (nn := 14) (m := 2))
    (1 / 100000) 20 100 [0, 1 / 10, 2 / 10]).2 (isotropic 1 1) (by norm_num) (by norm_num) (hS.suits _) (isotropic_elastic (by norm_num) (by norm_num))
    (linearHistory_linear _ _) (fun _ _ => rfl) (by norm_num) (by omega)
  refine ⟨S, t, t1, ?_, ?_⟩
  · rw [u1.get (show 11 < 12 + 2 by omega) (by omega)]
    have := (u2 2 3 (by omega) (by omega)).1
    rw [show (11 : Nat) = 2 * (3 + 1) + 3 by rfl, this]
    norm_num
  · rw [u1.get (show 11 < 12 + 2 by omega) (by omega)]
    have := (u2 2 3 (by omega) (by omega)).2
    rw [show (11 : Nat) = 2 * (3 + 1) + 3 by rfl, this]

/-- a material with memory and a solver that is not exact -/
example : let M := Quad4.Regular.new 3 2 (1 : ℚ)
    let program : Res (PeriodicCell ℚ × Newton ℚ) := do
      let conn ← Quad4.Regular.conn M
      let coor ← M.coor
      let pairs ← Quad4.Regular.nodesPeriodic M
      newtonProgram (1 / 2) 1 Sched.seq Sched.seq conn (meshDofs M.nnode 2) coor pairs (Quad4.Regular.nodesOrigin M) ⟨fun _ _ _ => 0⟩
        (hardening 6 fun _ _ => isotropic (1 : ℚ) 1) (Ten.full [14, 2] 0) (1 / 100000) 20 100 (fun _ _ _ _ => Sched.seq) [0, 1 / 10, 2 / 10]
    program = .throws ∨ IsOk program fun t => ∃ U, Is2 t.2.disp 14 2 U ∧ U 0 0 = 0 ∧ U 0 1 = 0 := by
  refine ((C95_quad4_regular (nelx := 3) (nely := 2) (by omega) (by omega) (h := (1 : ℚ)) (by norm_num) (s := 1 / 2) (by norm_num)
    (by norm_num) 1 Sched.seq Sched.seq (fun _ _ _ _ => Sched.seq) ⟨fun _ _ _ => 0⟩ (hardening 6 fun _ _ => isotropic (1 : ℚ) 1) (full_zero (nn := 14) (m := 2))
    (1 / 100000) 20 100 [0, 1 / 10, 2 / 10]).1 (hardening_responds _ _) (by omega)).imp id ?_
  rintro ⟨t, t1, U, E, vol, u1, -, -, u2, u3, -⟩
  exact ⟨t, t1, U, u1, u2, u3⟩

end GF
