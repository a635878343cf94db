import Verif.Spec.Newton
import Verif.Lemmas.Static
import Verif.Props.PeriodicCell
import Verif.Props.Parallel

/-! One iteration of the Newton loop of a periodic unit cell. -/

namespace GF
open Finset ElemSpec Element Element.Quad4

variable {α : Type} [Field α] [LinearOrder α] [IsStrictOrderedRing α]
variable {nn ne : Nat} {c : Nat → Nat → Nat} {x : Nat → Nat → α} {Lx Ly : α} {O : Outline}

/-- the state of the objects: that of the cell with the two-dimensional quadrature, beside the planar quadrature -/
structure PeriodicCell.Planar (Z : PeriodicCell α) (Q₂ : Quadrature α) (nn ne np : Nat) (c P : Nat → Nat → Nat) (x : Nat → Nat → α) (o : Nat)
    (s thick : α) (q : Nat → Nat → Nat) (Cm : Nat → Nat → α) : Prop where
  st : PeriodicCell.State ⟨Z.control, Z.tyings, Z.vector, Q₂, Z.K⟩ nn ne np c P x o s q Cm
  live : Live 3 thick ne 4 (fun q i => s * corner4 q i) (fun _ => 1) Z.elem (fun e m i => x (c e m) i)
  nodes : Z.control.control_nodes = [nn, nn + 1]
  coor : Is2 Z.control.coor (nn + 2) 2 fun m i => if m < nn then x m i else 0

theorem cell_planar (hM : RectMesh nn ne c x Lx Ly O) (lx : 0 < Lx) (ly : 0 < Ly) {s : α} (s1 : -1 ≤ s) (s2 : s ≤ 1) (thick : α) (σ τ : Sched)
    {conn pairs : Ten Nat} {coor : Ten α} (hc : Is2 conn ne 4 c) (hx : Is2 coor nn 2 x) {np : Nat} {P : Nat → Nat → Nat}
    (hp : Is2 pairs np 2 P) (hP : PeriodicPairs nn Lx Ly x np P) {o : Nat} (ho : o < nn) (ho0 : x o 0 ≠ Lx) (ho1 : x o 1 ≠ Ly) :
    ∃ Z Q₂ q Cm, PeriodicCell.newPlanar s thick σ τ conn (meshDofs nn 2) coor pairs o = .ok Z ∧
      PeriodicCell.new s σ τ conn (meshDofs nn 2) coor pairs o = .ok ⟨Z.control, Z.tyings, Z.vector, Q₂, Z.K⟩ ∧
      Z.Planar Q₂ nn ne np c P x o s thick q Cm := by
  obtain ⟨Z₂, q, Cm, z1, hZ⟩ := cell_ok hM lx ly s1 s2 σ τ hc hx hp hP ho ho0 ho1
  have z2 := z1
  rw [PeriodicCell.new] at z1
  obtain ⟨ct, a1, z1⟩ := Res.bind_ok z1
  obtain ⟨a, a2, z1⟩ := Res.bind_ok z1
  obtain ⟨b, a3, z1⟩ := Res.bind_ok z1
  obtain ⟨ty, a4, z1⟩ := Res.bind_ok z1
  obtain ⟨Cdu, a5, z1⟩ := Res.bind_ok z1
  obtain ⟨Cdp, a6, z1⟩ := Res.bind_ok z1
  obtain ⟨Cdi, a7, z1⟩ := Res.bind_ok z1
  obtain ⟨V, a8, z1⟩ := Res.bind_ok z1
  obtain ⟨xe, a9, z1⟩ := Res.bind_ok z1
  obtain ⟨Q₂, a10, z1⟩ := Res.bind_ok z1
  obtain ⟨K, a11, z1⟩ := Res.bind_ok z1
  have z1' : Res.ok (⟨ct, ty, V, Q₂, K⟩ : PeriodicCell α) = .ok Z₂ := z1
  injection z1' with z1'
  subst z1'
  obtain ⟨K', n, k1, k2, k3, k4, k5, k6, k7⟩ := Control.C26_control hx (meshDofs_ok nn)
  obtain rfl : ct = K' := by rw [a1] at k1; injection k1
  obtain ⟨e1, e2, e3, e4⟩ := hZ.dims
  have s1' : K.V = V.V := hZ.same.1
  have e1' : V.V.nelem = ne := by rw [← s1']; exact e1
  have e2' : V.V.nne = 4 := by rw [← s1']; exact e2
  have e3' : V.V.nnode = nn + 2 := by rw [← s1']; exact e3
  have e4' : V.V.ndim = 2 := by rw [← s1']; exact e4
  obtain ⟨xe', x1, x2⟩ := C03_element_of_node hZ.vector.base σ (x := ct.coor) (g := fun m i => if m < nn then x m i else 0) (by
    change Is2 _ V.V.nnode V.V.ndim _
    rw [e3', e4']; exact k4)
  obtain rfl : xe = xe' := by
    have x1' : V.V.AsElement σ ct.coor = .ok xe' := x1
    rw [a9] at x1'; injection x1'
  have x3 : Is3 xe ne 4 2 fun e m i => x (c e m) i := by
    have : Is3 xe V.V.nelem V.V.nne V.V.ndim _ := x2
    rw [e1', e2', e4'] at this
    exact this.congr fun e m i he hm hi => if_pos (hM.valid e m he hm)
  obtain ⟨Q, q1, hQ⟩ := newPlanarGauss_ok s thick τ x3
  refine ⟨⟨ct, ty, V, Q, K⟩, Q₂, q, Cm, ?_, z2, hZ, hQ, by rw [k7]; rfl, k4⟩
  simp only [PeriodicCell.newPlanar, a1, a2, a3, a4, a5, a6, a7, a8, a9, q1, a11, Res.ok_bind]
  rfl

/-- volumes of the planar quadrature -/
abbrev planarVol (s thick : α) (x : Nat → Nat → α) (c : Nat → Nat → Nat) (e q : Nat) : α := cellVol s x c e q * thick

/-- the strain -/
abbrev cellStrain (s : α) (x : Nat → Nat → α) (c : Nat → Nat → Nat) (U : Nat → Nat → α) : Nat → Nat → Nat → Nat → α :=
  fun e a => embed (symf (cellGrad s x c U e a))

/-- same DOFs and tyings -/
structure SameSystem (K₀ : MatrixPartitionedTyings α) (c q : Nat → Nat → Nat) (K : MatrixPartitionedTyings α) : Prop where
  holds : ∃ D, K.Holds c q D
  V : K.V = K₀.V
  nnu : K.nnu = K₀.nnu
  nnp : K.nnp = K₀.nnp
  nni : K.nni = K₀.nni
  nnd : K.nnd = K₀.nnd
  iip : K.iip = K₀.iip
  Cdu : K.Cdu = K₀.Cdu
  Cdp : K.Cdp = K₀.Cdp

theorem virtualWork_thick (thick : α) (C : Nat → Nat → Nat → Nat → Nat → Nat → α) (vol : Nat → Nat → α) (g γ : Nat → Nat → Nat → Nat → α) :
    virtualWork ne (fun e a => vol e a * thick) (fun e a => ddot 2 (C e a) (g e a)) γ =
      virtualWork ne vol (fun e a => ddot 2 (thickC thick C e a) (g e a)) γ := by
  refine sum_congr rfl fun e _ => sum_congr rfl fun a _ => ?_
  simp only [power, ddot, thickC, sum_range_succ, sum_range_zero]
  ring

namespace PeriodicCell.Planar
variable {Z : PeriodicCell α} {Q₂ : Quadrature α} {np : Nat} {P : Nat → Nat → Nat} {o : Nat} {s thick : α} {q : Nat → Nat → Nat} {Cm : Nat → Nat → α}

theorem dimsV (h : Z.Planar Q₂ nn ne np c P x o s thick q Cm) :
    Z.vector.V.nelem = ne ∧ Z.vector.V.nne = 4 ∧ Z.vector.V.nnode = nn + 2 ∧ Z.vector.V.ndim = 2 := by
  have := h.st.dims
  rwa [h.st.same.1] at this

theorem vol (h : Z.Planar Q₂ nn ne np c P x o s thick q Cm) : Is2 Z.elem.vol ne 4 (planarVol s thick x c) :=
  (vol_ok h.live).congr fun _ _ _ _ => by simp

theorem strain (h : Z.Planar Q₂ nn ne np c P x o s thick q Cm) (σ τ : Sched) {disp : Ten α} {U : Nat → Nat → α} (hu : Is2 disp (nn + 2) 2 U) :
    IsOk (Z.strain σ τ disp) fun t => Is4 t ne 4 3 3 (cellStrain s x c U) := by
  obtain ⟨e1, e2, e3, e4⟩ := h.dimsV
  obtain ⟨ue, u1, u2⟩ := C03_element_of_node h.st.vector.base σ (x := disp) (g := U) (by
    change Is2 _ Z.vector.V.nnode Z.vector.V.ndim _
    rw [e3, e4]; exact hu)
  have u1' : Z.vector.V.AsElement σ disp = .ok ue := u1
  have u2' : Is3 ue Z.vector.V.nelem Z.vector.V.nne Z.vector.V.ndim _ := u2
  rw [e1, e2, e4] at u2'
  obtain ⟨Eps, g1, g2⟩ := (planar_grads h.live τ u2').2.2
  exact ⟨Eps, by simp only [PeriodicCell.strain, u1', g1, Res.ok_bind], g2⟩

/-- nodal forces of a stress on a mesh that may have moved -/
theorem nodeForce_live (h : Z.Planar Q₂ nn ne np c P x o s thick q Cm) (hM : RectMesh nn ne c x Lx Ly O) {Q : Quadrature α} {y : Nat → Nat → α}
    (hQ : Live 3 thick ne 4 (fun q i => s * corner4 q i) (fun _ => 1) Q (fun e m i => y (c e m) i)) {sig : Ten α} {S}
    (hs : Is4 sig ne 4 3 3 S) : ∃ F, (∀ σ τ, IsOk (({ Z with elem := Q } : PeriodicCell α).nodeForce σ τ sig) fun t => Is2 t (nn + 2) 2 F) ∧
      ∀ W : Nat → Nat → α, ∑ m ∈ range (nn + 2), ∑ i ∈ range 2, F m i * W m i = virtualWork ne (planarVol s thick y c) S (cellGrad s y c W) := by
  have hvol : Is2 Q.vol ne 4 (planarVol s thick y c) := (vol_ok hQ).congr fun _ _ _ _ => by simp
  obtain ⟨e1, e2, e3, e4⟩ := h.dimsV
  obtain ⟨Fe, hFe⟩ : ∃ Fe : Nat → Nat → Nat → α, ∀ e m j, Fe e m j = ∑ a ∈ range 4, (∑ i ∈ range 2, Gf (D4 fun q i => s * corner4 q i)
    (fun e m i => y (c e m) i) e a m i * S e a i j) * planarVol s thick y c e a := ⟨_, fun _ _ _ => rfl⟩
  have hV : Z.vector.V.Holds c q := h.st.vector.base
  refine ⟨fun m i => ∑ e ∈ range ne, ∑ m' ∈ range 4, ∑ i' ∈ range 2, if q (c e m') i' = q m i then Fe e m' i' else 0, fun σ τ => ?_, fun W => ?_⟩
  · obtain ⟨ft, f1, f2⟩ := force_live hQ (by omega) σ hs hvol
    obtain ⟨nt, n1, n2⟩ := C06_assembleNode hV τ (x := ft) (g := Fe) (by rw [e1, e2, e4]; exact f2.congr fun e m j _ _ _ => (hFe e m j).symm)
    rw [e1, e2, e3, e4] at n2
    exact ⟨nt, by simp only [PeriodicCell.nodeForce, f1, n1, Res.ok_bind], n2⟩
  obtain ⟨v, hv⟩ := h.st.dofval W
  have d := dual_sum hV Fe v
  have sd := h.st.sum_dofs (fun r => (∑ e ∈ range ne, ∑ m ∈ range 4, ∑ i ∈ range 2, if q (c e m) i = r then Fe e m i else 0) * v r)
  have sV : Z.K.V = Z.vector.V := h.st.same.1
  simp only [sV] at sd
  rw [e1, e2, e4, sd] at d
  refine Eq.trans (sum_congr rfl fun m hm => sum_congr rfl fun i hi => ?_) (d.trans ?_)
  · rw [hv m i (mem_range.1 hm) (mem_range.1 hi)]
  refine sum_congr rfl fun e he => ?_
  rw [mem_range] at he
  simp only [power]
  rw [← virtual_work]
  refine sum_congr rfl fun m hm => sum_congr rfl fun i hi => ?_
  rw [mem_range] at hm hi
  rw [hv _ _ (by have := hM.valid e m he hm; omega) hi, hFe]

theorem nodeForce (h : Z.Planar Q₂ nn ne np c P x o s thick q Cm) (hM : RectMesh nn ne c x Lx Ly O) {sig : Ten α} {S}
    (hs : Is4 sig ne 4 3 3 S) : ∃ F, (∀ σ τ, IsOk (Z.nodeForce σ τ sig) fun t => Is2 t (nn + 2) 2 F) ∧
      ∀ W : Nat → Nat → α, ∑ m ∈ range (nn + 2), ∑ i ∈ range 2, F m i * W m i = virtualWork ne (planarVol s thick x c) S (cellGrad s x c W) :=
  h.nodeForce_live hM h.live hs

/-- assembly of the stiffness -/
theorem assemble_live (h : Z.Planar Q₂ nn ne np c P x o s thick q Cm) {Q : Quadrature α} {y : Nat → Nat → α}
    (hQ : Live 3 thick ne 4 (fun q i => s * corner4 q i) (fun _ => 1) Q (fun e m i => y (c e m) i)) (ρ : Sched) {Ct : Ten α} {C} (hC : Is6 Ct ne 4 3 3 3 3 C)
    {K : MatrixPartitionedTyings α} (hK : SameSystem Z.K c q K) :
    ∃ kt K' D, Q.Int_gradN_dot_tensor4_dot_gradNT_dV ρ Ct = .ok kt ∧ K.assemble kt = .ok K' ∧ K'.Holds c q D ∧ K'.changed = true ∧
      SameSystem Z.K c q K' ∧ ∀ f v : Nat → α, ∑ r ∈ range Z.K.V.ndof, (∑ l ∈ range Z.K.V.ndof, D r l * f l) * v r =
        virtualWork ne (planarVol s thick y c) (fun e a => ddot 2 (C e a) (cellGrad s y c (fun m i => f (q m i)) e a)) (cellGrad s y c fun m i => v (q m i)) := by
  have hvol : Is2 Q.vol ne 4 (planarVol s thick y c) := (vol_ok hQ).congr fun _ _ _ _ => by simp
  obtain ⟨e1, e2, e3, e4⟩ := h.st.dims
  have e1 : Z.K.V.nelem = ne := e1
  have e2 : Z.K.V.nne = 4 := e2
  have e4 : Z.K.V.ndim = 2 := e4
  obtain ⟨kt, k1, k, k2, k3⟩ := stiff_live hQ (by omega) ρ hC hvol
  obtain ⟨D₀, hD₀⟩ := hK.holds
  obtain ⟨M, m1, m2, m3, m4, m5, m6⟩ := MatrixPartitionedTyings.C28_assemble hD₀ (K := kt) (k := k) (by rw [hK.V, e1, e2, e4]; exact k2)
  have m1' := m1
  obtain ⟨T, n1⟩ : ∃ T, M = { K with A := T, changed := true } := by
    simp only [MatrixPartitionedTyings.assemble] at m1'
    revert m1'
    cases K.assembleLoop kt <;> simp only [Res.ok_bind, Res.throws_bind, Res.ub_bind, reduceCtorEq, false_imp_iff]
    rename_i T
    cases T.toMat9 K.nnu K.nnp K.nnd <;> simp only [Res.ok_bind, Res.throws_bind, Res.ub_bind, reduceCtorEq, false_imp_iff]
    rename_i A
    intro m1'
    injection m1' with m1'
    exact ⟨A, m1'.symm⟩
  rw [hK.V] at m2
  refine ⟨kt, M, _, k1, m1, m2, m3, ⟨⟨_, m2⟩, by rw [m4, hK.V], by rw [n1, ← hK.nnu], by rw [n1, ← hK.nnp], by rw [n1, ← hK.nni],
    by rw [n1, ← hK.nnd], by rw [n1, ← hK.iip], by rw [m5, hK.Cdu], by rw [m6, hK.Cdp]⟩, fun f v => ?_⟩
  rw [bilinear h.st.K.base e2 e4 (nip := 4) (by change ∀ e m j n l, e < Z.K.V.nelem → _; rw [e1]; exact k3) f v, e1]
  rfl

theorem assemble (h : Z.Planar Q₂ nn ne np c P x o s thick q Cm) (ρ : Sched) {Ct : Ten α} {C} (hC : Is6 Ct ne 4 3 3 3 3 C)
    {K : MatrixPartitionedTyings α} (hK : SameSystem Z.K c q K) :
    ∃ kt K' D, Z.elem.Int_gradN_dot_tensor4_dot_gradNT_dV ρ Ct = .ok kt ∧ K.assemble kt = .ok K' ∧ K'.Holds c q D ∧ K'.changed = true ∧
      SameSystem Z.K c q K' ∧ ∀ f v : Nat → α, ∑ r ∈ range Z.K.V.ndof, (∑ l ∈ range Z.K.V.ndof, D r l * f l) * v r =
        virtualWork ne (planarVol s thick x c) (fun e a => ddot 2 (C e a) (cellGrad s x c (fun m i => f (q m i)) e a)) (cellGrad s x c fun m i => v (q m i)) :=
  h.assemble_live h.live ρ hC hK

/-- the solve: any linear solver keeps the prescribed DOFs and the tyings -/
theorem solve_form (h : Z.Planar Q₂ nn ne np c P x o s thick q Cm) 
    (hP : PeriodicPairs nn Lx Ly x np P) (ho : o < nn) {K : MatrixPartitionedTyings α} {D}
    (hD : K.Holds c q D) (hK : SameSystem Z.K c q K) (hch : K.changed = true)
    (S : LinSolver α) (st : SolverState α) (υ : Nat → Sched) {b u : Ten α} {B U : Nat → Nat → α} (hb : Is2 b (nn + 2) 2 B) (hu : Is2 u (nn + 2) 2 U) :
    ∃ st' K' y Y, K.solve_nodevec S st υ b u = .ok (st', K', y) ∧ Is2 y (nn + 2) 2 Y ∧ SameSystem Z.K c q K' ∧
      (∀ j l, j < 2 → l < 2 → Y (nn + j) l = U (nn + j) l) ∧ (∀ i, i < 2 → Y o i = U o i) ∧ PeriodicField nn np P x Y ∧
      (∀ (form : (Nat → Nat → α) → (Nat → Nat → α) → α) (sym : Prop),
        (∀ f v : Nat → α, ∑ r ∈ range Z.K.V.ndof, (∑ l ∈ range Z.K.V.ndof, D r l * f l) * v r = form (fun m i => f (q m i)) (fun m i => v (q m i))) →
        (∀ U V V', (∀ m i, m < nn → i < 2 → V m i = V' m i) → form U V = form U V') → (sym → ∀ U V, form U V = form V U) → (∀ V, 0 ≤ form V V) →
        (∀ W : Nat → Nat → α, (∀ j l, j < 2 → l < 2 → W (nn + j) l = 0) → (∀ i, i < 2 → W o i = 0) → PeriodicField nn np P x W → form W W = 0 →
          ∀ m i, m < nn → i < 2 → W m i = 0) →
        S.Suits sym → ∀ W : Nat → Nat → α, (∀ j l, j < 2 → l < 2 → W (nn + j) l = 0) →
        (∀ i, i < 2 → W o i = 0) → PeriodicField nn np P x W → form Y W = ∑ m ∈ range (nn + 2), ∑ i ∈ range 2, B m i * W m i) := by
  obtain ⟨e1, e2, e3, e4⟩ := h.st.dims
  have e1 : Z.K.V.nelem = ne := e1
  have e2 : Z.K.V.nne = 4 := e2
  have e3 : Z.K.V.nnode = nn + 2 := e3
  have e4 : Z.K.V.ndim = 2 := e4
  have fr : MatrixPartitionedTyings.Fresh st K := Or.inl hch
  obtain ⟨f, hf⟩ := h.st.dofval U
  obtain ⟨g, hg⟩ := h.st.dofval B
  obtain ⟨s', M', y, f', y1, y2, y3, y4, y6, y5⟩ := MatrixPartitionedTyings.C28_solve_any S st hD fr υ (b := b) (x := u)
    (g := g) (f := f) (by rw [hK.V, e3, e4]; exact hb) (by rw [hK.V, e3, e4]; exact hu)
    (fun m i hm hi => (hg m i (by rw [hK.V, e3] at hm; exact hm) (by rw [hK.V, e4] at hi; exact hi)).symm)
    (fun m i hm hi _ => (hf m i (by rw [hK.V, e3] at hm; exact hm) (by rw [hK.V, e4] at hi; exact hi)).symm)
  rw [hK.V, e3, e4] at y2
  have hD' : M'.Holds c q D := by
    rw [y6]
    exact ⟨hD.base, hD.nni, hD.ndof, hD.iiu, hD.iip, hD.iid, hD.surj, hD.Cdu, hD.Cdp, hD.Cud, hD.blocks⟩
  have iip := h.st.iip
  refine ⟨s', M', y, _, y1, y2, ⟨⟨D, hD'⟩, by rw [y6]; exact hK.V, by rw [y6]; exact hK.nnu, by rw [y6]; exact hK.nnp, by rw [y6]; exact hK.nni,
    by rw [y6]; exact hK.nnd, by rw [y6]; exact hK.iip, by rw [y6]; exact hK.Cdu, by rw [y6]; exact hK.Cdp⟩, fun j l hj hl => ?_, fun i hi => ?_, ?_,
    fun form sym hw hcong hsym hnn hdef hS W w0 w1 w2 => ?_⟩
  · have := y3 _ (by rw [hK.iip]; exact (iip (nn + j) l (by omega) hl).2 (by omega))
    rw [this, hf _ _ (by omega) hl]
  · have := y3 _ (by rw [hK.iip]; exact (iip o i (by omega) hi).2 (by omega))
    rw [this, hf _ _ (by omega) hi]
  · rw [hK.nnu, hK.nnp, hK.nnd, hK.nni, hK.Cdu, hK.Cdp] at y4
    exact (h.st.tied f').1 y4
  · have hex := MatrixPartitionedTyings.condensed_exact hD (S := S) (sym := sym) (fun hs => form_symm fun f v => by
        rw [hK.V, hw, hw, hsym hs]) (fun v => by
        rw [hK.V, hw]
        exact hnn _) (fun v v0 v1 v2 a ha => by
      rw [hK.iip] at v0
      rw [hK.nnd, hK.nni, hK.nnu, hK.Cdu] at v1
      rw [hK.V, hw] at v2
      obtain ⟨w0, w1, w2⟩ := (h.st.admissible ho).1 ⟨v0, v1⟩
      have z := hdef (fun m i => v (q m i)) w0 w1 w2 v2
      rw [hK.nnu] at ha
      obtain ⟨m, i, hm, hi, rfl⟩ := h.st.K.surj a (by
        have i1 : Z.K.V.ndof = Z.K.nni + Z.K.nnd := h.st.K.ndof
        have i2 : Z.K.nni = Z.K.nnu + Z.K.nnp := h.st.K.nni
        change a < Z.K.V.ndof
        omega)
      have hm : m < Z.K.V.nnode := hm
      have hi : i < Z.K.V.ndim := hi
      rw [e3] at hm
      rw [e4] at hi
      exact z m i ((h.st.unknown m i hm hi).1 ha).1 hi) hS
    obtain ⟨v, hv⟩ := h.st.dofval W
    have w2' : PeriodicField nn np P x fun m i => v (q m i) := by
      intro k j hk hj
      have := w2 k j hk hj
      beta_reduce
      rw [hv _ _ (by have := hP.valid k 1 hk (by omega); omega) hj, hv _ _ (by have := hP.valid k 0 hk (by omega); omega) hj, this]
      exact sum_congr rfl fun l hl => by rw [hv _ _ (by omega) (mem_range.1 hl)]
    obtain ⟨a1, a2⟩ := (h.st.admissible ho (v := v)).2 ⟨fun j l hj hl => by rw [hv _ _ (by omega) hl]; exact w0 j l hj hl,
      fun i hi => by rw [hv _ _ (by omega) hi]; exact w1 i hi, w2'⟩
    have vw := MatrixPartitionedTyings.C28_virtual_work hD (y5 hex) (v := v) (by rw [hK.iip]; exact a1) (by rw [hK.nnd, hK.nni, hK.nnu, hK.Cdu]; exact a2)
    have ws := hw f' v
    rw [hK.V] at vw
    have e6 : form (fun m i => f' (q m i)) (fun m i => v (q m i)) = form (fun m i => f' (q m i)) W :=
      hcong _ _ _ fun m i hm hi => hv m i (by omega) hi
    rw [← e6, ← ws]
    have sd := h.st.sum_dofs fun k => v k * g k
    have sd : ∑ k ∈ range Z.K.V.ndof, v k * g k = _ := sd
    have e7 : ∑ k ∈ range Z.K.V.ndof, v k * g k = ∑ m ∈ range (nn + 2), ∑ i ∈ range 2, B m i * W m i := by
      rw [sd]
      refine sum_congr rfl fun m hm => sum_congr rfl fun i hi => ?_
      rw [mem_range] at hm hi
      rw [hv _ _ hm hi, hg _ _ hm hi, mul_comm]
    rw [← e7, ← sub_eq_zero, ← sum_sub_distrib, ← vw]
    exact sum_congr rfl fun k _ => by ring

/-- the solve on the mesh that did not move -/
theorem solve (h : Z.Planar Q₂ nn ne np c P x o s thick q Cm) (hM : RectMesh nn ne c x Lx Ly O) (lx : 0 < Lx) (ly : 0 < Ly)
    (hP : PeriodicPairs nn Lx Ly x np P) (ho : o < nn) {K : MatrixPartitionedTyings α} {D}
    (hD : K.Holds c q D) (hK : SameSystem Z.K c q K) (hch : K.changed = true)
    (S : LinSolver α) (st : SolverState α) (υ : Nat → Sched) {b u : Ten α} {B U : Nat → Nat → α} (hb : Is2 b (nn + 2) 2 B) (hu : Is2 u (nn + 2) 2 U) :
    ∃ st' K' y Y, K.solve_nodevec S st υ b u = .ok (st', K', y) ∧ Is2 y (nn + 2) 2 Y ∧ SameSystem Z.K c q K' ∧
      (∀ j l, j < 2 → l < 2 → Y (nn + j) l = U (nn + j) l) ∧ (∀ i, i < 2 → Y o i = U o i) ∧ PeriodicField nn np P x Y ∧
      (∀ C : Nat → Nat → Nat → Nat → Nat → Nat → α, (∀ f v : Nat → α, ∑ r ∈ range Z.K.V.ndof, (∑ l ∈ range Z.K.V.ndof, D r l * f l) * v r =
        virtualWork ne (planarVol s thick x c) (fun e a => ddot 2 (C e a) (cellGrad s x c (fun m i => f (q m i)) e a)) (cellGrad s x c fun m i => v (q m i))) →
      s ≠ 0 → 0 < thick → (∀ e q, e < ne → q < 4 → Elastic (C e q)) → S.Suits (∀ e q, e < ne → q < 4 → Major 2 (C e q)) → ∀ W : Nat → Nat → α, (∀ j l, j < 2 → l < 2 → W (nn + j) l = 0) →
        (∀ i, i < 2 → W o i = 0) → PeriodicField nn np P x W →
        virtualWork ne (planarVol s thick x c) (fun e a => ddot 2 (C e a) (cellGrad s x c Y e a)) (cellGrad s x c W) =
          ∑ m ∈ range (nn + 2), ∑ i ∈ range 2, B m i * W m i) := by
  obtain ⟨st', K', y, Y, y1, y2, y3, y4, y5, y6, y7⟩ := h.solve_form hP ho hD hK hch S st υ hb hu
  refine ⟨st', K', y, Y, y1, y2, y3, y4, y5, y6, fun C hw s0 t0 hE hS => ?_⟩
  have hE' : ∀ e q, e < ne → q < 4 → Elastic (thickC thick C e q) := fun e q he hq => thickC_elastic t0 (hE e q he hq)
  refine y7 (fun U V => virtualWork ne (planarVol s thick x c) (fun e a => ddot 2 (C e a) (cellGrad s x c U e a)) (cellGrad s x c V)) _ hw (fun U V V' hV => ?_)
    (fun hs U V => virtualWork_symm (fun e q he hq => (hE e q he hq).minor) hs _ _ _) (fun V => ?_) (fun W w0 w1 w2 w3 => ?_) hS
  · refine sum_congr rfl fun e he => sum_congr rfl fun a ha => ?_
    congr 1
    refine sum_congr rfl fun i hi => sum_congr rfl fun j hj => ?_
    congr 1
    refine sum_congr rfl fun m hm => ?_
    rw [mem_range] at he hm hj
    beta_reduce
    rw [hV _ _ (hM.valid e m he hm) hj]
  · beta_reduce
    rw [virtualWork_thick]
    exact h.st.work_nonneg hE' _
  · beta_reduce at w3
    rw [virtualWork_thick] at w3
    exact h.st.definite hM lx ly s0 hP ho hE' w0 w1 w2 w3

/-- the reduced force on the DOFs -/
theorem reduced (h : Z.Planar Q₂ nn ne np c P x o s thick q Cm) (hP : PeriodicPairs nn Lx Ly x np P) {f : Ten α} {F : Nat → Nat → α}
    (hf : Is2 f (nn + 2) 2 F) : ∃ H : Nat → α, (∀ υ, IsOk (Z.vector.AsDofs_i υ f) fun t => Is1 t Z.vector.nni H) ∧
      ∀ (W : Nat → Nat → α) (v : Nat → α), PeriodicField nn np P x W → (∀ m i, m < nn + 2 → i < 2 → v (q m i) = W m i) →
        ∑ k ∈ range Z.vector.nni, H k * v k = ∑ m ∈ range (nn + 2), ∑ i ∈ range 2, F m i * W m i := by
  obtain ⟨e1, e2, e3, e4⟩ := h.dimsV
  obtain ⟨g1, g2, g3, g4, g5⟩ := h.st.same
  have g1 : Z.K.V = Z.vector.V := g1
  have g4 : Z.K.nni = Z.vector.nni := g4
  have g5 : Z.K.nnd = Z.vector.nnd := g5
  obtain ⟨g, hg⟩ := h.st.dofval F
  have hf' : Is2 f Z.vector.V.nnode Z.vector.V.ndim F := by rw [e3, e4]; exact hf
  have hg' : ∀ m i, m < Z.vector.V.nnode → i < Z.vector.V.ndim → F m i = g (q m i) := fun m i hm hi =>
    (hg m i (by rw [e3] at hm; exact hm) (by rw [e4] at hi; exact hi)).symm
  have hv0 : Z.vector.Holds c q Cm := h.st.vector
  refine ⟨_, fun υ => VectorPartitionedTyings.C27_AsDofs_i hv0 υ hf' hg', fun W v hW hv => ?_⟩
  have hv' : ∀ r, r < Z.vector.nnd → v (Z.vector.nni + r) = ∑ k ∈ range Z.vector.nni, Cm r k * v k := by
    rw [← g5, ← g4]
    refine (h.st.tied' v).2 fun k j hk hj => ?_
    beta_reduce
    rw [hv _ _ (by have := hP.valid k 1 hk (by omega); omega) hj, hv _ _ (by have := hP.valid k 0 hk (by omega); omega) hj, hW k j hk hj]
    exact sum_congr rfl fun l hl => by rw [hv _ _ (by omega) (mem_range.1 hl)]
  obtain ⟨t, t1, t2⟩ := VectorPartitionedTyings.C27_AsDofs_i hv0 (fun _ => Sched.seq) hf' hg'
  obtain ⟨t', fi, t1', t2', t3'⟩ := VectorPartitionedTyings.C27_virtual_work hv0 (fun _ => Sched.seq) hf' hg' hv'
  obtain rfl : t = t' := by rw [t1] at t1'; injection t1'
  have sd := h.st.sum_dofs fun k => g k * v k
  have sd : ∑ k ∈ range Z.K.V.ndof, g k * v k = _ := sd
  rw [g1] at sd
  rw [sum_congr rfl fun k hk => by rw [t2.unique t2' (mem_range.1 hk)], t3', sd]
  refine sum_congr rfl fun m hm => sum_congr rfl fun i hi => ?_
  rw [hg m i (mem_range.1 hm) (mem_range.1 hi), hv m i (mem_range.1 hm) (mem_range.1 hi)]

omit [IsStrictOrderedRing α] in
theorem _root_.GF.npSumAbs_ok {t : Ten α} {n : Nat} {f : Nat → α} (h : Is1 t n f) : npSumAbs t = .ok (∑ k ∈ range n, |f k|) := by
  simp only [npSumAbs, h.flat, Res.ok_bind, List.map_map]
  refine congrArg Res.ok ?_
  rw [← List.sum_toFinset _ List.nodup_range, List.toFinset_range]
  rfl

theorem residual (h : Z.Planar Q₂ nn ne np c P x o s thick q Cm) (σ : Nat → Nat → Sched) {fext fint : Ten α} {G H : Nat → α}
    (hG : ∀ υ, IsOk (Z.vector.AsDofs_i υ fext) fun t => Is1 t Z.vector.nni G) (hH : ∀ υ, IsOk (Z.vector.AsDofs_i υ fint) fun t => Is1 t Z.vector.nni H) :
    Z.residual σ fext fint = .ok (relativeResidual Z.vector.nnu Z.vector.nnp G H) := by
  have hv0 : Z.vector.Holds c q Cm := h.st.vector
  have ni : Z.vector.nni = Z.vector.nnu + Z.vector.nnp := hv0.nni
  obtain ⟨t, t1, t2⟩ := hG (σ 1)
  obtain ⟨t', t1', t2'⟩ := hH (σ 2)
  obtain ⟨y, y1, y2⟩ := VectorPartitionedTyings.C27_copy_p hv0 (σ 0 5) t2' t2 (le_refl _) (le_refl _)
  obtain ⟨z, z1, z2⟩ := vzip_spec (· - ·) y2 t2'
  have mem : ∀ k, k < Z.vector.nni → (k ∈ Z.vector.iip ↔ Z.vector.nnu ≤ k) := fun k hk => by
    rw [hv0.iip, List.mem_map]
    constructor
    · rintro ⟨a, _, rfl⟩; omega
    · exact fun hle => ⟨k - Z.vector.nnu, List.mem_range.2 (by omega), by omega⟩
  simp only [PeriodicCell.residual, t1, t1', y1, z1, npSumAbs_ok y2, npSumAbs_ok z2, Res.ok_bind, relativeResidual]
  have a : ∑ k ∈ range Z.vector.nni, |(if k ∈ Z.vector.iip then H k else G k) - H k| = ∑ k ∈ range Z.vector.nnu, |G k - H k| := by
    rw [ni, sum_range_add, sum_eq_zero (s := range Z.vector.nnp), add_zero]
    · refine sum_congr rfl fun k hk => ?_
      rw [mem_range] at hk
      rw [if_neg (by rw [mem k (by omega)]; omega)]
    · intro k hk
      rw [mem_range] at hk
      rw [if_pos ((mem _ (by omega)).2 (by omega)), sub_self, abs_zero]
  have b : ∑ k ∈ range Z.vector.nni, |if k ∈ Z.vector.iip then H k else G k| =
      ∑ k ∈ range Z.vector.nnu, |G k| + ∑ k ∈ range Z.vector.nnp, |H (Z.vector.nnu + k)| := by
    rw [ni, sum_range_add]
    congr 1
    · refine sum_congr rfl fun k hk => ?_
      rw [mem_range] at hk
      rw [if_neg (by rw [mem k (by omega)]; omega)]
    · refine sum_congr rfl fun k hk => ?_
      rw [mem_range] at hk
      rw [if_pos ((mem _ (by omega)).2 (by omega))]
  rw [a, b]
  rfl

/-- the residual bounds the error of the virtual work -/
theorem work_bound (h : Z.Planar Q₂ nn ne np c P x o s thick q Cm) {B F : Nat → Nat → α} {G H : Nat → α}
    (hG : ∀ (W : Nat → Nat → α) (v : Nat → α), PeriodicField nn np P x W → (∀ m i, m < nn + 2 → i < 2 → v (q m i) = W m i) →
        ∑ k ∈ range Z.vector.nni, G k * v k = ∑ m ∈ range (nn + 2), ∑ i ∈ range 2, B m i * W m i)
    (hH : ∀ (W : Nat → Nat → α) (v : Nat → α), PeriodicField nn np P x W → (∀ m i, m < nn + 2 → i < 2 → v (q m i) = W m i) →
        ∑ k ∈ range Z.vector.nni, H k * v k = ∑ m ∈ range (nn + 2), ∑ i ∈ range 2, F m i * W m i)
    {W : Nat → Nat → α} (w0 : ∀ j l, j < 2 → l < 2 → W (nn + j) l = 0) (w1 : ∀ i, i < 2 → W o i = 0) (w2 : PeriodicField nn np P x W)
    {w : α} (hw : ∀ m i, m < nn → i < 2 → |W m i| ≤ w) :
    |(∑ m ∈ range (nn + 2), ∑ i ∈ range 2, F m i * W m i) - ∑ m ∈ range (nn + 2), ∑ i ∈ range 2, B m i * W m i| ≤
      w * ∑ k ∈ range Z.vector.nnu, |G k - H k| := by
  obtain ⟨v, hv⟩ := h.st.dofval W
  rw [← hG W v w2 hv, ← hH W v w2 hv, ← sum_sub_distrib]
  obtain ⟨g1, g2, g3, g4, g5⟩ := h.st.same
  have g2 : Z.K.nnu = Z.vector.nnu := g2
  have g4 : Z.K.nni = Z.vector.nni := g4
  have ni : Z.vector.nni = Z.vector.nnu + Z.vector.nnp := h.st.vector.nni
  have i1 : Z.K.V.ndof = Z.K.nni + Z.K.nnd := h.st.K.ndof
  have e3 : Z.K.V.nnode = nn + 2 := h.st.dims.2.2.1
  have e4 : Z.K.V.ndim = 2 := h.st.dims.2.2.2
  have node : ∀ k, k < Z.vector.nni → ∃ m i, m < nn + 2 ∧ i < 2 ∧ q m i = k := fun k hk => by
    obtain ⟨m, i, hm, hi, e⟩ := h.st.K.surj k (by change k < Z.K.V.ndof; omega)
    have hm : m < Z.K.V.nnode := hm
    have hi : i < Z.K.V.ndim := hi
    rw [e3] at hm
    rw [e4] at hi
    exact ⟨m, i, hm, hi, e⟩
  rw [ni, sum_range_add, sum_eq_zero (s := range Z.vector.nnp), add_zero]
  · refine (abs_sum_le_sum_abs _ _).trans ?_
    rw [mul_sum]
    refine sum_le_sum fun k hk => ?_
    rw [mem_range] at hk
    obtain ⟨m, i, hm, hi, rfl⟩ := node k (by omega)
    have hu : m < nn := ((h.st.unknown m i hm hi).1 (by change q m i < Z.K.nnu; omega)).1
    rw [← sub_mul, abs_mul, hv m i hm hi, abs_sub_comm, mul_comm]
    exact mul_le_mul_of_nonneg_right (hw m i hu hi) (abs_nonneg _)
  · intro k hk
    rw [mem_range] at hk
    obtain ⟨m, i, hm, hi, e⟩ := node (Z.vector.nnu + k) (by omega)
    have np' : Z.K.nnp = Z.vector.nnp := g3
    have : q m i ∈ Z.K.iip := by
      have := h.st.K.iip
      have : Z.K.iip = (List.range Z.K.nnp).map (Z.K.nnu + ·) := this
      rw [this, List.mem_map]
      exact ⟨k, List.mem_range.2 (by omega), by omega⟩
    have z : v (Z.vector.nnu + k) = 0 := by
      rw [← e, hv m i hm hi]
      rcases (h.st.iip m i hm hi).1 this with a | a
      · obtain ⟨j, rfl⟩ := Nat.exists_eq_add_of_le a
        exact w0 j i (by omega) hi
      · rw [a]; exact w1 i hi
    rw [z, mul_zero, mul_zero, sub_zero]

end PeriodicCell.Planar

end GF
