import Verif.Spec.Static
import Verif.Lemmas.ExactUU
import Verif.Lemmas.Dynamics
import Verif.Props.ElementPlanar

/-! The planar quadrature of the static program, reduced to the two-dimensional one with the tangent times the thickness. -/

namespace GF
open Finset ElemSpec Element Element.Quad4

variable {α : Type} [Field α] [LinearOrder α] [IsStrictOrderedRing α]
variable {nn ne : Nat} {c d : Nat → Nat → Nat} {x : Nat → Nat → α} {Lx Ly : α} {O : Outline}

/-- the tangent times the thickness -/
def thickC (thick : α) (C : Nat → Nat → Nat → Nat → Nat → Nat → α) (e q i j k l : Nat) : α := thick * C e q i j k l

omit [LinearOrder α] [IsStrictOrderedRing α] in
theorem thickC_major {thick : α} {C : Nat → Nat → Nat → Nat → Nat → Nat → α} {e q : Nat} (h : Major 2 (C e q)) : Major 2 (thickC thick C e q) :=
  fun i j k l hi hj hk hl => by rw [thickC, thickC, h i j k l hi hj hk hl]

theorem thickC_elastic {thick : α} (t0 : 0 < thick) {C : Nat → Nat → Nat → Nat → Nat → Nat → α} {e q : Nat} (h : Elastic (C e q)) :
    Elastic (thickC thick C e q) := by
  have key : ∀ g : Nat → Nat → α, power 2 (ddot 2 (thickC thick C e q) g) g = thick * power 2 (ddot 2 (C e q) g) g := by
    intro g
    simp only [power, ddot, thickC, sum_range_succ, sum_range_zero]
    ring
  refine ⟨fun i j k l hi hj hk hl => by rw [thickC, thickC, h.minor i j k l hi hj hk hl], fun g => ?_, fun g hg => ?_⟩
  · rw [key]; exact mul_nonneg t0.le (h.nonneg g)
  · rw [key] at hg
    exact h.pos g ((mul_eq_zero.1 hg).resolve_left t0.ne')

omit [LinearOrder α] [IsStrictOrderedRing α] in
theorem newPlanarGauss_ok [CharZero α] (s thick : α) (σ : Sched) {xe : Ten α} {X} (hx : Is3 xe ne 4 2 X) :
    ∃ Q, newPlanarGauss s σ xe thick = .ok Q ∧ Live 3 thick ne 4 (fun q i => s * corner4 q i) (fun _ => 1) Q X := by
  obtain ⟨xi, h1, h2⟩ := rule_ok s
  obtain ⟨w, h3, h4⟩ := (weights_ok (α := α)).1
  obtain ⟨Q, h5, -⟩ := construct_ok hx h2 h4 3 thick σ
  exact ⟨Q, by simp only [newPlanarGauss, newPlanar, h1, h3, h5, Res.ok_bind], .new hx h2 h4 h5⟩

omit [LinearOrder α] [IsStrictOrderedRing α] in
/-- in-plane stress of a plane strain -/
theorem ddot_embed [CharZero α] {C : Nat → Nat → Nat → Nat → α} {i j : Nat} (h : C i j 0 1 = C i j 1 0) (g : Nat → Nat → α) :
    ddot 3 C (embed (symf g)) i j = ∑ k ∈ range 2, ∑ l ∈ range 2, C i j k l * g l k := by
  have h2 : (2 : α) ≠ 0 := two_ne_zero
  simp only [ddot, sum_range_succ, sum_range_zero, embed, symf]
  simp
  rw [h]
  field_simp
  ring

/-- the matrix of the static program: it is regular and positive with respect to the unknown DOFs, and its product with the displacements
is the internal force -/
structure StaticSys (nn ne n : Nat) (c d : Nat → Nat → Nat) (x : Nat → Nat → α) (P : VectorPartitioned) (Q : Quadrature α)
    (material : Ten α → Res (Ten α × Ten α)) (C : Nat → Nat → Nat → Nat → Nat → Nat → α) (B : Nat → Nat → α) : Prop where
  stiff : ∀ (ρ : Sched) (Ct : Ten α), Is6 Ct ne 4 3 3 3 3 C → ∃ kt k, Q.Int_gradN_dot_tensor4_dot_gradNT_dV ρ Ct = .ok kt ∧
    Is3 kt P.V.nelem (P.V.nne * P.V.ndim) (P.V.nne * P.V.ndim) k ∧ SMatrix.assembled P.V c d k = B
  regular : ∀ (iip : List Nat) (f : Nat → α), Supported nn d x iip → (∀ r, r < n → r ∉ iip → ∑ s ∈ range n, B r s * f s = 0) →
        (∀ k ∈ iip, f k = 0) → ∀ m i, m < nn → i < 2 → f (d m i) = 0
  energy : EnergyForm n B (fun iip f => Supported nn d x iip → ∀ m i, m < nn → i < 2 → f (d m i) = 0)
    (∀ e q, e < ne → q < 4 → Major 2 (C e q))
  response : ∀ (σ : Nat → Sched) (disp : Ten α) (f : Nat → α), Is2 disp nn 2 (fun m i => f (d m i)) →
    IsOk (staticResponse P Q material σ disp) fun r => Is2 r.1 nn 2 (fun m i => ∑ s ∈ range n, B (d m i) s * f s) ∧
      Is6 r.2 ne 4 3 3 3 3 C

theorem static_sys (hM : RectMesh nn ne c x Lx Ly O) (lx : 0 < Lx) (ly : 0 < Ly) {s : α} (s0 : s ≠ 0) (s1 : -1 ≤ s) (s2 : s ≤ 1) {thick : α}
    (t0 : 0 < thick) {conn dofs : Ten Nat} {coor : Ten α} (hc : Is2 conn ne 4 c) (hx : Is2 coor nn 2 x) (hd : Is2 dofs nn 2 d)
    {P : VectorPartitioned} (hP : Vector.new conn dofs = .ok P.V) (σ τ : Sched)
    {material : Ten α → Res (Ten α × Ten α)} {C} (hm : LinearMaterial ne C material) (hE : ∀ e q, e < ne → q < 4 → Elastic (C e q)) :
    ∃ (Q Q₂ : Quadrature α) (B : Nat → Nat → α), (do let xe ← P.V.AsElement σ coor; newPlanarGauss s τ xe thick) = .ok Q ∧
      setup s σ τ conn dofs coor = .ok (P.V, Q₂) ∧ P.V.Holds c d ∧ P.V.nelem = ne ∧ P.V.nne = 4 ∧ P.V.nnode = nn ∧ P.V.ndim = 2 ∧
      NumDofs nn d P.V.ndof ∧ StaticSys nn ne P.V.ndof c d x P Q material C B ∧
      ∀ (ρ υ : Sched) (sig : Ten α) (f : Nat → α) (g : Nat → Nat → Nat → Nat → α),
        (∃ ue gt, Is3 ue ne 4 2 (fun e m i => f (d (c e m) i)) ∧ GradN_vector Q₂ ρ ue = .ok gt ∧ Is4 gt ne 4 2 2 g) →
        Is4 sig ne 4 2 2 (fun e q => ddot 2 (thickC thick C e q) (g e q)) →
        IsOk (internalForce υ P.V Q₂ sig) fun t => Is1 t P.V.ndof fun r => ∑ s ∈ range P.V.ndof, B r s * f s := by
  obtain ⟨V, Q₂, h1, hV, e1, e2, e3, e4, e5, hQ₂, hp⟩ := hM.setup s1 s2 σ τ hc hx hd
  obtain rfl := setup_vector h1 hP
  obtain ⟨xe, x1, x2⟩ := C03_element_of_node hV σ (by rw [e3, e4]; exact hx)
  rw [e1, e2, e4] at x2
  obtain ⟨Q, q1, hQ⟩ := newPlanarGauss_ok s thick τ x2
  have hC' : Is6 (Ten.of [ne, 4, 2, 2, 2, 2] fun ix => thickC thick C (ix.getD 0 0) (ix.getD 1 0) (ix.getD 2 0) (ix.getD 3 0) (ix.getD 4 0) (ix.getD 5 0))
      ne 4 2 2 2 2 (thickC thick C) := ⟨rfl, fun e q i j k l _ _ _ _ _ _ => by simp [Ten.of]⟩
  have hE' : ∀ e q, e < ne → q < 4 → Elastic (thickC thick C e q) := fun e q he hq => thickC_elastic t0 (hE e q he hq)
  obtain ⟨kt₂, k₂, b1, b2, b3, b4, b8⟩ := stiff_regular hM lx ly s0 hV e1 e2 e3 e4 hQ₂ hp Sched.seq hC' hE'
  obtain ⟨kt₂', b5, k₂', b6, b7⟩ := stiff_live hQ₂ (le_refl 2) Sched.seq hC' (live_holds hQ₂).1.V_is
  obtain rfl : kt₂ = kt₂' := by rw [b1] at b5; injection b5
  rw [e1, e2, e4] at b2
  have kk : ∀ e m j n k, e < ne → m < 4 → n < 4 → j < 2 → k < 2 → k₂ e (m * 2 + j) (n * 2 + k) =
      Kf 2 4 (Gf (D4 fun q i => s * corner4 q i) fun e m i => x (c e m) i) (thickC thick C)
        (fun e q => 1 * detf (Jf (D4 fun q i => s * corner4 q i) (fun e m i => x (c e m) i) e q) * 1) e m j n k :=
    fun e m j n k he hm hn hj hk => by
      rw [b2.unique b6 he (by omega) (by omega), b7 e m j n k he hm hn hj hk]
  have prod : ∀ (f : Nat → α) (r : Nat), ∑ s ∈ range P.V.ndof, SMatrix.assembled P.V c d k₂ r s * f s =
      ∑ e ∈ range ne, ∑ m ∈ range 4, ∑ i ∈ range 2, if d (c e m) i = r then
        ∑ q ∈ range 4, (∑ a ∈ range 2, Gf (D4 fun q i => s * corner4 q i) (fun e m i => x (c e m) i) e q m a *
          (∑ k ∈ range 2, ∑ l ∈ range 2, thickC thick C e q a i k l *
            grad 4 (Gf (D4 fun q i => s * corner4 q i) fun e m i => x (c e m) i) (fun e m i => f (d (c e m) i)) e q l k)) *
          (1 * detf (Jf (D4 fun q i => s * corner4 q i) (fun e m i => x (c e m) i) e q) * 1) else 0 := by
    intro f r
    rw [assembled_mul hV, e1, e2, e4]
    refine sum_congr rfl fun e he => sum_congr rfl fun m hm => sum_congr rfl fun i hi => ?_
    rw [mem_range] at he hm hi
    split
    · rw [sum_congr rfl fun n hn => sum_congr rfl fun j hj => by
        rw [kk e m i n j he hm (mem_range.1 hn) hi (mem_range.1 hj)]]
      exact (stiff_linear (nne := 4) (nd := 2) (nip := 4) (G := Gf (D4 fun q i => s * corner4 q i) fun e m i => x (c e m) i)
        (C := thickC thick C) (V := fun e q => 1 * detf (Jf (D4 fun q i => s * corner4 q i) (fun e m i => x (c e m) i) e q) * 1)
        (U := fun e m i => f (d (c e m) i)) e m i).symm
    · rfl
  refine ⟨Q, Q₂, SMatrix.assembled P.V c d k₂, by rw [x1, Res.ok_bind, q1], h1, hV, e1, e2, e3, e4,
    ⟨fun m i hm hi => hV.dofs_lt m i (by omega) (by omega), e5⟩, ⟨fun ρ Ct hC => ?_, b4, ⟨b8.nonneg, b8.pos, fun h => b8.symm fun e q he hq => thickC_major (h e q he hq)⟩, fun υ disp f hf => ?_⟩,
    fun ρ υ sig f g hg hs => ?_⟩
  · obtain ⟨kt, k1, k, k2, k3⟩ := stiff_live hQ (by omega) ρ hC (live_holds hQ).1.V_is
    refine ⟨kt, k, k1, by rw [e1, e2, e4]; exact k2, ?_⟩
    funext r s
    simp only [SMatrix.assembled, e1, e2, e4]
    refine sum_congr rfl fun e he => sum_congr rfl fun m hm => sum_congr rfl fun i hi => sum_congr rfl fun n hn =>
      sum_congr rfl fun j hj => ?_
    rw [mem_range] at he hm hi hn hj
    split
    · rw [k3 e m i n j he hm hn hi hj, kk e m i n j he hm hn hi hj, Kf, Kf]
      refine sum_congr rfl fun q _ => sum_congr rfl fun a _ => sum_congr rfl fun l _ => ?_
      rw [thickC]; ring
    · rfl
  · obtain ⟨ue, u1, u2⟩ := C03_element_of_node hV (υ 0) (by rw [e3, e4]; exact hf)
    rw [e1, e2, e4] at u2
    obtain ⟨Eps, g1, g2⟩ := (planar_grads hQ (υ 1) u2).2.2
    obtain ⟨⟨Sig, Ct⟩, m1, m2, m3⟩ := hm Eps _ g2
    obtain ⟨fe, f1, f2⟩ := force_live hQ (by omega) (υ 2) m2 (live_holds hQ).1.V_is
    obtain ⟨fint, i1, i2⟩ := C06_assembleNode hV (υ 3) (x := fe) (by rw [e1, e2, e4]; exact f2)
    refine ⟨(fint, Ct), by simp only [staticResponse, u1, g1, m1, f1, i1, Res.ok_bind]; rfl, ?_, m3⟩
    rw [e1, e2, e3, e4] at i2
    refine i2.congr fun m i hm hi => ?_
    rw [prod]
    refine sum_congr rfl fun e he => sum_congr rfl fun a ha => sum_congr rfl fun b hb => ?_
    rw [mem_range] at he ha hb
    split
    · refine sum_congr rfl fun q hq => ?_
      rw [mem_range] at hq
      have : ∀ i ∈ range 2, Gf (D4 fun q i => s * corner4 q i) (fun e m i => x (c e m) i) e q a i *
          ddot 3 (C e q) (embed (symf (grad 4 (Gf (D4 fun q i => s * corner4 q i) fun e m i => x (c e m) i) (fun e m i => f (d (c e m) i)) e q))) i b =
          Gf (D4 fun q i => s * corner4 q i) (fun e m i => x (c e m) i) e q a i * ∑ k ∈ range 2, ∑ l ∈ range 2, C e q i b k l *
            grad 4 (Gf (D4 fun q i => s * corner4 q i) fun e m i => x (c e m) i) (fun e m i => f (d (c e m) i)) e q l k := fun i hi => by
        rw [ddot_embed ((hE e q he hq).minor i b 0 1 (mem_range.1 hi) hb (by omega) (by omega))]
      rw [sum_congr rfl this]
      simp only [thickC, sum_range_succ, sum_range_zero]
      ring
    · rfl
  · obtain ⟨ue, gt, u2, g1, g2⟩ := hg
    obtain ⟨gt', g1', g3⟩ := GradN_ok hQ₂ ρ u2
    obtain rfl : gt = gt' := by rw [g1] at g1'; injection g1'
    obtain ⟨fe, f1, f2⟩ := force_live hQ₂ (le_refl 2) υ hs (live_holds hQ₂).1.V_is
    obtain ⟨y, y1, y2⟩ := C04_assemble_element hV (x := fe) (by rw [e1, e2, e4]; exact f2)
    refine ⟨y, by simp only [internalForce, f1, y1, Res.ok_bind], y2.congr fun r _ => ?_⟩
    rw [prod, e1, e2, e4]
    refine sum_congr rfl fun e he => sum_congr rfl fun a ha => sum_congr rfl fun b hb => ?_
    rw [mem_range] at he ha hb
    split
    · refine sum_congr rfl fun q hq => ?_
      rw [mem_range] at hq
      refine congrArg₂ _ (sum_congr rfl fun i hi => ?_) rfl
      rw [ddot]
      exact congrArg₂ _ rfl (sum_congr rfl fun k hk => sum_congr rfl fun l hl => by
        rw [g2.unique g3 he hq (mem_range.1 hl) (mem_range.1 hk)])
    · rfl

end GF
