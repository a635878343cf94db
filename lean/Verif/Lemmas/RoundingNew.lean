import Verif.Lemmas.RoundingSim
import Verif.Lemmas.ElementHex8Geo

/-! The quadrature objects can be built with any arithmetic: the constructors complete and fill all arrays. -/

namespace GF.Element
variable {A B : Type}
variable [Zero A] [One A] [Add A] [Sub A] [Mul A] [Div A] [Neg A] [NatCast A]
variable [Zero B] [One B] [Add B] [Sub B] [Mul B] [Div B] [Neg B] [NatCast B]

/-- no relation between the values -/
abbrev Any (A B : Type) : A → B → Prop := fun _ _ => True

/-- follow the two runs of a program in lockstep, without relating the values -/
macro "lockstep_any" : tactic => `(tactic| repeat' first
  | trivial
  | assumption
  | exact Sim.ok (by assumption)
  | exact TenSim.empty _
  | exact TenSim.full _ trivial
  | refine Sim.forEach (P := TenSim (Any _ _)) (fun _ _ _ _ _ => ?_) ?_
  | refine Sim.bind (TenSim.get (by assumption) _) fun _ _ _ => ?_
  | refine Sim.bind (TenSim.addAt (R := Any _ _) (fun _ _ _ _ _ _ => trivial) (by assumption) _ trivial) fun _ _ _ => ?_
  | refine Sim.bind (TenSim.set (R := Any _ _) (by assumption) _ trivial) fun _ _ _ => ?_
  | refine TenSim.addAt (R := Any _ _) (fun _ _ _ _ _ _ => trivial) (by assumption) _ trivial
  | refine TenSim.set (R := Any _ _) (by assumption) _ trivial
  | refine Sim.same fun _ => ?_)

/-- quadrature objects with the same sizes and the same cells filled -/
structure QAny (P : Quadrature A) (Q : Quadrature B) : Prop extends QSim (Any A B) P Q where
  x : TenSim (Any A B) P.x Q.x
  w : TenSim (Any A B) P.w Q.w
  dNxi : TenSim (Any A B) P.dNxi Q.dNxi

/-- a number and an array -/
abbrev Any2 (A B : Type) : A × Ten A → B × Ten B → Prop := fun s t => TenSim (Any A B) s.2 t.2

/-- a pair of arrays -/
abbrev Both (A B : Type) : Ten A × Ten A → Ten B × Ten B → Prop :=
  fun s t => TenSim (Any A B) s.1 t.1 ∧ TenSim (Any A B) s.2 t.2

section
variable {a s : Ten A} {b t : Ten B}

theorem inv2_any (h : TenSim (Any A B) a b) (h' : TenSim (Any A B) s t) : Sim (Any2 A B) (inv2 a s) (inv2 b t) := by
  unfold inv2
  lockstep_any

theorem inv3_any (h : TenSim (Any A B) a b) (h' : TenSim (Any A B) s t) : Sim (Any2 A B) (inv3 a s) (inv3 b t) := by
  unfold inv3
  lockstep_any

theorem invNd_any (nd : Nat) (h : TenSim (Any A B) a b) (h' : TenSim (Any A B) s t) :
    Sim (Any2 A B) (invNd nd a s) (invNd nd b t) := by
  unfold invNd
  split
  · exact inv2_any h h'
  split
  · exact inv3_any h h'
  · exact Sim.throws

namespace Quad4

theorem shapeN_any (nip : Nat) (h : TenSim (Any A B) a b) : Sim (TenSim (Any A B)) (shapeN nip a) (shapeN nip b) := by
  unfold shapeN
  lockstep_any

theorem shapeDN_any (nip : Nat) (h : TenSim (Any A B) a b) : Sim (TenSim (Any A B)) (shapeDN nip a) (shapeDN nip b) := by
  unfold shapeDN
  lockstep_any

theorem dot4_any {f g : Nat → Res A} {f' g' : Nat → Res B} (ha : ∀ m, Sim (Any A B) (f m) (f' m))
    (hb : ∀ m, Sim (Any A B) (g m) (g' m)) : Sim (Any A B) (dot4 f g) (dot4 f' g') := by
  unfold dot4
  exact Sim.bind (ha 0) fun _ _ h1 => Sim.bind (hb 0) fun _ _ h2 => Sim.bind (ha 1) fun _ _ h3 =>
    Sim.bind (hb 1) fun _ _ h4 => Sim.bind (ha 2) fun _ _ h5 => Sim.bind (hb 2) fun _ _ h6 =>
    Sim.bind (ha 3) fun _ _ h7 => Sim.bind (hb 3) fun _ _ h8 => Sim.ok trivial

theorem jacobian_any (h : TenSim (Any A B) a b) (h' : TenSim (Any A B) s t) (e q : Nat) :
    Sim (TenSim (Any A B)) (jacobian a s e q) (jacobian b t e q) := by
  unfold jacobian
  refine Sim.bind (dot4_any (fun _ => h.get _) fun _ => h'.get _) fun _ _ _ =>
    Sim.bind (TenSim.set (R := Any A B) (TenSim.empty _) _ trivial) fun _ _ h1 => ?_
  refine Sim.bind (dot4_any (fun _ => h.get _) fun _ => h'.get _) fun _ _ _ =>
    Sim.bind (TenSim.set (R := Any A B) h1 _ trivial) fun _ _ h2 => ?_
  refine Sim.bind (dot4_any (fun _ => h.get _) fun _ => h'.get _) fun _ _ _ =>
    Sim.bind (TenSim.set (R := Any A B) h2 _ trivial) fun _ _ h3 => ?_
  exact Sim.bind (dot4_any (fun _ => h.get _) fun _ => h'.get _) fun _ _ _ => TenSim.set (R := Any A B) h3 _ trivial

theorem compute_dN_any {P : Quadrature A} {Q : Quadrature B} (h : QAny P Q) (c : A) (d : B) (σ : Sched) :
    Sim QAny (compute_dN_impl P c σ) (compute_dN_impl Q d σ) := by
  have h1 := h.dNxi
  have h2 := h.x
  have h3 := h.w
  unfold compute_dN_impl
  rw [h.nelem, h.nip]
  refine Sim.bind (P := Both A B) ?_ fun s t hst => Sim.ok ?_
  · refine Sim.forEach (P := Both A B) (fun e _ _ _ _ => Sim.forEach (P := Both A B) (fun q _ s t hst => ?_) (by assumption))
      ⟨h.dNx, h.vol⟩
    unfold compute_dN_point
    obtain ⟨h4, h5⟩ := hst
    refine Sim.bind (jacobian_any h1 h2 e q) fun _ _ h6 => Sim.bind (inv2_any h6 (TenSim.empty _)) fun _ _ h7 => ?_
    have h7 : TenSim (Any A B) _ _ := h7
    refine Sim.bind (P := TenSim (Any A B)) (by lockstep_any) fun _ _ h8 => ?_
    refine Sim.bind (h3.get _) fun _ _ _ => Sim.bind (h5.set _ (R := Any A B) trivial) fun _ _ h9 => Sim.ok ⟨h8, h9⟩
  · exact ⟨⟨h.nne, h.ndim, h.tdim, rfl, rfl, h.N, hst.1, hst.2⟩, h.x, h.w, h.dNxi⟩

theorem construct_any {x xi w : Ten A} {x' xi' w' : Ten B} (hx : TenSim (Any A B) x x') (hxi : TenSim (Any A B) xi xi')
    (hw : TenSim (Any A B) w w') (td : Nat) (c : A) (d : B) (σ : Sched) :
    Sim QAny (construct td c σ x xi w) (construct td d σ x' xi' w') := by
  unfold construct
  rw [hw.1, hx.1]
  split
  · refine Sim.bind (shapeN_any _ hxi) fun _ _ h1 => Sim.bind (shapeDN_any _ hxi) fun _ _ h2 => compute_dN_any ?_ _ _ _
    exact ⟨⟨rfl, rfl, rfl, rfl, rfl, h1, TenSim.empty _, TenSim.empty _⟩, hx, hw, h2⟩
  · exact Sim.ub

end Quad4

namespace Hex8

theorem shapeN_any (nip : Nat) (h : TenSim (Any A B) a b) : Sim (TenSim (Any A B)) (shapeN nip a) (shapeN nip b) := by
  unfold shapeN shapeNLoop
  lockstep_any

theorem shapeDN_any (nip : Nat) (h : TenSim (Any A B) a b) : Sim (TenSim (Any A B)) (shapeDN nip a) (shapeDN nip b) := by
  unfold shapeDN shapeDNLoop
  lockstep_any

theorem compute_dN_any {P : Quadrature A} {Q : Quadrature B} (h : QAny P Q) (σ : Sched) :
    Sim QAny (P.compute_dN_impl σ) (Q.compute_dN_impl σ) := by
  have h1 := h.dNxi
  have h2 := h.x
  have h3 := h.w
  unfold Quadrature.compute_dN_impl
  rw [h.nelem, h.nip, h.dNx.1]
  refine Sim.bind (P := Both A B) ?_ fun s t hst => Sim.ok ?_
  · refine Sim.forEach (P := Both A B) (fun e _ _ _ _ => Sim.forEach (P := Both A B) (fun q _ s t hst => ?_) (by assumption))
      ⟨TenSim.full _ trivial, h.vol⟩
    unfold Quadrature.compute_dN_point
    rw [h.nne, h.ndim]
    obtain ⟨h4, h5⟩ := hst
    refine Sim.bind (P := TenSim (Any A B)) (by lockstep_any) fun _ _ h6 =>
      Sim.bind (invNd_any _ h6 (TenSim.empty _)) fun _ _ h7 => ?_
    have h7 : TenSim (Any A B) _ _ := h7
    refine Sim.bind (P := TenSim (Any A B)) (by lockstep_any) fun _ _ h8 => ?_
    refine Sim.bind (h3.get _) fun _ _ _ => Sim.bind (h5.set _ (R := Any A B) trivial) fun _ _ h9 => Sim.ok ⟨h8, h9⟩
  · exact ⟨⟨h.nne, h.ndim, h.tdim, rfl, rfl, h.N, hst.1, hst.2⟩, h.x, h.w, h.dNxi⟩

theorem new_any {x xi w : Ten A} {x' xi' w' : Ten B} (hx : TenSim (Any A B) x x') (hxi : TenSim (Any A B) xi xi')
    (hw : TenSim (Any A B) w w') (σ : Sched) : Sim QAny (new σ x xi w) (new σ x' xi' w') := by
  unfold new
  rw [hw.1, hx.1]
  split
  · refine Sim.bind (shapeN_any _ hxi) fun _ _ h1 => Sim.bind (shapeDN_any _ hxi) fun _ _ h2 => compute_dN_any ?_ _
    exact ⟨⟨rfl, rfl, rfl, rfl, rfl, h1, TenSim.empty _, TenSim.empty _⟩, hx, hw, h2⟩
  · exact Sim.ub

end Hex8
end
end GF.Element
