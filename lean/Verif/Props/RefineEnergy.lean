import Verif.Spec.RefineSolve
import Verif.Lemmas.RefineEnergy
import Verif.Props.RefineRegular
import Verif.Props.EnergyMeshes
import Verif.Lemmas.Stokes
import Mathlib.Analysis.Real.Sqrt

/-! **C116** refining a mesh never makes the structure stiffer. -/

namespace GF
open Finset ElemSpec Element Element.Quad4 RefineEnergy

variable {α : Type} [Field α] [LinearOrder α] [IsStrictOrderedRing α]

namespace RefineEnergy

/-- the value of a field at a corner of element `(i, j)` of a grid -/
def corner (v : Nat → Nat → Nat → α) (i j m l : Nat) : α := v (if m < 2 then i else i + 1) (if m = 0 ∨ m = 3 then j else j + 1) l

/-- a DOF vector as a field on the grid of nodes -/
def onGrid (nelx : Nat) (f : Nat → α) (i j l : Nat) : α := f ((i * (nelx + 1) + j) * 2 + l)

theorem mean_congr (h : α) {v w : Nat → Nat → α} (e : ∀ m j, m < 4 → v m j = w m j) : mean h v = mean h w := by
  funext i j
  simp only [mean, e 0 j (by omega), e 1 j (by omega), e 2 j (by omega), e 3 j (by omega)]

theorem vary_congr (h : α) {v w : Nat → Nat → α} (e : ∀ m j, m < 4 → v m j = w m j) : vary h v = vary h w := by
  funext k i j
  simp only [vary, e 0 j (by omega), e 1 j (by omega), e 2 j (by omega), e 3 j (by omega)]

/-- the energy of a displacement of a regular mesh -/
theorem grid_energy {nelx nely : Nat} {h : α} (hh : 0 < h) {s : α} (hs : 3 * s ^ 2 = 1) (C : Nat → Nat → Nat → Nat → Nat → α) (f : Nat → α) :
    virtualWork (nelx * nely) (cellVol s (gridCoor h nelx) (gridQuad nelx))
      (fun e q => ddot 2 (C e) (cellGrad s (gridCoor h nelx) (gridQuad nelx) (fun m i => f (m * 2 + i)) e q))
      (cellGrad s (gridCoor h nelx) (gridQuad nelx) fun m i => f (m * 2 + i)) =
    ∑ i ∈ range nely, ∑ j ∈ range nelx, h * h * (quad (C (i * nelx + j)) (mean h (corner (onGrid nelx f) i j)) +
      (quad (C (i * nelx + j)) (vary h (corner (onGrid nelx f) i j) 0) + quad (C (i * nelx + j)) (vary h (corner (onGrid nelx f) i j) 1)) / 3) := by
  unfold virtualWork
  rw [Nat.mul_comm nelx, sum_blocks]
  refine sum_congr rfl fun i hi => sum_congr rfl fun j hj => ?_
  rw [mem_range] at hi hj
  rw [← square_energy hs]
  have p : ∀ {i j : Nat}, j < nelx + 1 → _ := fun {i j} hj => gridCoor_node h (nelx := nelx) (i := i) (j := j) hj
  have c0 : gridQuad nelx (i * nelx + j) 0 = i * (nelx + 1) + j := by simp only [gridQuad, grid_div hj, grid_mod hj, if_true]
  have c1 : gridQuad nelx (i * nelx + j) 1 = i * (nelx + 1) + (j + 1) := by simp [gridQuad, grid_div hj, grid_mod hj]
  have c2 : gridQuad nelx (i * nelx + j) 2 = (i + 1) * (nelx + 1) + (j + 1) := by simp [gridQuad, grid_div hj, grid_mod hj]
  have c3 : gridQuad nelx (i * nelx + j) 3 = (i + 1) * (nelx + 1) + j := by simp [gridQuad, grid_div hj, grid_mod hj]
  have ev : (fun m l => f (gridQuad nelx (i * nelx + j) m * 2 + l)) 0 = corner (onGrid nelx f) i j 0 ∧
      (fun m l => f (gridQuad nelx (i * nelx + j) m * 2 + l)) 1 = corner (onGrid nelx f) i j 1 ∧
      (fun m l => f (gridQuad nelx (i * nelx + j) m * 2 + l)) 2 = corner (onGrid nelx f) i j 2 ∧
      (fun m l => f (gridQuad nelx (i * nelx + j) m * 2 + l)) 3 = corner (onGrid nelx f) i j 3 := by
    refine ⟨?_, ?_, ?_, ?_⟩ <;> funext l
    · beta_reduce; rw [c0]; simp [corner, onGrid]
    · beta_reduce; rw [c1]; simp [corner, onGrid]
    · beta_reduce; rw [c2]; simp [corner, onGrid]
    · beta_reduce; rw [c3]; simp [corner, onGrid]
  have em : ∀ m l, m < 4 → (fun m l => f (gridQuad nelx (i * nelx + j) m * 2 + l)) m l = corner (onGrid nelx f) i j m l := by
    intro m l hm
    obtain rfl | rfl | rfl | rfl : m = 0 ∨ m = 1 ∨ m = 2 ∨ m = 3 := by omega
    · rw [ev.1]
    · rw [ev.2.1]
    · rw [ev.2.2.1]
    · rw [ev.2.2.2]
  refine sum_congr rfl fun q _ => ?_
  obtain ⟨G, D⟩ := square_grad hh s (X := fun e m i => gridCoor h nelx (gridQuad nelx e m) i) (v := fun e m l => f (gridQuad nelx e m * 2 + l))
    (e := i * nelx + j) (p0 := h * (j : α)) (p1 := h * (i : α)) (by beta_reduce; rw [c0, (p (by omega)).1]) (by beta_reduce; rw [c0, (p (by omega)).2])
    (by beta_reduce; rw [c1, (p (by omega)).1]; push_cast; ring) (by beta_reduce; rw [c1, (p (by omega)).2])
    (by beta_reduce; rw [c2, (p (by omega)).1]; push_cast; ring) (by beta_reduce; rw [c2, (p (by omega)).2]; push_cast; ring)
    (by beta_reduce; rw [c3, (p (by omega)).1]) (by beta_reduce; rw [c3, (p (by omega)).2]; push_cast; ring) q
  have D' : cellVol s (gridCoor h nelx) (gridQuad nelx) (i * nelx + j) q = h * h / 4 := D
  rw [D']
  congr 1
  have ee : ∀ a b, a < 2 → cellGrad s (gridCoor h nelx) (gridQuad nelx) (fun m i => f (m * 2 + i)) (i * nelx + j) q a b =
      mean h (corner (onGrid nelx f) i j) a b + s * corner4 q 1 * vary h (corner (onGrid nelx f) i j) 0 a b +
        s * corner4 q 0 * vary h (corner (onGrid nelx f) i j) 1 a b := by
    intro a b ha
    rw [← mean_congr h em, ← vary_congr h em]
    exact G a b ha
  exact quad_congr fun a b ha _ => ee a b ha

/-- the interpolation of a DOF vector of the coarse mesh -/
def interpolate (nelx r : Nat) (f : Nat → α) (k : Nat) : α :=
  lin2 r (fun i j => onGrid nelx f i j (k % 2)) (k / 2 / (r * nelx + 1)) (k / 2 % (r * nelx + 1))

/-- the interpolation has the same energy -/
theorem interpolate_energy {nelx nely r : Nat} (hr : 0 < r) {h : α} (hh : 0 < h) {s : α} (hs : 3 * s ^ 2 = 1)
    {C C' : Nat → Nat → Nat → Nat → Nat → α}
    (hC : ∀ i j a b, i < nely → j < nelx → a < r → b < r → C' ((i * r + a) * (r * nelx) + (j * r + b)) = C (i * nelx + j)) (f : Nat → α) :
    virtualWork (r * nelx * (r * nely)) (cellVol s (gridCoor (h / r) (r * nelx)) (gridQuad (r * nelx)))
      (fun e q => ddot 2 (C' e) (cellGrad s (gridCoor (h / r) (r * nelx)) (gridQuad (r * nelx)) (fun m i => interpolate nelx r f (m * 2 + i)) e q))
      (cellGrad s (gridCoor (h / r) (r * nelx)) (gridQuad (r * nelx)) fun m i => interpolate nelx r f (m * 2 + i)) =
    virtualWork (nelx * nely) (cellVol s (gridCoor h nelx) (gridQuad nelx))
      (fun e q => ddot 2 (C e) (cellGrad s (gridCoor h nelx) (gridQuad nelx) (fun m i => f (m * 2 + i)) e q))
      (cellGrad s (gridCoor h nelx) (gridQuad nelx) fun m i => f (m * 2 + i)) := by
  have r0 : (0 : α) < r := by exact_mod_cast hr
  rw [grid_energy (div_pos hh r0) hs, grid_energy hh hs, show range (r * nely) = range (nely * r) by rw [Nat.mul_comm], sum_blocks]
  refine sum_congr rfl fun i hi => ?_
  rw [mem_range] at hi
  have sw : ∀ a, ∑ j ∈ range (r * nelx), (fun j => h / r * (h / r) * (quad (C' ((i * r + a) * (r * nelx) + j)) (mean (h / r) (corner (onGrid (r * nelx) (interpolate nelx r f)) (i * r + a) j)) +
      (quad (C' ((i * r + a) * (r * nelx) + j)) (vary (h / r) (corner (onGrid (r * nelx) (interpolate nelx r f)) (i * r + a) j) 0) +
        quad (C' ((i * r + a) * (r * nelx) + j)) (vary (h / r) (corner (onGrid (r * nelx) (interpolate nelx r f)) (i * r + a) j) 1)) / 3)) j = _ := fun a => by
    rw [show range (r * nelx) = range (nelx * r) by rw [Nat.mul_comm], sum_blocks]
  rw [sum_congr rfl fun a _ => sw a, sum_comm]
  refine sum_congr rfl fun j hj => ?_
  rw [mem_range] at hj
  rw [← parts_energy hr hh]
  refine sum_congr rfl fun a ha => sum_congr rfl fun b hb => ?_
  rw [mem_range] at ha hb
  beta_reduce
  rw [hC i j a b hi hj ha hb]
  have val : ∀ y z l, y ≤ r → z ≤ r → l < 2 → onGrid (r * nelx) (interpolate nelx r f) (i * r + y) (j * r + z) l =
      (((r : α) - y) * (((r : α) - z) * onGrid nelx f i j l + z * onGrid nelx f i (j + 1) l) +
        y * (((r : α) - z) * onGrid nelx f (i + 1) j l + z * onGrid nelx f (i + 1) (j + 1) l)) / (r * r) := by
    intro y z l hy hz hl
    have hz' : j * r + z < r * nelx + 1 := by
      have : (j + 1) * r ≤ nelx * r := Nat.mul_le_mul_right _ hj
      rw [Nat.mul_comm r, Nat.add_mul] at *
      omega
    rw [← lin2_at hr (fun i j => onGrid nelx f i j l) hy hz, onGrid, interpolate]
    have e1 : (((i * r + y) * (r * nelx + 1) + (j * r + z)) * 2 + l) / 2 = (i * r + y) * (r * nelx + 1) + (j * r + z) := by omega
    have e2 : (((i * r + y) * (r * nelx + 1) + (j * r + z)) * 2 + l) % 2 = l := by omega
    rw [e1, e2, grid_div hz', grid_mod hz']
  have em : ∀ m l, m < 4 → l < 2 → corner (onGrid (r * nelx) (interpolate nelx r f)) (i * r + a) (j * r + b) m l =
      part r (corner (onGrid nelx f) i j) a b m l := by
    intro m l hm hl
    obtain ⟨p0, p1, p2, p3⟩ := part_corner r (corner (onGrid nelx f) i j) a b l
    have q0 : corner (onGrid nelx f) i j 0 l = onGrid nelx f i j l := by simp [corner]
    have q1 : corner (onGrid nelx f) i j 1 l = onGrid nelx f i (j + 1) l := by simp [corner]
    have q2 : corner (onGrid nelx f) i j 2 l = onGrid nelx f (i + 1) (j + 1) l := by simp [corner]
    have q3 : corner (onGrid nelx f) i j 3 l = onGrid nelx f (i + 1) j l := by simp [corner]
    rw [q0, q1, q2, q3] at p0 p1 p2 p3
    obtain rfl | rfl | rfl | rfl : m = 0 ∨ m = 1 ∨ m = 2 ∨ m = 3 := by omega
    · rw [p0, ← val a b l (by omega) (by omega) hl]; simp [corner]
    · have := val a (b + 1) l (by omega) (by omega) hl
      rw [Nat.cast_add_one] at this
      rw [p1, ← this]; simp [corner, Nat.add_assoc]
    · have := val (a + 1) (b + 1) l (by omega) (by omega) hl
      rw [Nat.cast_add_one, Nat.cast_add_one] at this
      rw [p2, ← this]; simp [corner, Nat.add_assoc]
    · have := val (a + 1) b l (by omega) (by omega) hl
      rw [Nat.cast_add_one] at this
      rw [p3, ← this]; simp [corner, Nat.add_assoc]
  have mq : ∀ {v w : Nat → Nat → α} (h : α) (D : Nat → Nat → Nat → Nat → α), (∀ m l, m < 4 → l < 2 → v m l = w m l) → quad D (mean h v) = quad D (mean h w) ∧
      ∀ k, quad D (vary h v k) = quad D (vary h w k) := by
    intro v w h D e
    refine ⟨quad_congr fun i j _ hj => ?_, fun k => quad_congr fun i j _ hj => ?_⟩
    · simp only [mean, e 0 j (by omega) hj, e 1 j (by omega) hj, e 2 j (by omega) hj, e 3 j (by omega) hj]
    · simp only [vary, e 0 j (by omega) hj, e 1 j (by omega) hj, e 2 j (by omega) hj, e 3 j (by omega) hj]
  obtain ⟨u1, u2⟩ := mq (h / r) (C (i * nelx + j)) em
  rw [u1, u2 0, u2 1]

/-- twice the strain energy of a displacement of a regular mesh -/
abbrev gridWork (nelx nely : Nat) (h s : α) (C : Nat → Nat → Nat → Nat → Nat → α) (f : Nat → α) : α :=
  virtualWork (nelx * nely) (cellVol s (gridCoor h nelx) (gridQuad nelx))
    (fun e q => ddot 2 (C e) (cellGrad s (gridCoor h nelx) (gridQuad nelx) (fun m i => f (m * 2 + i)) e q))
    (cellGrad s (gridCoor h nelx) (gridQuad nelx) fun m i => f (m * 2 + i))

theorem virtualWork_congr {ne : Nat} {vol vol' : Nat → Nat → α} {C C' : Nat → Nat → Nat → Nat → Nat → Nat → α} {γ γ' : Nat → Nat → Nat → Nat → α}
    (hv : ∀ e q, e < ne → q < 4 → vol e q = vol' e q)
    (hC : ∀ e q i j k l, e < ne → q < 4 → i < 2 → j < 2 → k < 2 → l < 2 → C e q i j k l = C' e q i j k l)
    (hg : ∀ e q i j, e < ne → q < 4 → i < 2 → j < 2 → γ e q i j = γ' e q i j) :
    virtualWork ne vol (fun e q => ddot 2 (C e q) (γ e q)) γ = virtualWork ne vol' (fun e q => ddot 2 (C' e q) (γ' e q)) γ' := by
  unfold virtualWork
  refine sum_congr rfl fun e he => sum_congr rfl fun q hq => ?_
  rw [mem_range] at he hq
  rw [hv e q he hq]
  congr 1
  refine sum_congr rfl fun i hi => sum_congr rfl fun j hj => ?_
  rw [mem_range] at hi hj
  rw [hg e q i j he hq hi hj]
  congr 1
  refine sum_congr rfl fun k hk => sum_congr rfl fun l hl => ?_
  rw [mem_range] at hk hl
  rw [hg e q l k he hq hl hk, hC e q i j k l he hq hi hj hk hl]

/-- the response of a regular mesh, with the gradient and the volumes written out -/
theorem regular_response {nelx nely : Nat} {h : α} (hh : 0 < h) (hx : 0 < nelx) (hy : 0 < nely) {s : α} (s0 : s ≠ 0) (s1 : -1 ≤ s) (s2 : s ≤ 1)
    (σ τ ρ : Sched) (υ : Nat → Sched) {Ct b u : Ten α} {C : Nat → Nat → Nat → Nat → Nat → α} {g f : Nat → α}
    (hC : Is6 Ct (nelx * nely) 4 2 2 2 2 fun e _ => C e)
    (hE : ∀ e, e < nelx * nely → Elastic (C e)) (hmaj : ∀ e, e < nelx * nely → Major 2 (C e))
    {n : Nat} (en : n = 2 * ((nelx + 1) * (nely + 1))) (hb : Is1 b n g) (hu : Is1 u n f)
    {iip : List Nat} (hi : iip.Nodup) (hin : ∀ k ∈ iip, k < n)
    (hS : Supported ((nelx + 1) * (nely + 1)) (fun m i => m * 2 + i) (gridCoor h nelx) iip) {S : LinSolver α} (hSol : S.Suits True) :
    ∃ (V : Vector) (Q : Quadrature α) (y : Ten α) (F : Nat → α) (γ : Nat → Nat → Nat → Nat → α) (vol : Nat → Nat → α),
      regularStatics (Quad4.Regular.new nelx nely h) s σ τ ρ υ S iip Ct b u = .ok (V, Q, y) ∧
      Is1 y n F ∧ DofGradient V Q n (nelx * nely) F γ ∧ Is2 Q.vol (nelx * nely) 4 vol ∧ (∀ k ∈ iip, F k = f k) ∧
      potential n (nelx * nely) vol (fun e _ => C e) g F γ = gridWork nelx nely h s C F / 2 - ∑ k ∈ range n, g k * F k ∧
      (∀ w : Nat → α, (∀ k ∈ iip, w k = f k) →
        potential n (nelx * nely) vol (fun e _ => C e) g F γ ≤ gridWork nelx nely h s C w / 2 - ∑ k ∈ range n, g k * w k) ∧
      ((∀ k ∈ iip, f k = 0) → potential n (nelx * nely) vol (fun e _ => C e) g F γ = -(∑ k ∈ range n, g k * F k) / 2) := by
  subst en
  have lx : 0 < h * (nelx : α) := mul_pos hh (by exact_mod_cast hx)
  have ly : 0 < h * (nely : α) := mul_pos hh (by exact_mod_cast hy)
  have hM : RectMesh ((nelx + 1) * (nely + 1)) (nelx * nely) (gridQuad nelx) (gridCoor h nelx) (h * (nelx : α)) (h * (nely : α)) (gridOutline nelx nely) :=
    regular_rect nelx nely hh
  obtain ⟨conn, a1, a2⟩ := (Quad4.Regular.sides nelx nely h).1
  obtain ⟨coor, b1, b2⟩ := (Quad4.Regular.new nelx nely h).coor_spec rfl rfl
  have hn : NumDofs ((nelx + 1) * (nely + 1)) (fun m i => m * 2 + i) (2 * ((nelx + 1) * (nely + 1))) := plain_numDofs hM.nodes
  have hd := meshDofs_ok ((nelx + 1) * (nely + 1))
  have a2' : Is2 conn (nelx * nely) 4 (gridQuad nelx) := a2
  have b2' : Is2 coor ((nelx + 1) * (nely + 1)) 2 (gridCoor h nelx) := b2
  obtain ⟨V, Q, h1, hV, e1, e2, e3, e4, e5, hQ, -⟩ := hM.setup s1 s2 σ τ a2' b2' hd
  obtain ⟨V', Q', B, vol, h1', hv, -, eF, hγ, en, -, sol⟩ := energy_core hM lx ly s0 s1 s2 σ τ ρ a2' b2' hd hn plain_gap hC
    fun e q he _ => hE e he
  obtain ⟨rfl, rfl⟩ : V = V' ∧ Q = Q' := by
    have := h1.symm.trans h1'
    injection this with this
    exact Prod.mk.inj this
  obtain ⟨y, F, y0, y1, y2, eq⟩ := sol υ b u g f iip S hb hu hi hin hS (hSol.imp fun _ e q he _ => hmaj e he)
  have en' := hn.ndof hV e3 e4 e5
  have grd : ∀ w : Nat → α, DofGradient V Q (2 * ((nelx + 1) * (nely + 1))) (nelx * nely) w
      (cellGrad s (gridCoor h nelx) (gridQuad nelx) fun m i => w (m * 2 + i)) := by
    intro w σ τ u hu
    obtain ⟨ue, u1, u2⟩ := C03_element_of_dofs hV σ (by rw [en']; exact hu)
    rw [e1, e2, e4] at u2
    obtain ⟨gt, g1, g2⟩ := GradN_ok hQ τ u2
    exact ⟨gt, by simp only [gradient, u1, g1, Res.ok_bind], g2⟩
  have work : ∀ w : Nat → α, ∑ r ∈ range (2 * ((nelx + 1) * (nely + 1))), (∑ s ∈ range (2 * ((nelx + 1) * (nely + 1))), B r s * w s) * w r =
      gridWork nelx nely h s C w := by
    intro w
    rw [en w _ (grd w)]
    exact virtualWork_congr (C := fun e _ => C e) (C' := fun e _ => C e) (fun e q he hq => by rw [hv.unique (C46_volume hQ) he hq, one_mul])
      (fun _ _ _ _ _ _ _ _ _ _ _ _ => rfl) (fun _ _ _ _ _ _ _ _ => rfl)
  have pot : potential (2 * ((nelx + 1) * (nely + 1))) (nelx * nely) vol (fun e _ => C e) g F
      (cellGrad s (gridCoor h nelx) (gridQuad nelx) fun m i => F (m * 2 + i)) =
      gridWork nelx nely h s C F / 2 - ∑ k ∈ range (2 * ((nelx + 1) * (nely + 1))), g k * F k := by
    rw [potential, ← work F, ← en F _ (grd F)]
  have hm : ∀ e q, e < nelx * nely → q < 4 → Major 2 ((fun e (_ : Nat) => C e) e q) := fun e q he _ => hmaj e he
  refine ⟨V, Q, y, F, _, vol, ?_, y1, grd F, hv, y2, pot, fun w hw => ?_, fun hf => ?_⟩
  · simp only [regularStatics, a1, b1, Res.ok_bind]
    have e1 : meshDofs (Quad4.Regular.new nelx nely h).nnode (Quad4.Regular.new nelx nely h).ndim = meshDofs ((nelx + 1) * (nely + 1)) 2 := rfl
    rw [e1, h1, Res.ok_bind]
    dsimp only
    rw [y0]
    rfl
  · rw [pot]
    have key := eF.add hm F (fun k => w k - F k)
    simp only [add_sub_cancel] at key
    rw [work, work] at key
    have z : ∑ r ∈ range (2 * ((nelx + 1) * (nely + 1))), (∑ s ∈ range (2 * ((nelx + 1) * (nely + 1))), B r s * F s) * (w r - F r) =
        ∑ r ∈ range (2 * ((nelx + 1) * (nely + 1))), g r * (w r - F r) :=
      sum_congr rfl fun r hr => by
        by_cases hri : r ∈ iip
        · rw [hw r hri, y2 r hri, sub_self, mul_zero, mul_zero]
        · rw [eq r (mem_range.1 hr) hri]
    rw [z] at key
    simp only [mul_sub, sum_sub_distrib] at key
    have nonneg := eF.nonneg fun k => w k - F k
    simp only [mul_sub, sum_sub_distrib] at nonneg
    linarith
  · rw [pot, ← work F]
    have z : ∑ r ∈ range (2 * ((nelx + 1) * (nely + 1))), (∑ s ∈ range (2 * ((nelx + 1) * (nely + 1))), B r s * F s) * F r =
        ∑ r ∈ range (2 * ((nelx + 1) * (nely + 1))), g r * F r :=
      sum_congr rfl fun r hr => by
        by_cases hri : r ∈ iip
        · rw [y2 r hri, hf r hri, mul_zero, mul_zero]
        · rw [eq r (mem_range.1 hr) hri]
    rw [z]
    ring

/-- where the nodes of the coarse mesh are in the fine mesh -/
theorem place {nelx nely r : Nat} (hr : 0 < r) {h : α} (hh : 0 < h) {π : Nat → Nat}
    (hπ : SamePlace (Quad4.Regular.new nelx nely h) (Quad4.Regular.new (r * nelx) (r * nely) (h / r)) π) {i j : Nat} (hi : i < nely + 1) (hj : j < nelx + 1) :
    π (i * (nelx + 1) + j) = i * r * (r * nelx + 1) + j * r ∧ i * r < r * nely + 1 ∧ j * r < r * nelx + 1 := by
  obtain ⟨coor, b1, b2⟩ := (Quad4.Regular.new nelx nely h).coor_spec rfl rfl
  obtain ⟨coor', b1', b2'⟩ := (Quad4.Regular.new (r * nelx) (r * nely) (h / (r : α))).coor_spec rfl rfl
  have r0 : (r : α) ≠ 0 := by exact_mod_cast hr.ne'
  have hm : i * (nelx + 1) + j < (nelx + 1) * (nely + 1) := by rw [Nat.mul_comm (nelx + 1)]; exact grid_lt hi hj
  obtain ⟨q1, q2⟩ := hπ _ _ b1 b1' (i * (nelx + 1) + j) hm
  have q1' : π (i * (nelx + 1) + j) < (r * nely + 1) * (r * nelx + 1) := by
    rw [Nat.mul_comm (r * nely + 1)]
    exact q1
  obtain ⟨i', j', hi', hj', e⟩ := grid_exists q1'
  have c := gridCoor_node h (nelx := nelx) (i := i) (j := j) hj
  have c' := gridCoor_node (h / (r : α)) (nelx := r * nelx) (i := i') (j := j') hj'
  have key : ∀ l, l < 2 → gridCoor (h / (r : α)) (r * nelx) (π (i * (nelx + 1) + j)) l = gridCoor h nelx (i * (nelx + 1) + j) l := by
    intro l hl
    have z := q2 l hl
    rw [b2.2 _ l hm hl, b2'.2 _ l q1 hl] at z
    exact Option.some.inj z
  have k0 := key 0 (by omega)
  have k1 := key 1 (by omega)
  rw [e, c'.1, c.1] at k0
  rw [e, c'.2, c.2] at k1
  have h0 : h ≠ 0 := hh.ne'
  have j0 : (j' : α) = ((j * r : Nat) : α) := by
    push_cast
    field_simp at k0
    linarith
  have i0 : (i' : α) = ((i * r : Nat) : α) := by
    push_cast
    field_simp at k1
    linarith
  have j1 : j' = j * r := by exact_mod_cast j0
  have i1 : i' = i * r := by exact_mod_cast i0
  subst j1 i1
  exact ⟨e, hi', hj'⟩

theorem full6 {t : Ten α} {n m k l o p : Nat} {C : Nat → Nat → Nat → Nat → Nat → Nat → α} (h : Is6 t n m k l o p C) :
    Full t fun ix => C (ix.getD 0 0) (ix.getD 1 0) (ix.getD 2 0) (ix.getD 3 0) (ix.getD 4 0) (ix.getD 5 0) := by
  intro ix hix
  rw [h.1] at hix
  rcases ix with _ | ⟨a, _ | ⟨b, _ | ⟨c, _ | ⟨d, _ | ⟨e, _ | ⟨f, _ | ⟨_, _⟩⟩⟩⟩⟩⟩⟩ <;>
    simp only [inb_cons, inb_nil, Bool.and_true, Bool.and_eq_true, decide_eq_true_eq, inb, Bool.and_false, Bool.false_eq_true, and_false] at hix
  exact h.2 a b c d e f hix.1 hix.2.1 hix.2.2.1 hix.2.2.2.1 hix.2.2.2.2.1 hix.2.2.2.2.2

end RefineEnergy

/-- **C116** A mesh is refined: every element is divided into `r` x `r` elements, `RefineRegular` gives the small elements the
material of the element they are part of, and the supports and point loads stay where they are. The response of the refined mesh
has at most the potential energy of that of the coarse mesh. If the prescribed displacements are zero: the work of the loads is at
least that of the coarse mesh. -/
theorem C116_refine {nelx nely r : Nat} (hx : 0 < nelx) (hy : 0 < nely) (hr : 0 < r) {h : α} (hh : 0 < h) {s : α} (hs : 3 * s ^ 2 = 1)
    (σ τ ρ σ' τ' ρ' : Sched) (υ υ' : Nat → Sched) {Ct b u b' u' : Ten α} {C : Nat → Nat → Nat → Nat → Nat → α} {g f g' f' : Nat → α}
    (hC : Is6 Ct (nelx * nely) 4 2 2 2 2 fun e _ => C e)
    (hE : ∀ e, e < nelx * nely → Elastic (C e)) (hmaj : ∀ e, e < nelx * nely → Major 2 (C e))
    {iip iip' : List Nat} {π : Nat → Nat} {S S' : LinSolver α} (hSol : S.Suits True) (hSol' : S'.Suits True) :
    let M := Quad4.Regular.new nelx nely h
    let M' := Quad4.Regular.new (r * nelx) (r * nely) (h / r)
    SamePlace M M' π → SameSupports (2 * M.nnode) (2 * M'.nnode) π iip iip' g g' f f' →
    Is1 b (2 * M.nnode) g → Is1 u (2 * M.nnode) f → Is1 b' (2 * M'.nnode) g' → Is1 u' (2 * M'.nnode) f' →
    iip.Nodup → (∀ k ∈ iip, k < 2 * M.nnode) →
    (∀ xt x, M.coor = .ok xt → Is2 xt M.nnode 2 x → Supported M.nnode (fun m i => m * 2 + i) x iip) →
    IsOk (do
      let R ← RefineRegular.new M r r
      let Ct' ← R.mapToFine Ct
      let coarse ← regularStatics M s σ τ ρ υ S iip Ct b u
      let fine ← regularStatics M' s σ' τ' ρ' υ' S' iip' Ct' b' u'
      return (Ct', coarse, fine)) fun (Ct', (V, Q, y), (V', Q', y')) => ∃ C' F γ vol F' γ' vol',
        Is6 Ct' M'.nelem 4 2 2 2 2 C' ∧
        Is1 y (2 * M.nnode) F ∧ DofGradient V Q (2 * M.nnode) M.nelem F γ ∧ Is2 Q.vol M.nelem 4 vol ∧
        Is1 y' (2 * M'.nnode) F' ∧ DofGradient V' Q' (2 * M'.nnode) M'.nelem F' γ' ∧ Is2 Q'.vol M'.nelem 4 vol' ∧
        potential (2 * M'.nnode) M'.nelem vol' C' g' F' γ' ≤ potential (2 * M.nnode) M.nelem vol (fun e _ => C e) g F γ ∧
        ((∀ k ∈ iip, f k = 0) → ∑ k ∈ range (2 * M.nnode), g k * F k ≤ ∑ k ∈ range (2 * M'.nnode), g' k * F' k) := by
  intro M M' hπ hP hb hu hb' hu' hi hin hS
  have s0 : s ≠ 0 := by rintro rfl; norm_num at hs
  have s1 : -1 ≤ s := by nlinarith [sq_nonneg (s + 1), sq_nonneg s]
  have s2 : s ≤ 1 := by nlinarith [sq_nonneg (s - 1), sq_nonneg s]
  have r0 : (0 : α) < r := by exact_mod_cast hr
  have hh' : 0 < h / (r : α) := div_pos hh r0
  have nM : M.nnode = (nely + 1) * (nelx + 1) := Nat.mul_comm _ _
  have nM' : M'.nnode = (r * nely + 1) * (r * nelx + 1) := Nat.mul_comm _ _
  -- DOFs
  have node : ∀ k, k < 2 * M.nnode → ∃ i j l, i < nely + 1 ∧ j < nelx + 1 ∧ l < 2 ∧ k = (i * (nelx + 1) + j) * 2 + l ∧
      fineDof π k = (i * r * (r * nelx + 1) + j * r) * 2 + l ∧ i * r < r * nely + 1 ∧ j * r < r * nelx + 1 := by
    intro k hk
    have hk2 : k / 2 < (nely + 1) * (nelx + 1) := by rw [← nM]; omega
    obtain ⟨i, j, hi, hj, e⟩ := grid_exists hk2
    obtain ⟨p1, p2, p3⟩ := place hr hh hπ hi hj
    exact ⟨i, j, k % 2, hi, hj, by omega, by rw [← e]; omega, by rw [fineDof, e, p1], p2, p3⟩
  have flt : ∀ k, k < 2 * M.nnode → fineDof π k < 2 * M'.nnode := by
    intro k hk
    obtain ⟨i, j, l, hi, hj, hl, -, e, p2, p3⟩ := node k hk
    have := grid_lt p2 p3
    rw [e, nM']
    omega
  have inj : ∀ k k', k < 2 * M.nnode → k' < 2 * M.nnode → fineDof π k = fineDof π k' → k = k' := by
    intro k k' hk hk' e
    obtain ⟨i, j, l, hi, hj, hl, e0, e1, p2, p3⟩ := node k hk
    obtain ⟨i', j', l', hi', hj', hl', e0', e1', p2', p3'⟩ := node k' hk'
    rw [e1, e1'] at e
    have el : l = l' := by omega
    have em : i * r * (r * nelx + 1) + j * r = i' * r * (r * nelx + 1) + j' * r := by omega
    have d := congrArg (· / (r * nelx + 1)) em
    have m := congrArg (· % (r * nelx + 1)) em
    rw [grid_div p3, grid_div p3'] at d
    rw [grid_mod p3, grid_mod p3'] at m
    rw [e0, e0', Nat.eq_of_mul_eq_mul_right hr d, Nat.eq_of_mul_eq_mul_right hr m, el]
  have interp : ∀ (w : Nat → α) k, k < 2 * M.nnode → interpolate nelx r w (fineDof π k) = w k := by
    intro w k hk
    obtain ⟨i, j, l, hi, hj, hl, e0, e1, p2, p3⟩ := node k hk
    have d2 : ((i * r * (r * nelx + 1) + j * r) * 2 + l) / 2 = i * r * (r * nelx + 1) + j * r := by omega
    have m2 : ((i * r * (r * nelx + 1) + j * r) * 2 + l) % 2 = l := by omega
    have := lin2_at hr (fun i j => onGrid nelx w i j l) (i := i) (j := j) (Nat.zero_le r) (Nat.zero_le r)
    rw [Nat.add_zero, Nat.add_zero] at this
    rw [interpolate, e1, d2, m2, grid_div p3, grid_mod p3, this, e0, onGrid]
    have r0' := r0.ne'
    push_cast
    field_simp
    ring
  -- the material of the fine mesh
  have : Inhabited α := ⟨0⟩
  obtain ⟨R, R1, R2, R3, -, -, R6⟩ := RefineRegular.new_ok nelx nely r r h
  obtain ⟨B1, B2, B3⟩ := RefineRegular.fineOf_bij (nelx := nelx) (nely := nely) (nx := r) (ny := r)
  have hN : r * nelx * (r * nely) = nelx * nely * (r * r) := by ring
  rw [hN] at B1 B2
  obtain ⟨Ct', t1, t2, t3⟩ := RefineRegular.mapToFine_ok R6 B1 B2 B3 hC.1 (full6 hC)
  have par : ∃ P : Nat → Nat, ∀ e k, e < nelx * nely → k < r * r → P (RefineRegular.fineOf nelx r r e k) = e := by
    classical
    refine ⟨fun v => if h : ∃ e k, e < nelx * nely ∧ k < r * r ∧ RefineRegular.fineOf nelx r r e k = v then h.choose else 0, fun e k he hk => ?_⟩
    have hex : ∃ e' k', e' < nelx * nely ∧ k' < r * r ∧ RefineRegular.fineOf nelx r r e' k' = RefineRegular.fineOf nelx r r e k := ⟨e, k, he, hk, rfl⟩
    beta_reduce
    rw [dif_pos hex]
    obtain ⟨k', h1, h2, h3⟩ := hex.choose_spec
    exact (B3 _ _ _ _ h1 h2 he hk h3).1
  obtain ⟨P, hP'⟩ := par
  have Plt : ∀ e, e < r * nelx * (r * nely) → P e < nelx * nely := by
    intro e he
    rw [hN] at he
    obtain ⟨e', k, h1, h2, rfl⟩ := B2 e he
    rw [hP' _ _ h1 h2]
    exact h1
  have hC' : Is6 Ct' (r * nelx * (r * nely)) 4 2 2 2 2 fun e _ => C (P e) := by
    refine ⟨by rw [t2, hN], fun e q i j k l he hq hi hj hk hl => ?_⟩
    rw [hN] at he
    obtain ⟨e', k', h1, h2, rfl⟩ := B2 e he
    rw [t3 e' k' [q, i, j, k, l] h1 h2 (by simp [hq, hi, hj, hk, hl])]
    beta_reduce
    rw [hP' _ _ h1 h2]
    rfl
  have hCC : ∀ i j a b, i < nely → j < nelx → a < r → b < r → (fun e => C (P e)) ((i * r + a) * (r * nelx) + (j * r + b)) = C (i * nelx + j) := by
    intro i j a b hi hj ha hb
    beta_reduce
    rw [← RefineRegular.fineOf_eq hj hb, hP' _ _ (by rw [Nat.mul_comm nelx]; exact grid_lt hi hj) (grid_lt ha hb)]
  -- both responses
  obtain ⟨coor, c1, c2⟩ := (Quad4.Regular.new nelx nely h).coor_spec rfl rfl
  have hS0 := hS coor _ c1 c2
  obtain ⟨V, Q, y, F, γ, vol, y0, y1, y2, y3, y4, pot, -, cla⟩ := regular_response hh hx hy s0 s1 s2 σ τ ρ υ hC hE hmaj rfl hb hu hi hin hS0 hSol
  have hS' : Supported ((r * nelx + 1) * (r * nely + 1)) (fun m i => m * 2 + i) (gridCoor (h / (r : α)) (r * nelx)) iip' := by
    intro w θ b₀ b₁ hw h0
    refine hS0 (fun k => w (fineDof π k)) θ b₀ b₁ (fun m hm => ?_) fun k hk => h0 _ ((hP.supports _).2 ⟨k, hk, rfl⟩)
    have hm' : m < (nely + 1) * (nelx + 1) := by rw [← nM]; exact hm
    obtain ⟨i, j, hi, hj, rfl⟩ := grid_exists hm'
    obtain ⟨p1, p2, p3⟩ := place hr hh hπ hi hj
    obtain ⟨w0, w1⟩ := hw (i * r * (r * nelx + 1) + j * r) (by rw [Nat.mul_comm (r * nelx + 1)]; exact grid_lt p2 p3)
    have g' := gridCoor_node (h / (r : α)) (nelx := r * nelx) (i := i * r) (j := j * r) p3
    have g0 := gridCoor_node h (nelx := nelx) (i := i) (j := j) hj
    rw [g'.2] at w0
    rw [g'.1] at w1
    have d0 : fineDof π ((i * (nelx + 1) + j) * 2 + 0) = (i * r * (r * nelx + 1) + j * r) * 2 + 0 := by
      rw [fineDof, show ((i * (nelx + 1) + j) * 2 + 0) / 2 = i * (nelx + 1) + j by omega, p1]; omega
    have d1 : fineDof π ((i * (nelx + 1) + j) * 2 + 1) = (i * r * (r * nelx + 1) + j * r) * 2 + 1 := by
      rw [fineDof, show ((i * (nelx + 1) + j) * 2 + 1) / 2 = i * (nelx + 1) + j by omega, p1]; omega
    have e0 : h / (r : α) * ((j * r : Nat) : α) = h * j := by push_cast; field_simp
    have e1 : h / (r : α) * ((i * r : Nat) : α) = h * i := by push_cast; field_simp
    rw [e1] at w0
    rw [e0] at w1
    have g1 : gridCoor (Quad4.Regular.new nelx nely h).h (Quad4.Regular.new nelx nely h).nelx (i * (nelx + 1) + j) 0 = h * j := g0.1
    have g2 : gridCoor (Quad4.Regular.new nelx nely h).h (Quad4.Regular.new nelx nely h).nelx (i * (nelx + 1) + j) 1 = h * i := g0.2
    beta_reduce
    rw [d0, d1, g1, g2]
    exact ⟨w0, w1⟩
  obtain ⟨V', Q', y', F', γ', vol', y0', y1', y2', y3', y4', pot', min', cla'⟩ := regular_response (C := fun e => C (P e)) hh' (Nat.mul_pos hr hx) (Nat.mul_pos hr hy)
    s0 s1 s2 σ' τ' ρ' υ' hC' (fun e he => hE _ (Plt e he)) (fun e he => hmaj _ (Plt e he)) rfl hb' hu' hP.nodup
    (fun l hl => by obtain ⟨k, hk, rfl⟩ := (hP.supports l).1 hl; exact flt k (hin k hk)) hS' hSol'
  have load : ∑ l ∈ range (2 * M'.nnode), g' l * interpolate nelx r F l = ∑ k ∈ range (2 * M.nnode), g k * F k := by
    have sub : (range (2 * M.nnode)).image (fineDof π) ⊆ range (2 * M'.nnode) := by
      intro l hl
      obtain ⟨k, hk, rfl⟩ := mem_image.1 hl
      exact mem_range.2 (flt k (mem_range.1 hk))
    rw [← sum_subset sub fun l hl hn => ?_, sum_image fun k hk k' hk' e => inj k k' (mem_range.1 hk) (mem_range.1 hk') e]
    · exact sum_congr rfl fun k hk => by rw [hP.load k (mem_range.1 hk), interp F k (mem_range.1 hk)]
    · rw [hP.unloaded l (mem_range.1 hl) fun k hk e => hn (mem_image.2 ⟨k, mem_range.2 hk, e⟩), zero_mul]
  have main : potential (2 * M'.nnode) (r * nelx * (r * nely)) vol' (fun e _ => C (P e)) g' F' γ' ≤
      potential (2 * M.nnode) (nelx * nely) vol (fun e _ => C e) g F γ := by
    refine (min' (interpolate nelx r F) fun l hl => ?_).trans (le_of_eq ?_)
    · obtain ⟨k, hk, rfl⟩ := (hP.supports l).1 hl
      rw [interp F k (hin k hk), y4 k hk, hP.values k hk]
    · rw [gridWork, interpolate_energy hr hh hs hCC, ← gridWork, show potential (2 * M.nnode) (nelx * nely) vol (fun e _ => C e) g F γ = _ from pot]
      rw [show ∑ k ∈ range (2 * ((r * nelx + 1) * (r * nely + 1))), g' k * interpolate nelx r F k = _ from load]
      rfl
  refine ⟨(Ct', (V, Q, y), (V', Q', y')), ?_, fun e _ => C (P e), F, γ, vol, F', γ', vol', hC', y1, y2, y3, y1', y2', y3', main, fun hf => ?_⟩
  · have R1' : RefineRegular.new M r r = .ok R := R1
    simp only [R1', t1, Res.ok_bind]
    rw [show regularStatics M s σ τ ρ υ S iip Ct b u = _ from y0]
    simp only [Res.ok_bind]
    rw [show regularStatics M' s σ' τ' ρ' υ' S' iip' Ct' b' u' = _ from y0']
    rfl
  · have a := cla hf
    have a' := cla' fun l hl => by
      obtain ⟨k, hk, rfl⟩ := (hP.supports l).1 hl
      rw [hP.values k hk, hf k hk]
    have m := main
    have a1 : potential (2 * M.nnode) (nelx * nely) vol (fun e _ => C e) g F γ = -(∑ k ∈ range (2 * M.nnode), g k * F k) / 2 := a
    have a1' : potential (2 * M'.nnode) (r * nelx * (r * nely)) vol' (fun e _ => C (P e)) g' F' γ' = -(∑ k ∈ range (2 * M'.nnode), g' k * F' k) / 2 := a'
    rw [a1, a1'] at m
    linarith

/-- all hypotheses can be met: 2 x 1 elements of size 1, each divided into 3 x 3, isotropic elasticity with moduli that differ from
element to element, held at the lower left corner and vertically at the lower right corner, loaded by a force at the upper right
corner (node 5 of the coarse mesh, node 27 of the fine mesh) -/
example : ∃ s : ℝ, 3 * s ^ 2 = 1 ∧ ∃ π iip' g' f', π 5 = 27 ∧
    let M := Quad4.Regular.new 2 1 (1 : ℝ)
    let M' := Quad4.Regular.new (3 * 2) (3 * 1) (1 / ((3 : Nat) : ℝ))
    let C := Ten.of [2, 4, 2, 2, 2, 2] fun ix => isotropic 1 ((ix.getD 0 0 : ℝ) + 1) (ix.getD 2 0) (ix.getD 3 0) (ix.getD 4 0) (ix.getD 5 0)
    SamePlace M M' π ∧ SameSupports 12 56 π [0, 1, 5] iip' (fun k => if k = 11 then 1 else 0) g' (fun _ => 0) f' ∧
    IsOk (do
      let R ← RefineRegular.new M 3 3
      let C' ← R.mapToFine C
      let coarse ← regularStatics M s .seq .seq .seq (fun _ => .seq) ldlt [0, 1, 5] C
        (Ten.of [12] fun ix => if ix.getD 0 0 = 11 then 1 else 0) (Ten.of [12] fun _ => 0)
      let fine ← regularStatics M' s .rev .seq .rev (fun _ => .rev) ldlt iip' C' (Ten.of [56] fun ix => g' (ix.getD 0 0))
        (Ten.of [56] fun ix => f' (ix.getD 0 0))
      return (C', coarse, fine)) fun r => ∃ F F', Is1 r.2.1.2.2 12 F ∧ Is1 r.2.2.2.2 56 F' ∧ F 11 ≤ F' 55 := by
  refine ⟨(Real.sqrt 3)⁻¹, by rw [inv_pow, Real.sq_sqrt (by norm_num)]; norm_num, fun m => m / 3 * 3 * 7 + m % 3 * 3, [0, 1, 13],
    fun k => if k = 55 then 1 else 0, fun _ => 0, by norm_num, ?_⟩
  intro M M' C
  have hπ : SamePlace M M' fun m => m / 3 * 3 * 7 + m % 3 * 3 := by
    intro xt xt' h1 h2 m hm
    obtain ⟨coor, c1, c2⟩ := (Quad4.Regular.new 2 1 (1 : ℝ)).coor_spec rfl rfl
    obtain ⟨coor', c1', c2'⟩ := (Quad4.Regular.new (3 * 2) (3 * 1) (1 / ((3 : Nat) : ℝ))).coor_spec rfl rfl
    obtain rfl : xt = coor := Res.ok.inj (h1.symm.trans c1)
    obtain rfl : xt' = coor' := Res.ok.inj (h2.symm.trans c1')
    have hm6 : m < 2 * 3 := hm
    have k2 : m % 3 < 2 + 1 := by omega
    have k3 : m % 3 * 3 < 6 + 1 := by omega
    have e : m = m / 3 * (2 + 1) + m % 3 := by omega
    have lt : m / 3 * 3 * 7 + m % 3 * 3 < M'.nnode := by
      show _ < 28
      omega
    refine ⟨lt, fun i hi => ?_⟩
    have a := c2.2 m i hm hi
    have a' := c2'.2 _ i lt hi
    have g := gridCoor_node (1 : ℝ) (nelx := 2) (i := m / 3) (j := m % 3) k2
    have g' := gridCoor_node (1 / ((3 : Nat) : ℝ)) (nelx := 6) (i := m / 3 * 3) (j := m % 3 * 3) k3
    rw [← e] at g
    rw [a, a']
    congr 1
    obtain rfl | rfl : i = 0 ∨ i = 1 := by omega
    · refine g'.1.trans (Eq.trans ?_ g.1.symm)
      push_cast
      ring
    · refine g'.2.trans (Eq.trans ?_ g.2.symm)
      push_cast
      ring
  have hP : SameSupports 12 56 (fun m => m / 3 * 3 * 7 + m % 3 * 3) [0, 1, 5] [0, 1, 13] (fun k => if k = 11 then (1 : ℝ) else 0)
      (fun k => if k = 55 then 1 else 0) (fun _ => 0) fun _ => 0 := by
    refine ⟨by decide, fun l => ?_, fun _ _ => rfl, fun k hk => ?_, fun l hl h => ?_⟩
    · simp only [List.mem_cons, List.not_mem_nil, or_false, fineDof, exists_eq_or_imp, exists_eq_left]
      omega
    · simp only [fineDof]
      congr 1
      refine propext ?_
      omega
    · have := h 11 (by omega)
      simp only [fineDof] at this
      exact if_neg fun e => this e.symm
  refine ⟨hπ, hP, ?_⟩
  have main := C116_refine (nelx := 2) (nely := 1) (r := 3) (by norm_num) (by norm_num) (by norm_num) (h := (1 : ℝ)) one_pos
    (s := (Real.sqrt 3)⁻¹) (by rw [inv_pow, Real.sq_sqrt (by norm_num)]; norm_num) .seq .seq .seq .rev .seq .rev (fun _ => .seq) (fun _ => .rev)
    (Ct := C) (b := Ten.of [12] fun ix => if ix.getD 0 0 = 11 then 1 else 0) (u := Ten.of [12] fun _ => 0)
    (b' := Ten.of [56] fun ix => if ix.getD 0 0 = 55 then 1 else 0) (u' := Ten.of [56] fun _ => 0)
    (C := fun e => isotropic 1 ((e : ℝ) + 1)) (g := fun k => if k = 11 then 1 else 0) (f := fun _ => 0) (g' := fun k => if k = 55 then 1 else 0)
    (f' := fun _ => 0) ⟨rfl, fun e q i j k l _ _ _ _ _ _ => by simp [C, Ten.of]⟩
    (fun e _ => isotropic_elastic (by positivity) (by positivity)) (fun e _ => isotropic_major 2 _ _) (S := ldlt) (S' := ldlt)
    (Or.inr ⟨C98_ldlt, trivial⟩) (Or.inr ⟨C98_ldlt, trivial⟩) hπ hP (is1_of _ _) (is1_of _ _) (is1_of _ _) (is1_of _ _) (by decide)
    (fun k hk => by
      show k < 12
      simp only [List.mem_cons, List.not_mem_nil, or_false] at hk
      omega) (fun xt x h1 h2 => by
      obtain ⟨c, x0, O, ct, xt0, -, -, -, b1, b2, -, -, hS⟩ := Quad4.Regular.energy_hyps 2 1 (by norm_num) (by norm_num) (one_pos : (0 : ℝ) < 1)
      obtain rfl : xt = xt0 := Res.ok.inj (h1.symm.trans b1)
      intro w θ b₀ b₁ hw h0
      refine hS w θ b₀ b₁ (fun m hm => ?_) h0
      rw [b2.unique h2 hm (show 0 < 2 by omega), b2.unique h2 hm (show 1 < 2 by omega)]
      exact hw m hm)
  obtain ⟨⟨Ct', ⟨V, Q, y⟩, V', Q', y'⟩, r0, C', F, γ, vol, F', γ', vol', p1, p2, p3, p4, p5, p6, p7, p8, p9⟩ := main
  refine ⟨_, r0, F, F', p2, p5, ?_⟩
  have e := p9 fun _ _ => rfl
  have s1 : ∀ (n : Nat) (G : Nat → ℝ) (a : Nat), a < n → ∑ k ∈ range n, (if k = a then (1 : ℝ) else 0) * G k = G a := fun n G a ha => by
    rw [sum_eq_single a (fun b _ hb => by rw [if_neg hb, zero_mul]) fun h => absurd (mem_range.2 ha) h, if_pos rfl, one_mul]
  exact (s1 12 F 11 (by omega)).symm.trans_le (le_of_le_of_eq e (s1 56 F' 55 (by omega)))

end GF
