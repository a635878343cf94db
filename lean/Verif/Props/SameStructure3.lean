import Verif.Spec.SameStructure3
import Verif.Props.SameStructure
import Verif.Props.Homogenised3
import Verif.Props.EnergyMeshes3

/-! **C114** the numbering of nodes, elements and DOFs is immaterial. -/

namespace GF
open Finset ElemSpec Element Element.Hex8
open Element.Quad4 (ddot power grad)

variable {α : Type} [Field α] [LinearOrder α] [IsStrictOrderedRing α]
variable {nn ne : Nat} {c d : Nat → Nat → Nat} {x : Nat → Nat → α} {gr : BoxGrid} {p : Nat → Nat → α}

/-- `Solve` in weak form: the stress of the result is in equilibrium with the load -/
theorem solve_weak3 (hM : BoxMesh nn ne c x gr p) {s : α} (s0 : s ≠ 0)
    (σ τ ρ : Sched) (υ : Nat → Sched) {conn dofs : Ten Nat} {coor : Ten α} (hc : Is2 conn ne 8 c) (hx : Is2 coor nn 3 x) (hd : Is2 dofs nn 3 d)
    {n : Nat} (hn : NumDofs3 nn d n) (hgap : ∀ k, k < n → ∃ m i, m < nn ∧ i < 3 ∧ d m i = k) {Ct b u : Ten α} {C g f}
    (hC : Is6 Ct ne 8 3 3 3 3 C) (hE : ∀ e q, e < ne → q < 8 → Elastic3 (C e q)) (hb : Is1 b n g)
    (hu : Is1 u n f) {iip : List Nat} (hi : iip.Nodup) (hin : ∀ k ∈ iip, k < n) (hS : Supported3 nn d x iip)
    {S : LinSolver α} (hSol : S.Suits (∀ e q, e < ne → q < 8 → Major 3 (C e q))) :
    ∃ (V : Vector) (Q : Quadrature α) (y : Ten α) (f' : Nat → α), setup3 s σ τ conn dofs coor = .ok (V, Q) ∧
      solveLinear S ρ υ conn dofs iip Q Ct b u = .ok y ∧ Is1 y n f' ∧ (∀ k ∈ iip, f' k = f k) ∧
      ∀ v : Nat → α, (∀ k ∈ iip, v k = 0) →
        virtualWork3 ne (cellVol3 s x c) (fun e a => ddot 3 (C e a) (cellGrad3 s x c (fun m i => f' (d m i)) e a))
          (cellGrad3 s x c fun m i => v (d m i)) = ∑ k ∈ range n, g k * v k := by
  obtain ⟨K, Q, y, f', B, h1, hK, e1, e2, e3, e4, en, hQ, y0, y2, y3, y4, q3, -⟩ :=
    solve_core3 hM s0 σ τ ρ υ hc hx hd hn hgap hC hE hb hu hi hin hS hSol
  refine ⟨K.V, Q, y, f', h1, y0, y2, y3, fun v hv => ?_⟩
  have vol : Is2 Q.vol ne 8 (cellVol3 s x c) := (C55_volume hQ).congr fun _ _ _ _ => one_mul _
  obtain ⟨kt, k1, k, k2, k3⟩ := stiff_live hQ ρ hC vol
  have a := SMatrix.assemble_spec hK.base (K := kt) (k := k) (by rw [e1, e2, e4]; exact k2)
  obtain ⟨t, t1, t2⟩ := C17_dot_dofval (M := ⟨K.V, ⟨K.V.ndof, K.V.ndof, SMatrix.assembled K.V c d k⟩, true⟩)
    ⟨hK.base, rfl, rfl, fun _ _ => rfl⟩ (show Is1 y K.V.ndof f' by rw [en]; exact y2)
  obtain ⟨t', t3, t4⟩ := q3 y f' y2
  obtain rfl : t = t' := by
    simp only [stiffnessDot, k1, a, t1, Res.ok_bind] at t3
    injection t3
  have w := bilinear3 hK.base e2 e4 (nip := 8) (by rw [e1]; exact k3) f' v
  rw [e1] at w
  rw [virtualWork3]
  refine w.symm.trans ?_
  rw [en]
  refine sum_congr rfl fun r hr => ?_
  rw [mem_range] at hr
  by_cases hri : r ∈ iip
  · rw [hv r hri, mul_zero, mul_zero]
  · rw [← y4 r hr hri]
    congr 1
    have t2' : Is1 t n fun r => ∑ s ∈ range n, SMatrix.assembled K.V c d k r s * f' s := by rw [← en]; exact t2
    exact t2'.unique t4 hr

namespace SameStructure3
variable {π ψ : Nat → Nat} {c' d' : Nat → Nat → Nat} {x' : Nat → Nat → α} {C C' : Nat → Nat → Nat → Nat → Nat → Nat → α} {iip iip' : List Nat}
    {g g' f f' : Nat → α}

/-- a field on the nodes that respects the ties is given by DOFs -/
theorem _root_.GF.dofs_of_field3 {n : Nat} (hgap : ∀ k, k < n → ∃ m i, m < nn ∧ i < 3 ∧ d m i = k) (hlt : ∀ m i, m < nn → i < 3 → d m i < n)
    {β : Type} [Nonempty β] (W : Nat → Nat → β) (hW : ∀ m i m' i', m < nn → i < 3 → m' < nn → i' < 3 → d m i = d m' i' → W m i = W m' i') :
    ∃ v : Nat → β, ∀ m i, m < nn → i < 3 → v (d m i) = W m i := by
  choose! M I hMI using hgap
  refine ⟨fun k => W (M k) (I k), fun m i hm hi => ?_⟩
  obtain ⟨a, b, e⟩ := hMI _ (hlt m i hm hi)
  exact hW _ _ _ _ a b hm hi e

/-- the same work in both descriptions -/
theorem work (h : SameStructure3 nn ne π ψ c c' x x' d d' C C' iip iip' g g' f f') (hM : BoxMesh nn ne c x gr p) {s : α} {U W U' W' : Nat → Nat → α}
    (hU : ∀ m i, m < nn → i < 3 → U' (π m) i = U m i) (hW : ∀ m i, m < nn → i < 3 → W' (π m) i = W m i) :
    virtualWork3 ne (cellVol3 s x' c') (fun e a => ddot 3 (C' e a) (cellGrad3 s x' c' U' e a)) (cellGrad3 s x' c' W') =
    virtualWork3 ne (cellVol3 s x c) (fun e a => ddot 3 (C e a) (cellGrad3 s x c U e a)) (cellGrad3 s x c W) := by
  have eX : ∀ e m i, e < ne → m < 8 → i < 3 → x' (c' (ψ e) m) i = x (c e m) i := fun e m i he hm hi => by
    rw [h.conn e m he hm, h.coor _ i (hM.valid e m he hm) hi]
  have eV : ∀ e a, e < ne → cellVol3 s x' c' (ψ e) a = cellVol3 s x c e a := fun e a he => by
    have m4 : ∀ j, j < 3 → map8 (fun m i => x' (c' (ψ e) m) i) j = map8 (fun m i => x (c e m) i) j := fun j hj => by
      funext ξ η ζ
      exact sum_congr rfl fun m hm => by beta_reduce; rw [eX e m j he (mem_range.1 hm) hj]
    simp only [cellVol3, det8, matDet3, jac8, m4 0 (by omega), m4 1 (by omega), m4 2 (by omega)]
  have eG : ∀ (F F' : Nat → Nat → α), (∀ m i, m < nn → i < 3 → F' (π m) i = F m i) → ∀ e a i j, e < ne → i < 3 → j < 3 →
      cellGrad3 s x' c' F' (ψ e) a i j = cellGrad3 s x c F e a i j := by
    intro F F' hF e a i j he hi hj
    unfold cellGrad3 grad
    refine sum_congr rfl fun m hm => ?_
    rw [mem_range] at hm
    beta_reduce
    rw [h.conn e m he hm, hF _ j (hM.valid e m he hm) hj]
    congr 1
    have eJ : ∀ i j, j < 3 → J8 (D8 fun q i => s * corner8 q i) (fun e m i => x' (c' e m) i) (ψ e) a i j =
        J8 (D8 fun q i => s * corner8 q i) (fun e m i => x (c e m) i) e a i j := fun i j hj =>
      sum_congr rfl fun m hm => by beta_reduce; rw [eX e m j he (mem_range.1 hm) hj]
    refine sum_congr rfl fun l _ => ?_
    simp only [inv3f, eJ _ 0 (by omega), eJ _ 1 (by omega), eJ _ 2 (by omega)]
  unfold virtualWork3
  symm
  refine sum_bij (fun e _ => ψ e) (fun e he => mem_range.2 (h.elems.lt e (mem_range.1 he))) (fun e he e' he' => h.elems.inj e e' (mem_range.1 he) (mem_range.1 he'))
    (fun e he => by
      obtain ⟨l, hl, hle⟩ := h.elems.surj e (mem_range.1 he)
      exact ⟨l, mem_range.2 hl, hle⟩) fun e he => ?_
  rw [mem_range] at he
  refine sum_congr rfl fun a ha => ?_
  rw [mem_range] at ha
  rw [eV e a he]
  congr 1
  refine sum_congr rfl fun i hi => sum_congr rfl fun j hj => ?_
  rw [mem_range] at hi hj
  rw [eG W W' hW e a i j he hi hj]
  congr 1
  refine sum_congr rfl fun k hk => sum_congr rfl fun l hl => ?_
  rw [mem_range] at hk hl
  rw [eG U U' hU e a l k he hl hk, h.material e a i j k l he ha hi hj hk hl]

/-- the second description is supported as well -/
theorem supported (h : SameStructure3 nn ne π ψ c c' x x' d d' C C' iip iip' g g' f f') {n : Nat} (hn : NumDofs3 nn d n)
    (hgap : ∀ k, k < n → ∃ m i, m < nn ∧ i < 3 ∧ d m i = k) (hin : ∀ k ∈ iip, k < n) (hS : Supported3 nn d x iip) : Supported3 nn d' x' iip' := by
  intro w' θ b hR h0
  obtain ⟨w, hw⟩ := dofs_of_field3 hgap hn.1 (fun m i => w' (d' (π m) i)) fun m i m' i' hm hi hm' hi' e => by
    beta_reduce
    rw [(h.ties m i m' i' hm hi hm' hi').1 e]
  refine hS w θ b (fun m hm => ?_) fun k hk => ?_
  · have e := hR (π m) (h.nodes.lt m hm)
    rw [h.coor m 0 hm (by omega), h.coor m 1 hm (by omega), h.coor m 2 hm (by omega)] at e
    rw [hw m 0 hm (by omega), hw m 1 hm (by omega), hw m 2 hm (by omega)]
    exact e
  · obtain ⟨m, i, hm, hi, rfl⟩ := hgap k (hin k hk)
    rw [hw m i hm hi]
    exact h0 _ ((h.prescribed m i hm hi).1 hk)

end SameStructure3

/-- **C114** Two descriptions of the same structure, with other numbers for the nodes, the elements and the DOFs (and run with other
schedules and other solvers), give the same displacement of every node. -/
theorem C114_renumber {π ψ : Nat → Nat} {c' d' : Nat → Nat → Nat} {x' : Nat → Nat → α} {gr' : BoxGrid} {p' : Nat → Nat → α}
    {C C' : Nat → Nat → Nat → Nat → Nat → Nat → α} {iip iip' : List Nat} {g g' f f' : Nat → α}
    (h : SameStructure3 nn ne π ψ c c' x x' d d' C C' iip iip' g g' f f')
    (hM : BoxMesh nn ne c x gr p) (hM' : BoxMesh nn ne c' x' gr' p') {s : α} (s0 : s ≠ 0)
    (σ τ ρ σ' τ' ρ' : Sched) (υ υ' : Nat → Sched) {conn dofs conn' dofs' : Ten Nat} {coor coor' : Ten α} (hc : Is2 conn ne 8 c) (hx : Is2 coor nn 3 x)
    (hd : Is2 dofs nn 3 d) (hc' : Is2 conn' ne 8 c') (hx' : Is2 coor' nn 3 x') (hd' : Is2 dofs' nn 3 d')
    {n n' : Nat} (hn : NumDofs3 nn d n) (hgap : ∀ k, k < n → ∃ m i, m < nn ∧ i < 3 ∧ d m i = k)
    (hn' : NumDofs3 nn d' n') (hgap' : ∀ k, k < n' → ∃ m i, m < nn ∧ i < 3 ∧ d' m i = k) {Ct b u Ct' b' u' : Ten α}
    (hC : Is6 Ct ne 8 3 3 3 3 C) (hC' : Is6 Ct' ne 8 3 3 3 3 C') (hE : ∀ e q, e < ne → q < 8 → Elastic3 (C e q)) (hE' : ∀ e q, e < ne → q < 8 → Elastic3 (C' e q))
    (hb : Is1 b n g) (hu : Is1 u n f) (hb' : Is1 b' n' g') (hu' : Is1 u' n' f') (hi : iip.Nodup) (hin : ∀ k ∈ iip, k < n) (hi' : iip'.Nodup)
    (hin' : ∀ k ∈ iip', k < n') (hS : Supported3 nn d x iip) {S S' : LinSolver α} (hSol : S.Suits (∀ e q, e < ne → q < 8 → Major 3 (C e q)))
    (hSol' : S'.Suits (∀ e q, e < ne → q < 8 → Major 3 (C' e q))) :
    IsOk (do
      let (_, Q) ← setup3 s σ τ conn dofs coor
      let y ← solveLinear S ρ υ conn dofs iip Q Ct b u
      let (_, Q') ← setup3 s σ' τ' conn' dofs' coor'
      let y' ← solveLinear S' ρ' υ' conn' dofs' iip' Q' Ct' b' u'
      return (y, y')) fun t => ∃ Y Y', Is1 t.1 n Y ∧ Is1 t.2 n' Y' ∧ ∀ m i, m < nn → i < 3 → Y (d m i) = Y' (d' (π m) i) := by
  obtain ⟨V, Q, y, Y, a1, a2, a3, a4, a5⟩ := solve_weak3 hM s0 σ τ ρ υ hc hx hd hn hgap hC hE hb hu hi hin hS hSol
  obtain ⟨V', Q', y', Y', b1, b2, b3, b4, b5⟩ := solve_weak3 hM' s0 σ' τ' ρ' υ' hc' hx' hd' hn' hgap' hC' hE' hb' hu' hi' hin'
    (h.supported hn hgap hin hS) hSol'
  refine ⟨(y, y'), by simp only [a1, a2, b1, b2, Res.ok_bind]; rfl, Y, Y', a3, b3, ?_⟩
  -- the numbers of the DOFs
  obtain ⟨φ, hφ⟩ := dofs_of_field3 hgap hn.1 (fun m i => d' (π m) i) fun m i m' i' hm hi hm' hi' e => (h.ties m i m' i' hm hi hm' hi').1 e
  have reach : ∀ k', k' < n' → ∃ m i, m < nn ∧ i < 3 ∧ d' (π m) i = k' := by
    intro k' hk'
    obtain ⟨m', i, hm', hi, e⟩ := hgap' k' hk'
    obtain ⟨m, hm, rfl⟩ := h.nodes.surj m' hm'
    exact ⟨m, i, hm, hi, e⟩
  have sumφ : ∀ G' : Nat → α, ∑ k ∈ range n', G' k = ∑ k ∈ range n, G' (φ k) := by
    intro G'
    symm
    refine sum_bij (fun k _ => φ k) (fun k hk => ?_) (fun k hk l hl e => ?_) (fun k' hk' => ?_) fun _ _ => rfl
    · obtain ⟨m, i, hm, hi, rfl⟩ := hgap k (mem_range.1 hk)
      rw [hφ m i hm hi]
      exact mem_range.2 (hn'.1 _ _ (h.nodes.lt m hm) hi)
    · obtain ⟨m, i, hm, hi, rfl⟩ := hgap k (mem_range.1 hk)
      obtain ⟨m', i', hm', hi', rfl⟩ := hgap l (mem_range.1 hl)
      beta_reduce at e
      rw [hφ m i hm hi, hφ m' i' hm' hi'] at e
      exact (h.ties m i m' i' hm hi hm' hi').2 e
    · obtain ⟨m, i, hm, hi, e⟩ := reach k' (mem_range.1 hk')
      exact ⟨d m i, mem_range.2 (hn.1 m i hm hi), by rw [hφ m i hm hi, e]⟩
  -- the difference of the two results, as test function in both descriptions
  obtain ⟨ψ', hψ'⟩ : ∃ ψ' : Nat → Nat, ∀ k, k < n' → ψ' k < n ∧ φ (ψ' k) = k := by
    choose! M I hMI using reach
    refine ⟨fun k => d (M k) (I k), fun k hk => ?_⟩
    obtain ⟨p1, p2, p3⟩ := hMI k hk
    exact ⟨hn.1 _ _ p1 p2, by rw [hφ _ _ p1 p2, p3]⟩
  obtain ⟨v, hv⟩ : ∃ v : Nat → α, ∀ k, v k = Y k - Y' (φ k) := ⟨_, fun _ => rfl⟩
  obtain ⟨v', hv'⟩ : ∃ v' : Nat → α, ∀ k, v' k = v (ψ' k) := ⟨_, fun _ => rfl⟩
  have vv : ∀ m i, m < nn → i < 3 → v' (d' (π m) i) = v (d m i) := by
    intro m i hm hi
    obtain ⟨p1, p2⟩ := hψ' _ (hn'.1 _ _ (h.nodes.lt m hm) hi)
    obtain ⟨m', i', hm', hi', e⟩ := hgap _ p1
    rw [hv', ← e]
    congr 1
    rw [← e, hφ m' i' hm' hi'] at p2
    exact (h.ties m' i' m i hm' hi' hm hi).2 p2
  have v0 : ∀ k ∈ iip, v k = 0 := by
    intro k hk
    obtain ⟨m, i, hm, hi, rfl⟩ := hgap k (hin k hk)
    rw [hv, hφ m i hm hi, a4 _ hk, b4 _ ((h.prescribed m i hm hi).1 hk), h.values m i hm hi hk, sub_self]
  have v0' : ∀ k ∈ iip', v' k = 0 := by
    intro k hk
    obtain ⟨m, i, hm, hi, rfl⟩ := reach k (hin' k hk)
    rw [vv m i hm hi]
    exact v0 _ ((h.prescribed m i hm hi).2 hk)
  have w1 := a5 v v0
  have w2 := b5 v' v0'
  rw [h.work hM (U := fun m i => Y' (φ (d m i))) (W := fun m i => v (d m i)) (fun m i hm hi => by rw [hφ m i hm hi]) vv, sumφ] at w2
  have eS : ∑ k ∈ range n, g' (φ k) * v' (φ k) = ∑ k ∈ range n, g k * v k := by
    refine sum_congr rfl fun k hk => ?_
    obtain ⟨m, i, hm, hi, rfl⟩ := hgap k (mem_range.1 hk)
    rw [hφ m i hm hi, vv m i hm hi, h.load m i hm hi]
  rw [eS, ← w1] at w2
  -- its energy is zero
  have e : virtualWork3 ne (cellVol3 s x c) (fun e a => ddot 3 (C e a) (cellGrad3 s x c (fun m i => v (d m i)) e a)) (cellGrad3 s x c fun m i => v (d m i)) = 0 := by
    have e1 : ∀ e a i j, ddot 3 (C e a) (cellGrad3 s x c (fun m i => v (d m i)) e a) i j =
        ddot 3 (C e a) (cellGrad3 s x c (fun m i => Y (d m i)) e a) i j - ddot 3 (C e a) (cellGrad3 s x c (fun m i => Y' (φ (d m i))) e a) i j := by
      intro e a i j
      rw [← ddot3_sub']
      exact sum_congr rfl fun k _ => sum_congr rfl fun l _ => by
        beta_reduce
        rw [← PeriodicCell.State3.cellGrad_sub]
        simp only [hv]
    have e2 : virtualWork3 ne (cellVol3 s x c) (fun e a => ddot 3 (C e a) (cellGrad3 s x c (fun m i => v (d m i)) e a)) (cellGrad3 s x c fun m i => v (d m i)) =
        virtualWork3 ne (cellVol3 s x c) (fun e a => ddot 3 (C e a) (cellGrad3 s x c (fun m i => Y (d m i)) e a)) (cellGrad3 s x c fun m i => v (d m i)) -
        virtualWork3 ne (cellVol3 s x c) (fun e a => ddot 3 (C e a) (cellGrad3 s x c (fun m i => Y' (φ (d m i))) e a)) (cellGrad3 s x c fun m i => v (d m i)) := by
      simp only [virtualWork3, power, e1, sub_mul, sum_sub_distrib]
    rw [e2, w2, sub_self]
  obtain ⟨θ, b, hR⟩ := zero_work3 hM s0 hE (fun m i => v (d m i)) e
  have h0 := hS v θ b hR v0
  intro m i hm hi
  have z : v (d m i) = 0 := by
    obtain ⟨p, q, r⟩ := hR m hm
    simp only [(h0 0 (by omega)).1, (h0 0 (by omega)).2, (h0 1 (by omega)).1, (h0 1 (by omega)).2, (h0 2 (by omega)).1, (h0 2 (by omega)).2,
      zero_mul, sub_zero, add_zero] at p q r
    obtain rfl | rfl | rfl : i = 0 ∨ i = 1 ∨ i = 2 := by omega
    · exact p
    · exact q
    · exact r
  rw [hv, hφ m i hm hi] at z
  exact sub_eq_zero.1 z

/-- **C114** (DOFs) With the DOFs numbered in another order (a permutation `φ`), the result is the same vector in that order. -/
theorem C114_dofs {φ : Nat → Nat} {n : Nat} (hφ : Renumbers n φ) {C : Nat → Nat → Nat → Nat → Nat → Nat → α} {iip : List Nat} {g f : Nat → α}
    (hM : BoxMesh nn ne c x gr p) {s : α} (s0 : s ≠ 0)
    (σ τ ρ : Sched) (υ : Nat → Sched) {conn dofs dofs' : Ten Nat} {coor : Ten α} (hc : Is2 conn ne 8 c) (hx : Is2 coor nn 3 x)
    (hd : Is2 dofs nn 3 d) (hd' : Is2 dofs' nn 3 fun m i => φ (d m i))
    (hn : NumDofs3 nn d n) (hgap : ∀ k, k < n → ∃ m i, m < nn ∧ i < 3 ∧ d m i = k) {Ct b u b' u' : Ten α}
    (hC : Is6 Ct ne 8 3 3 3 3 C) (hE : ∀ e q, e < ne → q < 8 → Elastic3 (C e q))
    (hb : Is1 b n g) (hu : Is1 u n f) {g' f' : Nat → α} (hb' : Is1 b' n g') (hu' : Is1 u' n f') (hg : ∀ k, k < n → g' (φ k) = g k)
    (hf : ∀ k, k < n → f' (φ k) = f k) (hi : iip.Nodup) (hin : ∀ k ∈ iip, k < n) (hS : Supported3 nn d x iip)
    {S : LinSolver α} (hSol : S.Suits (∀ e q, e < ne → q < 8 → Major 3 (C e q))) :
    IsOk (do
      let (_, Q) ← setup3 s σ τ conn dofs coor
      let y ← solveLinear S ρ υ conn dofs iip Q Ct b u
      let (_, Q') ← setup3 s σ τ conn dofs' coor
      let y' ← solveLinear S ρ υ conn dofs' (iip.map φ) Q' Ct b' u'
      return (y, y')) fun t => ∃ Y Y', Is1 t.1 n Y ∧ Is1 t.2 n Y' ∧ ∀ k, k < n → Y' (φ k) = Y k := by
  have hlt := hn.1
  have gap' : ∀ k, k < n → ∃ m i, m < nn ∧ i < 3 ∧ φ (d m i) = k := by
    intro k hk
    obtain ⟨l, hl, rfl⟩ := hφ.surj k hk
    obtain ⟨m, i, hm, hi, rfl⟩ := hgap l hl
    exact ⟨m, i, hm, hi, rfl⟩
  have hn' : NumDofs3 nn (fun m i => φ (d m i)) n := by
    obtain ⟨-, m, i, hm, hi, e⟩ := hn
    obtain ⟨m', i', hm', hi', e'⟩ := gap' (n - 1) (by omega)
    exact ⟨fun m i hm hi => hφ.lt _ (hlt m i hm hi), m', i', hm', hi', by beta_reduce; omega⟩
  have h : SameStructure3 nn ne id id c c x x d (fun m i => φ (d m i)) C C iip (iip.map φ) g g' f f' := by
    refine ⟨⟨fun _ h => h, fun _ _ _ _ h => h⟩, ⟨fun _ h => h, fun _ _ _ _ h => h⟩, fun _ _ _ _ => rfl, fun _ _ _ _ => rfl,
      fun _ _ _ _ _ _ _ _ _ _ _ _ => rfl, fun m i m' i' hm hi hm' hi' => ⟨congrArg φ, fun e => hφ.inj _ _ (hlt m i hm hi) (hlt m' i' hm' hi') e⟩,
      fun m i hm hi => ?_, fun m i hm hi _ => hf _ (hlt m i hm hi), fun m i hm hi => hg _ (hlt m i hm hi)⟩
    rw [List.mem_map]
    refine ⟨fun h => ⟨_, h, rfl⟩, fun ⟨k, hk, e⟩ => ?_⟩
    rwa [hφ.inj _ _ (hin k hk) (hlt m i hm hi) e] at hk
  obtain ⟨t, t1, Y, Y', t2, t3, t4⟩ := C114_renumber h hM hM s0 σ τ ρ σ τ ρ υ υ hc hx hd hc hx hd' hn hgap hn' gap' hC hC hE hE hb hu hb' hu' hi hin
    (List.Nodup.map_on (fun a ha b hb e => hφ.inj a b (hin a ha) (hin b hb) e) hi) (fun k hk => by
      obtain ⟨l, hl, rfl⟩ := List.mem_map.1 hk
      exact hφ.lt l (hin l hl)) hS hSol hSol
  refine ⟨t, t1, Y, Y', t2, t3, fun k hk => ?_⟩
  obtain ⟨m, i, hm, hi, rfl⟩ := hgap k hk
  exact (t4 m i hm hi).symm

/-- the hypotheses can be met: a 2 x 1 x 1 mesh with the DOFs numbered backwards -/
example (g f : Nat → ℚ) : ∃ conn coor, Hex8.Regular.conn (Hex8.Regular.new 2 1 1 (1 : ℚ)) = .ok conn ∧ Hex8.Regular.coor (Hex8.Regular.new 2 1 1 (1 : ℚ)) = .ok coor ∧ IsOk (do
      let Ct := Ten.of [2, 8, 3, 3, 3, 3] fun ix => isotropic (1 : ℚ) 1 (ix.getD 2 0) (ix.getD 3 0) (ix.getD 4 0) (ix.getD 5 0)
      let (_, Q) ← setup3 (1 / 2) Sched.seq Sched.seq conn (meshDofs 12 3) coor
      let y ← solveLinear ldlt Sched.seq (fun _ => Sched.seq) conn (meshDofs 12 3) [0, 1, 2, 7, 8, 11] Q Ct (Ten.of [36] fun ix => g (ix.getD 0 0))
        (Ten.of [36] fun ix => f (ix.getD 0 0))
      let dofs' := Ten.of [12, 3] fun ix => 35 - (ix.getD 0 0 * 3 + ix.getD 1 0)
      let (_, Q') ← setup3 (1 / 2) Sched.seq Sched.seq conn dofs' coor
      let y' ← solveLinear ldlt Sched.seq (fun _ => Sched.seq) conn dofs' [35, 34, 33, 28, 27, 24] Q' Ct (Ten.of [36] fun ix => g (35 - ix.getD 0 0))
        (Ten.of [36] fun ix => f (35 - ix.getD 0 0))
      return (y, y')) fun t => ∃ Y Y', Is1 t.1 36 Y ∧ Is1 t.2 36 Y' ∧ ∀ k, k < 36 → Y' (35 - k) = Y k := by
  obtain ⟨c, x, gr, p, ct, xt, hM, a1, a2, b1, b2, hn, hlt, hlt', hS⟩ := Hex8.Regular.energy_hyps (nelx := 2) (nely := 1) (nelz := 1)
    (by omega) (by omega) (by omega) (h := (1 : ℚ)) (by norm_num)
  refine ⟨ct, xt, a1, b1, ?_⟩
  exact C114_dofs (φ := fun k => 35 - k) (n := 36) ⟨fun k hk => by omega, fun k l hk hl e => by beta_reduce at e; omega⟩ hM
    (by norm_num) Sched.seq Sched.seq Sched.seq (fun _ => Sched.seq) a2 b2 (meshDofs3_ok 12)
    (dofs' := Ten.of [12, 3] fun ix => 35 - (ix.getD 0 0 * 3 + ix.getD 1 0)) ⟨rfl, fun _ _ _ _ => rfl⟩ hn
    (fun k hk => ⟨k / 3, k % 3, by change k / 3 < 12; omega, by omega, by beta_reduce; omega⟩)
    (C := fun _ _ => isotropic (1 : ℚ) 1) ⟨rfl, fun _ _ _ _ _ _ _ _ _ _ _ _ => rfl⟩ (fun _ _ _ _ => isotropic_elastic3 (by norm_num) (by norm_num))
    (g := g) (f := f) ⟨rfl, fun _ _ => rfl⟩ ⟨rfl, fun _ _ => rfl⟩ (g' := fun k => g (35 - k)) (f' := fun k => f (35 - k)) ⟨rfl, fun _ _ => rfl⟩ ⟨rfl, fun _ _ => rfl⟩
    (fun k hk => by beta_reduce; congr 1; omega) (fun k hk => by beta_reduce; congr 1; omega) (iip := [0, 1, 2, 7, 8, 11]) (by decide) (by decide) hS
    (S := ldlt) (Or.inr ⟨C98_ldlt, fun _ _ _ _ => isotropic_major _ _ _⟩)

end GF
