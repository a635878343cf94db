import Verif.Spec.SameStructure
import Verif.Props.Homogenised
import Verif.Props.EnergyMeshes

/-! **C111** the numbering of nodes, elements and DOFs is immaterial. -/

namespace GF
open Finset ElemSpec Element Element.Quad4

variable {α : Type} [Field α] [LinearOrder α] [IsStrictOrderedRing α]
variable {nn ne : Nat} {c d : Nat → Nat → Nat} {x : Nat → Nat → α} {Lx Ly : α} {O : Outline}

/-- `Solve` in weak form: the stress of the result is in equilibrium with the load -/
theorem solve_weak (hM : RectMesh nn ne c x Lx Ly O) (lx : 0 < Lx) (ly : 0 < Ly) {s : α} (s0 : s ≠ 0) (s1 : -1 ≤ s) (s2 : s ≤ 1)
    (σ τ ρ : Sched) (υ : Nat → Sched) {conn dofs : Ten Nat} {coor : Ten α} (hc : Is2 conn ne 4 c) (hx : Is2 coor nn 2 x) (hd : Is2 dofs nn 2 d)
    {n : Nat} (hn : NumDofs nn d n) (hgap : ∀ k, k < n → ∃ m i, m < nn ∧ i < 2 ∧ d m i = k) {Ct b u : Ten α} {C g f}
    (hC : Is6 Ct ne 4 2 2 2 2 C) (hE : ∀ e q, e < ne → q < 4 → Elastic (C e q)) (hb : Is1 b n g)
    (hu : Is1 u n f) {iip : List Nat} (hi : iip.Nodup) (hin : ∀ k ∈ iip, k < n) (hS : Supported nn d x iip)
    {S : LinSolver α} (hSol : S.Suits (∀ e q, e < ne → q < 4 → Major 2 (C e q))) :
    ∃ (V : Vector) (Q : Quadrature α) (y : Ten α) (f' : Nat → α), setup s σ τ conn dofs coor = .ok (V, Q) ∧
      (∀ e q, e < ne → q < 4 → 0 < cellVol s x c e q) ∧
      solveLinear S ρ υ conn dofs iip Q Ct b u = .ok y ∧ Is1 y n f' ∧ (∀ k ∈ iip, f' k = f k) ∧
      ∀ v : Nat → α, (∀ k ∈ iip, v k = 0) →
        virtualWork ne (cellVol s x c) (fun e a => ddot 2 (C e a) (cellGrad s x c (fun m i => f' (d m i)) e a))
          (cellGrad s x c fun m i => v (d m i)) = ∑ k ∈ range n, g k * v k := by
  obtain ⟨K, Q, y, f', B, h1, hK, e1, e2, e3, e4, en, hQ, hp, y0, y2, y3, y4, q3, -⟩ :=
    solve_core hM lx ly s0 s1 s2 σ τ ρ υ hc hx hd hn hgap hC hE hb hu hi hin hS hSol
  refine ⟨K.V, Q, y, f', h1, hp, y0, y2, y3, fun v hv => ?_⟩
  have vol : Is2 Q.vol ne 4 (cellVol s x c) := (C46_volume hQ).congr fun _ _ _ _ => one_mul _
  obtain ⟨kt, k1, k, k2, k3⟩ := stiff_live hQ (le_refl 2) ρ hC vol
  have a := SMatrix.assemble_spec hK.base (K := kt) (k := k) (by rw [e1, e2, e4]; exact k2)
  obtain ⟨t, t1, t2⟩ := C17_dot_dofval (M := ⟨K.V, ⟨K.V.ndof, K.V.ndof, SMatrix.assembled K.V c d k⟩, true⟩)
    ⟨hK.base, rfl, rfl, fun _ _ => rfl⟩ (show Is1 y K.V.ndof f' by rw [en]; exact y2)
  obtain ⟨t', t3, t4⟩ := q3 y f' y2
  obtain rfl : t = t' := by
    simp only [stiffnessDot, k1, a, t1, Res.ok_bind] at t3
    injection t3
  have w := bilinear hK.base e2 e4 (nip := 4) (by rw [e1]; exact k3) f' v
  rw [e1] at w
  rw [virtualWork]
  refine w.symm.trans ?_
  rw [en]
  refine sum_congr rfl fun r hr => ?_
  rw [mem_range] at hr
  by_cases hri : r ∈ iip
  · rw [hv r hri, mul_zero, mul_zero]
  · rw [← y4 r hr hri]
    congr 1
    have t2' : Is1 t n fun r => ∑ s ∈ range n, SMatrix.assembled K.V c d k r s * f' s := by rw [← en]; exact t2
    exact t2'.unique t4 hr

namespace SameStructure
variable {π ψ : Nat → Nat} {c' d' : Nat → Nat → Nat} {x' : Nat → Nat → α} {C C' : Nat → Nat → Nat → Nat → Nat → Nat → α} {iip iip' : List Nat}
    {g g' f f' : Nat → α}

theorem _root_.GF.Renumbers.surj {n : Nat} {π : Nat → Nat} (h : Renumbers n π) : ∀ k, k < n → ∃ l, l < n ∧ π l = k := by
  intro k hk
  have : (range n).image π = range n := by
    refine eq_of_subset_of_card_le (fun a ha => ?_) ?_
    · obtain ⟨l, hl, rfl⟩ := mem_image.1 ha
      exact mem_range.2 (h.lt l (mem_range.1 hl))
    · rw [card_image_of_injOn]
      intro a ha b hb e
      exact h.inj a b (mem_range.1 ha) (mem_range.1 hb) e
  have hk' : k ∈ (range n).image π := by rw [this]; exact mem_range.2 hk
  obtain ⟨l, hl, e⟩ := mem_image.1 hk'
  exact ⟨l, mem_range.1 hl, e⟩

/-- a field on the nodes that respects the ties is given by DOFs -/
theorem _root_.GF.dofs_of_field {n : Nat} (hgap : ∀ k, k < n → ∃ m i, m < nn ∧ i < 2 ∧ d m i = k) (hlt : ∀ m i, m < nn → i < 2 → d m i < n)
    {β : Type} [Nonempty β] (W : Nat → Nat → β) (hW : ∀ m i m' i', m < nn → i < 2 → m' < nn → i' < 2 → d m i = d m' i' → W m i = W m' i') :
    ∃ v : Nat → β, ∀ m i, m < nn → i < 2 → v (d m i) = W m i := by
  choose! M I hMI using hgap
  refine ⟨fun k => W (M k) (I k), fun m i hm hi => ?_⟩
  obtain ⟨a, b, e⟩ := hMI _ (hlt m i hm hi)
  exact hW _ _ _ _ a b hm hi e

/-- the same work in both descriptions -/
theorem work (h : SameStructure nn ne π ψ c c' x x' d d' C C' iip iip' g g' f f') (hM : RectMesh nn ne c x Lx Ly O) {s : α} {U W U' W' : Nat → Nat → α}
    (hU : ∀ m i, m < nn → i < 2 → U' (π m) i = U m i) (hW : ∀ m i, m < nn → i < 2 → W' (π m) i = W m i) :
    virtualWork ne (cellVol s x' c') (fun e a => ddot 2 (C' e a) (cellGrad s x' c' U' e a)) (cellGrad s x' c' W') =
    virtualWork ne (cellVol s x c) (fun e a => ddot 2 (C e a) (cellGrad s x c U e a)) (cellGrad s x c W) := by
  have eX : ∀ e m i, e < ne → m < 4 → i < 2 → x' (c' (ψ e) m) i = x (c e m) i := fun e m i he hm hi => by
    rw [h.conn e m he hm, h.coor _ i (hM.valid e m he hm) hi]
  have eV : ∀ e a, e < ne → cellVol s x' c' (ψ e) a = cellVol s x c e a := fun e a he => by
    have m4 : ∀ j, j < 2 → map4 (fun m i => x' (c' (ψ e) m) i) j = map4 (fun m i => x (c e m) i) j := fun j hj => by
      funext ξ η
      exact sum_congr rfl fun m hm => by beta_reduce; rw [eX e m j he (mem_range.1 hm) hj]
    simp only [cellVol, det4, jac4, m4 0 (by omega), m4 1 (by omega)]
  have eG : ∀ (F F' : Nat → Nat → α), (∀ m i, m < nn → i < 2 → F' (π m) i = F m i) → ∀ e a i j, e < ne → i < 2 → j < 2 →
      cellGrad s x' c' F' (ψ e) a i j = cellGrad s x c F e a i j := by
    intro F F' hF e a i j he hi hj
    unfold cellGrad grad
    refine sum_congr rfl fun m hm => ?_
    rw [mem_range] at hm
    beta_reduce
    rw [h.conn e m he hm, hF _ j (hM.valid e m he hm) hj]
    congr 1
    have eJ : ∀ i j, j < 2 → Jf (D4 fun q i => s * corner4 q i) (fun e m i => x' (c' e m) i) (ψ e) a i j =
        Jf (D4 fun q i => s * corner4 q i) (fun e m i => x (c e m) i) e a i j := fun i j hj =>
      sum_congr rfl fun m hm => by beta_reduce; rw [eX e m j he (mem_range.1 hm) hj]
    refine sum_congr rfl fun l _ => ?_
    simp only [inv2f, eJ _ 0 (by omega), eJ _ 1 (by omega)]
  unfold virtualWork
  symm
  refine sum_bij (fun e _ => ψ e) (fun e he => mem_range.2 (h.elems.lt e (mem_range.1 he))) (fun e he e' he' => h.elems.inj e e' (mem_range.1 he) (mem_range.1 he'))
    (fun e he => by
      obtain ⟨l, hl, hle⟩ := h.elems.surj e (mem_range.1 he)
      exact ⟨l, mem_range.2 hl, hle⟩) fun e he => ?_
  rw [mem_range] at he
  refine sum_congr rfl fun a ha => ?_
  rw [mem_range] at ha
  rw [eV e a he]
  congr 1
  refine sum_congr rfl fun i hi => sum_congr rfl fun j hj => ?_
  rw [mem_range] at hi hj
  rw [eG W W' hW e a i j he hi hj]
  congr 1
  refine sum_congr rfl fun k hk => sum_congr rfl fun l hl => ?_
  rw [mem_range] at hk hl
  rw [eG U U' hU e a l k he hl hk, h.material e a i j k l he ha hi hj hk hl]

/-- the second description is supported as well -/
theorem supported (h : SameStructure nn ne π ψ c c' x x' d d' C C' iip iip' g g' f f') {n : Nat} (hn : NumDofs nn d n)
    (hgap : ∀ k, k < n → ∃ m i, m < nn ∧ i < 2 ∧ d m i = k) (hin : ∀ k ∈ iip, k < n) (hS : Supported nn d x iip) : Supported nn d' x' iip' := by
  intro w' θ b₀ b₁ hR h0
  obtain ⟨w, hw⟩ := dofs_of_field hgap hn.1 (fun m i => w' (d' (π m) i)) fun m i m' i' hm hi hm' hi' e => by
    beta_reduce
    rw [(h.ties m i m' i' hm hi hm' hi').1 e]
  refine hS w θ b₀ b₁ (fun m hm => ?_) fun k hk => ?_
  · obtain ⟨a, b⟩ := hR (π m) (h.nodes.lt m hm)
    rw [hw m 0 hm (by omega), hw m 1 hm (by omega), a, b, h.coor m 0 hm (by omega), h.coor m 1 hm (by omega)]
    exact ⟨rfl, rfl⟩
  · obtain ⟨m, i, hm, hi, rfl⟩ := hgap k (hin k hk)
    rw [hw m i hm hi]
    exact h0 _ ((h.prescribed m i hm hi).1 hk)

end SameStructure

/-- **C111** Two descriptions of the same structure, with other numbers for the nodes, the elements and the DOFs (and run with other
schedules and other solvers), give the same displacement of every node. -/
theorem C111_renumber {π ψ : Nat → Nat} {c' d' : Nat → Nat → Nat} {x' : Nat → Nat → α} {O' : Outline}
    {C C' : Nat → Nat → Nat → Nat → Nat → Nat → α} {iip iip' : List Nat} {g g' f f' : Nat → α}
    (h : SameStructure nn ne π ψ c c' x x' d d' C C' iip iip' g g' f f')
    (hM : RectMesh nn ne c x Lx Ly O) (hM' : RectMesh nn ne c' x' Lx Ly O') (lx : 0 < Lx) (ly : 0 < Ly) {s : α} (s0 : s ≠ 0) (s1 : -1 ≤ s) (s2 : s ≤ 1)
    (σ τ ρ σ' τ' ρ' : Sched) (υ υ' : Nat → Sched) {conn dofs conn' dofs' : Ten Nat} {coor coor' : Ten α} (hc : Is2 conn ne 4 c) (hx : Is2 coor nn 2 x)
    (hd : Is2 dofs nn 2 d) (hc' : Is2 conn' ne 4 c') (hx' : Is2 coor' nn 2 x') (hd' : Is2 dofs' nn 2 d')
    {n n' : Nat} (hn : NumDofs nn d n) (hgap : ∀ k, k < n → ∃ m i, m < nn ∧ i < 2 ∧ d m i = k)
    (hn' : NumDofs nn d' n') (hgap' : ∀ k, k < n' → ∃ m i, m < nn ∧ i < 2 ∧ d' m i = k) {Ct b u Ct' b' u' : Ten α}
    (hC : Is6 Ct ne 4 2 2 2 2 C) (hC' : Is6 Ct' ne 4 2 2 2 2 C') (hE : ∀ e q, e < ne → q < 4 → Elastic (C e q)) (hE' : ∀ e q, e < ne → q < 4 → Elastic (C' e q))
    (hb : Is1 b n g) (hu : Is1 u n f) (hb' : Is1 b' n' g') (hu' : Is1 u' n' f') (hi : iip.Nodup) (hin : ∀ k ∈ iip, k < n) (hi' : iip'.Nodup)
    (hin' : ∀ k ∈ iip', k < n') (hS : Supported nn d x iip) {S S' : LinSolver α} (hSol : S.Suits (∀ e q, e < ne → q < 4 → Major 2 (C e q)))
    (hSol' : S'.Suits (∀ e q, e < ne → q < 4 → Major 2 (C' e q))) :
    IsOk (do
      let (_, Q) ← setup s σ τ conn dofs coor
      let y ← solveLinear S ρ υ conn dofs iip Q Ct b u
      let (_, Q') ← setup s σ' τ' conn' dofs' coor'
      let y' ← solveLinear S' ρ' υ' conn' dofs' iip' Q' Ct' b' u'
      return (y, y')) fun t => ∃ Y Y', Is1 t.1 n Y ∧ Is1 t.2 n' Y' ∧ ∀ m i, m < nn → i < 2 → Y (d m i) = Y' (d' (π m) i) := by
  obtain ⟨V, Q, y, Y, a1, hp, a2, a3, a4, a5⟩ := solve_weak hM lx ly s0 s1 s2 σ τ ρ υ hc hx hd hn hgap hC hE hb hu hi hin hS hSol
  obtain ⟨V', Q', y', Y', b1, -, b2, b3, b4, b5⟩ := solve_weak hM' lx ly s0 s1 s2 σ' τ' ρ' υ' hc' hx' hd' hn' hgap' hC' hE' hb' hu' hi' hin'
    (h.supported hn hgap hin hS) hSol'
  refine ⟨(y, y'), by simp only [a1, a2, b1, b2, Res.ok_bind]; rfl, Y, Y', a3, b3, ?_⟩
  -- the numbers of the DOFs
  obtain ⟨φ, hφ⟩ := dofs_of_field hgap hn.1 (fun m i => d' (π m) i) fun m i m' i' hm hi hm' hi' e => (h.ties m i m' i' hm hi hm' hi').1 e
  have reach : ∀ k', k' < n' → ∃ m i, m < nn ∧ i < 2 ∧ d' (π m) i = k' := by
    intro k' hk'
    obtain ⟨m', i, hm', hi, e⟩ := hgap' k' hk'
    obtain ⟨m, hm, rfl⟩ := h.nodes.surj m' hm'
    exact ⟨m, i, hm, hi, e⟩
  have sumφ : ∀ G' : Nat → α, ∑ k ∈ range n', G' k = ∑ k ∈ range n, G' (φ k) := by
    intro G'
    symm
    refine sum_bij (fun k _ => φ k) (fun k hk => ?_) (fun k hk l hl e => ?_) (fun k' hk' => ?_) fun _ _ => rfl
    · obtain ⟨m, i, hm, hi, rfl⟩ := hgap k (mem_range.1 hk)
      rw [hφ m i hm hi]
      exact mem_range.2 (hn'.1 _ _ (h.nodes.lt m hm) hi)
    · obtain ⟨m, i, hm, hi, rfl⟩ := hgap k (mem_range.1 hk)
      obtain ⟨m', i', hm', hi', rfl⟩ := hgap l (mem_range.1 hl)
      beta_reduce at e
      rw [hφ m i hm hi, hφ m' i' hm' hi'] at e
      exact (h.ties m i m' i' hm hi hm' hi').2 e
    · obtain ⟨m, i, hm, hi, e⟩ := reach k' (mem_range.1 hk')
      exact ⟨d m i, mem_range.2 (hn.1 m i hm hi), by rw [hφ m i hm hi, e]⟩
  -- the difference of the two results, as test function in both descriptions
  obtain ⟨ψ', hψ'⟩ : ∃ ψ' : Nat → Nat, ∀ k, k < n' → ψ' k < n ∧ φ (ψ' k) = k := by
    choose! M I hMI using reach
    refine ⟨fun k => d (M k) (I k), fun k hk => ?_⟩
    obtain ⟨p1, p2, p3⟩ := hMI k hk
    exact ⟨hn.1 _ _ p1 p2, by rw [hφ _ _ p1 p2, p3]⟩
  obtain ⟨v, hv⟩ : ∃ v : Nat → α, ∀ k, v k = Y k - Y' (φ k) := ⟨_, fun _ => rfl⟩
  obtain ⟨v', hv'⟩ : ∃ v' : Nat → α, ∀ k, v' k = v (ψ' k) := ⟨_, fun _ => rfl⟩
  have vv : ∀ m i, m < nn → i < 2 → v' (d' (π m) i) = v (d m i) := by
    intro m i hm hi
    obtain ⟨p1, p2⟩ := hψ' _ (hn'.1 _ _ (h.nodes.lt m hm) hi)
    obtain ⟨m', i', hm', hi', e⟩ := hgap _ p1
    rw [hv', ← e]
    congr 1
    rw [← e, hφ m' i' hm' hi'] at p2
    exact (h.ties m' i' m i hm' hi' hm hi).2 p2
  have v0 : ∀ k ∈ iip, v k = 0 := by
    intro k hk
    obtain ⟨m, i, hm, hi, rfl⟩ := hgap k (hin k hk)
    rw [hv, hφ m i hm hi, a4 _ hk, b4 _ ((h.prescribed m i hm hi).1 hk), h.values m i hm hi hk, sub_self]
  have v0' : ∀ k ∈ iip', v' k = 0 := by
    intro k hk
    obtain ⟨m, i, hm, hi, rfl⟩ := reach k (hin' k hk)
    rw [vv m i hm hi]
    exact v0 _ ((h.prescribed m i hm hi).2 hk)
  have w1 := a5 v v0
  have w2 := b5 v' v0'
  rw [h.work hM (U := fun m i => Y' (φ (d m i))) (W := fun m i => v (d m i)) (fun m i hm hi => by rw [hφ m i hm hi]) vv, sumφ] at w2
  have eS : ∑ k ∈ range n, g' (φ k) * v' (φ k) = ∑ k ∈ range n, g k * v k := by
    refine sum_congr rfl fun k hk => ?_
    obtain ⟨m, i, hm, hi, rfl⟩ := hgap k (mem_range.1 hk)
    rw [hφ m i hm hi, vv m i hm hi, h.load m i hm hi]
  rw [eS, ← w1] at w2
  -- its energy is zero
  have e : virtualWork ne (cellVol s x c) (fun e a => ddot 2 (C e a) (cellGrad s x c (fun m i => v (d m i)) e a)) (cellGrad s x c fun m i => v (d m i)) = 0 := by
    have e1 : ∀ e a i j, ddot 2 (C e a) (cellGrad s x c (fun m i => v (d m i)) e a) i j =
        ddot 2 (C e a) (cellGrad s x c (fun m i => Y (d m i)) e a) i j - ddot 2 (C e a) (cellGrad s x c (fun m i => Y' (φ (d m i))) e a) i j := by
      intro e a i j
      rw [← ddot_sub']
      exact sum_congr rfl fun k _ => sum_congr rfl fun l _ => by
        beta_reduce
        rw [← PeriodicCell.State.cellGrad_sub]
        simp only [hv]
    have e2 : virtualWork ne (cellVol s x c) (fun e a => ddot 2 (C e a) (cellGrad s x c (fun m i => v (d m i)) e a)) (cellGrad s x c fun m i => v (d m i)) =
        virtualWork ne (cellVol s x c) (fun e a => ddot 2 (C e a) (cellGrad s x c (fun m i => Y (d m i)) e a)) (cellGrad s x c fun m i => v (d m i)) -
        virtualWork ne (cellVol s x c) (fun e a => ddot 2 (C e a) (cellGrad s x c (fun m i => Y' (φ (d m i))) e a)) (cellGrad s x c fun m i => v (d m i)) := by
      simp only [virtualWork, power, e1, sub_mul, sum_sub_distrib]
    rw [e2, w2, sub_self]
  obtain ⟨θ, b₀, b₁, hR⟩ := zero_work hM lx ly s0 hp hp hE (fun m i => v (d m i)) e
  obtain ⟨rfl, rfl, rfl⟩ := hS v θ b₀ b₁ hR v0
  intro m i hm hi
  have z : v (d m i) = 0 := by
    obtain ⟨p, q⟩ := hR m hm
    obtain rfl | rfl : i = 0 ∨ i = 1 := by omega
    · rw [p]; ring
    · rw [q]; ring
  rw [hv, hφ m i hm hi] at z
  exact sub_eq_zero.1 z

/-- **C111** (DOFs) With the DOFs numbered in another order (a permutation `φ`), the result is the same vector in that order. -/
theorem C111_dofs {φ : Nat → Nat} {n : Nat} (hφ : Renumbers n φ) {C : Nat → Nat → Nat → Nat → Nat → Nat → α} {iip : List Nat} {g f : Nat → α}
    (hM : RectMesh nn ne c x Lx Ly O) (lx : 0 < Lx) (ly : 0 < Ly) {s : α} (s0 : s ≠ 0) (s1 : -1 ≤ s) (s2 : s ≤ 1)
    (σ τ ρ : Sched) (υ : Nat → Sched) {conn dofs dofs' : Ten Nat} {coor : Ten α} (hc : Is2 conn ne 4 c) (hx : Is2 coor nn 2 x)
    (hd : Is2 dofs nn 2 d) (hd' : Is2 dofs' nn 2 fun m i => φ (d m i))
    (hn : NumDofs nn d n) (hgap : ∀ k, k < n → ∃ m i, m < nn ∧ i < 2 ∧ d m i = k) {Ct b u b' u' : Ten α}
    (hC : Is6 Ct ne 4 2 2 2 2 C) (hE : ∀ e q, e < ne → q < 4 → Elastic (C e q))
    (hb : Is1 b n g) (hu : Is1 u n f) {g' f' : Nat → α} (hb' : Is1 b' n g') (hu' : Is1 u' n f') (hg : ∀ k, k < n → g' (φ k) = g k)
    (hf : ∀ k, k < n → f' (φ k) = f k) (hi : iip.Nodup) (hin : ∀ k ∈ iip, k < n) (hS : Supported nn d x iip)
    {S : LinSolver α} (hSol : S.Suits (∀ e q, e < ne → q < 4 → Major 2 (C e q))) :
    IsOk (do
      let (_, Q) ← setup s σ τ conn dofs coor
      let y ← solveLinear S ρ υ conn dofs iip Q Ct b u
      let (_, Q') ← setup s σ τ conn dofs' coor
      let y' ← solveLinear S ρ υ conn dofs' (iip.map φ) Q' Ct b' u'
      return (y, y')) fun t => ∃ Y Y', Is1 t.1 n Y ∧ Is1 t.2 n Y' ∧ ∀ k, k < n → Y' (φ k) = Y k := by
  have hlt := hn.1
  have gap' : ∀ k, k < n → ∃ m i, m < nn ∧ i < 2 ∧ φ (d m i) = k := by
    intro k hk
    obtain ⟨l, hl, rfl⟩ := hφ.surj k hk
    obtain ⟨m, i, hm, hi, rfl⟩ := hgap l hl
    exact ⟨m, i, hm, hi, rfl⟩
  have hn' : NumDofs nn (fun m i => φ (d m i)) n := by
    obtain ⟨-, m, i, hm, hi, e⟩ := hn
    obtain ⟨m', i', hm', hi', e'⟩ := gap' (n - 1) (by omega)
    exact ⟨fun m i hm hi => hφ.lt _ (hlt m i hm hi), m', i', hm', hi', by beta_reduce; omega⟩
  have h : SameStructure nn ne id id c c x x d (fun m i => φ (d m i)) C C iip (iip.map φ) g g' f f' := by
    refine ⟨⟨fun _ h => h, fun _ _ _ _ h => h⟩, ⟨fun _ h => h, fun _ _ _ _ h => h⟩, fun _ _ _ _ => rfl, fun _ _ _ _ => rfl,
      fun _ _ _ _ _ _ _ _ _ _ _ _ => rfl, fun m i m' i' hm hi hm' hi' => ⟨congrArg φ, fun e => hφ.inj _ _ (hlt m i hm hi) (hlt m' i' hm' hi') e⟩,
      fun m i hm hi => ?_, fun m i hm hi _ => hf _ (hlt m i hm hi), fun m i hm hi => hg _ (hlt m i hm hi)⟩
    rw [List.mem_map]
    refine ⟨fun h => ⟨_, h, rfl⟩, fun ⟨k, hk, e⟩ => ?_⟩
    rwa [hφ.inj _ _ (hin k hk) (hlt m i hm hi) e] at hk
  obtain ⟨t, t1, Y, Y', t2, t3, t4⟩ := C111_renumber h hM hM lx ly s0 s1 s2 σ τ ρ σ τ ρ υ υ hc hx hd hc hx hd' hn hgap hn' gap' hC hC hE hE hb hu hb' hu' hi hin
    (List.Nodup.map_on (fun a ha b hb e => hφ.inj a b (hin a ha) (hin b hb) e) hi) (fun k hk => by
      obtain ⟨l, hl, rfl⟩ := List.mem_map.1 hk
      exact hφ.lt l (hin l hl)) hS hSol hSol
  refine ⟨t, t1, Y, Y', t2, t3, fun k hk => ?_⟩
  obtain ⟨m, i, hm, hi, rfl⟩ := hgap k hk
  exact (t4 m i hm hi).symm

/-- the hypotheses can be met: a 3 x 2 mesh with the DOFs numbered backwards -/
example (g f : Nat → ℚ) : ∃ conn coor, Quad4.Regular.conn (Quad4.Regular.new 3 2 (1 : ℚ)) = .ok conn ∧ (Quad4.Regular.new 3 2 (1 : ℚ)).coor = .ok coor ∧ IsOk (do
      let Ct := Ten.of [6, 4, 2, 2, 2, 2] fun ix => isotropic (1 : ℚ) 1 (ix.getD 2 0) (ix.getD 3 0) (ix.getD 4 0) (ix.getD 5 0)
      let (_, Q) ← setup (1 / 2) Sched.seq Sched.seq conn (meshDofs 12 2) coor
      let y ← solveLinear ldlt Sched.seq (fun _ => Sched.seq) conn (meshDofs 12 2) [0, 1, 7] Q Ct (Ten.of [24] fun ix => g (ix.getD 0 0))
        (Ten.of [24] fun ix => f (ix.getD 0 0))
      let dofs' := Ten.of [12, 2] fun ix => 23 - (ix.getD 0 0 * 2 + ix.getD 1 0)
      let (_, Q') ← setup (1 / 2) Sched.seq Sched.seq conn dofs' coor
      let y' ← solveLinear ldlt Sched.seq (fun _ => Sched.seq) conn dofs' [23, 22, 16] Q' Ct (Ten.of [24] fun ix => g (23 - ix.getD 0 0))
        (Ten.of [24] fun ix => f (23 - ix.getD 0 0))
      return (y, y')) fun t => ∃ Y Y', Is1 t.1 24 Y ∧ Is1 t.2 24 Y' ∧ ∀ k, k < 24 → Y' (23 - k) = Y k := by
  obtain ⟨c, x, O, ct, xt, hM, a1, a2, b1, b2, hn, hlt, hS⟩ := Quad4.Regular.energy_hyps 3 2 (by omega) (by omega) (h := (1 : ℚ)) (by norm_num)
  refine ⟨ct, xt, a1, b1, ?_⟩
  exact C111_dofs (φ := fun k => 23 - k) (n := 24) ⟨fun k hk => by omega, fun k l hk hl e => by beta_reduce at e; omega⟩ hM (by norm_num) (by norm_num)
    (by norm_num) (by norm_num) (by norm_num) Sched.seq Sched.seq Sched.seq (fun _ => Sched.seq) a2 b2 (meshDofs_ok 12)
    (dofs' := Ten.of [12, 2] fun ix => 23 - (ix.getD 0 0 * 2 + ix.getD 1 0)) ⟨rfl, fun _ _ _ _ => rfl⟩ hn (plain_gap (nn := 12))
    (C := fun _ _ => isotropic (1 : ℚ) 1) ⟨rfl, fun _ _ _ _ _ _ _ _ _ _ _ _ => rfl⟩ (fun _ _ _ _ => isotropic_elastic (by norm_num) (by norm_num))
    (g := g) (f := f) ⟨rfl, fun _ _ => rfl⟩ ⟨rfl, fun _ _ => rfl⟩ (g' := fun k => g (23 - k)) (f' := fun k => f (23 - k)) ⟨rfl, fun _ _ => rfl⟩ ⟨rfl, fun _ _ => rfl⟩
    (fun k hk => by beta_reduce; congr 1; omega) (fun k hk => by beta_reduce; congr 1; omega) (iip := [0, 1, 7]) (by decide) (by decide) hS
    (S := ldlt) (Or.inr ⟨C98_ldlt, fun _ _ _ _ => isotropic_major _ _ _⟩)

end GF
