import Verif.Props.Homogenised
import Verif.Props.EnergyMeshes
import Verif.Props.StaticMeshes

/-! **C109**, **C110** on Quad4 `FineLayer` meshes of any size. -/

namespace GF
open Finset ElemSpec Element Element.Quad4

variable {α : Type} [Field α] [LinearOrder α] [IsStrictOrderedRing α]

/-- the hypotheses on mesh, periodic pairs and origin of the theorems of C110 are met by every Quad4 `FineLayer` mesh -/
theorem FineLayer.cell_hyps {nelx nely : Nat} (hx : 0 < nelx) (hy : 0 < nely) {h : α} (hh : 0 < h) (nfine : Nat) :
    ∃ M Ny c x O cn xt pt np P o, FineLayer.new nelx nely h nfine = .ok M ∧ M.nely = .ok Ny ∧ 0 < Ny ∧
      RectMesh M.nnode M.nelem c x (h * (nelx : α)) (h * (Ny : α)) O ∧
      M.conn = .ok cn ∧ Is2 cn M.nelem 4 c ∧ M.coor = .ok xt ∧ Is2 xt M.nnode 2 x ∧
      M.nodesPeriodic = .ok pt ∧ Is2 pt np 2 P ∧ PeriodicPairs M.nnode (h * (nelx : α)) (h * (Ny : α)) x np P ∧
      M.nodesOrigin = .ok o ∧ o < M.nnode ∧ x o 0 ≠ h * (nelx : α) ∧ x o 1 ≠ h * (Ny : α) := by
  obtain ⟨M, Ny, c, x, O, h1, h2, hA, hM⟩ := C73_finelayer nelx nely hy hh nfine
  obtain ⟨M', n, W, G, R, Ny', -, -, h1', -, -, e1, -, hNy, -⟩ := FineLayer.meshN nelx nely hy h nfine
  obtain rfl : M = M' := by rw [h1] at h1'; injection h1'
  obtain rfl : Ny = Ny' := by rw [h2] at e1; injection e1
  obtain ⟨cn, a1, a2⟩ := hA.conn
  obtain ⟨xt, b1, b2⟩ := hA.coor
  obtain ⟨M', Ny', xt', x', pt, np, P, p1, p2, p3, p4, p5, p6, p7⟩ := C60_nodesPeriodic nelx nely hx hy hh nfine
  obtain rfl : M = M' := by rw [h1] at p1; injection p1
  obtain rfl : Ny = Ny' := by rw [h2] at p2; injection p2
  obtain rfl : xt = xt' := by rw [b1] at p3; injection p3
  have p8 := p7.congr (x := x) fun m i hm hi => b2.unique p4 hm hi
  obtain ⟨M', Ny', xt', x'', bl, br, tl, tr, q1, q2, q3, q4, q5, -, -, -, q6⟩ := C59_corners nelx nely hy hh nfine
  obtain rfl : M = M' := by rw [h1] at q1; injection q1
  obtain rfl : xt = xt' := by rw [b1] at q3; injection q3
  have o3 := q6.bl.1
  have o4 : x bl 0 = 0 := (b2.unique q4 o3 (by omega)).trans q6.bl.2.1
  have o5 : x bl 1 = 0 := (b2.unique q4 o3 (by omega)).trans q6.bl.2.2
  have lx : 0 < h * (nelx : α) := mul_pos hh (by exact_mod_cast hx)
  have ly : 0 < h * (Ny : α) := mul_pos hh (by exact_mod_cast hNy)
  exact ⟨M, Ny, c, x, O, cn, xt, pt, np, P, bl, h1, h2, hNy, hM, a1, a2, b1, b2, p5, p6, p8, q5, o3, by rw [o4]; exact lx.ne, by rw [o5]; exact ly.ne⟩

/-- **C110** (Quad4 `FineLayer`) Hill's condition and the bounds of Voigt and Reuss with the tables of the mesh -/
theorem C110_finelayer {nelx nely : Nat} (hx : 0 < nelx) (hy : 0 < nely) {h : α} (hh : 0 < h) (nfine : Nat) {s : α} (s0 : s ≠ 0) (s1 : -1 ≤ s) (s2 : s ≤ 1)
    (σ τ ρ σ' τ' : Sched) (υ : Nat → Sched) {S : LinSolver α} (hS : S.Suits True) :
    ∃ M Ny, FineLayer.new nelx nely h nfine = .ok M ∧ M.nely = .ok Ny ∧
    ∀ (Ct b u : Ten α) (C : Nat → Nat → Nat → Nat → Nat → Nat → α) (U : Nat → Nat → α), Is6 Ct M.nelem 4 2 2 2 2 C →
      (∀ e q, e < M.nelem → q < 4 → Elastic (C e q)) → (∀ e q, e < M.nelem → q < 4 → Major 2 (C e q)) →
      Is2 b (M.nnode + 2) 2 (fun _ _ => 0) → Is2 u (M.nnode + 2) 2 U →
    IsOk (do
      let conn ← M.conn
      let coor ← M.coor
      let pairs ← M.nodesPeriodic
      let origin ← M.nodesOrigin
      let Z ← PeriodicCell.new s σ τ conn (meshDofs M.nnode 2) coor pairs origin
      let y ← Z.solve S ρ υ Ct b u
      let g ← gradient σ' τ' Z.vector.V Z.elem y
      return (Z, g)) fun t => ∃ vol g, Is2 t.1.elem.vol M.nelem 4 vol ∧ Is4 t.2 M.nelem 4 2 2 g ∧
        let E := virtualWork M.nelem vol (fun e a => ddot 2 (C e a) (g e a)) g
        let A := fun i j => U (M.nnode + j) i
        E = ∑ i ∈ range 2, ∑ j ∈ range 2, (∑ e ∈ range M.nelem, ∑ a ∈ range 4, ddot 2 (C e a) (g e a) i j * vol e a) * A i j ∧
        E ≤ ∑ e ∈ range M.nelem, ∑ a ∈ range 4, power 2 (ddot 2 (C e a) A) A * vol e a ∧
        (∀ (T : Nat → Nat → α) (η : Nat → Nat → Nat → Nat → α), (∀ e a i j, e < M.nelem → a < 4 → i < 2 → j < 2 → ddot 2 (C e a) (η e a) i j = T i j) →
          2 * (h * (nelx : α) * (h * (Ny : α)) * power 2 T A) - ∑ e ∈ range M.nelem, ∑ a ∈ range 4, power 2 T (η e a) * vol e a ≤ E) ∧
        0 ≤ E ∧ (E = 0 ↔ A 0 0 = 0 ∧ A 1 1 = 0 ∧ A 0 1 + A 1 0 = 0) := by
  obtain ⟨M, Ny, c, x, O, cn, xt, pt, np, P, o, h1, h2, hNy, hM, a1, a2, b1, b2, p1, p2, p3, q1, o1, o2, o3⟩ := FineLayer.cell_hyps hx hy hh nfine
  have lx : 0 < h * (nelx : α) := mul_pos hh (by exact_mod_cast hx)
  have ly : 0 < h * (Ny : α) := mul_pos hh (by exact_mod_cast hNy)
  refine ⟨M, Ny, h1, h2, fun Ct b u C U hC hE hs hb hu => ?_⟩
  obtain ⟨t, t1, vol, g, t2, t3, t4, -, t5⟩ := C110_bounds hM lx ly s0 s1 s2 σ τ ρ σ' τ' υ a2 b2 p2 p3 o1 o2 o3 hC hE hs hb hu hS
  exact ⟨t, by simp only [a1, b1, p1, q1, Res.ok_bind]; exact t1, vol, g, t2, t3, t4, t5⟩

/-- the DOFs of the nodes of a side, of a mesh with the default DOF table -/
def clamp (nodes : List Nat) : List Nat := nodes.map (fun m => m * 2 + 0) ++ nodes.map (fun m => m * 2 + 1)

theorem mem_clamp {nodes : List Nat} {m i : Nat} (hi : i < 2) : m * 2 + i ∈ clamp nodes ↔ m ∈ nodes := by
  simp only [clamp, List.mem_append, List.mem_map]
  constructor
  · rintro (⟨k, h, e⟩ | ⟨k, h, e⟩)
    · rwa [show m = k by omega]
    · rwa [show m = k by omega]
  · intro h
    obtain rfl | rfl : i = 0 ∨ i = 1 := by omega
    · exact Or.inl ⟨m, h, rfl⟩
    · exact Or.inr ⟨m, h, rfl⟩

theorem clamp_nodup {nodes : List Nat} (h : nodes.Nodup) : (clamp nodes).Nodup := by
  refine List.nodup_append.2 ⟨h.map fun a b e => by omega, h.map fun a b e => by omega, fun a ha b hb => ?_⟩
  obtain ⟨k, -, rfl⟩ := List.mem_map.1 ha
  obtain ⟨l, -, rfl⟩ := List.mem_map.1 hb
  omega

section clamp
variable {nn ne : Nat} {c : Nat → Nat → Nat} {x : Nat → Nat → α} {Lx Ly : α} {O : Outline}

theorem bottom_nodup (hM : RectMesh nn ne c x Lx Ly O) : ((List.range O.nb).map O.bottom).Nodup := by
  have mono : ∀ i j, i < j → j < O.nb → x (O.bottom i) 0 < x (O.bottom j) 0 := by
    intro i j hij hj
    induction j with
    | zero => omega
    | succ j ih =>
      rcases Nat.lt_or_ge i j with h | h
      · exact (ih h (by omega)).trans (hM.bottom_mono j hj)
      · obtain rfl : i = j := by omega
        exact hM.bottom_mono i hj
  refine List.Nodup.map_on (fun i hi j hj e => ?_) List.nodup_range
  rw [List.mem_range] at hi hj
  rcases Nat.lt_trichotomy i j with h | h | h
  · exact absurd (mono i j h hj) (by rw [e]; exact lt_irrefl _)
  · exact h
  · exact absurd (mono j i h hi) (by rw [e]; exact lt_irrefl _)

/-- a mesh of a rectangle is held by its bottom -/
theorem clamp_supported (hM : RectMesh nn ne c x Lx Ly O) (lx : 0 < Lx) :
    Supported nn (fun m i => m * 2 + i) x (clamp ((List.range O.nb).map O.bottom)) := by
  intro f θ b₀ b₁ hf h0
  obtain ⟨s1, s2, s3, s4⟩ := hM.sizes
  obtain ⟨k1, k2, k3, k4⟩ := hM.corners
  have a := hf _ (hM.bottom 0 s1).1
  have b := hf _ (hM.bottom (O.nb - 1) (by omega)).1
  have mem : ∀ k, k < O.nb → ∀ i, i < 2 → f (O.bottom k * 2 + i) = 0 := fun k hk i hi =>
    h0 _ ((mem_clamp hi).2 (List.mem_map.2 ⟨k, List.mem_range.2 hk, rfl⟩))
  beta_reduce at a b
  rw [mem 0 s1 0 (by omega), mem 0 s1 1 (by omega), k1, (hM.bottom 0 s1).2] at a
  rw [mem (O.nb - 1) (by omega) 1 (by omega), k2] at b
  have h1 : b₁ = 0 := by linear_combination - a.2
  have h2 : θ * Lx = 0 := by linear_combination - b.2 + a.2
  exact ⟨(mul_eq_zero.1 h2).resolve_right lx.ne', by linear_combination - a.1, h1⟩

end clamp

/-- **C109** (Quad4 `FineLayer`, clamped at the bottom) the result of `Solve` has the smallest potential energy -/
theorem C109_finelayer {nelx nely : Nat} (hx : 0 < nelx) (hy : 0 < nely) {h : α} (hh : 0 < h) (nfine : Nat) {s : α} (s0 : s ≠ 0) (s1 : -1 ≤ s) (s2 : s ≤ 1)
    (σ τ ρ : Sched) (υ : Nat → Sched) {S : LinSolver α} (hSol : S.Suits True) :
    ∃ M bt nb B, FineLayer.new nelx nely h nfine = .ok M ∧ M.nodesBottomEdge = .ok bt ∧ Is1 bt nb B ∧
    ∀ (Ct b u : Ten α) (C : Nat → Nat → Nat → Nat → Nat → Nat → α) (g f : Nat → α), Is6 Ct M.nelem 4 2 2 2 2 C →
      (∀ e q, e < M.nelem → q < 4 → Elastic (C e q)) → (∀ e q, e < M.nelem → q < 4 → Major 2 (C e q)) →
      Is1 b (2 * M.nnode) g → Is1 u (2 * M.nnode) f →
    let iip := clamp ((List.range nb).map B)
    IsOk (do
      let conn ← M.conn
      let coor ← M.coor
      let (V, Q) ← setup s σ τ conn (meshDofs M.nnode 2) coor
      let y ← solveLinear S ρ υ conn (meshDofs M.nnode 2) iip Q Ct b u
      return (V, Q, y)) fun r => ∃ f' γ' vol, Is1 r.2.2 (2 * M.nnode) f' ∧ DofGradient r.1 r.2.1 (2 * M.nnode) M.nelem f' γ' ∧
        Is2 r.2.1.vol M.nelem 4 vol ∧ (∀ k ∈ iip, f' k = f k) ∧ (∀ w, ∃ γ, DofGradient r.1 r.2.1 (2 * M.nnode) M.nelem w γ) ∧
        ∀ w γ, (∀ k ∈ iip, w k = f k) → DofGradient r.1 r.2.1 (2 * M.nnode) M.nelem w γ →
          potential (2 * M.nnode) M.nelem vol C g f' γ' ≤ potential (2 * M.nnode) M.nelem vol C g w γ ∧
          (potential (2 * M.nnode) M.nelem vol C g w γ = potential (2 * M.nnode) M.nelem vol C g f' γ' →
            ∀ k, k < 2 * M.nnode → w k = f' k) := by
  obtain ⟨M, Ny, c, x, O, h1, h2, hA, hM⟩ := C73_finelayer nelx nely hy hh nfine
  obtain ⟨M', n, W, G, R, Ny', -, -, h1', -, -, e1, -, hNy, -⟩ := FineLayer.meshN nelx nely hy h nfine
  obtain rfl : M = M' := by rw [h1] at h1'; injection h1'
  obtain rfl : Ny = Ny' := by rw [h2] at e1; injection e1
  obtain ⟨cn, a1, a2⟩ := hA.conn
  obtain ⟨xt, b1, b2⟩ := hA.coor
  obtain ⟨bt, t1, t2⟩ := hA.bottom
  have lx : 0 < h * (nelx : α) := mul_pos hh (by exact_mod_cast hx)
  have ly : 0 < h * (Ny : α) := mul_pos hh (by exact_mod_cast hNy)
  refine ⟨M, bt, O.nb, O.bottom, h1, t1, t2, fun Ct b u C g f hC hE hmaj hb hu => ?_⟩
  intro iip
  have hS := clamp_supported hM lx
  have hN := clamp_nodup (bottom_nodup hM)
  have hL : ∀ k ∈ clamp ((List.range O.nb).map O.bottom), k < 2 * M.nnode := by
    intro k hk
    have := (mem_clamp (nodes := (List.range O.nb).map O.bottom) (m := k / 2) (i := k % 2) (by omega)).1 (by rwa [show k / 2 * 2 + k % 2 = k by omega])
    obtain ⟨i, hi, e⟩ := List.mem_map.1 this
    have := (hM.bottom i (List.mem_range.1 hi)).1
    omega
  obtain ⟨r, r1, r2⟩ := C109_minimum hM lx ly s0 s1 s2 σ τ ρ υ a2 b2 (meshDofs_ok _) (plain_numDofs hM.nodes) plain_gap hC hE hmaj hb hu hN hL hS hSol
  exact ⟨r, by simp only [a1, b1, Res.ok_bind]; exact r1, r2⟩

/-- all hypotheses can be met: a mesh of 9 elements wide and 13 high with a fine layer, isotropic elasticity, the default solver, any load -/
example (g : Nat → ℚ) : ∃ M bt nb B, FineLayer.new 9 13 (1 : ℚ) 1 = .ok M ∧ M.nodesBottomEdge = .ok bt ∧ Is1 bt nb B ∧ IsOk (do
      let conn ← M.conn
      let coor ← M.coor
      let (V, Q) ← setup (1 / 2) Sched.seq Sched.seq conn (meshDofs M.nnode 2) coor
      let y ← solveLinear ldlt Sched.seq (fun _ => Sched.seq) conn (meshDofs M.nnode 2) (clamp ((List.range nb).map B)) Q
        (Ten.of [M.nelem, 4, 2, 2, 2, 2] fun ix => isotropic 1 1 (ix.getD 2 0) (ix.getD 3 0) (ix.getD 4 0) (ix.getD 5 0))
        (Ten.of [2 * M.nnode] fun ix => g (ix.getD 0 0)) (Ten.of [2 * M.nnode] fun _ => 0)
      return (V, Q, y)) fun r => ∃ f', Is1 r.2.2 (2 * M.nnode) f' ∧ ∀ i, i < nb → f' (B i * 2) = 0 ∧ f' (B i * 2 + 1) = 0 := by
  obtain ⟨M, bt, nb, B, h1, h2, h3, h4⟩ := C109_finelayer (nelx := 9) (nely := 13) (h := (1 : ℚ)) (s := 1 / 2) (by norm_num) (by norm_num) (by norm_num)
    1 (by norm_num) (by norm_num) (by norm_num) Sched.seq Sched.seq Sched.seq (fun _ => Sched.seq) (S := ldlt) (Or.inr ⟨C98_ldlt, trivial⟩)
  obtain ⟨r, r1, f', γ', vol, p1, -, -, p2, -⟩ := h4 (Ten.of [M.nelem, 4, 2, 2, 2, 2] fun ix => isotropic 1 1 (ix.getD 2 0) (ix.getD 3 0) (ix.getD 4 0) (ix.getD 5 0))
    (Ten.of [2 * M.nnode] fun ix => g (ix.getD 0 0)) (Ten.of [2 * M.nnode] fun _ => 0) (fun _ _ => isotropic 1 1) g (fun _ => 0)
    ⟨rfl, fun e q i j k l _ _ _ _ _ _ => by simp [Ten.of]⟩ (fun _ _ _ _ => isotropic_elastic (by norm_num) (by norm_num))
    (fun _ _ _ _ => isotropic_major 2 _ _) (is1_of _ _) (is1_of _ _)
  refine ⟨M, bt, nb, B, h1, h2, h3, r, r1, f', p1, fun i hi => ?_⟩
  have m : B i ∈ (List.range nb).map B := List.mem_map.2 ⟨i, List.mem_range.2 hi, rfl⟩
  exact ⟨p2 _ ((mem_clamp (i := 0) (by omega)).2 m), p2 _ ((mem_clamp (i := 1) (by omega)).2 m)⟩

end GF
