import Verif.Props.StaticPeriodic

/-! **C93** The static example programs on the meshes of the library. -/

namespace GF
open Finset ElemSpec Element Element.Quad4

variable {α : Type} [Field α] [LinearOrder α] [IsStrictOrderedRing α]

theorem is1_same {t : Ten Nat} {n n' : Nat} {f f' : Nat → Nat} (h : Is1 t n f) (h' : Is1 t n' f') : n = n' ∧ ∀ i, i < n → f i = f' i := by
  obtain rfl : n = n' := by have := h.1.symm.trans h'.1; simpa using this
  exact ⟨rfl, fun i hi => h.unique h' hi⟩

/-- the nodes inside of a side -/
theorem is1_open {t o : Ten Nat} {n n' : Nat} {f f' g : Nat → Nat} (h : Is1 t n f) (h' : Is1 t n' f') (ho : Is1 o (n' - 2) g)
    (hg : ∀ k, k < n' - 2 → g k = f' (k + 1)) : Is1 o (n - 2) fun k => f (k + 1) := by
  obtain ⟨rfl, e⟩ := is1_same h h'
  exact ho.congr fun k hk => by rw [hg k hk, e (k + 1) (by omega)]

/-- the mesh of the example programs, and its arrays -/
theorem Quad4.Regular.static (nelx nely : Nat) {h : α} (hh : 0 < h) :
    let M := Quad4.Regular.new nelx nely h
    ∃ c x O ct xt bt rt tt lt lo ro, RectMesh M.nnode M.nelem c x (h * (nelx : α)) (h * (nely : α)) O ∧
      Quad4.Regular.conn M = .ok ct ∧ Is2 ct M.nelem 4 c ∧ M.coor = .ok xt ∧ Is2 xt M.nnode 2 x ∧
      Quad4.Regular.nodesBottomEdge M = .ok bt ∧ Is1 bt O.nb O.bottom ∧ Quad4.Regular.nodesRightEdge M = .ok rt ∧ Is1 rt O.nr O.right ∧
      Quad4.Regular.nodesTopEdge M = .ok tt ∧ Is1 tt O.nt O.top ∧ Quad4.Regular.nodesLeftEdge M = .ok lt ∧ Is1 lt O.nl O.left ∧
      Quad4.Regular.nodesLeftOpenEdge M = .ok lo ∧ Is1 lo (O.nl - 2) (fun k => O.left (k + 1)) ∧
      Quad4.Regular.nodesRightOpenEdge M = .ok ro ∧ Is1 ro (O.nl - 2) (fun k => O.right (k + 1)) ∧
      (∀ iy ix, iy ≤ nely → ix ≤ nelx → iy * (nelx + 1) + ix < M.nnode ∧ x (iy * (nelx + 1) + ix) 0 = h * (ix : α) ∧
        x (iy * (nelx + 1) + ix) 1 = h * (iy : α)) ∧
      O.nb = nelx + 1 ∧ O.nl = nely + 1 ∧ (∀ k, k ≤ nelx → O.bottom k = k ∧ O.top k = nely * (nelx + 1) + k) ∧
      (∀ k, k ≤ nely → O.left k = k * (nelx + 1) ∧ O.right k = k * (nelx + 1) + nelx) := by
  intro M
  obtain ⟨c, x, O, hA, hM⟩ := C73_quad4_regular nelx nely hh
  obtain ⟨ct, a1, a2⟩ := hA.conn
  obtain ⟨xt, b1, b2⟩ := hA.coor
  obtain ⟨bt, c1, c2⟩ := hA.bottom
  obtain ⟨rt, d1, d2⟩ := hA.right
  obtain ⟨tt, e1, e2⟩ := hA.top
  obtain ⟨lt, f1, f2⟩ := hA.left
  obtain ⟨-, ⟨bt', c1', c2'⟩, ⟨rt', d1', d2'⟩, ⟨tt', e1', e2'⟩, ⟨lt', f1', f2'⟩⟩ := Quad4.Regular.sides nelx nely h
  obtain rfl : bt = bt' := by rw [c1] at c1'; injection c1'
  obtain rfl : rt = rt' := by rw [d1] at d1'; injection d1'
  obtain rfl : tt = tt' := by rw [e1] at e1'; injection e1'
  obtain rfl : lt = lt' := by rw [f1] at f1'; injection f1'
  obtain ⟨xt', b1', b2'⟩ := M.coor_spec rfl rfl
  obtain rfl : xt = xt' := by rw [b1] at b1'; injection b1'
  have hr : O.nr = O.nl := hM.sizes.2.2.2
  have hlo : Is1 (affine (arange 1 nely) (nelx + 1) 0) ((nely + 1) - 2) fun i => (1 + i) * (nelx + 1) + 0 := by
    have := (is1_arange 1 nely).affine (nelx + 1) 0
    rwa [show nely - 1 = nely + 1 - 2 by omega] at this
  have hro : Is1 (affine (arange 1 nely) (nelx + 1) nelx) ((nely + 1) - 2) fun i => (1 + i) * (nelx + 1) + nelx := by
    have := (is1_arange 1 nely).affine (nelx + 1) nelx
    rwa [show nely - 1 = nely + 1 - 2 by omega] at this
  refine ⟨c, x, O, ct, xt, bt, rt, tt, lt, _, _, hM, a1, a2, b1, b2, c1, c2, d1, d2, e1, e2, f1, f2, rfl, ?_, rfl, ?_, fun iy ix h1 h2 => ?_,
    (is1_same c2 c2').1, (is1_same f2 f2').1, fun k hk => ⟨?_, ?_⟩, fun k hk => ⟨?_, ?_⟩⟩
  · exact is1_open f2 f2' hlo fun k _ => by simp only [gridOutline]; ring
  · rw [← hr]
    exact is1_open d2 d2' hro fun k _ => by simp only [gridOutline]; ring
  · have hm : iy * (nelx + 1) + ix < M.nnode := by
      have := grid_lt (show iy < nely + 1 by omega) (show ix < nelx + 1 by omega)
      rw [Nat.mul_comm (nely + 1)] at this; exact this
    have p := gridCoor_node h (nelx := nelx) (i := iy) (j := ix) (by omega)
    exact ⟨hm, (b2.unique b2' hm (by omega)).trans p.1, (b2.unique b2' hm (by omega)).trans p.2⟩
  · have := is1_same c2 c2'
    exact this.2 k (by rw [this.1]; simp only [gridOutline]; omega)
  · have := is1_same e2 e2'
    exact this.2 k (by rw [this.1]; simp only [gridOutline]; omega)
  · have := is1_same f2 f2'
    exact this.2 k (by rw [this.1]; simp only [gridOutline]; omega)
  · have := is1_same d2 d2'
    exact this.2 k (by rw [this.1]; simp only [gridOutline]; omega)

/-- **C93** (fixed displacement on `Quad4::Regular`, uniform isotropic material) -/
theorem C93_quad4_fixed {nelx nely : Nat} (hx : 0 < nelx) (hy : 0 < nely) {h : α} (hh : 0 < h) {s : α} (s0 : s ≠ 0) (s1 : -1 ≤ s) (s2 : s ≤ 1)
    {thick : α} (t0 : 0 < thick) (σ : Nat → Nat → Sched) {material : Ten α → Res (Ten α × Ten α)} {l μ : α} (hμ : 0 < μ) (hl : 0 < l + μ)
    (hm : LinearMaterial (nelx * nely) (fun _ _ => isotropic l μ) material) (a b : α) {S : LinSolver α} (hSol : S.Ldlt) :
    let M := Quad4.Regular.new nelx nely h
    IsOk (do
      let conn ← Quad4.Regular.conn M
      let coor ← M.coor
      let bottom ← Quad4.Regular.nodesBottomEdge M
      let right ← Quad4.Regular.nodesRightEdge M
      let top ← Quad4.Regular.nodesTopEdge M
      let left ← Quad4.Regular.nodesLeftEdge M
      fixedDisplacement s thick S σ conn (meshDofs M.nnode 2) coor bottom right top left material a b) fun r => ∃ u : Nat → Nat → α,
        Is2 r.disp M.nnode 2 u ∧ Is2 r.fres M.nnode 2 (fun _ _ => 0) ∧ ∀ iy ix, iy ≤ nely → ix ≤ nelx →
          u (iy * (nelx + 1) + ix) 0 = a * ix / nelx ∧ u (iy * (nelx + 1) + ix) 1 = b * iy / nely := by
  intro M
  obtain ⟨c, x, O, ct, xt, bt, rt, tt, lt, lo, ro, hM, a1, a2, b1, b2, c1, c2, d1, d2, e1, e2, f1, f2, -, -, -, -, pos, -⟩ :=
    Quad4.Regular.static nelx nely hh
  have nx : (nelx : α) ≠ 0 := by exact_mod_cast hx.ne'
  have ny : (nely : α) ≠ 0 := by exact_mod_cast hy.ne'
  have lx : 0 < h * (nelx : α) := mul_pos hh (by exact_mod_cast hx)
  have ly : 0 < h * (nely : α) := mul_pos hh (by exact_mod_cast hy)
  obtain ⟨r, r1, r2, r3⟩ := C93_fixed_displacement_uniform hM lx ly s0 s1 s2 t0 σ a2 b2 c2 d2 e2 f2 hμ hl hm a b hSol
  refine ⟨r, by simp only [M, a1, b1, c1, d1, e1, f1, Res.ok_bind]; exact r1, _, r2, r3, fun iy ix h1 h2 => ?_⟩
  obtain ⟨-, p0, p1⟩ := pos iy ix h1 h2
  have := hh.ne'
  rw [if_pos rfl, if_neg one_ne_zero, p0, p1]
  constructor <;> field_simp

/-- **C93** (partially periodic on `Quad4::Regular`, any elastic material: compare the hard inclusion of the example) -/
theorem C93_quad4_periodic {nelx nely : Nat} (hx : 0 < nelx) (hy : 0 < nely) {h : α} (hh : 0 < h) {s : α} (s0 : s ≠ 0) (s1 : -1 ≤ s) (s2 : s ≤ 1)
    {thick : α} (t0 : 0 < thick) (σ : Nat → Nat → Sched) {material : Ten α → Res (Ten α × Ten α)} {C}
    (hm : LinearMaterial (nelx * nely) C material) (hE : ∀ e q, e < nelx * nely → q < 4 → Elastic (C e q)) (a : α) {S : LinSolver α} (hSol : S.Suits (∀ e q, e < nelx * nely → q < 4 → Major 2 (C e q))) :
    let M := Quad4.Regular.new nelx nely h
    IsOk (do
      let conn ← Quad4.Regular.conn M
      let coor ← M.coor
      let bottom ← Quad4.Regular.nodesBottomEdge M
      let top ← Quad4.Regular.nodesTopEdge M
      let leftOpen ← Quad4.Regular.nodesLeftOpenEdge M
      let rightOpen ← Quad4.Regular.nodesRightOpenEdge M
      partialPeriodic s thick S σ conn (meshDofs M.nnode 2) coor bottom top leftOpen rightOpen material a) fun r => ∃ u F : Nat → Nat → α,
        Is2 r.disp M.nnode 2 u ∧ Is2 r.fint M.nnode 2 F ∧ Is2 r.fext M.nnode 2 F ∧ Is2 r.fres M.nnode 2 (fun _ _ => 0) ∧
        (∀ ix, ix ≤ nelx → u ix 0 = 0 ∧ u ix 1 = 0) ∧
        (∀ ix, ix ≤ nelx → u (nely * (nelx + 1) + ix) 0 = a ∧ u (nely * (nelx + 1) + ix) 1 = 0) ∧
        (∀ iy i, iy ≤ nely → i < 2 → u (iy * (nelx + 1) + nelx) i = u (iy * (nelx + 1)) i) ∧
        (∀ iy ix i, 0 < iy → iy < nely → ix ≤ nelx → i < 2 → F (iy * (nelx + 1) + ix) i = 0) := by
  intro M
  obtain ⟨c, x, O, ct, xt, bt, rt, tt, lt, lo, ro, hM, a1, a2, b1, b2, c1, c2, d1, d2, e1, e2, f1, f2, g1, g2, k1, k2, pos, n1, n2, o1, o2⟩ :=
    Quad4.Regular.static nelx nely hh
  have nx : (nelx : α) ≠ 0 := by exact_mod_cast hx.ne'
  have lx : 0 < h * (nelx : α) := mul_pos hh (by exact_mod_cast hx)
  have ly : 0 < h * (nely : α) := mul_pos hh (by exact_mod_cast hy)
  obtain ⟨r, r1, u, F, r2, r3, r4, r5, r6, r7, r8, r9⟩ := C93_partial_periodic hM lx ly s0 s1 s2 t0 σ a2 b2 c2 e2 g2 k2 hm hE a hSol
  have nt : O.nt = nelx + 1 := by rw [hM.sizes.2.1, n1]
  refine ⟨r, by simp only [M, a1, b1, c1, e1, g1, k1, Res.ok_bind]; exact r1, u, F, r2, r3, r4, r5, fun ix hi => ?_, fun ix hi => ?_, fun iy i hi hj => ?_,
    fun iy ix i h1 h2 h3 hi => ?_⟩
  · have := r6 ix (by omega)
    rwa [(o1 ix hi).1] at this
  · have := r7 ix (by omega)
    rwa [(o1 ix hi).2] at this
  · have := r8 iy i (by omega) hj
    rwa [(o2 iy hi).1, (o2 iy hi).2] at this
  · obtain ⟨hm, -, p1⟩ := pos iy ix h2.le h3
    refine r9 _ i hm hi ?_ ?_
    · rw [p1]; exact mul_ne_zero hh.ne' (by exact_mod_cast h1.ne')
    · rw [p1]; intro e
      have := mul_left_cancel₀ hh.ne' e
      exact h2.ne (by exact_mod_cast this)

/-- **C93** (partially periodic on `Quad4::Regular`, uniform material) -/
theorem C93_quad4_periodic_uniform {nelx nely : Nat} (hx : 0 < nelx) (hy : 0 < nely) {h : α} (hh : 0 < h) {s : α} (s0 : s ≠ 0) (s1 : -1 ≤ s) (s2 : s ≤ 1)
    {thick : α} (t0 : 0 < thick) (σ : Nat → Nat → Sched) {material : Ten α → Res (Ten α × Ten α)} {C}
    (hm : LinearMaterial (nelx * nely) (fun _ _ => C) material) (hE : Elastic C) (a : α) {S : LinSolver α} (hSol : S.Suits (Major 2 C)) :
    let M := Quad4.Regular.new nelx nely h
    IsOk (do
      let conn ← Quad4.Regular.conn M
      let coor ← M.coor
      let bottom ← Quad4.Regular.nodesBottomEdge M
      let top ← Quad4.Regular.nodesTopEdge M
      let leftOpen ← Quad4.Regular.nodesLeftOpenEdge M
      let rightOpen ← Quad4.Regular.nodesRightOpenEdge M
      partialPeriodic s thick S σ conn (meshDofs M.nnode 2) coor bottom top leftOpen rightOpen material a) fun r => ∃ u : Nat → Nat → α,
        Is2 r.disp M.nnode 2 u ∧ Is2 r.fres M.nnode 2 (fun _ _ => 0) ∧ ∀ iy ix, iy ≤ nely → ix ≤ nelx →
          u (iy * (nelx + 1) + ix) 0 = a * iy / nely ∧ u (iy * (nelx + 1) + ix) 1 = 0 := by
  intro M
  obtain ⟨c, x, O, ct, xt, bt, rt, tt, lt, lo, ro, hM, a1, a2, b1, b2, c1, c2, d1, d2, e1, e2, f1, f2, g1, g2, k1, k2, pos, n1, n2, o1, o2⟩ :=
    Quad4.Regular.static nelx nely hh
  have ny : (nely : α) ≠ 0 := by exact_mod_cast hy.ne'
  have lx : 0 < h * (nelx : α) := mul_pos hh (by exact_mod_cast hx)
  have ly : 0 < h * (nely : α) := mul_pos hh (by exact_mod_cast hy)
  obtain ⟨r, r1, r2, r3⟩ := C93_partial_periodic_uniform hM lx ly s0 s1 s2 t0 σ a2 b2 c2 e2 g2 k2 hm hE a hSol
  refine ⟨r, by simp only [M, a1, b1, c1, e1, g1, k1, Res.ok_bind]; exact r1, _, r2, r3, fun iy ix h1 h2 => ?_⟩
  obtain ⟨-, p0, p1⟩ := pos iy ix h1 h2
  have := hh.ne'
  rw [if_pos rfl, if_neg one_ne_zero, p1]
  exact ⟨by field_simp, rfl⟩

open FineLayer FineLayerSpec in
/-- **C93** (both programs on `Quad4::FineLayer`, uniform material) -/
theorem C93_finelayer {nelx nely : Nat} (hx : 0 < nelx) (hy : 0 < nely) {h : α} (hh : 0 < h) (nfine : Nat) {s : α} (s0 : s ≠ 0)
    (s1 : -1 ≤ s) (s2 : s ≤ 1) {thick : α} (t0 : 0 < thick) (σ : Nat → Nat → Sched) {l μ : α} (hμ : 0 < μ) (hl : 0 < l + μ) (a b : α)
    {S : LinSolver α} (hSol : S.Ldlt) :
    ∃ M Ny ct x, FineLayer.new nelx nely h nfine = .ok M ∧ M.nely = .ok Ny ∧ M.coor = .ok ct ∧ Is2 ct M.nnode 2 x ∧
      ∀ material : Ten α → Res (Ten α × Ten α), LinearMaterial M.nelem (fun _ _ => isotropic l μ) material →
      IsOk (do
        let conn ← M.conn
        let coor ← M.coor
        let bottom ← M.nodesBottomEdge
        let right ← M.nodesRightEdge
        let top ← M.nodesTopEdge
        let left ← M.nodesLeftEdge
        fixedDisplacement s thick S σ conn (meshDofs M.nnode 2) coor bottom right top left material a b) (fun r =>
          Is2 r.disp M.nnode 2 (fun m i => if i = 0 then a * x m 0 / (h * nelx) else b * x m 1 / (h * Ny)) ∧
          Is2 r.fres M.nnode 2 (fun _ _ => 0)) ∧
      IsOk (do
        let conn ← M.conn
        let coor ← M.coor
        let bottom ← M.nodesBottomEdge
        let top ← M.nodesTopEdge
        let leftOpen ← M.nodesLeftOpenEdge
        let rightOpen ← M.nodesRightOpenEdge
        partialPeriodic s thick S σ conn (meshDofs M.nnode 2) coor bottom top leftOpen rightOpen material a) (fun r =>
          Is2 r.disp M.nnode 2 (fun m i => if i = 0 then a * x m 1 / (h * Ny) else 0) ∧ Is2 r.fres M.nnode 2 (fun _ _ => 0)) := by
  obtain ⟨M, Ny, c, x, O, h1, h2, hA, hM⟩ := C73_finelayer nelx nely hy hh nfine
  obtain ⟨M', n, W, G, R, Ny', ct', x', h1', hL, hF, e1, -, hNy, -⟩ := FineLayer.meshN nelx nely hy h nfine
  obtain rfl : M = M' := by rw [h1] at h1'; injection h1'
  obtain rfl : Ny = Ny' := by rw [h2] at e1; injection e1
  have T := edgeTable hF hL.npos
  obtain ⟨ct, a1, a2⟩ := hA.conn
  obtain ⟨xt, b1, b2⟩ := hA.coor
  obtain ⟨bt, c1, c2⟩ := hA.bottom
  obtain ⟨rt, d1, d2⟩ := hA.right
  obtain ⟨tt, i1, i2⟩ := hA.top
  obtain ⟨lt, f1, f2⟩ := hA.left
  obtain ⟨lo, g1, g2⟩ := T.leftOpen
  obtain ⟨ro, k1, k2⟩ := T.rightOpen
  obtain ⟨rt', d1', d2'⟩ := T.right
  obtain rfl : rt = rt' := by rw [d1] at d1'; injection d1'
  obtain ⟨lt', f1', f2'⟩ := T.left
  obtain rfl : lt = lt' := by rw [f1] at f1'; injection f1'
  have lx : 0 < h * (nelx : α) := mul_pos hh (by exact_mod_cast hx)
  have ly : 0 < h * (Ny : α) := mul_pos hh (by exact_mod_cast hNy)
  have g3 := is1_open f2 f2' g2 fun k _ => by rw [Nat.add_comm]
  have k3 := is1_open d2 d2' k2 fun k _ => by rw [Nat.add_comm 1 k]
  rw [hM.sizes.2.2.2] at k3
  refine ⟨M, Ny, xt, x, h1, h2, b1, b2, fun material hm => ⟨?_, ?_⟩⟩
  · obtain ⟨r, r1, r2⟩ := C93_fixed_displacement_uniform hM lx ly s0 s1 s2 t0 σ a2 b2 c2 d2 i2 f2 hμ hl hm a b hSol
    exact ⟨r, by simp only [a1, b1, c1, d1, i1, f1, Res.ok_bind]; exact r1, r2⟩
  · obtain ⟨r, r1, r2⟩ := C93_partial_periodic_uniform hM lx ly s0 s1 s2 t0 σ a2 b2 c2 i2 g3 k3 hm (isotropic_elastic hμ hl) a (hSol.suits (isotropic_major 2 l μ))
    exact ⟨r, by simp only [a1, b1, c1, i1, g1, k1, Res.ok_bind]; exact r1, r2⟩

/-- there are linear materials: `Sig = C : Eps` -/
def linearMaterial (ne : Nat) (C : Nat → Nat → Nat → Nat → Nat → Nat → α) (t : Ten α) : Res (Ten α × Ten α) :=
  .ok (Ten.of [ne, 4, 3, 3] fun ix => ddot 3 (C (ix.getD 0 0) (ix.getD 1 0)) (fun k l => (t.v [ix.getD 0 0, ix.getD 1 0, k, l]).getD 0) (ix.getD 2 0) (ix.getD 3 0),
    Ten.of [ne, 4, 3, 3, 3, 3] fun ix => C (ix.getD 0 0) (ix.getD 1 0) (ix.getD 2 0) (ix.getD 3 0) (ix.getD 4 0) (ix.getD 5 0))

omit [LinearOrder α] [IsStrictOrderedRing α] in
theorem linearMaterial_ok (ne : Nat) (C : Nat → Nat → Nat → Nat → Nat → Nat → α) : LinearMaterial ne C (linearMaterial ne C) := by
  intro t E h
  refine ⟨_, rfl, ⟨rfl, fun e q i j he hq hi hj => ?_⟩, rfl, fun e q i j k l _ _ _ _ _ _ => by simp [Ten.of]⟩
  simp only [Ten.of, List.getD_cons_zero, List.getD_cons_succ, Option.some.injEq, ddot]
  refine sum_congr rfl fun k hk => sum_congr rfl fun l hl => ?_
  rw [h.2 e q l k he hq (mem_range.1 hl) (mem_range.1 hk)]
  rfl

/-- all hypotheses can be met: the examples of the documentation (5 x 5 elements, edge size one, `K = G = 1`, the second one with a
hard inclusion), with Gauss points in `1/2` instead of `1 / sqrt 3` -/
example : ∃ (S : LinSolver ℚ) (m₁ m₂ : Ten ℚ → Res (Ten ℚ × Ten ℚ)) (C : Nat → Nat → Nat → Nat → Nat → Nat → ℚ), S.Ldlt ∧ (∀ e q, e < 5 * 5 → q < 4 → Major 2 (C e q)) ∧
    LinearMaterial (5 * 5) (fun _ _ => isotropic (1 - 2 / 3 : ℚ) 1) m₁ ∧ LinearMaterial (5 * 5) C m₂ ∧
    (∀ e q, e < 5 * 5 → q < 4 → Elastic (C e q)) ∧ C 0 0 0 1 0 1 ≠ C 2 0 0 1 0 1 := by
  obtain ⟨S, hS⟩ := exists_direct (α := ℚ)
  let C : Nat → Nat → Nat → Nat → Nat → Nat → ℚ := fun e _ => if e % 5 < 2 ∧ e < 10 then isotropic (1 - 20 / 3) 10 else isotropic (1 - 2 / 3) 1
  refine ⟨S, linearMaterial 25 fun _ _ => isotropic (1 - 2 / 3 : ℚ) 1, linearMaterial 25 C, C, hS.ldlt, fun e q _ _ => ?_, linearMaterial_ok _ _, linearMaterial_ok _ _,
    fun e q _ _ => ?_, ?_⟩
  · simp only [C]
    split
    · exact isotropic_major _ _ _
    · exact isotropic_major _ _ _
  · simp only [C]
    split
    · exact isotropic_elastic (by norm_num) (by norm_num)
    · exact isotropic_elastic (by norm_num) (by norm_num)
  · simp [C, isotropic]

end GF
