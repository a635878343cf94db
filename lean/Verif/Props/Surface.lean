import Verif.Lemmas.Stokes
import Verif.Props.FineLayerEdges
import Verif.Props.MeshTri3

/-! **C72** The two-dimensional meshes are oriented surfaces whose boundary is formed by the four edges. -/

namespace GF
open Finset

/-- telescoping over the layers -/
theorem stack_stokes {A : Type} [AddCommGroup A] (P l r : Nat → A) (N : Nat) :
    ∑ i ∈ range N, (P i + r i - P (i + 1) - l i) = P 0 + ∑ i ∈ range N, r i - P N - ∑ i ∈ range N, l i := by
  induction N with
  | zero => simp
  | succ N ih => rw [sum_range_succ, ih, sum_range_succ, sum_range_succ]; abel

/-- **C72** (all meshes with such a boundary): two nodes that are not consecutive along the boundary, in one or the other
direction, are connected by as many element edges in one direction as in the other one: an edge that is not on the boundary
is shared by elements on either side. -/
theorem C72_edges_matched {nne ne nb nr nt nl : Nat} {c : Nat → Nat → Nat} {B R T L : Nat → Nat}
    (h : Perimeter nne ne c nb B nr R nt T nl L) (p q : Nat)
    (hB : ∀ i, i + 1 < nb → ¬ (B i = p ∧ B (i + 1) = q) ∧ ¬ (B i = q ∧ B (i + 1) = p))
    (hR : ∀ i, i + 1 < nr → ¬ (R i = p ∧ R (i + 1) = q) ∧ ¬ (R i = q ∧ R (i + 1) = p))
    (hT : ∀ i, i + 1 < nt → ¬ (T i = p ∧ T (i + 1) = q) ∧ ¬ (T i = q ∧ T (i + 1) = p))
    (hL : ∀ i, i + 1 < nl → ¬ (L i = p ∧ L (i + 1) = q) ∧ ¬ (L i = q ∧ L (i + 1) = p)) :
    edgeCount nne ne c p q = edgeCount nne ne c q p := by
  have key := h.stokes (A := ℤ) (fun a b => (if a = p ∧ b = q then 1 else 0) - (if a = q ∧ b = p then 1 else 0))
    (fun a b => by rw [neg_sub]; simp only [and_comm])
  have zero : ∀ {n : Nat} {S : Nat → Nat}, (∀ i, i + 1 < n → ¬ (S i = p ∧ S (i + 1) = q) ∧ ¬ (S i = q ∧ S (i + 1) = p)) →
      pathSum n S (fun a b => ((if a = p ∧ b = q then 1 else 0) - (if a = q ∧ b = p then 1 else 0) : ℤ)) = 0 := by
    intro n S hS
    refine sum_eq_zero fun i hi => ?_
    rw [mem_range] at hi
    have := hS i (by omega)
    beta_reduce
    rw [if_neg this.1, if_neg this.2, sub_zero]
  rw [zero hB, zero hR, zero hT, zero hL] at key
  simp only [edgeSum, sum_sub_distrib, add_zero, sub_zero] at key
  have : ((edgeCount nne ne c p q : Nat) : ℤ) = (edgeCount nne ne c q p : Nat) := by
    unfold edgeCount
    push_cast
    exact sub_eq_zero.1 key
  exact_mod_cast this

/-- the sides of a regular grid of nodes -/
def gridOutline (nelx nely : Nat) : Outline :=
  ⟨nelx + 1, fun k => k, nely + 1, fun k => k * (nelx + 1) + nelx, nelx + 1, fun k => nely * (nelx + 1) + k, nely + 1,
    fun k => k * (nelx + 1)⟩

/-- nodes of an element of a regular mesh of quadrilaterals -/
def gridQuad (nelx e a : Nat) : Nat :=
  if a = 0 then e / nelx * (nelx + 1) + e % nelx
  else if a = 1 then e / nelx * (nelx + 1) + (e % nelx + 1)
  else if a = 2 then (e / nelx + 1) * (nelx + 1) + (e % nelx + 1)
  else (e / nelx + 1) * (nelx + 1) + e % nelx

theorem Quad4.Regular.sides {α : Type} (nelx nely : Nat) (h : α) :
    let M := Quad4.Regular.new nelx nely h
    let O := gridOutline nelx nely
    (IsOk (Quad4.Regular.conn M) fun t => Is2 t M.nelem 4 (gridQuad nelx)) ∧
    (IsOk (Quad4.Regular.nodesBottomEdge M) fun t => Is1 t O.nb O.bottom) ∧
    (IsOk (Quad4.Regular.nodesRightEdge M) fun t => Is1 t O.nr O.right) ∧
    (IsOk (Quad4.Regular.nodesTopEdge M) fun t => Is1 t O.nt O.top) ∧
    (IsOk (Quad4.Regular.nodesLeftEdge M) fun t => Is1 t O.nl O.left) :=
  ⟨Quad4.Regular.conn_spec nelx nely h, ⟨_, rfl, (is1_arange 0 _).congr fun i _ => by simp [gridOutline]⟩,
    ⟨_, rfl, ((is1_arange 0 _).affine _ _).congr fun i _ => by simp [Quad4.Regular.new, Nat.mul_comm, gridOutline]⟩,
    ⟨_, rfl, ((is1_arange 0 _).affine _ _).congr fun i _ => by simp [Quad4.Regular.new, Nat.add_comm, gridOutline]⟩,
    ⟨_, rfl, ((is1_arange 0 _).affine _ _).congr fun i _ => by simp [Quad4.Regular.new, Nat.mul_comm, gridOutline]⟩⟩

theorem gridQuad_perimeter (nelx nely : Nat) :
    let O := gridOutline nelx nely
    Perimeter 4 (nelx * nely) (gridQuad nelx) O.nb O.bottom O.nr O.right O.nt O.top O.nl O.left := by
  refine ⟨by simp [gridOutline], by simp [gridOutline], by simp [gridOutline], by simp [gridOutline], fun f hf => ?_⟩
  rw [edgeSum]
  simp only [sum_quad, gridQuad]
  rw [Nat.mul_comm nelx nely, sum_blocks]
  rw [sum_congr rfl fun i _ => (sum_congr rfl fun k hk => (by
      rw [mem_range] at hk
      simp only [grid_div hk, grid_mod hk]
      simp [sum_range_succ, quadSum] : _ = quadSum f (i * (nelx + 1) + k) (i * (nelx + 1) + (k + 1)) ((i + 1) * (nelx + 1) + (k + 1)) ((i + 1) * (nelx + 1) + k))).trans
    (row_normal hf (fun k => i * (nelx + 1) + k) (fun k => (i + 1) * (nelx + 1) + k) nelx)]
  rw [stack_stokes (fun i => ∑ a ∈ range nelx, f (i * (nelx + 1) + a) (i * (nelx + 1) + (a + 1)))]
  simp [pathSum, gridOutline]

/-- **C72** (Quad4 `Regular`) -/
theorem C72_quad4_regular {α : Type} (nelx nely : Nat) (h : α) :
    let M := Quad4.Regular.new nelx nely h
    HasPerimeter 4 M.nelem (Quad4.Regular.conn M) (Quad4.Regular.nodesBottomEdge M) (Quad4.Regular.nodesRightEdge M)
      (Quad4.Regular.nodesTopEdge M) (Quad4.Regular.nodesLeftEdge M) := by
  obtain ⟨⟨ct, a1, a2⟩, ⟨bt, b1, b2⟩, ⟨rt, r1, r2⟩, ⟨tt, u1, u2⟩, lt, l1, l2⟩ := Quad4.Regular.sides nelx nely h
  exact ⟨ct, _, bt, _, _, rt, _, _, tt, _, _, lt, _, _, a1, a2, b1, b2, r1, r2, u1, u2, l1, l2, gridQuad_perimeter nelx nely⟩

/-- non-vacuity: the inner edge of a 2 x 1 mesh, and an edge of its boundary -/
example : edgeCount 4 2 (gridQuad 2) 1 4 = 1 ∧ edgeCount 4 2 (gridQuad 2) 4 1 = 1 ∧
    edgeCount 4 2 (gridQuad 2) 0 1 = 1 ∧ edgeCount 4 2 (gridQuad 2) 1 0 = 0 := by decide +kernel

example : edgeCount 4 2 (gridQuad 2) 1 4 = edgeCount 4 2 (gridQuad 2) 4 1 :=
  C72_edges_matched (gridQuad_perimeter 2 1) 1 4 (by intro i _; simp only [gridOutline]; omega)
    (by intro i _; simp only [gridOutline]; omega) (by intro i _; simp only [gridOutline]; omega)
    (by intro i _; simp only [gridOutline]; omega)

/-- **C72** (Tri3 `Regular`) -/
theorem C72_tri3_regular {α : Type} (nelx nely : Nat) (h : α) :
    let M := Tri3.Regular.new nelx nely h
    HasPerimeter 3 M.nelem (Tri3.Regular.conn M) (Tri3.Regular.nodesBottomEdge M) (Tri3.Regular.nodesRightEdge M)
      (Tri3.Regular.nodesTopEdge M) (Tri3.Regular.nodesLeftEdge M) := by
  obtain ⟨t, t1, t2⟩ := Tri3.Regular.conn_spec nelx nely h
  obtain ⟨bt, b1, b2⟩ := Tri3.Regular.fillEdge_spec (nelx + 1) fun ix => ix
  obtain ⟨tt, u1, u2⟩ := Tri3.Regular.fillEdge_spec (nelx + 1) fun ix => ix + nely * (nelx + 1)
  obtain ⟨lt, l1, l2⟩ := Tri3.Regular.fillEdge_spec (nely + 1) fun iy => iy * (nelx + 1)
  obtain ⟨rt, r1, r2⟩ := Tri3.Regular.fillEdge_spec (nely + 1) fun iy => iy * (nelx + 1) + nelx
  have hne : (Tri3.Regular.new nelx nely h).nelem = nelx * nely * 2 := rfl
  refine ⟨t, _, bt, nelx + 1, _, rt, nely + 1, _, tt, nelx + 1, _, lt, nely + 1, _, t1, by rw [hne]; exact t2, b1, b2, r1, r2, u1, u2,
    l1, l2, ?_⟩
  refine ⟨by simp, by simp, by simp, by simp [Nat.add_comm], fun f hf => ?_⟩
  rw [edgeSum, hne, sum_blocks, Nat.mul_comm nelx, sum_blocks]
  rw [sum_congr rfl fun i _ => (sum_congr rfl fun k hk => (by
      rw [mem_range] at hk
      simp only [sum_range_succ, sum_range_zero, zero_add, add_zero, show (i * nelx + k) * 2 / 2 = i * nelx + k by omega,
        show ((i * nelx + k) * 2 + 1) / 2 = i * nelx + k by omega, show ((i * nelx + k) * 2) % 2 = 0 by omega,
        show ((i * nelx + k) * 2 + 1) % 2 = 1 by omega, grid_div hk, grid_mod hk]
      simp [triNode] : _ = ((f (i * (nelx + 1) + k) (i * (nelx + 1) + (k + 1)) + f (i * (nelx + 1) + (k + 1)) ((i + 1) * (nelx + 1) + k) + f ((i + 1) * (nelx + 1) + k) (i * (nelx + 1) + k)) +
        (f (i * (nelx + 1) + (k + 1)) ((i + 1) * (nelx + 1) + (k + 1)) + f ((i + 1) * (nelx + 1) + (k + 1)) ((i + 1) * (nelx + 1) + k) + f ((i + 1) * (nelx + 1) + k) (i * (nelx + 1) + (k + 1)))))).trans
    (row_tri hf (fun k => i * (nelx + 1) + k) (fun k => (i + 1) * (nelx + 1) + k) nelx)]
  rw [stack_stokes (fun i => ∑ a ∈ range nelx, f (i * (nelx + 1) + a) (i * (nelx + 1) + (a + 1)))]
  simp [pathSum, Nat.add_comm]

open FineLayer FineLayerSpec in
/-- the sides of a `FineLayer` mesh -/
def fineOutline (nelx n : Nat) (W : Nat → Nat) (R : Nat → Int) : Outline :=
  ⟨nelx / rowW n W 0 + 1, fun a => rowS nelx n W R 0 + a, 2 * n, fun i => rowS nelx n W R i + nelx / rowW n W i,
    nelx / rowW n W (2 * n - 1) + 1, fun a => rowS nelx n W R (2 * n - 1) + a, 2 * n, fun i => rowS nelx n W R i⟩

open FineLayer FineLayerSpec in
theorem FineLayer.perimeter {α : Type} {nelx n : Nat} {W G : Nat → Nat} {R : Nat → Int} {M : FineLayer α}
    (hL : Layers nelx n W G R) (hM : IsFine M nelx n W G R) :
    let O := fineOutline nelx n W R
    ∃ t c, M.conn = .ok t ∧ Is2 t M.nelem 4 c ∧ Perimeter 4 M.nelem c O.nb O.bottom O.nr O.right O.nt O.top O.nl O.left := by
  obtain ⟨t, c, t1, t2, t3⟩ := conn_spec hM hL
  refine ⟨t, c, t1, t2, ?_⟩
  refine ⟨by simp [fineOutline], by simp [fineOutline], by simp [fineOutline], by simp [fineOutline], fun f hf => ?_⟩
  have hne : M.nelem = height (layE nelx W R) (2 * n - 1) := hM.nelem
  rw [edgeSum, hne, sum_height]
  rw [sum_congr rfl fun i hi => (sum_congr rfl fun k hk => (sum_congr rfl fun a ha => (by
      rw [mem_range] at hi hk ha
      have e1 := t3 i k a hi hk ha
      have e2 := t3 i k ((a + 1) % 4) hi hk (by omega)
      rw [layS] at e1 e2
      rw [e1, e2]))).trans
    (layer_stokes hf hL (mem_range.1 hi) (fun a => rowS nelx n W R i + a)
          (fun a => rowS nelx n W R i + rowN nelx n W i + a) (fun a => rowS nelx n W R (i + 1) + a))]
  rw [stack_stokes (fun i => ∑ a ∈ range (nelx / rowW n W i), f (rowS nelx n W R i + a) (rowS nelx n W R i + (a + 1)))]
  simp [pathSum, fineOutline]

open FineLayer FineLayerSpec in
/-- **C72** (Quad4 `FineLayer`) -/
theorem C72_finelayer {α : Type} [Field α] [LinearOrder α] [IsStrictOrderedRing α] (nelx nely : Nat) (hy : 0 < nely) (h : α) (nfine : Nat) :
    ∃ M, FineLayer.new nelx nely h nfine = .ok M ∧
      HasPerimeter 4 M.nelem M.conn M.nodesBottomEdge M.nodesRightEdge M.nodesTopEdge M.nodesLeftEdge := by
  obtain ⟨M, n, W, G, R, Ny, ct, x, h1, hL, hM, -⟩ := FineLayer.meshN nelx nely hy h nfine
  have T := edgeTable hM hL.npos
  obtain ⟨t, c, t1, t2, hP⟩ := FineLayer.perimeter hL hM
  obtain ⟨bt, b1, b2⟩ := T.bottom
  obtain ⟨tt, u1, u2⟩ := T.top
  obtain ⟨lt, l1, l2⟩ := T.left
  obtain ⟨rt, r1, r2⟩ := T.right
  exact ⟨M, h1, t, c, bt, _, _, rt, _, _, tt, _, _, lt, _, _, t1, t2, b1, b2, r1, r2, u1, u2, l1, l2, hP⟩

end GF
