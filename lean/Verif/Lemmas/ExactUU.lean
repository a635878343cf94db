import Verif.Spec.System
import Verif.Props.MatrixPartitioned
import Mathlib.Algebra.Order.Ring.Defs
import Mathlib.Algebra.Order.BigOperators.Ring.Finset

/-! A solver that suits the problem is exact on the matrices of the problem. -/

namespace GF
open Finset

theorem iip_getD {α : Type} {l : List α} {i : Nat} {a : α} (h : i < l.length) : l.getD i a = l[i] := by
  simp [List.getD, List.getElem?_eq_getElem h]

section
variable {α : Type} [Field α] [LinearOrder α] [IsStrictOrderedRing α]

theorem Mat.Spd.regular {A : Mat α} (h : A.Spd) (z : Nat → α) (hz : ∀ r, r < A.nr → ∑ k ∈ range A.nc, A.e r k * z k = 0) :
    ∀ k, k < A.nc → z k = 0 := by
  intro k hk
  by_contra h0
  have := h.pos z ⟨k, by rw [h.square]; exact hk, h0⟩
  refine this.ne' (sum_eq_zero fun i hi => ?_)
  rw [mem_range] at hi
  have e := hz i hi
  rw [← h.square] at e
  rw [sum_congr rfl fun j _ => mul_assoc _ _ _, ← mul_sum, e, mul_zero]

theorem LinSolver.Direct.ldlt {S : LinSolver α} (h : S.Direct) : S.Ldlt := fun A hA => h A hA.square hA.regular

theorem LinSolver.Ldlt.suits {S : LinSolver α} (h : S.Ldlt) {sym : Prop} (hs : sym) : S.Suits sym := Or.inr ⟨h, hs⟩

omit [LinearOrder α] [IsStrictOrderedRing α] in
theorem LinSolver.Direct.suits [LT α] {S : LinSolver α} (h : S.Direct) (sym : Prop) : S.Suits sym := Or.inl h

omit [LinearOrder α] [IsStrictOrderedRing α] in
theorem LinSolver.Suits.imp [LT α] {S : LinSolver α} {p q : Prop} (h : S.Suits p) (f : p → q) : S.Suits q :=
  Or.imp_right (fun h => ⟨h.1, f h.2⟩) h

/-- the matrix is positive definite, and it is symmetric if the tangent is (`sym`) -/
structure Mat.PosDef (A : Mat α) (sym : Prop) : Prop where
  square : A.nr = A.nc
  symm : sym → ∀ i j, i < A.nr → j < A.nr → A.e i j = A.e j i
  nonneg : ∀ z : Nat → α, 0 ≤ ∑ i ∈ range A.nr, (∑ j ∈ range A.nc, A.e i j * z j) * z i
  pos : ∀ z : Nat → α, ∑ i ∈ range A.nr, (∑ j ∈ range A.nc, A.e i j * z j) * z i = 0 → ∀ k, k < A.nr → z k = 0

theorem Mat.PosDef.spd {A : Mat α} {sym : Prop} (h : A.PosDef sym) (hs : sym) : A.Spd := by
  refine ⟨h.square, h.symm hs, fun z ⟨k, hk, hz⟩ => ?_⟩
  have e : ∑ i ∈ range A.nr, ∑ j ∈ range A.nr, z i * A.e i j * z j = ∑ i ∈ range A.nr, (∑ j ∈ range A.nc, A.e i j * z j) * z i := by
    rw [← h.square]
    refine sum_congr rfl fun i _ => ?_
    rw [sum_mul]
    exact sum_congr rfl fun j _ => by ring
  rw [e]
  exact lt_of_le_of_ne (h.nonneg z) fun e => hz (h.pos z e.symm k hk)

theorem LinSolver.Suits.exact {S : LinSolver α} {sym : Prop} (h : S.Suits sym) {A : Mat α} (hA : A.PosDef sym) : S.ExactOn A := by
  rcases h with h | ⟨h, hs⟩
  · refine h A hA.square fun z hz k hk => hA.pos z (sum_eq_zero fun i hi => ?_) k (by rw [hA.square]; exact hk)
    rw [hz i (mem_range.1 hi), zero_mul]
  · exact h A (hA.spd hs)

/-- the quadratic form of a matrix `B` is non-negative, positive with respect to the prescribed DOFs (`zero iip f`: the
displacements `f` vanish), and symmetric if the tangent is (`sym`) -/
structure EnergyForm (n : Nat) (B : Nat → Nat → α) (zero : List Nat → (Nat → α) → Prop) (sym : Prop) : Prop where
  nonneg : ∀ f : Nat → α, 0 ≤ ∑ r ∈ range n, (∑ s ∈ range n, B r s * f s) * f r
  pos : ∀ (iip : List Nat) (f : Nat → α), (∀ k ∈ iip, f k = 0) → ∑ r ∈ range n, (∑ s ∈ range n, B r s * f s) * f r = 0 → zero iip f
  symm : sym → ∀ r s, r < n → s < n → B r s = B s r

/-- the quadratic form of the block of the unknown DOFs -/
theorem MatrixPartitioned.Holds.form_uu {c d q : Nat → Nat → Nat} {D : Nat → Nat → α} {M : MatrixPartitioned α}
    (hM : M.Holds c d q D) (f : Nat → α) (f0 : ∀ k ∈ M.P.iip, f k = 0) :
    ∑ r ∈ range M.P.V.ndof, (∑ s ∈ range M.P.V.ndof, D r s * f s) * f r =
        ∑ i ∈ range M.A.uu.nr, (∑ j ∈ range M.A.uu.nc, M.A.uu.e i j * f (M.P.iiu.getD j 0)) * f (M.P.iiu.getD i 0) := by
  have a2 := hM.blocks
  have hP := hM.base
  have some : ∀ {b}, b < M.P.iiu.length → M.P.iiu[b]? = some (M.P.iiu.getD b 0) := fun hb => by
    rw [iip_getD hb]; exact List.getElem?_eq_getElem hb
  have p0 : ∀ a, a < M.P.iip.length → f (M.P.iip.getD a 0) = 0 := fun a ha => f0 _ (by rw [iip_getD ha]; exact List.getElem_mem ha)
  rw [hM.sum_split, a2.uu_dim.1, a2.uu_dim.2, hP.nnu, hP.nnp]
  rw [sum_eq_zero fun a ha => show _ * f (M.P.iip.getD a 0) = 0 by rw [p0 a (mem_range.1 ha), mul_zero], add_zero]
  refine sum_congr rfl fun a ha => ?_
  rw [mem_range] at ha
  rw [hM.sum_split, hP.nnu, hP.nnp]
  rw [sum_eq_zero fun b hb => show _ * f (M.P.iip.getD b 0) = 0 by rw [p0 b (mem_range.1 hb), mul_zero], add_zero]
  congr 1
  refine sum_congr rfl fun b hb => ?_
  rw [mem_range] at hb
  rw [a2.uu a b _ _ (some ha) (some hb)]

/-- the block of the unknown DOFs -/
theorem MatrixPartitioned.Holds.pos_uu {c d q : Nat → Nat → Nat} {D : Nat → Nat → α} {M : MatrixPartitioned α}
    (hM : M.Holds c d q D) {sym : Prop}
    (sy : sym → ∀ r s, r < M.P.V.ndof → s < M.P.V.ndof → D r s = D s r)
    (n0 : ∀ f : Nat → α, 0 ≤ ∑ r ∈ range M.P.V.ndof, (∑ s ∈ range M.P.V.ndof, D r s * f s) * f r)
    (pd : ∀ f : Nat → α, (∀ k ∈ M.P.iip, f k = 0) → ∑ r ∈ range M.P.V.ndof, (∑ s ∈ range M.P.V.ndof, D r s * f s) * f r = 0 →
      ∀ m i, m < M.P.V.nnode → i < M.P.V.ndim → f (d m i) = 0) : M.A.uu.PosDef sym := by
  have a2 := hM.blocks
  have hP := hM.base
  have ndup := hP.iiu_nodup
  have hbm : ∀ {b}, b < M.P.iiu.length → M.P.iiu.getD b 0 ∈ M.P.iiu := fun hb => by rw [iip_getD hb]; exact List.getElem_mem hb
  have some : ∀ {b}, b < M.P.iiu.length → M.P.iiu[b]? = some (M.P.iiu.getD b 0) := fun hb => by
    rw [iip_getD hb]; exact List.getElem?_eq_getElem hb
  have lt : ∀ {b}, b < M.P.iiu.length → M.P.iiu.getD b 0 < M.P.V.ndof := fun hb => by
    obtain ⟨⟨m, i, hm', hi', hd'⟩, -⟩ := (hP.iiu_mem _).1 (hbm hb)
    rw [← hd']
    exact hP.base.dofs_lt m i hm' hi'
  -- the displacements of the unknown DOFs, zero on the prescribed ones
  have ext : ∀ z : Nat → α, ∃ f : Nat → α, (∀ k ∈ M.P.iip, f k = 0) ∧ (∀ b, b < M.P.iiu.length → f (M.P.iiu.getD b 0) = z b) ∧
      ∑ r ∈ range M.P.V.ndof, (∑ s ∈ range M.P.V.ndof, D r s * f s) * f r =
        ∑ i ∈ range M.A.uu.nr, (∑ j ∈ range M.A.uu.nc, M.A.uu.e i j * z j) * z i := by
    intro z
    obtain ⟨f, hf⟩ : ∃ f : Nat → α, f = fun k => if k ∈ M.P.iip then 0 else z (M.P.iiu.idxOf k) := ⟨_, rfl⟩
    have f0 : ∀ k ∈ M.P.iip, f k = 0 := fun k hk => by rw [hf]; exact if_pos hk
    have f1 : ∀ b, b < M.P.iiu.length → f (M.P.iiu.getD b 0) = z b := fun b hb => by
      rw [hf]
      beta_reduce
      rw [if_neg ((hP.iiu_mem _).1 (hbm hb)).2, iip_getD hb, ndup.idxOf_getElem]
    refine ⟨f, f0, f1, ?_⟩
    rw [hM.form_uu f f0, a2.uu_dim.1, a2.uu_dim.2]
    refine sum_congr rfl fun a ha => ?_
    rw [mem_range] at ha
    rw [f1 a ha]
    exact congrArg₂ _ (sum_congr rfl fun b hb => by rw [f1 b (mem_range.1 hb)]) rfl
  refine .mk (a2.uu_dim.1.trans a2.uu_dim.2.symm) (fun hs i j hi hj => ?_) (fun z => ?_) fun z hz k hk => ?_
  · rw [a2.uu_dim.1] at hi hj
    rw [a2.uu i j _ _ (some hi) (some hj), a2.uu j i _ _ (some hj) (some hi)]
    exact sy hs _ _ (lt hi) (lt hj)
  · obtain ⟨f, -, -, h⟩ := ext z
    rw [← h]
    exact n0 f
  · obtain ⟨f, f0, f1, h⟩ := ext z
    rw [a2.uu_dim.1] at hk
    obtain ⟨⟨m, i, hm', hi', hd'⟩, -⟩ := (hP.iiu_mem _).1 (hbm hk)
    rw [← f1 k hk, ← hd']
    exact pd f f0 (by rw [h]; exact hz) m i hm' hi'

theorem MatrixPartitioned.Holds.exact_uu {c d q : Nat → Nat → Nat} {D : Nat → Nat → α} {M : MatrixPartitioned α}
    (hM : M.Holds c d q D) {sym : Prop}
    (sy : sym → ∀ r s, r < M.P.V.ndof → s < M.P.V.ndof → D r s = D s r)
    (n0 : ∀ f : Nat → α, 0 ≤ ∑ r ∈ range M.P.V.ndof, (∑ s ∈ range M.P.V.ndof, D r s * f s) * f r)
    (pd : ∀ f : Nat → α, (∀ k ∈ M.P.iip, f k = 0) → ∑ r ∈ range M.P.V.ndof, (∑ s ∈ range M.P.V.ndof, D r s * f s) * f r = 0 →
      ∀ m i, m < M.P.V.nnode → i < M.P.V.ndim → f (d m i) = 0)
    {S : LinSolver α} (hSol : S.Suits sym) : S.ExactOn M.A.uu := hSol.exact (hM.pos_uu sy n0 pd)

end

end GF
