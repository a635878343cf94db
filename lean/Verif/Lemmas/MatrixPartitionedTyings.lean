import Verif.Spec.MatrixPartitionedTyings
import Verif.Lemmas.MatrixPartitioned
import Verif.Lemmas.TyingsPeriodic
import Verif.Props.VectorPartitionedTyings
import Mathlib.Tactic.Abel

namespace GF
open Finset
variable {α ι : Type}

/-- group of a DOF -/
def grp (nnu nni k : Nat) : Nat := if k < nnu then 0 else if k < nni then 1 else 2
/-- first DOF of a group -/
def goff (nnu nni g : Nat) : Nat := if g = 0 then 0 else if g = 1 then nnu else nni

theorem Trip9.push_eq {nnu nni : Nat} (h : nnu ≤ nni) (T : Trip9 α) (t : Trip α) :
    Trip9.push nnu nni T t = T.app (grp nnu nni t.r) (grp nnu nni t.c)
      ⟨t.r - goff nnu nni (grp nnu nni t.r), t.c - goff nnu nni (grp nnu nni t.c), t.v⟩ := by
  by_cases h1 : t.r < nnu <;> by_cases h2 : t.r < nni <;> by_cases h3 : t.c < nnu <;>
    by_cases h4 : t.c < nni <;> first | omega | simp [push, grp, goff, h1, h2, h3, h4]

theorem Trip9.block {nnu nnp nnd : Nat} [AddCommMonoid α] (l : List ι) (t : ι → Trip α)
    (g h sg sh : Nat) (hr : ∀ x ∈ l, (t x).r < nnu + nnp + nnd) (hc : ∀ x ∈ l, (t x).c < nnu + nnp + nnd)
    (hg : ∀ k, k < nnu + nnp + nnd → (grp nnu (nnu + nnp) k = g ↔
      goff nnu (nnu + nnp) g ≤ k ∧ k < goff nnu (nnu + nnp) g + sg))
    (hh : ∀ k, k < nnu + nnp + nnd → (grp nnu (nnu + nnp) k = h ↔
      goff nnu (nnu + nnp) h ≤ k ∧ k < goff nnu (nnu + nnp) h + sh)) :
    ∃ B, Mat.setFromTriplets sg sh
      ((l.map t).foldl (Trip9.push nnu (nnu + nnp)) (fun _ _ => []) g h) = .ok B ∧
      IsBlock B sg sh (goff nnu (nnu + nnp) g) (goff nnu (nnu + nnp) h) (fun r s =>
        (l.map fun x => if (t x).r = r ∧ (t x).c = s then (t x).v else 0).sum) := by
  have e1 := foldl_push (α := α) (Trip9.push nnu (nnu + nnp)) (fun T => T g h)
    (fun t => decide (grp nnu (nnu + nnp) t.r = g) && decide (grp nnu (nnu + nnp) t.c = h))
    (fun t => ⟨t.r - goff nnu (nnu + nnp) g, t.c - goff nnu (nnu + nnp) h, t.v⟩)
    (by
      intro T t
      rw [Trip9.push_eq (Nat.le_add_right _ _)]
      by_cases h1 : grp nnu (nnu + nnp) t.r = g
      · by_cases h2 : grp nnu (nnu + nnp) t.c = h
        · simp [Trip9.app, h1, h2]
        · simp [Trip9.app, h1, h2, Ne.symm h2]
      · simp [Trip9.app, h1, Ne.symm h1]) (l.map t) (fun _ _ => [])
  simp only [List.nil_append] at e1
  rw [e1, block_entries]
  · refine ⟨_, rfl, rfl, rfl, fun a b ha hb => ?_⟩
    refine sum_congr_mem _ _ _ fun x hx => if_congr ?_ rfl rfl
    simp only [Bool.and_eq_true, decide_eq_true_eq, hg _ (hr x hx), hh _ (hc x hx)]
    omega
  · intro x hx
    simp only [Bool.and_eq_true, decide_eq_true_eq, hg _ (hr x hx), hh _ (hc x hx)]
    omega

theorem Trip9.split_spec [AddCommMonoid α] (nnu nnp nnd : Nat) (l : List ι) (t : ι → Trip α)
    (hr : ∀ x ∈ l, (t x).r < nnu + nnp + nnd) (hc : ∀ x ∈ l, (t x).c < nnu + nnp + nnd) :
    ∃ A, ((l.map t).foldl (Trip9.push nnu (nnu + nnp)) (fun _ _ => [])).toMat9 nnu nnp nnd = .ok A ∧
      A.Holds nnu nnp nnd (fun r s =>
        (l.map fun x => if (t x).r = r ∧ (t x).c = s then (t x).v else 0).sum) := by
  have g0 : ∀ k, k < nnu + nnp + nnd → (grp nnu (nnu + nnp) k = 0 ↔
      goff nnu (nnu + nnp) 0 ≤ k ∧ k < goff nnu (nnu + nnp) 0 + nnu) := by
    intro k hk; simp only [grp, goff]; split <;> [skip; split] <;> simp <;> omega
  have g1 : ∀ k, k < nnu + nnp + nnd → (grp nnu (nnu + nnp) k = 1 ↔
      goff nnu (nnu + nnp) 1 ≤ k ∧ k < goff nnu (nnu + nnp) 1 + nnp) := by
    intro k hk; simp only [grp, goff]; split <;> [skip; split] <;> simp <;> omega
  have g2 : ∀ k, k < nnu + nnp + nnd → (grp nnu (nnu + nnp) k = 2 ↔
      goff nnu (nnu + nnp) 2 ≤ k ∧ k < goff nnu (nnu + nnp) 2 + nnd) := by
    intro k hk; simp only [grp, goff]; split <;> [skip; split] <;> simp <;> omega
  obtain ⟨B00, a00, b00⟩ := Trip9.block l t 0 0 nnu nnu hr hc g0 g0
  obtain ⟨B01, a01, b01⟩ := Trip9.block l t 0 1 nnu nnp hr hc g0 g1
  obtain ⟨B10, a10, b10⟩ := Trip9.block l t 1 0 nnp nnu hr hc g1 g0
  obtain ⟨B11, a11, b11⟩ := Trip9.block l t 1 1 nnp nnp hr hc g1 g1
  obtain ⟨B02, a02, b02⟩ := Trip9.block l t 0 2 nnu nnd hr hc g0 g2
  obtain ⟨B12, a12, b12⟩ := Trip9.block l t 1 2 nnp nnd hr hc g1 g2
  obtain ⟨B20, a20, b20⟩ := Trip9.block l t 2 0 nnd nnu hr hc g2 g0
  obtain ⟨B21, a21, b21⟩ := Trip9.block l t 2 1 nnd nnp hr hc g2 g1
  obtain ⟨B22, a22, b22⟩ := Trip9.block l t 2 2 nnd nnd hr hc g2 g2
  exact ⟨_, by simp only [toMat9, a00, a01, a10, a11, a02, a12, a20, a21, a22, Res.ok_bind]; rfl,
    b00, b01, b10, b11, b02, b12, b20, b21, b22⟩

theorem IsBlock.congr {B : Mat α} {nr nc lo lo' : Nat} {D D' : Nat → Nat → α}
    (h : IsBlock B nr nc lo lo' D) (e : ∀ r s, D r s = D' r s) : IsBlock B nr nc lo lo' D' :=
  ⟨h.1, h.2.1, fun a b ha hb => by rw [h.2.2 a b ha hb, e]⟩

theorem Mat9.Holds.congr {A : Mat9 α} {nnu nnp nnd : Nat} {D D' : Nat → Nat → α}
    (h : A.Holds nnu nnp nnd D) (e : ∀ r s, D r s = D' r s) : A.Holds nnu nnp nnd D' := by
  have : D = D' := by funext r s; exact e r s
  exact this ▸ h

/-- product with a vector distributes over a matrix product -/
theorem mv_mul [NonUnitalSemiring α] (n m : Nat) (P : Nat → α) (Q : Nat → Nat → α) (x : Nat → α) :
    ∑ k ∈ range n, (∑ l ∈ range m, P l * Q l k) * x k =
      ∑ l ∈ range m, P l * ∑ k ∈ range n, Q l k * x k := by
  simp only [Finset.sum_mul, Finset.mul_sum, mul_assoc]
  exact Finset.sum_comm

namespace MatrixPartitionedTyings
variable {M : MatrixPartitionedTyings α} {c d : Nat → Nat → Nat} {D : Nat → Nat → α}

theorem condense_spec [NonUnitalSemiring α] {nu n nd : Nat} {A Ad C Cud Adx Add : Mat α}
    (hA : A.nr = nu ∧ A.nc = n) (hAd : Ad.nr = nu ∧ Ad.nc = nd) (hC : C.nr = nd ∧ C.nc = n)
    (hCud : Cud.nr = nu ∧ Cud.nc = nd) (hAdx : Adx.nr = nd ∧ Adx.nc = n)
    (hAdd : Add.nr = nd ∧ Add.nc = nd) :
    ∃ R, condense A Ad C Cud Adx Add = .ok R ∧ R.nr = nu ∧ R.nc = n ∧ ∀ a, ∀ x : Nat → α,
      ∑ k ∈ range n, R.e a k * x k = ∑ k ∈ range n, A.e a k * x k +
        ∑ l ∈ range nd, Ad.e a l * ∑ k ∈ range n, C.e l k * x k +
        ∑ l ∈ range nd, Cud.e a l * ∑ k ∈ range n, Adx.e l k * x k +
        ∑ l ∈ range nd, Cud.e a l * ∑ m ∈ range nd, Add.e l m * ∑ k ∈ range n, C.e m k * x k := by
  obtain ⟨rfl, rfl⟩ := hA
  refine ⟨(((A.add ⟨Ad.nr, C.nc, fun r c => ∑ l ∈ range nd, Ad.e r l * C.e l c⟩).add
    ⟨Cud.nr, Adx.nc, fun r c => ∑ l ∈ range nd, Cud.e r l * Adx.e l c⟩).add
    ⟨Cud.nr, C.nc, fun r c => ∑ m ∈ range nd, (∑ l ∈ range nd, Cud.e r l * Add.e l m) * C.e m c⟩), by
    simp only [condense, Mat.mul, hAd.2, hC.1, hCud.2, hAdx.1, hAdd.1, hAdd.2, if_true, Res.ok_bind],
    rfl, rfl, fun a x => ?_⟩
  simp only [Mat.add, add_mul, Finset.sum_add_distrib, mv_mul]

theorem assemble_spec [AddCommMonoid α] (hM : M.Holds c d D) {K : Ten α} {k : Nat → Nat → Nat → α}
    (hK : Is3 K M.V.nelem (M.V.nne * M.V.ndim) (M.V.nne * M.V.ndim) k) :
    ∃ A, M.assemble K = .ok { M with A := A, changed := true } ∧
      A.Holds M.nnu M.nnp M.nnd (SMatrix.assembled M.V c d k) := by
  have hV := hM.base
  have hnd := hM.ndof
  rw [hM.nni] at hnd
  obtain ⟨A, h1, h2⟩ := Trip9.split_spec M.nnu M.nnp M.nnd
    (it5 M.V.nelem M.V.nne M.V.ndim M.V.nne M.V.ndim)
    (fun x => (⟨d (c x.1 x.2.1) x.2.2.1, d (c x.1 x.2.2.2.1) x.2.2.2.2,
        k x.1 (x.2.1 * M.V.ndim + x.2.2.1) (x.2.2.2.1 * M.V.ndim + x.2.2.2.2)⟩ : Trip α))
    (by
      rintro ⟨e, m, i, n, j⟩ hx
      obtain ⟨he, hm, hi, hn, hj⟩ := mem_it5.1 hx
      exact lt_of_lt_of_eq (hV.dofs_lt _ _ (hV.conn_lt e m he hm) hi) hnd)
    (by
      rintro ⟨e, m, i, n, j⟩ hx
      obtain ⟨he, hm, hi, hn, hj⟩ := mem_it5.1 hx
      exact lt_of_lt_of_eq (hV.dofs_lt _ _ (hV.conn_lt e n he hn) hj) hnd)
  refine ⟨A, ?_, ?_⟩
  · rw [assemble, assembleLoop, forEach_push _ (Trip9.push M.nnu M.nni)
      (fun x => (⟨d (c x.1 x.2.1) x.2.2.1, d (c x.1 x.2.2.2.1) x.2.2.2.2,
        k x.1 (x.2.1 * M.V.ndim + x.2.2.1) (x.2.2.2.1 * M.V.ndim + x.2.2.2.2)⟩ : Trip α))]
    · rw [hM.nni]
      simp only [Res.ok_bind, h1]
    · rintro ⟨e, m, i, n, j⟩ hx T
      obtain ⟨he, hm, hi, hn, hj⟩ := mem_it5.1 hx
      simp [hV.conn.get he hm, hV.conn.get he hn, hV.dofs.get (hV.conn_lt e m he hm) hi,
        hV.dofs.get (hV.conn_lt e n he hn) hj,
        hK.get he (SMatrix.elem_idx_lt hm hi) (SMatrix.elem_idx_lt hn hj)]
  · exact h2.congr fun r s => sum_it5 _ _ _ _ _ _

theorem getD_map_range (n lo a : Nat) (ha : a < n) : ((List.range n).map (lo + ·)).getD a 0 = lo + a := by
  simp [List.getD, ha]

theorem range_map_zero (n : Nat) : List.range n = (List.range n).map (0 + ·) := by simp

/-- the DOF numbers split in three windows -/
theorem sum3 [AddCommMonoid α] (hM : M.Holds c d D) (F : Nat → α) :
    ∑ k ∈ range M.V.ndof, F k = ∑ k ∈ range M.nnu, F k + ∑ k ∈ range M.nnp, F (M.nnu + k) +
      ∑ k ∈ range M.nnd, F (M.nni + k) := by
  rw [hM.ndof, Finset.sum_range_add, hM.nni, Finset.sum_range_add]

theorem todense_spec [Zero α] (hM : M.Holds c d D) :
    ∃ y, M.todense = .ok y ∧ Is2 y M.V.ndof M.V.ndof D := by
  have hA := hM.blocks
  have hni := hM.nni
  have hnd := hM.ndof
  let W (n m lo lo' : Nat) (B : Mat α) : List ((Nat × Nat) × α) :=
    (it2 n m).map fun rc => ((lo + rc.1, lo' + rc.2), B.e rc.1 rc.2)
  have hW : ∀ (n m lo lo' : Nat) (B : Mat α), B.nr = n → B.nc = m → ∀ ret : Ten α,
      MatrixPartitioned.denseBlock ((List.range n).map (lo + ·)) ((List.range m).map (lo' + ·)) B ret =
      forEach (W n m lo lo' B) (fun s w => s.set [w.1.1, w.1.2] w.2) ret := by
    intro n m lo lo' B h1 h2 ret
    rw [MatrixPartitioned.denseBlock_writes _ _ _ (by simp [h1]) (by simp [h2])]
    congr 1
    simp only [List.length_map, List.length_range, W]
    refine List.map_congr_left fun x hx => ?_
    rw [mem_it2] at hx
    rw [getD_map_range _ _ _ hx.1, getD_map_range _ _ _ hx.2]
  obtain ⟨y, h1, h2⟩ := MatrixPartitioned.writes2 (α := α)
    (W M.nnu M.nnu 0 0 M.A.uu ++ W M.nnu M.nnp 0 M.nnu M.A.up ++ W M.nnp M.nnu M.nnu 0 M.A.pu ++
     W M.nnp M.nnp M.nnu M.nnu M.A.pp ++ W M.nnd M.nnu M.nni 0 M.A.du ++
     W M.nnd M.nnp M.nni M.nnu M.A.dp ++ W M.nnu M.nnd 0 M.nni M.A.ud ++
     W M.nnp M.nnd M.nnu M.nni M.A.pd ++ W M.nnd M.nnd M.nni M.nni M.A.dd)
    M.V.ndof M.V.ndof (Ten.full [M.V.ndof, M.V.ndof] 0) rfl D
    (by
      intro w hw
      simp only [List.mem_append, W, List.mem_map, mem_it2] at hw
      rcases hw with (((((((⟨x, ⟨a, b⟩, rfl⟩ | ⟨x, ⟨a, b⟩, rfl⟩) | ⟨x, ⟨a, b⟩, rfl⟩) | ⟨x, ⟨a, b⟩, rfl⟩) |
        ⟨x, ⟨a, b⟩, rfl⟩) | ⟨x, ⟨a, b⟩, rfl⟩) | ⟨x, ⟨a, b⟩, rfl⟩) | ⟨x, ⟨a, b⟩, rfl⟩) | ⟨x, ⟨a, b⟩, rfl⟩ <;>
      refine ⟨by dsimp only; omega, by dsimp only; omega, ?_⟩ <;> dsimp only <;> (try rw [hni])
      · exact hA.uu.2.2 _ _ a b
      · exact hA.up.2.2 _ _ a b
      · exact hA.pu.2.2 _ _ a b
      · exact hA.pp.2.2 _ _ a b
      · exact hA.du.2.2 _ _ a b
      · exact hA.dp.2.2 _ _ a b
      · exact hA.ud.2.2 _ _ a b
      · exact hA.pd.2.2 _ _ a b
      · exact hA.dd.2.2 _ _ a b)
    (by
      intro r s hr hs
      have key : ∀ k, k < M.V.ndof → (k < M.nnu) ∨ (∃ a, a < M.nnp ∧ k = M.nnu + a) ∨
          (∃ a, a < M.nnd ∧ k = M.nni + a) := by
        intro k hk
        by_cases h1 : k < M.nnu
        · exact Or.inl h1
        · by_cases h2 : k < M.nni
          · exact Or.inr (Or.inl ⟨k - M.nnu, by omega, by omega⟩)
          · exact Or.inr (Or.inr ⟨k - M.nni, by omega, by omega⟩)
      simp only [List.mem_append, W, List.mem_map, mem_it2]
      rcases key r hr with h | ⟨a, ha, rfl⟩ | ⟨a, ha, rfl⟩ <;>
        rcases key s hs with h' | ⟨b, hb, rfl⟩ | ⟨b, hb, rfl⟩
      · exact ⟨_, Or.inl <| Or.inl <| Or.inl <| Or.inl <| Or.inl <| Or.inl <| Or.inl <| Or.inl ⟨(r, s), ⟨h, h'⟩, rfl⟩, by simp⟩
      · exact ⟨_, Or.inl <| Or.inl <| Or.inl <| Or.inl <| Or.inl <| Or.inl <| Or.inl <| Or.inr ⟨(r, b), ⟨h, hb⟩, rfl⟩, by simp⟩
      · exact ⟨_, Or.inl <| Or.inl <| Or.inr ⟨(r, b), ⟨h, hb⟩, rfl⟩, by simp⟩
      · exact ⟨_, Or.inl <| Or.inl <| Or.inl <| Or.inl <| Or.inl <| Or.inl <| Or.inr ⟨(a, s), ⟨ha, h'⟩, rfl⟩, by simp⟩
      · exact ⟨_, Or.inl <| Or.inl <| Or.inl <| Or.inl <| Or.inl <| Or.inr ⟨(a, b), ⟨ha, hb⟩, rfl⟩, by simp⟩
      · exact ⟨_, Or.inl <| Or.inr ⟨(a, b), ⟨ha, hb⟩, rfl⟩, by simp⟩
      · exact ⟨_, Or.inl <| Or.inl <| Or.inl <| Or.inl <| Or.inr ⟨(a, s), ⟨ha, h'⟩, rfl⟩, by simp⟩
      · exact ⟨_, Or.inl <| Or.inl <| Or.inl <| Or.inr ⟨(a, b), ⟨ha, hb⟩, rfl⟩, by simp⟩
      · exact ⟨_, Or.inr ⟨(a, b), ⟨ha, hb⟩, rfl⟩, by simp⟩)
  refine ⟨y, ?_, h2⟩
  have hb : ∀ (x : Res (Ten α)) (l : List ((Nat × Nat) × α)),
      (x >>= fun r => forEach l (fun s w => s.set [w.1.1, w.1.2] w.2) r) =
      x.bind (forEach l (fun s w => s.set [w.1.1, w.1.2] w.2)) := fun _ _ => rfl
  rw [← h1, todense, hM.iiu, hM.iip, hM.iid, range_map_zero M.nnu]
  simp only [hW _ _ _ _ M.A.uu hA.uu.1 hA.uu.2.1, hW _ _ _ _ M.A.up hA.up.1 hA.up.2.1,
    hW _ _ _ _ M.A.pu hA.pu.1 hA.pu.2.1, hW _ _ _ _ M.A.pp hA.pp.1 hA.pp.2.1,
    hW _ _ _ _ M.A.du hA.du.1 hA.du.2.1, hW _ _ _ _ M.A.dp hA.dp.1 hA.dp.2.1,
    hW _ _ _ _ M.A.ud hA.ud.1 hA.ud.2.1, hW _ _ _ _ M.A.pd hA.pd.1 hA.pd.2.1,
    hW _ _ _ _ M.A.dd hA.dd.1 hA.dd.2.1, forEach_append, Res.bind_eq_bind]
  have assoc : ∀ {β γ δ : Type} (x : Res β) (f : β → Res γ) (g : γ → Res δ),
      (x.bind f).bind g = x.bind fun a => (f a).bind g := by
    intro β γ δ x f g; cases x <;> rfl
  simp only [assoc]

/-- solving for the unknown part with the condensed matrix; the solver need not be exact -/
theorem solveRhs_any [Ring α] (S : LinSolver α) {s : SolverState α} {Auu : Mat α}
    (hs : s.fact = some Auu) (hu : Auu.nr = M.nnu ∧ Auu.nc = M.nnu)
    (hp : M.ACup.nr = M.nnu ∧ M.ACup.nc = M.nnp) {bu xp : Ten α}
    {g f : Nat → α} (hb : Is1 bu M.nnu g) (hx : Is1 xp M.nnp f) :
    ∃ y w, solveRhs S s M bu xp = .ok y ∧ Is1 y M.nnu w ∧ (S.ExactOn Auu → ∀ a, a < M.nnu →
      ∑ k ∈ range M.nnu, Auu.e a k * w k + ∑ k ∈ range M.nnp, M.ACup.e a k * f k = g a) := by
  obtain ⟨v, v1, v2⟩ := M.ACup.mulVec_spec (x := xp) (f := f) (by rw [hp.2]; exact hx)
  rw [hp.1, hp.2] at v2
  obtain ⟨z, z1, z2⟩ := vzip_spec (· - ·) hb v2
  obtain ⟨y, g', y1, y2, y3⟩ := MatrixPartitioned.solve_ok S hs (b := z) (by rw [hu.1]; exact z2)
  rw [hu.2] at y2
  refine ⟨y, _, by simp only [solveRhs, v1, z1, y1, Res.ok_bind], y2, fun hS a ha => ?_⟩
  have := hS g' a (by rw [hu.1]; exact ha)
  rw [hu.2] at this
  rw [this, y3 a (by rw [hu.1]; exact ha)]
  simp

/-- solving for the unknown part with the condensed matrix -/
theorem solveRhs_spec [Ring α] (S : LinSolver α) {s : SolverState α} {Auu : Mat α}
    (hs : s.fact = some Auu) (hu : Auu.nr = M.nnu ∧ Auu.nc = M.nnu)
    (hp : M.ACup.nr = M.nnu ∧ M.ACup.nc = M.nnp) (hS : S.ExactOn Auu) {bu xp : Ten α}
    {g f : Nat → α} (hb : Is1 bu M.nnu g) (hx : Is1 xp M.nnp f) :
    ∃ y w, solveRhs S s M bu xp = .ok y ∧ Is1 y M.nnu w ∧ ∀ a, a < M.nnu →
      ∑ k ∈ range M.nnu, Auu.e a k * w k + ∑ k ∈ range M.nnp, M.ACup.e a k * f k = g a := by
  obtain ⟨y, w, h1, h2, h3⟩ := solveRhs_any S hs hu hp hb hx
  exact ⟨y, w, h1, h2, h3 hS⟩

theorem factorize_ok [Ring α] (hM : M.Holds c d D) {s : SolverState α} (hs : Fresh s M) :
    ∃ Auu Aup s' M', condense M.A.uu M.A.ud M.Cdu M.Cud M.A.du M.A.dd = .ok Auu ∧
      condense M.A.up M.A.ud M.Cdp M.Cud M.A.dp M.A.dd = .ok Aup ∧
      factorize s M = .ok (s', M') ∧ s'.fact = some Auu ∧ M'.ACup = Aup ∧
      Auu.nr = M.nnu ∧ Auu.nc = M.nnu ∧ Aup.nr = M.nnu ∧ Aup.nc = M.nnp ∧
      M' = { M with ACuu := M'.ACuu, ACup := M'.ACup, changed := M'.changed } ∧
      ∀ (xu xp : Nat → α) (a : Nat), a < M.nnu →
        ∑ k ∈ range M.nnu, Auu.e a k * xu k + ∑ k ∈ range M.nnp, Aup.e a k * xp k =
        (∑ k ∈ range M.nnu, D a k * xu k + ∑ k ∈ range M.nnp, D a (M.nnu + k) * xp k +
          ∑ l ∈ range M.nnd, D a (M.nni + l) * (∑ k ∈ range M.nnu, M.Cdu.e l k * xu k +
            ∑ k ∈ range M.nnp, M.Cdp.e l k * xp k)) +
        ∑ r ∈ range M.nnd, M.Cdu.e r a * (∑ k ∈ range M.nnu, D (M.nni + r) k * xu k +
          ∑ k ∈ range M.nnp, D (M.nni + r) (M.nnu + k) * xp k +
          ∑ l ∈ range M.nnd, D (M.nni + r) (M.nni + l) * (∑ k ∈ range M.nnu, M.Cdu.e l k * xu k +
            ∑ k ∈ range M.nnp, M.Cdp.e l k * xp k)) := by
  have hA := hM.blocks
  have hni := hM.nni
  have hCud : M.Cud.nr = M.nnu ∧ M.Cud.nc = M.nnd := by rw [hM.Cud]; exact ⟨hM.Cdu.2, hM.Cdu.1⟩
  obtain ⟨Auu, u1, u2, u3, u4⟩ := condense_spec (nu := M.nnu) (n := M.nnu) (nd := M.nnd)
    ⟨hA.uu.1, hA.uu.2.1⟩ ⟨hA.ud.1, hA.ud.2.1⟩ hM.Cdu hCud
    ⟨hA.du.1, hA.du.2.1⟩ ⟨hA.dd.1, hA.dd.2.1⟩
  obtain ⟨Aup, p1, p2, p3, p4⟩ := condense_spec (nu := M.nnu) (n := M.nnp) (nd := M.nnd)
    ⟨hA.up.1, hA.up.2.1⟩ ⟨hA.ud.1, hA.ud.2.1⟩ hM.Cdp hCud
    ⟨hA.dp.1, hA.dp.2.1⟩ ⟨hA.dd.1, hA.dd.2.1⟩
  have alg : ∀ (xu xp : Nat → α) (a : Nat), a < M.nnu →
        ∑ k ∈ range M.nnu, Auu.e a k * xu k + ∑ k ∈ range M.nnp, Aup.e a k * xp k =
        (∑ k ∈ range M.nnu, D a k * xu k + ∑ k ∈ range M.nnp, D a (M.nnu + k) * xp k +
          ∑ l ∈ range M.nnd, D a (M.nni + l) * (∑ k ∈ range M.nnu, M.Cdu.e l k * xu k +
            ∑ k ∈ range M.nnp, M.Cdp.e l k * xp k)) +
        ∑ r ∈ range M.nnd, M.Cdu.e r a * (∑ k ∈ range M.nnu, D (M.nni + r) k * xu k +
          ∑ k ∈ range M.nnp, D (M.nni + r) (M.nnu + k) * xp k +
          ∑ l ∈ range M.nnd, D (M.nni + r) (M.nni + l) * (∑ k ∈ range M.nnu, M.Cdu.e l k * xu k +
            ∑ k ∈ range M.nnp, M.Cdp.e l k * xp k)) := by
    intro xu xp a ha
    rw [u4 a xu, p4 a xp]
    have q1 : ∀ k ∈ range M.nnu, M.A.uu.e a k = D a k := fun k hk => by
      simpa using hA.uu.2.2 a k ha (mem_range.1 hk)
    have q2 : ∀ k ∈ range M.nnp, M.A.up.e a k = D a (M.nnu + k) := fun k hk => by
      simpa using hA.up.2.2 a k ha (mem_range.1 hk)
    have q3 : ∀ k ∈ range M.nnd, M.A.ud.e a k = D a (M.nni + k) := fun k hk => by
      rw [hni]; simpa using hA.ud.2.2 a k ha (mem_range.1 hk)
    have q4 : ∀ l ∈ range M.nnd, ∀ k ∈ range M.nnu, M.A.du.e l k = D (M.nni + l) k := fun l hl k hk => by
      rw [hni]; simpa using hA.du.2.2 l k (mem_range.1 hl) (mem_range.1 hk)
    have q5 : ∀ l ∈ range M.nnd, ∀ k ∈ range M.nnp, M.A.dp.e l k = D (M.nni + l) (M.nnu + k) :=
      fun l hl k hk => by
        rw [hni]; simpa using hA.dp.2.2 l k (mem_range.1 hl) (mem_range.1 hk)
    have q6 : ∀ l ∈ range M.nnd, ∀ k ∈ range M.nnd, M.A.dd.e l k = D (M.nni + l) (M.nni + k) :=
      fun l hl k hk => by
        rw [hni]; simpa using hA.dd.2.2 l k (mem_range.1 hl) (mem_range.1 hk)
    have hc : ∀ l, M.Cud.e a l = M.Cdu.e l a := fun l => by rw [hM.Cud]; rfl
    rw [Finset.sum_congr rfl fun k hk => by rw [q1 k hk],
      Finset.sum_congr (s₁ := range M.nnp) rfl fun k hk => by rw [q2 k hk],
      Finset.sum_congr (s₁ := range M.nnd) rfl fun k hk => by rw [q3 k hk],
      Finset.sum_congr (s₁ := range M.nnd) (f := fun l => M.A.ud.e a l * ∑ k ∈ range M.nnp, M.Cdp.e l k * xp k) rfl fun k hk => by rw [q3 k hk],
      Finset.sum_congr (s₁ := range M.nnd) (f := fun l => M.Cud.e a l * ∑ k ∈ range M.nnu, M.A.du.e l k * xu k) rfl fun l hl => by
        rw [hc, Finset.sum_congr rfl fun k hk => by rw [q4 l hl k hk]],
      Finset.sum_congr (s₁ := range M.nnd) (f := fun l => M.Cud.e a l * ∑ k ∈ range M.nnp, M.A.dp.e l k * xp k) rfl fun l hl => by
        rw [hc, Finset.sum_congr rfl fun k hk => by rw [q5 l hl k hk]],
      Finset.sum_congr (s₁ := range M.nnd) (f := fun l => M.Cud.e a l * ∑ m ∈ range M.nnd, M.A.dd.e l m * ∑ k ∈ range M.nnu, M.Cdu.e m k * xu k) rfl fun l hl => by
        rw [hc, Finset.sum_congr rfl fun k hk => by rw [q6 l hl k hk]],
      Finset.sum_congr (s₁ := range M.nnd) (f := fun l => M.Cud.e a l * ∑ m ∈ range M.nnd, M.A.dd.e l m * ∑ k ∈ range M.nnp, M.Cdp.e m k * xp k) rfl fun l hl => by
        rw [hc, Finset.sum_congr rfl fun k hk => by rw [q6 l hl k hk]]]
    simp only [mul_add, Finset.sum_add_distrib]
    abel
  by_cases hch : (!M.changed && !s.factor) = true
  · have hh := hch
    simp only [Bool.and_eq_true, Bool.not_eq_true'] at hh
    rcases hs with h | h | ⟨A1, A2, e1, e2, e3, e4⟩
    · simp [h] at hh
    · simp [h] at hh
    · rw [e1] at u1; rw [e2] at p1
      cases u1; cases p1
      exact ⟨_, _, s, M, e1, e2, by simp [factorize, hch], e3, e4, u2, u3, p2, p3, rfl, alg⟩
  · exact ⟨Auu, Aup, ⟨some Auu, false⟩, { M with ACuu := Auu, ACup := Aup, changed := false }, u1, p1,
      by simp only [factorize, hch, u1, p1, Res.ok_bind]; rfl, rfl, rfl, u2, u3, p2, p3, rfl, alg⟩

end MatrixPartitionedTyings
end GF
