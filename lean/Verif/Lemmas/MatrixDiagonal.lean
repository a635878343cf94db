import Verif.Spec.MatrixDiagonal
import Verif.Lemmas.MatrixPartitioned

namespace GF
open Finset
variable {α : Type}

/-- a loop over a duplicate-free index list that assigns `val a` to the cell `ii(a)` -/
theorem iiLoop (σ : Sched) {ii : List Nat} (hn : ii.Nodup) {N : Nat} (hlt : ∀ k ∈ ii, k < N)
    {val : Nat → α} {ret : Ten α} (hret : ret.shape = [N]) (body : Ten α → Nat → Res (Ten α))
    (hbody : ∀ a k, ii[a]? = some k → ∀ s : Ten α, body s a = s.set [k] (val a)) :
    ∃ y, forEach (σ.run (it1 ii.length)) body ret = .ok y ∧ y.shape = [N] ∧
      (∀ a k, ii[a]? = some k → y.v [k] = some (val a)) ∧
      (∀ k, k ∉ ii → y.v [k] = ret.v [k]) := by
  obtain ⟨y, h1, h2, h3, h4⟩ := forEach_set (σ.run (it1 ii.length)) body
    (fun a => [ii.getD a 0]) val ret
    (by
      intro a ha
      simp only [mem_sched, mem_it1] at ha
      have := hlt _ (SMatrix.getD_mem ha)
      simp only [hret, inb_cons, this, inb_nil, decide_true, Bool.and_self])
    (by
      intro a ha s _
      simp only [mem_sched, mem_it1] at ha
      exact hbody a _ (MatrixPartitioned.getElem?_getD ha) s)
  refine ⟨y, h1, by rw [h2, hret], fun a k hk => ?_, fun k hk => h4 _ ?_⟩
  · have ha : a < ii.length := (List.getElem?_eq_some_iff.1 hk).1
    have hka : ii.getD a 0 = k := by simp [List.getD, hk]
    obtain ⟨b, hb, hb1, hb2⟩ := h3 [k] ⟨a, by simp [ha], by rw [hka]⟩
    simp only [mem_sched, mem_it1] at hb
    simp only [List.cons.injEq, and_true] at hb1
    have : b = a := VectorPartitioned.nodup_idx hn
      (by rw [MatrixPartitioned.getElem?_getD hb, hb1]) hk
    rw [hb2, this]
  · intro a ha
    simp only [mem_sched, mem_it1] at ha
    simp only [ne_eq, List.cons.injEq, and_true]
    exact fun e => hk (e ▸ SMatrix.getD_mem ha)

theorem lget_of {l : List Nat} {a k : Nat} (h : l[a]? = some k) : lget l a = .ok k := by
  simp [lget, h]

theorem invLoop_spec [One α] [Div α] (σ : Sched) {n : Nat} {A inv : Ten α} {a : Nat → α} (hA : Is1 A n a)
    (hi : inv.shape = [n]) : ∃ y, invLoop σ n A inv = .ok y ∧ Is1 y n (fun k => 1 / a k) := by
  refine gather1 _ _ n inv hi _ (by simp) ?_
  intro k hk s
  simp [hA.get hk]

/-! ### MatrixDiagonal -/
namespace MatrixDiagonal
variable {M : MatrixDiagonal α} {c d : Nat → Nat → Nat}

theorem assemble_spec [AddCommMonoid α] [One α] [Div α] {o} (hM : M.Holds c d o) {K : Ten α} {k : Nat → Nat → Nat → α}
    (hK : Is3 K M.V.nelem (M.V.nne * M.V.ndim) (M.V.nne * M.V.ndim) k) :
    ∃ A, M.assemble K = .ok { M with A := A, changed := true } ∧
      Is1 A M.V.ndof (diagAssembled M.V c d k) := by
  have hV := hM.base
  obtain ⟨A, h1, h2⟩ := Vector.scatterAdd1 (it3 M.V.nelem M.V.nne M.V.ndim) (fun (r : Ten α) emi => do
    let n ← M.V.conn.get [emi.1, emi.2.1]
    let d ← M.V.dofs.get [n, emi.2.2]
    let v ← K.get [emi.1, emi.2.1 * M.V.ndim + emi.2.2, emi.2.1 * M.V.ndim + emi.2.2]
    r.addAt [d] v) M.V.ndof (fun x => d (c x.1 x.2.1) x.2.2)
    (fun x => k x.1 (x.2.1 * M.V.ndim + x.2.2) (x.2.1 * M.V.ndim + x.2.2))
    (by
      rintro ⟨e, m, i⟩ h
      simp only [mem_it3] at h
      exact hV.dofs_lt _ _ (hV.conn_lt _ _ h.1 h.2.1) h.2.2)
    (by
      rintro ⟨e, m, i⟩ h s
      simp only [mem_it3] at h
      simp only [hV.conn.get h.1 h.2.1, hV.dofs.get (hV.conn_lt _ _ h.1 h.2.1) h.2.2,
        hK.get h.1 (SMatrix.elem_idx_lt h.2.1 h.2.2) (SMatrix.elem_idx_lt h.2.1 h.2.2),
        Res.ok_bind])
  refine ⟨A, by simp only [assemble, hM.A_shape, h1, Res.ok_bind], ?_⟩
  refine h2.congr fun r hr => ?_
  rw [sum_it3]; rfl

theorem set_spec [Field α] {o} (hM : M.Holds c d o) {B : Ten α} {f : Nat → α}
    (hB : Is1 B M.V.ndof f) :
    ∃ A, M.set B = .ok { M with A := A, changed := true } ∧ Is1 A M.V.ndof f := by
  obtain ⟨A, h1, h2⟩ := gather1 (it1 M.V.ndof) (fun (r : Ten α) d => do
    let v ← lget ((List.range M.V.ndof).map f) d
    r.set [d] v) M.V.ndof M.A hM.A_shape f (by simp) (by
      intro a ha s
      simp [lget, ha])
  exact ⟨A, by simp only [set, hB.flat, Res.ok_bind, List.length_map, List.length_range, h1], h2⟩

theorem factorize_spec [One α] [Div α] {a : Nat → α} (hM : M.Holds c d (some a)) (σ : Sched) :
    ∃ M', M.factorize σ = .ok M' ∧ M'.V = M.V ∧ M'.A = M.A ∧
      Is1 M'.inv M.V.ndof (fun k => 1 / a k) ∧ M'.Holds c d (some a) := by
  rcases hch : M.changed with _ | _
  · refine ⟨M, by simp [factorize, hch], rfl, rfl, ?_, hM⟩
    rcases hM.cache with h | ⟨a', h1, h2⟩
    · simp [hch] at h
    · cases h1; exact h2
  · obtain ⟨y, h1, h2⟩ := invLoop_spec σ (hM.A a rfl) hM.inv_shape
    exact ⟨{ M with inv := y, changed := false }, by simp [factorize, hch, h1], rfl, rfl, h2,
      ⟨hM.base, hM.A_shape, hM.A, h2.1, Or.inr ⟨a, rfl, h2⟩⟩⟩

theorem solve_dofval_spec [Field α] {a : Nat → α} (hM : M.Holds c d (some a)) (σ : Sched) {b : Ten α}
    {f : Nat → α} (hb : Is1 b M.V.ndof f) :
    ∃ M' x, M.solve_dofval σ b = .ok (M', x) ∧ M'.V = M.V ∧ M'.A = M.A ∧ M'.Holds c d (some a) ∧
      Is1 x M.V.ndof (fun k => f k / a k) := by
  obtain ⟨M', h1, h2, h3, h4, h5⟩ := factorize_spec hM σ
  obtain ⟨x, h6, h7⟩ := vzip_spec (· * ·) h4 hb
  exact ⟨M', x, by simp only [solve_dofval, h1, h6, Res.ok_bind], h2, h3, h5,
    h7.congr fun k _ => by simp [div_eq_mul_inv, mul_comm]⟩

theorem solve_nodevec_raw [Zero α] [One α] [Mul α] [Div α] {a : Nat → α} (hM : M.Holds c d (some a)) (σ : Nat → Sched)
    {b : Ten α} {g : Nat → Nat → α} (hb : Is2 b M.V.nnode M.V.ndim g) :
    ∃ M' x, M.solve_nodevec σ b = .ok (M', x) ∧ M'.V = M.V ∧ M'.A = M.A ∧ M'.Holds c d (some a) ∧
      Is2 x M.V.nnode M.V.ndim (fun m i => 1 / a (d m i) * g m i) := by
  obtain ⟨M', h1, h2, h3, h4, h5⟩ := factorize_spec hM (σ 0)
  obtain ⟨x, h6, h7⟩ := Vector.gather2 ((σ 1).run (it2 M'.V.nnode M'.V.ndim)) (fun x mi => do
    let d ← M'.V.dofs.get [mi.1, mi.2]
    let a ← M'.inv.get [d]
    let v ← b.get [mi.1, mi.2]
    x.set [mi.1, mi.2] (a * v)) M'.V.nnode M'.V.ndim (Ten.empty b.shape) (by rw [h2]; exact hb.1)
    (fun m i => 1 / a (d m i) * g m i) (by simp) (by
      intro m i hm hi s
      rw [h2] at hm hi
      simp only [h2, hM.base.dofs.get hm hi, h4.get (hM.base.dofs_lt _ _ hm hi), hb.get hm hi,
        Res.ok_bind])
  refine ⟨M', x, by simp only [solve_nodevec, h1, h6, Res.ok_bind], h2, h3, h5, ?_⟩
  rwa [h2] at h7

theorem solve_nodevec_spec [Field α] {a : Nat → α} (hM : M.Holds c d (some a)) (σ : Nat → Sched)
    {b : Ten α} {g : Nat → Nat → α} (hb : Is2 b M.V.nnode M.V.ndim g) :
    ∃ M' x, M.solve_nodevec σ b = .ok (M', x) ∧ M'.V = M.V ∧ M'.A = M.A ∧ M'.Holds c d (some a) ∧
      Is2 x M.V.nnode M.V.ndim (fun m i => g m i / a (d m i)) := by
  obtain ⟨M', x, h1, h2, h3, h4, h5⟩ := solve_nodevec_raw hM σ hb
  exact ⟨M', x, h1, h2, h3, h4, h5.congr fun m i _ _ => by simp [div_eq_mul_inv, mul_comm]⟩

theorem Holds.of_A [Field α] {o} (hM : M.Holds c d o) {A : Ten α} {a : Nat → α}
    (hA : Is1 A M.V.ndof a) :
    MatrixDiagonal.Holds { M with A := A, changed := true } c d (some a) :=
  ⟨hM.base, hA.1, fun a' h => by cases h; exact hA, hM.inv_shape, Or.inl rfl⟩

theorem step_spec [Field α] {o o'} (hM : M.Holds c d o) {op : DiagOp α}
    (h : DiagOpSpec M.V c d op o o') : ∃ M', M.step op = .ok M' ∧ M'.V = M.V ∧ M'.Holds c d o' := by
  cases h with
  | assemble hK =>
    obtain ⟨A, h1, h2⟩ := assemble_spec hM hK
    exact ⟨_, h1, rfl, hM.of_A h2⟩
  | set hA =>
    obtain ⟨A, h1, h2⟩ := set_spec hM hA
    exact ⟨_, h1, rfl, hM.of_A h2⟩
  | @solve_dofval σ b x a f g hb hx =>
    obtain ⟨M', x, h1, h2, h3, h4, h5⟩ := solve_dofval_spec hM (σ 0) hb
    exact ⟨M', by simp only [step, h1, Res.ok_bind], h2, h4⟩
  | @solve_nodevec σ b x a f g hb hx =>
    obtain ⟨M', x, h1, h2, h3, h4, h5⟩ := solve_nodevec_spec hM σ hb
    exact ⟨M', by simp only [step, h1, Res.ok_bind], h2, h4⟩

end MatrixDiagonal

/-! ### MatrixDiagonalPartitioned -/
namespace MatrixDiagonalPartitioned
variable {M : MatrixDiagonalPartitioned α} {c d q : Nat → Nat → Nat}

theorem u_getD (hP : M.P.Holds c d q) {m i : Nat} (hm : m < M.P.V.nnode) (hi : i < M.P.V.ndim)
    (h : q m i < M.P.nnu) : M.P.iiu.getD (q m i) 0 = d m i := by
  simp [List.getD, hP.u_get hm hi h]

theorem p_getD (hP : M.P.Holds c d q) {m i : Nat} (hm : m < M.P.V.nnode) (hi : i < M.P.V.ndim)
    (h : M.P.nnu ≤ q m i) : M.P.iip.getD (q m i - M.P.nnu) 0 = d m i := by
  simp [List.getD, hP.p_get hm hi h]

theorem mulDofs_spec [Mul α] (σ : Sched) {ii : List Nat} (hn : ii.Nodup) {N : Nat}
    (hlt : ∀ k ∈ ii, k < N) {A x b : Ten α} {f g : Nat → α} (hA : Is1 A ii.length f)
    (hx : ∀ k ∈ ii, x.get [k] = .ok (g k))
    (hb : b.shape = [N]) :
    ∃ y, mulDofs σ ii ii.length A x b = .ok y ∧ y.shape = [N] ∧
      (∀ a k, ii[a]? = some k → y.v [k] = some (f a * g k)) ∧
      (∀ k, k ∉ ii → y.v [k] = b.v [k]) := by
  obtain ⟨y, h1, h2, h3, h4⟩ := iiLoop σ hn hlt (val := fun a => f a * g (ii.getD a 0)) hb
    (fun b d => do
      let k ← lget ii d
      let a ← A.get [d]
      let v ← x.get [k]
      b.set [k] (a * v)) (by
      intro a k hk s
      have ha : a < ii.length := (List.getElem?_eq_some_iff.1 hk).1
      have hka : ii.getD a 0 = k := by simp [List.getD, hk]
      simp only [lget_of hk, hA.get ha, hx k (List.mem_of_getElem? hk), Res.ok_bind, hka])
  refine ⟨y, h1, h2, fun a k hk => ?_, h4⟩
  have hka : ii.getD a 0 = k := by simp [List.getD, hk]
  rw [h3 a k hk, hka]

theorem mulLoop_spec [Mul α] (σ : Sched) {n : Nat} {A x b : Ten α} {f g : Nat → α} (hA : Is1 A n f)
    (hx : Is1 x n g) (hb : b.shape = [n]) :
    ∃ y, mulLoop σ n A x b = .ok y ∧ Is1 y n (fun k => f k * g k) := by
  refine gather1 _ _ n b hb _ (by simp) ?_
  intro k hk s
  simp [hA.get hk, hx.get hk]

theorem takeDofs_spec (σ : Sched) {ii : List Nat} {N : Nat} (hlt : ∀ k ∈ ii, k < N) {a ret : Ten α}
    {f : Nat → α} (ha : Is1 a N f) (hr : ret.shape = [ii.length]) :
    ∃ y, takeDofs σ ii ii.length a ret = .ok y ∧ Is1 y ii.length (fun k => f (ii.getD k 0)) := by
  refine gather1 _ _ ii.length ret hr _ (by simp) ?_
  intro k hk s
  simp only [lget_of (MatrixPartitioned.getElem?_getD hk),
    ha.get (hlt _ (SMatrix.getD_mem hk)), Res.ok_bind]

theorem Holds.mem [Field α] {o} (hM : M.Holds c d q o) {k : Nat} (hk : k < M.P.V.ndof) :
    k ∈ M.P.iiu ∨ k ∈ M.P.iip := by
  by_cases h : k ∈ M.P.iip
  · exact Or.inr h
  · exact Or.inl ((hM.base.iiu_mem k).2 ⟨hM.surj k hk, h⟩)

theorem set_spec [Field α] {o} (hM : M.Holds c d q o) (σ : Nat → Sched) {B : Ten α} {f : Nat → α}
    (hB : Is1 B M.P.V.ndof f) :
    ∃ M', M.set σ B = .ok M' ∧ M'.P = M.P ∧ M'.Holds c d q (some f) := by
  have hP := hM.base
  obtain ⟨u, h1, h2⟩ := takeDofs_spec (σ 0) (fun k hk => hP.iiu_lt hk) hB
    (by rw [← hP.nnu]; exact hM.A_shape.1)
  obtain ⟨p, h3, h4⟩ := takeDofs_spec (σ 1) hP.iip_lt hB (by rw [← hP.nnp]; exact hM.A_shape.2)
  rw [← hP.nnu] at h1 h2
  rw [← hP.nnp] at h3 h4
  refine ⟨{ M with Auu := u, App := p, changed := true },
    by simp only [set, h1, h3, Res.ok_bind], rfl, hP, hM.surj, ⟨h2.1, h4.1⟩, ?_, ?_,
    hM.inv_shape, Or.inl rfl⟩
  · intro a h; cases h; exact h2
  · intro a h; cases h; exact h4

theorem assemble_spec [Field α] {o} (hM : M.Holds c d q o) {K : Ten α} {k : Nat → Nat → Nat → α}
    (hK : Is3 K M.P.V.nelem (M.P.V.nne * M.P.V.ndim) (M.P.V.nne * M.P.V.ndim) k) :
    ∃ M', M.assemble K = .ok M' ∧ M'.P = M.P ∧ M'.Holds c d q (some (diagAssembled M.P.V c d k)) := by
  have hP := hM.base
  have hV := hP.base
  let val : Nat × Nat × Nat → α :=
    fun x => k x.1 (x.2.1 * M.P.V.ndim + x.2.2) (x.2.1 * M.P.V.ndim + x.2.2)
  let pos : Nat × Nat × Nat → Nat := fun x => q (c x.1 x.2.1) x.2.2
  obtain ⟨⟨u, p⟩, h1, h2, h3⟩ := forEach_inv (it3 M.P.V.nelem M.P.V.nne M.P.V.ndim)
    (fun (r : Ten α × Ten α) emi => do
      let n ← M.P.V.conn.get [emi.1, emi.2.1]
      let d ← M.P.part.get [n, emi.2.2]
      let v ← K.get [emi.1, emi.2.1 * M.P.V.ndim + emi.2.2, emi.2.1 * M.P.V.ndim + emi.2.2]
      if d < M.P.nnu then do
        let u ← r.1.addAt [d] v
        .ok (u, r.2)
      else do
        let p ← r.2.addAt [d - M.P.nnu] v
        .ok (r.1, p))
    (fun pre r => Is1 r.1 M.P.nnu (fun a => (pre.map fun x => if pos x = a then val x else 0).sum) ∧
      Is1 r.2 M.P.nnp (fun a => (pre.map fun x => if pos x = M.P.nnu + a then val x else 0).sum))
    (Ten.full M.Auu.shape 0, Ten.full M.App.shape 0)
    ⟨⟨hM.A_shape.1, fun _ _ => by simp [Ten.full]⟩, ⟨hM.A_shape.2, fun _ _ => by simp [Ten.full]⟩⟩
    (by
      rintro pre ⟨e, m, i⟩ post ⟨u, p⟩ hl ⟨hu, hp⟩
      dsimp only at hu hp
      have hx : (e, m, i) ∈ it3 M.P.V.nelem M.P.V.nne M.P.V.ndim := by rw [hl]; simp
      simp only [mem_it3] at hx
      have hc := hV.conn_lt _ _ hx.1 hx.2.1
      have hv := hK.get hx.1 (SMatrix.elem_idx_lt hx.2.1 hx.2.2) (SMatrix.elem_idx_lt hx.2.1 hx.2.2)
      by_cases hq : q (c e m) i < M.P.nnu
      · refine ⟨(⟨u.shape, Function.update u.v [q (c e m) i] (some ((pre.map fun x =>
          if pos x = q (c e m) i then val x else 0).sum + val (e, m, i)))⟩, p), ?_, ⟨hu.1, ?_⟩,
          ⟨hp.1, ?_⟩⟩
        · simp only [hV.conn.get hx.1 hx.2.1, hP.part.get hc hx.2.2, hv, Res.ok_bind, hq, if_true,
            Ten.addAt, hu.get hq, Ten.set, hu.1, inb_cons, inb_nil, decide_true, Bool.and_self]
          rfl
        · intro a ha
          by_cases h : a = q (c e m) i
          · subst h; simp [pos]
          · have h' : ¬ pos (e, m, i) = a := fun e' => h e'.symm
            simp [Function.update_of_ne, h, hu.2 a ha, h']
        · intro a ha
          have h' : ¬ pos (e, m, i) = M.P.nnu + a := by
            simp only [pos]; omega
          simp [hp.2 a ha, h']
      · have hq' : M.P.nnu ≤ q (c e m) i := by omega
        have hlt := hP.p_lt hc hx.2.2 hq'
        refine ⟨(u, ⟨p.shape, Function.update p.v [q (c e m) i - M.P.nnu] (some ((pre.map fun x =>
          if pos x = M.P.nnu + (q (c e m) i - M.P.nnu) then val x else 0).sum + val (e, m, i)))⟩),
          ?_, ⟨hu.1, ?_⟩, ⟨hp.1, ?_⟩⟩
        · simp only [hV.conn.get hx.1 hx.2.1, hP.part.get hc hx.2.2, hv, Res.ok_bind, hq, if_false,
            Ten.addAt, hp.get hlt, Ten.set, hp.1, inb_cons, inb_nil, decide_true, Bool.and_self, hlt,
            if_true]
          rfl
        · intro a ha
          have h' : ¬ pos (e, m, i) = a := by simp only [pos]; omega
          simp [hu.2 a ha, h']
        · intro a ha
          by_cases h : a = q (c e m) i - M.P.nnu
          · subst h
            have h' : pos (e, m, i) = M.P.nnu + (q (c e m) i - M.P.nnu) := by
              simp only [pos]; omega
            simp [h']
          · have h' : ¬ pos (e, m, i) = M.P.nnu + a := by
              simp only [pos]; omega
            simp [Function.update_of_ne, h, hp.2 a ha, h'])
  have key : ∀ (a k' : Nat), (M.P.iiu ++ M.P.iip)[a]? = some k' →
      ((it3 M.P.V.nelem M.P.V.nne M.P.V.ndim).map fun x => if pos x = a then val x else 0).sum =
        diagAssembled M.P.V c d k k' := by
    intro a k' ha
    rw [sum_it3, diagAssembled]
    refine sum_congr rfl fun e he => sum_congr rfl fun m hm => sum_congr rfl fun i hi => ?_
    simp only [mem_range] at he hm hi
    have hc := hV.conn_lt _ _ he hm
    have hpos := hP.pos _ _ hc hi
    refine if_congr ?_ rfl rfl
    constructor
    · intro h
      simp only [pos] at h
      rw [h, ha] at hpos
      exact (Option.some.inj hpos).symm
    · intro h
      rw [h] at hpos
      exact VectorPartitioned.nodup_idx hP.nodup hpos ha
  refine ⟨{ M with Auu := u, App := p, changed := true },
    by simp only [assemble]; rw [h1]; rfl, rfl, hP, hM.surj, ⟨h2.1, h3.1⟩, ?_, ?_,
    hM.inv_shape, Or.inl rfl⟩
  · intro a h; cases h
    refine h2.congr fun a ha => key a _ ?_
    have := hP.nnu
    rw [List.getElem?_append_left (by omega)]
    exact MatrixPartitioned.getElem?_getD (by omega)
  · intro a h; cases h
    refine h3.congr fun a ha => key _ _ ?_
    have := hP.nnu
    have := hP.nnp
    rw [List.getElem?_append_right (by omega)]
    rw [show M.P.nnu + a - M.P.iiu.length = a by omega]
    exact MatrixPartitioned.getElem?_getD (by omega)

theorem factorize_spec [Field α] {a : Nat → α} (hM : M.Holds c d q (some a)) (σ : Sched) :
    ∃ M', M.factorize σ = .ok M' ∧ M'.P = M.P ∧
      Is1 M'.inv_uu M.P.nnu (fun k => 1 / a (M.P.iiu.getD k 0)) ∧ M'.Holds c d q (some a) := by
  rcases hch : M.changed with _ | _
  · refine ⟨M, by simp [factorize, hch], rfl, ?_, hM⟩
    rcases hM.cache with h | ⟨a', h1, h2⟩
    · simp [hch] at h
    · cases h1; exact h2
  · obtain ⟨y, h1, h2⟩ := invLoop_spec σ (hM.Auu a rfl) hM.inv_shape
    exact ⟨{ M with inv_uu := y, changed := false }, by simp [factorize, hch, h1], rfl, h2,
      ⟨hM.base, hM.surj, hM.A_shape, hM.Auu, hM.App, h2.1, Or.inr ⟨a, rfl, h2⟩⟩⟩

/-- the general form of `solve(b, x)`: entries of `x` at prescribed DOFs are not touched, whether they
have a value or not -/
theorem solve_dofval_spec [Field α] {a : Nat → α} (hM : M.Holds c d q (some a)) (σ : Nat → Sched)
    {b x : Ten α} {f : Nat → α} (hb : Is1 b M.P.V.ndof f) (hx : x.shape = [M.P.V.ndof]) :
    ∃ M' y, M.solve_dofval σ b x = .ok (M', y) ∧ M'.P = M.P ∧ M'.Holds c d q (some a) ∧
      y.shape = [M.P.V.ndof] ∧ (∀ k ∈ M.P.iiu, y.v [k] = some (f k / a k)) ∧
      (∀ k, k ∈ M.P.iip → y.v [k] = x.v [k]) := by
  obtain ⟨M', h1, h2, h3, h4⟩ := factorize_spec hM (σ 0)
  have hP := hM.base
  rw [hP.nnu] at h3
  obtain ⟨y, h5, h6, h7, h8⟩ := mulDofs_spec (σ 1) hP.iiu_nodup (fun k hk => hP.iiu_lt hk) h3
    (x := b) (g := f) (fun k hk => hb.get (hP.iiu_lt hk)) hx
  refine ⟨M', y, ?_, h2, h4, h6, ?_, fun k hk => h8 k fun h => ?_⟩
  · simp only [solve_dofval, h1, h2, Res.ok_bind]
    rw [hP.nnu, h5]; rfl
  · intro k hk
    obtain ⟨a', ha'⟩ := List.getElem?_of_mem hk
    have hka : M.P.iiu.getD a' 0 = k := by simp [List.getD, ha']
    rw [h7 a' k ha', hka, div_eq_mul_inv (f k), mul_comm, one_div]
  · exact ((hP.iiu_mem k).1 h).2 hk

theorem solve_nodevec_spec [Field α] {a : Nat → α} (hM : M.Holds c d q (some a)) (σ : Nat → Sched)
    {b x : Ten α} {g : Nat → Nat → α} (hb : Is2 b M.P.V.nnode M.P.V.ndim g)
    (hx : x.shape = [M.P.V.nnode, M.P.V.ndim]) :
    ∃ M' y, M.solve_nodevec σ b x = .ok (M', y) ∧ M'.P = M.P ∧ M'.Holds c d q (some a) ∧
      y.shape = [M.P.V.nnode, M.P.V.ndim] ∧
      (∀ m i, m < M.P.V.nnode → i < M.P.V.ndim → d m i ∉ M.P.iip →
        y.v [m, i] = some (g m i / a (d m i))) ∧
      (∀ m i, m < M.P.V.nnode → i < M.P.V.ndim → d m i ∈ M.P.iip → y.v [m, i] = x.v [m, i]) := by
  obtain ⟨M', h1, h2, h3, h4⟩ := factorize_spec hM (σ 0)
  have hP := hM.base
  obtain ⟨y, h5, h6, h7, h8⟩ := forEach_set
    (((σ 1).run (it2 M.P.V.nnode M.P.V.ndim)).filter fun x => decide (q x.1 x.2 < M.P.nnu))
    (fun (s : Ten α) x => s.set [x.1, x.2] (g x.1 x.2 / a (d x.1 x.2))) (fun x => [x.1, x.2])
    (fun x => g x.1 x.2 / a (d x.1 x.2)) x
    (by
      rintro ⟨m, i⟩ h
      simp only [List.mem_filter, mem_sched, mem_it2] at h
      simp [hx, h.1.1, h.1.2]) (fun _ _ _ _ => rfl)
  refine ⟨M', y, ?_, h2, h4, by rw [h6, hx], ?_, ?_⟩
  · simp only [solve_nodevec, h1, h2, Res.ok_bind]
    rw [forEach_filter _ (fun x => decide (q x.1 x.2 < M.P.nnu)) _
      (fun (s : Ten α) x => s.set [x.1, x.2] (g x.1 x.2 / a (d x.1 x.2))), h5]
    · rfl
    · rintro ⟨m, i⟩ hmi s
      simp only [mem_sched, mem_it2] at hmi
      simp only [hP.part.get hmi.1 hmi.2, Res.ok_bind]
      by_cases hq : q m i < M.P.nnu
      · simp only [hq, if_true, decide_true, h3.get hq, hb.get hmi.1 hmi.2, Res.ok_bind,
          u_getD hP hmi.1 hmi.2 hq]
        congr 1
        rw [div_eq_mul_inv (g m i), mul_comm, one_div]
      · simp [hq]
  · intro m i hm hi hd
    have hq := (hP.u_iff hm hi).2 hd
    obtain ⟨⟨m', i'⟩, h9, h10, h11⟩ := h7 [m, i] ⟨(m, i), by
      simp [List.mem_filter, hm, hi, hq], rfl⟩
    simp only [List.cons.injEq, and_true] at h10
    obtain ⟨rfl, rfl⟩ := h10
    exact h11
  · intro m i hm hi hd
    refine h8 _ ?_
    rintro ⟨m', i'⟩ h e
    simp only [List.cons.injEq, and_true] at e
    obtain ⟨rfl, rfl⟩ := e
    simp only [List.mem_filter, decide_eq_true_eq] at h
    exact (hP.u_iff hm hi).1 h.2 hd

theorem step_spec [Field α] {o o'} (hM : M.Holds c d q o) {op : DiagOp α}
    (h : DiagOpSpec M.P.V c d op o o') :
    ∃ M', M.step op = .ok M' ∧ M'.P = M.P ∧ M'.Holds c d q o' := by
  cases h with
  | assemble hK => exact assemble_spec hM hK
  | set hA => exact set_spec hM _ hA
  | @solve_dofval σ b x a f g hb hx =>
    obtain ⟨M', x, h1, h2, h3, h4⟩ := solve_dofval_spec hM σ hb hx.1
    exact ⟨M', by simp only [step, h1, Res.ok_bind], h2, h3⟩
  | @solve_nodevec σ b x a f g hb hx =>
    obtain ⟨M', x, h1, h2, h3, h4⟩ := solve_nodevec_spec hM σ hb hx.1
    exact ⟨M', by simp only [step, h1, Res.ok_bind], h2, h3⟩

end MatrixDiagonalPartitioned
end GF
