import Verif.Spec.MatrixPartitioned
import Verif.Lemmas.Matrix
import Verif.Lemmas.VectorPartitioned
import Mathlib.Algebra.BigOperators.Group.List.Lemmas

namespace GF
open Finset
variable {α ι : Type}

theorem Res.bind_ok' {β γ : Type} (f : β → γ) (b : β) : (Res.ok b >>= fun x => Res.ok (f x)) = Res.ok (f b) := rfl

theorem forEach_push {S : Type} (l : List ι) (push : S → Trip α → S) (t : ι → Trip α)
    (body : S → ι → Res S) (T0 : S) (h : ∀ x ∈ l, ∀ T, body T x = .ok (push T (t x))) :
    forEach l body T0 = .ok ((l.map t).foldl push T0) := by
  induction l generalizing T0 with
  | nil => rfl
  | cons a l ih =>
    simp only [forEach_cons, List.map_cons, List.foldl_cons]
    rw [h a (by simp) T0]
    exact ih _ (fun x hx => h x (by simp [hx]))

theorem foldl_push {S : Type} (push : S → Trip α → S) (π : S → List (Trip α)) (p : Trip α → Bool)
    (sh : Trip α → Trip α)
    (h : ∀ T t, π (push T t) = π T ++ if p t then [sh t] else []) (ts : List (Trip α)) (T0 : S) :
    π (ts.foldl push T0) = π T0 ++ (ts.filter p).map sh := by
  induction ts generalizing T0 with
  | nil => simp
  | cons t ts ih =>
    rw [List.foldl_cons, ih, h]
    by_cases hp : p t <;> simp [hp]

theorem block_entries [AddCommMonoid α] (p : Trip α → Bool) (sh : Trip α → Trip α)
    (l : List ι) (t : ι → Trip α) (nr nc : Nat)
    (hlt : ∀ x ∈ l, p (t x) = true → (sh (t x)).r < nr ∧ (sh (t x)).c < nc) :
    Mat.setFromTriplets nr nc (((l.map t).filter p).map sh) =
    .ok ⟨nr, nc, fun a b => (l.map fun x => if p (t x) = true ∧ (sh (t x)).r = a ∧ (sh (t x)).c = b
      then (sh (t x)).v else 0).sum⟩ := by
  rw [Mat.setFromTriplets_ok]
  · congr 2
    funext a b
    clear hlt
    induction l with
    | nil => simp
    | cons x l ih =>
      simp only [List.map_cons, List.filter_cons, List.sum_cons]
      rw [← ih]
      by_cases hp : p (t x) = true <;> simp [hp]
  · intro y hy
    simp only [List.mem_map, List.mem_filter] at hy
    obtain ⟨_, ⟨⟨x, hx, rfl⟩, hp⟩, rfl⟩ := hy
    exact hlt x hx hp

theorem sum_congr_mem [AddCommMonoid α] (l : List ι) (f g : ι → α) (h : ∀ x ∈ l, f x = g x) :
    (l.map f).sum = (l.map g).sum := by
  rw [List.map_congr_left h]

theorem idx_iff {l : List Nat} (h : l.Nodup) {a b r s : Nat} (ha : l[a]? = some r)
    (hb : l[b]? = some s) : a = b ↔ r = s :=
  ⟨fun e => by subst e; rw [ha] at hb; exact Option.some.inj hb,
   fun e => by subst e; exact VectorPartitioned.nodup_idx h ha hb⟩

theorem app_left {u p : List Nat} {a r : Nat} (h : u[a]? = some r) :
    a < u.length ∧ (u ++ p)[a]? = some r := by
  have ha := (List.getElem?_eq_some_iff.1 h).1
  exact ⟨ha, by rw [List.getElem?_append_left ha]; exact h⟩

theorem app_right {u p : List Nat} {a r : Nat} (h : p[a]? = some r) :
    (u ++ p)[u.length + a]? = some r := by
  rw [List.getElem?_append_right (by omega)]; simpa using h

theorem app_len {l : List Nat} {a r : Nat} (h : l[a]? = some r) : a < l.length :=
  (List.getElem?_eq_some_iff.1 h).1

/-- Splitting a list of triplets (numbered by position in `iiu ++ iip`) over the four blocks. -/
theorem Trip4.split_spec [AddCommMonoid α] {iiu iip : List Nat} (hn : (iiu ++ iip).Nodup)
    (l : List ι) (t : ι → Trip α) (dr dc : ι → Nat)
    (hr : ∀ x ∈ l, (iiu ++ iip)[(t x).r]? = some (dr x))
    (hc : ∀ x ∈ l, (iiu ++ iip)[(t x).c]? = some (dc x)) :
    ∃ A, ((l.map t).foldl (Trip4.push iiu.length) Trip4.nil).toMat4 iiu.length iip.length = .ok A ∧
      A.Holds iiu iip (fun r s =>
        (l.map fun x => if dr x = r ∧ dc x = s then (t x).v else 0).sum) := by
  have hlr : ∀ x ∈ l, (t x).r < iiu.length + iip.length := fun x hx => by
    simpa using app_len (hr x hx)
  have hlc : ∀ x ∈ l, (t x).c < iiu.length + iip.length := fun x hx => by
    simpa using app_len (hc x hx)
  have e1 := foldl_push (α := α) (Trip4.push iiu.length) Trip4.uu
    (fun t => decide (t.r < iiu.length) && decide (t.c < iiu.length)) id
    (by
      intro T t
      by_cases h1 : t.r < iiu.length <;> by_cases h2 : t.c < iiu.length <;> simp [push, h1, h2]) (l.map t) Trip4.nil
  have e2 := foldl_push (α := α) (Trip4.push iiu.length) Trip4.up
    (fun t => decide (t.r < iiu.length) && !decide (t.c < iiu.length))
    (fun t => ⟨t.r, t.c - iiu.length, t.v⟩)
    (by
      intro T t
      by_cases h1 : t.r < iiu.length <;> by_cases h2 : t.c < iiu.length <;> simp [push, h1, h2]) (l.map t) Trip4.nil
  have e3 := foldl_push (α := α) (Trip4.push iiu.length) Trip4.pu
    (fun t => !decide (t.r < iiu.length) && decide (t.c < iiu.length))
    (fun t => ⟨t.r - iiu.length, t.c, t.v⟩)
    (by
      intro T t
      by_cases h1 : t.r < iiu.length <;> by_cases h2 : t.c < iiu.length <;> simp [push, h1, h2]) (l.map t) Trip4.nil
  have e4 := foldl_push (α := α) (Trip4.push iiu.length) Trip4.pp
    (fun t => !decide (t.r < iiu.length) && !decide (t.c < iiu.length))
    (fun t => ⟨t.r - iiu.length, t.c - iiu.length, t.v⟩)
    (by
      intro T t
      by_cases h1 : t.r < iiu.length <;> by_cases h2 : t.c < iiu.length <;> simp [push, h1, h2]) (l.map t) Trip4.nil
  have f1 := block_entries (fun t : Trip α => decide (t.r < iiu.length) && decide (t.c < iiu.length))
    id l t iiu.length iiu.length (by intro x hx; simp)
  have f2 := block_entries (fun t : Trip α => decide (t.r < iiu.length) && !decide (t.c < iiu.length))
    (fun t => ⟨t.r, t.c - iiu.length, t.v⟩) l t iiu.length iip.length
    (by intro x hx; have := hlc x hx; simp; omega)
  have f3 := block_entries (fun t : Trip α => !decide (t.r < iiu.length) && decide (t.c < iiu.length))
    (fun t => ⟨t.r - iiu.length, t.c, t.v⟩) l t iip.length iiu.length
    (by intro x hx; have := hlr x hx; simp; omega)
  have f4 := block_entries (fun t : Trip α => !decide (t.r < iiu.length) && !decide (t.c < iiu.length))
    (fun t => ⟨t.r - iiu.length, t.c - iiu.length, t.v⟩) l t iip.length iip.length
    (by intro x hx; have := hlr x hx; have := hlc x hx; simp; omega)
  simp only [Trip4.nil, List.nil_append] at e1 e2 e3 e4
  refine ⟨_, by simp only [toMat4, Trip4.nil, e1, e2, e3, e4, f1, f2, f3, f4, Res.ok_bind]; rfl,
    ⟨rfl, rfl⟩, ⟨rfl, rfl⟩, ⟨rfl, rfl⟩, ⟨rfl, rfl⟩, ?_, ?_, ?_, ?_⟩
  all_goals
    intro a b r s ha hb
    refine sum_congr_mem _ _ _ fun x hx => ?_
    refine if_congr ?_ rfl rfl
  · have ha' := app_left (p := iip) ha
    have hb' := app_left (p := iip) hb
    rw [← idx_iff hn (hr x hx) ha'.2, ← idx_iff hn (hc x hx) hb'.2]
    simp; omega
  · have ha' := app_left (p := iip) ha
    have hb' := app_right (u := iiu) hb
    rw [← idx_iff hn (hr x hx) ha'.2, ← idx_iff hn (hc x hx) hb']
    simp; omega
  · have ha' := app_right (u := iiu) ha
    have hb' := app_left (p := iip) hb
    rw [← idx_iff hn (hr x hx) ha', ← idx_iff hn (hc x hx) hb'.2]
    simp; omega
  · have ha' := app_right (u := iiu) ha
    have hb' := app_right (u := iiu) hb
    rw [← idx_iff hn (hr x hx) ha', ← idx_iff hn (hc x hx) hb']
    simp; omega

theorem Mat4.Holds.congr {A : Mat4 α} {iiu iip : List Nat} {D D' : Nat → Nat → α}
    (h : A.Holds iiu iip D) (e : ∀ r s, D r s = D' r s) : A.Holds iiu iip D' := by
  have : D = D' := by funext r s; exact e r s
  exact this ▸ h

theorem vzip_spec [Zero α] (op : α → α → α) {x y : Ten α} {n : Nat} {f g : Nat → α}
    (hx : Is1 x n f) (hy : Is1 y n g) :
    ∃ z, vzip op x y = .ok z ∧ Is1 z n (fun a => op (f a) (g a)) := by
  refine ⟨_, by simp only [vzip, hx.1, hy.1, hx.flat, hy.flat, if_true, Res.ok_bind]; rfl, rfl,
    fun i hi => ?_⟩
  simp [Ten.of, List.getD, hi]

namespace MatrixPartitioned
variable {M : MatrixPartitioned α} {c d q : Nat → Nat → Nat} {D : Nat → Nat → α}

theorem assemble_spec [AddCommMonoid α] (hM : M.Holds c d q D) {K : Ten α} {k : Nat → Nat → Nat → α}
    (hK : Is3 K M.P.V.nelem (M.P.V.nne * M.P.V.ndim) (M.P.V.nne * M.P.V.ndim) k) :
    ∃ A, M.assemble K = .ok { M with A := A, changed := true } ∧
      A.Holds M.P.iiu M.P.iip (SMatrix.assembled M.P.V c d k) := by
  have hP := hM.base
  have hV := hP.base
  obtain ⟨A, h1, h2⟩ := Trip4.split_spec hP.nodup
    (it5 M.P.V.nelem M.P.V.nne M.P.V.ndim M.P.V.nne M.P.V.ndim)
    (fun x => (⟨q (c x.1 x.2.1) x.2.2.1, q (c x.1 x.2.2.2.1) x.2.2.2.2,
        k x.1 (x.2.1 * M.P.V.ndim + x.2.2.1) (x.2.2.2.1 * M.P.V.ndim + x.2.2.2.2)⟩ : Trip α))
    (fun x => d (c x.1 x.2.1) x.2.2.1) (fun x => d (c x.1 x.2.2.2.1) x.2.2.2.2)
    (by
      rintro ⟨e, m, i, n, j⟩ hx
      obtain ⟨he, hm, hi, hn, hj⟩ := mem_it5.1 hx
      exact hP.pos _ _ (hV.conn_lt e m he hm) hi)
    (by
      rintro ⟨e, m, i, n, j⟩ hx
      obtain ⟨he, hm, hi, hn, hj⟩ := mem_it5.1 hx
      exact hP.pos _ _ (hV.conn_lt e n he hn) hj)
  refine ⟨A, ?_, ?_⟩
  · rw [assemble, assembleLoop, forEach_push _ (Trip4.push M.P.nnu)
      (fun x => (⟨q (c x.1 x.2.1) x.2.2.1, q (c x.1 x.2.2.2.1) x.2.2.2.2,
        k x.1 (x.2.1 * M.P.V.ndim + x.2.2.1) (x.2.2.2.1 * M.P.V.ndim + x.2.2.2.2)⟩ : Trip α))]
    · rw [hP.nnu, hP.nnp]
      simp only [Res.ok_bind, h1]
    · rintro ⟨e, m, i, n, j⟩ hx T
      obtain ⟨he, hm, hi, hn, hj⟩ := mem_it5.1 hx
      simp [hV.conn.get he hm, hV.conn.get he hn, hP.part.get (hV.conn_lt e m he hm) hi,
        hP.part.get (hV.conn_lt e n he hn) hj,
        hK.get he (SMatrix.elem_idx_lt hm hi) (SMatrix.elem_idx_lt hn hj)]
  · exact h2.congr fun r s => sum_it5 _ _ _ _ _ _

theorem block_spec [AddCommMonoid α] (hM : M.Holds c d q D) {rows cols : List Nat} {B : Ten α}
    {b : Nat → Nat → α} (hB : Is2 B rows.length cols.length b)
    (hr : ∀ r ∈ rows, r < M.P.V.ndof) (hc : ∀ s ∈ cols, s < M.P.V.ndof) :
    ∃ T A, M.blockLoop rows cols B = .ok T ∧ T.toMat4 M.P.nnu M.P.nnp = .ok A ∧
      A.Holds M.P.iiu M.P.iip (SMatrix.blockEntries rows cols b) := by
  have hP := hM.base
  have : ∃ q1 : Nat → Nat, ∀ k, k < M.P.V.ndof → M.part1d.v [k] = some (q1 k) ∧
    (M.P.iiu ++ M.P.iip)[q1 k]? = some k := by
    refine ⟨fun k => if h : k < M.P.V.ndof then (hM.part1d k h).choose else 0, fun k hk => ?_⟩
    simp only [hk, dif_pos]
    exact (hM.part1d k hk).choose_spec
  obtain ⟨q1, hq1⟩ := this
  have hI : Is1 M.part1d M.P.V.ndof q1 := ⟨hM.part1d_shape, fun k hk => (hq1 k hk).1⟩
  obtain ⟨A, h1, h2⟩ := Trip4.split_spec hP.nodup
    (it2 rows.length cols.length)
    (fun x => (⟨q1 (rows.getD x.1 0), q1 (cols.getD x.2 0), b x.1 x.2⟩ : Trip α))
    (fun x => rows.getD x.1 0) (fun x => cols.getD x.2 0)
    (by
      rintro ⟨i, j⟩ hx
      rw [mem_it2] at hx
      exact (hq1 _ (hr _ (SMatrix.getD_mem hx.1))).2)
    (by
      rintro ⟨i, j⟩ hx
      rw [mem_it2] at hx
      exact (hq1 _ (hc _ (SMatrix.getD_mem hx.2))).2)
  refine ⟨_, A, forEach_push _ (Trip4.push M.P.nnu)
    (fun x => (⟨q1 (rows.getD x.1 0), q1 (cols.getD x.2 0), b x.1 x.2⟩ : Trip α)) _ _ ?_, ?_, ?_⟩
  · rintro ⟨i, j⟩ hx T
    rw [mem_it2] at hx
    have a1 := hI.get (hr _ (SMatrix.getD_mem hx.1))
    have a2 := hI.get (hc _ (SMatrix.getD_mem hx.2))
    simp only [List.getD, List.getElem?_eq_getElem hx.1, List.getElem?_eq_getElem hx.2,
      Option.getD_some] at a1 a2
    simp [lget_ok hx.1, lget_ok hx.2, hB.get hx.1 hx.2, a1, a2, hx.1, hx.2]
  · rw [hP.nnu, hP.nnp]; exact h1
  · exact h2.congr fun r s => sum_it2 _ _ _

theorem set_spec [AddCommMonoid α] (hM : M.Holds c d q D) {rows cols : List Nat} {B : Ten α}
    {b : Nat → Nat → α} (hB : Is2 B rows.length cols.length b)
    (hr : ∀ r ∈ rows, r < M.P.V.ndof) (hc : ∀ s ∈ cols, s < M.P.V.ndof) :
    ∃ A, M.set rows cols B = .ok { M with A := A, changed := true } ∧
      A.Holds M.P.iiu M.P.iip (SMatrix.blockEntries rows cols b) := by
  obtain ⟨T, A, h1, h2, h3⟩ := block_spec hM hB hr hc
  exact ⟨A, by simp [set, h1, h2], h3⟩

theorem add_spec [AddCommMonoid α] (hM : M.Holds c d q D) {rows cols : List Nat} {B : Ten α}
    {b : Nat → Nat → α} (hB : Is2 B rows.length cols.length b)
    (hr : ∀ r ∈ rows, r < M.P.V.ndof) (hc : ∀ s ∈ cols, s < M.P.V.ndof) :
    ∃ A, M.add rows cols B = .ok { M with A := A, changed := true } ∧
      A.Holds M.P.iiu M.P.iip (fun r s => D r s + SMatrix.blockEntries rows cols b r s) := by
  obtain ⟨T, A, h1, h2, h3⟩ := block_spec hM hB hr hc
  have hA := hM.blocks
  refine ⟨⟨M.A.uu.add A.uu, M.A.up.add A.up, M.A.pu.add A.pu, M.A.pp.add A.pp⟩,
    by simp only [add, h1, h2, Res.ok_bind], hA.uu_dim, hA.up_dim, hA.pu_dim, hA.pp_dim,
    ?_, ?_, ?_, ?_⟩
  all_goals intro a b r s ha hb
  · simp only [Mat.add, hA.uu a b r s ha hb, h3.uu a b r s ha hb]
  · simp only [Mat.add, hA.up a b r s ha hb, h3.up a b r s ha hb]
  · simp only [Mat.add, hA.pu a b r s ha hb, h3.pu a b r s ha hb]
  · simp only [Mat.add, hA.pp a b r s ha hb, h3.pp a b r s ha hb]

/-! ### conversions -/

theorem Holds.perm (hM : M.Holds c d q D) :
    (M.P.iiu ++ M.P.iip).Perm (List.range M.P.V.ndof) := by
  have hP := hM.base
  rw [List.perm_ext_iff_of_nodup hP.nodup List.nodup_range]
  intro k
  simp only [List.mem_append, List.mem_range]
  constructor
  · rintro (h | h)
    · exact hP.iiu_lt h
    · exact hP.iip_lt k h
  · intro h
    obtain ⟨m, i, hm, hi, rfl⟩ := hM.surj k h
    by_cases h' : d m i ∈ M.P.iip
    · exact Or.inr h'
    · exact Or.inl ((hP.iiu_mem _).2 ⟨⟨m, i, hm, hi, rfl⟩, h'⟩)

theorem sum_getD [AddCommMonoid α] (l : List Nat) (F : Nat → α) :
    (l.map F).sum = ∑ a ∈ range l.length, F (l.getD a 0) := by
  rw [← sum_map_range]
  congr 1
  apply List.ext_getElem (by simp)
  intro i h1 h2
  simp only [List.length_map, List.length_range] at h1 h2
  simp [List.getD, h1]

theorem Holds.sum_split [AddCommMonoid α] (hM : M.Holds c d q D) (F : Nat → α) :
    ∑ s ∈ range M.P.V.ndof, F s = ∑ a ∈ range M.P.nnu, F (M.P.iiu.getD a 0) +
      ∑ a ∈ range M.P.nnp, F (M.P.iip.getD a 0) := by
  rw [← sum_map_range, hM.base.nnu, hM.base.nnp, ← sum_getD, ← sum_getD, ← List.sum_append,
    ← List.map_append]
  exact (hM.perm.map F).symm.sum_eq

theorem Holds.mem (hM : M.Holds c d q D) {k : Nat} (hk : k < M.P.V.ndof) :
    (∃ a : Nat, M.P.iiu[a]? = some k) ∨ ∃ a : Nat, M.P.iip[a]? = some k := by
  have := hM.perm.mem_iff (a := k)
  simp only [List.mem_append, List.mem_range] at this
  rcases this.2 hk with h | h
  · exact Or.inl (List.mem_iff_getElem?.1 h)
  · exact Or.inr (List.mem_iff_getElem?.1 h)

theorem getElem?_getD {l : List Nat} {a : Nat} (h : a < l.length) : l[a]? = some (l.getD a 0) := by
  simp [List.getD, h]

theorem rowU_spec [NonUnitalNonAssocSemiring α] (hM : M.Holds c d q D) {xu xp : Ten α} {f : Nat → α}
    (hu : Is1 xu M.P.nnu (fun a => f (M.P.iiu.getD a 0)))
    (hp : Is1 xp M.P.nnp (fun a => f (M.P.iip.getD a 0))) :
    ∃ y, M.rowU xu xp = .ok y ∧ Is1 y M.P.nnu (fun a =>
      ∑ s ∈ range M.P.V.ndof, D (M.P.iiu.getD a 0) s * f s) := by
  have hP := hM.base
  have hA := hM.blocks
  obtain ⟨y1, h1, h2⟩ := M.A.uu.mulVec_spec (x := xu) (f := fun a => f (M.P.iiu.getD a 0))
    (by rw [hA.uu_dim.2, ← hP.nnu]; exact hu)
  obtain ⟨y2, h3, h4⟩ := M.A.up.mulVec_spec (x := xp) (f := fun a => f (M.P.iip.getD a 0))
    (by rw [hA.up_dim.2, ← hP.nnp]; exact hp)
  rw [hA.uu_dim.1, hA.uu_dim.2, ← hP.nnu] at h2
  rw [hA.up_dim.1, hA.up_dim.2, ← hP.nnu, ← hP.nnp] at h4
  obtain ⟨z, h5, h6⟩ := vzip_spec (· + ·) h2 h4
  refine ⟨z, by simp only [rowU, h1, h3, Res.ok_bind, h5], h6.congr fun a ha => ?_⟩
  rw [hM.sum_split]
  rw [hP.nnu] at ha
  congr 1
  · refine Finset.sum_congr rfl fun b hb => ?_
    simp only [mem_range, hP.nnu] at hb
    rw [hA.uu a b _ _ (getElem?_getD ha) (getElem?_getD hb)]
  · refine Finset.sum_congr rfl fun b hb => ?_
    simp only [mem_range, hP.nnp] at hb
    rw [hA.up a b _ _ (getElem?_getD ha) (getElem?_getD hb)]

theorem rowP_spec [NonUnitalNonAssocSemiring α] (hM : M.Holds c d q D) {xu xp : Ten α} {f : Nat → α}
    (hu : Is1 xu M.P.nnu (fun a => f (M.P.iiu.getD a 0)))
    (hp : Is1 xp M.P.nnp (fun a => f (M.P.iip.getD a 0))) :
    ∃ y, M.rowP xu xp = .ok y ∧ Is1 y M.P.nnp (fun a =>
      ∑ s ∈ range M.P.V.ndof, D (M.P.iip.getD a 0) s * f s) := by
  have hP := hM.base
  have hA := hM.blocks
  obtain ⟨y1, h1, h2⟩ := M.A.pu.mulVec_spec (x := xu) (f := fun a => f (M.P.iiu.getD a 0))
    (by rw [hA.pu_dim.2, ← hP.nnu]; exact hu)
  obtain ⟨y2, h3, h4⟩ := M.A.pp.mulVec_spec (x := xp) (f := fun a => f (M.P.iip.getD a 0))
    (by rw [hA.pp_dim.2, ← hP.nnp]; exact hp)
  rw [hA.pu_dim.1, hA.pu_dim.2, ← hP.nnu, ← hP.nnp] at h2
  rw [hA.pp_dim.1, hA.pp_dim.2, ← hP.nnp] at h4
  obtain ⟨z, h5, h6⟩ := vzip_spec (· + ·) h2 h4
  refine ⟨z, by simp only [rowP, h1, h3, Res.ok_bind, h5], h6.congr fun a ha => ?_⟩
  rw [hM.sum_split]
  rw [hP.nnp] at ha
  congr 1
  · refine Finset.sum_congr rfl fun b hb => ?_
    simp only [mem_range, hP.nnu] at hb
    rw [hA.pu a b _ _ (getElem?_getD ha) (getElem?_getD hb)]
  · refine Finset.sum_congr rfl fun b hb => ?_
    simp only [mem_range, hP.nnp] at hb
    rw [hA.pp a b _ _ (getElem?_getD ha) (getElem?_getD hb)]

theorem putDofs_spec (σ : Sched) {ii : List Nat} (hn : ii.Nodup) {N : Nat} (hlt : ∀ k ∈ ii, k < N)
    {val ret : Ten α} {f : Nat → α} (hv : Is1 val ii.length f) (hret : ret.shape = [N]) :
    ∃ y, putDofs σ ii ii.length val ret = .ok y ∧ y.shape = [N] ∧
      (∀ a k, ii[a]? = some k → y.v [k] = some (f a)) ∧
      (∀ k, k ∉ ii → y.v [k] = ret.v [k]) := by
  obtain ⟨y, h1, h2, h3, h4⟩ := forEach_set (σ.run (it1 ii.length)) (fun (ret : Ten α) d => do
    let k ← lget ii d
    let a ← val.get [d]
    ret.set [k] a) (fun a => [ii.getD a 0]) f ret
    (by
      intro a ha
      simp only [mem_sched, mem_it1] at ha
      simpa [hret] using hlt _ (SMatrix.getD_mem ha))
    (by
      intro a ha s _
      simp only [mem_sched, mem_it1] at ha
      simp [lget_ok ha, hv.get ha, ha])
  refine ⟨y, h1, by rw [h2, hret], fun a k hk => ?_, fun k hk => h4 [k] ?_⟩
  · have ha := app_len hk
    obtain ⟨b, hb, hp, hval⟩ := h3 [k] ⟨a, by simp [ha], by simp [List.getD, hk]⟩
    simp only [mem_sched, mem_it1] at hb
    have := getElem?_getD hb
    simp only [List.cons.injEq, and_true] at hp
    rw [hp] at this
    rw [hval, VectorPartitioned.nodup_idx hn this hk]
  · intro a ha h
    simp only [mem_sched, mem_it1] at ha
    simp only [List.cons.injEq, and_true] at h
    exact hk (h ▸ SMatrix.getD_mem ha)

theorem asDofs_u_node [Zero α] (hM : M.Holds c d q D) (σ : Sched) {x : Ten α} {g : Nat → Nat → α}
    {f : Nat → α} (hx : Is2 x M.P.V.nnode M.P.V.ndim g)
    (hg : ∀ m i, m < M.P.V.nnode → i < M.P.V.ndim → d m i ∉ M.P.iip → g m i = f (d m i)) :
    ∃ y, M.P.AsDofs_u_nodevec σ x = .ok y ∧ Is1 y M.P.nnu (fun a => f (M.P.iiu.getD a 0)) := by
  have hP := hM.base
  obtain ⟨y, h, h1, h2, h3⟩ := VectorPartitioned.AsDofs_u_nodevec_spec hP σ hx
  refine ⟨y, h1, h2.congr fun a ha => ?_⟩
  obtain ⟨m, i, hm, hi, hq, hv⟩ := h3 a ha
  have h4 := hP.u_get hm hi (by omega)
  rw [hv, hg m i hm hi ((hP.u_iff hm hi).1 (by omega))]
  rw [hq] at h4
  simp [List.getD, h4]

theorem asDofs_p_node [Zero α] (hM : M.Holds c d q D) (σ : Sched) {x : Ten α} {g : Nat → Nat → α}
    {f : Nat → α} (hx : Is2 x M.P.V.nnode M.P.V.ndim g)
    (hg : ∀ m i, m < M.P.V.nnode → i < M.P.V.ndim → d m i ∈ M.P.iip → g m i = f (d m i)) :
    ∃ y, M.P.AsDofs_p_nodevec σ x = .ok y ∧ Is1 y M.P.nnp (fun a => f (M.P.iip.getD a 0)) := by
  have hP := hM.base
  obtain ⟨y, h, h1, h2, h3⟩ := VectorPartitioned.AsDofs_p_nodevec_spec hP σ hx
  refine ⟨y, h1, h2.congr fun a ha => ?_⟩
  have ha' := ha
  rw [hP.nnp] at ha
  obtain ⟨m, i, hm, hi, hd⟩ := hM.surj _ (hP.iip_lt _ (SMatrix.getD_mem ha))
  have hmem : d m i ∈ M.P.iip := hd ▸ SMatrix.getD_mem ha
  have hle : M.P.nnu ≤ q m i := by
    by_contra hlt; exact (hP.u_iff hm hi).1 (by omega) hmem
  have h4 := hP.p_get hm hi hle
  have h5 := VectorPartitioned.nodup_idx hP.iip_nodup h4 (hd ▸ getElem?_getD ha)
  obtain ⟨m', i', hm', hi', hq', hv⟩ := (h3 a ha').1 ⟨m, i, hm, hi, by omega⟩
  have h6 := hP.p_get hm' hi' (by omega)
  have h7 : q m' i' - M.P.nnu = a := by omega
  rw [h7] at h6
  rw [hv, hg m' i' hm' hi' (List.mem_of_getElem? h6)]
  simp [List.getD, h6]

/-- one block of `todense` as a list of writes -/
theorem denseBlock_writes (rows cols : List Nat) (B : Mat α) (hr : B.nr = rows.length)
    (hc : B.nc = cols.length) (ret : Ten α) :
    denseBlock rows cols B ret = forEach ((it2 rows.length cols.length).map fun rc =>
      ((rows.getD rc.1 0, cols.getD rc.2 0), B.e rc.1 rc.2))
      (fun s w => s.set [w.1.1, w.1.2] w.2) ret := by
  have key : ∀ (l : List (Nat × Nat)), (∀ x ∈ l, x.1 < rows.length ∧ x.2 < cols.length) →
      ∀ ret : Ten α, forEach l (fun ret rc => do
        let r ← lget rows rc.1
        let c ← lget cols rc.2
        ret.set [r, c] (B.e rc.1 rc.2)) ret =
      forEach (l.map fun rc => ((rows.getD rc.1 0, cols.getD rc.2 0), B.e rc.1 rc.2))
        (fun s w => s.set [w.1.1, w.1.2] w.2) ret := by
    intro l hl
    induction l with
    | nil => intro ret; rfl
    | cons x l ih =>
      intro ret
      have hx := hl x (by simp)
      simp only [forEach_cons, List.map_cons, lget_ok hx.1, lget_ok hx.2, Res.ok_bind]
      simp only [List.getD, List.getElem?_eq_getElem hx.1, List.getElem?_eq_getElem hx.2,
        Option.getD_some]
      cases ret.set [rows[x.1], cols[x.2]] (B.e x.1 x.2) with
      | ok a => exact ih (fun y hy => hl y (by simp [hy])) a
      | throws => rfl
      | ub => rfl
  rw [denseBlock, hr, hc]
  exact key _ (fun x hx => mem_it2.1 hx) ret

theorem writes2 (ws : List ((Nat × Nat) × α)) (n m : Nat) (ret : Ten α) (hret : ret.shape = [n, m])
    (D : Nat → Nat → α)
    (hin : ∀ w ∈ ws, w.1.1 < n ∧ w.1.2 < m ∧ w.2 = D w.1.1 w.1.2)
    (hcov : ∀ r s, r < n → s < m → ∃ w ∈ ws, w.1 = (r, s)) :
    ∃ y, forEach ws (fun s w => s.set [w.1.1, w.1.2] w.2) ret = .ok y ∧ Is2 y n m D := by
  obtain ⟨y, h1, h2, h3, -⟩ := forEach_set ws (fun s w => s.set [w.1.1, w.1.2] w.2)
    (fun w => [w.1.1, w.1.2]) (fun w => w.2) ret
    (by intro w hw; obtain ⟨a, b, -⟩ := hin w hw; simp [hret, a, b]) (fun _ _ _ _ => rfl)
  refine ⟨y, h1, by rw [h2, hret], fun r s hr hs => ?_⟩
  obtain ⟨w, hw, e⟩ := hcov r s hr hs
  obtain ⟨w', hw', e', hv⟩ := h3 [r, s] ⟨w, hw, by simp [e]⟩
  simp only [List.cons.injEq, and_true] at e'
  rw [hv, (hin w' hw').2.2, e'.1, e'.2]

theorem todense_spec [Zero α] (hM : M.Holds c d q D) :
    ∃ y, M.todense = .ok y ∧ Is2 y M.P.V.ndof M.P.V.ndof D := by
  have hP := hM.base
  have hA := hM.blocks
  obtain ⟨y, h1, h2⟩ := writes2 (α := α)
    (((it2 M.P.iiu.length M.P.iiu.length).map fun rc =>
      ((M.P.iiu.getD rc.1 0, M.P.iiu.getD rc.2 0), M.A.uu.e rc.1 rc.2)) ++
    ((it2 M.P.iiu.length M.P.iip.length).map fun rc =>
      ((M.P.iiu.getD rc.1 0, M.P.iip.getD rc.2 0), M.A.up.e rc.1 rc.2)) ++
    ((it2 M.P.iip.length M.P.iiu.length).map fun rc =>
      ((M.P.iip.getD rc.1 0, M.P.iiu.getD rc.2 0), M.A.pu.e rc.1 rc.2)) ++
    ((it2 M.P.iip.length M.P.iip.length).map fun rc =>
      ((M.P.iip.getD rc.1 0, M.P.iip.getD rc.2 0), M.A.pp.e rc.1 rc.2)))
    M.P.V.ndof M.P.V.ndof (Ten.full [M.P.V.ndof, M.P.V.ndof] 0) rfl D
    (by
      intro w hw
      simp only [List.mem_append, List.mem_map, mem_it2] at hw
      rcases hw with ((⟨x, ⟨a, b⟩, rfl⟩ | ⟨x, ⟨a, b⟩, rfl⟩) | ⟨x, ⟨a, b⟩, rfl⟩) | ⟨x, ⟨a, b⟩, rfl⟩
      · exact ⟨hP.iiu_lt (SMatrix.getD_mem a), hP.iiu_lt (SMatrix.getD_mem b),
          hA.uu _ _ _ _ (getElem?_getD a) (getElem?_getD b)⟩
      · exact ⟨hP.iiu_lt (SMatrix.getD_mem a), hP.iip_lt _ (SMatrix.getD_mem b),
          hA.up _ _ _ _ (getElem?_getD a) (getElem?_getD b)⟩
      · exact ⟨hP.iip_lt _ (SMatrix.getD_mem a), hP.iiu_lt (SMatrix.getD_mem b),
          hA.pu _ _ _ _ (getElem?_getD a) (getElem?_getD b)⟩
      · exact ⟨hP.iip_lt _ (SMatrix.getD_mem a), hP.iip_lt _ (SMatrix.getD_mem b),
          hA.pp _ _ _ _ (getElem?_getD a) (getElem?_getD b)⟩)
    (by
      intro r s hr hs
      simp only [List.mem_append, List.mem_map, mem_it2]
      rcases hM.mem hr with ⟨a, ha⟩ | ⟨a, ha⟩ <;> rcases hM.mem hs with ⟨b, hb⟩ | ⟨b, hb⟩
      · exact ⟨_, Or.inl (Or.inl (Or.inl ⟨(a, b), ⟨app_len ha, app_len hb⟩, rfl⟩)), by simp [List.getD, ha, hb]⟩
      · exact ⟨_, Or.inl (Or.inl (Or.inr ⟨(a, b), ⟨app_len ha, app_len hb⟩, rfl⟩)), by simp [List.getD, ha, hb]⟩
      · exact ⟨_, Or.inl (Or.inr ⟨(a, b), ⟨app_len ha, app_len hb⟩, rfl⟩), by simp [List.getD, ha, hb]⟩
      · exact ⟨_, Or.inr ⟨(a, b), ⟨app_len ha, app_len hb⟩, rfl⟩, by simp [List.getD, ha, hb]⟩)
  refine ⟨y, ?_, h2⟩
  rw [← h1, todense, denseBlock_writes _ _ _ hA.uu_dim.1 hA.uu_dim.2]
  simp only [denseBlock_writes _ _ _ hA.up_dim.1 hA.up_dim.2,
    denseBlock_writes _ _ _ hA.pu_dim.1 hA.pu_dim.2, denseBlock_writes _ _ _ hA.pp_dim.1 hA.pp_dim.2,
    forEach_append, Res.bind_eq_bind]
  generalize forEach _ _ (Ten.full _ _) = r0
  cases r0 with
  | ok a => simp only [Res.ok_bind']; cases forEach _ _ a <;> rfl
  | throws => rfl
  | ub => rfl

theorem solve_ok [Zero α] (S : LinSolver α) {s : SolverState α} {A : Mat α} (hs : s.fact = some A)
    {b : Ten α} {f : Nat → α} (hb : Is1 b A.nr f) :
    ∃ y g, s.solve S b = .ok y ∧ Is1 y A.nc (S.run A g) ∧ ∀ i, i < A.nr → g i = f i := by
  refine ⟨_, fun i => ((List.range A.nr).map f).getD i 0, by
    simp only [SolverState.solve, hs, hb.1, if_true, hb.flat, Res.ok_bind]; rfl, ⟨rfl, fun i hi => rfl⟩, ?_⟩
  intro i hi
  simp [List.getD, hi]

end MatrixPartitioned
end GF
