import Verif.Model.DebugFine
import Verif.Lemmas.Debug
import Verif.Props.FineLayer
import Verif.Props.FineLayerGrid
import Verif.Props.FineLayer2Regular
import Verif.Props.FineLayer3
import Verif.Props.MeshTri3

/-! **C108** The build with assertions: `FineLayer`, its map to a regular mesh, and the orientation of triangles. -/

namespace GF
variable {α : Type}

section
variable [Field α] [LinearOrder α] [IsStrictOrderedRing α]

/-- **C108.** The constructors of the meshes with a fine layer reject a mesh without elements, and nothing else. -/
theorem C108_finelayer (nelx nely nelz : Nat) (h : α) (nfine : Nat) :
    Checked (FineLayer.new_checked nelx nely h nfine) (FineLayer.new nelx nely h nfine) (0 < nelx ∧ 0 < nely)
      (fun M => (IsOk M.coor fun t => ∃ x, Is2 t M.nnode 2 x) ∧ IsOk M.conn fun t => ∃ c, Is2 t M.nelem 4 c) ∧
    Checked (FineLayer3.new_checked nelx nely nelz h nfine) (FineLayer3.new nelx nely nelz h nfine)
      (0 < nelx ∧ 0 < nely ∧ 0 < nelz)
      (fun M => (IsOk M.coor fun t => ∃ x, Is2 t M.nnode 3 x) ∧ IsOk M.conn fun t => ∃ c, Is2 t M.nelem 8 c) := by
  constructor
  · refine Checked.of2 fun h1 h2 => ?_
    obtain ⟨M, n, w, g, r, ct, x, t, c, s, e1, -, -, e2, e3, e4, e5, -⟩ := C36_mesh nelx nely h2 h nfine
    exact ⟨M, e1, ⟨ct, e2, x, e3⟩, ⟨t, e4, c, e5⟩⟩
  · constructor
    · rintro ⟨h1, h2, h3⟩
      refine ⟨?_, ?_⟩
      · simp only [FineLayer3.new_checked, gassert_bind]
        rw [if_pos (show 1 ≤ nelx from h1), if_pos (show 1 ≤ nely from h2), if_pos (show 1 ≤ nelz from h3)]
      · obtain ⟨M, n, wx, wz, g, r, ct, x, t, c, s, e1, -, -, e2, e3, e4, e5, -⟩ := C67_mesh nelx nely nelz h2 h nfine
        exact ⟨M, e1, ⟨ct, e2, x, e3⟩, ⟨t, e4, c, e5⟩⟩
    · intro hn
      simp only [FineLayer3.new_checked, gassert_bind]
      split
      · split
        · split
          · exact absurd ⟨by assumption, by assumption, by assumption⟩ hn
          · rfl
        · rfl
      · rfl

/-- **C108.** `elementsLayer` rejects exactly the layers that do not exist (the build without assertions is undefined for these). -/
theorem C108_elementsLayer (nelx nely : Nat) (hy : 0 < nely) (h : α) (nfine : Nat) :
    ∃ M nlayer, FineLayer.new nelx nely h nfine = .ok M ∧ M.layer_nelx.shape = [nlayer] ∧ ∀ i,
      Checked (M.elementsLayer_checked i) (M.elementsLayer i) (i < nlayer)
        (fun l => ∃ a b, Is1 l b fun k => a + k) ∧ (nlayer ≤ i → M.elementsLayer i = .ub) := by
  obtain ⟨M, n, w, g, r, ct, x, t, c, s, e1, -, e0, e2, e3, e4, e5, -, e6, -⟩ := C36_mesh nelx nely hy h nfine
  have hs : M.layer_nelx.shape = [2 * n - 1] := e0.nelem.1
  refine ⟨M, 2 * n - 1, e1, hs, fun i => ⟨?_, fun hi => ?_⟩⟩
  · have hsz : M.layer_nelx.size = 2 * n - 1 := by simp [Ten.size, hs]
    unfold FineLayer.elementsLayer_checked
    rw [hsz]
    refine Checked.of1 fun hi => ?_
    obtain ⟨l, a, b⟩ := e6 i hi
    exact ⟨l, a, _, _, b⟩
  · unfold FineLayer.elementsLayer
    have : M.layer_nelx.get [i] = .ub := by
      unfold Ten.get
      simp [hs, inb, hi]
    rw [this]
    rfl

/-- a valid range of rows or columns: nothing (meaning all), or two numbers of at most `all` -/
def ValidRange (l : List Nat) (all : Nat) : Prop := l = [] ∨ ∃ a b, l = [a, b] ∧ a ≤ all ∧ b ≤ all

theorem assertRange_bind {β : Type} {l : List Nat} (hl : l.length = 0 ∨ l.length = 2) (all : Nat) (k : Unit → Res β) :
    (ValidRange l all → (FineLayer.assertRange l all >>= k) = k ()) ∧
    (¬ ValidRange l all → (FineLayer.assertRange l all >>= k) = .throws) := by
  rcases l with _ | ⟨a, _ | ⟨b, _ | ⟨c, l⟩⟩⟩
  · exact ⟨fun _ => rfl, fun hn => absurd (Or.inl rfl) hn⟩
  · simp at hl
  · simp only [FineLayer.assertRange, gassert]
    constructor
    · rintro (h | ⟨x, y, h, h1, h2⟩)
      · simp at h
      · simp only [List.cons.injEq, and_true] at h
        obtain ⟨rfl, rfl⟩ := h
        simp [h1, h2, Res.ok_bind]
    · intro hn
      by_cases h1 : a ≤ all
      · have h2 : ¬ b ≤ all := fun h2 => hn (Or.inr ⟨_, _, rfl, h1, h2⟩)
        rw [if_pos h1, if_neg h2]; rfl
      · rw [if_neg h1]; rfl
  · simp at hl

/-- **C108.** `elementgrid_ravel` with assertions rejects exactly the ranges that are not given by two numbers within the mesh (or
left out); for these it is the same as without assertions, and if the ranges are increasing it returns a list of elements. -/
theorem C108_ravel (nelx nely : Nat) (hy : 0 < nely) {h : α} (hh : 0 < h) (nfine : Nat) :
    ∃ M Ny, FineLayer.new nelx nely h nfine = .ok M ∧ M.nely = .ok Ny ∧ M.nelx = .ok nelx ∧ ∀ rows cols,
      (ValidRange rows Ny ∧ ValidRange cols nelx →
        M.elementgrid_ravel_checked rows cols = M.elementgrid_ravel rows cols) ∧
      (¬ (ValidRange rows Ny ∧ ValidRange cols nelx) → M.elementgrid_ravel_checked rows cols = .throws) ∧
      (ValidRange rows Ny ∧ ValidRange cols nelx → rows.Pairwise (· ≤ ·) → cols.Pairwise (· ≤ ·) →
        IsOk (M.elementgrid_ravel rows cols) fun t => ∃ n f, Is1 t n f ∧ ∀ i, i < n → f i < M.nelem) := by
  obtain ⟨M, n, w, g, r, Ny, ct, x, t, c, h1, h2, h3, h4, h5, h6, h7, h8, h9, h10, h11⟩ := FineLayer.meshG nelx nely hy h nfine
  refine ⟨M, Ny, h1, h5, h4, fun rows cols => ⟨?_, ?_, ?_⟩⟩
  · rintro ⟨v1, v2⟩
    have l1 : rows.length = 0 ∨ rows.length = 2 := by
      rcases v1 with rfl | ⟨a, b, rfl, -⟩ <;> simp
    have l2 : cols.length = 0 ∨ cols.length = 2 := by
      rcases v2 with rfl | ⟨a, b, rfl, -⟩ <;> simp
    simp only [FineLayer.elementgrid_ravel_checked, gassert_bind]
    rw [if_pos l1, if_pos l2, h5, Res.ok_bind, (assertRange_bind l1 Ny _).1 v1, h4, Res.ok_bind, (assertRange_bind l2 nelx _).1 v2]
  · intro hn
    simp only [FineLayer.elementgrid_ravel_checked, gassert_bind]
    split
    · rename_i l1
      split
      · rename_i l2
        rw [h5, Res.ok_bind]
        by_cases v1 : ValidRange rows Ny
        · rw [(assertRange_bind l1 Ny _).1 v1, h4, Res.ok_bind, (assertRange_bind l2 nelx _).2 fun v2 => hn ⟨v1, v2⟩]
        · rw [(assertRange_bind l1 Ny _).2 v1]
      · rfl
    · rfl
  · rintro ⟨v1, v2⟩ p1 p2
    obtain ⟨r0, r1, hr, r01, r1N⟩ : ∃ r0 r1, FineLayer.pickRange rows Ny = (r0, r1) ∧ r0 ≤ r1 ∧ r1 ≤ Ny := by
      rcases v1 with rfl | ⟨a, b, rfl, -, hb⟩
      · exact ⟨0, Ny, rfl, by omega, by omega⟩
      · exact ⟨a, b, rfl, by simpa using p1, hb⟩
    obtain ⟨c0, c1, hc, c01, c1N⟩ : ∃ c0 c1, FineLayer.pickRange cols nelx = (c0, c1) ∧ c0 ≤ c1 ∧ c1 ≤ nelx := by
      rcases v2 with rfl | ⟨a, b, rfl, -, hb⟩
      · exact ⟨0, nelx, rfl, by omega, by omega⟩
      · exact ⟨a, b, rfl, by simpa using p2, hb⟩
    by_cases e : r0 = r1
    · refine ⟨Ten.empty [0], ?_, 0, fun _ => 0, ⟨rfl, fun i hi => absurd hi (by omega)⟩, fun i hi => absurd hi (by omega)⟩
      unfold FineLayer.elementgrid_ravel
      rw [h5, Res.ok_bind, h4, Res.ok_bind, hr, hc]
      simp [e]
    · obtain ⟨lo, hi, u, -, q, N, F, a1, a2, -, a4⟩ := FineLayer.ravel_box h3 h2 h5 h4 h6 hh h11 hr hc (by omega) r1N c01 c1N
      exact ⟨q, a1, N, F, a2, fun i hi => ((a4 (F i)).1 ⟨i, hi, rfl⟩).1⟩

/-- **C108.** `mapToRegular` with assertions rejects exactly the data that do not have one entry per element. -/
theorem C108_mapToRegular (nelx nely : Nat) (hy : 0 < nely) {h : α} (hh : 0 < h) (nfine : Nat) :
    ∃ M F, FineLayer.new nelx nely h nfine = .ok M ∧ FineLayer2Regular.new M = .ok F ∧
      ∀ (data : Ten α) n rest, data.shape = n :: rest → Complete data →
        Checked (F.mapToRegular_checked data) (F.mapToRegular data) (n = M.nelem)
          (fun y => y.shape = F.regular.nelem :: rest ∧ Complete y) := by
  obtain ⟨M, F, ct, x, t, c, h1, h2, -, -, -, -, h3⟩ := C65_mapToRegular nelx nely hy hh nfine
  obtain ⟨M', F', -, -, -, -, -, -, -, -, g1, g2, g3, -⟩ := FineLayer2Regular.core nelx nely hy hh nfine
  obtain rfl : M = M' := by rw [h1] at g1; exact Res.ok.inj g1
  obtain rfl : F = F' := by rw [h2] at g2; exact Res.ok.inj g2
  refine ⟨M, F, h1, h2, fun data n rest hs hc => ?_⟩
  have e1 : data.shape.headD 0 = n := by rw [hs]; rfl
  unfold FineLayer2Regular.mapToRegular_checked
  rw [e1, g3]
  refine Checked.of1 fun hn => ?_
  subst hn
  obtain ⟨y, g, y1, y2, y3, -⟩ := h3 data rest (fun ix => (data.v ix).getD 0) hs (fun ix hix => by
    obtain ⟨a, ha⟩ := hc ix hix
    simp [ha])
  exact ⟨y, y1, y2, fun ix hix => ⟨_, y3 ix hix⟩⟩

end

namespace Tri3
variable [CommRing α] [LinearOrder α] [IsStrictOrderedRing α]

/-- **C108.** The orientation functions with assertions reject exactly the arrays of the wrong shape and a target other than -1 and
+1; they do not check the connectivity. -/
theorem C108_getOrientation (coor : Ten α) (conn : Ten Nat) {nnode nd nelem nne : Nat} {x : Nat → Nat → α} {c : Nat → Nat → Nat}
    (hx : Is2 coor nnode nd x) (hc : Is2 conn nelem nne c) (hlt : ∀ e m, e < nelem → m < nne → c e m < nnode) :
    Checked (getOrientation_checked coor conn) (getOrientation coor conn) (nne = 3 ∧ nd = 2) (fun t => ∃ o, Is1 t nelem o) := by
  have e1 : conn.shape.getD 1 0 = nne := by simp [hc.1]
  have e2 : coor.shape.getD 1 0 = nd := by simp [hx.1]
  unfold getOrientation_checked
  rw [e1, e2]
  refine Checked.of2 fun h1 h2 => ?_
  subst h1 h2
  obtain ⟨t, a, b⟩ := getOrientation_spec hx hc hlt
  exact ⟨t, a, _, b⟩

theorem C108_setOrientationVal (coor : Ten α) (conn : Ten Nat) (val : Ten ℤ) (s : ℤ) {nnode nd nelem nne n : Nat}
    {c : Nat → Nat → Nat} {o : Nat → ℤ} (hx : coor.shape = [nnode, nd]) (hc : Is2 conn nelem nne c) (hv : Is1 val n o) :
    Checked (setOrientationVal_checked coor conn val s) (setOrientationVal conn val s)
      ((nne = 3 ∧ nd = 2) ∧ n = nelem ∧ (s = -1 ∨ s = 1))
      (fun t => ∃ c', Is2 t nelem 3 c' ∧ ∀ e, e < nelem → [c' e 0, c' e 1, c' e 2].Perm [c e 0, c e 1, c e 2]) := by
  have e1 : conn.shape.getD 1 0 = nne := by simp [hc.1]
  have e2 : coor.shape.getD 1 0 = nd := by simp [hx]
  have e3 : conn.shape.headD 0 = nelem := by simp [hc.1]
  have e4 : val.size = n := by simp [Ten.size, hv.1]
  constructor
  · rintro ⟨⟨rfl, rfl⟩, rfl, hs⟩
    refine ⟨?_, ?_⟩
    · simp only [setOrientationVal_checked, gassert_bind, e1, e2, e3, e4]
      simp [hs]
    · obtain ⟨t, a, b⟩ := setOrientationVal_spec hc hv s
      refine ⟨t, a, _, b, fun e _ => ?_⟩
      split
      · simpa using List.Perm.swap _ _ _
      · exact List.Perm.refl _
  · intro hn
    simp only [setOrientationVal_checked, gassert_bind, e1, e2, e3, e4]
    split
    · split
      · split
        · split
          · rename_i a b c d
            exact absurd ⟨⟨a, b⟩, c.symm, d⟩ hn
          · rfl
        · rfl
      · rfl
    · rfl

theorem C108_setOrientation (coor : Ten α) (conn : Ten Nat) (s : ℤ) {nnode nd nelem nne : Nat} {x : Nat → Nat → α}
    {c : Nat → Nat → Nat} (hx : Is2 coor nnode nd x) (hc : Is2 conn nelem nne c) (hlt : ∀ e m, e < nelem → m < nne → c e m < nnode) :
    Checked (setOrientation_checked coor conn s) (setOrientation coor conn s)
      ((nne = 3 ∧ nd = 2) ∧ (s = -1 ∨ s = 1))
      (fun t => ∃ c', Is2 t nelem 3 c' ∧ ∀ e, e < nelem → [c' e 0, c' e 1, c' e 2].Perm [c e 0, c e 1, c e 2]) := by
  have e1 : conn.shape.getD 1 0 = nne := by simp [hc.1]
  have e2 : coor.shape.getD 1 0 = nd := by simp [hx.1]
  constructor
  · rintro ⟨⟨rfl, rfl⟩, hs⟩
    obtain ⟨v, a, b⟩ := getOrientation_spec hx hc hlt
    have q := ((C108_getOrientation coor conn hx hc hlt).1 ⟨rfl, rfl⟩).1
    have q2 := (C108_setOrientationVal coor conn v s hx.1 hc b).1 ⟨⟨rfl, rfl⟩, rfl, hs⟩
    refine ⟨?_, ?_⟩
    · simp only [setOrientation_checked, gassert_bind, e1, e2, if_true]
      rw [if_pos hs, q, a, Res.ok_bind, q2.1]
      simp only [setOrientation, a, Res.ok_bind]
    · rw [setOrientation, a, Res.ok_bind]
      exact q2.2
  · intro hn
    simp only [setOrientation_checked, gassert_bind, e1, e2]
    split
    · split
      · split
        · rename_i a b d
          exact absurd ⟨⟨a, b⟩, d⟩ hn
        · rfl
      · rfl
    · rfl

end Tri3

/-- **C108.** A decreasing range of columns passes the assertions of `elementgrid_ravel`, and the number of columns wraps around:
undefined. -/
theorem C108_ravel_not_caught : ∃ M : FineLayer ℚ, FineLayer.new 3 3 1 1 = .ok M ∧
    M.elementgrid_ravel_checked [0, 1] [2, 1] = .ub ∧ M.elementgrid_ravel [0, 1] [2, 1] = .ub :=
  ⟨_, rfl, rfl, rfl⟩

end GF
