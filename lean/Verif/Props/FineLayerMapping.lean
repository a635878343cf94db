import Verif.Lemmas.FineLayerMapping
import Verif.Props.SolverHistory
import Mathlib.Tactic.NormNum
import Mathlib.Algebra.Order.Ring.Rat
import Mathlib.Algebra.Field.Rat

/-! **C64** `Mesh::Quad4::FineLayer(coor, conn)`. -/

namespace GF
open FineLayerSpec Finset FineLayer
variable {α : Type} [Field α] [LinearOrder α] [IsStrictOrderedRing α]

/-- positions of the corners of the elements of the middle layer -/
theorem FineLayer.mid_pos {nelx nmin nfine n : Nat} {w g : Nat → Nat} {r : Nat → Int} {h : α} {nnode nelem : Nat}
    {x : Nat → Nat → α} {c : Nat → Nat → Nat} {s : Nat → Nat} (hH : HalfLayers nelx nmin nfine n w g r)
    (hF : FineMesh nelx n w g r h nnode nelem x c s) {k j : Nat} (hk : k < nelx) (hj : j < 4) :
    x (c (s (n - 1) + k) j) 0 = h * ((k + (Kind.normal.corner 0 j).1 : Nat) : α) ∧
    x (c (s (n - 1) + k) j) 1 = h * ((height (fun k => g (dist n k)) (n - 1) + (Kind.normal.corner 0 j).2 : Nat) : α) := by
  have hp := hH.pos
  have d0 : dist n (n - 1) = 0 := by simp only [FineLayerSpec.dist]; rw [if_pos (by omega)]; omega
  have hk' : kind n r (n - 1) = .normal := by unfold kind; rw [d0, if_pos hH.mid.2.2]
  have := hF.pos (n - 1) k 0 j (by omega) (by rw [d0, hH.mid.1, Nat.div_one]; exact hk) (by rw [hk']; decide) hj
  rw [hk', d0, hH.mid.1] at this
  simpa only [Kind.tiles, Kind.cols, Nat.mul_one, Nat.add_zero, Nat.div_one] using this

/-- two meshes with the same layers have the same coordinates and connectivity -/
theorem FineLayer.same_mesh {nelx nmin nfine n : Nat} {w g : Nat → Nat} {r : Nat → Int} {h : α} (hh : 0 < h)
    {nnode nelem : Nat} {x x' : Nat → Nat → α} {c c' : Nat → Nat → Nat} (hH : HalfLayers nelx nmin nfine n w g r)
    (hn : nnode = height (blkN nelx n (fun i => w (dist n i)) (fun i => r (dist n i))) (2 * n))
    (hx : Placed h nelx n (fun i => w (dist n i)) (fun i => g (dist n i)) (fun i => r (dist n i)) x)
    (hx' : Placed h nelx n (fun i => w (dist n i)) (fun i => g (dist n i)) (fun i => r (dist n i)) x')
    (he : nelem = layS nelx (fun i => w (dist n i)) (fun i => r (dist n i)) (2 * n - 1))
    (hF : FineMesh nelx n w g r h nnode nelem x c (layS nelx (fun i => w (dist n i)) (fun i => r (dist n i))))
    (hF' : FineMesh nelx n w g r h nnode nelem x' c' (layS nelx (fun i => w (dist n i)) (fun i => r (dist n i)))) :
    (∀ m d, m < nnode → d < 2 → x m d = x' m d) ∧ ∀ e j, e < nelem → j < 4 → c e j = c' e j := by
  have hL := layers_of_half hH
  have h1 : ∀ m d, m < nnode → d < 2 → x m d = x' m d := by
    intro m d hm hd
    rw [hn] at hm
    obtain ⟨i, k, a1, a2, rfl⟩ := exists_block hm
    obtain ⟨p1, p2⟩ := hx i k a1 a2
    obtain ⟨q1, q2⟩ := hx' i k a1 a2
    have : d = 0 ∨ d = 1 := by omega
    rcases this with rfl | rfl
    · rw [p1, q1]
    · rw [p2, q2]
  refine ⟨h1, fun e j hej hj => ?_⟩
  obtain ⟨i, b, q, i1, i2, i3, rfl⟩ := elem_coord hL he hej
  have v := hF.valid _ j hej hj
  have v' := hF'.valid _ j hej hj
  have p := hF.pos i b q j i1 i2 i3 hj
  have p' := hF'.pos i b q j i1 i2 i3 hj
  rw [Nat.add_assoc] at p p'
  refine node_inj hL hh.ne' hx (by rw [← hn]; exact v) (by rw [← hn]; exact v') ?_ ?_
  · rw [p.1, h1 _ 0 v' (by omega), p'.1]
  · rw [p.2, h1 _ 1 v' (by omega), p'.2]

theorem FineLayer.new_same {nelx nely n : Nat} (hy : 0 < nely) {w g : Nat → Nat} {r : Nat → Int} {h : α} (hh : 0 < h) {M : FineLayer α}
    (hH : HalfLayers nelx ((nely + 1) / 2) (min (1 / 2 + 1) ((nely + 1) / 2)) n w g r)
    (hM : IsFine M nelx n (fun i => w (dist n i)) (fun i => g (dist n i)) (fun i => r (dist n i)))
    {x : Nat → Nat → α} {c : Nat → Nat → Nat} {Ny : Nat}
    (hNy : Ny = height (fun i => g (dist n i)) (2 * n - 1))
    (e5 : M.nnode = height (blkN nelx n (fun i => w (dist n i)) (fun i => r (dist n i))) (2 * n))
    (hx : Placed h nelx n (fun i => w (dist n i)) (fun i => g (dist n i)) (fun i => r (dist n i)) x)
    (hF : FineMesh nelx n w g r h M.nnode M.nelem x c (layS nelx (fun i => w (dist n i)) (fun i => r (dist n i)))) :
    ∃ M' ct t, FineLayer.new nelx Ny h 1 = .ok M' ∧ M'.h = h ∧
      IsFine M' nelx n (fun i => w (dist n i)) (fun i => g (dist n i)) (fun i => r (dist n i)) ∧
      M'.nnode = M.nnode ∧ M'.nelem = M.nelem ∧ M'.coor = .ok ct ∧ Is2 ct M.nnode 2 x ∧ M'.conn = .ok t ∧ Is2 t M.nelem 4 c := by
  have hp := hH.pos
  have e1 : min (1 / 2 + 1) ((nely + 1) / 2) = 1 := by omega
  rw [e1] at hH
  have hm := height_mirror hp hH.mid.2.1
  have hgn : 0 < height g n := by
    have := height_lt (g := g) (N := n) (fun k hk => half_gpos hH hk) hp le_rfl
    omega
  have hNpos : 0 < Ny := by omega
  have e2 : (Ny + 1) / 2 = height g n := by omega
  obtain ⟨M', n', w', g', r', a1, a2, a3, a4, a5⟩ := new_spec nelx Ny h 1 hNpos
  rw [e2, show min (1 / 2 + 1) (height g n) = 1 by omega] at a4
  obtain ⟨rfl, hu⟩ := layers_unique hH a4
  have a5' := a5.congr' (W' := fun i => w (dist n' i)) (G' := fun i => g (dist n' i)) (R' := fun i => r (dist n' i)) hp
    (fun i hi => by have := hu (dist n' i) (dist_lt hi); exact this)
  obtain ⟨ct', x', t', c', b1, b2, b3, b4, b5, b6, b7⟩ := mesh_of a2 a3 hH a5'
  have en : M'.nnode = M.nnode := by rw [b5, e5]
  have ee : M'.nelem = M.nelem := by rw [a5'.nelem, hM.nelem]
  rw [en, ee] at b7
  rw [en] at b2
  rw [ee] at b4
  obtain ⟨s1, s2⟩ := same_mesh hh hH e5 hx b6 hM.nelem hF b7
  refine ⟨M', ct', t', a1, a2, a5', en, ee, b1, ?_, b3, ?_⟩
  · exact b2.congr fun m d hm hd => (s1 m d hm hd).symm
  · exact b4.congr fun e j hm hd => (s2 e j hm hd).symm

theorem FineLayer.checkMesh_ok {close : α → α → Bool} (hr : ∀ a, close a a = true) {M : FineLayer α} {ct ct' : Ten α} {t t' : Ten Nat}
    {N m : Nat} {x : Nat → Nat → α} {c : Nat → Nat → Nat} (h1 : M.coor = .ok ct) (h2 : Is2 ct m 2 x) (h3 : M.conn = .ok t)
    (h4 : Is2 t N 4 c) (h5 : Is2 ct' m 2 x) (h6 : Is2 t' N 4 c) : checkMesh close M ct' t' = .ok () := by
  unfold checkMesh
  rw [h3, Res.ok_bind, allEqual_ok h4 h6, Res.ok_bind, check, if_pos rfl, Res.ok_bind, h1, Res.ok_bind, allClose_ok hr h2 h5,
    Res.ok_bind, check, if_pos rfl]

theorem FineLayer.sides_ok {coor : Ten α} {conn : Ten Nat} {nnode nelem : Nat} {x : Nat → Nat → α} {c : Nat → Nat → Nat}
    (hx : Is2 coor nnode 2 x) (hc : Is2 conn nelem 4 c) (hv : ∀ e j, e < nelem → j < 4 → c e j < nnode) {es : List Nat}
    (hes : ∀ e ∈ es, e < nelem) {j i d : Nat} (hj : j < 4) (hi : i < 4) (hd : d < 2) {h : α}
    (hval : ∀ e ∈ es, x (c e j) d - x (c e i) d = h) : sides coor conn es j i d = .ok (es.map fun _ => h) := by
  unfold sides
  refine mapRes_ok _ _ _ fun e he => ?_
  have := hes e he
  rw [hc.get this hj, Res.ok_bind, hc.get this hi, Res.ok_bind, hx.get (hv e j this hj) hd, Res.ok_bind,
    hx.get (hv e i this hi) hd, Res.ok_bind, hval e he]

/-- **C64** a mesh (without extra fine layers) is reconstructed from its coordinates and connectivity: the constructor
succeeds and gives the same layers, coordinates and connectivity.  Exception: for a mesh that consists of one layer of
more than one element the connectivity is read out of bounds.  `close` is the comparison `xt::allclose` (a number is close to
itself), `toSize` the conversion to `size_t` (exact for whole numbers). -/
theorem C64_roundtrip (nelx nely : Nat) (hx : 0 < nelx) (hy : 0 < nely) {h : α} (hh : 0 < h) {close : α → α → Bool}
    (hr : ∀ a, close a a = true) {toSize : α → Nat} (hs : ∀ k : Nat, toSize (k : α) = k) :
    ∃ M n w g r ct x t c, FineLayer.new nelx nely h 1 = .ok M ∧ Rows M nelx n w g r ∧
      M.coor = .ok ct ∧ Is2 ct M.nnode 2 x ∧ M.conn = .ok t ∧ Is2 t M.nelem 4 c ∧
      (1 < n ∨ nelx = 1 → ∃ M' ct' t', FineLayer.ofMesh close toSize ct t = .ok M' ∧ M'.h = h ∧ Rows M' nelx n w g r ∧
        M'.nnode = M.nnode ∧ M'.nelem = M.nelem ∧
        M'.coor = .ok ct' ∧ Is2 ct' M.nnode 2 x ∧ M'.conn = .ok t' ∧ Is2 t' M.nelem 4 c) ∧
      (n = 1 → 1 < nelx → FineLayer.ofMesh close toSize ct t = .ub) := by
  obtain ⟨M, n, w, g, r, ct, x, t, c, h1, h2, h3, h4, e1, e2, e3, e4, e5, e6, e7⟩ := FineLayer.mesh nelx nely hy h 1
  have hp := h3.pos
  have hL := layers_of_half h3
  obtain ⟨Ny, hNy⟩ : ∃ Ny, Ny = height (fun i => g (dist n i)) (2 * n - 1) := ⟨_, rfl⟩
  obtain ⟨M', ct', t', n1, n2, n3, n4, n5, n6, n7, n8, n9⟩ := new_same hy hh h3 h4 hNy e5 e6 e7
  have hck := checkMesh_ok hr n6 n7 n8 n9 e2 e4
  obtain ⟨S, hS⟩ : ∃ S, S = layS nelx (fun i => w (dist n i)) (fun i => r (dist n i)) (n - 1) := ⟨_, rfl⟩
  have hN : M.nelem = 2 * S + nelx := by rw [h4.nelem, layS_sym h3, hS]
  have hmid : ∀ k j, k < nelx → j < 4 → _ := fun k j => mid_pos h3 e7 (k := k) (j := j)
  rw [← hS] at hmid
  have hrows : Rows M' nelx n w g r := ⟨n3.nhx, n3.nhy, n3.refine, n3.layer⟩
  -- consecutive elements of the middle layer share an edge
  have hshare : ∀ k, k + 1 < nelx → c (S + (k + 1)) 0 = c (S + k) 1 := by
    intro k hk
    have v0 := e7.valid (S + (k + 1)) 0 (by omega) (by decide)
    have v1 := e7.valid (S + k) 1 (by omega) (by decide)
    rw [e5] at v0 v1
    have p0 := hmid (k + 1) 0 hk (by decide)
    have p1 := hmid k 1 (by omega) (by decide)
    refine node_inj hL hh.ne' e6 v0 v1 ?_ ?_
    · rw [p0.1, p1.1]; rfl
    · rw [p0.2, p1.2]; rfl
  have hshape : t.shape.getD 0 0 = M.nelem := by rw [e4.1]; rfl
  refine ⟨M, n, w, g, r, ct, x, t, c, h1, ⟨h4.nhx, h4.nhy, h4.refine, h4.layer⟩, e1, e2, e3, e4, fun hc => ?_, fun hn hx1 => ?_⟩
  · refine ⟨M', ct', t', ?_, n2, hrows, n4, n5, n6, n7, n8, n9⟩
    unfold ofMesh
    dsimp only
    rw [hshape]
    by_cases hone : M.nelem = 1
    · have hx1 : nelx = 1 := by omega
      subst hx1
      have hS0 : S = 0 := by omega
      have hn1 : n = 1 := by
        by_contra hcc
        have : layS 1 (fun i => w (dist n i)) (fun i => r (dist n i)) (n - 1) ≠ 0 := by
          have : layS 1 (fun i => w (dist n i)) (fun i => r (dist n i)) 0 < layS 1 (fun i => w (dist n i)) (fun i => r (dist n i)) (n - 1) := by
            refine height_lt (N := 2 * n - 1) (fun k hk => ?_) (by omega) (by omega)
            rw [hL.layE_eq hk]
            have := hL.fits k hk
            have hw := hL.wpos k hk
            have h11 : 0 < 1 / w (dist n k) := Nat.div_pos (Nat.le_of_dvd (by decide) this) hw
            have h12 : 0 < (kindR n (fun i => r (dist n i)) k).tiles := by
              cases kindR n (fun i => r (dist n i)) k <;> decide
            exact Nat.mul_pos h11 h12
          omega
        omega
      subst hn1
      have hNy1 : Ny = 1 := by
        rw [hNy]
        simp only [height, Nat.mul_one, Nat.reduceSub, range_one, sum_singleton]
        have d0 : dist 1 0 = 0 := by decide
        rw [d0]; exact h3.mid.2.1
      subst hNy1
      have p0 := hmid 0 0 (by decide) (by decide)
      have p1 := hmid 0 1 (by decide) (by decide)
      rw [hS0] at p0 p1
      have hd : x (c 0 1) 0 - x (c 0 0) 0 = h := by
        rw [p0.1, p1.1]; simp [Kind.corner, Kind.corners]
      rw [if_pos hone, e4.get (by omega) (by decide), Res.ok_bind, e4.get (by omega) (by decide), Res.ok_bind,
        e2.get (e7.valid _ _ (by omega) (by decide)) (by decide), Res.ok_bind,
        e2.get (e7.valid _ _ (by omega) (by decide)) (by decide), Res.ok_bind, hd, n1, Res.ok_bind, hck, Res.ok_bind]
    · have hn : 1 < n := by
        rcases hc with hc | hc
        · exact hc
        · by_contra hcc
          have : n = 1 := by omega
          rw [this] at hS
          simp [layS, height] at hS
          omega
      have hSpos : 0 < S := by
        have : layS nelx (fun i => w (dist n i)) (fun i => r (dist n i)) 0 < layS nelx (fun i => w (dist n i)) (fun i => r (dist n i)) (n - 1) := by
          refine height_lt (N := 2 * n - 1) (fun k hk => ?_) (by omega) (by omega)
          rw [hL.layE_eq hk]
          have hd := hL.fits k hk
          have hw := hL.wpos k hk
          have h11 : 0 < nelx / w (dist n k) := Nat.div_pos (Nat.le_of_dvd hx hd) hw
          have h12 : 0 < (kindR n (fun i => r (dist n i)) k).tiles := by
            cases kindR n (fun i => r (dist n i)) k <;> decide
          exact Nat.mul_pos h11 h12
        omega
      have hemid : (M.nelem - M.nelem % 2) / 2 = S + nelx / 2 := by omega
      have hx2 : nelx / 2 < nelx := by omega
      have hB : ∀ i, i < 2 * n - 1 → 0 < nelx / w (dist n i) := fun i hi =>
        Nat.div_pos (Nat.le_of_dvd hx (hL.fits i hi)) (hL.wpos i hi)
      -- the last element of the layer below
      have hleft : c S 0 ≠ c (S - 1) 1 := by
        intro heq
        have p0 := (hmid 0 0 hx (by decide)).1
        rw [Nat.add_zero, heq] at p0
        have hT : 0 < (kind n r (n - 2)).tiles := by cases kind n r (n - 2) <;> decide
        have hB2 := hB (n - 2) (by omega)
        have hnext := e7.next (n - 2) (by omega)
        rw [show n - 2 + 1 = n - 1 by omega, ← hS] at hnext
        have p1 := (e7.pos (n - 2) (nelx / w (dist n (n - 2)) - 1) ((kind n r (n - 2)).tiles - 1) 1 (by omega) (by omega)
          (by omega) (by decide)).1
        have hidx : layS nelx (fun i => w (dist n i)) (fun i => r (dist n i)) (n - 2) +
            (nelx / w (dist n (n - 2)) - 1) * (kind n r (n - 2)).tiles + ((kind n r (n - 2)).tiles - 1) = S - 1 := by
          obtain ⟨B, hBB⟩ : ∃ B, nelx / w (dist n (n - 2)) = B + 1 := ⟨nelx / w (dist n (n - 2)) - 1, by omega⟩
          rw [hBB] at hnext ⊢
          rw [Nat.add_mul] at hnext
          rw [Nat.add_sub_cancel]
          omega
        rw [hidx, p0] at p1
        have p1 := mul_left_cancel₀ hh.ne' p1
        have p1 : 0 + (Kind.normal.corner 0 0).1 = (nelx / w (dist n (n - 2)) - 1) * w (dist n (n - 2)) +
            ((kind n r (n - 2)).corner ((kind n r (n - 2)).tiles - 1) 1).1 * (w (dist n (n - 2)) / (kind n r (n - 2)).cols) := by
          exact_mod_cast p1
        have hz : 0 + (Kind.normal.corner 0 0).1 = 0 := rfl
        rw [hz] at p1
        have hu : 0 < w (dist n (n - 2)) / (kind n r (n - 2)).cols := by
          exact (unit_spec hL (show n - 2 < 2 * n - 1 by omega)).1
        have hc1 : 0 < ((kind n r (n - 2)).corner ((kind n r (n - 2)).tiles - 1) 1).1 := by
          cases kind n r (n - 2) <;> decide
        have := Nat.mul_pos hc1 hu
        omega
      have hright : c (S + (nelx - 1)) 1 ≠ c (S + (nelx - 1) + 1) 0 := by
        intro heq
        have p0 := (hmid (nelx - 1) 1 (by omega) (by decide)).1
        have p1 := (e7.pos n 0 0 0 (by omega) (hB n (by omega)) (by cases kind n r n <;> decide) (by decide)).1
        have hidx : layS nelx (fun i => w (dist n i)) (fun i => r (dist n i)) n + 0 * (kind n r n).tiles + 0 = S + (nelx - 1) + 1 := by
          rw [layS_mid h3, ← hS]; omega
        rw [hidx, ← heq, p0] at p1
        have p1 := mul_left_cancel₀ hh.ne' p1
        have hc1 : ((kind n r n).corner 0 0).1 = 0 := by cases kind n r n <;> rfl
        rw [hc1] at p1
        have p1 : nelx - 1 + (Kind.normal.corner 0 1).1 = 0 * w (dist n n) + 0 * (w (dist n n) / (kind n r n).cols) := by exact_mod_cast p1
        have hz : (Kind.normal.corner 0 1).1 = 1 := rfl
        rw [hz] at p1
        omega
      -- the height
      have hlast : x (M.nnode - 1) 1 = h * (Ny : α) := by
        have hb : blkN nelx n (fun i => w (dist n i)) (fun i => r (dist n i)) (2 * n - 1) = rowN nelx n (fun i => w (dist n i)) (2 * n - 1) := by
          rw [blkN, if_neg (by omega), Nat.add_zero]
        have hb0 : 0 < rowN nelx n (fun i => w (dist n i)) (2 * n - 1) := Nat.succ_pos _
        have hp2 := (e6 (2 * n - 1) (rowN nelx n (fun i => w (dist n i)) (2 * n - 1) - 1) (by omega) (by rw [hb]; omega)).2
        have hsum : M.nnode = height (blkN nelx n (fun i => w (dist n i)) (fun i => r (dist n i))) (2 * n - 1) +
            rowN nelx n (fun i => w (dist n i)) (2 * n - 1) := by
          rw [e5, show 2 * n = 2 * n - 1 + 1 by omega, height_succ, show 2 * n - 1 + 1 - 1 = 2 * n - 1 by omega, hb]
        rw [← Nat.add_sub_assoc (by omega), ← hsum] at hp2
        rw [hp2, posY, if_pos (by omega), hNy]
      have hfirst : x 0 1 = 0 := by
        have := (e6 0 0 (by omega) (by rw [blkN]; have : 0 < rowN nelx n (fun i => w (dist n i)) 0 := Nat.succ_pos _; omega)).2
        rw [posY, if_pos (show 0 < rowN nelx n (fun i => w (dist n i)) 0 from Nat.succ_pos _)] at this
        simpa [height] using this
      have hnode : 0 < M.nnode := by have := e7.valid 0 0 (by omega) (by decide); omega
      have hsize : toSize ((x (M.nnode - 1) 1 - x 0 1) / h) = Ny := by
        rw [hlast, hfirst, sub_zero, mul_div_cancel_left₀ _ hh.ne', hs]
      have hes : ∀ e, e ∈ itFrom S (S + (nelx - 1) + 1) ↔ ∃ k, k < nelx ∧ e = S + k := by
        intro e
        rw [mem_itFrom, show S + (nelx - 1) + 1 - S = nelx by omega]
      have hne : itFrom S (S + (nelx - 1) + 1) ≠ [] := by
        intro hnil
        have := (hes S).2 ⟨0, hx, rfl⟩
        rw [hnil] at this
        simp at this
      have hdx := sides_ok (h := h) e2 e4 e7.valid (es := itFrom S (S + (nelx - 1) + 1)) (fun e he => by
        obtain ⟨k, hk, rfl⟩ := (hes e).1 he; omega) (j := 1) (i := 0) (d := 0) (by decide) (by decide) (by decide) (fun e he => by
        obtain ⟨k, hk, rfl⟩ := (hes e).1 he
        rw [(hmid k 1 hk (by decide)).1, (hmid k 0 hk (by decide)).1]
        simp [Kind.corner, Kind.corners]; ring)
      have hdy := sides_ok (h := h) e2 e4 e7.valid (es := itFrom S (S + (nelx - 1) + 1)) (fun e he => by
        obtain ⟨k, hk, rfl⟩ := (hes e).1 he; omega) (j := 2) (i := 1) (d := 1) (by decide) (by decide) (by decide) (fun e he => by
        obtain ⟨k, hk, rfl⟩ := (hes e).1 he
        rw [(hmid k 2 hk (by decide)).2, (hmid k 1 hk (by decide)).2]
        simp [Kind.corner, Kind.corners]; ring)
      have hmin : amin ((itFrom S (S + (nelx - 1) + 1)).map fun _ => h) = .ok h :=
        amin_const (by simpa using hne) (by simp)
      have hall : ((itFrom S (S + (nelx - 1) + 1)).map fun _ => h).all (fun a => close a h) = true := by
        rw [List.all_eq_true]
        intro a ha
        obtain ⟨_, _, rfl⟩ := List.mem_map.1 ha
        exact hr _
      have hx0 : x (c S 0) 0 = 0 := by
        have := (hmid 0 0 hx (by decide)).1
        rw [Nat.add_zero] at this
        rw [this]; simp [Kind.corner, Kind.corners]
      have hmidl : ∃ m, M'.elementsMiddleLayer = .ok m ∧ Is1 m nelx (fun k => S + k) := by
        unfold elementsMiddleLayer
        have d0 : dist n (n - 1) = 0 := by simp only [FineLayerSpec.dist]; rw [if_pos (by omega)]; omega
        rw [n3.nhy.size]
        dsimp only
        rw [show (2 * n - 1 - 1) / 2 = n - 1 by omega, n3.startElem.get (by omega), Res.ok_bind, n3.layer.get (by omega), Res.ok_bind,
          d0, h3.mid.1, Nat.div_one, ← hS]
        refine ⟨_, rfl, ?_⟩
        exact (((is1_arange 0 nelx).affine 1 S)).congr fun k _ => by omega
      obtain ⟨m, m1, m2⟩ := hmidl
      have hm2 : Is1 (affine (arange 0 nelx) 1 S) nelx (fun k => S + k) := (((is1_arange 0 nelx).affine 1 S)).congr fun k _ => by omega
      have hcs : ct.shape.getD 0 0 = M.nnode := by rw [e2.1]; rfl
      rw [if_neg hone, hemid, leftEnd_ok e4 _ (by omega) (fun j hj => hshare j (by omega)) ⟨hSpos, hleft⟩, Res.ok_bind,
        rightEnd_ok e4 (E := S + (nelx - 1)) (by omega) hright (nelx - 1 - nelx / 2) M.nelem _ (by omega) (by omega) (fun j hj1 hj2 => by
          have := hshare (j - S) (by omega)
          rw [show S + (j - S + 1) = j + 1 by omega, show S + (j - S) = j by omega] at this
          exact this.symm), Res.ok_bind, e4.get (by omega) (by decide), Res.ok_bind,
        e2.get (e7.valid _ _ (by omega) (by decide)) (by decide), Res.ok_bind, hx0, check, if_pos (hr 0), Res.ok_bind,
        hdx, Res.ok_bind, hdy, Res.ok_bind, hmin, Res.ok_bind, Res.ok_bind, check, if_pos (hr h), Res.ok_bind,
        hall, check, if_pos rfl, Res.ok_bind, Res.ok_bind, hcs, e2.get (by omega) (by decide), Res.ok_bind,
        e2.get hnode (by decide), Res.ok_bind, hsize, show S + (nelx - 1) - S + 1 = nelx by omega, n1, Res.ok_bind, hck, Res.ok_bind,
        m1, Res.ok_bind, allEqual_ok1 m2 hm2, Res.ok_bind, check, if_pos rfl, Res.ok_bind]
  · subst hn
    have hS0 : S = 0 := by rw [hS]; simp [layS, height]
    subst hS0
    unfold ofMesh
    dsimp only
    rw [hshape, if_neg (by omega), leftEnd_ub e4 _ (by omega) (fun j hj => by
      have := hshare j (by omega)
      rwa [Nat.zero_add, Nat.zero_add] at this), Res.ub_bind]

theorem FineLayer.checkMesh_inv {close : α → α → Bool} {M : FineLayer α} {ct : Ten α} {t : Ten Nat}
    (h : checkMesh close M ct t = .ok ()) :
    ∃ ct' t' l m, M.conn = .ok t' ∧ t'.shape = t.shape ∧ t'.flat = t.flat ∧ M.coor = .ok ct' ∧ ct'.shape = ct.shape ∧
      ct'.flat = .ok l ∧ ct.flat = .ok m ∧ ∀ p ∈ l.zip m, close p.1 p.2 = true := by
  unfold checkMesh at h
  obtain ⟨c, h1, h⟩ := Res.bind_eq_ok h
  obtain ⟨b, h2, h⟩ := Res.bind_eq_ok h
  obtain ⟨_, h3, h⟩ := Res.bind_eq_ok h
  obtain ⟨x, h4, h⟩ := Res.bind_eq_ok h
  obtain ⟨b', h5, h⟩ := Res.bind_eq_ok h
  have hb : b = true := by
    unfold check at h3
    cases b <;> simp at h3 ⊢
  have hb' : b' = true := by
    unfold check at h
    cases b' <;> simp at h ⊢
  subst hb hb'
  unfold allEqual at h2
  unfold allClose at h5
  by_cases c1 : c.shape = t.shape
  · by_cases c2 : x.shape = ct.shape
    · rw [if_neg (by simpa using c1)] at h2
      rw [if_neg (by simpa using c2)] at h5
      obtain ⟨l1, a1, h2⟩ := Res.bind_eq_ok h2
      obtain ⟨l2, a2, h2⟩ := Res.bind_eq_ok h2
      obtain ⟨l3, a3, h5⟩ := Res.bind_eq_ok h5
      obtain ⟨l4, a4, h5⟩ := Res.bind_eq_ok h5
      have e1 : l1 = l2 := by simpa using h2
      have e2 := Res.ok.inj h5
      rw [List.all_eq_true] at e2
      exact ⟨x, c, l3, l4, h1, c1, by rw [a1, a2, e1], h4, c2, a3, a4, e2⟩
    · rw [if_pos (by simpa using c2)] at h5
      cases h5
  · rw [if_pos (by simpa using c1)] at h2
    cases h2

/-- **C64** whatever coordinates and connectivity are given: if the constructor returns, the object is that of some
regular call of the other constructor, its connectivity is exactly the given one and its coordinates are close to the
given ones. -/
theorem C64_sound {close : α → α → Bool} {toSize : α → Nat} {coor : Ten α} {conn : Ten Nat} {M : FineLayer α}
    (h : FineLayer.ofMesh close toSize coor conn = .ok M) :
    ∃ nelx nely hM ct t l m, FineLayer.new nelx nely hM 1 = .ok M ∧
      M.conn = .ok t ∧ t.shape = conn.shape ∧ t.flat = conn.flat ∧ M.coor = .ok ct ∧ ct.shape = coor.shape ∧
      ct.flat = .ok l ∧ coor.flat = .ok m ∧ ∀ p ∈ l.zip m, close p.1 p.2 = true := by
  unfold ofMesh at h
  dsimp only at h
  by_cases hc : conn.shape.getD 0 0 = 1
  · rw [if_pos hc] at h
    obtain ⟨_, -, h⟩ := Res.bind_eq_ok h
    obtain ⟨_, -, h⟩ := Res.bind_eq_ok h
    obtain ⟨_, -, h⟩ := Res.bind_eq_ok h
    obtain ⟨_, -, h⟩ := Res.bind_eq_ok h
    obtain ⟨M', h1, h⟩ := Res.bind_eq_ok h
    obtain ⟨_, h2, h⟩ := Res.bind_eq_ok h
    have := Res.ok.inj h
    subst this
    obtain ⟨ct, t, l, m, hh⟩ := checkMesh_inv h2
    exact ⟨_, _, _, ct, t, l, m, h1, hh⟩
  · rw [if_neg hc] at h
    obtain ⟨_, -, h⟩ := Res.bind_eq_ok h
    obtain ⟨_, -, h⟩ := Res.bind_eq_ok h
    obtain ⟨_, -, h⟩ := Res.bind_eq_ok h
    obtain ⟨_, -, h⟩ := Res.bind_eq_ok h
    obtain ⟨_, -, h⟩ := Res.bind_eq_ok h
    obtain ⟨_, -, h⟩ := Res.bind_eq_ok h
    obtain ⟨_, -, h⟩ := Res.bind_eq_ok h
    obtain ⟨_, -, h⟩ := Res.bind_eq_ok h
    obtain ⟨_, -, h⟩ := Res.bind_eq_ok h
    obtain ⟨_, -, h⟩ := Res.bind_eq_ok h
    obtain ⟨_, -, h⟩ := Res.bind_eq_ok h
    obtain ⟨_, -, h⟩ := Res.bind_eq_ok h
    obtain ⟨_, -, h⟩ := Res.bind_eq_ok h
    obtain ⟨_, -, h⟩ := Res.bind_eq_ok h
    obtain ⟨M', h1, h⟩ := Res.bind_eq_ok h
    obtain ⟨_, h2, h⟩ := Res.bind_eq_ok h
    obtain ⟨_, -, h⟩ := Res.bind_eq_ok h
    obtain ⟨_, -, h⟩ := Res.bind_eq_ok h
    obtain ⟨_, -, h⟩ := Res.bind_eq_ok h
    have := Res.ok.inj h
    subst this
    obtain ⟨ct, t, l, m, hh⟩ := checkMesh_inv h2
    exact ⟨_, _, _, ct, t, l, m, h1, hh⟩

/-- **C64** the hypothesis `nfine = 1` matters: a mesh with extra fine layers is not determined by its width and height,
the constructor would build other layers (and then reject the mesh). -/
theorem C64_extra_fine_layers :
    ((FineLayer.new 9 13 (1 : Nat) 9).bind fun M => M.nely.bind fun N => (FineLayer.new 9 N (1 : Nat) 1).bind fun M' =>
      M.nhx.flat.bind fun a => M'.nhx.flat.bind fun b => .ok (N, a, b)) =
    .ok (13, [3, 1, 1, 1, 1, 1, 1, 1, 1, 1, 3], [3, 3, 1, 1, 1, 1, 1, 3, 3]) := by
  decide +kernel

/-- the parameters exist: exact comparison and conversion over the rational numbers -/
example : ∃ M n w g r ct x t c, FineLayer.new 9 13 (1 : ℚ) 1 = .ok M ∧ Rows M 9 n w g r ∧
      M.coor = .ok ct ∧ Is2 ct M.nnode 2 x ∧ M.conn = .ok t ∧ Is2 t M.nelem 4 c ∧
      (1 < n ∨ 9 = 1 → ∃ M' ct' t', FineLayer.ofMesh (fun a b => decide (a = b)) (fun q => (q.num / q.den).toNat) ct t = .ok M' ∧
        M'.h = 1 ∧ Rows M' 9 n w g r ∧ M'.nnode = M.nnode ∧ M'.nelem = M.nelem ∧
        M'.coor = .ok ct' ∧ Is2 ct' M.nnode 2 x ∧ M'.conn = .ok t' ∧ Is2 t' M.nelem 4 c) ∧
      (n = 1 → 1 < 9 → FineLayer.ofMesh (fun a b => decide (a = b)) (fun q => (q.num / q.den).toNat) ct t = .ub) :=
  C64_roundtrip 9 13 (by decide) (by decide) (by norm_num) (by simp) (by simp)

end GF
