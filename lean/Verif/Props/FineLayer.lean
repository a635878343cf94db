import Verif.Lemmas.FineLayerMesh
import Verif.Lemmas.FineLayerTile
import Mathlib.Tactic.Linarith

/-! **C36** `Mesh::Quad4::FineLayer`: a mesh with a fine middle layer that coarsens outwards. -/

namespace GF
open FineLayerSpec Finset FineLayer ElemSpec
variable {α : Type}

/-- the layers as they are returned to the user: `elemrow_nhx()`, `elemrow_nhy()`, `elemrow_type()`,
`elemrow_nelem()` are symmetric about the middle, where `w`, `g`, `r` list the half counted from the middle -/
structure FineLayerSpec.Rows (M : FineLayer α) (nelx n : Nat) (w g : Nat → Nat) (r : Nat → Int) : Prop where
  nhx : Is1 M.nhx (2 * n - 1) (fun i => w (dist n i))
  nhy : Is1 M.nhy (2 * n - 1) (fun i => g (dist n i))
  type : Is1 M.refine (2 * n - 1) (fun i => r (dist n i))
  nelem : Is1 M.layer_nelx (2 * n - 1) (fun i => nelx / w (dist n i))

/-- **C36** the layers.  For every number of columns and rows the constructor succeeds; the layers are
symmetric about the middle; counted from the middle they obey the documented rules (`HalfLayers`): the half
height is at least `(nely + 1) / 2`, the middle `min (nfine / 2 + 1) ((nely + 1) / 2)` layers are fine. -/
theorem C36_layers [Mul α] [NatCast α] (nelx nely : Nat) (hy : 0 < nely) (h : α) (nfine : Nat) :
    ∃ M n w g r, FineLayer.new nelx nely h nfine = .ok M ∧
      HalfLayers nelx ((nely + 1) / 2) (min (nfine / 2 + 1) ((nely + 1) / 2)) n w g r ∧
      Rows M nelx n w g r := by
  obtain ⟨M, n, w, g, r, h1, -, -, h2, h3⟩ := new_spec nelx nely h nfine hy
  exact ⟨M, n, w, g, r, h1, h2, ⟨h3.nhx, h3.nhy, h3.refine, h3.layer⟩⟩

/-- without a row the sizes of the internal arrays underflow -/
theorem C36_zero [Mul α] [NatCast α] (nelx : Nat) (h : α) (nfine : Nat) :
    FineLayer.new nelx 0 h nfine = .ub := by
  have h1 : half nelx 0 nfine = .ok (0, ⟨Ten.full [0] 1, Ten.full [0] 1, Ten.full [0] (-1)⟩) := by
    rw [half]
    simp only [minHeight_eq, fineHeight_eq]
    rw [show min (nfine / 2 + 1) ((0 + 1) / 2) = 0 by omega, grow, if_pos (Or.inl (le_refl _))]
  rw [FineLayer.new, h1, Res.ok_bind]
  rfl

/-- **C36** consequences of the rules: the width of a block only changes by factors three and always divides
the mesh, so that neighbouring rows of blocks match; away from the fine layers no block is wider than its
distance to the middle of the mesh; the height of the mesh exceeds the requested height by less than the size
of an outermost block (on each side). -/
theorem C36_rules {nelx nmin nfine n : Nat} {w g : Nat → Nat} {r : Nat → Int}
    (h : HalfLayers nelx nmin nfine n w g r) :
    (∀ i, i < n → 0 < w i ∧ 0 < g i ∧ w i ∣ nelx) ∧
    (∀ i, i < n → i < nfine → w i = 1 ∧ g i = 1 ∧ r i = -1) ∧
    (∀ i, i + 1 < n → w (i + 1) = w i ∨ w (i + 1) = 3 * w i) ∧
    (∀ i, i < n → (r i = -1 ∧ g i = w i) ∨ (r i = 0 ∧ 3 * g i = 2 * w i)) ∧
    (∀ i, 0 < i → i < n → w i ≤ height g i) ∧
    (n = nfine ∨ height g n < nmin + w (n - 1)) := by
  have hw := fun i (hi : i < n) => HalfLayers.wpos h hi
  have hkind : ∀ i, i < n → (r i = -1 ∧ g i = w i) ∨ (r i = 0 ∧ 3 * g i = 2 * w i) := by
    intro i hi
    cases i with
    | zero => obtain ⟨a, b, c⟩ := h.mid; left; rw [a, b]; exact ⟨c, rfl⟩
    | succ i =>
      have := h.step i hi
      split at this
      · right; omega
      · left; omega
  have hfine : ∀ i, i < n → i < nfine → w i = 1 ∧ g i = 1 ∧ r i = -1 := by
    intro i
    induction i with
    | zero => intro _ _; exact h.mid
    | succ i ih =>
      intro h1 h2
      have h3 := ih (by omega) (by omega)
      have := h.step i h1
      rw [if_neg (by omega)] at this
      omega
  have hstep : ∀ i, i + 1 < n → w (i + 1) = w i ∨ w (i + 1) = 3 * w i := by
    intro i hi
    have := h.step i hi
    split at this <;> omega
  have hdist : ∀ i, i + 1 < n → w (i + 1) ≤ height g (i + 1) := by
    intro i
    induction i with
    | zero =>
      intro hi
      have := h.step 0 hi
      have h0 := h.mid
      have e : height g 1 = 1 := by rw [height_succ, h0.2.1]; simp [height]
      split at this
      · rename_i hc
        simp only [Nat.zero_add] at *
        omega
      · simp only [Nat.zero_add] at *
        omega
    | succ i ih =>
      intro hi
      have h1 := ih (by omega)
      have h2 := h.step (i + 1) hi
      have h3 := height_succ g (i + 1)
      have h4 := hw (i + 1) (by omega)
      split at h2
      · rename_i hc; omega
      · omega
  refine ⟨fun i hi => ⟨hw i hi, ?_, h.fits i hi⟩, hfine, hstep, hkind, fun i hp hi => ?_, ?_⟩
  · have := hkind i hi
    have := hw i hi
    omega
  · obtain ⟨j, rfl⟩ : ∃ j, i = j + 1 := ⟨i - 1, by omega⟩
    exact hdist j hi
  · by_cases hn : n = nfine
    · exact Or.inl hn
    · right
      have hpos := h.pos
      have hf := h.fine
      have h1 := h.minimal (n - 1) (by omega) (by omega)
      have h2 := height_succ g (n - 1)
      rw [Nat.sub_add_cancel hpos] at h2
      have h3 := hkind (n - 1) (by omega)
      have h4 := hw (n - 1) (by omega)
      omega

section
variable [Field α] [CharZero α]

theorem FineLayer.mesh_of {nelx nmin nfine n : Nat} {w g : Nat → Nat} {r : Nat → Int} {M : FineLayer α} {h : α}
    (h2 : M.h = h) (h3 : M.Lx = h * (nelx : α)) (h4 : HalfLayers nelx nmin nfine n w g r)
    (h5 : IsFine M nelx n (fun i => w (dist n i)) (fun i => g (dist n i)) (fun i => r (dist n i))) :
    ∃ ct x t c, M.coor = .ok ct ∧ Is2 ct M.nnode 2 x ∧ M.conn = .ok t ∧ Is2 t M.nelem 4 c ∧
      M.nnode = height (blkN nelx n (fun i => w (dist n i)) (fun i => r (dist n i))) (2 * n) ∧
      Placed h nelx n (fun i => w (dist n i)) (fun i => g (dist n i)) (fun i => r (dist n i)) x ∧
      FineMesh nelx n w g r h M.nnode M.nelem x c (layS nelx (fun i => w (dist n i)) (fun i => r (dist n i))) := by
  have hL := layers_of_half h4
  have hp := hL.npos
  rw [← h2] at h3
  obtain ⟨e1, ct, x, e2, e3, e4⟩ := coor_spec h5 hL h3
  obtain ⟨t, c, e5, e6, e7⟩ := conn_spec h5 hL
  rw [h2] at e4
  have hk : ∀ i, kind n r i = kindR n (fun i => r (dist n i)) i := fun i => rfl
  refine ⟨ct, x, t, c, e2, e3, e5, e6, e1, e4, ⟨rfl, fun i hi => ?_, h5.nelem.symm, ?_, ?_⟩⟩
  · rw [layS_succ, hL.layE_eq hi, hk]
  · intro e j he hj
    rw [h5.nelem] at he
    obtain ⟨i, k, a1, a2, a3⟩ := exists_block he
    have := e7 i k j a1 a2 hj
    rw [a3]
    rw [layS] at this
    rw [this]
    refine lt_of_lt_of_le (elemNode_lt hL a1 a2 hj) ?_
    rw [h5.nnode]
    by_cases hlast : i + 1 = 2 * n - 1
    · rw [hlast]
    · have h8 : rowS nelx n (fun i => w (dist n i)) (fun i => r (dist n i)) (i + 1 + 1) ≤
          rowS nelx n (fun i => w (dist n i)) (fun i => r (dist n i)) (2 * n - 1) := height_mono (by omega)
      rw [rowS_succ] at h8
      omega
  · intro i b q j hi hb hq hj
    rw [hk] at hq ⊢
    have hlt : b * (kindR n (fun i => r (dist n i)) i).tiles + q < layE nelx (fun i => w (dist n i)) (fun i => r (dist n i)) i := by
      rw [hL.layE_eq hi]
      exact grid_lt hb hq
    rw [Nat.add_assoc, e7 i _ j hi hlt hj]
    exact corner_pos hL e4 hi hb hq hj

/-- everything that is known about the mesh -/
theorem FineLayer.mesh (nelx nely : Nat) (hy : 0 < nely) (h : α) (nfine : Nat) :
    ∃ M n w g r ct x t c, FineLayer.new nelx nely h nfine = .ok M ∧ M.h = h ∧
      HalfLayers nelx ((nely + 1) / 2) (min (nfine / 2 + 1) ((nely + 1) / 2)) n w g r ∧
      IsFine M nelx n (fun i => w (dist n i)) (fun i => g (dist n i)) (fun i => r (dist n i)) ∧
      M.coor = .ok ct ∧ Is2 ct M.nnode 2 x ∧ M.conn = .ok t ∧ Is2 t M.nelem 4 c ∧
      M.nnode = height (blkN nelx n (fun i => w (dist n i)) (fun i => r (dist n i))) (2 * n) ∧
      Placed h nelx n (fun i => w (dist n i)) (fun i => g (dist n i)) (fun i => r (dist n i)) x ∧
      FineMesh nelx n w g r h M.nnode M.nelem x c (layS nelx (fun i => w (dist n i)) (fun i => r (dist n i))) := by
  obtain ⟨M, n, w, g, r, h1, h2, h3, h4, h5⟩ := new_spec nelx nely h nfine hy
  obtain ⟨ct, x, t, c, e⟩ := FineLayer.mesh_of h2 h3 h4 h5
  exact ⟨M, n, w, g, r, ct, x, t, c, h1, h2, h4, h5, e⟩

/-- **C36** the mesh.  `coor()` and `conn()` are fully initialised, every entry of `conn()` is a node, and the
elements have the documented shapes at the documented positions, layer by layer (`FineMesh`);
`elementsLayer(i)` lists the elements of layer `i`. -/
theorem C36_mesh (nelx nely : Nat) (hy : 0 < nely) (h : α) (nfine : Nat) :
    ∃ M n w g r ct x t c s, FineLayer.new nelx nely h nfine = .ok M ∧
      HalfLayers nelx ((nely + 1) / 2) (min (nfine / 2 + 1) ((nely + 1) / 2)) n w g r ∧ Rows M nelx n w g r ∧
      M.coor = .ok ct ∧ Is2 ct M.nnode 2 x ∧ M.conn = .ok t ∧ Is2 t M.nelem 4 c ∧
      FineMesh nelx n w g r h M.nnode M.nelem x c s ∧
      (∀ i, i < 2 * n - 1 → IsOk (M.elementsLayer i) fun l => Is1 l (s (i + 1) - s i) (fun k => s i + k)) ∧
      IsOk M.elementsMiddleLayer (fun l => Is1 l nelx (fun k => s (n - 1) + k)) := by
  obtain ⟨M, n, w, g, r, ct, x, t, c, h1, h2, h3, h4, e1, e2, e3, e4, e5, e6, e7⟩ := FineLayer.mesh nelx nely hy h nfine
  have hp := h3.pos
  have hL := layers_of_half h3
  refine ⟨M, n, w, g, r, ct, x, t, c, _, h1, h3, ⟨h4.nhx, h4.nhy, h4.refine, h4.layer⟩, e1, e2, e3, e4, e7, fun i hi => ?_, ?_⟩
  · unfold elementsLayer
    rw [h4.layer.get hi, Res.ok_bind, h4.refine.get hi, Res.ok_bind, h4.startElem.get hi, Res.ok_bind]
    refine ⟨_, rfl, ?_⟩
    have := (is1_arange 0 (if r (dist n i) ≠ -1 then nelx / w (dist n i) * 4 else nelx / w (dist n i))).affine 1
      (layS nelx (fun i => w (dist n i)) (fun i => r (dist n i)) i)
    have hlen : (if r (dist n i) ≠ -1 then nelx / w (dist n i) * 4 else nelx / w (dist n i)) - 0 =
        layS nelx (fun i => w (dist n i)) (fun i => r (dist n i)) (i + 1) -
          layS nelx (fun i => w (dist n i)) (fun i => r (dist n i)) i := by
      rw [layS_succ, layE]
      rcases hL.kind hi with ⟨a, -⟩ | ⟨a, -⟩ | ⟨a, -⟩
      all_goals simp [a]
      all_goals omega
    rw [hlen] at this
    exact this.congr fun k _ => by omega
  · unfold elementsMiddleLayer
    have hsz : M.nhy.size = 2 * n - 1 := h4.nhy.size
    have hmid : (2 * n - 1 - 1) / 2 = n - 1 := by omega
    simp only [hsz, hmid]
    rw [h4.startElem.get (by omega), Res.ok_bind, h4.layer.get (by omega), Res.ok_bind]
    refine ⟨_, rfl, ?_⟩
    have hw : nelx / w (dist n (n - 1)) = nelx := by
      have := hL.mid.1
      rw [this, Nat.div_one]
    rw [hw]
    exact ((is1_arange 0 nelx).affine 1 _).congr fun k _ => by omega


end

section
variable {nelx n : Nat} {W G : Nat → Nat} {R : Nat → Int}

theorem height_lt {g : Nat → Nat} {N i j : Nat} (hg : ∀ k, k < N → 0 < g k) (hij : i < j) (hj : j ≤ N) :
    height g i < height g j := by
  have h1 : height g (i + 1) ≤ height g j := height_mono hij
  rw [height_succ] at h1
  have := hg i (by omega)
  omega

/-- the nodes have distinct positions -/
theorem FineLayer.pos_inj (hL : Layers nelx n W G R) {i k i' k' : Nat} (hi : i < 2 * n) (hi' : i' < 2 * n)
    (hk : k < blkN nelx n W R i) (hk' : k' < blkN nelx n W R i')
    (hx : posX nelx n W i k = posX nelx n W i' k') (hy : posY nelx n W G i k = posY nelx n W G i' k') :
    i = i' ∧ k = k' := by
  have hp := hL.npos
  have low : ∀ i k, height G i ≤ posY nelx n W G i k := by
    intro i k; rw [posY]; split <;> omega
  have up : ∀ i k, i < 2 * n - 1 → posY nelx n W G i k < height G (i + 1) := by
    intro i k hi
    have := hL.gpos i hi
    rw [posY, height_succ]; split <;> omega
  have hne : ∀ i k i' k', i < i' → i' < 2 * n → posY nelx n W G i k ≠ posY nelx n W G i' k' := by
    intro i k i' k' h1 h2 he
    have h3 := up i k (by omega)
    have h4 := low i' k'
    have h5 : height G (i + 1) ≤ height G i' := height_mono h1
    omega
  have hii : i = i' := by
    rcases Nat.lt_trichotomy i i' with h | h | h
    · exact absurd hy (hne _ _ _ _ h hi')
    · exact h
    · exact absurd hy.symm (hne _ _ _ _ h hi)
  subst hii
  refine ⟨rfl, ?_⟩
  rw [posX, posX] at hx
  rw [posY, posY] at hy
  have hw := hL.rowW_pos hi
  have mid : ∀ k, ¬ k < rowN nelx n W i → k < blkN nelx n W R i → i < 2 * n - 1 ∧ R i = 0 ∧ 0 < G i / 2 ∧ 0 < W i / 3 ∧
      W i = 3 * (W i / 3) := by
    intro k h1 h2
    rw [blkN] at h2
    by_cases h3 : i < 2 * n - 1
    · rw [if_pos h3, midN] at h2
      by_cases h4 : R i = 0
      · have h5 := hL.rowW_pos (show i + 1 < 2 * n by omega)
        rcases hL.kind h3 with ⟨a, -⟩ | ⟨a, b0, -, a2, a3⟩ | ⟨a, b0, -, a2, a3⟩
        · omega
        · exact ⟨h3, h4, by omega, by omega, by omega⟩
        · exact ⟨h3, h4, by omega, by omega, by omega⟩
      · rw [if_neg h4] at h2; omega
    · rw [if_neg h3] at h2; omega
  by_cases c1 : k < rowN nelx n W i
  · rw [if_pos c1] at hx hy
    by_cases c2 : k' < rowN nelx n W i
    · rw [if_pos c2] at hx
      exact Nat.eq_of_mul_eq_mul_right hw hx
    · rw [if_neg c2] at hy
      have := mid k' c2 hk'
      omega
  · rw [if_neg c1] at hx hy
    have h1 := mid k c1 hk
    by_cases c2 : k' < rowN nelx n W i
    · rw [if_pos c2] at hy
      omega
    · rw [if_neg c2] at hx
      obtain ⟨-, -, -, h2, h3⟩ := h1
      generalize W i / 3 = u at h2 h3 hx
      rw [h3] at hx
      generalize hm : k - rowN nelx n W i = m at hx
      generalize hm' : k' - rowN nelx n W i = m' at hx
      have e : (3 * (m / 2) + (m % 2 + 1)) * u = (3 * (m' / 2) + (m' % 2 + 1)) * u := by
        calc _ = m / 2 * (3 * u) + (m % 2 + 1) * u := by ring
          _ = _ := hx
          _ = _ := by ring
      have := Nat.eq_of_mul_eq_mul_right h2 e
      omega

end

section
variable [Field α] [CharZero α]

theorem FineLayer.node_inj {nelx n : Nat} {W G : Nat → Nat} {R : Nat → Int} (hL : Layers nelx n W G R) {h : α}
    (hh : h ≠ 0) {x : Nat → Nat → α} (hx : Placed h nelx n W G R x) {m m' : Nat}
    (hm : m < height (blkN nelx n W R) (2 * n)) (hm' : m' < height (blkN nelx n W R) (2 * n))
    (h0 : x m 0 = x m' 0) (h1 : x m 1 = x m' 1) : m = m' := by
  obtain ⟨i, k, a1, a2, rfl⟩ := exists_block hm
  obtain ⟨i', k', b1, b2, rfl⟩ := exists_block hm'
  rw [(hx i k a1 a2).1, (hx i' k' b1 b2).1] at h0
  rw [(hx i k a1 a2).2, (hx i' k' b1 b2).2] at h1
  have e0 := mul_left_cancel₀ hh h0
  have e1 := mul_left_cancel₀ hh h1
  obtain ⟨rfl, rfl⟩ := pos_inj hL a1 b1 a2 b2 (by exact_mod_cast e0) (by exact_mod_cast e1)
  rfl

/-- **C36** distinct nodes have distinct positions -/
theorem C36_distinct (nelx nely : Nat) (hy : 0 < nely) (h : α) (hh : h ≠ 0) (nfine : Nat) :
    ∃ M ct x, FineLayer.new nelx nely h nfine = .ok M ∧ M.coor = .ok ct ∧ Is2 ct M.nnode 2 x ∧
      ∀ m m', m < M.nnode → m' < M.nnode → x m 0 = x m' 0 → x m 1 = x m' 1 → m = m' := by
  obtain ⟨M, n, w, g, r, ct, x, t, c, h1, h2, h3, h4, e1, e2, e3, e4, e5, e6, e7⟩ := FineLayer.mesh nelx nely hy h nfine
  refine ⟨M, ct, x, h1, e1, e2, fun m m' hm hm' h0 h1 => ?_⟩
  rw [e5] at hm hm'
  exact node_inj (layers_of_half h3) hh e6 hm hm' h0 h1

end

section
variable [Field α] [LinearOrder α] [IsStrictOrderedRing α]

theorem exists_between {f : Nat → α} {m : Nat} (hm : 0 < m) {p : α} (h0 : f 0 ≤ p) (h1 : p ≤ f m) :
    ∃ i, i < m ∧ f i ≤ p ∧ p ≤ f (i + 1) := by
  induction m with
  | zero => omega
  | succ m ih =>
    by_cases hc : p ≤ f m
    · rcases Nat.eq_zero_or_pos m with rfl | hp
      · exact ⟨0, by omega, h0, h1⟩
      · obtain ⟨i, a, b⟩ := ih hp hc
        exact ⟨i, by omega, b⟩
    · exact ⟨m, by omega, (not_le.1 hc).le, h1⟩

/-- the unit of length of layer `i`, and the size of its blocks in these units -/
theorem FineLayer.unit_spec {nelx n : Nat} {W G : Nat → Nat} {R : Nat → Int} (hL : Layers nelx n W G R) {i : Nat}
    (hi : i < 2 * n - 1) :
    0 < W i / (kindR n R i).cols ∧ W i = W i / (kindR n R i).cols * (kindR n R i).cols ∧
      G i = W i / (kindR n R i).cols * (kindR n R i).rows := by
  have h5 := hL.wpos i hi
  rcases hL.kind hi with ⟨a, -, -, a3⟩ | ⟨a, b0, -, a2, a3⟩ | ⟨a, b0, -, a2, a3⟩
  · have hk : kindR n R i = .normal := by rw [kindR, if_pos a]
    rw [hk]; simp [Kind.cols, Kind.rows, h5, a3]
  · have hk : kindR n R i = .below := by rw [kindR, if_neg (by omega), if_pos (by omega)]
    rw [hk]; simp only [Kind.cols, Kind.rows]; omega
  · have hk : kindR n R i = .above := by rw [kindR, if_neg (by omega), if_neg (by omega)]
    rw [hk]; simp only [Kind.cols, Kind.rows]; omega

/-- element `q` of block `b` of layer `i` in local coordinates -/
theorem FineLayer.local_pos {nelx n nnode nelem : Nat} {w g : Nat → Nat} {r : Nat → Int} {h : α}
    {x : Nat → Nat → α} {c : Nat → Nat → Nat} {s : Nat → Nat}
    (hF : FineMesh nelx n w g r h nnode nelem x c s)
    {i b q : Nat} (hi : i < 2 * n - 1) (hb : b < nelx / w (dist n i)) (hq : q < (kind n r i).tiles) :
    ∀ j, j < 4 → (fun j => x (c (s i + b * (kind n r i).tiles + q) j)) j 0 =
        h * ((b * w (dist n i) : Nat) : α) +
          h * ((w (dist n i) / (kind n r i).cols : Nat) : α) * (((kind n r i).corner q j).1 : α) ∧
      (fun j => x (c (s i + b * (kind n r i).tiles + q) j)) j 1 =
        h * ((height (fun k => g (dist n k)) i : Nat) : α) +
          h * ((w (dist n i) / (kind n r i).cols : Nat) : α) * (((kind n r i).corner q j).2 : α) := by
  intro j hj
  obtain ⟨a, b⟩ := hF.pos i b q j hi hb hq hj
  beta_reduce
  rw [a, b]
  push_cast
  constructor <;> ring

/-- every element is an element of a block of a layer -/
theorem FineLayer.elem_split {nelx n nnode nelem : Nat} {w g : Nat → Nat} {r : Nat → Int} {h : α}
    {x : Nat → Nat → α} {c : Nat → Nat → Nat} {s : Nat → Nat}
    (hF : FineMesh nelx n w g r h nnode nelem x c s) {e : Nat} (he : e < nelem) :
    ∃ i b q, i < 2 * n - 1 ∧ b < nelx / w (dist n i) ∧ q < (kind n r i).tiles ∧
      e = s i + b * (kind n r i).tiles + q := by
  have : ∀ m, m ≤ 2 * n - 1 → e < s m → ∃ i k, i < m ∧ k < nelx / w (dist n i) * (kind n r i).tiles ∧ e = s i + k := by
    intro m
    induction m with
    | zero => intro _ h; rw [hF.first] at h; omega
    | succ m ih =>
      intro hm h
      by_cases hc : e < s m
      · obtain ⟨i, k, h1, h2⟩ := ih (by omega) hc
        exact ⟨i, k, by omega, h2⟩
      · rw [hF.next m (by omega)] at h
        exact ⟨m, e - s m, by omega, by omega, by omega⟩
  obtain ⟨i, k, h1, h2, h3⟩ := this (2 * n - 1) (le_refl _) (by rw [hF.last]; exact he)
  obtain ⟨b, q, h4, h5, rfl⟩ := grid_exists h2
  exact ⟨i, b, q, h1, h4, h5, by omega⟩

theorem FineLayer.elem_lt {nelx n nnode nelem : Nat} {w g : Nat → Nat} {r : Nat → Int} {h : α}
    {x : Nat → Nat → α} {c : Nat → Nat → Nat} {s : Nat → Nat}
    (hF : FineMesh nelx n w g r h nnode nelem x c s) {i b q : Nat} (hi : i < 2 * n - 1)
    (hb : b < nelx / w (dist n i)) (hq : q < (kind n r i).tiles) :
    s i + b * (kind n r i).tiles + q < nelem := by
  have h1 : ∀ d, i + 1 + d ≤ 2 * n - 1 → s (i + 1) ≤ s (i + 1 + d) := by
    intro d
    induction d with
    | zero => intro _; exact le_refl _
    | succ d ih =>
      intro hd
      have := hF.next (i + 1 + d) (by omega)
      rw [← Nat.add_assoc, this]
      exact (ih (by omega)).trans (Nat.le_add_right _ _)
  have h2 := h1 (2 * n - 1 - (i + 1)) (by omega)
  rw [show i + 1 + (2 * n - 1 - (i + 1)) = 2 * n - 1 by omega, hF.last, hF.next i hi] at h2
  have := grid_lt hb hq
  omega

/-- **C36** (shape) every element is a strictly convex quadrilateral, its corners are listed counter-clockwise -/
theorem C36_convex (nelx nely : Nat) (hy : 0 < nely) (h : α) (hh : 0 < h) (nfine : Nat) :
    ∃ M ct x t c, FineLayer.new nelx nely h nfine = .ok M ∧ M.coor = .ok ct ∧ Is2 ct M.nnode 2 x ∧
      M.conn = .ok t ∧ Is2 t M.nelem 4 c ∧
      ∀ e, e < M.nelem → Convex4 (fun j => x (c e j)) := by
  obtain ⟨M, n, w, g, r, ct, x, t, c, h1, h2, h3, h4, e1, e2, e3, e4, e5, e6, hF⟩ := FineLayer.mesh nelx nely hy h nfine
  have hL := layers_of_half h3
  refine ⟨M, ct, x, t, c, h1, e1, e2, e3, e4, fun e he => ?_⟩
  obtain ⟨i, b, q, hi, hb, hq, rfl⟩ := elem_split hF he
  have hX := local_pos hF hi hb hq
  obtain ⟨u1, -, -⟩ := unit_spec hL hi
  have hk : kind n r i = kindR n (fun i => r (dist n i)) i := rfl
  rw [← hk] at u1
  have ha : 0 < h * ((w (dist n i) / (kind n r i).cols : Nat) : α) := mul_pos hh (by exact_mod_cast u1)
  exact convex_local hq ha hX

/-- **C36** (tiling) the elements tile the rectangle of width `h * nelx` and height `h` times the height of the
layers: every point is in an element, and a point strictly inside an element is in no other element. -/
theorem C36_tiling (nelx nely : Nat) (hx : 0 < nelx) (hy : 0 < nely) (h : α) (hh : 0 < h) (nfine : Nat) :
    ∃ M n w g r ct x t c, FineLayer.new nelx nely h nfine = .ok M ∧ Rows M nelx n w g r ∧
      M.coor = .ok ct ∧ Is2 ct M.nnode 2 x ∧ M.conn = .ok t ∧ Is2 t M.nelem 4 c ∧
      (∀ p : Nat → α, (∃ e, e < M.nelem ∧ InQuad (fun j => x (c e j)) p) ↔
        0 ≤ p 0 ∧ p 0 ≤ h * (nelx : α) ∧ 0 ≤ p 1 ∧
          p 1 ≤ h * ((height (fun i => g (dist n i)) (2 * n - 1) : Nat) : α)) ∧
      (∀ (p : Nat → α) e e', e < M.nelem → e' < M.nelem → InsideQuad (fun j => x (c e j)) p →
        InQuad (fun j => x (c e' j)) p → e = e') := by
  obtain ⟨M, n, w, g, r, ct, x, t, c, h1, h2, h3, h4, e1, e2, e3, e4, e5, e6, hF⟩ := FineLayer.mesh nelx nely hy h nfine
  have hL := layers_of_half h3
  have hp := hL.npos
  have hk : ∀ i, kind n r i = kindR n (fun i => r (dist n i)) i := fun i => rfl
  have unit : ∀ i, i < 2 * n - 1 → 0 < h * ((w (dist n i) / (kind n r i).cols : Nat) : α) ∧
      h * ((w (dist n i) : Nat) : α) = h * ((w (dist n i) / (kind n r i).cols : Nat) : α) * ((kind n r i).cols : α) ∧
      h * ((g (dist n i) : Nat) : α) = h * ((w (dist n i) / (kind n r i).cols : Nat) : α) * ((kind n r i).rows : α) := by
    intro i hi
    obtain ⟨u1, u2, u3⟩ := unit_spec hL hi
    rw [← hk] at u1 u2 u3
    refine ⟨mul_pos hh (by exact_mod_cast u1), ?_, ?_⟩
    · rw [mul_assoc]; congr 1; exact_mod_cast u2
    · rw [mul_assoc]; congr 1; exact_mod_cast u3
  have hG : ∀ i, height (fun k => g (dist n k)) (i + 1) = height (fun k => g (dist n k)) i + g (dist n i) :=
    fun i => height_succ _ i
  have mono : ∀ {a b : Nat}, a ≤ b → h * (a : α) ≤ h * (b : α) := fun hab =>
    mul_le_mul_of_nonneg_left (by exact_mod_cast hab) hh.le
  -- an element is in its block
  have box : ∀ (p : Nat → α) i b q, i < 2 * n - 1 → b < nelx / w (dist n i) → q < (kind n r i).tiles →
      InQuad (fun j => x (c (layS nelx (fun i => w (dist n i)) (fun i => r (dist n i)) i + b * (kind n r i).tiles + q) j)) p →
      h * ((b * w (dist n i) : Nat) : α) ≤ p 0 ∧ p 0 ≤ h * (((b + 1) * w (dist n i) : Nat) : α) ∧
      h * ((height (fun k => g (dist n k)) i : Nat) : α) ≤ p 1 ∧
      p 1 ≤ h * ((height (fun k => g (dist n k)) (i + 1) : Nat) : α) := by
    intro p i b q hi hb hq hin
    obtain ⟨u1, u2, u3⟩ := unit i hi
    rw [inQuad_iff u1 (local_pos hF hi hb hq)] at hin
    obtain ⟨b1, b2, b3, b4⟩ := edge_box hq u1 hin
    rw [← u2] at b2
    rw [← u3] at b4
    rw [hG]
    push_cast at *
    refine ⟨by linarith, by linarith, by linarith, by linarith⟩
  have sbox : ∀ (p : Nat → α) i b q, i < 2 * n - 1 → b < nelx / w (dist n i) → q < (kind n r i).tiles →
      InsideQuad (fun j => x (c (layS nelx (fun i => w (dist n i)) (fun i => r (dist n i)) i + b * (kind n r i).tiles + q) j)) p →
      h * ((b * w (dist n i) : Nat) : α) < p 0 ∧ p 0 < h * (((b + 1) * w (dist n i) : Nat) : α) ∧
      h * ((height (fun k => g (dist n k)) i : Nat) : α) < p 1 ∧
      p 1 < h * ((height (fun k => g (dist n k)) (i + 1) : Nat) : α) := by
    intro p i b q hi hb hq hin
    obtain ⟨u1, u2, u3⟩ := unit i hi
    rw [insideQuad_iff u1 (local_pos hF hi hb hq)] at hin
    obtain ⟨b1, b2, b3, b4⟩ := edge_box_strict hq u1 hin
    rw [← u2] at b2
    rw [← u3] at b4
    rw [hG]
    push_cast at *
    refine ⟨by linarith, by linarith, by linarith, by linarith⟩
  refine ⟨M, n, w, g, r, ct, x, t, c, h1, ⟨h4.nhx, h4.nhy, h4.refine, h4.layer⟩, e1, e2, e3, e4, fun p => ⟨?_, ?_⟩, ?_⟩
  · rintro ⟨e, he, hin⟩
    obtain ⟨i, b, q, hi, hb, hq, rfl⟩ := elem_split hF he
    obtain ⟨b1, b2, b3, b4⟩ := box p i b q hi hb hq hin
    have f1 := mul_nonneg hh.le (Nat.cast_nonneg (α := α) (b * w (dist n i)))
    have f2 := mul_nonneg hh.le (Nat.cast_nonneg (α := α) (height (fun k => g (dist n k)) i))
    have f3 : (b + 1) * w (dist n i) ≤ nelx := by
      calc (b + 1) * w (dist n i) ≤ nelx / w (dist n i) * w (dist n i) := Nat.mul_le_mul_right _ hb
        _ = nelx := hL.nelx_eq hi
    refine ⟨by linarith, b2.trans (mono f3), by linarith, b4.trans (mono (height_mono (by omega)))⟩
  · rintro ⟨p1, p2, p3, p4⟩
    obtain ⟨i, hi, q1, q2⟩ := exists_between (f := fun i => h * ((height (fun k => g (dist n k)) i : Nat) : α))
      (show 0 < 2 * n - 1 by omega) (by simpa [height] using p3) p4
    have hm : 0 < nelx / w (dist n i) := by
      have := hL.nelx_eq hi
      rcases Nat.eq_zero_or_pos (nelx / w (dist n i)) with h0 | h0
      · rw [h0] at this; omega
      · exact h0
    obtain ⟨b, hb, q3, q4⟩ := exists_between (f := fun b => h * ((b * w (dist n i) : Nat) : α)) hm (by simpa using p1)
      (by rw [show nelx / w (dist n i) * w (dist n i) = nelx from hL.nelx_eq hi]; exact p2)
    obtain ⟨u1, u2, u3⟩ := unit i hi
    obtain ⟨q, hq, hin⟩ := edge_cover (kind n r i) u1 (P := p 0 - h * ((b * w (dist n i) : Nat) : α))
      (Q := p 1 - h * ((height (fun k => g (dist n k)) i : Nat) : α)) (by linarith)
      (by rw [← u2]; push_cast at *; linarith) (by linarith)
      (by rw [← u3]; rw [hG] at q2; push_cast at *; linarith)
    exact ⟨_, elem_lt hF hi hb hq, (inQuad_iff u1 (local_pos hF hi hb hq) p).2 hin⟩
  · intro p e e' he he' hin hin'
    obtain ⟨i, b, q, hi, hb, hq, rfl⟩ := elem_split hF he
    obtain ⟨i', b', q', hi', hb', hq', rfl⟩ := elem_split hF he'
    obtain ⟨a1, a2, a3, a4⟩ := sbox p i b q hi hb hq hin
    obtain ⟨c1, c2, c3, c4⟩ := box p i' b' q' hi' hb' hq' hin'
    have hii : i = i' := by
      rcases Nat.lt_trichotomy i i' with hc | hc | hc
      · have := mono (height_mono (g := fun k => g (dist n k)) hc)
        exact absurd (lt_of_lt_of_le a4 (this.trans c3)) (lt_irrefl _)
      · exact hc
      · have := mono (height_mono (g := fun k => g (dist n k)) hc)
        exact absurd (lt_of_le_of_lt (c4.trans this) a3) (lt_irrefl _)
    subst hii
    have hbb : b = b' := by
      rcases Nat.lt_trichotomy b b' with hc | hc | hc
      · have := mono (Nat.mul_le_mul_right (w (dist n i)) hc)
        exact absurd (lt_of_lt_of_le a2 (this.trans c1)) (lt_irrefl _)
      · exact hc
      · have := mono (Nat.mul_le_mul_right (w (dist n i)) hc)
        exact absurd (lt_of_le_of_lt (c2.trans this) a1) (lt_irrefl _)
    subst hbb
    obtain ⟨u1, -, -⟩ := unit i hi
    rw [insideQuad_iff u1 (local_pos hF hi hb hq)] at hin
    rw [inQuad_iff u1 (local_pos hF hi hb hq')] at hin'
    rw [edge_disjoint hq hq' hin hin']

/-- the nodes in (the closure of) a block -/
theorem FineLayer.block_nodes {nelx n : Nat} {W G : Nat → Nat} {R : Nat → Int} (hL : Layers nelx n W G R)
    {i b i' k : Nat} (hi : i < 2 * n - 1) (hi' : i' < 2 * n) (hk : k < blkN nelx n W R i')
    (h1 : b * W i ≤ posX nelx n W i' k) (h2 : posX nelx n W i' k ≤ (b + 1) * W i)
    (h3 : height G i ≤ posY nelx n W G i' k) (h4 : posY nelx n W G i' k ≤ height G (i + 1)) :
    ∃ A B, (A, B) ∈ blockNodes (kindR n R i) ∧
      posX nelx n W i' k = b * W i + A * (W i / (kindR n R i).cols) ∧
      posY nelx n W G i' k = height G i + B * (W i / (kindR n R i).cols) := by
  have hp := hL.npos
  have hgp := hL.gpos i hi
  have hwp := hL.wpos i hi
  have scale : ∀ {a c d u : Nat}, 0 < u → a * u ≤ c * u → c * u ≤ d * u → a ≤ c ∧ c ≤ d := by
    intro a c d u hu e1 e2
    exact ⟨Nat.le_of_mul_le_mul_right e1 hu, Nat.le_of_mul_le_mul_right e2 hu⟩
  -- the row of the node
  have hrow : i' = i ∨ i' = i + 1 ∧ k < rowN nelx n W i' := by
    by_cases c1 : i' < i
    · exfalso
      have : posY nelx n W G i' k < height G (i' + 1) := by
        have := hL.gpos i' (by omega)
        rw [posY, height_succ]; split <;> omega
      have h5 : height G (i' + 1) ≤ height G i := height_mono c1
      omega
    · by_cases c2 : i + 1 < i'
      · exfalso
        have : height G i' ≤ posY nelx n W G i' k := by rw [posY]; split <;> omega
        have h5 : height G (i + 1) < height G i' := height_lt hL.gpos c2 (by omega)
        omega
      · by_cases c3 : i' = i
        · exact Or.inl c3
        · right
          refine ⟨by omega, ?_⟩
          by_contra c4
          have h5 : i' < 2 * n - 1 := by
            by_contra c5
            rw [blkN, if_neg c5] at hk
            omega
          have h6 : R i' = 0 := by
            by_contra c5
            rw [blkN, if_pos h5, midN, if_neg c5] at hk
            omega
          have h7 := hL.gpos i' h5
          have h9 := hL.rowW_pos (show i' + 1 < 2 * n by omega)
          have h10 := hL.rowW_pos (show i' < 2 * n by omega)
          have h8 : 0 < G i' / 2 := by
            rcases hL.kind h5 with ⟨a, -⟩ | ⟨a, b0, -, a2, a3⟩ | ⟨a, b0, -, a2, a3⟩
            · omega
            · omega
            · omega
          rw [posY, if_neg c4] at h4
          have : i' = i + 1 := by omega
          rw [this] at h4 h8
          omega
  rcases hL.kind hi with ⟨a, a1, a2, a3⟩ | ⟨a, b0, a1, a2, a3⟩ | ⟨a, b0, a1, a2, a3⟩
  · -- normal layer
    have hkk : kindR n R i = .normal := by rw [kindR, if_pos a]
    rw [hkk]
    simp only [Kind.cols, Nat.div_one]
    rcases hrow with rfl | ⟨rfl, hr⟩
    · have hr : k < rowN nelx n W i' := by
        rw [blkN, if_pos hi, midN, if_neg (by omega)] at hk; omega
      rw [posX, if_pos hr, a1] at h1 h2 ⊢
      rw [posY, if_pos hr]
      obtain ⟨e1, e2⟩ := scale hwp h1 h2
      refine ⟨k - b, 0, ?_, ?_, by omega⟩
      · obtain rfl | rfl : k = b ∨ k = b + 1 := by omega
        · simp [blockNodes]
        · simp [blockNodes]
      · rw [← Nat.add_mul]; congr 1; omega
    · rw [posX, if_pos hr, a2] at h1 h2 ⊢
      rw [posY, if_pos hr, height_succ, a3]
      obtain ⟨e1, e2⟩ := scale hwp h1 h2
      refine ⟨k - b, 1, ?_, ?_, by omega⟩
      · obtain rfl | rfl : k = b ∨ k = b + 1 := by omega
        · simp [blockNodes]
        · simp [blockNodes]
      · rw [← Nat.add_mul]; congr 1; omega
  · have hkk : kindR n R i = .below := by rw [kindR, if_neg (by omega), if_pos (by omega)]
    have up := hL.rowW_pos (show i + 1 < 2 * n by omega)
    rw [hkk]
    simp only [Kind.cols]
    have hw3 : W i / 3 = rowW n W (i + 1) := by omega
    have hg2 : G i / 2 = rowW n W (i + 1) := by omega
    rw [hw3]
    rcases hrow with rfl | ⟨rfl, hr⟩
    · by_cases hr : k < rowN nelx n W i'
      · rw [posX, if_pos hr, a1] at h1 h2 ⊢
        rw [posY, if_pos hr]
        obtain ⟨e1, e2⟩ := scale hwp h1 h2
        obtain rfl | rfl : k = b ∨ k = b + 1 := by omega
        · exact ⟨0, 0, by simp [blockNodes], by omega, by omega⟩
        · exact ⟨3, 0, by simp [blockNodes], by rw [Nat.add_mul, ← a2]; omega, by omega⟩
      · rw [posX, if_neg hr, hw3, a2] at h1 h2 ⊢
        rw [posY, if_neg hr, hg2]
        generalize k - rowN nelx n W i' = m at h1 h2 ⊢
        generalize rowW n W (i' + 1) = u at up h1 h2 ⊢
        obtain ⟨e1, e2⟩ := scale (a := 3 * b) (c := 3 * (m / 2) + (m % 2 + 1)) (d := 3 * b + 3) up
          (by calc _ = b * (3 * u) := by ring
                _ ≤ _ := h1
                _ = _ := by ring)
          (by calc _ = m / 2 * (3 * u) + (m % 2 + 1) * u := by ring
                _ ≤ _ := h2
                _ = _ := by ring)
        have e3 : m / 2 = b := by omega
        rw [e3]
        refine ⟨m % 2 + 1, 1, ?_, rfl, by omega⟩
        obtain e | e : m % 2 = 0 ∨ m % 2 = 1 := by omega
        · rw [e]; simp [blockNodes]
        · rw [e]; simp [blockNodes]
    · rw [posX, if_pos hr] at h1 h2 ⊢
      rw [posY, if_pos hr, height_succ, a3]
      rw [a2] at h1 h2 ⊢
      obtain ⟨e1, e2⟩ := scale (a := 3 * b) (c := k) (d := 3 * b + 3) up
          (by calc _ = b * (3 * rowW n W (i + 1)) := by ring
                _ ≤ _ := h1)
          (by calc _ ≤ _ := h2
                _ = _ := by ring)
      refine ⟨k - 3 * b, 2, ?_, ?_, by omega⟩
      · obtain e | e | e | e : k - 3 * b = 0 ∨ k - 3 * b = 1 ∨ k - 3 * b = 2 ∨ k - 3 * b = 3 := by omega
        all_goals (rw [e]; simp [blockNodes])
      · rw [show b * (3 * rowW n W (i + 1)) = 3 * b * rowW n W (i + 1) by ring, ← Nat.add_mul]; congr 1; omega
  · have hkk : kindR n R i = .above := by rw [kindR, if_neg (by omega), if_neg (by omega)]
    have up := hL.rowW_pos (show i < 2 * n by omega)
    rw [hkk]
    simp only [Kind.cols]
    have hw3 : W i / 3 = rowW n W i := by omega
    have hg2 : G i / 2 = rowW n W i := by omega
    rw [hw3]
    rcases hrow with rfl | ⟨rfl, hr⟩
    · by_cases hr : k < rowN nelx n W i'
      · rw [posX, if_pos hr] at h1 h2 ⊢
        rw [posY, if_pos hr]
        rw [a2] at h1 h2 ⊢
        obtain ⟨e1, e2⟩ := scale (a := 3 * b) (c := k) (d := 3 * b + 3) up
          (by calc _ = b * (3 * rowW n W i') := by ring
                _ ≤ _ := h1)
          (by calc _ ≤ _ := h2
                _ = _ := by ring)
        refine ⟨k - 3 * b, 0, ?_, ?_, by omega⟩
        · obtain e | e | e | e : k - 3 * b = 0 ∨ k - 3 * b = 1 ∨ k - 3 * b = 2 ∨ k - 3 * b = 3 := by omega
          all_goals (rw [e]; simp [blockNodes])
        · rw [show b * (3 * rowW n W i') = 3 * b * rowW n W i' by ring, ← Nat.add_mul]; congr 1; omega
      · rw [posX, if_neg hr, hw3, a2] at h1 h2 ⊢
        rw [posY, if_neg hr, hg2]
        generalize k - rowN nelx n W i' = m at h1 h2 ⊢
        generalize rowW n W i' = u at up h1 h2 ⊢
        obtain ⟨e1, e2⟩ := scale (a := 3 * b) (c := 3 * (m / 2) + (m % 2 + 1)) (d := 3 * b + 3) up
          (by calc _ = b * (3 * u) := by ring
                _ ≤ _ := h1
                _ = _ := by ring)
          (by calc _ = m / 2 * (3 * u) + (m % 2 + 1) * u := by ring
                _ ≤ _ := h2
                _ = _ := by ring)
        have e3 : m / 2 = b := by omega
        rw [e3]
        refine ⟨m % 2 + 1, 1, ?_, rfl, by omega⟩
        obtain e | e : m % 2 = 0 ∨ m % 2 = 1 := by omega
        · rw [e]; simp [blockNodes]
        · rw [e]; simp [blockNodes]
    · rw [posX, if_pos hr, a1] at h1 h2 ⊢
      rw [posY, if_pos hr, height_succ, a3]
      obtain ⟨e1, e2⟩ := scale hwp h1 h2
      obtain rfl | rfl : k = b ∨ k = b + 1 := by omega
      · exact ⟨0, 2, by simp [blockNodes], by omega, by omega⟩
      · exact ⟨3, 2, by simp [blockNodes], by rw [Nat.add_mul, ← a2]; omega, by omega⟩

/-- **C36** (conformity) a node that lies in an element, possibly on its boundary, is one of its corners: there
are no hanging nodes, also not between layers of different fineness. -/
theorem C36_conforming (nelx nely : Nat) (hy : 0 < nely) (h : α) (hh : 0 < h) (nfine : Nat) :
    ∃ M ct x t c, FineLayer.new nelx nely h nfine = .ok M ∧ M.coor = .ok ct ∧ Is2 ct M.nnode 2 x ∧
      M.conn = .ok t ∧ Is2 t M.nelem 4 c ∧
      ∀ e m, e < M.nelem → m < M.nnode → InQuad (fun j => x (c e j)) (x m) → ∃ j, j < 4 ∧ c e j = m := by
  obtain ⟨M, n, w, g, r, ct, x, t, c, h1, h2, h3, h4, e1, e2, e3, e4, e5, e6, hF⟩ := FineLayer.mesh nelx nely hy h nfine
  have hL := layers_of_half h3
  have hk : ∀ i, kind n r i = kindR n (fun i => r (dist n i)) i := fun i => rfl
  refine ⟨M, ct, x, t, c, h1, e1, e2, e3, e4, fun e m he hm hin => ?_⟩
  have he0 := he
  have hm0 := hm
  obtain ⟨i, b, q, hi, hb, hq, rfl⟩ := elem_split hF he
  rw [e5] at hm
  obtain ⟨i', k, hi', hk', rfl⟩ := exists_block hm
  obtain ⟨px, py⟩ := e6 i' k hi' hk'
  obtain ⟨u1, u2, u3⟩ := unit_spec hL hi
  rw [← hk] at u1 u2 u3
  have ha : 0 < h * ((w (dist n i) / (kind n r i).cols : Nat) : α) := mul_pos hh (by exact_mod_cast u1)
  rw [inQuad_iff ha (local_pos hF hi hb hq)] at hin
  have v2 : h * ((w (dist n i) / (kind n r i).cols : Nat) : α) * ((kind n r i).cols : α) = h * ((w (dist n i) : Nat) : α) := by
    rw [mul_assoc]; congr 1; exact_mod_cast u2.symm
  have v3 : h * ((w (dist n i) / (kind n r i).cols : Nat) : α) * ((kind n r i).rows : α) = h * ((g (dist n i) : Nat) : α) := by
    rw [mul_assoc]; congr 1; exact_mod_cast u3.symm
  obtain ⟨b1, b2, b3, b4⟩ := edge_box hq ha hin
  rw [v2] at b2
  rw [v3] at b4
  rw [px] at b1 b2
  rw [py] at b3 b4
  have cancel : ∀ {a d : Nat}, h * (a : α) ≤ h * (d : α) → a ≤ d := by
    intro a d had
    have := le_of_mul_le_mul_left had hh
    exact_mod_cast this
  obtain ⟨A, B, f1, f2, f3⟩ := block_nodes hL (b := b) hi hi' hk'
    (cancel (by linarith)) (cancel (by push_cast at *; linarith)) (cancel (by linarith))
    (cancel (by rw [height_succ]; push_cast at *; linarith))
  rw [← hk] at f1 f2 f3
  have g1 : x (height (blkN nelx n (fun i => w (dist n i)) fun i => r (dist n i)) i' + k) 0 - h * ((b * w (dist n i) : Nat) : α) =
      h * ((w (dist n i) / (kind n r i).cols : Nat) : α) * (A : α) := by
    rw [px, f2]; push_cast; ring
  have g2 : x (height (blkN nelx n (fun i => w (dist n i)) fun i => r (dist n i)) i' + k) 1 -
      h * ((height (fun k => g (dist n k)) i : Nat) : α) =
      h * ((w (dist n i) / (kind n r i).cols : Nat) : α) * (B : α) := by
    rw [py, f3]; push_cast; ring
  rw [g1, g2] at hin
  obtain ⟨j, hj, hcor⟩ := edge_conform hq ha f1 hin
  refine ⟨j, hj, ?_⟩
  have hval := hF.valid _ j he0 hj
  rw [e5] at hval
  obtain ⟨l1, l2⟩ := local_pos hF hi hb hq j hj
  beta_reduce at l1 l2
  refine node_inj hL hh.ne' e6 hval hm ?_ ?_
  · rw [l1, hcor, ← g1]; ring
  · rw [l2, hcor, ← g2]; ring

/-- **C36** every node belongs to an element -/
theorem C36_used (nelx nely : Nat) (hx : 0 < nelx) (hy : 0 < nely) (h : α) (hh : 0 < h) (nfine : Nat) :
    ∃ M t c, FineLayer.new nelx nely h nfine = .ok M ∧ M.conn = .ok t ∧ Is2 t M.nelem 4 c ∧
      ∀ m, m < M.nnode → ∃ e j, e < M.nelem ∧ j < 4 ∧ c e j = m := by
  obtain ⟨M, n, w, g, r, ct, x, t, c, h1, h2, h3, h4, e1, e2, e3, e4, e5, e6, hF⟩ := FineLayer.mesh nelx nely hy h nfine
  obtain ⟨M', n', w', g', r', ct', x', t', c', a1, a2, a3, a4, a5, a6, a7, -⟩ := C36_tiling nelx nely hx hy h hh nfine
  obtain ⟨M'', ct'', x'', t'', c'', b1, b3, b4, b5, b6, b7⟩ := C36_conforming nelx nely hy h hh nfine
  obtain rfl : M = M' := by rw [h1] at a1; exact Res.ok.inj a1
  obtain rfl : M = M'' := by rw [h1] at b1; exact Res.ok.inj b1
  obtain rfl : ct = ct' := by rw [e1] at a3; exact Res.ok.inj a3
  obtain rfl : ct = ct'' := by rw [e1] at b3; exact Res.ok.inj b3
  obtain rfl : t = t' := by rw [e3] at a5; exact Res.ok.inj a5
  obtain rfl : t = t'' := by rw [e3] at b5; exact Res.ok.inj b5
  have hL := layers_of_half h3
  have hp := hL.npos
  refine ⟨M, t, c'', h1, e3, b6, fun m hm => ?_⟩
  have xe : ∀ m j, m < M.nnode → j < 2 → x m j = x'' m j ∧ x m j = x' m j := by
    intro m j hm hj
    have q1 := e2.2 m j hm hj
    have q2 := b4.2 m j hm hj
    have q3 := a4.2 m j hm hj
    exact ⟨by rw [q1] at q2; exact Option.some.inj q2, by rw [q1] at q3; exact Option.some.inj q3⟩
  have ce : ∀ e j, e < M.nelem → j < 4 → c e j = c'' e j ∧ c e j = c' e j := by
    intro m j hm hj
    have q1 := e4.2 m j hm hj
    have q2 := b6.2 m j hm hj
    have q3 := a6.2 m j hm hj
    exact ⟨by rw [q1] at q2; exact Option.some.inj q2, by rw [q1] at q3; exact Option.some.inj q3⟩
  -- the same layers
  have hN : 2 * n - 1 = 2 * n' - 1 := by
    have q1 := h4.nhy.1
    have q2 := a2.nhy.1
    rw [q1] at q2
    simpa using q2
  have hH : height (fun i => g' (dist n' i)) (2 * n' - 1) = height (fun i => g (dist n i)) (2 * n - 1) := by
    rw [← hN]
    refine height_congr fun k hk => ?_
    have q1 := h4.nhy.2 k hk
    have q2 := a2.nhy.2 k (by omega)
    rw [q1] at q2
    exact (Option.some.inj q2).symm
  have hm' := hm
  rw [e5] at hm
  obtain ⟨i, k, hi, hk, rfl⟩ := exists_block hm
  obtain ⟨px, py⟩ := e6 i k hi hk
  have mono : ∀ {a b : Nat}, a ≤ b → h * (a : α) ≤ h * (b : α) := fun hab =>
    mul_le_mul_of_nonneg_left (by exact_mod_cast hab) hh.le
  obtain ⟨e, he, hin⟩ := (a7 (x' (height (blkN nelx n (fun i => w (dist n i)) fun i => r (dist n i)) i + k))).2 (by
    rw [← (xe _ 0 hm' (by omega)).2, ← (xe _ 1 hm' (by omega)).2, px, py, hH]
    refine ⟨mul_nonneg hh.le (Nat.cast_nonneg _), mono ?_, mul_nonneg hh.le (Nat.cast_nonneg _), mono ?_⟩
    · rw [posX]
      split
      · rename_i hr
        have := hL.rowW_dvd hi
        rw [rowN] at hr
        calc _ ≤ nelx / rowW n (fun i => w (dist n i)) i * rowW n (fun i => w (dist n i)) i := Nat.mul_le_mul_right _ (by omega)
          _ = nelx := Nat.div_mul_cancel this
      · rename_i hr
        rw [blkN] at hk
        by_cases hl : i < 2 * n - 1
        · rw [if_pos hl, midN] at hk
          have hlt : (k - rowN nelx n (fun i => w (dist n i)) i) / 2 < nelx / w (dist n i) := by
            split at hk <;> omega
          have := hL.nelx_eq hl
          generalize (k - rowN nelx n (fun i => w (dist n i)) i) / 2 = b at hlt
          have h7 : (b + 1) * w (dist n i) ≤ nelx := by
            calc _ ≤ nelx / w (dist n i) * w (dist n i) := Nat.mul_le_mul_right _ hlt
              _ = nelx := this
          have h8 : ((k - rowN nelx n (fun i => w (dist n i)) i) % 2 + 1) * (w (dist n i) / 3) ≤ 2 * (w (dist n i) / 3) :=
            Nat.mul_le_mul_right _ (by omega)
          rw [Nat.add_mul] at h7
          omega
        · rw [if_neg hl] at hk; omega
    · rw [posY]
      split
      · exact height_mono (by omega)
      · rename_i hr
        rw [blkN] at hk
        have hl : i < 2 * n - 1 := by
          by_contra hl
          rw [if_neg hl] at hk; omega
        have h7 : height (fun i => g (dist n i)) (i + 1) ≤ height (fun i => g (dist n i)) (2 * n - 1) := height_mono hl
        rw [height_succ] at h7
        omega)
  obtain ⟨j, hj, hc⟩ := b7 e _ he hm' (by
    intro j hj
    have q := hin j hj
    have hmod : (j + 1) % 4 < 4 := Nat.mod_lt _ (by omega)
    have z : ∀ j l, j < 4 → l < 2 → x'' (c'' e j) l = x' (c' e j) l := by
      intro j l hj hl
      have hv := hF.valid e j he hj
      rw [← (ce e j he hj).1, ← (ce e j he hj).2, ← (xe _ l hv hl).1, (xe _ l hv hl).2]
    have z' : ∀ l, l < 2 → x'' (height (blkN nelx n (fun i => w (dist n i)) fun i => r (dist n i)) i + k) l =
        x' (height (blkN nelx n (fun i => w (dist n i)) fun i => r (dist n i)) i + k) l := by
      intro l hl
      rw [← (xe _ l hm' hl).1, (xe _ l hm' hl).2]
    beta_reduce at q ⊢
    rw [turn] at q ⊢
    rw [z _ _ hj (by omega), z _ _ hj (by omega), z _ _ hmod (by omega), z _ _ hmod (by omega), z' _ (by omega), z' _ (by omega)]
    exact q)
  exact ⟨e, j, he, hj, hc⟩

end

theorem amax_is1 {t : Ten Nat} {n : Nat} {f : Nat → Nat} (h : Is1 t n f) :
    ∃ k, amax t = .ok k ∧ (∀ i, i < n → f i ≤ k) ∧ (k = 0 ∨ ∃ i, i < n ∧ f i = k) := by
  obtain ⟨k, h1, h2, h3⟩ := amax_ok (t := t) (f := fun ix => f (ix.headD 0)) (by
    intro ix hix
    rw [h.1] at hix
    obtain ⟨i, rfl, hi⟩ := inb1.1 hix
    exact h.2 i hi)
  refine ⟨k, h1, fun i hi => h2 [i] (by simp [h.1, hi]), ?_⟩
  rcases h3 with h3 | ⟨ix, h3, h4⟩
  · exact Or.inl h3
  · rw [h.1] at h3
    obtain ⟨i, rfl, hi⟩ := inb1.1 h3
    exact Or.inr ⟨i, hi, h4⟩

theorem FineLayerSpec.height_mirror {g : Nat → Nat} {n : Nat} (hn : 0 < n) (h0 : g 0 = 1) :
    height (fun i => g (dist n i)) (2 * n - 1) + 1 = 2 * height g n := by
  have e1 : height (fun i => g (dist n i)) n = height g n := by
    unfold height
    rw [← sum_range_reflect (fun k => g k)]
    refine sum_congr rfl fun k hk => ?_
    simp only [FineLayerSpec.dist, if_pos (mem_range.1 hk)]
  have e2 : height g n = 1 + height (fun i => g (1 + i)) (n - 1) := by
    have := height_add g 1 (n - 1)
    rw [show 1 + (n - 1) = n by omega] at this
    rw [this]; simp [height, h0]
  have e3 : height (fun i => g (dist n i)) (2 * n - 1) =
      height (fun i => g (dist n i)) n + height (fun i => g (1 + i)) (n - 1) := by
    rw [show 2 * n - 1 = n + (n - 1) by omega, height_add]
    congr 1
    refine height_congr fun k hk => ?_
    simp only [FineLayerSpec.dist]
    rw [if_neg (by omega)]; congr 1; omega
  omega

/-- **C36** the size of the mesh: `nelx()` is the requested number of columns, `nely()` is the height of the mesh
in fine elements; it is at least the requested number of rows (one less if that is even, the mesh has a middle
row). -/
theorem C36_size [Mul α] [NatCast α] (nelx nely : Nat) (hy : 0 < nely) (h : α) (nfine : Nat) :
    ∃ M n w g r Ny, FineLayer.new nelx nely h nfine = .ok M ∧ Rows M nelx n w g r ∧
      M.nelx = .ok nelx ∧ M.nely = .ok Ny ∧ Ny = height (fun i => g (dist n i)) (2 * n - 1) ∧
      nely ≤ Ny + 1 - nely % 2 ∧ (Ny ≤ nely ∨ Ny < nely + 2 * w (n - 1)) := by
  obtain ⟨M, n, w, g, r, h1, -, -, h2, h3⟩ := new_spec nelx nely h nfine hy
  have hL := layers_of_half h2
  have hp := hL.npos
  refine ⟨M, n, w, g, r, height (fun i => g (dist n i)) (2 * n - 1), h1, ⟨h3.nhx, h3.nhy, h3.refine, h3.layer⟩, ?_, ?_, rfl, ?_, ?_⟩
  · unfold FineLayer.nelx
    obtain ⟨m, h4, h5, h6⟩ := amax_is1 h3.layer
    rw [h4]
    congr 1
    refine le_antisymm ?_ ?_
    · by_contra hc
      obtain ⟨i, hi, e⟩ : ∃ i, i < 2 * n - 1 ∧ nelx / w (dist n i) = m := h6.resolve_left (by omega)
      have := Nat.div_le_self nelx (w (dist n i))
      omega
    · have := h5 (n - 1) (by omega)
      have hm := hL.mid.1
      rw [hm, Nat.div_one] at this
      exact this
  · unfold FineLayer.nely
    rw [h3.nhy.flat, Res.ok_bind]
    congr 1
    have : ∀ m a, ((List.range m).map fun i => g (dist n i)).foldl (· + ·) a = a + height (fun i => g (dist n i)) m := by
      intro m
      induction m with
      | zero => intro a; simp [height]
      | succ m ih => intro a; rw [List.range_succ, List.map_append, List.foldl_append, ih, height_succ]; simp; omega
    rw [this, Nat.zero_add]
  · have e := height_mirror hp h2.mid.2.1
    have := h2.reach
    omega
  · have e := height_mirror hp h2.mid.2.1
    obtain ⟨-, hfine, -, -, -, h5⟩ := C36_rules h2
    rcases h5 with h5 | h5
    · left
      have : height g n = n := by
        rw [height, sum_congr rfl (fun k hk => (hfine k (mem_range.1 hk) (by rw [← h5]; exact mem_range.1 hk)).2.1)]
        simp
      omega
    · right; omega

/-- non-vacuity: a mesh with two transition layers on each side, evaluated -/
example : ((FineLayer.new 27 45 (1 : Nat) 1).bind fun M => .ok (M.nelem, M.nnode,
      (List.range 15).map (fun i => M.nhx.v [i]), (List.range 15).map (fun i => M.nhy.v [i]))) =
    .ok (273, 292, [9, 9, 3, 3, 3, 1, 1, 1, 1, 1, 3, 3, 3, 9, 9].map some,
      [9, 6, 3, 3, 2, 1, 1, 1, 1, 1, 2, 3, 3, 6, 9].map some) := by
  decide +kernel

end GF
