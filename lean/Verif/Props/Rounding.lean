import Verif.Lemmas.RoundingNew
import Verif.Lemmas.Vector
import Verif.Lemmas.MatrixDiagonal
import Verif.Props.Vector

/-! **C107**: the library in floating-point arithmetic.  All other properties treat `double` as an exact field; here the same
programs are run with rounding of every operation (`Spec/Rounding.lean`), and the results are compared with the exact sums
that the other properties are about.  `r.acc n = (1 + u)ⁿ - 1` is the relative error of `n` successive roundings, `≈ n u`. -/

namespace GF
open Finset

variable {α : Type} [Field α] [LinearOrder α] [IsStrictOrderedRing α] {r : Rounding α}

/-! ### helpers -/

theorem Is1.lift {β : Type} {t : Ten β} {n : Nat} {f : Nat → β} (h : Is1 t n f) {γ : Type} (g : β → γ) :
    Is1 (t.map' g) n fun i => g (f i) := ⟨h.1, fun i hi => by simp [Ten.map', h.2 i hi]⟩

theorem Is2.lift {β : Type} {t : Ten β} {n m : Nat} {f : Nat → Nat → β} (h : Is2 t n m f) {γ : Type} (g : β → γ) :
    Is2 (t.map' g) n m fun i j => g (f i j) := ⟨h.1, fun i j hi hj => by simp [Ten.map', h.2 i j hi hj]⟩

theorem Is3.lift {β : Type} {t : Ten β} {n m k : Nat} {f : Nat → Nat → Nat → β} (h : Is3 t n m k f) {γ : Type} (g : β → γ) :
    Is3 (t.map' g) n m k fun i j l => g (f i j l) :=
  ⟨h.1, fun i j l hi hj hl => by simp [Ten.map', h.2 i j l hi hj hl]⟩

theorem Is4.lift {β : Type} {t : Ten β} {n m k o : Nat} {f : Nat → Nat → Nat → Nat → β} (h : Is4 t n m k o f) {γ : Type}
    (g : β → γ) : Is4 (t.map' g) n m k o fun i j l p => g (f i j l p) :=
  ⟨h.1, fun i j l p hi hj hl hp => by simp [Ten.map', h.2 i j l p hi hj hl hp]⟩

theorem Is6.lift {β : Type} {t : Ten β} {n m k o p q : Nat} {f : Nat → Nat → Nat → Nat → Nat → Nat → β}
    (h : Is6 t n m k o p q f) {γ : Type} (g : β → γ) : Is6 (t.map' g) n m k o p q fun a b c d e i => g (f a b c d e i) :=
  ⟨h.1, fun a b c d e i ha hb hc hd he hi => by simp [Ten.map', h.2 a b c d e i ha hb hc hd he hi]⟩

/-- an exactly stored array -/
theorem TenSim.exact (t : Ten r.Num) : TenSim (Rounds r) t (t.map' fun x => Bound.of x.val) :=
  TenSim.map' (f := fun x : r.Num => Bound.of x.val) (fun x => Rounds.of x) t

/-- the entry of a simulated result -/
theorem TenSim.entry {s : Ten r.Num} {t : Ten (Bound α)} (h : TenSim (Rounds r) s t) {p : List Nat} {b : Bound α}
    (hb : t.v p = some b) : ∃ y, s.v p = some y ∧ Rounds r y b := h.2 p b hb

/-- regard a computed number as one term -/
def Bound.seal (b : Bound α) : Bound α := ⟨b.exact, b.size, 1, b.roundings⟩

theorem Rounds.seal {x : r.Num} {b : Bound α} (h : Rounds r x b) : Rounds r x b.seal :=
  ⟨h.size, by simpa [Bound.seal, Bound.roundings] using h.err, by simp [Bound.seal]⟩

theorem TenSim.seal {s : Ten r.Num} {t : Ten (Bound α)} (h : TenSim (Rounds r) s t) :
    TenSim (Rounds r) s (t.map' Bound.seal) := by
  refine ⟨h.1, fun p b hb => ?_⟩
  simp only [Ten.map', Option.map_eq_some_iff] at hb
  obtain ⟨a, ha, rfl⟩ := hb
  obtain ⟨y, h1, h2⟩ := h.2 p a ha
  exact ⟨y, h1, h2.seal⟩

/-- the stored arrays of a quadrature object, taken as exact -/
def Element.Quadrature.bound (Q : Element.Quadrature r.Num) : Element.Quadrature (Bound α) where
  nne := Q.nne
  ndim := Q.ndim
  tdim := Q.tdim
  nelem := Q.nelem
  nip := Q.nip
  x := Q.x.map' fun x => Bound.of x.val
  w := Q.w.map' fun x => Bound.of x.val
  xi := Q.xi.map' fun x => Bound.of x.val
  N := Q.N.map' fun x => Bound.of x.val
  dNxi := Q.dNxi.map' fun x => Bound.of x.val
  dNx := Q.dNx.map' fun x => Bound.of x.val
  vol := Q.vol.map' fun x => Bound.of x.val

theorem Element.QSim.bound (Q : Element.Quadrature r.Num) : Element.QSim (Rounds r) Q Q.bound :=
  ⟨rfl, rfl, rfl, rfl, rfl, TenSim.exact _, TenSim.exact _, TenSim.exact _⟩

theorem Element.Holds.bound {Q : Element.Quadrature r.Num} {nne nd td ne nip : Nat} {N G V}
    (h : Element.Holds Q nne nd td ne nip N G V) : Element.Holds Q.bound nne nd td ne nip (fun q m => Bound.of (N q m).val)
      (fun e q m i => Bound.of (G e q m i).val) (fun e q => Bound.of (V e q).val) :=
  ⟨h.nne_eq, h.nd_eq, h.td_eq, h.ne_eq, h.nip_eq, h.N_is.lift _, h.G_is.lift _, h.V_is.lift _⟩

/-! ### the statements -/

/-- **C107** (instance): binary floating-point numbers with `p`-bit significands and rounding to nearest -- `double` for
`p = 53`, up to overflow and underflow -- satisfy the standard model with unit round-off `2⁻ᵖ`: a number is representable
exactly if it is an integer of at most `p` bits times a power of two, and the rounded result is at least as close to the exact one as any other
multiple of the unit in the last place. -/
theorem C107_binary [FloorRing α] (p : Nat) (hp : 0 < p) :
    (binary α p hp).u = 2 ^ (-(p : Int)) ∧
    (∀ x, (binary α p hp).fl x = x ↔ ∃ m e : Int, |m| ≤ 2 ^ p ∧ x = m * 2 ^ e) ∧
    (∀ x (k : Int), |(binary α p hp).fl x - x| ≤ |k * ulp p x - x|) := by
  refine ⟨rfl, fun x => ⟨fun h => ?_, ?_⟩, fun x k => ?_⟩
  · obtain ⟨m, e, hm, h'⟩ := roundBits_form (p := p) x
    exact ⟨m, e, hm, h.symm.trans h'⟩
  · rintro ⟨m, e, hm, rfl⟩
    exact roundBits_rep hp m e hm
  · have hu := ulp_pos p x
    have h1 : ∀ z : α, z * ulp p x - x = (z - x / ulp p x) * ulp p x := fun z => by
      rw [sub_mul, div_mul_cancel₀ _ hu.ne']
    change |(round (x / ulp p x) : α) * ulp p x - x| ≤ _
    rw [h1, h1, abs_mul, abs_mul]
    refine mul_le_mul_of_nonneg_right ?_ (abs_nonneg _)
    rw [abs_sub_comm, abs_sub_comm _ (x / ulp p x)]
    exact round_le _ _

/-- **C107** (`AssembleDofs` of a nodal vector): entry `k` is the sum of its `n` contributions up to the error of `n - 1`
roundings, relative to the sum of the absolute values; in particular it is exact for a DOF with one contribution. -/
theorem C107_assembleDofs_nodevec {V : Vector} {c d : Nat → Nat → Nat} (hV : V.Holds c d) {x : Ten r.Num}
    {g : Nat → Nat → r.Num} (hx : Is2 x V.nnode V.ndim g) :
    IsOk (V.AssembleDofs x) fun y => y.shape = [V.ndof] ∧ ∀ k, k < V.ndof → ∃ z, y.v [k] = some z ∧
      |z.val - ∑ m ∈ range V.nnode, ∑ i ∈ range V.ndim, if d m i = k then (g m i).val else 0| ≤
        r.acc ((∑ m ∈ range V.nnode, ∑ i ∈ range V.ndim, if d m i = k then 1 else 0) - 1) *
          ∑ m ∈ range V.nnode, ∑ i ∈ range V.ndim, if d m i = k then |(g m i).val| else 0 := by
  have h2 := hx.lift fun x : r.Num => Bound.of x.val
  obtain ⟨t, h3, h4⟩ := Vector.assembleDofs_nodevec_spec hV (ret := Ten.empty [V.ndof]) rfl h2
  obtain ⟨y, h5, h6⟩ := Vector.assembleDofs_nodevec_sim (Rounds.arith r) (TenSim.exact x)
    (s0 := Ten.empty [V.ndof]) (t0 := Ten.empty [V.ndof]) rfl t h3
  refine ⟨y, ?_, by rw [h6.1, h4.1], fun k hk => ?_⟩
  · rw [Vector.AssembleDofs, Vector.assembleDofs, Ten.rank, hx.1]
    exact h5
  · obtain ⟨z, h7, h8⟩ := h6.entry (h4.2 k hk)
    refine ⟨z, h7, ?_⟩
    have h9 := h8.mono (n := (∑ m ∈ range V.nnode, ∑ i ∈ range V.ndim, if d m i = k then 1 else 0) - 1) (by
      unfold Bound.roundings
      have : (∑ m ∈ range V.nnode, ∑ i ∈ range V.ndim, if d m i = k then Bound.of (g m i).val else 0).depth ≤ 0 :=
        Bound.sum_depth fun m _ => Bound.sum_depth fun i _ => by split <;> simp
      simp only [Bound.sum_terms, apply_ite Bound.terms, Bound.of_terms, Bound.zero_terms]
      omega)
    simpa only [Bound.sum_exact, Bound.sum_size, apply_ite Bound.exact, apply_ite Bound.size, Bound.of_exact, Bound.of_size,
      Bound.zero_exact, Bound.zero_size] using h9

/-- assembly of a simulated element vector -/
theorem assembleDofs_core {V : Vector} {c d : Nat → Nat → Nat} (hV : V.Holds c d) {s : Ten r.Num} {t : Ten (Bound α)}
    (h : TenSim (Rounds r) s t) {b : Nat → Nat → Nat → Bound α} (ht : Is3 t V.nelem V.nne V.ndim b) :
    IsOk (V.AssembleDofs s) fun y => ∃ t', TenSim (Rounds r) y t' ∧ Is1 t' V.ndof fun k =>
      ∑ e ∈ range V.nelem, ∑ m ∈ range V.nne, ∑ j ∈ range V.ndim, if d (c e m) j = k then b e m j else 0 := by
  obtain ⟨t', h3, h4⟩ := Vector.assembleDofs_elemvec_spec hV (ret := Ten.empty [V.ndof]) rfl ht
  obtain ⟨y, h5, h6⟩ := Vector.assembleDofs_elemvec_sim (Rounds.arith r) h
    (s0 := Ten.empty [V.ndof]) (t0 := Ten.empty [V.ndof]) rfl t' h3
  refine ⟨y, ?_, t', h6, h4⟩
  rw [Vector.AssembleDofs, Vector.assembleDofs, Ten.rank, h.1, ht.1]
  exact h5

theorem assembleNode_core {V : Vector} {c d : Nat → Nat → Nat} (hV : V.Holds c d) (σ : Sched) {s : Ten r.Num}
    {t : Ten (Bound α)} (h : TenSim (Rounds r) s t) {b : Nat → Nat → Nat → Bound α} (ht : Is3 t V.nelem V.nne V.ndim b) :
    IsOk (V.AssembleNode σ s) fun y => y.shape = [V.nnode, V.ndim] ∧ ∀ n i, n < V.nnode → i < V.ndim → ∃ z,
      y.v [n, i] = some z ∧ Rounds r z (∑ e ∈ range V.nelem, ∑ m ∈ range V.nne, ∑ j ∈ range V.ndim,
        if d (c e m) j = d n i then b e m j else 0) := by
  obtain ⟨y, h1, t', h2, h3⟩ := assembleDofs_core hV h ht
  obtain ⟨t2, h4, h5⟩ := Vector.asNode_dofval_spec hV σ (ret := Ten.empty [V.nnode, V.ndim]) rfl h3
  obtain ⟨y2, h6, h7⟩ := Vector.asNode_dofval_sim σ h2 (TenSim.empty [V.nnode, V.ndim]) t2 h4
  refine ⟨y2, ?_, by rw [h7.1, h5.1], fun n i hn hi => h7.entry (h5.2 n i hn hi)⟩
  have hr : s.rank = 3 := by rw [Ten.rank, h.1, ht.1]; rfl
  have hr1 : y.rank = 1 := by rw [Ten.rank, h2.1, h3.1]; rfl
  rw [Vector.AssembleNode, Vector.assembleNode, if_pos hr, Vector.assembleNode_elemvec, h1, Res.ok_bind, Vector.asNode,
    if_pos hr1]
  exact h6

/-- number of contributions to a DOF in an assembly -/
theorem contributions_le {V : Vector} {c d : Nat → Nat → Nat} {k T D : Nat} {b : Nat → Nat → Nat → Bound α}
    (hT : ∀ e m j, e < V.nelem → m < V.nne → j < V.ndim → (b e m j).terms = 1 ∧ (b e m j).depth ≤ D)
    (hk : T = ∑ e ∈ range V.nelem, ∑ m ∈ range V.nne, ∑ j ∈ range V.ndim, if d (c e m) j = k then 1 else 0) :
    (∑ e ∈ range V.nelem, ∑ m ∈ range V.nne, ∑ j ∈ range V.ndim,
      if d (c e m) j = k then b e m j else 0).roundings ≤ T - 1 + D := by
  unfold Bound.roundings
  have h1 : (∑ e ∈ range V.nelem, ∑ m ∈ range V.nne, ∑ j ∈ range V.ndim,
      if d (c e m) j = k then b e m j else 0).depth ≤ D :=
    Bound.sum_depth fun e he => Bound.sum_depth fun m hm => Bound.sum_depth fun j hj => by
      split
      · exact (hT e m j (mem_range.1 he) (mem_range.1 hm) (mem_range.1 hj)).2
      · exact Nat.zero_le _
  have h2 : (∑ e ∈ range V.nelem, ∑ m ∈ range V.nne, ∑ j ∈ range V.ndim,
      if d (c e m) j = k then b e m j else 0).terms = T := by
    rw [hk]
    simp only [Bound.sum_terms, apply_ite Bound.terms, Bound.zero_terms]
    refine sum_congr rfl fun e he => sum_congr rfl fun m hm => sum_congr rfl fun j hj => ?_
    rw [(hT e m j (mem_range.1 he) (mem_range.1 hm) (mem_range.1 hj)).1]
  omega

/-- **C107** (`AssembleDofs` of an element vector): entry `k` is the sum of its `n` contributions up to the error of `n - 1`
roundings, relative to the sum of the absolute values. -/
theorem C107_assembleDofs_elemvec {V : Vector} {c d : Nat → Nat → Nat} (hV : V.Holds c d) {x : Ten r.Num}
    {g : Nat → Nat → Nat → r.Num} (hx : Is3 x V.nelem V.nne V.ndim g) :
    IsOk (V.AssembleDofs x) fun y => y.shape = [V.ndof] ∧ ∀ k, k < V.ndof → ∃ z, y.v [k] = some z ∧
      |z.val - ∑ e ∈ range V.nelem, ∑ m ∈ range V.nne, ∑ j ∈ range V.ndim,
          if d (c e m) j = k then (g e m j).val else 0| ≤
        r.acc ((∑ e ∈ range V.nelem, ∑ m ∈ range V.nne, ∑ j ∈ range V.ndim, if d (c e m) j = k then 1 else 0) - 1) *
          ∑ e ∈ range V.nelem, ∑ m ∈ range V.nne, ∑ j ∈ range V.ndim,
            if d (c e m) j = k then |(g e m j).val| else 0 := by
  obtain ⟨y, h1, t, h2, h3⟩ := assembleDofs_core hV (TenSim.exact x) (hx.lift fun x : r.Num => Bound.of x.val)
  refine ⟨y, h1, by rw [h2.1, h3.1], fun k hk => ?_⟩
  obtain ⟨z, h4, h5⟩ := h2.entry (h3.2 k hk)
  have h6 := h5.mono (contributions_le (V := V) (c := c) (d := d) (k := k) (D := 0) (fun e m j _ _ _ => ⟨rfl, le_rfl⟩) rfl)
  rw [Nat.add_zero] at h6
  exact ⟨z, h4, by simpa only [Bound.sum_exact, Bound.sum_size, apply_ite Bound.exact, apply_ite Bound.size, Bound.of_exact,
    Bound.of_size, Bound.zero_exact, Bound.zero_size] using h6⟩

/-- **C107** (`AssembleNode`): the same for the nodal vector that a user obtains. -/
theorem C107_assembleNode {V : Vector} {c d : Nat → Nat → Nat} (hV : V.Holds c d) (σ : Sched) {x : Ten r.Num}
    {g : Nat → Nat → Nat → r.Num} (hx : Is3 x V.nelem V.nne V.ndim g) :
    IsOk (V.AssembleNode σ x) fun y => y.shape = [V.nnode, V.ndim] ∧ ∀ n i, n < V.nnode → i < V.ndim → ∃ z,
      y.v [n, i] = some z ∧
      |z.val - ∑ e ∈ range V.nelem, ∑ m ∈ range V.nne, ∑ j ∈ range V.ndim,
          if d (c e m) j = d n i then (g e m j).val else 0| ≤
        r.acc ((∑ e ∈ range V.nelem, ∑ m ∈ range V.nne, ∑ j ∈ range V.ndim, if d (c e m) j = d n i then 1 else 0) - 1) *
          ∑ e ∈ range V.nelem, ∑ m ∈ range V.nne, ∑ j ∈ range V.ndim,
            if d (c e m) j = d n i then |(g e m j).val| else 0 := by
  obtain ⟨y, h1, h2, h3⟩ := assembleNode_core hV σ (TenSim.exact x) (hx.lift fun x : r.Num => Bound.of x.val)
  refine ⟨y, h1, h2, fun n i hn hi => ?_⟩
  obtain ⟨z, h4, h5⟩ := h3 n i hn hi
  have h6 := h5.mono (contributions_le (V := V) (c := c) (d := d) (k := d n i) (D := 0) (fun e m j _ _ _ => ⟨rfl, le_rfl⟩) rfl)
  rw [Nat.add_zero] at h6
  exact ⟨z, h4, by simpa only [Bound.sum_exact, Bound.sum_size, apply_ite Bound.exact, apply_ite Bound.size, Bound.of_exact,
    Bound.of_size, Bound.zero_exact, Bound.zero_size] using h6⟩

/-- **C107** (numbering): numbering the elements of a mesh differently (`π`) changes the order of the additions, hence the
rounded result, but by no more than twice the error of one assembly. -/
theorem C107_renumber {V V' : Vector} {c c' d : Nat → Nat → Nat} (hV : V.Holds c d) (hV' : V'.Holds c' d)
    (hne : V'.nelem = V.nelem) (hnn : V'.nne = V.nne) (hnd : V'.ndim = V.ndim) (hdof : V'.ndof = V.ndof)
    (π : Equiv.Perm Nat) (hπ : ∀ e, e < V.nelem ↔ π e < V.nelem) (hc : ∀ e m, c' e m = c (π e) m) {x x' : Ten r.Num}
    {g : Nat → Nat → Nat → r.Num} (hx : Is3 x V.nelem V.nne V.ndim g) (hx' : Is3 x' V.nelem V.nne V.ndim fun e => g (π e)) :
    ∃ y y', V.AssembleDofs x = .ok y ∧ V'.AssembleDofs x' = .ok y' ∧ ∀ k, k < V.ndof → ∃ z z', y.v [k] = some z ∧
      y'.v [k] = some z' ∧ |z.val - z'.val| ≤
        2 * r.acc ((∑ e ∈ range V.nelem, ∑ m ∈ range V.nne, ∑ j ∈ range V.ndim, if d (c e m) j = k then 1 else 0) - 1) *
          ∑ e ∈ range V.nelem, ∑ m ∈ range V.nne, ∑ j ∈ range V.ndim,
            if d (c e m) j = k then |(g e m j).val| else 0 := by
  obtain ⟨y, h1, h2, h3⟩ := C107_assembleDofs_elemvec hV hx
  obtain ⟨y', h4, h5, h6⟩ := C107_assembleDofs_elemvec hV' (x := x') (g := fun e => g (π e)) (by rw [hne, hnn, hnd]; exact hx')
  refine ⟨y, y', h1, h4, fun k hk => ?_⟩
  obtain ⟨z, h7, h8⟩ := h3 k hk
  obtain ⟨z', h9, h10⟩ := h6 k (by omega)
  refine ⟨z, z', h7, h9, ?_⟩
  have key : ∀ {β : Type} [AddCommMonoid β] (F : Nat → β), ∑ e ∈ range V.nelem, F (π e) = ∑ e ∈ range V.nelem, F e := by
    intro β _ F
    exact Finset.sum_equiv π (fun e => by simpa using hπ e) fun e _ => rfl
  rw [hne, hnn, hnd] at h10
  simp only [hc] at h10
  rw [key fun e => ∑ m ∈ range V.nne, ∑ j ∈ range V.ndim, if d (c e m) j = k then (g e m j).val else 0,
    key fun e => ∑ m ∈ range V.nne, ∑ j ∈ range V.ndim, if d (c e m) j = k then |(g e m j).val| else 0,
    key fun e => ∑ m ∈ range V.nne, ∑ j ∈ range V.ndim, if d (c e m) j = k then 1 else 0] at h10
  rw [abs_sub_le_iff] at h8 h10 ⊢
  constructor <;> linarith [h8.1, h8.2, h10.1, h10.2]

/-! ### elements -/

namespace Element

/-- **C107** (constructors): `Quad4::Quadrature`, `Quad4::QuadraturePlanar` and `Hex8::Quadrature` can be built from
rounded coordinates and complete, all arrays filled (the theorems below then apply to the object). -/
theorem C107_new {ne nip : Nat} {x xi w : Ten r.Num} {X : Nat → Nat → Nat → r.Num} {Ξ : Nat → Nat → r.Num} {W : Nat → r.Num}
    (σ : Sched) (hw : Is1 w nip W) :
    (Is3 x ne 4 2 X → Is2 xi nip 2 Ξ →
      IsOk (Quad4.new σ x xi w) (fun Q => ∃ N G V, Holds Q 4 2 2 ne nip N G V) ∧
      ∀ thick, IsOk (Quad4.newPlanar σ x xi w thick) (fun Q => ∃ N G V, Holds Q 4 2 3 ne nip N G V)) ∧
    (Is3 x ne 8 3 X → Is2 xi nip 3 Ξ → IsOk (Hex8.new σ x xi w) (fun Q => ∃ N G V, Holds Q 8 3 3 ne nip N G V)) := by
  have any : ∀ t : Ten r.Num, TenSim (Any r.Num α) t (t.map' fun x => x.val) := fun t => TenSim.map' (fun _ => trivial) t
  have fin : ∀ {P : Quadrature r.Num} {Q : Quadrature α} {nne nd td N G V}, QAny P Q → Holds Q nne nd td ne nip N G V →
      ∃ N G V, Holds P nne nd td ne nip N G V := by
    intro P Q nne nd td N G V h h'
    have i2 : ∀ {s : Ten r.Num} {t : Ten α} {n m f}, TenSim (Any r.Num α) s t → Is2 t n m f → ∃ g, Is2 s n m g := by
      intro s t n m f h1 h2
      have h3 : ∀ i j, ∃ a, i < n → j < m → s.v [i, j] = some a := by
        intro i j
        by_cases hi : i < n ∧ j < m
        · obtain ⟨a, ha, -⟩ := h1.2 _ _ (h2.2 i j hi.1 hi.2)
          exact ⟨a, fun _ _ => ha⟩
        · exact ⟨0, fun h h' => absurd ⟨h, h'⟩ hi⟩
      choose g hg using h3
      exact ⟨g, by rw [h1.1, h2.1], fun i j hi hj => hg i j hi hj⟩
    have i4 : ∃ g, Is4 P.dNx ne nip nne nd g := by
      have h3 : ∀ a b c d, ∃ z, a < ne → b < nip → c < nne → d < nd → P.dNx.v [a, b, c, d] = some z := by
        intro a b c d
        by_cases hi : a < ne ∧ b < nip ∧ c < nne ∧ d < nd
        · obtain ⟨z, hz, -⟩ := h.dNx.2 _ _ (h'.G_is.2 a b c d hi.1 hi.2.1 hi.2.2.1 hi.2.2.2)
          exact ⟨z, fun _ _ _ _ => hz⟩
        · exact ⟨0, fun h1 h2 h3 h4 => absurd ⟨h1, h2, h3, h4⟩ hi⟩
      choose g hg using h3
      exact ⟨g, by rw [h.dNx.1, h'.G_is.1], fun a b c d h1 h2 h3 h4 => hg a b c d h1 h2 h3 h4⟩
    obtain ⟨N', hN⟩ := i2 h.N h'.N_is
    obtain ⟨V', hV⟩ := i2 h.vol h'.V_is
    obtain ⟨G', hG⟩ := i4
    exact ⟨N', G', V', by rw [h.nne, h'.nne_eq], by rw [h.ndim, h'.nd_eq], by rw [h.tdim, h'.td_eq],
      by rw [h.nelem, h'.ne_eq], by rw [h.nip, h'.nip_eq], hN, hG, hV⟩
  have hw' := hw.lift fun x : r.Num => x.val
  refine ⟨fun hx hxi => ⟨?_, fun thick => ?_⟩, fun hx hxi => ?_⟩
  · obtain ⟨Q, h1, h2, -⟩ := Quad4.construct_ok (hx.lift fun x : r.Num => x.val) (hxi.lift fun x : r.Num => x.val) hw' 2 1 σ
    obtain ⟨P, h3, h4⟩ := Quad4.construct_any (any x) (any xi) (any w) 2 1 1 σ Q h1
    exact ⟨P, h3, fin h4 h2⟩
  · obtain ⟨Q, h1, h2, -⟩ := Quad4.construct_ok (hx.lift fun x : r.Num => x.val) (hxi.lift fun x : r.Num => x.val) hw' 3 1 σ
    obtain ⟨P, h3, h4⟩ := Quad4.construct_any (any x) (any xi) (any w) 3 thick 1 σ Q h1
    exact ⟨P, h3, fin h4 h2⟩
  · obtain ⟨Q, h1, h2, -⟩ := Hex8.new_ok (hx.lift fun x : r.Num => x.val) (hxi.lift fun x : r.Num => x.val) hw' σ
    obtain ⟨P, h3, h4⟩ := Hex8.new_any (any x) (any xi) (any w) σ Q h1
    exact ⟨P, h3, fin h4 h2⟩

/-- **C107** (gradients of Quad4): the displacement gradient at an integration point is the sum over the four nodes up to
the error of 4 roundings; its symmetric part up to that of 10. -/
theorem C107_gradN_quad4 {Q : Quadrature r.Num} {ne nip : Nat} {N : Nat → Nat → r.Num} {G : Nat → Nat → Nat → Nat → r.Num}
    {V : Nat → Nat → r.Num} (h : Holds Q 4 2 2 ne nip N G V) (σ : Sched) {u : Ten r.Num} {U : Nat → Nat → Nat → r.Num}
    (hu : Is3 u ne 4 2 U) :
    (IsOk (Quad4.GradN_vector Q σ u) fun t => t.shape = [ne, nip, 2, 2] ∧ ∀ e q i j, e < ne → q < nip → i < 2 → j < 2 →
      ∃ z, t.v [e, q, i, j] = some z ∧
        |z.val - ∑ m ∈ range 4, (G e q m i).val * (U e m j).val| ≤
          r.acc 4 * ∑ m ∈ range 4, |(G e q m i).val| * |(U e m j).val|) ∧
    (IsOk (Quad4.SymGradN_vector Q σ u) fun t => t.shape = [ne, nip, 2, 2] ∧ ∀ e q i j, e < ne → q < nip → i < 2 → j < 2 →
      ∃ z, t.v [e, q, i, j] = some z ∧
        |z.val - ∑ m ∈ range 4, ((G e q m i).val * (U e m j).val + (G e q m j).val * (U e m i).val) / 2| ≤
          r.acc 10 * ∑ m ∈ range 4, (|(G e q m i).val| * |(U e m j).val| + |(G e q m j).val| * |(U e m i).val|) / 2) := by
  have hs : Q.shape_qtensor 2 = [ne, nip, 2, 2] := by
    rw [Quadrature.shape_qtensor, h.ne_eq, h.nip_eq, h.td_eq]; rfl
  obtain ⟨⟨t, h1, h2, h3, -⟩, -, ⟨t', h4, h5, h6, -⟩⟩ := Quad4.grads_ok h.bound le_rfl σ
    (hu.lift fun x : r.Num => Bound.of x.val) (Ten.empty [ne, nip, 2, 2]) rfl
  obtain ⟨y, h7, h8⟩ := Quad4.gradN_vector_impl_sim (Rounds.arith r) (QSim.bound Q) σ (TenSim.exact u)
    (TenSim.empty [ne, nip, 2, 2]) t h1
  obtain ⟨y', h9, h10⟩ := Quad4.symGradN_vector_impl_sim (Rounds.arith r) (QSim.bound Q) σ (TenSim.exact u)
    (TenSim.empty [ne, nip, 2, 2]) t' h4
  have hd : ∀ e q i j, (Quad4.grad 4 (fun e q m i => Bound.of (G e q m i).val) (fun e m j => Bound.of (U e m j).val) e q i j).depth ≤ 1 :=
    fun e q i j => Bound.sum_depth fun m _ => by simp [Bound.roundings]
  have ht : ∀ e q i j, (Quad4.grad 4 (fun e q m i => Bound.of (G e q m i).val) (fun e m j => Bound.of (U e m j).val) e q i j).terms = 4 :=
    fun e q i j => by rw [Quad4.grad, Bound.sum_terms]; simp
  have he : ∀ e q i j, (Quad4.grad 4 (fun e q m i => Bound.of (G e q m i).val) (fun e m j => Bound.of (U e m j).val) e q i j).exact =
      ∑ m ∈ range 4, (G e q m i).val * (U e m j).val := fun e q i j => by rw [Quad4.grad, Bound.sum_exact]; simp
  have hz : ∀ e q i j, (Quad4.grad 4 (fun e q m i => Bound.of (G e q m i).val) (fun e m j => Bound.of (U e m j).val) e q i j).size =
      ∑ m ∈ range 4, |(G e q m i).val| * |(U e m j).val| := fun e q i j => by rw [Quad4.grad, Bound.sum_size]; simp
  refine ⟨⟨y, by rw [Quad4.GradN_vector, hs, h7], by rw [h8.1, h2], fun e q i j h11 h12 h13 h14 => ?_⟩,
    ⟨y', by rw [Quad4.SymGradN_vector, hs, h9], by rw [h10.1, h5], fun e q i j h11 h12 h13 h14 => ?_⟩⟩
  · obtain ⟨z, h15, h16⟩ := h8.entry (h3 e q i j h11 h12 h13 h14)
    refine ⟨z, h15, ?_⟩
    have h17 := h16.mono (n := 4) (by
      have := hd e q i j
      have := ht e q i j
      unfold Bound.roundings
      omega)
    rwa [he, hz] at h17
  · obtain ⟨z, h15, h16⟩ := h10.entry (h6 e q i j h11 h12 h13 h14)
    refine ⟨z, h15, ?_⟩
    have e1 : ∀ i j, ∑ m ∈ range 4, ((G e q m i).val * (U e m j).val + (G e q m j).val * (U e m i).val) / 2 =
        1 / 2 * (∑ m ∈ range 4, (G e q m i).val * (U e m j).val + ∑ m ∈ range 4, (G e q m j).val * (U e m i).val) := by
      intro i j
      rw [← sum_add_distrib, mul_sum]
      exact sum_congr rfl fun m _ => by ring
    have e2 : ∀ i j, ∑ m ∈ range 4, (|(G e q m i).val| * |(U e m j).val| + |(G e q m j).val| * |(U e m i).val|) / 2 =
        1 / 2 * (∑ m ∈ range 4, |(G e q m i).val| * |(U e m j).val| + ∑ m ∈ range 4, |(G e q m j).val| * |(U e m i).val|) := by
      intro i j
      rw [← sum_add_distrib, mul_sum]
      exact sum_congr rfl fun m _ => by ring
    rw [e1, e2]
    by_cases hij : i = j
    · subst hij
      have h17 := h16.mono (n := 10) (by
        have := hd e q i i
        have := ht e q i i
        unfold Bound.roundings Quad4.symf
        rw [if_pos rfl]
        omega)
      rw [Quad4.symf, if_pos rfl, he, hz] at h17
      have e3 : ∀ w : α, 1 / 2 * (w + w) = w := fun w => by ring
      rw [e3, e3]
      exact h17
    · have h17 := h16.mono (n := 10) (by
        have := hd e q 0 1
        have := ht e q 0 1
        have := hd e q 1 0
        have := ht e q 1 0
        unfold Quad4.symf
        rw [if_neg hij]
        simp only [Bound.roundings, Bound.mul_terms, Bound.mul_depth, Bound.add_terms, Bound.add_depth, Bound.div_terms,
          Bound.div_depth, Bound.one_terms, Bound.one_depth]
        omega)
      rw [Quad4.symf, if_neg hij] at h17
      simp only [Bound.mul_exact, Bound.mul_size, Bound.div_exact, Bound.div_size, Bound.add_exact, Bound.add_size,
        Bound.one_exact, Bound.one_size, Bound.two_exact, he, hz, abs_two] at h17
      have : (i = 0 ∧ j = 1) ∨ (i = 1 ∧ j = 0) := by omega
      rcases this with ⟨rfl, rfl⟩ | ⟨rfl, rfl⟩
      · exact h17
      · rwa [add_comm (∑ m ∈ range 4, (G e q m 1).val * (U e m 0).val),
          add_comm (∑ m ∈ range 4, |(G e q m 1).val| * |(U e m 0).val|)]

/-- the force on a node of an element, as a bound -/
theorem force_bound (nd nip : Nat) (g s : Nat → Nat → α) (v : Nat → α) :
    (∑ q ∈ range nip, (∑ i ∈ range nd, Bound.of (g q i) * Bound.of (s q i)) * Bound.of (v q)).exact =
      ∑ q ∈ range nip, (∑ i ∈ range nd, g q i * s q i) * v q ∧
    (∑ q ∈ range nip, (∑ i ∈ range nd, Bound.of (g q i) * Bound.of (s q i)) * Bound.of (v q)).size =
      ∑ q ∈ range nip, (∑ i ∈ range nd, |g q i| * |s q i|) * |v q| ∧
    (∑ q ∈ range nip, (∑ i ∈ range nd, Bound.of (g q i) * Bound.of (s q i)) * Bound.of (v q)).roundings ≤
      nip - 1 + (nd - 1 + 2) := by
  refine ⟨by simp [Bound.sum_exact], by simp [Bound.sum_size], ?_⟩
  have h1 : ∀ q, (∑ i ∈ range nd, Bound.of (g q i) * Bound.of (s q i)).depth ≤ 1 :=
    fun q => Bound.sum_depth fun i _ => by simp [Bound.roundings]
  have h2 : ∀ q, (∑ i ∈ range nd, Bound.of (g q i) * Bound.of (s q i)).terms = nd := fun q => by simp [Bound.sum_terms]
  have h3 : (∑ q ∈ range nip, (∑ i ∈ range nd, Bound.of (g q i) * Bound.of (s q i)) * Bound.of (v q)).depth ≤ nd - 1 + 2 :=
    Bound.sum_depth fun q _ => by
      simp only [Bound.mul_depth, Bound.roundings, h2, Bound.of_terms, Bound.of_depth]
      have := h1 q
      omega
  have h4 : (∑ q ∈ range nip, (∑ i ∈ range nd, Bound.of (g q i) * Bound.of (s q i)) * Bound.of (v q)).terms = nip := by
    simp [Bound.sum_terms]
  unfold Bound.roundings at h3 ⊢
  omega

/-- **C107** (forces of Quad4): the nodal force of an element is the quadrature sum of the stored gradients and volumes up
to the error of `nip + 2` roundings (`nip - 1` additions and 3 in each term). -/
theorem C107_force_quad4 {Q : Quadrature r.Num} {td ne nip : Nat} {N : Nat → Nat → r.Num} {G : Nat → Nat → Nat → Nat → r.Num}
    {V : Nat → Nat → r.Num} (h : Holds Q 4 2 td ne nip N G V) (htd : 2 ≤ td) (σ : Sched) {c : Ten r.Num}
    {S : Nat → Nat → Nat → Nat → r.Num} (hc : Is4 c ne nip td td S) :
    IsOk (Quad4.Int_gradN_dot_tensor2_dV Q σ c) fun t => t.shape = [ne, 4, 2] ∧ ∀ e m j, e < ne → m < 4 → j < 2 →
      ∃ z, t.v [e, m, j] = some z ∧
        |z.val - ∑ q ∈ range nip, (∑ i ∈ range 2, (G e q m i).val * (S e q i j).val) * (V e q).val| ≤
          r.acc (nip - 1 + 3) * ∑ q ∈ range nip, (∑ i ∈ range 2, |(G e q m i).val| * |(S e q i j).val|) * |(V e q).val| := by
  have hs : Q.shape_elemvec = [ne, 4, 2] := by rw [Quadrature.shape_elemvec, h.ne_eq, h.nne_eq, h.nd_eq]
  obtain ⟨t, h1, h2⟩ := Quad4.force_ok h.bound htd σ (hc.lift fun x : r.Num => Bound.of x.val) (Ten.empty [ne, 4, 2]) rfl
  obtain ⟨y, h3, h4⟩ := Quad4.int_gradN_dot_tensor2_dV_impl_sim (Rounds.arith r) (QSim.bound Q) σ (TenSim.exact c)
    (s0 := Ten.empty [ne, 4, 2]) (t0 := Ten.empty [ne, 4, 2]) rfl t h1
  refine ⟨y, by rw [Quad4.Int_gradN_dot_tensor2_dV, hs, h3], by rw [h4.1, h2.1], fun e m j he hm hj => ?_⟩
  obtain ⟨z, h5, h6⟩ := h4.entry (h2.2 e m j he hm hj)
  obtain ⟨h7, h8, h9⟩ := force_bound (α := α) 2 nip (fun q i => (G e q m i).val) (fun q i => (S e q i j).val) fun q => (V e q).val
  refine ⟨z, h5, ?_⟩
  have h10 := h6.mono h9
  rwa [h7, h8] at h10

/-- **C107** (forces of Hex8): the same in three dimensions, with `nip + 3` roundings. -/
theorem C107_force_hex8 {Q : Quadrature r.Num} {ne nip : Nat} {N : Nat → Nat → r.Num} {G : Nat → Nat → Nat → Nat → r.Num}
    {V : Nat → Nat → r.Num} (h : Holds Q 8 3 3 ne nip N G V) (σ : Sched) {c : Ten r.Num}
    {S : Nat → Nat → Nat → Nat → r.Num} (hc : Is4 c ne nip 3 3 S) :
    IsOk (Hex8.Int_gradN_dot_tensor2_dV Q σ c) fun t => t.shape = [ne, 8, 3] ∧ ∀ e m j, e < ne → m < 8 → j < 3 →
      ∃ z, t.v [e, m, j] = some z ∧
        |z.val - ∑ q ∈ range nip, (∑ i ∈ range 3, (G e q m i).val * (S e q i j).val) * (V e q).val| ≤
          r.acc (nip - 1 + 4) * ∑ q ∈ range nip, (∑ i ∈ range 3, |(G e q m i).val| * |(S e q i j).val|) * |(V e q).val| := by
  have hs : Q.shape_elemvec = [ne, 8, 3] := by rw [Quadrature.shape_elemvec, h.ne_eq, h.nne_eq, h.nd_eq]
  obtain ⟨t, h1, h2⟩ := Hex8.force_ok h.bound σ (hc.lift fun x : r.Num => Bound.of x.val) (Ten.empty [ne, 8, 3]) rfl
  obtain ⟨y, h3, h4⟩ := Hex8.int_gradN_dot_tensor2_dV_impl_sim (Rounds.arith r) (QSim.bound Q) σ (TenSim.exact c)
    (s0 := Ten.empty [ne, 8, 3]) (t0 := Ten.empty [ne, 8, 3]) rfl t h1
  refine ⟨y, by rw [Hex8.Int_gradN_dot_tensor2_dV, hs, h3], by rw [h4.1, h2.1], fun e m j he hm hj => ?_⟩
  obtain ⟨z, h5, h6⟩ := h4.entry (h2.2 e m j he hm hj)
  obtain ⟨h7, h8, h9⟩ := force_bound (α := α) 3 nip (fun q i => (G e q m i).val) (fun q i => (S e q i j).val) fun q => (V e q).val
  refine ⟨z, h5, ?_⟩
  have h10 := h6.mono h9
  rwa [h7, h8] at h10

/-- **C107** (internal force): the assembled internal force of a mesh of Quad4 elements, from the stress at the integration
points to the nodal vector: the exact double sum up to the error of `n - 1` (assembly of `n` contributions) plus `nip + 2`
(each contribution) roundings. -/
theorem C107_internal_force {Q : Quadrature r.Num} {W : Vector} {td nip : Nat} {c d : Nat → Nat → Nat}
    {N : Nat → Nat → r.Num} {G : Nat → Nat → Nat → Nat → r.Num} {V : Nat → Nat → r.Num} (hW : W.Holds c d) (hne : W.nne = 4)
    (hnd : W.ndim = 2) (h : Holds Q 4 2 td W.nelem nip N G V) (htd : 2 ≤ td) (σ σ' : Sched) {s : Ten r.Num}
    {S : Nat → Nat → Nat → Nat → r.Num} (hs : Is4 s W.nelem nip td td S) :
    IsOk (do
      let f ← Quad4.Int_gradN_dot_tensor2_dV Q σ s
      W.AssembleNode σ' f) fun t => t.shape = [W.nnode, 2] ∧ ∀ n k, n < W.nnode → k < 2 → ∃ z, t.v [n, k] = some z ∧
        |z.val - ∑ e ∈ range W.nelem, ∑ m ∈ range 4, ∑ j ∈ range 2, if d (c e m) j = d n k then
            ∑ q ∈ range nip, (∑ i ∈ range 2, (G e q m i).val * (S e q i j).val) * (V e q).val else 0| ≤
          r.acc ((∑ e ∈ range W.nelem, ∑ m ∈ range 4, ∑ j ∈ range 2, if d (c e m) j = d n k then 1 else 0) - 1 +
              (nip - 1 + 3)) *
            ∑ e ∈ range W.nelem, ∑ m ∈ range 4, ∑ j ∈ range 2, if d (c e m) j = d n k then
              ∑ q ∈ range nip, (∑ i ∈ range 2, |(G e q m i).val| * |(S e q i j).val|) * |(V e q).val| else 0 := by
  have hsh : Q.shape_elemvec = [W.nelem, 4, 2] := by rw [Quadrature.shape_elemvec, h.ne_eq, h.nne_eq, h.nd_eq]
  obtain ⟨t, h1, h2⟩ := Quad4.force_ok h.bound htd σ (hs.lift fun x : r.Num => Bound.of x.val) (Ten.empty [W.nelem, 4, 2]) rfl
  obtain ⟨y, h3, h4⟩ := Quad4.int_gradN_dot_tensor2_dV_impl_sim (Rounds.arith r) (QSim.bound Q) σ (TenSim.exact s)
    (s0 := Ten.empty [W.nelem, 4, 2]) (t0 := Ten.empty [W.nelem, 4, 2]) rfl t h1
  have h5' := h2.lift Bound.seal
  obtain ⟨b, hb⟩ : ∃ b : Nat → Nat → Nat → Bound α, b = fun e m j =>
    (∑ q ∈ range nip, (∑ i ∈ range 2, Bound.of (G e q m i).val * Bound.of (S e q i j).val) * Bound.of (V e q).val).seal :=
    ⟨_, rfl⟩
  have h5 : Is3 (t.map' Bound.seal) W.nelem W.nne W.ndim b := by rw [hne, hnd, hb]; exact h5'
  obtain ⟨z, h6, h7, h8⟩ := assembleNode_core hW σ' h4.seal h5
  rw [hnd] at h7
  refine ⟨z, by rw [Quad4.Int_gradN_dot_tensor2_dV, hsh, h3]; exact h6, h7, fun n k hn hk => ?_⟩
  obtain ⟨w, h9, h10⟩ := h8 n k hn (by omega)
  refine ⟨w, h9, ?_⟩
  subst hb
  have h11 := h10.mono (contributions_le (V := W) (c := c) (d := d) (k := d n k) (D := nip - 1 + 3) (fun e m j _ _ _ => ⟨rfl,
    (force_bound (α := α) 2 nip (fun q i => (G e q m i).val) (fun q i => (S e q i j).val) fun q => (V e q).val).2.2⟩) rfl)
  simp only [Bound.sum_exact, Bound.sum_size, apply_ite Bound.exact, apply_ite Bound.size, Bound.zero_exact, Bound.zero_size,
    Bound.seal, Bound.mul_exact, Bound.mul_size, Bound.of_exact, Bound.of_size] at h11
  rw [hne, hnd] at h11
  exact h11

end Element

/-! ### diagonal matrices -/

/-- **C107** (`MatrixDiagonal`): the assembled diagonal is accurate to `n - 1` roundings, and solving divides to within two
roundings of the exact quotient by the stored diagonal. -/
theorem C107_diagonal {M : MatrixDiagonal r.Num} {c d : Nat → Nat → Nat} {o : Option (Nat → r.Num)} (hM : M.Holds c d o) :
    (∀ {K : Ten r.Num} {k : Nat → Nat → Nat → r.Num},
      Is3 K M.V.nelem (M.V.nne * M.V.ndim) (M.V.nne * M.V.ndim) k →
      IsOk (M.assemble K) fun M' => ∃ a, M'.Holds c d (some a) ∧ M'.V = M.V ∧ ∀ p, p < M.V.ndof →
        |(a p).val - ∑ e ∈ range M.V.nelem, ∑ m ∈ range M.V.nne, ∑ i ∈ range M.V.ndim,
            if d (c e m) i = p then (k e (m * M.V.ndim + i) (m * M.V.ndim + i)).val else 0| ≤
          r.acc ((∑ e ∈ range M.V.nelem, ∑ m ∈ range M.V.nne, ∑ i ∈ range M.V.ndim,
              if d (c e m) i = p then 1 else 0) - 1) *
            ∑ e ∈ range M.V.nelem, ∑ m ∈ range M.V.nne, ∑ i ∈ range M.V.ndim,
              if d (c e m) i = p then |(k e (m * M.V.ndim + i) (m * M.V.ndim + i)).val| else 0) ∧
    (∀ {a : Nat → r.Num} {b : Ten r.Num} {g : Nat → Nat → r.Num} (σ : Nat → Sched), o = some a →
      (∀ p, p < M.V.ndof → (a p).val ≠ 0) → Is2 b M.V.nnode M.V.ndim g →
      IsOk (M.solve_nodevec σ b) fun p => p.2.shape = [M.V.nnode, M.V.ndim] ∧ ∀ m i, m < M.V.nnode → i < M.V.ndim →
        ∃ z, p.2.v [m, i] = some z ∧
          |z.val - (g m i).val / (a (d m i)).val| ≤ r.acc 2 * |(g m i).val / (a (d m i)).val|) := by
  constructor
  · intro K k hK
    have hV := hM.base
    have hB : (⟨M.V, Ten.empty [M.V.ndof], Ten.empty [M.V.ndof], true⟩ : MatrixDiagonal (Bound α)).Holds c d none :=
      ⟨hV, rfl, fun _ h => (nomatch h), rfl, Or.inl rfl⟩
    obtain ⟨A, h1, h2⟩ := MatrixDiagonal.assemble_spec hB (hK.lift fun x : r.Num => Bound.of x.val)
    have h3 : Sim (TenSim (Rounds r)) (forEach (it3 M.V.nelem M.V.nne M.V.ndim) (fun t emi => do
        let n ← M.V.conn.get [emi.1, emi.2.1]
        let d ← M.V.dofs.get [n, emi.2.2]
        let v ← K.get [emi.1, emi.2.1 * M.V.ndim + emi.2.2, emi.2.1 * M.V.ndim + emi.2.2]
        t.addAt [d] v) (Ten.full M.A.shape 0))
        (forEach (it3 M.V.nelem M.V.nne M.V.ndim) (fun t emi => do
        let n ← M.V.conn.get [emi.1, emi.2.1]
        let d ← M.V.dofs.get [n, emi.2.2]
        let v ← (K.map' fun x => Bound.of x.val).get
          [emi.1, emi.2.1 * M.V.ndim + emi.2.2, emi.2.1 * M.V.ndim + emi.2.2]
        t.addAt [d] v) (Ten.full [M.V.ndof] 0)) := by
      have := TenSim.exact K
      rw [hM.A_shape]
      lockstep (Rounds.arith r)
    rw [MatrixDiagonal.assemble] at h1
    dsimp only at h1
    change (Res.bind _ _) = _ at h1
    obtain ⟨X, hX⟩ : ∃ X, X = forEach (it3 M.V.nelem M.V.nne M.V.ndim) (fun t emi => do
        let n ← M.V.conn.get [emi.1, emi.2.1]
        let d ← M.V.dofs.get [n, emi.2.2]
        let v ← (K.map' fun x => Bound.of x.val).get
          [emi.1, emi.2.1 * M.V.ndim + emi.2.2, emi.2.1 * M.V.ndim + emi.2.2]
        t.addAt [d] v) (Ten.full [M.V.ndof] 0) := ⟨_, rfl⟩
    have h1' : X.bind (fun B => Res.ok (⟨M.V, B, Ten.empty [M.V.ndof], true⟩ : MatrixDiagonal (Bound α))) =
        .ok ⟨M.V, A, Ten.empty [M.V.ndof], true⟩ := by rw [hX]; exact h1
    rw [← hX] at h3
    obtain ⟨B, rfl⟩ : ∃ B, X = .ok B := by
      cases X with
      | ok B => exact ⟨B, rfl⟩
      | throws => cases h1'
      | ub => cases h1'
    have hBA : B = A := by
      have : (⟨M.V, B, Ten.empty [M.V.ndof], true⟩ : MatrixDiagonal (Bound α)) = ⟨M.V, A, Ten.empty [M.V.ndof], true⟩ :=
        Res.ok.inj h1'
      exact congrArg MatrixDiagonal.A this
    subst hBA
    obtain ⟨y, h4, h5⟩ := h3 B rfl
    have h6 : ∀ p, ∃ z : r.Num, p < M.V.ndof → y.v [p] = some z ∧ Rounds r z (diagAssembled M.V c d
        (fun i j l => Bound.of (k i j l).val) p) := by
      intro p
      by_cases hp : p < M.V.ndof
      · obtain ⟨z, h7, h8⟩ := h5.entry (h2.2 p hp)
        exact ⟨z, fun _ => ⟨h7, h8⟩⟩
      · exact ⟨0, fun h => absurd h hp⟩
    choose a ha using h6
    refine ⟨{ M with A := y, changed := true }, ?_, a, ⟨hV, by rw [h5.1, h2.1], ?_, hM.inv_shape, Or.inl rfl⟩, rfl,
      fun p hp => ?_⟩
    · rw [MatrixDiagonal.assemble, h4]
      rfl
    · rintro a' rfl'
      cases rfl'
      exact ⟨by rw [h5.1, h2.1], fun p hp => (ha p hp).1⟩
    · have h9 := (ha p hp).2.mono (contributions_le (V := M.V) (c := c) (d := d) (k := p) (D := 0)
        (b := fun e m i => Bound.of (k e (m * M.V.ndim + i) (m * M.V.ndim + i)).val) (fun e m j _ _ _ => ⟨rfl, le_rfl⟩) rfl)
      rw [Nat.add_zero] at h9
      simpa only [diagAssembled, Bound.sum_exact, Bound.sum_size, apply_ite Bound.exact, apply_ite Bound.size, Bound.of_exact,
        Bound.of_size, Bound.zero_exact, Bound.zero_size] using h9
  · intro a b g σ ho _ hb
    subst ho
    obtain ⟨M', x, h1, -, -, -, h2⟩ := MatrixDiagonal.solve_nodevec_raw hM σ hb
    refine ⟨(M', x), h1, h2.1, fun m i hm hi => ⟨_, h2.2 m i hm hi, ?_⟩⟩
    have h3 : Rounds r (1 / a (d m i) * g m i) (1 / Bound.of (a (d m i)).val * Bound.of (g m i).val) :=
      (Rounds.one.div rfl).mul (Rounds.of _)
    have h4 := h3.mono (n := 2) (by simp [Bound.roundings])
    simp only [Bound.mul_exact, Bound.mul_size, Bound.div_exact, Bound.div_size, Bound.one_exact, Bound.one_size,
      Bound.of_exact, Bound.of_size] at h4
    rwa [one_div_mul_eq_div, one_div_mul_eq_div, ← abs_div] at h4

end GF
