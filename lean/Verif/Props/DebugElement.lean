import Verif.Model.DebugElement
import Verif.Props.DebugTyings
import Verif.Lemmas.ElementQuad4Geo
import Verif.Lemmas.ElementHex8Geo
import Verif.Lemmas.ElementHex8Ops
import Verif.Lemmas.ElementAxi
import Verif.Lemmas.ElementOps
import Verif.Props.ElementPlanar
import Verif.Props.ElementAxi

/-! C108: the element classes in the build with assertions. -/

namespace GF

theorem Complete.is4 {α : Type} [Zero α] {t : Ten α} (h : Complete t) {n m k l : Nat} (hs : t.shape = [n, m, k, l]) :
    ∃ f, Is4 t n m k l f := by
  refine ⟨fun a b c d => (t.v [a, b, c, d]).getD 0, hs, fun a b c d ha hb hc hd => ?_⟩
  obtain ⟨x, hx⟩ := h [a, b, c, d] (by rw [hs]; simp [inb, ha, hb, hc, hd])
  simp [hx]

theorem Complete.is6 {α : Type} [Zero α] {t : Ten α} (h : Complete t) {n m k l o p : Nat} (hs : t.shape = [n, m, k, l, o, p]) :
    ∃ f, Is6 t n m k l o p f := by
  refine ⟨fun a b c d e g => (t.v [a, b, c, d, e, g]).getD 0, hs, fun a b c d e g ha hb hc hd he hg => ?_⟩
  obtain ⟨x, hx⟩ := h [a, b, c, d, e, g] (by rw [hs]; simp [inb, ha, hb, hc, hd, he, hg])
  simp [hx]

theorem Is4.complete {α : Type} {t : Ten α} {n m k l : Nat} {f : Nat → Nat → Nat → Nat → α} (h : Is4 t n m k l f) :
    CompleteOf [n, m, k, l] t := by
  refine ⟨h.1, fun ix hix => ?_⟩
  rw [h.1] at hix
  match ix, hix with
  | [], hix => simp [inb] at hix
  | [_], hix => simp [inb] at hix
  | [_, _], hix => simp [inb] at hix
  | [_, _, _], hix => simp [inb] at hix
  | [a, b, c, d], hix =>
    simp [inb] at hix
    exact ⟨_, h.2 a b c d hix.1 hix.2.1 hix.2.2.1 hix.2.2.2⟩
  | _ :: _ :: _ :: _ :: _ :: _, hix => simp [inb] at hix

/-- an array of `nne * nd` rows and columns that is written in blocks is complete -/
theorem blocks_complete {α : Type} {t : Ten α} {ne nne nd : Nat} {f : Nat → Nat → Nat → Nat → Nat → α}
    (hs : t.shape = [ne, nne * nd, nne * nd])
    (h : ∀ e m n i j, e < ne → m < nne → n < nne → i < nd → j < nd → t.v [e, m * nd + i, n * nd + j] = some (f e m n i j)) :
    CompleteOf [ne, nne * nd, nne * nd] t := by
  refine ⟨hs, fun ix hix => ?_⟩
  rw [hs] at hix
  obtain ⟨e, a, b, rfl, he, ha, hb⟩ := inb3.1 hix
  have hd : 0 < nd := by
    rcases Nat.eq_zero_or_pos nd with rfl | hd
    · simp at ha
    · exact hd
  have hdiv : ∀ a, a < nne * nd → a / nd < nne := fun a ha => Nat.div_lt_of_lt_mul (by rwa [Nat.mul_comm])
  have := h e (a / nd) (b / nd) (a % nd) (b % nd) he (hdiv a ha) (hdiv b hb) (Nat.mod_lt _ hd) (Nat.mod_lt _ hd)
  rw [Nat.div_add_mod', Nat.div_add_mod'] at this
  exact ⟨_, this⟩

namespace Element
variable {α : Type} [Field α]
variable {Q : Quadrature α} {nne nd td ne nip : Nat} {N : Nat → Nat → α} {G : Nat → Nat → Nat → Nat → α} {V : Nat → Nat → α}

/-- **C108** (functions of all Cartesian element classes). -/
theorem C108_generic (h : Holds Q nne nd td ne nip N G V) (hnd : nd ≤ td) (σ : Sched) {x : Ten α} (hx : Complete x) :
    Checked (Q.InterpQuad_vector_checked σ x) (Q.InterpQuad_vector σ x) (∃ n, x.shape = [ne, nne, n])
      (fun t => ∃ n, x.shape = [ne, nne, n] ∧ CompleteOf [ne, nip, n] t) ∧
    Checked (Q.Int_N_vector_dV_checked σ x) (Q.Int_N_vector_dV σ x) (∃ n, x.shape = [ne, nip, n])
      (fun t => ∃ n, x.shape = [ne, nip, n] ∧ CompleteOf [ne, nne, n] t) ∧
    Checked (Q.Int_gradN_dot_tensor4_dot_gradNT_dV_checked σ x) (Q.Int_gradN_dot_tensor4_dot_gradNT_dV σ x)
      (x.shape = [ne, nip, td, td, td, td]) (CompleteOf [ne, nne * nd, nne * nd]) := by
  have s1 : ∀ n, Q.shape_elemvec_n n = [ne, nne, n] := fun n => by simp [Quadrature.shape_elemvec_n, h.ne_eq, h.nne_eq]
  have s2 : ∀ n, Q.shape_qvector_n n = [ne, nip, n] := fun n => by simp [Quadrature.shape_qvector_n, h.ne_eq, h.nip_eq]
  have s3 : Q.shape_qtensor 4 = [ne, nip, td, td, td, td] := by
    simp [Quadrature.shape_qtensor, h.ne_eq, h.nip_eq, h.td_eq, List.replicate]
  have s4 : Q.shape_elemmat = [ne, nne * nd, nne * nd] := by simp [Quadrature.shape_elemmat, h.ne_eq, h.nne_eq, h.nd_eq]
  refine ⟨?_, ?_, ?_⟩
  · refine Checked.congr (Checked.of1 (p := x.shape = Q.shape_elemvec_n (x.shape.getD 2 0)) fun hs => ?_) ?_
    · rw [s1] at hs
      obtain ⟨f, hf⟩ := hx.is3 hs
      obtain ⟨t, e, ht⟩ := interpQuad_generic h σ hf (Ten.empty (Q.shape_qvector_n _)) (s2 _)
      exact ⟨t, by rw [Quadrature.InterpQuad_vector, hs]; exact e, _, hs, ht.complete⟩
    · rw [s1]
      constructor
      · intro hs; exact ⟨_, hs⟩
      · rintro ⟨n, hs⟩; rw [hs]; rfl
  · refine Checked.congr (Checked.of1 (p := x.shape = Q.shape_qvector_n (x.shape.getD 2 0)) fun hs => ?_) ?_
    · rw [s2] at hs
      obtain ⟨f, hf⟩ := hx.is3 hs
      obtain ⟨t, e, ht⟩ := intNvector_generic h σ hf (Ten.empty (Q.shape_elemvec_n _)) (s1 _)
      exact ⟨t, by rw [Quadrature.Int_N_vector_dV, hs]; exact e, _, hs, ht.complete⟩
    · rw [s2]
      constructor
      · intro hs; exact ⟨_, hs⟩
      · rintro ⟨n, hs⟩; rw [hs]; rfl
  · refine Checked.congr (Checked.of1 (p := x.shape = Q.shape_qtensor 4) fun hs => ?_) (by rw [s3])
    rw [s3] at hs
    obtain ⟨f, hf⟩ := hx.is6 hs
    obtain ⟨t, e, ht, ht'⟩ := stiffness_generic h hnd σ hf (Ten.empty Q.shape_elemmat) s4
    exact ⟨t, e, blocks_complete ht ht'⟩

namespace Quad4

/-- **C108** (`Quad4::Quadrature`: methods). -/
theorem C108_methods (h : Holds Q 4 2 2 ne nip N G V) (σ : Sched) {x : Ten α} (hx : Complete x) :
    Checked (InterpQuad_vector_checked Q σ x) (InterpQuad_vector Q σ x) (x.shape = [ne, 4, 2]) (CompleteOf [ne, nip, 2]) ∧
    Checked (GradN_vector_checked Q σ x) (GradN_vector Q σ x) (x.shape = [ne, 4, 2]) (CompleteOf [ne, nip, 2, 2]) ∧
    Checked (GradN_vector_T_checked Q σ x) (GradN_vector_T Q σ x) (x.shape = [ne, 4, 2]) (CompleteOf [ne, nip, 2, 2]) ∧
    Checked (SymGradN_vector_checked Q σ x) (SymGradN_vector Q σ x) (x.shape = [ne, 4, 2]) (CompleteOf [ne, nip, 2, 2]) := by
  have s1 : Q.shape_elemvec = [ne, 4, 2] := by simp [Quadrature.shape_elemvec, h.ne_eq, h.nne_eq, h.nd_eq]
  have s2 : (Ten.empty (Q.shape_qtensor 2) : Ten α).shape = [ne, nip, 2, 2] := by
    simp [Ten.empty, Quadrature.shape_qtensor, h.ne_eq, h.nip_eq, h.td_eq, List.replicate]
  have fin : ∀ {t : Ten α} {f : Nat → Nat → Nat → Nat → α}, t.shape = [ne, nip, 2, 2] →
      (∀ e q i j, e < ne → q < nip → i < 2 → j < 2 → t.v [e, q, i, j] = some (f e q i j)) → CompleteOf [ne, nip, 2, 2] t :=
    fun h1 h2 => Is4.complete ⟨h1, h2⟩
  refine ⟨?_, ?_, ?_, ?_⟩ <;>
    refine Checked.congr (Checked.of1 (p := x.shape = Q.shape_elemvec) fun hs => ?_) (by rw [s1]) <;> rw [s1] at hs <;>
    obtain ⟨f, hf⟩ := hx.is3 hs
  · obtain ⟨t, e, ht⟩ := interp_ok h σ hf (Ten.empty (Q.shape_qvector_n 2)) (by
      simp [Ten.empty, Quadrature.shape_qvector_n, h.ne_eq, h.nip_eq])
    exact ⟨t, by rw [InterpQuad_vector, hs]; exact e, ht.complete⟩
  · obtain ⟨⟨t, e, g1, g2, -⟩, -, -⟩ := grads_ok h le_rfl σ hf _ s2
    exact ⟨t, e, fin g1 g2⟩
  · obtain ⟨-, ⟨t, e, g1, g2, -⟩, -⟩ := grads_ok h le_rfl σ hf _ s2
    exact ⟨t, e, fin g1 g2⟩
  · obtain ⟨-, -, t, e, g1, g2, -⟩ := grads_ok h le_rfl σ hf _ s2
    exact ⟨t, e, fin g1 g2⟩

/-- **C108** (`Quad4::QuadraturePlanar`: gradients). -/
theorem C108_planar (h : Holds Q 4 2 3 ne nip N G V) (σ : Sched) {x : Ten α} (hx : Complete x) :
    Checked (PlanarGradN_vector_checked Q σ x) (PlanarGradN_vector Q σ x) (x.shape = [ne, 4, 2]) (CompleteOf [ne, nip, 3, 3]) ∧
    Checked (PlanarGradN_vector_T_checked Q σ x) (PlanarGradN_vector_T Q σ x) (x.shape = [ne, 4, 2])
      (CompleteOf [ne, nip, 3, 3]) ∧
    Checked (PlanarSymGradN_vector_checked Q σ x) (PlanarSymGradN_vector Q σ x) (x.shape = [ne, 4, 2])
      (CompleteOf [ne, nip, 3, 3]) := by
  have s1 : Q.shape_elemvec = [ne, 4, 2] := by simp [Quadrature.shape_elemvec, h.ne_eq, h.nne_eq, h.nd_eq]
  have s2 : (Ten.full (Ten.empty (Q.shape_qtensor 2) : Ten α).shape (0 : α)).shape = [ne, nip, 3, 3] := by
    simp [Ten.full, Ten.empty, Quadrature.shape_qtensor, h.ne_eq, h.nip_eq, h.td_eq, List.replicate]
  have fin : ∀ {t : Ten α} {f : Nat → Nat → Nat → Nat → α}, t.shape = [ne, nip, 3, 3] →
      (∀ e q i j, e < ne → q < nip → i < 2 → j < 2 → t.v [e, q, i, j] = some (f e q i j)) →
      (∀ e q i j, ¬ (i < 2 ∧ j < 2) → t.v [e, q, i, j] = some 0) → CompleteOf [ne, nip, 3, 3] t := by
    intro t f h1 h2 h3
    refine Is4.complete (f := fun e q i j => if i < 2 ∧ j < 2 then f e q i j else 0) ⟨h1, fun e q i j he hq hi hj => ?_⟩
    dsimp only
    split
    · rename_i hij; exact h2 e q i j he hq hij.1 hij.2
    · rename_i hij; exact h3 e q i j hij
  refine ⟨?_, ?_, ?_⟩ <;>
    refine Checked.congr (Checked.of1 (p := x.shape = Q.shape_elemvec) fun hs => ?_) (by rw [s1]) <;> rw [s1] at hs <;>
    obtain ⟨f, hf⟩ := hx.is3 hs
  · obtain ⟨⟨t, e, g1, g2, g3⟩, -, -⟩ := grads_ok h (by omega) σ hf _ s2
    exact ⟨t, e, fin g1 g2 g3⟩
  · obtain ⟨-, ⟨t, e, g1, g2, g3⟩, -⟩ := grads_ok h (by omega) σ hf _ s2
    exact ⟨t, e, fin g1 g2 g3⟩
  · obtain ⟨-, -, t, e, g1, g2, g3⟩ := grads_ok h (by omega) σ hf _ s2
    exact ⟨t, e, fin g1 g2 g3⟩

/-- **C108** (integrals of `Quad4::Quadrature`, `td = 2`, and `Quad4::QuadraturePlanar`, `td = 3`). -/
theorem C108_integrals (h : Holds Q 4 2 td ne nip N G V) (htd : 2 ≤ td) (σ : Sched) {x : Ten α} (hx : Complete x) :
    Checked (Int_N_scalar_NT_dV_checked Q σ x) (Int_N_scalar_NT_dV Q σ x) (x.shape = [ne, nip]) (CompleteOf [ne, 8, 8]) ∧
    Checked (Int_gradN_dot_tensor2_dV_checked Q σ x) (Int_gradN_dot_tensor2_dV Q σ x) (x.shape = [ne, nip, td, td])
      (CompleteOf [ne, 4, 2]) := by
  have s1 : Q.shape_qscalar = [ne, nip] := by simp [Quadrature.shape_qscalar, h.ne_eq, h.nip_eq]
  have s2 : Q.shape_qtensor 2 = [ne, nip, td, td] := by
    simp [Quadrature.shape_qtensor, h.ne_eq, h.nip_eq, h.td_eq, List.replicate]
  constructor
  · refine Checked.congr (Checked.of1 (p := x.shape = Q.shape_qscalar) fun hs => ?_) (by rw [s1])
    rw [s1] at hs
    obtain ⟨f, hf⟩ := hx.is2 hs
    obtain ⟨t, e, h1, h2⟩ := mass_ok h.N_is h.V_is σ hf (Ten.empty Q.shape_elemmat) (by
      simp [Ten.empty, Quadrature.shape_elemmat, h.ne_eq, h.nne_eq, h.nd_eq])
    exact ⟨t, by rw [Int_N_scalar_NT_dV, h.ne_eq, h.nip_eq]; exact e, blocks_complete (nne := 4) (nd := 2) h1 h2⟩
  · refine Checked.congr (Checked.of1 (p := x.shape = Q.shape_qtensor 2) fun hs => ?_) (by rw [s2])
    rw [s2] at hs
    obtain ⟨f, hf⟩ := hx.is4 hs
    obtain ⟨t, e, ht⟩ := force_ok h htd σ hf (Ten.empty Q.shape_elemvec) (by
      simp [Ten.empty, Quadrature.shape_elemvec, h.ne_eq, h.nne_eq, h.nd_eq])
    exact ⟨t, e, ht.complete⟩

/-- the loops over the integration points only read the first `nip` rows and the first two columns of `xi` -/
theorem shape_any [CharZero α] {xi : Ten α} {n m : Nat} {Ξ} (h : Is2 xi n m Ξ) (hn : nip ≤ n) (hm : 2 ≤ m) :
    (∃ t, shapeN nip xi = .ok t ∧ t.shape = [nip, 4]) ∧ ∃ t, shapeDN nip xi = .ok t ∧ t.shape = [nip, 4, 2] := by
  have h' : Is2 (⟨[nip, 2], xi.v⟩ : Ten α) nip 2 Ξ := ⟨rfl, fun i j hi hj => h.2 i j (by omega) (by omega)⟩
  obtain ⟨t, e, ht⟩ := shapeN_ok h'
  obtain ⟨d, e', hd⟩ := shapeDN_ok h'
  refine ⟨⟨t, ?_, ht.1⟩, d, ?_, hd.1⟩
  · rw [← e]
    refine forEach_congr _ _ _ _ fun q hq s => ?_
    rw [mem_it1] at hq
    rw [h.get (by omega) (by omega), h.get (by omega) (by omega), h'.get hq (by omega), h'.get hq (by omega)]
  · rw [← e']
    refine forEach_congr _ _ _ _ fun q hq s => ?_
    rw [mem_it1] at hq
    rw [h.get (by omega) (by omega), h.get (by omega) (by omega), h'.get hq (by omega), h'.get hq (by omega)]

/-- with too few rows or columns in `xi` the loop over the integration points reads out of bounds -/
theorem shapeN_ub {xi : Ten α} {n m : Nat} {Ξ} (h : Is2 xi n m Ξ) (hn : n < nip ∨ (m < 2 ∧ 0 < nip)) :
    shapeN nip xi = .ub := by
  have bad : ∀ q k, ¬ (q < n ∧ k < m) → xi.get [q, k] = .ub := by
    intro q k hk
    rw [Ten.get, h.1, if_neg (by simp [inb]; omega)]
  refine forEach_eq_ub _ _ (fun t => t.shape = [nip, 4]) _ rfl (fun q hq t ht => ?_) ?_
  · rw [mem_it1] at hq
    by_cases h0 : q < n ∧ 0 < m
    · by_cases h1 : q < n ∧ 1 < m
      · right
        rw [h.get h0.1 h0.2, h.get h1.1 h1.2]
        simp [Ten.set, ht, hq]
      · left
        rw [h.get h0.1 h0.2, bad q 1 h1]; rfl
    · left
      rw [bad q 0 h0]; rfl
  · rcases hn with hn | ⟨hm, h0⟩
    · exact ⟨n, by rw [mem_it1]; omega, fun t _ => by rw [bad n 0 (by omega)]; rfl⟩
    · refine ⟨0, by rw [mem_it1]; omega, fun t _ => ?_⟩
      by_cases h1 : 0 < n ∧ 0 < m
      · rw [h.get h1.1 h1.2, bad 0 1 (by omega)]; rfl
      · rw [bad 0 0 h1]; rfl

/-- **C108** (constructors of `Quad4::Quadrature`, `tdim = 2`, and `Quad4::QuadraturePlanar`, `tdim = 3`): the assertion on `xi`
stands after the loops that read `xi`, so that it is only effective if `xi` is too large. -/
theorem C108_new [CharZero α] {x xi w : Ten α} {n1 n2 n m : Nat} {X Ξ W} (hx : Is3 x ne n1 n2 X) (hxi : Is2 xi n m Ξ)
    (hw : Is1 w nip W) (tdim : Nat) (thick : α) (σ : Sched) :
    (nip ≤ n → 2 ≤ m → Checked (construct_checked tdim thick σ x xi w) (construct tdim thick σ x xi w)
      (n1 = 4 ∧ n2 = 2 ∧ n = nip ∧ m = 2) fun Q => Live tdim thick ne nip Ξ W Q X) ∧
    (n < nip ∨ (m < 2 ∧ 0 < nip) → construct_checked tdim thick σ x xi w = .ub) := by
  constructor
  · intro hn hm
    obtain ⟨⟨N, e, -⟩, D, e', -⟩ := shape_any hxi hn hm
    have hc : construct_checked tdim thick σ x xi w =
        if n1 = 4 ∧ n2 = 2 ∧ n = nip ∧ m = 2 then construct tdim thick σ x xi w else .throws := by
      rw [construct_checked, construct, hw.1, hx.1]
      dsimp only
      simp only [e, e', Res.ok_bind, gassert_bind, hxi.1]
      by_cases a1 : n1 = 4 <;> by_cases a2 : n2 = 2 <;> by_cases a3 : n = nip <;> by_cases a4 : m = 2 <;> simp [a1, a2, a3, a4]
    refine ⟨fun hv => ⟨by rw [hc, if_pos hv], ?_⟩, fun hv => by rw [hc, if_neg hv]⟩
    obtain ⟨rfl, rfl, rfl, rfl⟩ := hv
    obtain ⟨Q, e, hQ, -⟩ := construct_ok hx hxi hw tdim thick σ
    exact ⟨Q, e, .new hx hxi hw e⟩
  · intro hn
    rw [construct_checked, hw.1, hx.1]
    dsimp only
    rw [shapeN_ub hxi hn]; rfl

/-- **C108** (`update_x`), at any moment in the life of the object. -/
theorem C108_update_x [CharZero α] {thick : α} {X Ξ W} (hQ : Live td thick ne nip Ξ W Q X) (σ : Sched) {x : Ten α}
    (hx : Complete x) : Checked (update_x_checked thick σ Q x) (update_x thick σ Q x) (x.shape = [ne, 4, 2])
      fun Q' => ∃ X', Is3 x ne 4 2 X' ∧ Live td thick ne nip Ξ W Q' X' := by
  have hs : Q.x.shape = [ne, 4, 2] := (live_holds hQ).2.2.1.1
  refine Checked.congr (Checked.of1 (p := x.shape = Q.x.shape) fun h => ?_) (by rw [hs])
  rw [hs] at h
  obtain ⟨X', hX⟩ := hx.is3 h
  obtain ⟨Q', e⟩ := update_ok hQ σ hX
  exact ⟨Q', e, X', hX, .update hQ hX e⟩

/-- Concrete case: four weights but only three integration points; and four weights with five integration points. -/
example : construct_checked 2 (1 : ℚ) .seq (Ten.full [1, 4, 2] 0) (Ten.full [3, 2] 0) (Ten.full [4] 1) = .ub ∧
    construct_checked 2 (1 : ℚ) .seq (Ten.full [1, 4, 2] 0) (Ten.full [5, 2] 0) (Ten.full [4] 1) = .throws := by
  have h3 : Is3 (Ten.full [1, 4, 2] (0 : ℚ)) 1 4 2 fun _ _ _ => 0 := ⟨rfl, fun _ _ _ _ _ _ => rfl⟩
  have h1 : Is1 (Ten.full [4] (1 : ℚ)) 4 fun _ => 1 := ⟨rfl, fun _ _ => rfl⟩
  refine ⟨(C108_new h3 (n := 3) (m := 2) (Ξ := fun _ _ => 0) ⟨rfl, fun _ _ _ _ => rfl⟩ h1 2 1 .seq).2 (by decide), ?_⟩
  exact ((C108_new h3 (n := 5) (m := 2) (Ξ := fun _ _ => 0) ⟨rfl, fun _ _ _ _ => rfl⟩ h1 2 1 .seq).1 (by decide)
    (by decide)).2 (by decide)

end Quad4

namespace Hex8

/-- **C108** (`Hex8::Quadrature`: methods). -/
theorem C108_methods (h : Holds Q 8 3 3 ne nip N G V) (σ : Sched) {x : Ten α} (hx : Complete x) :
    Checked (GradN_vector_checked Q σ x) (GradN_vector Q σ x) (x.shape = [ne, 8, 3]) (CompleteOf [ne, nip, 3, 3]) ∧
    Checked (GradN_vector_T_checked Q σ x) (GradN_vector_T Q σ x) (x.shape = [ne, 8, 3]) (CompleteOf [ne, nip, 3, 3]) ∧
    Checked (SymGradN_vector_checked Q σ x) (SymGradN_vector Q σ x) (x.shape = [ne, 8, 3]) (CompleteOf [ne, nip, 3, 3]) := by
  have s1 : Q.shape_elemvec = [ne, 8, 3] := by simp [Quadrature.shape_elemvec, h.ne_eq, h.nne_eq, h.nd_eq]
  have s2 : (Ten.empty (Q.shape_qtensor 2) : Ten α).shape = [ne, nip, 3, 3] := by
    simp [Ten.empty, Quadrature.shape_qtensor, h.ne_eq, h.nip_eq, h.td_eq, List.replicate]
  refine ⟨?_, ?_, ?_⟩ <;>
    refine Checked.congr (Checked.of1 (p := x.shape = Q.shape_elemvec) fun hs => ?_) (by rw [s1]) <;> rw [s1] at hs <;>
    obtain ⟨f, hf⟩ := hx.is3 hs
  · obtain ⟨t, e, ht⟩ := gradN_generic h σ hf _ s2
    exact ⟨t, e, ht.complete⟩
  · obtain ⟨t, e, ht⟩ := gradN_T_generic h σ hf _ s2
    exact ⟨t, e, ht.complete⟩
  · obtain ⟨t, e, ht⟩ := symGradN_generic h σ hf _ s2
    exact ⟨t, e, ht.complete⟩

/-- **C108** (`Hex8::Quadrature`: integrals). -/
theorem C108_integrals (h : Holds Q 8 3 3 ne nip N G V) (σ : Sched) {x : Ten α} (hx : Complete x) :
    Checked (Int_N_scalar_NT_dV_checked Q σ x) (Int_N_scalar_NT_dV Q σ x) (x.shape = [ne, nip]) (CompleteOf [ne, 24, 24]) ∧
    Checked (Int_gradN_dot_tensor2_dV_checked Q σ x) (Int_gradN_dot_tensor2_dV Q σ x) (x.shape = [ne, nip, 3, 3])
      (CompleteOf [ne, 8, 3]) := by
  have s1 : Q.shape_qscalar = [ne, nip] := by simp [Quadrature.shape_qscalar, h.ne_eq, h.nip_eq]
  have s2 : Q.shape_qtensor 2 = [ne, nip, 3, 3] := by
    simp [Quadrature.shape_qtensor, h.ne_eq, h.nip_eq, h.td_eq, List.replicate]
  constructor
  · refine Checked.congr (Checked.of1 (p := x.shape = Q.shape_qscalar) fun hs => ?_) (by rw [s1])
    rw [s1] at hs
    obtain ⟨f, hf⟩ := hx.is2 hs
    obtain ⟨t, e, h1, h2⟩ := mass_ok h σ hf (Ten.empty Q.shape_elemmat) (by
      simp [Ten.empty, Quadrature.shape_elemmat, h.ne_eq, h.nne_eq, h.nd_eq])
    exact ⟨t, e, blocks_complete (nne := 8) (nd := 3) h1 h2⟩
  · refine Checked.congr (Checked.of1 (p := x.shape = Q.shape_qtensor 2) fun hs => ?_) (by rw [s2])
    rw [s2] at hs
    obtain ⟨f, hf⟩ := hx.is4 hs
    obtain ⟨t, e, ht⟩ := force_ok h σ hf (Ten.empty Q.shape_elemvec) (by
      simp [Ten.empty, Quadrature.shape_elemvec, h.ne_eq, h.nne_eq, h.nd_eq])
    exact ⟨t, e, ht.complete⟩

theorem shape_any [CharZero α] {xi : Ten α} {n m : Nat} {Ξ} (h : Is2 xi n m Ξ) (hn : nip ≤ n) (hm : 3 ≤ m) :
    (∃ t, shapeN nip xi = .ok t ∧ t.shape = [nip, 8]) ∧ ∃ t, shapeDN nip xi = .ok t ∧ t.shape = [nip, 8, 3] := by
  have h' : Is2 (⟨[nip, 3], xi.v⟩ : Ten α) nip 3 Ξ := ⟨rfl, fun i j hi hj => h.2 i j (by omega) (by omega)⟩
  obtain ⟨t, e, ht⟩ := shapeN_ok h'
  obtain ⟨d, e', hd⟩ := shapeDN_ok h'
  refine ⟨⟨t, ?_, ht.1⟩, d, ?_, hd.1⟩
  · rw [← e]
    refine forEach_congr _ _ _ _ fun q hq s => ?_
    rw [mem_it1] at hq
    rw [h.get (by omega) (by omega), h.get (by omega) (by omega), h.get (by omega) (by omega), h'.get hq (by omega),
      h'.get hq (by omega), h'.get hq (by omega)]
  · rw [← e']
    refine forEach_congr _ _ _ _ fun q hq s => ?_
    rw [mem_it1] at hq
    rw [h.get (by omega) (by omega), h.get (by omega) (by omega), h.get (by omega) (by omega), h'.get hq (by omega),
      h'.get hq (by omega), h'.get hq (by omega)]

theorem shapeN_ub {xi : Ten α} {n m : Nat} {Ξ} (h : Is2 xi n m Ξ) (hn : n < nip ∨ (m < 3 ∧ 0 < nip)) :
    shapeN nip xi = .ub := by
  have bad : ∀ q k, ¬ (q < n ∧ k < m) → xi.get [q, k] = .ub := by
    intro q k hk
    rw [Ten.get, h.1, if_neg (by simp [inb]; omega)]
  refine forEach_eq_ub _ _ (fun t => t.shape = [nip, 8]) _ rfl (fun q hq t ht => ?_) ?_
  · rw [mem_it1] at hq
    by_cases h0 : q < n ∧ 0 < m
    · by_cases h1 : q < n ∧ 1 < m
      · by_cases h2 : q < n ∧ 2 < m
        · right
          rw [h.get h0.1 h0.2, h.get h1.1 h1.2, h.get h2.1 h2.2]
          simp [Ten.set, ht, hq]
        · left
          rw [h.get h0.1 h0.2, h.get h1.1 h1.2, bad q 2 h2]; rfl
      · left
        rw [h.get h0.1 h0.2, bad q 1 h1]; rfl
    · left
      rw [bad q 0 h0]; rfl
  · rcases hn with hn | ⟨hm, h0⟩
    · exact ⟨n, by rw [mem_it1]; omega, fun t _ => by rw [bad n 0 (by omega)]; rfl⟩
    · refine ⟨0, by rw [mem_it1]; omega, fun t _ => ?_⟩
      by_cases h1 : 0 < n ∧ 0 < m
      · by_cases h2 : 0 < n ∧ 1 < m
        · rw [h.get h1.1 h1.2, h.get h2.1 h2.2, bad 0 2 (by omega)]; rfl
        · rw [h.get h1.1 h1.2, bad 0 1 h2]; rfl
      · rw [bad 0 0 h1]; rfl

/-- **C108** (constructor of `Hex8::Quadrature`): again the assertion on `xi` stands after the loops that read `xi`. -/
theorem C108_new [CharZero α] {x xi w : Ten α} {n1 n2 n m : Nat} {X Ξ W} (hx : Is3 x ne n1 n2 X) (hxi : Is2 xi n m Ξ)
    (hw : Is1 w nip W) (σ : Sched) :
    (nip ≤ n → 3 ≤ m → Checked (new_checked σ x xi w) (new σ x xi w)
      (n1 = 8 ∧ n2 = 3 ∧ n = nip ∧ m = 3) fun Q => Live ne nip Ξ W Q X) ∧
    (n < nip ∨ (m < 3 ∧ 0 < nip) → new_checked σ x xi w = .ub) := by
  constructor
  · intro hn hm
    obtain ⟨⟨N, e, -⟩, D, e', -⟩ := shape_any hxi hn hm
    have hc : new_checked σ x xi w = if n1 = 8 ∧ n2 = 3 ∧ n = nip ∧ m = 3 then new σ x xi w else .throws := by
      rw [new_checked, new, hw.1, hx.1]
      dsimp only
      simp only [e, e', Res.ok_bind, gassert_bind, hxi.1]
      by_cases a1 : n1 = 8 <;> by_cases a2 : n2 = 3 <;> by_cases a3 : n = nip <;> by_cases a4 : m = 3 <;> simp [a1, a2, a3, a4]
    refine ⟨fun hv => ⟨by rw [hc, if_pos hv], ?_⟩, fun hv => by rw [hc, if_neg hv]⟩
    obtain ⟨rfl, rfl, rfl, rfl⟩ := hv
    obtain ⟨Q, e, hQ, -⟩ := new_ok hx hxi hw σ
    exact ⟨Q, e, .new hx hxi hw e⟩
  · intro hn
    rw [new_checked, hw.1, hx.1]
    dsimp only
    rw [shapeN_ub hxi hn]; rfl

/-- **C108** (`update_x`), at any moment in the life of the object. -/
theorem C108_update_x [CharZero α] {X Ξ W} (hQ : Live ne nip Ξ W Q X) (σ : Sched) {x : Ten α}
    (hx : Complete x) : Checked (update_x_checked σ Q x) (update_x σ Q x) (x.shape = [ne, 8, 3])
      fun Q' => ∃ X', Is3 x ne 8 3 X' ∧ Live ne nip Ξ W Q' X' := by
  have hs : Q.x.shape = [ne, 8, 3] := (live_holds hQ).2.2.1.1
  refine Checked.congr (Checked.of1 (p := x.shape = Q.x.shape) fun h => ?_) (by rw [hs])
  rw [hs] at h
  obtain ⟨X', hX⟩ := hx.is3 h
  obtain ⟨Q', e⟩ := update_ok hQ σ hX
  exact ⟨Q', e, X', hX, .update hQ hX e⟩

/-- Concrete case: eight weights but only seven integration points; and a mesh of quadrilaterals. -/
example : new_checked .seq (Ten.full [1, 8, 3] (0 : ℚ)) (Ten.full [7, 3] 0) (Ten.full [8] 1) = .ub ∧
    new_checked .seq (Ten.full [1, 4, 3] (0 : ℚ)) (Ten.full [8, 3] 0) (Ten.full [8] 1) = .throws := by
  have h1 : Is1 (Ten.full [8] (1 : ℚ)) 8 fun _ => 1 := ⟨rfl, fun _ _ => rfl⟩
  refine ⟨(C108_new (ne := 1) (n1 := 8) (n2 := 3) (X := fun _ _ _ => 0) ⟨rfl, fun _ _ _ _ _ _ => rfl⟩ (n := 7) (m := 3)
    (Ξ := fun _ _ => 0) ⟨rfl, fun _ _ _ _ => rfl⟩ h1 .seq).2 (by decide), ?_⟩
  exact ((C108_new (ne := 1) (n1 := 4) (n2 := 3) (X := fun _ _ _ => 0) ⟨rfl, fun _ _ _ _ _ _ => rfl⟩ (n := 8) (m := 3)
    (Ξ := fun _ _ => 0) ⟨rfl, fun _ _ _ _ => rfl⟩ h1 .seq).1 (by decide) (by decide)).2 (by decide)

end Hex8

namespace Axi
variable {A : QuadratureAxi α} {b : Nat → Nat → Nat → Nat → α}

/-- **C108** (`Quad4::QuadratureAxisymmetric`: constructor).  Here the assertions stand before the loops: every wrong `xi` throws. -/
theorem C108_new [CharZero α] {x xi w : Ten α} {n1 n2 n m : Nat} {X Ξ W} (hx : Is3 x ne n1 n2 X) (hxi : Is2 xi n m Ξ)
    (hw : Is1 w nip W) (pi : α) (σ : Sched) :
    Checked (new_checked pi σ x xi w) (Axi.new pi σ x xi w) (n1 = 4 ∧ n2 = 2 ∧ n = nip ∧ m = 2)
      fun A => Live pi ne nip Ξ W A X := by
  have hc : new_checked pi σ x xi w = if n1 = 4 ∧ n2 = 2 ∧ n = nip ∧ m = 2 then Axi.new pi σ x xi w else .throws := by
    rw [new_checked, hw.1, hx.1]
    dsimp only
    rw [gassert_bind, gassert_bind, gassert_bind, hxi.1]
    by_cases a1 : n1 = 4 <;> by_cases a2 : n2 = 2 <;> by_cases a3 : n = nip <;> by_cases a4 : m = 2 <;> simp [a1, a2, a3, a4]
  refine ⟨fun hv => ⟨by rw [hc, if_pos hv], ?_⟩, fun hv => by rw [hc, if_neg hv]⟩
  obtain ⟨rfl, rfl, rfl, rfl⟩ := hv
  obtain ⟨A, e, hA, -⟩ := new_ok hx hxi hw pi σ
  exact ⟨A, e, .new hx hxi hw e⟩

/-- Concrete case: the input on which the constructors of the other two quadrilateral classes read out of bounds. -/
example : new_checked (1 : ℚ) .seq (Ten.full [1, 4, 2] 0) (Ten.full [3, 2] 0) (Ten.full [4] 1) = .throws :=
  (C108_new (ne := 1) (n1 := 4) (n2 := 2) (X := fun _ _ _ => 0) ⟨rfl, fun _ _ _ _ _ _ => rfl⟩ (n := 3) (m := 2)
    (Ξ := fun _ _ => 0) ⟨rfl, fun _ _ _ _ => rfl⟩ (W := fun _ => 1) ⟨rfl, fun _ _ => rfl⟩ 1 .seq).2 (by decide)

theorem live_x {pi : α} {X Ξ W} (hA : Live pi ne nip Ξ W A X) [CharZero α] : Is3 A.x ne 4 2 X := by
  induction hA with
  | new hx hxi hw h =>
    rename_i σ _ _ _ _ _
    obtain ⟨A', h1, h2, h3, h4, -⟩ := new_ok hx hxi hw pi σ
    rw [h1] at h
    cases h
    exact h4 ▸ hx
  | update hA hx h ih =>
    rename_i σ x A A' _ _
    obtain ⟨i1, i2, i3⟩ := live_holds hA
    obtain ⟨g, v, h1, h2, h3, h4⟩ := compute_dN_ok (A := { A with x := x }) i1.ne_eq i1.nip_eq i1.N_is i2 hx i3 pi
      i1.B_shape i1.V_is.1 σ
    rw [update_x, h1] at h
    cases h
    exact hx

/-- **C108** (`update_x`), at any moment in the life of the object. -/
theorem C108_update_x [CharZero α] {pi : α} {X Ξ W} (hA : Live pi ne nip Ξ W A X) (σ : Sched) {x : Ten α}
    (hx : Complete x) : Checked (update_x_checked pi σ A x) (update_x pi σ A x) (x.shape = [ne, 4, 2])
      fun A' => ∃ X', Is3 x ne 4 2 X' ∧ Live pi ne nip Ξ W A' X' := by
  have hs : A.x.shape = [ne, 4, 2] := (live_x hA).1
  refine Checked.congr (Checked.of1 (p := x.shape = A.x.shape) fun h => ?_) (by rw [hs])
  rw [hs] at h
  obtain ⟨X', hX⟩ := hx.is3 h
  obtain ⟨i1, i2, i3⟩ := live_holds hA
  obtain ⟨g, v, e, -⟩ := compute_dN_ok (A := { A with x := x }) i1.ne_eq i1.nip_eq i1.N_is i2 hX i3 pi
    i1.B_shape i1.V_is.1 σ
  exact ⟨_, e, X', hX, .update hA hX e⟩

/-- **C108** (`Quad4::QuadratureAxisymmetric`: methods). -/
theorem C108_methods (h : AHolds A ne nip N b V) (σ : Sched) {x : Ten α} (hx : Complete x) :
    Checked (GradN_vector_checked A σ x) (GradN_vector A σ x) (x.shape = [ne, 4, 2]) (CompleteOf [ne, nip, 3, 3]) ∧
    Checked (GradN_vector_T_checked A σ x) (GradN_vector_T A σ x) (x.shape = [ne, 4, 2]) (CompleteOf [ne, nip, 3, 3]) ∧
    Checked (SymGradN_vector_checked A σ x) (SymGradN_vector A σ x) (x.shape = [ne, 4, 2]) (CompleteOf [ne, nip, 3, 3]) := by
  have s1 : A.shape_elemvec = [ne, 4, 2] := by simp [Quadrature.shape_elemvec, h.ne_eq, h.nne_eq, h.nd_eq]
  refine ⟨?_, ?_, ?_⟩ <;>
    refine Checked.congr (Checked.of1 (p := x.shape = A.shape_elemvec) fun hs => ?_) (by rw [s1]) <;> rw [s1] at hs <;>
    obtain ⟨f, hf⟩ := hx.is3 hs
  · obtain ⟨⟨t, e, ht⟩, -, -⟩ := grads_ok h σ hf
    exact ⟨t, e, ht.complete⟩
  · obtain ⟨-, ⟨t, e, ht⟩, -⟩ := grads_ok h σ hf
    exact ⟨t, e, ht.complete⟩
  · obtain ⟨-, -, t, e, ht⟩ := grads_ok h σ hf
    exact ⟨t, e, ht.complete⟩

/-- **C108** (`Quad4::QuadratureAxisymmetric`: integrals). -/
theorem C108_integrals (h : AHolds A ne nip N b V) (σ : Sched) {x : Ten α} (hx : Complete x) :
    Checked (Int_N_scalar_NT_dV_checked A σ x) (Int_N_scalar_NT_dV A σ x) (x.shape = [ne, nip]) (CompleteOf [ne, 8, 8]) ∧
    Checked (Int_gradN_dot_tensor2_dV_checked A σ x) (Int_gradN_dot_tensor2_dV A σ x) (x.shape = [ne, nip, 3, 3])
      (CompleteOf [ne, 4, 2]) ∧
    Checked (Int_gradN_dot_tensor4_dot_gradNT_dV_checked A σ x) (Int_gradN_dot_tensor4_dot_gradNT_dV A σ x)
      (x.shape = [ne, nip, 3, 3, 3, 3]) (CompleteOf [ne, 8, 8]) := by
  have s1 : A.shape_qscalar = [ne, nip] := by simp [Quadrature.shape_qscalar, h.ne_eq, h.nip_eq]
  have s2 : A.shape_qtensor 2 = [ne, nip, 3, 3] := by
    simp [Quadrature.shape_qtensor, h.ne_eq, h.nip_eq, h.td_eq, List.replicate]
  have s3 : A.shape_qtensor 4 = [ne, nip, 3, 3, 3, 3] := by
    simp [Quadrature.shape_qtensor, h.ne_eq, h.nip_eq, h.td_eq, List.replicate]
  refine ⟨?_, ?_, ?_⟩
  · refine Checked.congr (Checked.of1 (p := x.shape = A.shape_qscalar) fun hs => ?_) (by rw [s1])
    rw [s1] at hs
    obtain ⟨f, hf⟩ := hx.is2 hs
    obtain ⟨t, e, h1, h2⟩ := Quad4.mass_ok h.N_is h.V_is σ hf (Ten.empty A.shape_elemmat) (by
      simp [Ten.empty, Quadrature.shape_elemmat, h.ne_eq, h.nne_eq, h.nd_eq])
    exact ⟨t, by rw [Int_N_scalar_NT_dV, h.ne_eq, h.nip_eq]; exact e, blocks_complete (nne := 4) (nd := 2) h1 h2⟩
  · refine Checked.congr (Checked.of1 (p := x.shape = A.shape_qtensor 2) fun hs => ?_) (by rw [s2])
    rw [s2] at hs
    obtain ⟨f, hf⟩ := hx.is4 hs
    obtain ⟨t, e, ht⟩ := force_ok h σ hf
    exact ⟨t, e, ht.complete⟩
  · refine Checked.congr (Checked.of1 (p := x.shape = A.shape_qtensor 4) fun hs => ?_) (by rw [s3])
    rw [s3] at hs
    obtain ⟨f, hf⟩ := hx.is6 hs
    obtain ⟨t, e, h1, h2⟩ := stiff_ok h σ hf
    exact ⟨t, e, blocks_complete (nne := 4) (nd := 2) h1 h2⟩

end Axi
end Element
end GF
