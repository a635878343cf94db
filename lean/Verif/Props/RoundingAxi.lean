import Verif.Props.RoundingMatrix
import Verif.Lemmas.RoundingAxi

/-! **C107**, axisymmetric element: the gradients, the forces and the construction in floating-point arithmetic.  The five
gradient components `a = 0 .. 4` are `(r,r), (θ,θ), (z,z), (r,z), (z,r)`: position `(ci a, cj a)`, driven by displacement
component `dof a` (`Lemmas/ElementAxi.lean`); `b a` are the stored coefficients. -/

namespace GF.Element.Axi
open Finset

variable {α : Type} [Field α] [LinearOrder α] [IsStrictOrderedRing α] {r : Rounding α}

/-- the stored arrays, taken as exact -/
def _root_.GF.Element.QuadratureAxi.bound (A : QuadratureAxi r.Num) : QuadratureAxi (Bound α) :=
  ⟨A.toQuadrature.bound, A.B.map' fun x => Bound.of x.val⟩

theorem ASim.bound (A : QuadratureAxi r.Num) : ASim (Rounds r) A A.bound := ⟨QSim.bound _, TenSim.exact _⟩

theorem get_map' {β γ : Type} {t : Ten β} {p : List Nat} {x : β} (h : t.get p = .ok x) (g : β → γ) :
    (t.map' g).get p = .ok (g x) := by
  unfold Ten.get at h
  split at h
  · rename_i hin
    cases hv : t.v p with
    | none => rw [hv] at h; cases h
    | some y =>
      rw [hv] at h
      cases h
      have hin' : inb (t.map' g).shape p = true := hin
      have hv' : (t.map' g).v p = some (g x) := by simp only [Ten.map', hv, Option.map_some]
      rw [Ten.get, if_pos hin', hv']
  · cases h

theorem AHolds.bound {A : QuadratureAxi r.Num} {ne nip : Nat} {N b V} (h : AHolds A ne nip N b V) :
    AHolds A.bound ne nip (fun q m => Bound.of (N q m).val) (fun a e q m => Bound.of (b a e q m).val)
      (fun e q => Bound.of (V e q).val) :=
  ⟨h.nne_eq, h.nd_eq, h.td_eq, h.ne_eq, h.nip_eq, h.N_is.lift _, h.B_shape,
    fun a e q m ha he hq hm => get_map' (h.B_is a e q m ha he hq hm) _, h.V_is.lift _⟩

/-- **C107** (construction, axisymmetric): in rounded arithmetic too the constructor only fails or not depending on the
shapes, and fills its arrays. -/
theorem C107_new_axi {ne nip : Nat} {pi : r.Num} {x xi w : Ten r.Num} {X : Nat → Nat → Nat → r.Num} {Ξ : Nat → Nat → r.Num}
    {W : Nat → r.Num} (σ : Sched) (hx : Is3 x ne 4 2 X) (hxi : Is2 xi nip 2 Ξ) (hw : Is1 w nip W) :
    IsOk (Axi.new pi σ x xi w) fun A => ∃ N b V, AHolds A ne nip N b V := by
  have any : ∀ t : Ten r.Num, TenSim (Any r.Num α) t (t.map' fun x => x.val) := fun t => TenSim.map' (fun _ => trivial) t
  obtain ⟨Q, h1, h2, -⟩ := Axi.new_ok (hx.lift fun x : r.Num => x.val) (hxi.lift fun x : r.Num => x.val)
    (hw.lift fun x : r.Num => x.val) pi.val σ
  obtain ⟨P, h3, h4, h5⟩ := Axi.new_any (any x) (any xi) (any w) pi pi.val σ Q h1
  have i2 : ∀ {s : Ten r.Num} {t : Ten α} {n m f}, TenSim (Any r.Num α) s t → Is2 t n m f → ∃ g, Is2 s n m g := by
    intro s t n m f h1 h2
    have h3 : ∀ i j, ∃ a, i < n → j < m → s.v [i, j] = some a := by
      intro i j
      by_cases hi : i < n ∧ j < m
      · obtain ⟨a, ha, -⟩ := h1.2 _ _ (h2.2 i j hi.1 hi.2)
        exact ⟨a, fun _ _ => ha⟩
      · exact ⟨0, fun h h' => absurd ⟨h, h'⟩ hi⟩
    choose g hg using h3
    exact ⟨g, by rw [h1.1, h2.1], fun i j hi hj => hg i j hi hj⟩
  have i4 : ∀ a e q m, ∃ z, a < 5 → e < ne → q < nip → m < 4 → P.B.get ([e, q, m] ++ bI a) = .ok z := by
    intro a e q m
    by_cases hi : a < 5 ∧ e < ne ∧ q < nip ∧ m < 4
    · obtain ⟨z, hz, -⟩ := h5.get ([e, q, m] ++ bI a) _ (h2.B_is a e q m hi.1 hi.2.1 hi.2.2.1 hi.2.2.2)
      exact ⟨z, fun _ _ _ _ => hz⟩
    · exact ⟨0, fun h1 h2 h3 h4 => absurd ⟨h1, h2, h3, h4⟩ hi⟩
  choose b hb using i4
  obtain ⟨N', hN⟩ := i2 h4.N h2.N_is
  obtain ⟨V', hV⟩ := i2 h4.vol h2.V_is
  exact ⟨P, h3, N', b, V', by rw [h4.nne, h2.nne_eq], by rw [h4.ndim, h2.nd_eq], by rw [h4.tdim, h2.td_eq],
    by rw [h4.nelem, h2.ne_eq], by rw [h4.nip, h2.nip_eq], hN, by rw [h5.1, h2.B_shape], hb, hV⟩

variable {A : QuadratureAxi r.Num} {ne nip : Nat} {N : Nat → Nat → r.Num} {b : Nat → Nat → Nat → Nat → r.Num}
  {V : Nat → Nat → r.Num}

theorem ga_bound (b : Nat → Nat → Nat → Nat → r.Num) (U : Nat → Nat → Nat → r.Num) (e q a : Nat) :
    (ga (fun a e q m => Bound.of (b a e q m).val) (fun e m j => Bound.of (U e m j).val) e q a).exact =
        ∑ m ∈ range 4, (b a e q m).val * (U e m (dof a)).val ∧
    (ga (fun a e q m => Bound.of (b a e q m).val) (fun e m j => Bound.of (U e m j).val) e q a).size =
        ∑ m ∈ range 4, |(b a e q m).val| * |(U e m (dof a)).val| ∧
    (ga (fun a e q m => Bound.of (b a e q m).val) (fun e m j => Bound.of (U e m j).val) e q a).terms = 4 ∧
    (ga (fun a e q m => Bound.of (b a e q m).val) (fun e m j => Bound.of (U e m j).val) e q a).depth ≤ 1 := by
  refine ⟨by simp [ga, Bound.sum_exact], by simp [ga, Bound.sum_size], by simp [ga, Bound.sum_terms], ?_⟩
  exact Bound.sum_depth fun m _ => by simp [Bound.roundings]

/-- **C107** (gradients, axisymmetric): each of the five components of the displacement gradient is the sum over the four
nodes up to the error of 4 roundings, the other four entries are exactly zero; in the symmetric gradient the diagonal is
as accurate, and the shear is the mean of the two components up to the error of 10 roundings. -/
theorem C107_gradN_axi (h : AHolds A ne nip N b V) (σ : Sched) {u : Ten r.Num} {U : Nat → Nat → Nat → r.Num}
    (hu : Is3 u ne 4 2 U) :
    (IsOk (GradN_vector A σ u) fun t => t.shape = [ne, nip, 3, 3] ∧ ∀ e q, e < ne → q < nip →
      (∀ a, a < 5 → ∃ z, t.v [e, q, ci a, cj a] = some z ∧
        |z.val - ∑ m ∈ range 4, (b a e q m).val * (U e m (dof a)).val| ≤
          r.acc 4 * ∑ m ∈ range 4, |(b a e q m).val| * |(U e m (dof a)).val|) ∧
      ∀ i j, i < 3 → j < 3 → (i = 1 ∨ j = 1) → i ≠ j → ∃ z, t.v [e, q, i, j] = some z ∧ z.val = 0) ∧
    (IsOk (SymGradN_vector A σ u) fun t => t.shape = [ne, nip, 3, 3] ∧ ∀ e q, e < ne → q < nip →
      (∀ a, a < 3 → ∃ z, t.v [e, q, a, a] = some z ∧
        |z.val - ∑ m ∈ range 4, (b a e q m).val * (U e m (dof a)).val| ≤
          r.acc 4 * ∑ m ∈ range 4, |(b a e q m).val| * |(U e m (dof a)).val|) ∧
      (∀ i j, (i = 0 ∧ j = 2) ∨ (i = 2 ∧ j = 0) → ∃ z, t.v [e, q, i, j] = some z ∧
        |z.val - ∑ m ∈ range 4, ((b 3 e q m).val * (U e m 0).val + (b 4 e q m).val * (U e m 1).val) / 2| ≤
          r.acc 10 * ∑ m ∈ range 4, (|(b 3 e q m).val| * |(U e m 0).val| + |(b 4 e q m).val| * |(U e m 1).val|) / 2) ∧
      ∀ i j, i < 3 → j < 3 → (i = 1 ∨ j = 1) → i ≠ j → ∃ z, t.v [e, q, i, j] = some z ∧ z.val = 0) := by
  obtain ⟨⟨t, h1, h2⟩, -, t', h3, h4⟩ := grads_raw h.bound σ (hu.lift fun x : r.Num => Bound.of x.val)
  obtain ⟨y, h5, h6⟩ := GradN_vector_sim (Rounds.arith r) (ASim.bound A) σ (TenSim.exact u) t h1
  obtain ⟨y', h7, h8⟩ := SymGradN_vector_sim (Rounds.arith r) (ASim.bound A) σ (TenSim.exact u) t' h3
  have hcj : ∀ a, a < 5 → ci a < 3 ∧ cj a < 3 := by intro a ha; interval_cases a <;> simp [ci, cj]
  have off : ∀ e q i j, (i = 1 ∨ j = 1) → i ≠ j → gA (fun a e q m => Bound.of (b a e q m).val)
      (fun e m j => Bound.of (U e m j).val) e q i j = 0 := fun e q i j hij hne => gA_off _ _ _ _ fun a ha => by
    interval_cases a <;> simp [ci, cj] <;> omega
  have z0 : ∀ {z : r.Num}, Rounds r z (0 : Bound α) → z.val = 0 := fun hz => (hz.none rfl).1
  have nrm : ∀ e q a (z : r.Num), Rounds r z (ga (fun a e q m => Bound.of (b a e q m).val)
      (fun e m j => Bound.of (U e m j).val) e q a) →
      |z.val - ∑ m ∈ range 4, (b a e q m).val * (U e m (dof a)).val| ≤
          r.acc 4 * ∑ m ∈ range 4, |(b a e q m).val| * |(U e m (dof a)).val| := by
    intro e q a z hz
    obtain ⟨e1, e2, e3, e4⟩ := ga_bound b U e q a
    have h9 := hz.mono (n := 4) (by unfold Bound.roundings; omega)
    rwa [e1, e2] at h9
  refine ⟨⟨y, h5, by rw [h6.1, h2.1], fun e q he hq => ⟨fun a ha => ?_, fun i j hi hj hij hne => ?_⟩⟩,
    ⟨y', h7, by rw [h8.1, h4.1], fun e q he hq => ⟨fun a ha => ?_, fun i j hij => ?_, fun i j hi hj hij hne => ?_⟩⟩⟩
  · obtain ⟨z, h9, h10⟩ := h6.entry (h2.2 e q _ _ he hq (hcj a ha).1 (hcj a ha).2)
    beta_reduce at h10
    rw [gA_of _ _ _ _ ha] at h10
    exact ⟨z, h9, nrm _ _ _ _ h10⟩
  · obtain ⟨z, h9, h10⟩ := h6.entry (h2.2 e q i j he hq hi hj)
    beta_reduce at h10
    rw [off _ _ _ _ hij hne] at h10
    exact ⟨z, h9, z0 h10⟩
  · obtain ⟨z, h9, h10⟩ := h8.entry (h4.2 e q a a he hq ha ha)
    have ea : a = ci a ∧ a = cj a := by interval_cases a <;> simp [ci, cj]
    have h11 : symA (gA (fun a e q m => Bound.of (b a e q m).val) (fun e m j => Bound.of (U e m j).val) e q) a a =
        ga (fun a e q m => Bound.of (b a e q m).val) (fun e m j => Bound.of (U e m j).val) e q a := by
      rw [symA, if_pos rfl, ← gA_of _ _ _ _ (show a < 5 by omega), ← ea.1, ← ea.2]
    beta_reduce at h10
    rw [h11] at h10
    exact ⟨z, h9, nrm _ _ _ _ h10⟩
  · have hb : i < 3 ∧ j < 3 := by omega
    obtain ⟨z, h9, h10⟩ := h8.entry (h4.2 e q i j he hq hb.1 hb.2)
    refine ⟨z, h9, ?_⟩
    have g3 : gA (fun a e q m => Bound.of (b a e q m).val) (fun e m j => Bound.of (U e m j).val) e q 0 2 = _ :=
      gA_of _ _ e q (a := 3) (by omega)
    have g4 : gA (fun a e q m => Bound.of (b a e q m).val) (fun e m j => Bound.of (U e m j).val) e q 2 0 = _ :=
      gA_of _ _ e q (a := 4) (by omega)
    have h11 : symA (gA (fun a e q m => Bound.of (b a e q m).val) (fun e m j => Bound.of (U e m j).val) e q) i j =
        1 / 2 * (ga (fun a e q m => Bound.of (b a e q m).val) (fun e m j => Bound.of (U e m j).val) e q 3 +
          ga (fun a e q m => Bound.of (b a e q m).val) (fun e m j => Bound.of (U e m j).val) e q 4) := by
      rw [symA, if_neg (by omega), if_pos (by omega)]
      rcases hij with ⟨rfl, rfl⟩ | ⟨rfl, rfl⟩
      · rw [g3, g4]
      · rw [g3, g4, add_comm]
    beta_reduce at h10
    rw [h11] at h10
    obtain ⟨e1, e2, e3, e4⟩ := ga_bound b U e q 3
    obtain ⟨f1, f2, f3, f4⟩ := ga_bound b U e q 4
    have h12 := h10.mono (n := 10) (by
      simp only [Bound.roundings, Bound.mul_terms, Bound.mul_depth, Bound.add_terms, Bound.add_depth, Bound.div_terms,
        Bound.div_depth, Bound.one_terms, Bound.one_depth]
      omega)
    simp only [Bound.mul_exact, Bound.mul_size, Bound.div_exact, Bound.div_size, Bound.add_exact, Bound.add_size,
      Bound.one_exact, Bound.one_size, Bound.two_exact, e1, e2, f1, f2, abs_two] at h12
    have d3 : dof 3 = 0 := rfl
    have d4 : dof 4 = 1 := rfl
    rw [d3, d4, ← sum_add_distrib, ← sum_add_distrib, mul_sum, mul_sum] at h12
    simpa only [one_div, inv_mul_eq_div] using h12
  · obtain ⟨z, h9, h10⟩ := h8.entry (h4.2 e q i j he hq hi hj)
    beta_reduce at h10
    rw [symA, if_neg hne, if_neg (by omega)] at h10
    exact ⟨z, h9, z0 h10⟩

/-- the force on a node of an element, as a bound -/
theorem force_bound (nip : Nat) (g s : Nat → Nat → α) (v : Nat → α) (j : Nat) :
    (∑ q ∈ range nip, if j = 0 then Bound.of (v q) * (Bound.of (g 2 q) * Bound.of (s 2 q) + Bound.of (g 3 q) * Bound.of (s 3 q))
      else Bound.of (v q) * (Bound.of (g 0 q) * Bound.of (s 0 q) + Bound.of (g 1 q) * Bound.of (s 1 q) +
        Bound.of (g 4 q) * Bound.of (s 4 q))).exact =
      ∑ q ∈ range nip, (if j = 0 then g 2 q * s 2 q + g 3 q * s 3 q else g 0 q * s 0 q + g 1 q * s 1 q + g 4 q * s 4 q) * v q ∧
    (∑ q ∈ range nip, if j = 0 then Bound.of (v q) * (Bound.of (g 2 q) * Bound.of (s 2 q) + Bound.of (g 3 q) * Bound.of (s 3 q))
      else Bound.of (v q) * (Bound.of (g 0 q) * Bound.of (s 0 q) + Bound.of (g 1 q) * Bound.of (s 1 q) +
        Bound.of (g 4 q) * Bound.of (s 4 q))).size =
      ∑ q ∈ range nip, (if j = 0 then |g 2 q| * |s 2 q| + |g 3 q| * |s 3 q|
        else |g 0 q| * |s 0 q| + |g 1 q| * |s 1 q| + |g 4 q| * |s 4 q|) * |v q| ∧
    (∑ q ∈ range nip, if j = 0 then Bound.of (v q) * (Bound.of (g 2 q) * Bound.of (s 2 q) + Bound.of (g 3 q) * Bound.of (s 3 q))
      else Bound.of (v q) * (Bound.of (g 0 q) * Bound.of (s 0 q) + Bound.of (g 1 q) * Bound.of (s 1 q) +
        Bound.of (g 4 q) * Bound.of (s 4 q))).roundings ≤ nip - 1 + 4 := by
  refine ⟨?_, ?_, ?_⟩
  · rw [Bound.sum_exact]
    refine sum_congr rfl fun q _ => ?_
    split <;> simp [mul_comm (v q)]
  · rw [Bound.sum_size]
    refine sum_congr rfl fun q _ => ?_
    split <;> simp [mul_comm |v q|]
  · have h1 : ∀ q ∈ range nip, (if j = 0 then Bound.of (v q) * (Bound.of (g 2 q) * Bound.of (s 2 q) + Bound.of (g 3 q) * Bound.of (s 3 q))
      else Bound.of (v q) * (Bound.of (g 0 q) * Bound.of (s 0 q) + Bound.of (g 1 q) * Bound.of (s 1 q) +
        Bound.of (g 4 q) * Bound.of (s 4 q))).depth ≤ 4 := fun q _ => by split <;> simp [Bound.roundings]
    have h2 := Bound.sum_depth h1
    have h3 : (∑ q ∈ range nip, if j = 0 then Bound.of (v q) * (Bound.of (g 2 q) * Bound.of (s 2 q) + Bound.of (g 3 q) * Bound.of (s 3 q))
      else Bound.of (v q) * (Bound.of (g 0 q) * Bound.of (s 0 q) + Bound.of (g 1 q) * Bound.of (s 1 q) +
        Bound.of (g 4 q) * Bound.of (s 4 q))).terms = nip := by
      rw [Bound.sum_terms]
      have : ∀ q ∈ range nip, (if j = 0 then Bound.of (v q) * (Bound.of (g 2 q) * Bound.of (s 2 q) + Bound.of (g 3 q) * Bound.of (s 3 q))
        else Bound.of (v q) * (Bound.of (g 0 q) * Bound.of (s 0 q) + Bound.of (g 1 q) * Bound.of (s 1 q) +
        Bound.of (g 4 q) * Bound.of (s 4 q))).terms = 1 := fun q _ => by split <;> rfl
      rw [sum_congr rfl this]
      simp
    unfold Bound.roundings
    omega

/-- **C107** (forces, axisymmetric): the axial (`j = 0`) and radial (`j = 1`) nodal force of an element is the quadrature
sum of the stored coefficients, the stress and the volumes up to the error of `nip + 3` roundings (`nip - 1` additions and at
most 4 in each term). -/
theorem C107_force_axi (h : AHolds A ne nip N b V) (σ : Sched) {s : Ten r.Num} {S : Nat → Nat → Nat → Nat → r.Num}
    (hs : Is4 s ne nip 3 3 S) :
    IsOk (Int_gradN_dot_tensor2_dV A σ s) fun t => t.shape = [ne, 4, 2] ∧ ∀ e m j, e < ne → m < 4 → j < 2 →
      ∃ z, t.v [e, m, j] = some z ∧
        |z.val - ∑ q ∈ range nip, (if j = 0 then (b 2 e q m).val * (S e q 2 2).val + (b 3 e q m).val * (S e q 0 2).val
            else (b 0 e q m).val * (S e q 0 0).val + (b 1 e q m).val * (S e q 1 1).val +
              (b 4 e q m).val * (S e q 2 0).val) * (V e q).val| ≤
          r.acc (nip - 1 + 4) * ∑ q ∈ range nip, (if j = 0 then
              |(b 2 e q m).val| * |(S e q 2 2).val| + |(b 3 e q m).val| * |(S e q 0 2).val|
            else |(b 0 e q m).val| * |(S e q 0 0).val| + |(b 1 e q m).val| * |(S e q 1 1).val| +
              |(b 4 e q m).val| * |(S e q 2 0).val|) * |(V e q).val| := by
  obtain ⟨t, h1, h2⟩ := force_raw h.bound σ (hs.lift fun x : r.Num => Bound.of x.val)
  obtain ⟨y, h3, h4⟩ := Int_gradN_dot_tensor2_dV_sim (Rounds.arith r) (ASim.bound A) σ (TenSim.exact s) t h1
  refine ⟨y, h3, by rw [h4.1, h2.1], fun e m j he hm hj => ?_⟩
  obtain ⟨z, h5, h6⟩ := h4.entry (h2.2 e m j he hm hj)
  obtain ⟨h7, h8, h9⟩ := force_bound (α := α) nip (fun a q => (b a e q m).val)
    (fun a q => (S e q (ci a) (cj a)).val) (fun q => (V e q).val) j
  have h10 := Rounds.mono h6 h9
  exact ⟨z, h5, (le_of_eq (congrArg (fun x => |z.val - x|) h7.symm)).trans
    (h10.trans (le_of_eq (congrArg (fun x => r.acc (nip - 1 + 4) * x) h8)))⟩

/-- **C107** (internal force, axisymmetric): stress to nodal force vector.  At a DOF with `n` contributions the error is
that of `n - 1 + nip + 3` roundings. -/
theorem C107_internal_force_axi {W : Vector} {c d : Nat → Nat → Nat} (hW : W.Holds c d) (hne : W.nne = 4) (hnd : W.ndim = 2)
    (h : AHolds A W.nelem nip N b V) (σ σ' : Sched) {s : Ten r.Num} {S : Nat → Nat → Nat → Nat → r.Num}
    (hs : Is4 s W.nelem nip 3 3 S) :
    IsOk (do
      let f ← Int_gradN_dot_tensor2_dV A σ s
      W.AssembleNode σ' f) fun t => t.shape = [W.nnode, 2] ∧ ∀ n k, n < W.nnode → k < 2 → ∃ z, t.v [n, k] = some z ∧
        |z.val - ∑ e ∈ range W.nelem, ∑ m ∈ range 4, ∑ j ∈ range 2, if d (c e m) j = d n k then
            ∑ q ∈ range nip, (if j = 0 then (b 2 e q m).val * (S e q 2 2).val + (b 3 e q m).val * (S e q 0 2).val
              else (b 0 e q m).val * (S e q 0 0).val + (b 1 e q m).val * (S e q 1 1).val +
                (b 4 e q m).val * (S e q 2 0).val) * (V e q).val else 0| ≤
          r.acc ((∑ e ∈ range W.nelem, ∑ m ∈ range 4, ∑ j ∈ range 2, if d (c e m) j = d n k then 1 else 0) - 1 +
              (nip - 1 + 4)) *
            ∑ e ∈ range W.nelem, ∑ m ∈ range 4, ∑ j ∈ range 2, if d (c e m) j = d n k then
              ∑ q ∈ range nip, (if j = 0 then
                  |(b 2 e q m).val| * |(S e q 2 2).val| + |(b 3 e q m).val| * |(S e q 0 2).val|
                else |(b 0 e q m).val| * |(S e q 0 0).val| + |(b 1 e q m).val| * |(S e q 1 1).val| +
                  |(b 4 e q m).val| * |(S e q 2 0).val|) * |(V e q).val| else 0 := by
  obtain ⟨t, h1, h2⟩ := force_raw h.bound σ (hs.lift fun x : r.Num => Bound.of x.val)
  obtain ⟨y, h3, h4⟩ := Int_gradN_dot_tensor2_dV_sim (Rounds.arith r) (ASim.bound A) σ (TenSim.exact s) t h1
  obtain ⟨B, hB⟩ : ∃ B : Nat → Nat → Nat → Bound α, B = fun e m j => (∑ q ∈ range nip, if j = 0 then
      Bound.of (V e q).val * (Bound.of (b 2 e q m).val * Bound.of (S e q (ci 2) (cj 2)).val +
        Bound.of (b 3 e q m).val * Bound.of (S e q (ci 3) (cj 3)).val)
      else Bound.of (V e q).val * (Bound.of (b 0 e q m).val * Bound.of (S e q (ci 0) (cj 0)).val +
        Bound.of (b 1 e q m).val * Bound.of (S e q (ci 1) (cj 1)).val +
        Bound.of (b 4 e q m).val * Bound.of (S e q (ci 4) (cj 4)).val)).seal := ⟨_, rfl⟩
  have h5' := h2.lift Bound.seal
  have h5 : Is3 (t.map' Bound.seal) W.nelem W.nne W.ndim B := by rw [hne, hnd, hB]; exact h5'
  obtain ⟨z, h6, h7, h8⟩ := assembleNode_core hW σ' h4.seal h5
  rw [hnd] at h7
  refine ⟨z, by rw [h3]; exact h6, h7, fun n k hn hk => ?_⟩
  obtain ⟨w, h9, h10⟩ := h8 n k hn (by omega)
  refine ⟨w, h9, ?_⟩
  have fb := fun e m j => force_bound (α := α) nip (fun a q => (b a e q m).val)
    (fun a q => (S e q (ci a) (cj a)).val) (fun q => (V e q).val) j
  have h11 := h10.mono (contributions_le (V := W) (c := c) (d := d) (k := d n k) (D := nip - 1 + 4) (fun e m j _ _ _ => by
    rw [hB]; exact ⟨rfl, (fb e m j).2.2⟩) rfl)
  have hx : ∀ e m j, (B e m j).exact = ∑ q ∈ range nip, (if j = 0 then
      (b 2 e q m).val * (S e q 2 2).val + (b 3 e q m).val * (S e q 0 2).val
      else (b 0 e q m).val * (S e q 0 0).val + (b 1 e q m).val * (S e q 1 1).val +
        (b 4 e q m).val * (S e q 2 0).val) * (V e q).val := fun e m j => by subst hB; exact (fb e m j).1
  have hz : ∀ e m j, (B e m j).size = ∑ q ∈ range nip, (if j = 0 then
      |(b 2 e q m).val| * |(S e q 2 2).val| + |(b 3 e q m).val| * |(S e q 0 2).val|
      else |(b 0 e q m).val| * |(S e q 0 0).val| + |(b 1 e q m).val| * |(S e q 1 1).val| +
        |(b 4 e q m).val| * |(S e q 2 0).val|) * |(V e q).val| := fun e m j => by subst hB; exact (fb e m j).2.1
  simp only [Bound.sum_exact, Bound.sum_size, apply_ite Bound.exact, apply_ite Bound.size, Bound.zero_exact, Bound.zero_size,
    hx, hz] at h11
  rw [hne, hnd] at h11
  exact h11

/-- **C107** (mass matrix, axisymmetric): the entries that couple the same component are quadrature sums up to the error of
`nip + 2` roundings, the others are exactly zero. -/
theorem C107_mass_axi (h : AHolds A ne nip N b V) (σ : Sched) {ρ : Ten r.Num} {P : Nat → Nat → r.Num}
    (hρ : Is2 ρ ne nip P) :
    IsOk (Int_N_scalar_NT_dV A σ ρ) fun t => t.shape = [ne, 8, 8] ∧
      ∀ e m n i j, e < ne → m < 4 → n < 4 → i < 2 → j < 2 → ∃ z, t.v [e, m * 2 + i, n * 2 + j] = some z ∧
        (i ≠ j → z.val = 0) ∧ (i = j →
        |z.val - ∑ q ∈ range nip, (N q m).val * (P e q).val * (N q n).val * (V e q).val| ≤
          r.acc (nip - 1 + 3) * ∑ q ∈ range nip, |(N q m).val| * |(P e q).val| * |(N q n).val| * |(V e q).val|) := by
  have hs : A.shape_elemmat = [ne, 8, 8] := by rw [Quadrature.shape_elemmat, h.ne_eq, h.nne_eq, h.nd_eq]
  obtain ⟨t, h1, h2, h3⟩ := Quad4.mass_ok h.bound.N_is h.bound.V_is σ (hρ.lift fun x : r.Num => Bound.of x.val)
    (Ten.empty [ne, 8, 8]) rfl
  obtain ⟨y, h4, h5⟩ := Quad4.int_N_scalar_NT_dV_impl_sim (Rounds.arith r) (ASim.bound A).q.N (ASim.bound A).q.vol σ ne nip
    (TenSim.exact ρ) (s0 := Ten.empty [ne, 8, 8]) (t0 := Ten.empty [ne, 8, 8]) rfl t h1
  refine ⟨y, by rw [Int_N_scalar_NT_dV, hs, h.ne_eq, h.nip_eq, h4], by rw [h5.1, h2],
    fun e m n i j he hm hn hi hj => ?_⟩
  obtain ⟨z, h6, h7⟩ := h5.entry (h3 e m n i j he hm hn hi hj)
  refine ⟨z, h6, fun hij => ?_, fun hij => ?_⟩
  · rw [if_neg hij] at h7
    exact (h7.none rfl).1
  · rw [if_pos hij] at h7
    obtain ⟨h8, h9, h10, h11⟩ := products_bound (α := α) (range nip) (fun q => (N q m).val) (fun q => (P e q).val)
      (fun q => (N q n).val) fun q => (V e q).val
    have h12 := h7.mono (n := nip - 1 + 3) (by
      rw [card_range] at h10
      unfold Bound.roundings
      omega)
    rwa [h8, h9] at h12

/-- **C107** (stiffness matrix, axisymmetric): entry `(m j, n k)` of the element matrix is the sum of its products -- one for
every pair of gradient components driven by displacement components `j` and `k`: 4, 6 or 9 per integration point -- up to the
error of that many roundings and 2. -/
theorem C107_stiffness_axi (h : AHolds A ne nip N b V) (σ : Sched) {c : Ten r.Num}
    {C : Nat → Nat → Nat → Nat → Nat → Nat → r.Num} (hc : Is6 c ne nip 3 3 3 3 C) :
    IsOk (Int_gradN_dot_tensor4_dot_gradNT_dV A σ c) fun t => t.shape = [ne, 8, 8] ∧
      ∀ e m n j k, e < ne → m < 4 → n < 4 → j < 2 → k < 2 → ∃ z, t.v [e, m * 2 + j, n * 2 + k] = some z ∧
        |z.val - ∑ q ∈ range nip, ∑ a ∈ range 5, ∑ a' ∈ range 5, if dof a = j ∧ dof a' = k then
            (b a e q m).val * (C e q (ci a) (cj a) (cj a') (ci a')).val * (b a' e q n).val * (V e q).val else 0| ≤
          r.acc (nip * ((2 + j) * (2 + k)) - 1 + 3) *
            ∑ q ∈ range nip, ∑ a ∈ range 5, ∑ a' ∈ range 5, if dof a = j ∧ dof a' = k then
              |(b a e q m).val| * |(C e q (ci a) (cj a) (cj a') (ci a')).val| * |(b a' e q n).val| * |(V e q).val| else 0 := by
  obtain ⟨t, h1, h2, h3⟩ := stiff_ok h.bound σ (hc.lift fun x : r.Num => Bound.of x.val)
  obtain ⟨y, h4, h5⟩ := Int_gradN_dot_tensor4_dot_gradNT_dV_sim (Rounds.arith r) (ASim.bound A) σ (TenSim.exact c) t h1
  refine ⟨y, h4, by rw [h5.1, h2], fun e m n j k he hm hn hj hk => ?_⟩
  obtain ⟨z, h6, h7⟩ := h5.entry (h3 e m n j k he hm hn hj hk)
  refine ⟨z, h6, ?_⟩
  have h8 := h7.mono (n := nip * ((2 + j) * (2 + k)) - 1 + 3) (by
    unfold Bound.roundings
    refine Nat.add_le_add (Nat.sub_le_sub_right (le_of_eq ?_) 1) ?_
    · have : (j = 0 ∨ j = 1) ∧ (k = 0 ∨ k = 1) := by omega
      rcases this with ⟨rfl | rfl, rfl | rfl⟩ <;>
        simp [Bound.sum_terms, apply_ite Bound.terms, sum_range_succ, dof]
    · refine Bound.sum_depth fun q _ => Bound.sum_depth fun i _ => Bound.sum_depth fun l _ => ?_
      split <;> simp [Bound.roundings])
  simpa only [Bound.sum_exact, Bound.sum_size, apply_ite Bound.exact, apply_ite Bound.size, Bound.mul_exact, Bound.mul_size,
    Bound.of_exact, Bound.of_size, Bound.zero_exact, Bound.zero_size] using h8

/-! ### the hypotheses are met: two ring elements in `double` arithmetic -/

example : ∃ (W : Vector) (c d : Nat → Nat → Nat) (A : QuadratureAxi (binary ℚ 53 (by norm_num)).Num) (N : _) (b : _) (V : _)
    (s : Ten (binary ℚ 53 (by norm_num)).Num) (S : _), Vector.new exConn exDofs = .ok W ∧ W.Holds c d ∧ W.nne = 4 ∧ W.ndim = 2 ∧
      AHolds A W.nelem 4 N b V ∧ Is4 s W.nelem 4 3 3 S := by
  let r := binary ℚ 53 (by norm_num)
  obtain ⟨W, h1, h2, h3, h4, h5, h6, -⟩ := C08_constructor (conn := exConn) (dofs := exDofs)
    (is2_of 2 4 _) (is2_of 6 2 _) (by decide) (by decide) (ball2 (by decide))
  obtain ⟨A, -, N, b, V, h7⟩ := C107_new_axi (r := r) (ne := 2) (nip := 4) (pi := Rounding.Num.of r (355 / 113)) Sched.seq
    (is3_of 2 4 2 fun ix => Rounding.Num.of r (1 + (ix.getD 0 0 : ℚ) / 10 +
      (if ix.getD 2 0 = 0 then (if ix.getD 1 0 = 1 ∨ ix.getD 1 0 = 2 then 1 / 10 else 0)
        else (if 2 ≤ ix.getD 1 0 then 1 / 10 else 0))))
    (is2_of 4 2 fun _ => Rounding.Num.of r (577 / 1000)) (is1_of 4 fun _ => (1 : r.Num))
  exact ⟨W, _, _, A, N, b, V, Ten.of [2, 4, 3, 3] fun _ => Rounding.Num.of r (1 / 3), _, h1, h6, h3, h5, h2 ▸ h7,
    ⟨by rw [h2]; rfl, fun _ _ _ _ _ _ _ _ => rfl⟩⟩

end GF.Element.Axi
