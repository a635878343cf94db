import Verif.Props.Rounding
import Mathlib.Data.Rat.Floor

/-! **C107**, continued: element matrices in floating-point arithmetic; the order of the elements does matter. -/

namespace GF
open Finset

variable {α : Type} [Field α] [LinearOrder α] [IsStrictOrderedRing α] {r : Rounding α}

namespace Element

/-- a sum of `n` products of four exact numbers -/
theorem products_bound {ι : Type} (s : Finset ι) (a b c d : ι → α) :
    (∑ q ∈ s, Bound.of (a q) * Bound.of (b q) * Bound.of (c q) * Bound.of (d q)).exact = ∑ q ∈ s, a q * b q * c q * d q ∧
    (∑ q ∈ s, Bound.of (a q) * Bound.of (b q) * Bound.of (c q) * Bound.of (d q)).size =
      ∑ q ∈ s, |a q| * |b q| * |c q| * |d q| ∧
    (∑ q ∈ s, Bound.of (a q) * Bound.of (b q) * Bound.of (c q) * Bound.of (d q)).terms = s.card ∧
    (∑ q ∈ s, Bound.of (a q) * Bound.of (b q) * Bound.of (c q) * Bound.of (d q)).depth ≤ 3 :=
  ⟨by simp [Bound.sum_exact], by simp [Bound.sum_size], by simp [Bound.sum_terms],
    Bound.sum_depth fun q _ => by simp [Bound.roundings]⟩

/-- **C107** (gradients of Hex8): the displacement gradient is the sum over the eight nodes up to the error of 8
roundings. -/
theorem C107_gradN_hex8 {Q : Quadrature r.Num} {ne nip : Nat} {N : Nat → Nat → r.Num} {G : Nat → Nat → Nat → Nat → r.Num}
    {V : Nat → Nat → r.Num} (h : Holds Q 8 3 3 ne nip N G V) (σ : Sched) {u : Ten r.Num} {U : Nat → Nat → Nat → r.Num}
    (hu : Is3 u ne 8 3 U) :
    IsOk (Hex8.GradN_vector Q σ u) fun t => t.shape = [ne, nip, 3, 3] ∧ ∀ e q i j, e < ne → q < nip → i < 3 → j < 3 →
      ∃ z, t.v [e, q, i, j] = some z ∧
        |z.val - ∑ m ∈ range 8, (G e q m i).val * (U e m j).val| ≤
          r.acc 8 * ∑ m ∈ range 8, |(G e q m i).val| * |(U e m j).val| := by
  have hs : Q.shape_qtensor 2 = [ne, nip, 3, 3] := by
    rw [Quadrature.shape_qtensor, h.ne_eq, h.nip_eq, h.td_eq]; rfl
  obtain ⟨t, h1, h2⟩ := gradN_generic h.bound σ (hu.lift fun x : r.Num => Bound.of x.val) (Ten.empty [ne, nip, 3, 3]) rfl
  obtain ⟨y, h3, h4⟩ := Quadrature.gradN_vector_impl_sim (Rounds.arith r) (QSim.bound Q) σ (TenSim.exact u)
    (s0 := Ten.empty [ne, nip, 3, 3]) (t0 := Ten.empty [ne, nip, 3, 3]) rfl t h1
  refine ⟨y, by rw [Hex8.GradN_vector, hs, h3], by rw [h4.1, h2.1], fun e q i j he hq hi hj => ?_⟩
  obtain ⟨z, h5, h6⟩ := h4.entry (h2.2 e q i j he hq hi hj)
  refine ⟨z, h5, ?_⟩
  have h7 := h6.mono (n := 8) (by
    have : (∑ m ∈ range 8, Bound.of (G e q m i).val * Bound.of (U e m j).val).depth ≤ 1 :=
      Bound.sum_depth fun m _ => by simp [Bound.roundings]
    unfold Bound.roundings
    rw [Bound.sum_terms]
    simp only [Bound.mul_terms, sum_const, card_range, smul_eq_mul, mul_one]
    omega)
  simpa only [Bound.sum_exact, Bound.sum_size, Bound.mul_exact, Bound.mul_size, Bound.of_exact, Bound.of_size] using h7

/-- **C107** (stiffness matrix of any of the elements): entry `(m j, n k)` of the element matrix is the sum of its
`nip nd²` products up to the error of `nip nd² + 2` roundings. -/
theorem C107_stiffness {Q : Quadrature r.Num} {nne nd td ne nip : Nat} {N : Nat → Nat → r.Num}
    {G : Nat → Nat → Nat → Nat → r.Num} {V : Nat → Nat → r.Num} (h : Holds Q nne nd td ne nip N G V) (hnd : nd ≤ td)
    (σ : Sched) {c : Ten r.Num} {C : Nat → Nat → Nat → Nat → Nat → Nat → r.Num} (hc : Is6 c ne nip td td td td C) :
    IsOk (Q.Int_gradN_dot_tensor4_dot_gradNT_dV σ c) fun t => t.shape = [ne, nne * nd, nne * nd] ∧
      ∀ e m n j k, e < ne → m < nne → n < nne → j < nd → k < nd → ∃ z, t.v [e, m * nd + j, n * nd + k] = some z ∧
        |z.val - ∑ q ∈ range nip, ∑ i ∈ range nd, ∑ l ∈ range nd,
            (G e q m i).val * (C e q i j k l).val * (G e q n l).val * (V e q).val| ≤
          r.acc (nip * (nd * nd) - 1 + 3) * ∑ q ∈ range nip, ∑ i ∈ range nd, ∑ l ∈ range nd,
            |(G e q m i).val| * |(C e q i j k l).val| * |(G e q n l).val| * |(V e q).val| := by
  have hs : Q.shape_elemmat = [ne, nne * nd, nne * nd] := by
    rw [Quadrature.shape_elemmat, h.ne_eq, h.nne_eq, h.nd_eq]
  obtain ⟨t, h1, h2, h3⟩ := stiffness_generic h.bound hnd σ (hc.lift fun x : r.Num => Bound.of x.val)
    (Ten.empty [ne, nne * nd, nne * nd]) rfl
  obtain ⟨y, h4, h5⟩ := Quadrature.int_gradN_dot_tensor4_dot_gradNT_dV_impl_sim (Rounds.arith r) (QSim.bound Q) σ
    (TenSim.exact c) (s0 := Ten.empty [ne, nne * nd, nne * nd]) (t0 := Ten.empty [ne, nne * nd, nne * nd]) rfl t h1
  refine ⟨y, by rw [Quadrature.Int_gradN_dot_tensor4_dot_gradNT_dV, hs, h4], by rw [h5.1, h2],
    fun e m n j k he hm hn hj hk => ?_⟩
  obtain ⟨z, h6, h7⟩ := h5.entry (h3 e m n j k he hm hn hj hk)
  refine ⟨z, h6, ?_⟩
  have h8 := h7.mono (n := nip * (nd * nd) - 1 + 3) (by
    unfold Bound.roundings
    refine Nat.add_le_add (Nat.sub_le_sub_right (le_of_eq ?_) 1) ?_
    · simp [Bound.sum_terms]
    · exact Bound.sum_depth fun q _ => Bound.sum_depth fun i _ => Bound.sum_depth fun l _ => by simp [Bound.roundings])
  simpa only [Bound.sum_exact, Bound.sum_size, Bound.mul_exact, Bound.mul_size, Bound.of_exact, Bound.of_size] using h8

/-- **C107** (mass matrix of Quad4): the entries that couple the same component are quadrature sums up to the error of
`nip + 2` roundings, the others are exactly zero. -/
theorem C107_mass_quad4 {Q : Quadrature r.Num} {td ne nip : Nat} {N : Nat → Nat → r.Num} {G : Nat → Nat → Nat → Nat → r.Num}
    {V : Nat → Nat → r.Num} (h : Holds Q 4 2 td ne nip N G V) (σ : Sched) {ρ : Ten r.Num} {P : Nat → Nat → r.Num}
    (hρ : Is2 ρ ne nip P) :
    IsOk (Quad4.Int_N_scalar_NT_dV Q σ ρ) fun t => t.shape = [ne, 8, 8] ∧
      ∀ e m n i j, e < ne → m < 4 → n < 4 → i < 2 → j < 2 → ∃ z, t.v [e, m * 2 + i, n * 2 + j] = some z ∧
        (i ≠ j → z.val = 0) ∧ (i = j →
        |z.val - ∑ q ∈ range nip, (N q m).val * (P e q).val * (N q n).val * (V e q).val| ≤
          r.acc (nip - 1 + 3) * ∑ q ∈ range nip, |(N q m).val| * |(P e q).val| * |(N q n).val| * |(V e q).val|) := by
  have hs : Q.shape_elemmat = [ne, 8, 8] := by rw [Quadrature.shape_elemmat, h.ne_eq, h.nne_eq, h.nd_eq]
  obtain ⟨t, h1, h2, h3⟩ := Quad4.mass_ok h.bound.N_is h.bound.V_is σ (hρ.lift fun x : r.Num => Bound.of x.val)
    (Ten.empty [ne, 8, 8]) rfl
  obtain ⟨y, h4, h5⟩ := Quad4.int_N_scalar_NT_dV_impl_sim (Rounds.arith r) (QSim.bound Q).N (QSim.bound Q).vol σ ne nip
    (TenSim.exact ρ) (s0 := Ten.empty [ne, 8, 8]) (t0 := Ten.empty [ne, 8, 8]) rfl t h1
  refine ⟨y, by rw [Quad4.Int_N_scalar_NT_dV, hs, h.ne_eq, h.nip_eq, h4], by rw [h5.1, h2],
    fun e m n i j he hm hn hi hj => ?_⟩
  obtain ⟨z, h6, h7⟩ := h5.entry (h3 e m n i j he hm hn hi hj)
  refine ⟨z, h6, fun hij => ?_, fun hij => ?_⟩
  · rw [if_neg hij] at h7
    exact (h7.none rfl).1
  · rw [if_pos hij] at h7
    obtain ⟨h8, h9, h10, h11⟩ := products_bound (α := α) (range nip) (fun q => (N q m).val) (fun q => (P e q).val)
      (fun q => (N q n).val) fun q => (V e q).val
    have h12 := h7.mono (n := nip - 1 + 3) (by
      rw [card_range] at h10
      unfold Bound.roundings
      omega)
    rwa [h8, h9] at h12

/-- **C107** (mass matrix of Hex8). -/
theorem C107_mass_hex8 {Q : Quadrature r.Num} {ne nip : Nat} {N : Nat → Nat → r.Num} {G : Nat → Nat → Nat → Nat → r.Num}
    {V : Nat → Nat → r.Num} (h : Holds Q 8 3 3 ne nip N G V) (σ : Sched) {ρ : Ten r.Num} {P : Nat → Nat → r.Num}
    (hρ : Is2 ρ ne nip P) :
    IsOk (Hex8.Int_N_scalar_NT_dV Q σ ρ) fun t => t.shape = [ne, 24, 24] ∧
      ∀ e m n i j, e < ne → m < 8 → n < 8 → i < 3 → j < 3 → ∃ z, t.v [e, m * 3 + i, n * 3 + j] = some z ∧
        (i ≠ j → z.val = 0) ∧ (i = j →
        |z.val - ∑ q ∈ range nip, (N q m).val * (P e q).val * (N q n).val * (V e q).val| ≤
          r.acc (nip - 1 + 3) * ∑ q ∈ range nip, |(N q m).val| * |(P e q).val| * |(N q n).val| * |(V e q).val|) := by
  have hs : Q.shape_elemmat = [ne, 24, 24] := by rw [Quadrature.shape_elemmat, h.ne_eq, h.nne_eq, h.nd_eq]
  obtain ⟨t, h1, h2, h3⟩ := Hex8.mass_ok h.bound σ (hρ.lift fun x : r.Num => Bound.of x.val)
    (Ten.empty [ne, 24, 24]) rfl
  obtain ⟨y, h4, h5⟩ := Hex8.int_N_scalar_NT_dV_impl_sim (Rounds.arith r) (QSim.bound Q) σ
    (TenSim.exact ρ) (s0 := Ten.empty [ne, 24, 24]) (t0 := Ten.empty [ne, 24, 24]) rfl t h1
  refine ⟨y, by rw [Hex8.Int_N_scalar_NT_dV, hs, h4], by rw [h5.1, h2], fun e m n i j he hm hn hi hj => ?_⟩
  obtain ⟨z, h6, h7⟩ := h5.entry (h3 e m n i j he hm hn hi hj)
  refine ⟨z, h6, fun hij => ?_, fun hij => ?_⟩
  · rw [if_neg hij] at h7
    exact (h7.none rfl).1
  · rw [if_pos hij] at h7
    obtain ⟨h8, h9, h10, h11⟩ := products_bound (α := α) (range nip) (fun q => (N q m).val) (fun q => (P e q).val)
      (fun q => (N q n).val) fun q => (V e q).val
    have h12 := h7.mono (n := nip - 1 + 3) (by
      rw [card_range] at h10
      unfold Bound.roundings
      omega)
    rwa [h8, h9] at h12

end Element

/-! ### the order of the elements matters -/

section order
variable [FloorRing α]

theorem ulp_two {p : Nat} {x : α} (h1 : (2 : α) ^ p ≤ x) (h2 : x < 2 ^ (p + 1)) : ulp p x = 2 := by
  have h0 : 0 < x := lt_of_lt_of_le (pow_pos two_pos p) h1
  have h3 : Int.log 2 |x| = p := by
    rw [abs_of_pos h0]
    have a := (Int.zpow_le_iff_le_log (b := 2) (by norm_num) (x := (p : Int)) h0).1 (by
      rw [zpow_natCast]; exact_mod_cast h1)
    have b := (Int.lt_zpow_iff_log_lt (b := 2) (by norm_num) (x := (p + 1 : Int)) h0).1 (by
      have : ((2 : ℕ) : α) ^ ((p : Int) + 1) = 2 ^ (p + 1) := by exact_mod_cast zpow_natCast (2 : α) (p + 1)
      rw [this]; exact h2)
    omega
  rw [ulp, h3]
  have : (p : Int) + 1 - p = 1 := by omega
  rw [this, zpow_one]

theorem round_halves {p : Nat} (hp : 0 < p) (k : Int) (hk : k = 2 ^ (p - 1)) :
    roundBits p ((2 : α) ^ p + 1 / 2) = 2 ^ p ∧ roundBits p ((1 : α) + 2 ^ p) = 2 ^ p + 2 := by
  obtain ⟨q, rfl⟩ : ∃ q, p = q + 1 := ⟨p - 1, by omega⟩
  rw [Nat.add_sub_cancel] at hk
  have hq : (1 : α) ≤ 2 ^ q := one_le_pow₀ one_le_two
  have h2 : (2 : α) ^ (q + 1) = 2 * k := by rw [hk]; push_cast; ring
  have hk1 : (1 : α) ≤ k := by rw [hk]; push_cast; exact hq
  have h4 : (2 : α) ^ (q + 1 + 1) = 4 * k := by rw [hk]; push_cast; ring
  constructor
  · rw [roundBits, ulp_two (by linarith [show (0 : α) < 1 / 2 by norm_num]) (by
      rw [h4, h2]; linarith [show (1 : α) / 2 < 1 by norm_num]), h2]
    have : round ((2 * (k : α) + 1 / 2) / 2) = k := by
      rw [round_eq, Int.floor_eq_iff]
      constructor <;> linarith
    rw [this]
    ring
  · rw [roundBits, ulp_two (by linarith) (by rw [h4, h2]; linarith), h2]
    have : round ((1 + 2 * (k : α)) / 2) = k + 1 := by
      rw [round_eq, Int.floor_eq_iff]
      push_cast
      constructor <;> linarith
    rw [this]
    push_cast
    ring

/-- three elements of one node each, all of them the same node -/
def threeBars : Vector := ⟨lit2 1 [[0], [0], [0]], lit2 1 [[0]], 3, 1, 1, 1, 1⟩

theorem threeBars_new : Vector.new (lit2 1 [[0], [0], [0]]) (lit2 1 [[0]]) = .ok threeBars := rfl

theorem threeBars_holds : threeBars.Holds (fun _ _ => 0) (fun _ _ => 0) where
  conn := ⟨rfl, fun e m he hm => by
    obtain rfl : m = 0 := Nat.lt_one_iff.1 hm
    rcases (show e = 0 ∨ e = 1 ∨ e = 2 by change e < 3 at he; omega) with rfl | rfl | rfl <;> rfl⟩
  dofs := ⟨rfl, fun e m he hm => by
    obtain rfl : m = 0 := Nat.lt_one_iff.1 hm
    obtain rfl : e = 0 := Nat.lt_one_iff.1 he
    rfl⟩
  conn_lt _ _ _ _ := Nat.one_pos
  dofs_lt _ _ _ _ := Nat.one_pos

/-- **C107** (the order matters): the bound of `C107_renumber` cannot be replaced by equality, whatever the precision: there
is a mesh on which assembling the same element values in reverse order gives a different result. -/
theorem C107_order_matters (p : Nat) (hp : 0 < p) :
    ∃ (V : Vector) (c d : Nat → Nat → Nat) (π : Equiv.Perm Nat) (x x' : Ten (binary α p hp).Num)
      (g : Nat → Nat → Nat → (binary α p hp).Num), V.Holds c d ∧ (∀ e, e < V.nelem ↔ π e < V.nelem) ∧
      (∀ e m, c e m = c (π e) m) ∧ Is3 x V.nelem V.nne V.ndim g ∧ Is3 x' V.nelem V.nne V.ndim (fun e => g (π e)) ∧
      ∃ y y' z z', V.AssembleDofs x = .ok y ∧ V.AssembleDofs x' = .ok y' ∧ y.v [0] = some z ∧ y'.v [0] = some z' ∧
        z.val + 2 = z'.val := by
  have rep : ∀ m e : Int, |m| ≤ 2 ^ p → (binary α p hp).fl (m * 2 ^ e) = m * 2 ^ e := fun m e h => roundBits_rep hp m e h
  have one : ∀ e : Int, (binary α p hp).fl (2 ^ e) = 2 ^ e := fun e => by
    simpa using rep 1 e (by rw [abs_one]; exact one_le_pow₀ one_le_two)
  have hbig : (binary α p hp).fl (2 ^ p) = 2 ^ p := by simpa using one p
  have hhalf : (binary α p hp).fl (1 / 2) = 1 / 2 := by simpa using one (-1)
  obtain ⟨h1, h2⟩ := round_halves (α := α) hp _ rfl
  let a : (binary α p hp).Num := ⟨2 ^ p, hbig⟩
  let b : (binary α p hp).Num := ⟨1 / 2, hhalf⟩
  let g : Nat → Nat → Nat → (binary α p hp).Num := fun e _ _ => if e = 0 then a else b
  refine ⟨threeBars, fun _ _ => 0, fun _ _ => 0, Equiv.swap 0 2, Ten.of [3, 1, 1] fun ix => g (ix.getD 0 0) 0 0,
    Ten.of [3, 1, 1] fun ix => g (Equiv.swap 0 2 (ix.getD 0 0)) 0 0, g, threeBars_holds, fun e => ?_, fun _ _ => rfl,
    ?_, ?_, _, _, _, _, rfl, rfl, rfl, rfl, ?_⟩
  · change e < 3 ↔ Equiv.swap 0 2 e < 3
    rw [Equiv.swap_apply_def]
    split
    · omega
    · split <;> omega
  · exact ⟨rfl, fun e m i he hm hi => by
      obtain rfl : m = 0 := Nat.lt_one_iff.1 hm
      obtain rfl : i = 0 := Nat.lt_one_iff.1 hi
      exact (is3_of 3 1 1 fun ix => g (ix.getD 0 0) 0 0).2 e 0 0 he hm hi⟩
  · exact ⟨rfl, fun e m i he hm hi => by
      obtain rfl : m = 0 := Nat.lt_one_iff.1 hm
      obtain rfl : i = 0 := Nat.lt_one_iff.1 hi
      exact (is3_of 3 1 1 fun ix => g (Equiv.swap 0 2 (ix.getD 0 0)) 0 0).2 e 0 0 he hm hi⟩
  · change (binary α p hp).fl ((binary α p hp).fl ((binary α p hp).fl (0 + 2 ^ p) + 1 / 2) + 1 / 2) + 2 =
      (binary α p hp).fl ((binary α p hp).fl ((binary α p hp).fl (0 + 1 / 2) + 1 / 2) + 2 ^ p)
    have e1 : (binary α p hp).fl (2 ^ p + 1 / 2) = 2 ^ p := h1
    have e2 : (binary α p hp).fl (1 + 2 ^ p) = 2 ^ p + 2 := h2
    rw [zero_add, zero_add, hbig, e1, e1, hhalf, show (1 : α) / 2 + 1 / 2 = 1 by norm_num, (binary α p hp).one, e2]

end order

/-! ### the hypotheses are met: two square elements in `double` arithmetic -/

example : ∃ (W : Vector) (c d : Nat → Nat → Nat) (Q : Element.Quadrature (binary ℚ 53 (by norm_num)).Num) (N : _) (G : _) (V : _)
    (s : Ten (binary ℚ 53 (by norm_num)).Num) (S : _), Vector.new exConn exDofs = .ok W ∧ W.Holds c d ∧ W.nne = 4 ∧ W.ndim = 2 ∧
      Element.Holds Q 4 2 2 W.nelem 4 N G V ∧ Is4 s W.nelem 4 2 2 S ∧
      -- a shared DOF, so that the sum has more than one term
      (∑ e ∈ range W.nelem, ∑ m ∈ range 4, ∑ j ∈ range 2, if d (c e m) j = d 1 0 then 1 else 0) = 2 := by
  let r := binary ℚ 53 (by norm_num)
  obtain ⟨W, h1, h2, h3, h4, h5, h6, -⟩ := C08_constructor (conn := exConn) (dofs := exDofs)
    (is2_of 2 4 _) (is2_of 6 2 _) (by decide) (by decide) (ball2 (by decide))
  obtain ⟨Q, -, N, G, V, h7⟩ := ((Element.C107_new (r := r) (ne := 2) (nip := 4) Sched.seq
    (is1_of 4 fun _ => (1 : r.Num))).1
      (is3_of 2 4 2 fun ix => Rounding.Num.of r ((ix.getD 0 0 : ℚ) / 10 +
        (if ix.getD 2 0 = 0 then (if ix.getD 1 0 = 1 ∨ ix.getD 1 0 = 2 then 1 / 10 else 0) else (if 2 ≤ ix.getD 1 0 then 1 / 10 else 0))))
      (is2_of 4 2 fun _ => Rounding.Num.of r (577 / 1000))).1
  exact ⟨W, _, _, Q, N, G, V, Ten.of [2, 4, 2, 2] fun _ => Rounding.Num.of r (1 / 3), _, h1, h6, h3, h5, h2 ▸ h7,
    ⟨by rw [h2]; rfl, fun _ _ _ _ _ _ _ _ => rfl⟩, by rw [h2]; decide⟩

end GF
