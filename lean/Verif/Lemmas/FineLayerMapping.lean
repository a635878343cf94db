import Verif.Props.FineLayerAround
import Verif.Model.FineLayerMapping

/-! The constructor of `Quad4::FineLayer` from coordinates and connectivity: lemmas. -/

namespace GF
open FineLayerSpec Finset

namespace FineLayer
variable {α : Type}

theorem half_gpos {nelx nmin nfine n : Nat} {w g : Nat → Nat} {r : Nat → Int} (hH : HalfLayers nelx nmin nfine n w g r)
    {d : Nat} (hd : d < n) : 0 < g d := by
  have hL := layers_of_half hH
  have := hL.gpos (n - 1 + d) (by omega)
  have h2 : dist n (n - 1 + d) = d := by simp only [FineLayerSpec.dist]; split <;> omega
  beta_reduce at this
  rwa [h2] at this

/-- a mesh that is requested with the height that was obtained before has the same layers -/
theorem layers_unique {nelx nmin n n' : Nat} {w g w' g' : Nat → Nat} {r r' : Nat → Int}
    (h : HalfLayers nelx nmin 1 n w g r) (h' : HalfLayers nelx (height g n) 1 n' w' g' r') :
    n' = n ∧ ∀ i, i < n → w' i = w i ∧ g' i = g i ∧ r' i = r i := by
  have hp := h.pos
  have hp' := h'.pos
  have key : ∀ i, i < n → i < n' → ∀ k, k ≤ i → w' k = w k ∧ g' k = g k ∧ r' k = r k := by
    intro i
    induction i with
    | zero =>
      intro _ _ k hk
      have : k = 0 := by omega
      subst this
      have a := h.mid; have a' := h'.mid
      rw [a.1, a.2.1, a.2.2, a'.1, a'.2.1, a'.2.2]
      exact ⟨rfl, rfl, rfl⟩
    | succ i ih =>
      intro h1 h2 k hk
      have ih := ih (by omega) (by omega)
      rcases Nat.lt_or_ge k (i + 1) with hk' | hk'
      · exact ih k (by omega)
      have : k = i + 1 := by omega
      subst this
      have hw := (ih i le_rfl).1
      have hh : height g' (i + 1) = height g (i + 1) := height_congr fun k hk => (ih k (by omega)).2.1
      have s := h.step i h1
      have s' := h'.step i h2
      rw [hw, hh] at s'
      by_cases hc : 1 ≤ i + 1 ∧ 3 * w i ≤ height g (i + 1) ∧ 3 * w i ∣ nelx ∧ height g (i + 1) + w i < nmin
      · rw [if_pos hc] at s
        rw [if_pos ⟨hc.1, hc.2.1, hc.2.2.1, by have := hc.2.2.2; have := h.reach; omega⟩] at s'
        rw [s.1, s.2.1, s.2.2, s'.1, s'.2.1, s'.2.2]
        exact ⟨rfl, rfl, rfl⟩
      · rw [if_neg hc] at s
        rw [if_neg] at s'
        · rw [s.1, s.2.1, s.2.2, s'.1, s'.2.1, s'.2.2]
          exact ⟨rfl, rfl, rfl⟩
        · rintro ⟨c1, c2, c3, c4⟩
          have c5 : nmin ≤ height g (i + 1) + w i := by
            by_contra hcc
            exact hc ⟨c1, c2, c3, by omega⟩
          have c6 : height g (i + 2) = height g (i + 1) + w i := by rw [height_succ, s.2.2]
          have c7 : n = i + 2 := by
            by_contra hcc
            have := h.minimal (i + 2) (by omega) (by omega)
            omega
          rw [c7] at c4
          omega
  have hn : n' = n := by
    rcases Nat.lt_trichotomy n' n with hc | hc | hc
    · have hr := h'.reach
      have e : height g' n' = height g n' := height_congr fun k hk =>
        (key k (by omega) hk k le_rfl).2.1
      have : height g n' < height g n := height_lt (N := n) (fun k hk => half_gpos h hk) hc le_rfl
      omega
    · exact hc
    · have hr := h'.minimal n (by omega) hc
      have e : height g' n = height g n := height_congr fun k hk =>
        (key k hk (by omega) k le_rfl).2.1
      omega
  subst hn
  exact ⟨rfl, fun i hi => key i hi hi i le_rfl⟩

theorem IsFine.congr' {M : FineLayer α} {nelx n : Nat} {W G W' G' : Nat → Nat} {R R' : Nat → Int} (hM : IsFine M nelx n W G R)
    (hn : 0 < n) (he : ∀ i, i < 2 * n - 1 → W i = W' i ∧ G i = G' i ∧ R i = R' i) : IsFine M nelx n W' G' R' := by
  have hrw : ∀ i, i < 2 * n → rowN nelx n W i = rowN nelx n W' i := by
    intro i hi
    unfold rowN rowW
    by_cases hc : i < n
    · rw [if_pos hc, if_pos hc, (he i (by omega)).1]
    · rw [if_neg hc, if_neg hc, (he (i - 1) (by omega)).1]
  have hle : ∀ i, i < 2 * n - 1 → layE nelx W R i = layE nelx W' R' i := by
    intro i hi
    unfold layE
    rw [(he i hi).1, (he i hi).2.2]
  have hmn : ∀ i, i < 2 * n - 1 → midN nelx W R i = midN nelx W' R' i := by
    intro i hi
    unfold midN
    rw [(he i hi).1, (he i hi).2.2]
  have hls : ∀ i, i ≤ 2 * n - 1 → layS nelx W R i = layS nelx W' R' i := fun i hi => height_congr fun k hk => hle k (by omega)
  have hrs : ∀ i, i ≤ 2 * n - 1 → rowS nelx n W R i = rowS nelx n W' R' i := fun i hi => height_congr fun k hk => by
    rw [hrw k (by omega), hmn k (by omega)]
  exact ⟨hM.ndim, hM.nne, hM.nhx.congr fun i hi => (he i hi).1, hM.nhy.congr fun i hi => (he i hi).2.1,
    hM.refine.congr fun i hi => (he i hi).2.2, hM.layer.congr fun i hi => by rw [(he i hi).1], hM.nnd.congr hrw,
    hM.startElem.congr fun i hi => hls i (by omega), hM.startNode.congr fun i hi => hrs i (by omega),
    by rw [hM.nelem, hls _ le_rfl], by rw [hM.nnode, hrs _ le_rfl, hrw _ (by omega)]⟩

/-- the number of elements below the middle layer is the number of elements above it -/
theorem layS_sym {nelx nmin nfine n : Nat} {w g : Nat → Nat} {r : Nat → Int} (hH : HalfLayers nelx nmin nfine n w g r) :
    layS nelx (fun i => w (dist n i)) (fun i => r (dist n i)) (2 * n - 1) =
      2 * layS nelx (fun i => w (dist n i)) (fun i => r (dist n i)) (n - 1) + nelx := by
  have hp := hH.pos
  have e : ∀ i, layS nelx (fun i => w (dist n i)) (fun i => r (dist n i)) i =
      height (fun i => (layE nelx w r) (dist n i)) i := fun i => rfl
  have h1 := half_up (g := layE nelx w r) hp n
  have h2 := half_down (g := layE nelx w r) (le_refl n)
  have h3 := layS_mid hH
  rw [show n - 1 + n = 2 * n - 1 by omega] at h1
  rw [e, e] at *
  rw [Nat.sub_self] at h2
  have h0 : height (fun i => layE nelx w r (dist n i)) 0 = 0 := by simp [height]
  rw [h0] at h2
  have h4 := layS_mid hH
  rw [e, e] at h4
  omega

theorem leftEnd_ok {conn : Ten Nat} {N : Nat} {c : Nat → Nat → Nat} (hc : Is2 conn N 4 c) {S : Nat} :
    ∀ k, S + k < N → (∀ j, j < k → c (S + (j + 1)) 0 = c (S + j) 1) → (0 < S ∧ c S 0 ≠ c (S - 1) 1) →
      leftEnd conn (S + k) = .ok S
  | 0, h1, _, h3 => by
    obtain ⟨S', rfl⟩ : ∃ S', S = S' + 1 := ⟨S - 1, by omega⟩
    rw [Nat.add_zero, leftEnd, hc.get (by omega) (by decide), Res.ok_bind, hc.get (by omega) (by decide), Res.ok_bind,
      if_neg (by have := h3.2; rwa [Nat.add_sub_cancel] at this)]
  | k + 1, h1, h2, h3 => by
    rw [← Nat.add_assoc, leftEnd, hc.get (by omega) (by decide), Res.ok_bind, hc.get (by omega) (by decide), Res.ok_bind,
      if_pos (show c (S + k + 1) 0 = c (S + k) 1 from h2 k (by omega))]
    exact leftEnd_ok hc k (by omega) (fun j hj => h2 j (by omega)) h3

theorem leftEnd_ub {conn : Ten Nat} {N : Nat} {c : Nat → Nat → Nat} (hc : Is2 conn N 4 c) :
    ∀ k, k < N → (∀ j, j < k → c (j + 1) 0 = c j 1) → leftEnd conn k = .ub
  | 0, _, _ => rfl
  | k + 1, h1, h2 => by
    rw [leftEnd, hc.get (by omega) (by decide), Res.ok_bind, hc.get (by omega) (by decide), Res.ok_bind,
      if_pos (h2 k (by omega))]
    exact leftEnd_ub hc k (by omega) (fun j hj => h2 j (by omega))

theorem rightEnd_ok {conn : Ten Nat} {N : Nat} {c : Nat → Nat → Nat} (hc : Is2 conn N 4 c) {E : Nat} (hE : E + 1 < N)
    (hne : c E 1 ≠ c (E + 1) 0) :
    ∀ m fuel e, e + m = E → m < fuel → (∀ j, e ≤ j → j < E → c j 1 = c (j + 1) 0) → rightEnd conn N fuel e = .ok E := by
  intro m
  induction m with
  | zero =>
    intro fuel e h1 h2 h3
    obtain ⟨fuel, rfl⟩ : ∃ f, fuel = f + 1 := ⟨fuel - 1, by omega⟩
    have : e = E := by omega
    subst this
    rw [rightEnd, hc.get (by omega) (by decide), Res.ok_bind, hc.get (by omega) (by decide), Res.ok_bind, if_neg (fun h => hne h.1)]
  | succ m ih =>
    intro fuel e h1 h2 h3
    obtain ⟨fuel, rfl⟩ : ∃ f, fuel = f + 1 := ⟨fuel - 1, by omega⟩
    rw [rightEnd, hc.get (by omega) (by decide), Res.ok_bind, hc.get (by omega) (by decide), Res.ok_bind,
      if_pos ⟨h3 e le_rfl (by omega), by omega⟩]
    exact ih fuel (e + 1) (by omega) (by omega) (fun j hj => h3 j (by omega))

theorem flat_eq {β : Type} {a b : Ten β} {N m : Nat} {f : Nat → Nat → β} (ha : Is2 a N m f) (hb : Is2 b N m f) : a.flat = b.flat := by
  have h1 := flat_ok (t := a) (f := fun ix => f (ix.getD 0 0) (ix.getD 1 0)) (by
    intro ix hix
    rw [ha.1] at hix
    obtain ⟨i, j, rfl, hi, hj⟩ := inb2.1 hix
    exact ha.2 i j hi hj)
  have h2 := flat_ok (t := b) (f := fun ix => f (ix.getD 0 0) (ix.getD 1 0)) (by
    intro ix hix
    rw [hb.1] at hix
    obtain ⟨i, j, rfl, hi, hj⟩ := inb2.1 hix
    exact hb.2 i j hi hj)
  rw [h1, h2, ha.1, hb.1]

theorem flat_isOk {β : Type} {a : Ten β} {N m : Nat} {f : Nat → Nat → β} (ha : Is2 a N m f) : ∃ l, a.flat = .ok l :=
  ⟨_, flat_ok (t := a) (f := fun ix => f (ix.getD 0 0) (ix.getD 1 0)) (by
    intro ix hix
    rw [ha.1] at hix
    obtain ⟨i, j, rfl, hi, hj⟩ := inb2.1 hix
    exact ha.2 i j hi hj)⟩

theorem allEqual_ok {a b : Ten Nat} {N m : Nat} {f : Nat → Nat → Nat} (ha : Is2 a N m f) (hb : Is2 b N m f) :
    allEqual a b = .ok true := by
  unfold allEqual
  rw [if_neg (by rw [ha.1, hb.1]; simp), flat_eq ha hb]
  obtain ⟨l, hl⟩ := flat_isOk hb
  rw [hl, Res.ok_bind, Res.ok_bind]
  simp

theorem allEqual_ok1 {a b : Ten Nat} {N : Nat} {f : Nat → Nat} (ha : Is1 a N f) (hb : Is1 b N f) :
    allEqual a b = .ok true := by
  unfold allEqual
  rw [if_neg (by rw [ha.1, hb.1]; simp), ha.flat, hb.flat, Res.ok_bind, Res.ok_bind]
  simp

theorem allClose_ok {close : α → α → Bool} (hr : ∀ a, close a a = true) {a b : Ten α} {N m : Nat} {f : Nat → Nat → α}
    (ha : Is2 a N m f) (hb : Is2 b N m f) : allClose close a b = .ok true := by
  unfold allClose
  rw [if_neg (by rw [ha.1, hb.1]; simp), flat_eq ha hb]
  obtain ⟨l, hl⟩ := flat_isOk hb
  rw [hl, Res.ok_bind, Res.ok_bind]
  congr 1
  rw [List.all_eq_true]
  intro p hp
  have : p.1 = p.2 := by
    clear hl
    induction l with
    | nil => simp at hp
    | cons a l ih =>
      rw [List.zip_cons_cons, List.mem_cons] at hp
      rcases hp with rfl | hp
      · rfl
      · exact ih hp
  rw [this, hr]

theorem amin_const [LinearOrder α] {h : α} {l : List α} (hl : l ≠ []) (h1 : ∀ a ∈ l, a = h) : amin l = .ok h := by
  cases l with
  | nil => exact absurd rfl hl
  | cons a l =>
    rw [amin]
    congr 1
    have ha := h1 a (by simp)
    subst ha
    have h1' : ∀ b ∈ l, b = a := fun b hb => h1 b (by simp [hb])
    clear hl h1
    induction l with
    | nil => rfl
    | cons b l ih =>
      rw [List.foldl_cons, h1' b (by simp), min_self]
      exact ih (fun c hc => h1' c (List.mem_cons_of_mem _ hc))

end FineLayer
end GF
