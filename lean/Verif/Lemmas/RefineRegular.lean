import Verif.Model.RefineRegular
import Verif.Lemmas.Element
import Verif.Lemmas.Rows
import Verif.Lemmas.MeshMeasures
import Mathlib.Tactic.Ring

namespace GF
open Finset
variable {α : Type}

namespace RefineRegular

/-- grid position of the `k`-th fine element of coarse element `e` -/
def fineOf (nelx nx ny e k : Nat) : Nat :=
  (e / nelx * ny + k / nx) * (nx * nelx) + (e % nelx * nx + k % nx)

theorem fineOf_eq {nelx nx ny i j a b : Nat} (hj : j < nelx) (hb : b < nx) :
    fineOf nelx nx ny (i * nelx + j) (a * nx + b) = (i * ny + a) * (nx * nelx) + (j * nx + b) := by
  rw [fineOf, grid_div hj, grid_mod hj, grid_div hb, grid_mod hb]

theorem new_ok (nelx nely nx ny : Nat) (h : α) :
    ∃ R : RefineRegular α, new (Quad4.Regular.new nelx nely h) nx ny = .ok R ∧
      R.coarse = Quad4.Regular.new nelx nely h ∧
      R.fine = Quad4.Regular.new (nx * nelx) (ny * nely) h ∧ R.nx = nx ∧ R.ny = ny ∧
      Is2 R.c2f (nelx * nely) (nx * ny) (fineOf nelx nx ny) := by
  have hgc : Quad4.Regular.elementgrid (Quad4.Regular.new nelx nely h) =
      .ok (Ten.of [nely, nelx] fun ix => ix.getD 0 0 * nelx + ix.getD 1 0) :=
    if_pos (by simp [Quad4.Regular.new, Nat.mul_comm])
  have hgf : Quad4.Regular.elementgrid (Quad4.Regular.new (nx * nelx) (ny * nely) h) =
      .ok (Ten.of [ny * nely, nx * nelx] fun ix => ix.getD 0 0 * (nx * nelx) + ix.getD 1 0) :=
    if_pos (by simp [Quad4.Regular.new, Nat.mul_comm])
  have ic := is2_of nely nelx fun ix => ix.getD 0 0 * nelx + ix.getD 1 0
  have iff := is2_of (ny * nely) (nx * nelx) fun ix => ix.getD 0 0 * (nx * nelx) + ix.getD 1 0
  have hblock : ∀ i j, i < nely → j < nelx → IsSets [nelx * nely, nx * ny]
      (fun s => block (Ten.of [nely, nelx] fun ix => ix.getD 0 0 * nelx + ix.getD 1 0)
        (Ten.of [ny * nely, nx * nelx] fun ix => ix.getD 0 0 * (nx * nelx) + ix.getD 1 0) nx ny i j s)
      ((it2 ny nx).flatMap fun ab => [([i * nelx + j, ab.1 * nx + ab.2],
        (i * ny + ab.1) * (nx * nelx) + (j * nx + ab.2))]) := by
    intro i j hi hj
    refine isSets_loop (it2 ny nx) _ _ ?_
    rintro ⟨a, b⟩ hab
    simp only [mem_it2] at hab
    refine isSets_one _ _ _ _ fun s _ => ?_
    have h1 : i * ny + a < ny * nely := by rw [Nat.mul_comm ny]; exact grid_lt hi hab.1
    have h2 : j * nx + b < nx * nelx := by rw [Nat.mul_comm nx]; exact grid_lt hj hab.2
    simp only [ic.get hi hj, iff.get h1 h2, Res.ok_bind]
    rfl
  have hall : IsSets [nelx * nely, nx * ny]
      (forEach (it2 nely nelx) fun c2f ij => block (Ten.of [nely, nelx] fun ix => ix.getD 0 0 * nelx + ix.getD 1 0)
        (Ten.of [ny * nely, nx * nelx] fun ix => ix.getD 0 0 * (nx * nelx) + ix.getD 1 0) nx ny ij.1 ij.2 c2f) _ :=
    isSets_loop (it2 nely nelx) _ (fun ij => (it2 ny nx).flatMap fun ab => [([ij.1 * nelx + ij.2, ab.1 * nx + ab.2],
        (ij.1 * ny + ab.1) * (nx * nelx) + (ij.2 * nx + ab.2))]) (by
      rintro ⟨i, j⟩ hij
      simp only [mem_it2] at hij
      exact hblock i j hij.1 hij.2)
  obtain ⟨c2f, h1, h2, h3, -⟩ := hall.spec (fun p => fineOf nelx nx ny (p.getD 0 0) (p.getD 1 0)) (by
      intro st hst
      simp only [List.mem_flatMap, List.mem_singleton, Prod.exists, mem_it2] at hst
      obtain ⟨i, j, ⟨hi, hj⟩, a, b, ⟨ha, hb⟩, rfl⟩ := hst
      refine ⟨?_, ?_⟩
      · simp only [inb_cons, inb_nil, Bool.and_true, Bool.and_eq_true, decide_eq_true_eq]
        exact ⟨by rw [Nat.mul_comm nelx]; exact grid_lt hi hj, by rw [Nat.mul_comm nx]; exact grid_lt ha hb⟩
      · exact (fineOf_eq hj hb).symm) (Ten.empty [nelx * nely, nx * ny]) rfl
  refine ⟨⟨Quad4.Regular.new nelx nely h, Quad4.Regular.new (nx * nelx) (ny * nely) h, nx, ny, c2f⟩, ?_, rfl, rfl, rfl,
    rfl, h2, fun e k he hk => ?_⟩
  · simp only [new, hgc, Res.ok_bind, show (Quad4.Regular.new nelx nely h).nelx = nelx from rfl,
      show (Quad4.Regular.new nelx nely h).nely = nely from rfl, show (Quad4.Regular.new nelx nely h).h = h from rfl,
      show (Quad4.Regular.new nelx nely h).nelem = nelx * nely from rfl, hgf]
    have : ∀ s, forEach (it2 ((Ten.of [nely, nelx] fun ix => ix.getD 0 0 * nelx + ix.getD 1 0).shape.getD 0 0)
        ((Ten.of [nely, nelx] fun ix => ix.getD 0 0 * nelx + ix.getD 1 0).shape.getD 1 0))
        (fun c2f ij => block (Ten.of [nely, nelx] fun ix => ix.getD 0 0 * nelx + ix.getD 1 0)
        (Ten.of [ny * nely, nx * nelx] fun ix => ix.getD 0 0 * (nx * nelx) + ix.getD 1 0) nx ny ij.1 ij.2 c2f) s =
        forEach (it2 nely nelx) (fun c2f ij => block (Ten.of [nely, nelx] fun ix => ix.getD 0 0 * nelx + ix.getD 1 0)
        (Ten.of [ny * nely, nx * nelx] fun ix => ix.getD 0 0 * (nx * nelx) + ix.getD 1 0) nx ny ij.1 ij.2 c2f) s :=
      fun _ => rfl
    rw [this, h1]
    rfl
  · rw [Nat.mul_comm] at he hk
    obtain ⟨i, j, hi, hj, rfl⟩ := grid_exists he
    obtain ⟨a, b, ha, hb, rfl⟩ := grid_exists hk
    exact h3 _ ⟨_, List.mem_flatMap.2 ⟨(i, j), mem_it2.2 ⟨hi, hj⟩, List.mem_flatMap.2 ⟨(a, b), mem_it2.2 ⟨ha, hb⟩,
      List.mem_singleton.2 rfl⟩⟩, rfl⟩

/-- every fine element is one of the fine elements of exactly one coarse element, in exactly one position -/
theorem fineOf_bij {nelx nely nx ny : Nat} :
    (∀ e k, e < nelx * nely → k < nx * ny → fineOf nelx nx ny e k < nx * nelx * (ny * nely)) ∧
    (∀ f, f < nx * nelx * (ny * nely) → ∃ e k, e < nelx * nely ∧ k < nx * ny ∧ fineOf nelx nx ny e k = f) ∧
    (∀ e k e' k', e < nelx * nely → k < nx * ny → e' < nelx * nely → k' < nx * ny →
      fineOf nelx nx ny e k = fineOf nelx nx ny e' k' → e = e' ∧ k = k') := by
  refine ⟨fun e k he hk => ?_, fun f hf => ?_, fun e k e' k' he hk he' hk' h => ?_⟩
  · rw [Nat.mul_comm] at he hk
    obtain ⟨i, j, hi, hj, rfl⟩ := grid_exists he
    obtain ⟨a, b, ha, hb, rfl⟩ := grid_exists hk
    rw [fineOf_eq hj hb, Nat.mul_comm (nx * nelx)]
    refine grid_lt ?_ ?_
    · rw [Nat.mul_comm ny]; exact grid_lt hi ha
    · rw [Nat.mul_comm nx]; exact grid_lt hj hb
  · rw [Nat.mul_comm] at hf
    obtain ⟨I, J, hI, hJ, rfl⟩ := grid_exists hf
    rw [Nat.mul_comm] at hI hJ
    obtain ⟨i, a, hi, ha, rfl⟩ := grid_exists hI
    obtain ⟨j, b, hj, hb, rfl⟩ := grid_exists hJ
    refine ⟨i * nelx + j, a * nx + b, ?_, ?_, fineOf_eq hj hb⟩
    · rw [Nat.mul_comm nelx]; exact grid_lt hi hj
    · rw [Nat.mul_comm nx]; exact grid_lt ha hb
  · rw [Nat.mul_comm] at he hk he' hk'
    obtain ⟨i, j, hi, hj, rfl⟩ := grid_exists he
    obtain ⟨a, b, ha, hb, rfl⟩ := grid_exists hk
    obtain ⟨i', j', hi', hj', rfl⟩ := grid_exists he'
    obtain ⟨a', b', ha', hb', rfl⟩ := grid_exists hk'
    rw [fineOf_eq hj hb, fineOf_eq hj' hb'] at h
    have l1 : j * nx + b < nx * nelx := by rw [Nat.mul_comm nx]; exact grid_lt hj hb
    have l2 : j' * nx + b' < nx * nelx := by rw [Nat.mul_comm nx]; exact grid_lt hj' hb'
    obtain ⟨h1, h2⟩ := grid_inj l1 l2 h
    obtain ⟨rfl, rfl⟩ := grid_inj ha ha' h1
    obtain ⟨rfl, rfl⟩ := grid_inj hb hb' h2
    exact ⟨rfl, rfl⟩

/-! ### data, for any map -/

theorem rowSum_ok [AddCommMonoid α] {c2f : Ten Nat} {nc n i : Nat} {T} (hT : Is2 c2f nc n T) (hi : i < nc)
    (g : Nat → Res α) (v : Nat → α) (hg : ∀ k, k < n → g (T i k) = .ok (v (T i k))) :
    rowSum c2f n i g = .ok (∑ k ∈ range n, v (T i k)) := by
  have H : ∀ m, m ≤ n → forEach (it1 m) (fun s k => do
      let e ← c2f.get [i, k]
      let d ← g e
      .ok (s + d)) (0 : α) = .ok (∑ k ∈ range m, v (T i k)) := by
    intro m
    induction m with
    | zero => intro _; rfl
    | succ m ih =>
      intro hm
      rw [forEach_it1_succ, ih (by omega)]
      simp only [Res.bind, hT.get hi (show m < n by omega), hg m (by omega), Res.ok_bind, sum_range_succ]
  exact H n (le_refl n)

theorem get_full {t : Ten α} {f : List Nat → α} (h : Full t f) {ix : List Nat} (hi : inb t.shape ix = true) :
    t.get ix = .ok (f ix) := get_of_v hi (h ix hi)

/-- a loop over the rows and the trailing indices that fills the result -/
theorem fillRows {nc : Nat} {rest : List Nat} (body : Nat → List Nat → Ten α → Res (Ten α)) (val : Nat → List Nat → α)
    (hb : ∀ i ix, i < nc → inb rest ix = true → ∀ s : Ten α, s.shape = nc :: rest → body i ix s = s.set (i :: ix) (val i ix)) :
    ∃ y, forEach (it1 nc) (fun ret i => forEach (indices rest) (fun ret ix => body i ix ret) ret)
      (Ten.empty (nc :: rest)) = .ok y ∧ y.shape = nc :: rest ∧
      ∀ i ix, i < nc → inb rest ix = true → y.v (i :: ix) = some (val i ix) := by
  have hall : IsSets (nc :: rest) (forEach (it1 nc) fun ret i => forEach (indices rest) (fun ret ix => body i ix ret) ret)
      ((it1 nc).flatMap fun i => (indices rest).flatMap fun ix => [(i :: ix, val i ix)]) := by
    refine isSets_loop _ _ _ fun i hi => isSets_loop _ _ (fun ix => [(i :: ix, val i ix)]) fun ix hix => isSets_one _ _ _ _ fun s hs => ?_
    exact hb i ix (mem_it1.1 hi) (mem_indices.1 hix) s hs
  obtain ⟨y, h1, h2, h3, -⟩ := hall.spec (fun p => val (p.headD 0) p.tail) (by
    intro st hst
    simp only [List.mem_flatMap, List.mem_singleton, mem_it1, mem_indices] at hst
    obtain ⟨i, hi, ix, hix, rfl⟩ := hst
    exact ⟨by simp [hi, hix], rfl⟩) (Ten.empty (nc :: rest)) rfl
  refine ⟨y, h1, h2, fun i ix hi hix => h3 _ ⟨(i :: ix, val i ix), ?_, rfl⟩⟩
  simp only [List.mem_flatMap, List.mem_singleton, mem_it1, mem_indices]
  exact ⟨i, hi, ix, hix, rfl⟩

variable {R : RefineRegular α} {nc n : Nat} {T : Nat → Nat → Nat}

theorem meanToCoarse_ok [Field α] (hT : Is2 R.c2f nc n T) {nf : Nat} (hlt : ∀ e k, e < nc → k < n → T e k < nf)
    {data : Ten α} {rest : List Nat} {f} (hs : data.shape = nf :: rest) (hf : Full data f) :
    ∃ y, R.meanToCoarse data = .ok y ∧ y.shape = nc :: rest ∧ ∀ e ix, e < nc → inb rest ix = true →
      y.v (e :: ix) = some ((∑ k ∈ range n, f (T e k :: ix)) / (n : α)) := by
  obtain ⟨y, h1, h2, h3⟩ := fillRows (nc := nc) (rest := rest) (fun i ix ret => do
        let s ← rowSum R.c2f n i fun e => data.get (e :: ix)
        ret.set (i :: ix) (s / (n : α))) (fun e ix => (∑ k ∈ range n, f (T e k :: ix)) / (n : α)) (by
    intro i ix hi hix s _
    rw [rowSum_ok hT hi _ (fun e => f (e :: ix)) fun k hk => get_full hf (by simp [hs, hlt i k hi hk, hix])]
    rfl)
  refine ⟨y, ?_, h2, h3⟩
  simp only [meanToCoarse, hs, hT.1]
  exact h1

theorem averageToCoarse_ok [Field α] (hT : Is2 R.c2f nc n T) {nf : Nat} (hlt : ∀ e k, e < nc → k < n → T e k < nf)
    {data weights : Ten α} {rest : List Nat} {f w} (hs : data.shape = nf :: rest) (hf : Full data f)
    (hs' : weights.shape = nf :: rest) (hw : Full weights w) :
    ∃ y, R.averageToCoarse data weights = .ok y ∧ y.shape = nc :: rest ∧ ∀ e ix, e < nc → inb rest ix = true →
      y.v (e :: ix) = some ((∑ k ∈ range n, f (T e k :: ix) * w (T e k :: ix)) / ∑ k ∈ range n, w (T e k :: ix)) := by
  obtain ⟨y, h1, h2, h3⟩ := fillRows (nc := nc) (rest := rest) (fun i ix ret => do
        let s ← rowSum R.c2f n i fun e => do
          let d ← data.get (e :: ix)
          let w ← weights.get (e :: ix)
          .ok (d * w)
        let w ← rowSum R.c2f n i fun e => weights.get (e :: ix)
        ret.set (i :: ix) (s / w))
      (fun e ix => (∑ k ∈ range n, f (T e k :: ix) * w (T e k :: ix)) / ∑ k ∈ range n, w (T e k :: ix)) (by
    intro i ix hi hix s _
    rw [rowSum_ok hT hi _ (fun e => f (e :: ix) * w (e :: ix)) fun k hk => by
        rw [get_full hf (by simp [hs, hlt i k hi hk, hix]), get_full hw (by simp [hs', hlt i k hi hk, hix])]; rfl,
      rowSum_ok hT hi _ (fun e => w (e :: ix)) fun k hk => get_full hw (by simp [hs', hlt i k hi hk, hix])]
    rfl)
  refine ⟨y, ?_, h2, h3⟩
  simp only [averageToCoarse, hs, hT.1]
  exact h1

theorem mapToFine_ok [Inhabited α] (hT : Is2 R.c2f nc n T) (hlt : ∀ e k, e < nc → k < n → T e k < nc * n)
    (hsurj : ∀ f, f < nc * n → ∃ e k, e < nc ∧ k < n ∧ T e k = f)
    (hinj : ∀ e k e' k', e < nc → k < n → e' < nc → k' < n → T e k = T e' k' → e = e' ∧ k = k')
    {data : Ten α} {rest : List Nat} {f} (hs : data.shape = nc :: rest) (hf : Full data f) :
    ∃ y, R.mapToFine data = .ok y ∧ y.shape = nc * n :: rest ∧ ∀ e k ix, e < nc → k < n → inb rest ix = true →
      y.v (T e k :: ix) = some (f (e :: ix)) := by
  classical
  have hall : IsSets (nc * n :: rest) (forEach (it2 nc n) fun ret ei => forEach (indices rest) (fun ret ix => do
        let f ← R.c2f.get [ei.1, ei.2]
        let d ← data.get (ei.1 :: ix)
        ret.set (f :: ix) d) ret)
      ((it2 nc n).flatMap fun ei => (indices rest).flatMap fun ix => [(T ei.1 ei.2 :: ix, f (ei.1 :: ix))]) := by
    refine isSets_loop _ _ _ fun ei hei => isSets_loop _ _ (fun ix => [(T ei.1 ei.2 :: ix, f (ei.1 :: ix))])
      fun ix hix => isSets_one _ _ _ _ fun s _ => ?_
    have h1 := mem_it2.1 hei
    rw [hT.get h1.1 h1.2, Res.ok_bind, get_full hf (by simp [hs, h1.1, mem_indices.1 hix])]
    rfl
  have hpar : ∃ P : Nat → Nat, ∀ e k, e < nc → k < n → P (T e k) = e := by
    refine ⟨fun v => if h : ∃ e k, e < nc ∧ k < n ∧ T e k = v then h.choose else 0, fun e k he hk => ?_⟩
    have hex : ∃ e' k', e' < nc ∧ k' < n ∧ T e' k' = T e k := ⟨e, k, he, hk, rfl⟩
    beta_reduce
    rw [dif_pos hex]
    obtain ⟨k', h1, h2, h3⟩ := hex.choose_spec
    exact (hinj _ _ _ _ h1 h2 he hk h3).1
  obtain ⟨P, hP⟩ := hpar
  obtain ⟨y, h1, h2, h3, -⟩ := hall.spec (fun p => f (P (p.headD 0) :: p.tail)) (by
    intro st hst
    simp only [List.mem_flatMap, List.mem_singleton, Prod.exists, mem_it2, mem_indices] at hst
    obtain ⟨e, k, ⟨he, hk⟩, ix, hix, rfl⟩ := hst
    exact ⟨by simp [hlt e k he hk, hix], by simp [hP e k he hk]⟩) (Ten.empty (nc * n :: rest)) rfl
  refine ⟨y, ?_, h2, fun e k ix he hk hix => ?_⟩
  · simp only [mapToFine, hs, hT.1]
    exact h1
  · have := h3 (T e k :: ix) ⟨(T e k :: ix, f (e :: ix)), by
      simp only [List.mem_flatMap, List.mem_singleton, Prod.exists, mem_it2, mem_indices]
      exact ⟨e, k, ⟨he, hk⟩, ix, hix, rfl⟩, rfl⟩
    rw [this]
    simp [hP e k he hk]

end RefineRegular
end GF
