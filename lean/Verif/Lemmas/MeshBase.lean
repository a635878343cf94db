import Verif.Model.MeshBase
import Verif.Lemmas.Rows
import Verif.Props.Renumber

/-! Lemmas on `RegularBase`, `RegularBase2d`. -/

namespace GF
variable {α : Type}

theorem is1_arange (a b : Nat) : Is1 (arange a b) (b - a) (fun i => a + i) := is1_of _ _

theorem Is1.affine {t : Ten Nat} {n : Nat} {f : Nat → Nat} (h : Is1 t n f) (s o : Nat) :
    Is1 (affine t s o) n (fun i => f i * s + o) :=
  ⟨h.1, fun i hi => by simp [GF.affine, h.2 i hi]⟩

theorem Is1.size {t : Ten α} {n : Nat} {f : Nat → α} (h : Is1 t n f) : t.size = n := by
  simp [Ten.size, h.1]

theorem assignCol_spec {t : Ten α} {N w i n col : Nat} {src : Ten α} {f : Nat → α}
    (hs : t.shape = [N, w]) (hcol : col < w) (hin : i + n ≤ N) (hf : Is1 src n f) :
    ∃ t', assignCol t i n col src = .ok t' ∧ t'.shape = [N, w] ∧
      (∀ k, k < n → t'.v [i + k, col] = some (f k)) ∧
      (∀ r c, (c ≠ col ∨ r < i ∨ i + n ≤ r) → t'.v [r, c] = t.v [r, c]) := by
  obtain ⟨t', h1, h2, h3, h4⟩ := forEach_set (it1 n) (fun (ret : Ten α) k => do
      let a ← src.get [k]
      ret.set [i + k, col] a) (fun k => [i + k, col]) f t
    (by intro k hk; rw [mem_it1] at hk; simp [hs, hcol]; omega)
    (by intro k hk s _; rw [mem_it1] at hk; rw [hf.get hk]; rfl)
  refine ⟨t', by rw [assignCol, if_pos hf.1, h1], by rw [h2, hs], fun k hk => ?_, fun r c h => ?_⟩
  · obtain ⟨k', h5, h6, h7⟩ := h3 [i + k, col] ⟨k, by simpa using hk, rfl⟩
    simp only [List.cons.injEq, and_true] at h6
    obtain rfl : k' = k := by omega
    exact h7
  · apply h4
    intro k hk he
    rw [mem_it1] at hk
    simp only [List.cons.injEq, and_true] at he
    omega

/-- the table of periodic node pairs -/
def perCol (c : Nat → Nat) (b l : Nat → Nat) (nb k : Nat) : Nat :=
  if k < 3 then c k else if k < 3 + nb then b (k - 3) else l (k - 3 - nb)

theorem corner_rows (N : Nat) (hN : 3 ≤ N) (bl br tr tl : Nat) : ∃ t0 : Ten Nat,
    (∀ k : Ten Nat → Res (Ten Nat), (do
      let ret ← (Ten.empty [N, 2] : Ten Nat).set [0, 0] bl
      let ret ← ret.set [0, 1] br
      let ret ← ret.set [1, 0] bl
      let ret ← ret.set [1, 1] tr
      let ret ← ret.set [2, 0] bl
      let ret ← ret.set [2, 1] tl
      k ret) = k t0) ∧ t0.shape = [N, 2] ∧
    ∀ r c, r < 3 → c < 2 → t0.v [r, c] =
      some (if c = 0 then bl else if r = 0 then br else if r = 1 then tr else tl) := by
  refine ⟨(((((((Ten.empty [N, 2] : Ten Nat).put [0, 0] bl).put [0, 1] br).put [1, 0] bl).put [1, 1]
    tr).put [2, 0] bl).put [2, 1] tl), fun k => ?_, rfl, ?_⟩
  · have : ∀ (t : Ten Nat) i j a, t.shape = [N, 2] → i < 3 → j < 2 →
        t.set [i, j] a = .ok (t.put [i, j] a) := fun t i j a hs hi hj =>
      set_put (by rw [hs]; simp [hj]; omega) a
    rw [this _ 0 0 bl rfl (by omega) (by omega), Res.ok_bind, this _ 0 1 br rfl (by omega) (by omega),
      Res.ok_bind, this _ 1 0 bl rfl (by omega) (by omega), Res.ok_bind,
      this _ 1 1 tr rfl (by omega) (by omega), Res.ok_bind, this _ 2 0 bl rfl (by omega) (by omega),
      Res.ok_bind, this _ 2 1 tl rfl (by omega) (by omega), Res.ok_bind]
  · intro r c hr hc
    obtain rfl | rfl | rfl : r = 0 ∨ r = 1 ∨ r = 2 := by omega
    all_goals
      obtain rfl | rfl : c = 0 ∨ c = 1 := by omega
      all_goals simp [Ten.put_v]

theorem nodesPeriodic2d_spec {E : Edges2d} {bot top lft rgt : Ten Nat} {nb nl : Nat}
    {b t l r : Nat → Nat} (e1 : E.bottomOpen = .ok bot) (e2 : E.topOpen = .ok top)
    (e3 : E.leftOpen = .ok lft) (e4 : E.rightOpen = .ok rgt)
    (h1 : Is1 bot nb b) (h2 : Is1 top nb t) (h3 : Is1 lft nl l) (h4 : Is1 rgt nl r) :
    ∃ ret, nodesPeriodic2d E = .ok ret ∧ Is2 ret (nb + nl + 3) 2 (fun k j =>
      if j = 0 then perCol (fun _ => E.bottomLeft) b l nb k
      else perCol (fun k => if k = 0 then E.bottomRight else if k = 1 then E.topRight else E.topLeft)
        t r nb k) := by
  simp only [nodesPeriodic2d, e1, e2, e3, e4, Res.ok_bind, h1.size, h3.size]
  set N := nb + nl + 3 with hN
  obtain ⟨t0, ht0, hs0, hv0⟩ := corner_rows N (by omega) E.bottomLeft E.bottomRight E.topRight E.topLeft
  rw [ht0]
  obtain ⟨t1, a1, a2, a3, a4⟩ := assignCol_spec (i := 3) (col := 0) hs0 (by omega) (by omega) h1
  obtain ⟨t2, b1, b2, b3, b4⟩ := assignCol_spec (i := 3) (col := 1) a2 (by omega) (by omega) h2
  obtain ⟨t3, c1, c2, c3, c4⟩ := assignCol_spec (i := 3 + nb) (col := 0) b2 (by omega) (by omega) h3
  obtain ⟨t4, d1, d2, d3, d4⟩ := assignCol_spec (i := 3 + nb) (col := 1) c2 (by omega) (by omega) h4
  refine ⟨t4, by simp only [a1, b1, c1, d1, Res.ok_bind], d2, fun k j hk hj => ?_⟩
  by_cases hk3 : k < 3
  · rw [d4 k j (by omega), c4 k j (by omega), b4 k j (by omega), a4 k j (by omega)]
    simp only [perCol, hk3, if_true]
    rw [hv0 k j hk3 hj]
  · by_cases hkb : k < 3 + nb
    · simp only [perCol, hk3, if_false, hkb, if_true]
      obtain ⟨q, rfl⟩ : ∃ q, k = 3 + q := ⟨k - 3, by omega⟩
      rw [d4 _ j (by omega), c4 _ j (by omega)]
      obtain rfl | rfl : j = 0 ∨ j = 1 := by omega
      · rw [b4 _ 0 (by omega), a3 q (by omega)]; simp
      · rw [b3 q (by omega)]; simp
    · simp only [perCol, hk3, if_false, hkb]
      obtain ⟨q, rfl⟩ : ∃ q, k = 3 + nb + q := ⟨k - 3 - nb, by omega⟩
      rw [show 3 + nb + q - 3 - nb = q by omega]
      obtain rfl | rfl : j = 0 ∨ j = 1 := by omega
      · rw [d4 _ 0 (by omega), c3 q (by omega)]; simp
      · rw [d3 q (by omega)]; simp

open Finset in
/-- DOFs of a mesh with tied nodes -/
theorem dofsPeriodic_spec {nodePer : Ten Nat} {n nnode ndim : Nat} {P : Nat → Nat → Nat}
    (h : Is2 nodePer n 2 P) (hlt : ∀ k j, k < n → j < 2 → P k j < nnode)
    (rep : Nat → Nat) (hrep : ∀ k, k < n → rep (P k 1) = P k 0)
    (hid : ∀ m, (∀ k, k < n → P k 1 ≠ m) → rep m = m)
    (hind : ∀ k k', k < n → k' < n → P k 0 ≠ P k' 1) :
    ∃ y g, dofsPeriodic nnode ndim nodePer = .ok y ∧ Is2 y nnode ndim g ∧
      (∀ m i m' i', m < nnode → i < ndim → m' < nnode → i' < ndim →
        (g m i = g m' i' ↔ rep m = rep m' ∧ i = i')) ∧
      (∀ v, (∃ m i, m < nnode ∧ i < ndim ∧ g m i = v) ↔
        v < ((Finset.range nnode).filter fun m => rep m = m).card * ndim) := by
  have hrlt : ∀ m, m < nnode → rep m < nnode := by
    intro m hm
    by_cases hd : ∃ k, k < n ∧ P k 1 = m
    · obtain ⟨k, hk, rfl⟩ := hd
      rw [hrep k hk]; exact hlt k 0 hk (by omega)
    · rw [hid m (by simpa using hd)]; exact hm
  have hrr : ∀ m, rep (rep m) = rep m := by
    intro m
    by_cases hd : ∃ k, k < n ∧ P k 1 = m
    · obtain ⟨k, hk, rfl⟩ := hd
      rw [hrep k hk]; exact hid _ fun k' hk' => (hind k k' hk hk').symm
    · rw [hid m (by simpa using hd), hid m (by simpa using hd)]
  obtain ⟨ret, r1, r2⟩ := forEach_inv (it1 ndim) (fun ret j => do
      let tmp ← mapRes (fun k => do
        let i ← nodePer.get [k, 0]
        ret.get [i, j]) (it1 n)
      forEach (it1 n) (fun ret k => do
        let d ← nodePer.get [k, 1]
        let a ← lget tmp k
        ret.set [d, j] a) ret)
    (fun pre (s : Ten Nat) => Is2 s nnode ndim fun m c =>
      if c < pre.length then rep m * ndim + c else m * ndim + c) (meshDofs nnode ndim)
    (by refine ⟨rfl, fun m c _ _ => ?_⟩; simp [meshDofs, Ten.of])
    (by
      intro pre j post s hl hI
      have hj : j = pre.length := by
        have : (it1 ndim)[pre.length]? = some j := by rw [hl]; simp
        have hb : pre.length < ndim := by
          have := congrArg List.length hl
          simp [it1] at this; omega
        rw [it1, List.getElem?_range hb] at this
        simpa using this.symm
      have hjn : j < ndim := by
        have : j ∈ it1 ndim := by rw [hl]; simp
        simpa using this
      have htmp : mapRes (fun k => do
          let i ← nodePer.get [k, 0]
          s.get [i, j]) (it1 n) = .ok ((it1 n).map fun k => P k 0 * ndim + j) := by
        apply mapRes_ok
        intro k hk
        rw [mem_it1] at hk
        rw [h.get hk (by omega)]
        simp only [Res.ok_bind]
        rw [hI.get (hlt k 0 hk (by omega)) hjn]
        simp [hj]
      rw [htmp]; simp only [Res.ok_bind]
      obtain ⟨s', a1, a2, a3, a4⟩ := forEach_set (it1 n) (fun (ret : Ten Nat) k => do
          let d ← nodePer.get [k, 1]
          let a ← lget ((it1 n).map fun k => P k 0 * ndim + j) k
          ret.set [d, j] a) (fun k => [P k 1, j]) (fun k => P k 0 * ndim + j) s
        (by intro k hk; rw [mem_it1] at hk; simp [hI.1, hlt k 1 hk (by omega), hjn])
        (by
          intro k hk s _
          rw [mem_it1] at hk
          rw [h.get hk (by omega)]
          simp [lget, it1, List.getElem?_range hk])
      refine ⟨s', a1, by rw [a2, hI.1], fun m c hm hc => ?_⟩
      by_cases hcj : c = j
      · subst hcj
        dsimp only
        rw [if_pos (by simp [hj])]
        by_cases hd : ∃ k, k < n ∧ P k 1 = m
        · obtain ⟨k, hk, rfl⟩ := hd
          obtain ⟨k', b1, b2, b3⟩ := a3 [P k 1, c] ⟨k, by simpa using hk, rfl⟩
          rw [mem_it1] at b1
          simp only [List.cons.injEq, and_true] at b2
          rw [b3, ← hrep k' b1, b2]
        · rw [a4 [m, c] (by
            intro k hk he
            rw [mem_it1] at hk
            simp only [List.cons.injEq, and_true] at he
            exact hd ⟨k, hk, he⟩), hI.2 m c hm hc]
          simp [hj, hid m (by simpa using hd)]
      · rw [a4 [m, c] (by
            intro k hk he
            simp only [List.cons.injEq, and_true] at he
            exact hcj he.2.symm), hI.2 m c hm hc]
        have : (c < (pre ++ [j]).length ↔ c < pre.length) := by simp; omega
        simp only [this])
  have hret : Is2 ret nnode ndim fun m c => rep m * ndim + c :=
    r2.congr fun m c _ hc => by simp [it1, hc]
  obtain ⟨y, g, y1, y2, y3, y4, y5⟩ := C09_renumber hret.flat_spec
  rw [hret.1] at y2 y4 y5
  refine ⟨y, fun m i => g [m, i], ?_, ⟨y2, fun m i hm hi => y3 _ (by simp [y2, hm, hi])⟩, ?_, ?_⟩
  · simp only [dofsPeriodic, h.1, List.headD_cons, r1, Res.ok_bind, y1]
  · intro m i m' i' hm hi hm' hi'
    rw [(y4 [m, i] [m', i'] (by simp [hm, hi]) (by simp [hm', hi'])).2]
    simp only [List.getD_cons_zero, List.getD_cons_succ]
    constructor
    · exact fun e => grid_inj hi hi' e
    · rintro ⟨e1, rfl⟩; rw [e1]
  · intro v
    have hv : (∃ m i, m < nnode ∧ i < ndim ∧ g [m, i] = v) ↔
        ∃ ix, inb [nnode, ndim] ix = true ∧ g ix = v := by
      constructor
      · rintro ⟨m, i, hm, hi, e⟩; exact ⟨[m, i], by simp [hm, hi], e⟩
      · rintro ⟨ix, hix, e⟩
        obtain ⟨m, i, rfl, hm, hi⟩ := inb2.1 hix
        exact ⟨m, i, hm, hi, e⟩
    rw [hv, y5 v]
    have : ((indices [nnode, ndim]).map fun ix => rep (ix.getD 0 0) * ndim + ix.getD 1 0).toFinset.card =
        (((range nnode).filter fun m => rep m = m) ×ˢ range ndim).card := by
      symm
      apply Finset.card_bij (fun a _ => a.1 * ndim + a.2)
      · rintro ⟨m, i⟩ hmi
        simp only [mem_product, mem_filter, mem_range] at hmi
        simp only [List.mem_toFinset, List.mem_map, mem_indices]
        exact ⟨[m, i], by simp [hmi.1.1, hmi.2], by simp [hmi.1.2]⟩
      · rintro ⟨m, i⟩ hmi ⟨m', i'⟩ hmi' e
        simp only [mem_product, mem_filter, mem_range] at hmi hmi'
        obtain ⟨e1, e2⟩ := grid_inj hmi.2 hmi'.2 e
        dsimp only at e1 e2
        simp [e1, e2]
      · intro b hb
        simp only [List.mem_toFinset, List.mem_map, mem_indices] at hb
        obtain ⟨ix, hix, rfl⟩ := hb
        obtain ⟨m, i, rfl, hm, hi⟩ := inb2.1 hix
        exact ⟨(rep m, i), by simp [hrlt m hm, hrr m, hi], by simp⟩
    rw [this, card_product, card_range]

end GF
