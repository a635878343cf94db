import Verif.Model.MeshTri3
import Verif.Spec.MeshTri3
import Verif.Props.MeshRegular2d
import Mathlib.Tactic.Positivity

/-! C35: Tri3 regular mesh and orientation. -/

namespace GF
variable {α : Type}

/-- node `m` of triangle `r` (0 or 1) of cell `p` -/
def triNode (nelx : Nat) (p : Nat × Nat) (r l : Nat) : Nat :=
  if r = 0 then
    (if l = 0 then p.1 * (nelx + 1) + p.2 else if l = 1 then p.1 * (nelx + 1) + (p.2 + 1)
      else (p.1 + 1) * (nelx + 1) + p.2)
  else
    (if l = 0 then p.1 * (nelx + 1) + (p.2 + 1) else if l = 1 then (p.1 + 1) * (nelx + 1) + (p.2 + 1)
      else (p.1 + 1) * (nelx + 1) + p.2)

theorem Tri3.Regular.conn_spec (nelx nely : Nat) (h : α) :
    ∃ t, conn (new nelx nely h) = .ok t ∧ Is2 t (nelx * nely * 2) 3 (fun e l =>
      triNode nelx (e / 2 / nelx, e / 2 % nelx) (e % 2) l) := by
  obtain ⟨t, a1, a2⟩ := rows_loop 2 3 (by omega) (it2 nely nelx) (fun k => (k / nelx, k % nelx))
    (fun k hk => it2_idx hk) (fun (s : Ten Nat × Nat) p => do
    let iy := p.1
    let ix := p.2
    let ret ← s.1.set [s.2, 0] (iy * (nelx + 1) + ix)
    let ret ← ret.set [s.2, 1] (iy * (nelx + 1) + (ix + 1))
    let ret ← ret.set [s.2, 2] ((iy + 1) * (nelx + 1) + ix)
    let ielem := s.2 + 1
    let ret ← ret.set [ielem, 0] (iy * (nelx + 1) + (ix + 1))
    let ret ← ret.set [ielem, 1] ((iy + 1) * (nelx + 1) + (ix + 1))
    let ret ← ret.set [ielem, 2] ((iy + 1) * (nelx + 1) + ix)
    .ok (ret, ielem + 1)) (triNode nelx) (nelx * nely * 2) (by rw [length_it2, Nat.mul_comm nely])
    (by
      rintro ⟨i, j⟩ - t c hs hc
      refine ⟨((((((t.put [c, 0] (i * (nelx + 1) + j)).put [c, 1] (i * (nelx + 1) + (j + 1))).put [c, 2]
        ((i + 1) * (nelx + 1) + j)).put [c + 1, 0] (i * (nelx + 1) + (j + 1))).put [c + 1, 1]
        ((i + 1) * (nelx + 1) + (j + 1))).put [c + 1, 2] ((i + 1) * (nelx + 1) + j)), ?_, hs, ?_, ?_⟩
      · have h1 : c < nelx * nely * 2 := by omega
        have h2 : c + 1 < nelx * nely * 2 := by omega
        dsimp only
        rw [set_put (by simp [hs, h1]), Res.ok_bind, set_put (by simp [hs, h1]), Res.ok_bind,
          set_put (by simp [hs, h1]), Res.ok_bind, set_put (by simp [hs, h2]), Res.ok_bind,
          set_put (by simp [hs, h2]), Res.ok_bind, set_put (by simp [hs, h2]), Res.ok_bind]
      · intro r l hr hl
        obtain rfl | rfl : r = 0 ∨ r = 1 := by omega
        all_goals
          obtain rfl | rfl | rfl : l = 0 ∨ l = 1 ∨ l = 2 := by omega
          all_goals simp [Ten.put_v, triNode]
      · intro r l hr
        have h1 : r ≠ c := by omega
        have h2 : r ≠ c + 1 := by omega
        simp [Ten.put_v, h1, h2])
  exact ⟨t, by simp only [conn, new, a1, Res.ok_bind], a2⟩

section
variable [Field α] [LinearOrder α] [IsStrictOrderedRing α]

/-- **C35** Tri3 regular mesh: `2 * nelx * nely` triangles with valid nodes; the two triangles
`2 * (iy * nelx + ix)` and `... + 1` of each cell are counter-clockwise, and their union is exactly the
square cell `[h ix, h (ix + 1)] × [h iy, h (iy + 1)]`, each having half its area. -/
theorem C35_conn (nelx nely : Nat) {h : α} (hh : 0 < h) :
    let M := Tri3.Regular.new nelx nely h
    M.nelem = 2 * (nelx * nely) ∧
    ∃ c x t conn, M.coor = .ok c ∧ Is2 c M.nnode 2 x ∧
      Tri3.Regular.conn M = .ok t ∧ Is2 t M.nelem 3 conn ∧
      (∀ e m, e < M.nelem → m < 3 → conn e m < M.nnode) ∧
      ∀ iy ix, iy < nely → ix < nelx →
        let e := 2 * (iy * nelx + ix)
        e + 1 < M.nelem ∧
        area2 (x (conn e 0)) (x (conn e 1)) (x (conn e 2)) = h * h ∧
        area2 (x (conn (e + 1) 0)) (x (conn (e + 1) 1)) (x (conn (e + 1) 2)) = h * h ∧
        ∀ u v, (InTriangle (x (conn e 0)) (x (conn e 1)) (x (conn e 2)) u v ∨
            InTriangle (x (conn (e + 1) 0)) (x (conn (e + 1) 1)) (x (conn (e + 1) 2)) u v) ↔
          (h * (ix : α) ≤ u ∧ u ≤ h * ((ix + 1 : Nat) : α) ∧
            h * (iy : α) ≤ v ∧ v ≤ h * ((iy + 1 : Nat) : α)) := by
  obtain ⟨c, h1, h2⟩ := (Tri3.Regular.new nelx nely h).coor_spec rfl rfl
  obtain ⟨t, h3, h4⟩ := Tri3.Regular.conn_spec nelx nely h
  refine ⟨by simp [Tri3.Regular.new, Nat.mul_comm], c, _, t, _, h1, h2, h3, h4, ?_, ?_⟩
  · intro e m he hm
    have he' : e / 2 < nely * nelx := by
      simp only [Tri3.Regular.new] at he
      rw [Nat.mul_comm nely]; omega
    obtain ⟨b, a, hb, ha, hab⟩ := grid_exists he'
    simp only [Tri3.Regular.new]
    rw [hab, grid_div ha, grid_mod ha, Nat.mul_comm (nelx + 1)]
    have key : ∀ b a, b < nely + 1 → a < nelx + 1 → b * (nelx + 1) + a < (nely + 1) * (nelx + 1) :=
      fun b a => grid_lt
    unfold triNode
    split_ifs <;> exact key _ _ (by dsimp only; omega) (by dsimp only; omega)
  · intro iy ix hiy hix
    simp only [Tri3.Regular.new]
    have hlt := grid_lt hiy hix
    rw [Nat.mul_comm nely] at hlt
    refine ⟨by omega, ?_⟩
    rw [show 2 * (iy * nelx + ix) / 2 = iy * nelx + ix by omega,
      show (2 * (iy * nelx + ix) + 1) / 2 = iy * nelx + ix by omega,
      show 2 * (iy * nelx + ix) % 2 = 0 by omega, show (2 * (iy * nelx + ix) + 1) % 2 = 1 by omega,
      grid_div hix, grid_mod hix]
    have n00 := gridCoor_node h (nelx := nelx) (i := iy) (j := ix) (by omega)
    have n10 := gridCoor_node h (nelx := nelx) (i := iy) (j := ix + 1) (by omega)
    have n01 := gridCoor_node h (nelx := nelx) (i := iy + 1) (j := ix) (by omega)
    have n11 := gridCoor_node h (nelx := nelx) (i := iy + 1) (j := ix + 1) (by omega)
    simp only [triNode, if_true, one_ne_zero, if_false, OfNat.ofNat_ne_zero, OfNat.ofNat_ne_one,
      area2, InTriangle, n00.1, n00.2, n10.1, n10.2, n01.1, n01.2, n11.1, n11.2, Nat.cast_add,
      Nat.cast_one]
    generalize (ix : α) = X
    generalize (iy : α) = Y
    refine ⟨by ring, by ring, fun u v => ⟨?_, ?_⟩⟩
    · rintro (⟨a, b, c, ha, hb, hc, hs, rfl, rfl⟩ | ⟨a, b, c, ha, hb, hc, hs, rfl, rfl⟩)
      · obtain rfl : a = 1 - b - c := by linarith
        refine ⟨?_, ?_, ?_, ?_⟩
        · nlinarith [mul_nonneg hh.le hb]
        · nlinarith [mul_nonneg hh.le ha, mul_nonneg hh.le hc]
        · nlinarith [mul_nonneg hh.le hc]
        · nlinarith [mul_nonneg hh.le ha, mul_nonneg hh.le hb]
      · obtain rfl : a = 1 - b - c := by linarith
        refine ⟨?_, ?_, ?_, ?_⟩
        · nlinarith [mul_nonneg hh.le ha, mul_nonneg hh.le hb]
        · nlinarith [mul_nonneg hh.le hc]
        · nlinarith [mul_nonneg hh.le hb, mul_nonneg hh.le hc]
        · nlinarith [mul_nonneg hh.le ha]
    · rintro ⟨h1, h2, h3, h4⟩
      have hne := hh.ne'
      have e1 : u = h * (u / h) := by field_simp
      have e2 : v = h * (v / h) := by field_simp
      set U := u / h
      set V := v / h
      rw [e1, mul_le_mul_iff_right₀ hh] at h1 h2
      rw [e2, mul_le_mul_iff_right₀ hh] at h3 h4
      by_cases hd : (U - X) + (V - Y) ≤ 1
      · left
        exact ⟨1 - (U - X) - (V - Y), U - X, V - Y, by linarith, by linarith, by linarith, by ring,
          by rw [e1]; ring, by rw [e2]; ring⟩
      · right
        exact ⟨1 - (V - Y), (U - X) + (V - Y) - 1, 1 - (U - X), by linarith, by linarith, by linarith,
          by ring, by rw [e1]; ring, by rw [e2]; ring⟩

end

section orientation
variable [CommRing α] [LinearOrder α] [IsStrictOrderedRing α]

theorem getOrientation_spec {coor : Ten α} {conn : Ten Nat} {nnode nelem : Nat} {x : Nat → Nat → α}
    {c : Nat → Nat → Nat} (hx : Is2 coor nnode 2 x) (hc : Is2 conn nelem 3 c)
    (hlt : ∀ e m, e < nelem → m < 3 → c e m < nnode) :
    ∃ t, Tri3.getOrientation coor conn = .ok t ∧ Is1 t nelem fun e =>
      if area2 (x (c e 0)) (x (c e 1)) (x (c e 2)) > 0 then -1 else 1 := by
  obtain ⟨t, h1, h2, h3, -⟩ := forEach_set (it1 nelem) (fun (ret : Ten ℤ) e => do
    let n0 ← conn.get [e, 0]
    let n1 ← conn.get [e, 1]
    let n2 ← conn.get [e, 2]
    let x0 ← coor.get [n0, 0]
    let y0 ← coor.get [n0, 1]
    let x1 ← coor.get [n1, 0]
    let y1 ← coor.get [n1, 1]
    let x2 ← coor.get [n2, 0]
    let y2 ← coor.get [n2, 1]
    let k := (x0 - x1) * (y2 - y1) - (x2 - x1) * (y0 - y1)
    if k < 0 then ret.set [e] (-1) else ret.set [e] 1) (fun e => [e])
    (fun e => if area2 (x (c e 0)) (x (c e 1)) (x (c e 2)) > 0 then -1 else 1) (Ten.empty [nelem])
    (by intro e he; rw [mem_it1] at he; simp [Ten.empty, he])
    (by
      intro e he s _
      rw [mem_it1] at he
      have l0 := hlt e 0 he (by omega)
      have l1 := hlt e 1 he (by omega)
      have l2 := hlt e 2 he (by omega)
      simp only [hc.get he (show 0 < 3 by omega), hc.get he (show 1 < 3 by omega),
        hc.get he (show 2 < 3 by omega), hx.get l0 (show 0 < 2 by omega), hx.get l0 (show 1 < 2 by omega),
        hx.get l1 (show 0 < 2 by omega), hx.get l1 (show 1 < 2 by omega),
        hx.get l2 (show 0 < 2 by omega), hx.get l2 (show 1 < 2 by omega), Res.ok_bind]
      have : (x (c e 0) 0 - x (c e 1) 0) * (x (c e 2) 1 - x (c e 1) 1) -
          (x (c e 2) 0 - x (c e 1) 0) * (x (c e 0) 1 - x (c e 1) 1) =
          - area2 (x (c e 0)) (x (c e 1)) (x (c e 2)) := by
        unfold area2; ring
      rw [this]
      simp only [Left.neg_neg_iff, gt_iff_lt]
      split <;> rfl)
  refine ⟨t, by simp only [Tri3.getOrientation, hc.1, List.headD_cons, h1], h2, fun e he => ?_⟩
  obtain ⟨e', -, h5, h6⟩ := h3 [e] ⟨e, by simpa using he, rfl⟩
  simp only [List.cons.injEq, and_true] at h5
  rw [h6, h5]

/-- **C35** `getOrientation`: -1 for counter-clockwise elements, +1 for clockwise (or degenerate) ones -/
theorem C35_getOrientation {coor : Ten α} {conn : Ten Nat} {nnode nelem : Nat} {x : Nat → Nat → α}
    {c : Nat → Nat → Nat} (hx : Is2 coor nnode 2 x) (hc : Is2 conn nelem 3 c)
    (hlt : ∀ e m, e < nelem → m < 3 → c e m < nnode) :
    ∃ t o, Tri3.getOrientation coor conn = .ok t ∧ Is1 t nelem o ∧
      ∀ e, e < nelem → ((o e = -1 ↔ 0 < area2 (x (c e 0)) (x (c e 1)) (x (c e 2))) ∧
        (o e = 1 ↔ area2 (x (c e 0)) (x (c e 1)) (x (c e 2)) ≤ 0)) := by
  obtain ⟨t, h1, h2⟩ := getOrientation_spec hx hc hlt
  refine ⟨t, _, h1, h2, fun e he => ?_⟩
  split
  · rename_i h; exact ⟨by simp [h], by simp [h]⟩
  · rename_i h; exact ⟨by simp [h], by simp at h; simp [h]⟩

theorem setOrientationVal_spec {conn : Ten Nat} {val : Ten ℤ} {nelem : Nat} {c : Nat → Nat → Nat}
    {o : Nat → ℤ} (hc : Is2 conn nelem 3 c) (hv : Is1 val nelem o) (s : ℤ) :
    ∃ t, Tri3.setOrientationVal conn val s = .ok t ∧ Is2 t nelem 3 fun e m =>
      if (s = -1 ∧ o e > 0) ∨ (s = 1 ∧ o e < 0) then
        (if m = 0 then c e 0 else if m = 1 then c e 2 else c e 1) else c e m := by
  obtain ⟨t, h1, h2⟩ := forEach_inv (it1 nelem) (fun (ret : Ten Nat) e => do
      let v ← val.get [e]
      if (s = -1 ∧ v > 0) ∨ (s = 1 ∧ v < 0) then do
        let a ← ret.get [e, 2]
        let b ← ret.get [e, 1]
        let ret ← ret.set [e, 2] b
        ret.set [e, 1] a
      else .ok ret)
    (fun pre t => Is2 t nelem 3 fun e m =>
      if e < pre.length ∧ ((s = -1 ∧ o e > 0) ∨ (s = 1 ∧ o e < 0)) then
        (if m = 0 then c e 0 else if m = 1 then c e 2 else c e 1) else c e m) conn
    (by simpa using hc)
    (by
      intro pre e post t hl hI
      have he : e = pre.length := by
        have : (it1 nelem)[pre.length]? = some e := by rw [hl]; simp
        have hb : pre.length < nelem := by
          have := congrArg List.length hl
          simp [it1] at this; omega
        rw [it1, List.getElem?_range hb] at this
        simpa using this.symm
      have hen : e < nelem := by
        have : e ∈ it1 nelem := by rw [hl]; simp
        simpa using this
      rw [hv.get hen]; simp only [Res.ok_bind]
      split
      · rename_i hcond
        rw [hI.get hen (show 2 < 3 by omega), hI.get hen (show 1 < 3 by omega)]
        simp only [← he, lt_irrefl, false_and, if_false, Res.ok_bind]
        rw [set_put (by simp [hI.1, hen]), Res.ok_bind, set_put (by simp [hI.1, hen])]
        refine ⟨_, rfl, hI.1, fun e' m he' hm => ?_⟩
        simp only [Ten.put_v, List.cons.injEq, and_true]
        by_cases hee : e' = e
        · subst hee
          simp only [true_and, hcond, and_true, List.length_append, List.length_singleton, ← he,
            Nat.lt_succ_self, if_true]
          obtain rfl | rfl | rfl : m = 0 ∨ m = 1 ∨ m = 2 := by omega
          · simp [hI.2 e' 0 he' (by omega), ← he]
          · simp
          · simp
        · simp only [hee, false_and, if_false]
          rw [hI.2 e' m he' hm]
          have : (e' < (pre ++ [e]).length ↔ e' < pre.length) := by simp; omega
          simp only [this]
      · rename_i hcond
        refine ⟨t, rfl, hI.congr fun e' m he' hm => ?_⟩
        by_cases hee : e' = e
        · subst hee; simp only [hcond, and_false, if_false]
        · have : (e' < (pre ++ [e]).length ↔ e' < pre.length) := by simp; omega
          simp only [this])
  refine ⟨t, by simp only [Tri3.setOrientationVal, hc.1, List.headD_cons, h1], h2.congr ?_⟩
  intro e m he hm
  simp only [it1, List.length_range, he, true_and]

/-- **C35** `setOrientation` permutes the nodes of each element, and afterwards `getOrientation` reports
the requested orientation for every element that is not degenerate. -/
theorem C35_setOrientation {coor : Ten α} {conn : Ten Nat} {nnode nelem : Nat} {x : Nat → Nat → α}
    {c : Nat → Nat → Nat} (hx : Is2 coor nnode 2 x) (hc : Is2 conn nelem 3 c)
    (hlt : ∀ e m, e < nelem → m < 3 → c e m < nnode) (s : ℤ) (hs : s = -1 ∨ s = 1) :
    ∃ conn' c' t o, Tri3.setOrientation coor conn s = .ok conn' ∧ Is2 conn' nelem 3 c' ∧
      Tri3.getOrientation coor conn' = .ok t ∧ Is1 t nelem o ∧
      ∀ e, e < nelem → ([c' e 0, c' e 1, c' e 2].Perm [c e 0, c e 1, c e 2]) ∧
        (area2 (x (c e 0)) (x (c e 1)) (x (c e 2)) ≠ 0 → o e = s) := by
  obtain ⟨v, v1, v2⟩ := getOrientation_spec hx hc hlt
  obtain ⟨cn, a1, a2⟩ := setOrientationVal_spec hc v2 s
  have hlt' : ∀ e m, e < nelem → m < 3 →
      (if (s = -1 ∧ (if area2 (x (c e 0)) (x (c e 1)) (x (c e 2)) > 0 then (-1 : ℤ) else 1) > 0) ∨
          (s = 1 ∧ (if area2 (x (c e 0)) (x (c e 1)) (x (c e 2)) > 0 then (-1 : ℤ) else 1) < 0) then
        (if m = 0 then c e 0 else if m = 1 then c e 2 else c e 1) else c e m) < nnode := by
    intro e m he hm
    split_ifs <;> exact hlt e _ he (by omega)
  obtain ⟨t, t1, t2⟩ := getOrientation_spec hx a2 hlt'
  refine ⟨cn, _, t, _, by simp only [Tri3.setOrientation, v1, Res.ok_bind, a1], a2, t1, t2, fun e he => ?_⟩
  have hswap : area2 (x (c e 0)) (x (c e 2)) (x (c e 1)) = - area2 (x (c e 0)) (x (c e 1)) (x (c e 2)) := by
    unfold area2; ring
  rcases lt_trichotomy (area2 (x (c e 0)) (x (c e 1)) (x (c e 2))) 0 with h | h | h
  · have h' : ¬ (0 < area2 (x (c e 0)) (x (c e 1)) (x (c e 2))) := not_lt.2 h.le
    rcases hs with rfl | rfl
    · simp [h', h, hswap, List.Perm.swap]
    · simp [h']
  · rcases hs with rfl | rfl
    · simp [h, List.Perm.swap]
    · simp [h]
  · have h' : ¬ (area2 (x (c e 0)) (x (c e 1)) (x (c e 2)) < 0) := not_lt.2 h.le
    rcases hs with rfl | rfl
    · simp [h]
    · simp [h, hswap, h.le, List.Perm.swap]

/-- **C35** the degenerate case is excluded for a reason: a triangle of zero area always reports +1, also
after `setOrientation(-1)`. -/
theorem C35_degenerate {coor : Ten α} {conn : Ten Nat} {nnode nelem : Nat} {x : Nat → Nat → α}
    {c : Nat → Nat → Nat} (hx : Is2 coor nnode 2 x) (hc : Is2 conn nelem 3 c)
    (hlt : ∀ e m, e < nelem → m < 3 → c e m < nnode) (e : Nat) (he : e < nelem)
    (hz : area2 (x (c e 0)) (x (c e 1)) (x (c e 2)) = 0) :
    ∃ t o, Tri3.getOrientation coor conn = .ok t ∧ Is1 t nelem o ∧ o e = 1 := by
  obtain ⟨v, v1, v2⟩ := getOrientation_spec hx hc hlt
  exact ⟨v, _, v1, v2, by simp [hz]⟩

end orientation

/-- C35: a clockwise unit triangle, hypotheses met -/
example : Is2 (lit2 2 [[0, 0], [1, 0], [0, 1]] : Ten ℚ) 3 2
      (fun i j => (([[0, 0], [1, 0], [0, 1]] : List (List ℚ)).getD i []).getD j 0) ∧
    Is2 (lit2 3 [[0, 2, 1]] : Ten Nat) 1 3 (fun i j => (([[0, 2, 1]] : List (List Nat)).getD i []).getD j 0) :=
  ⟨⟨rfl, fun _ _ _ _ => rfl⟩, ⟨rfl, fun _ _ _ _ => rfl⟩⟩

end GF
