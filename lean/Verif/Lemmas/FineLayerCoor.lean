import Verif.Lemmas.Emits

/-! Lemmas on `Mesh::Quad4::FineLayer`: coordinates and connectivity. -/

namespace GF.FineLayer
open FineLayerSpec Finset
variable {α : Type}

section
variable [Field α] {nelx n : Nat} {W G : Nat → Nat} {R : Nat → Int}

theorem rowHeights_spec {M : FineLayer α} (hM : IsFine M nelx n W G R) (hn : 0 < n) :
    ∃ y, rowHeights M (2 * n - 1) = .ok y ∧ Is1 y (2 * n) (fun i => M.h * (height G i : α)) := by
  unfold rowHeights
  have e1 : itFrom 1 (2 * n - 1 + 1) = (it1 (2 * n - 1)).map (1 + ·) := by
    rw [itFrom, show 2 * n - 1 + 1 - 1 = 2 * n - 1 by omega, it1, List.range'_eq_map_range]
  rw [e1, show 2 * n - 1 + 1 = 2 * n by omega, set1 (t := (Ten.empty [2 * n] : Ten α)) rfl (by omega),
    Res.ok_bind, forEach_map]
  obtain ⟨y, h1, h2, h3⟩ := forEach_range (2 * n - 1)
    (fun (y : Ten α) k => do
      let a ← y.get [1 + k - 1]
      let b ← M.nhy.get [1 + k - 1]
      y.set [1 + k] (a + (b : α) * M.h))
    (fun k y => y.shape = [2 * n] ∧ ∀ i, i ≤ k → y.v [i] = some (M.h * (height G i : α)))
    ⟨[2 * n], Function.update (Ten.empty [2 * n]).v [0] (some 0)⟩
    ⟨rfl, fun i hi => by obtain rfl : i = 0 := by omega
                         simp [height]⟩
    (by
      rintro k hk y ⟨hs, hv⟩
      have hk' : 1 + k - 1 = k := by omega
      rw [hk', get_of_v (by simp [hs]; omega) (hv k (le_refl _)), Res.ok_bind, hM.nhy.get hk, Res.ok_bind,
        set1 hs (by omega)]
      refine ⟨_, rfl, hs, fun i hi => ?_⟩
      dsimp only
      by_cases hik : i = 1 + k
      · subst hik
        rw [Function.update_self, Nat.add_comm 1 k, height_succ]
        push_cast
        congr 1
        ring
      · rw [Function.update_of_ne (by simpa using hik)]
        exact hv i (by omega))
  exact ⟨y, h1, h2, fun i hi => h3 i (by omega)⟩

theorem mainRow_emits {N m : Nat} {x : Ten α} {X : Nat → α} (hx : Is1 x (m + 1) X) (y : α) :
    Emits N 2 (mainRow m x y) (m + 1) (fun k j => if j = 0 then X k else y) := by
  unfold mainRow
  refine emits_it1 (m + 1) _ (fun k j => if j = 0 then X k else y) fun i hi => ?_
  intro t c hs hc
  obtain ⟨t', h⟩ := emits_row2 (N := N) (X i) y t c hs hc
  refine ⟨t', ?_⟩
  beta_reduce
  rw [hx.get hi, Res.ok_bind]
  exact h

theorem midRow_emits {N m : Nat} {x : Ten α} {X : Nat → α} {M : FineLayer α} (hM : IsFine M nelx n W G R)
    {i : Nat} (hi : i < 2 * n - 1) (hx : Is1 x (m + 1) X) (y : α) :
    Emits N 2 (midRow M i m x y) (if R i = 0 then m * 2 else 0)
      (fun k j => if j = 0 then X (k / 2) + M.h * ((W i / 3 : Nat) : α) * ((k % 2 + 1 : Nat) : α)
        else y + M.h * ((G i / 2 : Nat) : α)) := by
  unfold midRow
  rw [hM.refine.get hi]
  simp only [Res.ok_bind]
  by_cases hr : R i = 0
  · simp only [if_pos hr]
    rw [hM.nhx.get hi, hM.nhy.get hi]
    have nest : ∀ (body : Ten α × Nat → Nat × Nat → Res (Ten α × Nat)) (s : Ten α × Nat), forEach (it2 m 2) body s =
        forEach (it1 m) (fun s e => forEach (it1 2) (fun s k => body s (e, k)) s) s :=
      fun body s => (forEach_nest _ _ _ _).symm
    simp only [Res.ok_bind, nest]
    refine emits_unif m 2 (by omega) _ (fun a b j => if j = 0 then X a + M.h * ((W i / 3 : Nat) : α) * ((b + 1 : Nat) : α)
        else y + M.h * ((G i / 2 : Nat) : α)) fun a ha => ?_
    refine emits_it1 2 _ (fun b j => if j = 0 then X a + M.h * ((W i / 3 : Nat) : α) * ((b + 1 : Nat) : α)
        else y + M.h * ((G i / 2 : Nat) : α)) fun b hb => ?_
    rw [hx.get (show a < m + 1 by omega)]
    simp only [Res.ok_bind]
    exact emits_row2 _ _
  · simp only [if_neg hr]
    exact emits_nil _ _ _

/-- position of node `k` of block `i` (node row `i` followed by the nodes inside layer `i`), in units of `h` -/
def posX (nelx n : Nat) (W : Nat → Nat) (i k : Nat) : Nat :=
  if k < rowN nelx n W i then k * rowW n W i
  else (k - rowN nelx n W i) / 2 * W i + ((k - rowN nelx n W i) % 2 + 1) * (W i / 3)

def posY (nelx n : Nat) (W G : Nat → Nat) (i k : Nat) : Nat :=
  if k < rowN nelx n W i then height G i else height G i + G i / 2

/-- number of nodes of block `i` -/
def blkN (nelx n : Nat) (W : Nat → Nat) (R : Nat → Int) (i : Nat) : Nat :=
  rowN nelx n W i + (if i < 2 * n - 1 then midN nelx W R i else 0)

theorem rowS_eq {i : Nat} (hi : i ≤ 2 * n - 1) : rowS nelx n W R i = height (blkN nelx n W R) i :=
  height_congr fun k hk => by rw [blkN, if_pos (by omega)]

theorem linspace_spec [CharZero α] (h : α) {m w : Nat} (he : m * w = nelx) :
    Is1 (linspace 0 (h * (nelx : α)) (m + 1)) (m + 1) (fun k => h * ((k * w : Nat) : α)) := by
  have := is1_linspace (h * (w : α)) m
  rw [show h * (w : α) * (m : α) = h * (nelx : α) by rw [← he]; push_cast; ring] at this
  exact this.congr fun k _ => by push_cast; ring

theorem coor_spec [CharZero α] {M : FineLayer α} (hM : IsFine M nelx n W G R) (hL : Layers nelx n W G R)
    (hLx : M.Lx = M.h * (nelx : α)) :
    M.nnode = height (blkN nelx n W R) (2 * n) ∧
    ∃ c x, M.coor = .ok c ∧ Is2 c M.nnode 2 x ∧
      ∀ i k, i < 2 * n → k < blkN nelx n W R i →
        x (height (blkN nelx n W R) i + k) 0 = M.h * ((posX nelx n W i k : Nat) : α) ∧
        x (height (blkN nelx n W R) i + k) 1 = M.h * ((posY nelx n W G i k : Nat) : α) := by
  have hp := hL.npos
  have hN : M.nnode = height (blkN nelx n W R) (2 * n) := by
    have e : height (blkN nelx n W R) (2 * n) = height (blkN nelx n W R) (2 * n - 1) + blkN nelx n W R (2 * n - 1) := by
      rw [← height_succ]; congr 1; omega
    rw [hM.nnode, e, rowS_eq (le_refl _), blkN, if_neg (show ¬ 2 * n - 1 < 2 * n - 1 by omega)]; omega
  refine ⟨hN, ?_⟩
  haveI : Inhabited (Nat → α) := ⟨fun _ => 0⟩
  obtain ⟨x, hx⟩ := exists_glue (blkN nelx n W R) (fun i k (j : Nat) =>
    if j = 0 then M.h * ((posX nelx n W i k : Nat) : α) else M.h * ((posY nelx n W G i k : Nat) : α))
  obtain ⟨y, hy1, hy2⟩ := rowHeights_spec hM hp
  have hsz : M.nhy.size = 2 * n - 1 := hM.nhy.size
  have hmid : (2 * n - 1 - 1) / 2 = n - 1 := by omega
  -- first loop
  have low : Emits M.nnode 2 (fun s => forEach (it1 (n - 1 + 1)) (coorBelow M (2 * n - 1) y) s)
      (height (fun i => if i = n - 1 then rowN nelx n W i else blkN nelx n W R i) (n - 1 + 1)) x := by
    refine emits_blocks _ _ _ (fun i k j => x (height (blkN nelx n W R) i + k) j) x (fun i hi => ?_) (fun i k j hi _ _ => by
      rw [show height (fun i => if i = n - 1 then rowN nelx n W i else blkN nelx n W R i) i = height (blkN nelx n W R) i from
        height_congr fun l hl => if_neg (by omega)])
    have hi' : i < 2 * n - 1 := by omega
    have hrw : rowW n W i = W i := by rw [rowW, if_pos (by omega)]
    have hls := linspace_spec M.h (hL.nelx_eq hi')
    have e1 := mainRow_emits (N := M.nnode) hls (M.h * (height G i : α))
    have e2 := midRow_emits (N := M.nnode) hM hi' hls (M.h * (height G i : α))
    have hr : rowN nelx n W i = nelx / W i + 1 := by rw [rowN, hrw]
    have hrow : ∀ k j, k < nelx / W i + 1 → j < 2 →
        x (height (blkN nelx n W R) i + k) j = if j = 0 then M.h * ((k * W i : Nat) : α) else M.h * (height G i : α) := by
      intro k j hk hj
      rw [hx i k (by rw [blkN]; omega), posX, posY, if_pos (by omega), if_pos (by omega), hrw]
    intro t c hs hc
    unfold coorBelow
    rw [hM.layer.get hi', hy2.get (by omega)]
    simp only [Res.ok_bind, hLx, hmid]
    by_cases him : i = n - 1
    · rw [if_pos him] at hc ⊢
      simp only [if_pos him]
      obtain ⟨t', a1, a2, a3, a4⟩ := e1 t c hs (by omega)
      rw [a1, Res.ok_bind, hr]
      refine ⟨t', rfl, a2, fun k j hk hj => ?_, a4⟩
      rw [a3 k j hk hj, hrow k j hk hj]
    · rw [if_neg him] at hc ⊢
      simp only [if_neg him]
      have hb : blkN nelx n W R i = (nelx / W i + 1) + (if R i = 0 then nelx / W i * 2 else 0) := by
        rw [blkN, if_pos hi', hr, midN]; congr 1; split <;> omega
      have := e1.seq e2 (G := fun k j => x (height (blkN nelx n W R) i + k) j) hrow (by
        intro k j hk hj
        beta_reduce
        rw [hx i (nelx / W i + 1 + k) (by rw [hb]; omega), posX, posY, if_neg (by omega), if_neg (by omega), hr]
        rw [show nelx / W i + 1 + k - (nelx / W i + 1) = k by omega]
        by_cases hj0 : j = 0
        · simp only [if_pos hj0]; push_cast; ring
        · simp only [if_neg hj0]; push_cast; ring)
      rw [hb] at hc ⊢
      exact this t c hs hc
  -- second loop
  have e2 : itFrom (n - 1) (2 * n - 1) = (it1 n).map (n - 1 + ·) := by
    rw [itFrom, show 2 * n - 1 - (n - 1) = n by omega, it1, List.range'_eq_map_range]
  have hoff : ∀ k, k ≤ n → height (fun i => if i = n - 1 then rowN nelx n W i else blkN nelx n W R i) (n - 1 + 1) +
      height (fun k => midN nelx W R (n - 1 + k) + rowN nelx n W (n - 1 + k + 1)) k =
      height (blkN nelx n W R) (n - 1 + k) + rowN nelx n W (n - 1 + k) := by
    intro k hk
    induction k with
    | zero =>
      rw [height_succ, if_pos rfl]
      rw [show height (fun i => if i = n - 1 then rowN nelx n W i else blkN nelx n W R i) (n - 1) = height (blkN nelx n W R) (n - 1) from
        height_congr fun l hl => if_neg (by omega)]
      simp [height]
    | succ k ih =>
      have := ih (by omega)
      have e5 : height (blkN nelx n W R) (n - 1 + (k + 1)) = height (blkN nelx n W R) (n - 1 + k) +
          (rowN nelx n W (n - 1 + k) + midN nelx W R (n - 1 + k)) := by
        rw [← Nat.add_assoc (n - 1), height_succ, blkN, if_pos (by omega)]
      rw [height_succ _ k, e5, ← Nat.add_assoc (n - 1) k 1]
      omega
  have high : Emits M.nnode 2 (fun s => forEach (it1 n) (fun s k => coorAbove M y s (n - 1 + k)) s)
      (height (fun k => midN nelx W R (n - 1 + k) + rowN nelx n W (n - 1 + k + 1)) n)
      (fun e j => x (height (fun i => if i = n - 1 then rowN nelx n W i else blkN nelx n W R i) (n - 1 + 1) + e) j) := by
    refine emits_blocks _ _ _ (fun k e j => x (height (blkN nelx n W R) (n - 1 + k) + rowN nelx n W (n - 1 + k) + e) j) _
      (fun k hk => ?_) (fun k e j hk _ _ => by
        beta_reduce
        rw [← Nat.add_assoc, hoff k (by omega)])
    generalize hi : n - 1 + k = i
    have hi' : i < 2 * n - 1 := by omega
    have hrw : rowW n W (i + 1) = W i := by rw [rowW, if_neg (by omega), Nat.add_sub_cancel]
    have hls := linspace_spec M.h (hL.nelx_eq hi')
    have e1 := mainRow_emits (N := M.nnode) hls (M.h * (height G (i + 1) : α))
    have e2 := midRow_emits (N := M.nnode) hM hi' hls (M.h * (height G i : α))
    have hr : rowN nelx n W (i + 1) = nelx / W i + 1 := by rw [rowN, hrw]
    have hmd : midN nelx W R i = if R i = 0 then nelx / W i * 2 else 0 := by
      rw [midN]; split <;> omega
    have := e2.seq e1 (G := fun e j => x (height (blkN nelx n W R) i + rowN nelx n W i + e) j) (by
        intro e j he hj
        beta_reduce
        rw [Nat.add_assoc, hx i _ (by rw [blkN, if_pos hi', hmd]; omega), posX, posY, if_neg (by omega), if_neg (by omega)]
        rw [show rowN nelx n W i + e - rowN nelx n W i = e by omega]
        by_cases hj0 : j = 0
        · simp only [if_pos hj0]; push_cast; ring
        · simp only [if_neg hj0]; push_cast; ring) (by
        intro e j he hj
        beta_reduce
        have e3 : height (blkN nelx n W R) i + rowN nelx n W i + ((if R i = 0 then nelx / W i * 2 else 0) + e) =
            height (blkN nelx n W R) (i + 1) + e := by
          rw [height_succ, blkN, if_pos hi', hmd]; omega
        rw [e3, hx (i + 1) e (by rw [blkN, hr]; omega), posX, posY, if_pos (by omega), if_pos (by omega), hrw])
    intro t c hs hc
    rw [hmd, hr] at hc ⊢
    obtain ⟨t', a1, a2⟩ := this t c hs hc
    refine ⟨t', ?_, a2⟩
    beta_reduce at a1 ⊢
    unfold coorAbove
    rw [hM.layer.get hi', hy2.get (show i < 2 * n by omega), hy2.get (show i + 1 < 2 * n by omega)]
    simp only [Res.ok_bind, hLx]
    exact a1
  have hall := low.seq high (G := x) (fun _ _ _ _ => rfl) (fun _ _ _ _ => rfl)
  have htot := hoff n (le_refl _)
  have htot2 : height (blkN nelx n W R) (n - 1 + n) + rowN nelx n W (n - 1 + n) = M.nnode := by
    rw [hN, show 2 * n = (2 * n - 1) + 1 by omega, height_succ, show n - 1 + n = 2 * n - 1 by omega, blkN,
      if_neg (by omega), Nat.add_zero]
  rw [htot, htot2] at hall
  obtain ⟨t', a1, a2, a3, -⟩ := hall (Ten.empty [M.nnode, 2]) 0 rfl (by omega)
  refine ⟨t', x, ?_, ⟨a2, fun k j hk hj => ?_⟩, fun i k hi hk => ?_⟩
  · unfold FineLayer.coor
    rw [hsz]
    dsimp only
    rw [hy1, hmid, e2, hM.ndim]
    simp only [Res.ok_bind, forEach_map]
    beta_reduce at a1
    generalize hA : forEach (it1 (n - 1 + 1)) (coorBelow M (2 * n - 1) y) (Ten.empty [M.nnode, 2], 0) = A at a1 ⊢
    cases A with
    | ok s =>
      rw [Res.ok_bind'] at a1
      rw [Res.ok_bind, a1, Res.ok_bind]
    | throws => simp [Res.bind] at a1
    | ub => simp [Res.bind] at a1
  · have := a3 k j hk hj
    rwa [Nat.zero_add] at this
  · rw [hx i k hk]
    exact ⟨if_pos rfl, if_neg (by omega)⟩

end

section
variable {nelx n : Nat} {W G : Nat → Nat} {R : Nat → Int}

/-- corner `j` of element `q` of block `ix` of a transition layer below the middle -/
def belowNode (bot mid top : Nat → Nat) (ix q j : Nat) : Nat :=
  match q, j with
  | 0, 0 => bot ix
  | 0, 1 => bot (ix + 1)
  | 0, 2 => mid (2 * ix + 1)
  | 0, _ => mid (2 * ix)
  | 1, 0 => bot (ix + 1)
  | 1, 1 => top (3 * ix + 3)
  | 1, 2 => top (3 * ix + 2)
  | 1, _ => mid (2 * ix + 1)
  | 2, 0 => mid (2 * ix)
  | 2, 1 => mid (2 * ix + 1)
  | 2, 2 => top (3 * ix + 2)
  | 2, _ => top (3 * ix + 1)
  | _, 0 => bot ix
  | _, 1 => mid (2 * ix)
  | _, 2 => top (3 * ix + 1)
  | _, _ => top (3 * ix)

/-- corner `j` of element `q` of block `ix` of a transition layer above the middle -/
def aboveNode (bot mid top : Nat → Nat) (ix q j : Nat) : Nat :=
  match q, j with
  | 0, 0 => bot (3 * ix)
  | 0, 1 => bot (3 * ix + 1)
  | 0, 2 => mid (2 * ix)
  | 0, _ => top ix
  | 1, 0 => bot (3 * ix + 1)
  | 1, 1 => bot (3 * ix + 2)
  | 1, 2 => mid (2 * ix + 1)
  | 1, _ => mid (2 * ix)
  | 2, 0 => bot (3 * ix + 2)
  | 2, 1 => bot (3 * ix + 3)
  | 2, 2 => top (ix + 1)
  | 2, _ => mid (2 * ix + 1)
  | _, 0 => mid (2 * ix)
  | _, 1 => mid (2 * ix + 1)
  | _, 2 => top (ix + 1)
  | _, _ => top ix

/-- the corners of element `k` of layer `i`, relative to the first nodes of the bottom row, of the row inside
the layer, and of the top row -/
def elemNode (n : Nat) (R : Nat → Int) (bot mid top : Nat → Nat) (i k j : Nat) : Nat :=
  if R i = -1 then
    if j = 0 then bot k else if j = 1 then bot (k + 1) else if j = 2 then top (k + 1) else top k
  else if i < n then belowNode bot mid top (k / 4) (k % 4) j
  else aboveNode bot mid top (k / 4) (k % 4) j

theorem Res.bind_assoc4 {σ : Type} (a : Res σ) (f g h : σ → Res σ) :
    ((a.bind f).bind g).bind h = a.bind fun s => (f s).bind fun s => (g s).bind h := by
  cases a with
  | ok s =>
    simp only [Res.ok_bind']
    cases f s with
    | ok s =>
      simp only [Res.ok_bind']
    | throws => rfl
    | ub => rfl
  | throws => rfl
  | ub => rfl

/-- four rows of four entries -/
theorem emits_four {N : Nat} {f : Ten Nat × Nat → Res (Ten Nat × Nat)} {g : Nat → Nat → Nat}
    (h : ∀ s, f s = (((putElem s (g 0 0) (g 0 1) (g 0 2) (g 0 3)).bind fun s =>
      putElem s (g 1 0) (g 1 1) (g 1 2) (g 1 3)).bind fun s =>
      putElem s (g 2 0) (g 2 1) (g 2 2) (g 2 3)).bind fun s =>
      putElem s (g 3 0) (g 3 1) (g 3 2) (g 3 3)) : Emits N 4 f 4 g := by
  have one : ∀ r, Emits N 4 (fun s => putElem s (g r 0) (g r 1) (g r 2) (g r 3)) 1 (fun k j => g (r + k) j) := by
    intro r
    refine (emits_row4 _ _ _ _).congr fun k j hk hj => ?_
    obtain rfl : k = 0 := by omega
    obtain rfl | rfl | rfl | rfl : j = 0 ∨ j = 1 ∨ j = 2 ∨ j = 3 := by omega
    all_goals rfl
  have e := (((one 0).seq (one 1) (G := g) (by intro k j _ _; rw [Nat.zero_add]) (fun _ _ _ _ => rfl)).seq (one 2) (G := g)
    (fun _ _ _ _ => rfl) (fun _ _ _ _ => rfl)).seq (one 3) (G := g) (fun _ _ _ _ => rfl) (fun _ _ _ _ => rfl)
  rw [show f = _ from funext h]
  exact e

theorem conn_spec {M : FineLayer α} (hM : IsFine M nelx n W G R) (hL : Layers nelx n W G R) :
    ∃ t c, M.conn = .ok t ∧ Is2 t M.nelem 4 c ∧
      ∀ i k j, i < 2 * n - 1 → k < layE nelx W R i → j < 4 →
        c (layS nelx W R i + k) j = elemNode n R (fun a => rowS nelx n W R i + a)
          (fun a => rowS nelx n W R i + rowN nelx n W i + a) (fun a => rowS nelx n W R (i + 1) + a) i k j := by
  have hp := hL.npos
  obtain ⟨c, hc⟩ := exists_glue (layE nelx W R) (fun i k j => elemNode n R (fun a => rowS nelx n W R i + a)
    (fun a => rowS nelx n W R i + rowN nelx n W i + a) (fun a => rowS nelx n W R (i + 1) + a) i k j)
  have hsz : M.nhy.size = 2 * n - 1 := hM.nhy.size
  have hmid : (2 * n - 1 - 1) / 2 = n - 1 := by omega
  have key : Emits M.nelem 4 (fun s => forEach (it1 (2 * n - 1)) (connLayer M (2 * n - 1)) s)
      (height (layE nelx W R) (2 * n - 1)) c := by
    refine emits_blocks _ _ _ (fun i k j => c (height (layE nelx W R) i + k) j) c (fun i hi => ?_) (fun _ _ _ _ _ _ => rfl)
    refine Emits.congr ?_ (fun k j hk hj => (congrFun (hc i k hk) j).symm)
    unfold connLayer
    rw [hM.startNode.get (show i < 2 * n by omega), hM.nnd.get (show i < 2 * n by omega),
      hM.startNode.get (show i + 1 < 2 * n by omega), hM.refine.get hi, hM.layer.get hi]
    simp only [Res.ok_bind, hmid]
    rcases hL.kind hi with ⟨a, -⟩ | ⟨a, b, -⟩ | ⟨a, b, -⟩
    · have hE : layE nelx W R i = nelx / W i := by rw [layE, a, if_neg (by omega)]
      simp only [hE, if_pos a]
      refine emits_it1 _ _ _ fun k hk => ?_
      refine (emits_row4 _ _ _ _).congr fun _ j _ hj => ?_
      rw [elemNode, if_pos a]
    · have hE : layE nelx W R i = nelx / W i * 4 := by rw [layE, a, if_pos rfl]; omega
      have c1 : ¬ (R i = -1) := by omega
      have c2 : R i = 0 ∧ i ≤ n - 1 := ⟨a, by omega⟩
      simp only [hE, if_neg c1, if_pos c2]
      refine (emits_unif (nelx / W i) 4 (by omega) _ (fun ix q j => belowNode (fun a => rowS nelx n W R i + a)
        (fun a => rowS nelx n W R i + rowN nelx n W i + a) (fun a => rowS nelx n W R (i + 1) + a) ix q j) fun ix _ => ?_).congr
        (fun k j hk hj => by rw [elemNode, if_neg c1, if_pos (show i < n by omega)])
      exact emits_four fun s => (Res.bind_assoc4 _ _ _ _).symm
    · have hE : layE nelx W R i = nelx / W i * 4 := by rw [layE, a, if_pos rfl]; omega
      have c1 : ¬ (R i = -1) := by omega
      have c2 : ¬ (R i = 0 ∧ i ≤ n - 1) := by omega
      have c3 : R i = 0 ∧ n - 1 < i := ⟨a, by omega⟩
      simp only [hE, if_neg c1, if_neg c2, if_pos c3]
      refine (emits_unif (nelx / W i) 4 (by omega) _ (fun ix q j => aboveNode (fun a => rowS nelx n W R i + a)
        (fun a => rowS nelx n W R i + rowN nelx n W i + a) (fun a => rowS nelx n W R (i + 1) + a) ix q j) fun ix _ => ?_).congr
        (fun k j hk hj => by rw [elemNode, if_neg c1, if_neg (show ¬ i < n by omega)])
      exact emits_four fun s => (Res.bind_assoc4 _ _ _ _).symm
  obtain ⟨t', a1, a2, a3, -⟩ := key (Ten.empty [M.nelem, 4]) 0 rfl (by rw [hM.nelem]; exact (Nat.zero_add _).le)
  refine ⟨t', c, ?_, ⟨a2, fun k j hk hj => ?_⟩, fun i k j hi hk hj => ?_⟩
  · unfold FineLayer.conn
    rw [hsz, hM.nne]
    dsimp only at a1 ⊢
    rw [a1, Res.ok_bind]
  · have := a3 k j (by rw [hM.nelem] at hk; exact hk) hj
    rwa [Nat.zero_add] at this
  · exact congrFun (hc i k hk) j

end
end GF.FineLayer
