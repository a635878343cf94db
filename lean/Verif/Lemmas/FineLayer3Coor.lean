import Verif.Lemmas.FineLayer3New
import Verif.Lemmas.FineLayerCoor

/-! Lemmas on `Mesh::Hex8::FineLayer`: coordinates. -/

namespace GF

/-- a loop of blocks of `K` rows (`K` may be zero) -/
theorem emits_unif' {α : Type} {N w : Nat} (m K : Nat) (body : Ten α × Nat → Nat → Res (Ten α × Nat))
    (g : Nat → Nat → Nat → α) (hb : ∀ i, i < m → Emits N w (fun s => body s i) K (g i)) :
    Emits N w (fun s => forEach (it1 m) body s) (m * K) (fun e j => g (e / K) (e % K) j) := by
  have := emits_blocks m body (fun _ => K) g (fun e j => g (e / K) (e % K) j) hb (by
    intro i k j hi hk hj
    beta_reduce
    rw [height_const, grid_div hk, grid_mod hk])
  rwa [height_const] at this

end GF

namespace GF.FineLayer3
open FineLayerSpec Finset FineLayer
variable {α : Type}

/-- a triple -/
def vec3 {β : Type} (a b c : β) (j : Nat) : β := if j = 0 then a else if j = 1 then b else c

theorem emits_node [DivisionRing α] {N : Nat} (a b c : α) :
    Emits N 3 (fun s => putNode s a b c) 1 (fun _ j => vec3 a b c j) := by
  intro t e hs hc
  unfold putNode
  dsimp only
  have key : ∀ (t : Ten α) (j : Nat) (a : α), t.shape = [N, 3] → j < 3 → t.set [e, j] a = .ok (t.put [e, j] a) :=
    fun t j a h hj => set_put (by simp [h, hj]; omega) a
  rw [key _ _ _ hs (by omega), Res.ok_bind, key _ _ _ (by simp only [Ten.put_shape]; exact hs) (by omega), Res.ok_bind,
    key _ _ _ (by simp only [Ten.put_shape]; exact hs) (by omega), Res.ok_bind]
  refine ⟨_, rfl, hs, fun k j hk hj => ?_, fun k j hk => ?_⟩
  · obtain rfl : k = 0 := by omega
    obtain rfl | rfl | rfl : j = 0 ∨ j = 1 ∨ j = 2 := by omega
    all_goals simp [Ten.put_v, vec3]
  · have : k ≠ e := by omega
    simp [Ten.put_v, this]

section
variable [Field α] {nelx nelz n : Nat} {WX WZ G : Nat → Nat} {R : Nat → Int}

theorem rowHeights_spec {M : FineLayer3 α} (hM : IsFine3 M nelx nelz n WX WZ G R) (hn : 0 < n) :
    ∃ y, FineLayer3.rowHeights M (2 * n - 1) = .ok y ∧ Is1 y (2 * n) (fun i => M.h * (height G i : α)) := by
  unfold FineLayer3.rowHeights
  have e1 : itFrom 1 (2 * n - 1 + 1) = (it1 (2 * n - 1)).map (1 + ·) := by
    rw [itFrom, show 2 * n - 1 + 1 - 1 = 2 * n - 1 by omega, it1, List.range'_eq_map_range]
  rw [e1, show 2 * n - 1 + 1 = 2 * n by omega, set1 (t := (Ten.empty [2 * n] : Ten α)) rfl (by omega),
    Res.ok_bind, forEach_map]
  obtain ⟨y, h1, h2, h3⟩ := forEach_range (2 * n - 1)
    (fun (y : Ten α) k => do
      let a ← y.get [1 + k - 1]
      let b ← M.nhy.get [1 + k - 1]
      y.set [1 + k] (a + (b : α) * M.h))
    (fun k y => y.shape = [2 * n] ∧ ∀ i, i ≤ k → y.v [i] = some (M.h * (height G i : α)))
    ⟨[2 * n], Function.update (Ten.empty [2 * n]).v [0] (some 0)⟩
    ⟨rfl, fun i hi => by obtain rfl : i = 0 := by omega
                         simp [height]⟩
    (by
      rintro k hk y ⟨hs, hv⟩
      have hk' : 1 + k - 1 = k := by omega
      rw [hk', get_of_v (by simp [hs]; omega) (hv k (le_refl _)), Res.ok_bind, hM.nhy.get hk, Res.ok_bind,
        set1 hs (by omega)]
      refine ⟨_, rfl, hs, fun i hi => ?_⟩
      dsimp only
      by_cases hik : i = 1 + k
      · subst hik
        rw [Function.update_self, Nat.add_comm 1 k, height_succ]
        push_cast
        congr 1
        ring
      · rw [Function.update_of_ne (by simpa using hik)]
        exact hv i (by omega))
  exact ⟨y, h1, h2, fun i hi => h3 i (by omega)⟩

theorem mainRow_emits {N l m : Nat} {x z : Ten α} {X Z : Nat → α} (hx : Is1 x (l + 1) X) (hz : Is1 z (m + 1) Z) (y : α) :
    Emits N 3 (FineLayer3.mainRow l m x z y) ((m + 1) * (l + 1))
      (fun e j => vec3 (X (e % (l + 1))) y (Z (e / (l + 1))) j) := by
  unfold FineLayer3.mainRow
  refine emits_unif' (m + 1) (l + 1) _ (fun a b j => vec3 (X b) y (Z a) j) fun a ha => ?_
  refine emits_it1 (l + 1) _ (fun b j => vec3 (X b) y (Z a) j) fun b hb => ?_
  rw [hx.get hb, hz.get ha]
  simp only [Res.ok_bind]
  exact emits_node _ _ _

theorem midRowX_emits {N l m : Nat} {x z : Ten α} {X Z : Nat → α} {M : FineLayer3 α}
    (hM : IsFine3 M nelx nelz n WX WZ G R)
    {i : Nat} (hi : i < 2 * n - 1) (hx : Is1 x (l + 1) X) (hz : Is1 z (m + 1) Z) (y : α) :
    Emits N 3 (midRowX M i l m x z y) ((m + 1) * (l * 2))
      (fun e j => vec3 (X (e % (l * 2) / 2) + M.h * ((WX i / 3 : Nat) : α) * ((e % (l * 2) % 2 + 1 : Nat) : α))
        (y + M.h * ((G i / 2 : Nat) : α)) (Z (e / (l * 2))) j) := by
  unfold midRowX
  rw [hM.nhx.get hi, hM.nhy.get hi]
  simp only [Res.ok_bind]
  refine emits_unif' (m + 1) (l * 2) _ (fun a e j => vec3 (X (e / 2) + M.h * ((WX i / 3 : Nat) : α) * ((e % 2 + 1 : Nat) : α))
        (y + M.h * ((G i / 2 : Nat) : α)) (Z a) j) fun a ha => ?_
  refine emits_unif' l 2 _ (fun b c j => vec3 (X b + M.h * ((WX i / 3 : Nat) : α) * ((c + 1 : Nat) : α))
        (y + M.h * ((G i / 2 : Nat) : α)) (Z a) j) fun b hb => ?_
  refine emits_it1 2 _ (fun c j => vec3 (X b + M.h * ((WX i / 3 : Nat) : α) * ((c + 1 : Nat) : α))
        (y + M.h * ((G i / 2 : Nat) : α)) (Z a) j) fun c hc => ?_
  rw [hx.get (show b < l + 1 by omega), hz.get ha]
  simp only [Res.ok_bind]
  exact emits_node _ _ _

theorem midRowZ_emits {N l m : Nat} {x z : Ten α} {X Z : Nat → α} {M : FineLayer3 α}
    (hM : IsFine3 M nelx nelz n WX WZ G R)
    {i : Nat} (hi : i < 2 * n - 1) (hx : Is1 x (l + 1) X) (hz : Is1 z (m + 1) Z) (y : α) :
    Emits N 3 (midRowZ M i l m x z y) (m * (2 * (l + 1)))
      (fun e j => vec3 (X (e % (l + 1))) (y + M.h * ((G i / 2 : Nat) : α))
        (Z (e / (l + 1) / 2) + M.h * ((WZ i / 3 : Nat) : α) * ((e / (l + 1) % 2 + 1 : Nat) : α)) j) := by
  unfold midRowZ
  rw [hM.nhz.get hi, hM.nhy.get hi]
  simp only [Res.ok_bind]
  have := emits_unif' (N := N) (w := 3) m (2 * (l + 1)) (fun (s : Ten α × Nat) iz =>
    forEach (it1 2) (fun (s : Ten α × Nat) j =>
      forEach (it1 (l + 1)) (fun (s : Ten α × Nat) ix => do
        let a ← x.get [ix]
        let b ← z.get [iz]
        putNode s a (y + M.h * ((G i / 2 : Nat) : α)) (b + M.h * ((WZ i / 3 : Nat) : α) * ((j + 1 : Nat) : α))) s) s)
    (fun a e j => vec3 (X (e % (l + 1))) (y + M.h * ((G i / 2 : Nat) : α))
        (Z a + M.h * ((WZ i / 3 : Nat) : α) * ((e / (l + 1) + 1 : Nat) : α)) j) (fun a ha => by
      refine emits_unif' 2 (l + 1) _ (fun c b j => vec3 (X b) (y + M.h * ((G i / 2 : Nat) : α))
        (Z a + M.h * ((WZ i / 3 : Nat) : α) * ((c + 1 : Nat) : α)) j) fun c hc => ?_
      refine emits_it1 (l + 1) _ (fun b j => vec3 (X b) (y + M.h * ((G i / 2 : Nat) : α))
        (Z a + M.h * ((WZ i / 3 : Nat) : α) * ((c + 1 : Nat) : α)) j) fun b hb => ?_
      rw [hx.get hb, hz.get (show a < m + 1 by omega)]
      simp only [Res.ok_bind]
      exact emits_node _ _ _)
  refine this.congr fun e j _ _ => ?_
  beta_reduce
  have q1 : e % (2 * (l + 1)) % (l + 1) = e % (l + 1) := Nat.mod_mod_of_dvd e ⟨2, Nat.mul_comm _ _⟩
  have q2 : e % (2 * (l + 1)) / (l + 1) = e / (l + 1) % 2 := by
    rw [Nat.mul_comm, Nat.mod_mul_right_div_self]
  have q3 : e / (2 * (l + 1)) = e / (l + 1) / 2 := by rw [Nat.mul_comm, Nat.div_div_eq_div_mul]
  rw [q1, q2, q3]

/-- position along one axis inside a layer, in units of `h` -/
def axMid (w : Nat) (m : Mode) (k : Nat) : Nat :=
  match m with
  | .same => k * w
  | _ => k / 2 * w + (k % 2 + 1) * (w / 3)

/-- position of node `e` of block `i` (node plane `i` followed by the nodes inside layer `i`), in units of `h` -/
def pos3 (nelx nelz n : Nat) (WX WZ G : Nat → Nat) (R : Nat → Int) (i e j : Nat) : Nat :=
  if e < rowN3 nelx nelz n WX WZ i then
    vec3 (e % rowN nelx n WX i * rowW n WX i) (height G i) (e / rowN nelx n WX i * rowW n WZ i) j
  else
    vec3 (axMid (WX i) (kindR3 n R i).mx
        ((e - rowN3 nelx nelz n WX WZ i) % axM nelx (WX i) (kindR3 n R i).mx))
      (height G i + G i / 2)
      (axMid (WZ i) (kindR3 n R i).mz
        ((e - rowN3 nelx nelz n WX WZ i) / axM nelx (WX i) (kindR3 n R i).mx)) j

/-- number of nodes of block `i` -/
def blkC (nelx nelz n : Nat) (WX WZ : Nat → Nat) (R : Nat → Int) (i : Nat) : Nat :=
  rowN3 nelx nelz n WX WZ i + (if i < 2 * n - 1 then midN3 nelx nelz n WX WZ R i else 0)

theorem rowS3_eq {i : Nat} (hi : i ≤ 2 * n - 1) :
    rowS3 nelx nelz n WX WZ R i = height (blkC nelx nelz n WX WZ R) i :=
  height_congr fun k hk => by rw [blkC, if_pos (by omega)]; rfl

theorem vec3_cast (h : α) (a b c j : Nat) :
    h * ((vec3 a b c j : Nat) : α) = vec3 (h * (a : α)) (h * (b : α)) (h * (c : α)) j := by
  unfold vec3; split
  · rfl
  · split <;> rfl

theorem midRow_emits [CharZero α] {N : Nat} {x z : Ten α} {M : FineLayer3 α}
    (hM : IsFine3 M nelx nelz n WX WZ G R) (hL : Layers3 nelx nelz n WX WZ G R)
    {i : Nat} (hi : i < 2 * n - 1)
    (hx : Is1 x (nelx / WX i + 1) (fun k => M.h * ((k * WX i : Nat) : α)))
    (hz : Is1 z (nelz / WZ i + 1) (fun k => M.h * ((k * WZ i : Nat) : α))) :
    Emits N 3 (FineLayer3.midRow M i (nelx / WX i) (nelz / WZ i) x z (M.h * (height G i : α))) (midN3 nelx nelz n WX WZ R i)
      (fun e j => M.h * ((pos3 nelx nelz n WX WZ G R i (rowN3 nelx nelz n WX WZ i + e) j : Nat) : α)) := by
  unfold FineLayer3.midRow
  rw [hM.refine.get hi]
  simp only [Res.ok_bind]
  have hpos : ∀ e j, pos3 nelx nelz n WX WZ G R i (rowN3 nelx nelz n WX WZ i + e) j =
      vec3 (axMid (WX i) (kindR3 n R i).mx (e % axM nelx (WX i) (kindR3 n R i).mx))
      (height G i + G i / 2)
      (axMid (WZ i) (kindR3 n R i).mz (e / axM nelx (WX i) (kindR3 n R i).mx)) j := by
    intro e j
    rw [pos3, if_neg (by omega), Nat.add_sub_cancel_left]
  simp only [hpos, vec3_cast]
  by_cases h0 : R i = 0
  · simp only [if_pos h0]
    have hk : kindR3 n R i = .xBelow ∨ kindR3 n R i = .xAbove := by
      unfold kindR3; rw [if_pos h0]; split <;> simp
    have hmx : axM nelx (WX i) (kindR3 n R i).mx = nelx / WX i * 2 := by
      rcases hk with e | e <;> rw [e] <;> exact Nat.mul_comm _ _
    have hmz : axM nelz (WZ i) (kindR3 n R i).mz = nelz / WZ i + 1 := by
      rcases hk with e | e <;> rw [e] <;> rfl
    have hcnt : midN3 nelx nelz n WX WZ R i = (nelz / WZ i + 1) * (nelx / WX i * 2) := by
      rw [midN3, if_neg (by rcases hk with e | e <;> rw [e] <;> simp), hmx, hmz, Nat.mul_comm]
    rw [hcnt, hmx]
    refine (midRowX_emits hM hi hx hz _).congr fun e j _ _ => ?_
    have h1 : ∀ k, axMid (WX i) (kindR3 n R i).mx k = k / 2 * WX i + (k % 2 + 1) * (WX i / 3) := by
      intro k; rcases hk with e | e <;> rw [e] <;> rfl
    have h2 : ∀ k, axMid (WZ i) (kindR3 n R i).mz k = k * WZ i := by
      intro k; rcases hk with e | e <;> rw [e] <;> rfl
    rw [h1, h2]
    congr 1 <;> (push_cast; ring)
  · simp only [if_neg h0]
    by_cases h2 : R i = 2
    · simp only [if_pos h2]
      have hk : kindR3 n R i = .zBelow ∨ kindR3 n R i = .zAbove := by
        unfold kindR3; rw [if_neg h0, if_pos h2]; split <;> simp
      have hmx : axM nelx (WX i) (kindR3 n R i).mx = nelx / WX i + 1 := by
        rcases hk with e | e <;> rw [e] <;> rfl
      have hmz : axM nelz (WZ i) (kindR3 n R i).mz = 2 * (nelz / WZ i) := by
        rcases hk with e | e <;> rw [e] <;> rfl
      have hcnt : midN3 nelx nelz n WX WZ R i = nelz / WZ i * (2 * (nelx / WX i + 1)) := by
        rw [midN3, if_neg (by rcases hk with e | e <;> rw [e] <;> simp), hmx, hmz]; ring
      rw [hcnt, hmx]
      refine (midRowZ_emits hM hi hx hz _).congr fun e j _ _ => ?_
      have h1 : ∀ k, axMid (WZ i) (kindR3 n R i).mz k = k / 2 * WZ i + (k % 2 + 1) * (WZ i / 3) := by
        intro k; rcases hk with e | e <;> rw [e] <;> rfl
      have h2 : ∀ k, axMid (WX i) (kindR3 n R i).mx k = k * WX i := by
        intro k; rcases hk with e | e <;> rw [e] <;> rfl
      rw [h1, h2]
      congr 1 <;> (push_cast; ring)
    · simp only [if_neg h2]
      rw [midN3, if_pos (by unfold kindR3; rw [if_neg h0, if_neg h2])]
      exact emits_nil _ _ _

theorem coor_spec [CharZero α] {M : FineLayer3 α} (hM : IsFine3 M nelx nelz n WX WZ G R)
    (hL : Layers3 nelx nelz n WX WZ G R) (hLx : M.Lx = M.h * (nelx : α)) (hLz : M.Lz = M.h * (nelz : α)) :
    M.nnode = height (blkC nelx nelz n WX WZ R) (2 * n) ∧
    ∃ c x, M.coor = .ok c ∧ Is2 c M.nnode 3 x ∧
      ∀ i k j, i < 2 * n → k < blkC nelx nelz n WX WZ R i → j < 3 →
        x (height (blkC nelx nelz n WX WZ R) i + k) j = M.h * ((pos3 nelx nelz n WX WZ G R i k j : Nat) : α) := by
  have hp := hL.npos
  set B := blkC nelx nelz n WX WZ R with hB
  set rN := rowN3 nelx nelz n WX WZ with hrN
  set mN := midN3 nelx nelz n WX WZ R with hmN
  have hBi : ∀ i, i < 2 * n - 1 → B i = rN i + mN i := by
    intro i hi; rw [hB, blkC, if_pos hi]
  have hBle : ∀ i, rN i ≤ B i := by
    intro i; rw [hB, blkC]; exact Nat.le_add_right _ _
  have hBl : B (2 * n - 1) = rN (2 * n - 1) := by rw [hB, blkC, if_neg (by omega)]; rfl
  have hN : M.nnode = height B (2 * n) := by
    have e : height B (2 * n) = height B (2 * n - 1) + B (2 * n - 1) := by
      rw [← height_succ]; congr 1; omega
    rw [hM.nnode, e, rowS3_eq (le_refl _), hBl]
  refine ⟨hN, ?_⟩
  haveI : Inhabited (Nat → α) := ⟨fun _ => 0⟩
  obtain ⟨x, hx⟩ := exists_glue B (fun i k (j : Nat) => M.h * ((pos3 nelx nelz n WX WZ G R i k j : Nat) : α))
  obtain ⟨y, hy1, hy2⟩ := rowHeights_spec hM hp
  have hsz : M.nhy.size = 2 * n - 1 := hM.nhy.size
  have hmid : (2 * n - 1 - 1) / 2 = n - 1 := by omega
  -- a plane of nodes
  have plane : ∀ i l, i < 2 * n → l < 2 * n - 1 → rowW n WX i = WX l → rowW n WZ i = WZ l → rN i = (nelz / WZ l + 1) * (nelx / WX l + 1) ∧
      Emits M.nnode 3 (FineLayer3.mainRow (nelx / WX l) (nelz / WZ l) (linspace 0 (M.h * (nelx : α)) (nelx / WX l + 1))
        (linspace 0 (M.h * (nelz : α)) (nelz / WZ l + 1)) (M.h * (height G i : α)))
        ((nelz / WZ l + 1) * (nelx / WX l + 1)) (fun k j => x (height B i + k) j) := by
    intro i l hi hl h1 h2
    have hr : rN i = (nelz / WZ l + 1) * (nelx / WX l + 1) := by
      rw [hrN, rowN3, rowN, rowN, h1, h2, Nat.mul_comm]
    refine ⟨hr, ?_⟩
    have l1 := linspace_spec M.h (Nat.div_mul_cancel (hL.fits l hl).1)
    have l2 := linspace_spec M.h (Nat.div_mul_cancel (hL.fits l hl).2)
    refine (mainRow_emits (N := M.nnode) l1 l2 (M.h * (height G i : α))).congr fun e j he hj => ?_
    rw [hx i e (by have := hBle i; omega)]
    beta_reduce
    rw [pos3, if_pos (by rw [← hrN]; omega), vec3_cast, rowN, h1, h2]
  have lsx : ∀ i, i < 2 * n - 1 → Is1 (linspace 0 (M.h * (nelx : α)) (nelx / WX i + 1)) (nelx / WX i + 1)
      (fun k => M.h * ((k * WX i : Nat) : α)) := fun i hi => linspace_spec M.h (Nat.div_mul_cancel (hL.fits i hi).1)
  have lsz : ∀ i, i < 2 * n - 1 → Is1 (linspace 0 (M.h * (nelz : α)) (nelz / WZ i + 1)) (nelz / WZ i + 1)
      (fun k => M.h * ((k * WZ i : Nat) : α)) := fun i hi => linspace_spec M.h (Nat.div_mul_cancel (hL.fits i hi).2)
  have mids : ∀ i, i < 2 * n - 1 → Emits M.nnode 3 (FineLayer3.midRow M i (nelx / WX i) (nelz / WZ i)
      (linspace 0 (M.h * (nelx : α)) (nelx / WX i + 1)) (linspace 0 (M.h * (nelz : α)) (nelz / WZ i + 1))
      (M.h * (height G i : α))) (mN i) (fun k j => x (height B i + rN i + k) j) := by
    intro i hi
    refine (midRow_emits hM hL hi (lsx i hi) (lsz i hi)).congr fun e j he hj => ?_
    rw [Nat.add_assoc, hx i (rN i + e) (by rw [hBi i hi]; exact Nat.add_lt_add_left he _)]
  -- first loop
  have low : Emits M.nnode 3 (fun s => forEach (it1 (n - 1 + 1)) (FineLayer3.coorBelow M (2 * n - 1) y) s)
      (height (fun i => if i = n - 1 then rN i else B i) (n - 1 + 1)) x := by
    refine emits_blocks _ _ _ (fun i k j => x (height B i + k) j) x (fun i hi => ?_) (fun i k j hi _ _ => by
      rw [show height (fun i => if i = n - 1 then rN i else B i) i = height B i from
        height_congr fun l hl => if_neg (by omega)])
    have hi' : i < 2 * n - 1 := by omega
    obtain ⟨hr, e1⟩ := plane i i (by omega) hi' (by rw [rowW, if_pos (by omega)]) (by rw [rowW, if_pos (by omega)])
    intro t c hs hc
    unfold FineLayer3.coorBelow
    rw [hM.layerx.get hi', hM.layerz.get hi', hy2.get (by omega)]
    simp only [Res.ok_bind, hLx, hLz, hmid]
    by_cases him : i = n - 1
    · rw [if_pos him] at hc ⊢
      simp only [if_pos him]
      obtain ⟨t', a1, a2, a3, a4⟩ := e1 t c hs (by omega)
      rw [a1, Res.ok_bind, hr]
      exact ⟨t', rfl, a2, a3, a4⟩
    · rw [if_neg him] at hc ⊢
      simp only [if_neg him]
      have := e1.seq (mids i hi') (G := fun k j => x (height B i + k) j) (fun _ _ _ _ => rfl) (by
        intro k j hk hj
        beta_reduce
        rw [← hr, Nat.add_assoc])
      rw [hBi i hi', hr] at hc ⊢
      exact this t c hs hc
  -- second loop
  have e2 : itFrom (n - 1) (2 * n - 1) = (it1 n).map (n - 1 + ·) := by
    rw [itFrom, show 2 * n - 1 - (n - 1) = n by omega, it1, List.range'_eq_map_range]
  have hoff : ∀ k, k ≤ n → height (fun i => if i = n - 1 then rN i else B i) (n - 1 + 1) +
      height (fun k => mN (n - 1 + k) + rN (n - 1 + k + 1)) k =
      height B (n - 1 + k) + rN (n - 1 + k) := by
    intro k hk
    induction k with
    | zero =>
      rw [height_succ, if_pos rfl]
      rw [show height (fun i => if i = n - 1 then rN i else B i) (n - 1) = height B (n - 1) from
        height_congr fun l hl => if_neg (by omega)]
      simp [height]
    | succ k ih =>
      have := ih (by omega)
      have e5 : height B (n - 1 + (k + 1)) = height B (n - 1 + k) + (rN (n - 1 + k) + mN (n - 1 + k)) := by
        rw [← Nat.add_assoc (n - 1), height_succ, hBi _ (by omega)]
      rw [height_succ _ k, e5, ← Nat.add_assoc (n - 1) k 1]
      omega
  have high : Emits M.nnode 3 (fun s => forEach (it1 n) (fun s k => FineLayer3.coorAbove M y s (n - 1 + k)) s)
      (height (fun k => mN (n - 1 + k) + rN (n - 1 + k + 1)) n)
      (fun e j => x (height (fun i => if i = n - 1 then rN i else B i) (n - 1 + 1) + e) j) := by
    refine emits_blocks _ _ _ (fun k e j => x (height B (n - 1 + k) + rN (n - 1 + k) + e) j) _
      (fun k hk => ?_) (fun k e j hk _ _ => by
        beta_reduce
        rw [← Nat.add_assoc, hoff k (by omega)])
    generalize hi : n - 1 + k = i
    have hi' : i < 2 * n - 1 := by omega
    obtain ⟨hr, e1⟩ := plane (i + 1) i (by omega) hi' (by rw [rowW, if_neg (by omega), Nat.add_sub_cancel])
      (by rw [rowW, if_neg (by omega), Nat.add_sub_cancel])
    have := (mids i hi').seq e1 (G := fun e j => x (height B i + rN i + e) j) (fun _ _ _ _ => rfl) (by
        intro e j he hj
        beta_reduce
        have e3 : height B i + rN i + (mN i + e) = height B (i + 1) + e := by
          rw [height_succ, hBi i hi']; omega
        rw [e3])
    intro t c hs hc
    rw [hr] at hc ⊢
    obtain ⟨t', a1, a2⟩ := this t c hs hc
    refine ⟨t', ?_, a2⟩
    beta_reduce at a1 ⊢
    unfold FineLayer3.coorAbove
    rw [hM.layerx.get hi', hM.layerz.get hi', hy2.get (show i < 2 * n by omega), hy2.get (show i + 1 < 2 * n by omega)]
    simp only [Res.ok_bind, hLx, hLz]
    exact a1
  have hall := low.seq high (G := x) (fun _ _ _ _ => rfl) (fun _ _ _ _ => rfl)
  have htot := hoff n (le_refl _)
  have htot2 : height B (n - 1 + n) + rN (n - 1 + n) = M.nnode := by
    rw [hN, show 2 * n = (2 * n - 1) + 1 by omega, height_succ, show n - 1 + n = 2 * n - 1 by omega, hBl]
  rw [htot, htot2] at hall
  obtain ⟨t', a1, a2, a3, -⟩ := hall (Ten.empty [M.nnode, 3]) 0 rfl (by omega)
  refine ⟨t', x, ?_, ⟨a2, fun k j hk hj => ?_⟩, fun i k j hi hk hj => ?_⟩
  · unfold FineLayer3.coor
    rw [hsz]
    dsimp only
    rw [hy1, hmid, e2, hM.ndim]
    simp only [Res.ok_bind, forEach_map]
    beta_reduce at a1
    generalize hA : forEach (it1 (n - 1 + 1)) (FineLayer3.coorBelow M (2 * n - 1) y) (Ten.empty [M.nnode, 3], 0) = A at a1 ⊢
    cases A with
    | ok s =>
      rw [Res.ok_bind'] at a1
      rw [Res.ok_bind, a1, Res.ok_bind]
    | throws => simp [Res.bind] at a1
    | ub => simp [Res.bind] at a1
  · have := a3 k j hk hj
    rwa [Nat.zero_add] at this
  · rw [hx i k hk]

end
end GF.FineLayer3
