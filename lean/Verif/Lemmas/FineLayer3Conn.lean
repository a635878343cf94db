import Verif.Lemmas.FineLayer3Coor

/-! Lemmas on `Mesh::Hex8::FineLayer`: connectivity. -/

namespace GF.FineLayer3
open FineLayerSpec Finset FineLayer
variable {α : Type}

/-- the planes of nodes of a layer -/
inductive Pl where
  | bot | mid | top
deriving DecidableEq

/-- index, along one axis, of the node at `c` units from the start of block `b` -/
def axIdx (m : Mode) (p : Pl) (b c : Nat) : Nat :=
  match m, p with
  | .same, _ => b + c
  | .below, .bot => b + c / 3
  | .below, .mid => 2 * b + (c - 1)
  | .below, .top => 3 * b + c
  | .above, .bot => 3 * b + c
  | .above, .mid => 2 * b + (c - 1)
  | .above, .top => b + c / 3

/-- number of nodes along one axis, for `l` cells in the layer -/
def axCnt (m : Mode) (p : Pl) (l : Nat) : Nat :=
  match p with
  | .bot => m.lo * l + 1
  | .top => m.hi * l + 1
  | .mid => match m with
    | .same => l + 1
    | _ => 2 * l

/-- plane of a corner -/
def plOf (K : Kind3) (q j : Nat) : Pl :=
  if K.corner q j 1 = 0 then .bot else if K.corner q j 1 = K.ny then .top else .mid

/-- corner `j` of element `q` of block `bx, bz` -/
def nodeOf (K : Kind3) (base : Pl → Nat) (l bx bz q j : Nat) : Nat :=
  base (plOf K q j) + axIdx K.mx (plOf K q j) bx (K.corner q j 0) +
    axIdx K.mz (plOf K q j) bz (K.corner q j 2) * axCnt K.mx (plOf K q j) l

/-- a choice of eight values -/
def oct {β : Type} (a0 a1 a2 a3 a4 a5 a6 a7 : β) (j : Nat) : β :=
  match j with
  | 0 => a0 | 1 => a1 | 2 => a2 | 3 => a3 | 4 => a4 | 5 => a5 | 6 => a6 | _ => a7

theorem emits_row8 {N : Nat} (a0 a1 a2 a3 a4 a5 a6 a7 : Nat) :
    Emits N 8 (fun s => putHex s a0 a1 a2 a3 a4 a5 a6 a7) 1 (fun _ j => oct a0 a1 a2 a3 a4 a5 a6 a7 j) := by
  intro t e hs hc
  unfold putHex
  dsimp only
  have key : ∀ (t : Ten Nat) (j a : Nat), t.shape = [N, 8] → j < 8 → t.set [e, j] a = .ok (t.put [e, j] a) :=
    fun t j a h hj => set_put (by simp [h, hj]; omega) a
  rw [key _ _ _ hs (by omega), Res.ok_bind]
  iterate 7 rw [key _ _ _ (by simp only [Ten.put_shape]; exact hs) (by omega), Res.ok_bind]
  refine ⟨_, rfl, hs, fun k j hk hj => ?_, fun k j hk => ?_⟩
  · obtain rfl : k = 0 := by omega
    obtain rfl | rfl | rfl | rfl | rfl | rfl | rfl | rfl : j = 0 ∨ j = 1 ∨ j = 2 ∨ j = 3 ∨ j = 4 ∨ j = 5 ∨ j = 6 ∨ j = 7 := by
      omega
    all_goals simp [Ten.put_v, oct]
  · have : k ≠ e := by omega
    simp [Ten.put_v, this]

theorem oct_eq {β : Type} {g : Nat → β} {a0 a1 a2 a3 a4 a5 a6 a7 : β} (h0 : a0 = g 0) (h1 : a1 = g 1) (h2 : a2 = g 2)
    (h3 : a3 = g 3) (h4 : a4 = g 4) (h5 : a5 = g 5) (h6 : a6 = g 6) (h7 : a7 = g 7) {j : Nat} (hj : j < 8) :
    oct a0 a1 a2 a3 a4 a5 a6 a7 j = g j := by
  obtain rfl | rfl | rfl | rfl | rfl | rfl | rfl | rfl : j = 0 ∨ j = 1 ∨ j = 2 ∨ j = 3 ∨ j = 4 ∨ j = 5 ∨ j = 6 ∨ j = 7 := by
    omega
  all_goals assumption

/-- one row -/
theorem emits_hex {N : Nat} {g : Nat → Nat} {a0 a1 a2 a3 a4 a5 a6 a7 : Nat} (h0 : a0 = g 0) (h1 : a1 = g 1) (h2 : a2 = g 2)
    (h3 : a3 = g 3) (h4 : a4 = g 4) (h5 : a5 = g 5) (h6 : a6 = g 6) (h7 : a7 = g 7) :
    Emits N 8 (fun s => putHex s a0 a1 a2 a3 a4 a5 a6 a7) 1 (fun _ j => g j) :=
  (emits_row8 _ _ _ _ _ _ _ _).congr fun _ _ _ hj => oct_eq h0 h1 h2 h3 h4 h5 h6 h7 hj

/-- four rows -/
theorem emits_quad {N : Nat} {f f0 f1 f2 f3 : Ten Nat × Nat → Res (Ten Nat × Nat)} {g : Nat → Nat → Nat}
    (h : ∀ s, f s = (f0 s).bind fun s => (f1 s).bind fun s => (f2 s).bind f3)
    (h0 : Emits N 8 f0 1 (fun _ j => g 0 j)) (h1 : Emits N 8 f1 1 (fun _ j => g 1 j))
    (h2 : Emits N 8 f2 1 (fun _ j => g 2 j)) (h3 : Emits N 8 f3 1 (fun _ j => g 3 j)) : Emits N 8 f 4 g := by
  have one : ∀ {r} {f : Ten Nat × Nat → Res (Ten Nat × Nat)}, Emits N 8 f 1 (fun _ j => g r j) →
      Emits N 8 f 1 (fun k j => g (r + k) j) := fun h => h.congr fun k j hk _ => by
        obtain rfl : k = 0 := by omega
        rfl
  have e := (((one h0).seq (one h1) (G := g) (by intro k j _ _; rw [Nat.zero_add]) (fun _ _ _ _ => rfl)).seq (one h2) (G := g)
    (fun _ _ _ _ => rfl) (fun _ _ _ _ => rfl)).seq (one h3) (G := g) (fun _ _ _ _ => rfl) (fun _ _ _ _ => rfl)
  rw [show f = _ from funext fun s => (h s).trans (Res.bind_assoc4 (f0 s) f1 f2 f3).symm]
  exact e

/-- the planes of a layer -/
def planes (bot mid top : Nat) : Pl → Nat
  | .bot => bot
  | .mid => mid
  | .top => top

theorem connNormal_emits {N bot mid top l iz ix : Nat} :
    Emits N 8 (fun s => connNormal bot top l s iz ix) 1 (fun q j => nodeOf .normal (planes bot mid top) l ix iz q j) := by
  unfold connNormal
  refine Emits.congr (emits_hex (g := fun j => nodeOf .normal (planes bot mid top) l ix iz 0 j) ?_ ?_ ?_ ?_ ?_ ?_ ?_ ?_)
    (fun q j hq _ => by obtain rfl : q = 0 := by omega
                        rfl)
  all_goals simp [nodeOf, plOf, planes, axIdx, axCnt, Kind3.mx, Kind3.mz, Kind3.ny, Kind3.corner, Kind3.corners, Mode.lo, Mode.hi]

theorem connXBelow_emits {N bot mid top l iz ix : Nat} :
    Emits N 8 (fun s => connXBelow bot mid top l s iz ix) 4 (fun q j => nodeOf .xBelow (planes bot mid top) l ix iz q j) := by
  refine emits_quad (fun s => rfl) (emits_hex ?_ ?_ ?_ ?_ ?_ ?_ ?_ ?_) (emits_hex ?_ ?_ ?_ ?_ ?_ ?_ ?_ ?_)
    (emits_hex ?_ ?_ ?_ ?_ ?_ ?_ ?_ ?_) (emits_hex ?_ ?_ ?_ ?_ ?_ ?_ ?_ ?_)
  all_goals simp [nodeOf, plOf, planes, axIdx, axCnt, Kind3.mx, Kind3.mz, Kind3.ny, Kind3.corner, Kind3.corners, Mode.lo, Mode.hi]

theorem connXAbove_emits {N bot mid top l iz ix : Nat} :
    Emits N 8 (fun s => connXAbove bot mid top l s iz ix) 4 (fun q j => nodeOf .xAbove (planes bot mid top) l ix iz q j) := by
  refine emits_quad (fun s => rfl) (emits_hex ?_ ?_ ?_ ?_ ?_ ?_ ?_ ?_) (emits_hex ?_ ?_ ?_ ?_ ?_ ?_ ?_ ?_)
    (emits_hex ?_ ?_ ?_ ?_ ?_ ?_ ?_ ?_) (emits_hex ?_ ?_ ?_ ?_ ?_ ?_ ?_ ?_)
  all_goals simp [nodeOf, plOf, planes, axIdx, axCnt, Kind3.mx, Kind3.mz, Kind3.ny, Kind3.corner, Kind3.corners, Mode.lo, Mode.hi]

theorem connZBelow_emits {N bot mid top l iz ix : Nat} :
    Emits N 8 (fun s => connZBelow bot mid top l s iz ix) 4 (fun q j => nodeOf .zBelow (planes bot mid top) l ix iz q j) := by
  refine emits_quad (fun s => rfl) (emits_hex ?_ ?_ ?_ ?_ ?_ ?_ ?_ ?_) (emits_hex ?_ ?_ ?_ ?_ ?_ ?_ ?_ ?_)
    (emits_hex ?_ ?_ ?_ ?_ ?_ ?_ ?_ ?_) (emits_hex ?_ ?_ ?_ ?_ ?_ ?_ ?_ ?_)
  all_goals simp [nodeOf, plOf, planes, axIdx, axCnt, Kind3.mx, Kind3.mz, Kind3.ny, Kind3.corner, Kind3.corners, Mode.lo, Mode.hi]

theorem connZAbove_emits {N bot mid top l iz ix : Nat} :
    Emits N 8 (fun s => connZAbove bot mid top l s iz ix) 4 (fun q j => nodeOf .zAbove (planes bot mid top) l ix iz q j) := by
  refine emits_quad (fun s => rfl) (emits_hex ?_ ?_ ?_ ?_ ?_ ?_ ?_ ?_) (emits_hex ?_ ?_ ?_ ?_ ?_ ?_ ?_ ?_)
    (emits_hex ?_ ?_ ?_ ?_ ?_ ?_ ?_ ?_) (emits_hex ?_ ?_ ?_ ?_ ?_ ?_ ?_ ?_)
  all_goals simp [nodeOf, plOf, planes, axIdx, axCnt, Kind3.mx, Kind3.mz, Kind3.ny, Kind3.corner, Kind3.corners, Mode.lo, Mode.hi]

/-- the elements of one layer: block `bx, bz`, element `q` -/
theorem blocks_emits {N : Nat} {K : Kind3} {base : Pl → Nat} {l m : Nat}
    {f : Ten Nat × Nat → Nat → Nat → Res (Ten Nat × Nat)}
    (h : ∀ iz ix, Emits N 8 (fun s => f s iz ix) K.tiles (fun q j => nodeOf K base l ix iz q j)) :
    Emits N 8 (fun s => blocks l m f s) (m * (l * K.tiles))
      (fun e j => nodeOf K base l (e / K.tiles % l) (e / K.tiles / l) (e % K.tiles) j) := by
  unfold blocks
  have := emits_unif' (N := N) (w := 8) m (l * K.tiles)
    (fun s iz => forEach (it1 l) (fun s ix => f s iz ix) s)
    (fun iz e j => nodeOf K base l (e / K.tiles) iz (e % K.tiles) j) (fun iz _ =>
      emits_unif' l K.tiles _ (fun ix q j => nodeOf K base l ix iz q j) fun ix _ => h iz ix)
  refine this.congr fun e j _ _ => ?_
  beta_reduce
  rw [Nat.mul_comm l, Nat.mod_mul_right_div_self, ← Nat.div_div_eq_div_mul, Nat.mod_mod_of_dvd e (Nat.dvd_mul_right _ _)]

section
variable {nelx nelz n : Nat} {WX WZ G : Nat → Nat} {R : Nat → Int}

theorem conn_spec {M : FineLayer3 α} (hM : IsFine3 M nelx nelz n WX WZ G R) (hL : Layers3 nelx nelz n WX WZ G R) :
    ∃ t c, M.conn = .ok t ∧ Is2 t M.nelem 8 c ∧
      ∀ i bx bz q j, i < 2 * n - 1 → bx < nelx / WX i → bz < nelz / WZ i → q < (kindR3 n R i).tiles → j < 8 →
        c (layS3 nelx nelz n WX WZ R i + (bx + bz * (nelx / WX i)) * (kindR3 n R i).tiles + q) j =
          nodeOf (kindR3 n R i) (planes (rowS3 nelx nelz n WX WZ R i)
            (rowS3 nelx nelz n WX WZ R i + rowN3 nelx nelz n WX WZ i) (rowS3 nelx nelz n WX WZ R (i + 1)))
            (nelx / WX i) bx bz q j := by
  have hp := hL.npos
  obtain ⟨c, hc⟩ := exists_glue (layE3 nelx nelz n WX WZ R) (fun i e j =>
    nodeOf (kindR3 n R i) (planes (rowS3 nelx nelz n WX WZ R i)
            (rowS3 nelx nelz n WX WZ R i + rowN3 nelx nelz n WX WZ i) (rowS3 nelx nelz n WX WZ R (i + 1)))
            (nelx / WX i) (e / (kindR3 n R i).tiles % (nelx / WX i)) (e / (kindR3 n R i).tiles / (nelx / WX i))
            (e % (kindR3 n R i).tiles) j)
  have hsz : M.nhy.size = 2 * n - 1 := hM.nhy.size
  have hmid : (2 * n - 1 - 1) / 2 = n - 1 := by omega
  have key : Emits M.nelem 8 (fun s => forEach (it1 (2 * n - 1)) (FineLayer3.connLayer M (2 * n - 1)) s)
      (height (layE3 nelx nelz n WX WZ R) (2 * n - 1)) c := by
    refine emits_blocks _ _ _ (fun i k j => c (height (layE3 nelx nelz n WX WZ R) i + k) j) c (fun i hi => ?_) (fun _ _ _ _ _ _ => rfl)
    refine Emits.congr ?_ (fun k j hk hj => (congrFun (hc i k hk) j).symm)
    have hE : layE3 nelx nelz n WX WZ R i = nelz / WZ i * (nelx / WX i * (kindR3 n R i).tiles) := by rw [layE3]; ring
    rw [hE]
    unfold FineLayer3.connLayer
    rw [hM.startNode.get (show i < 2 * n by omega), hM.nnd.get (show i < 2 * n by omega),
      hM.startNode.get (show i + 1 < 2 * n by omega), hM.refine.get hi, hM.layerx.get hi, hM.layerz.get hi]
    simp only [Res.ok_bind, hmid]
    have ht := hL.types i hi
    by_cases hn1 : R i = -1
    · have hk : kindR3 n R i = .normal := by unfold kindR3; rw [if_neg (by omega), if_neg (by omega)]
      simp only [if_pos hn1, hk]
      exact blocks_emits fun iz ix => connNormal_emits
    · simp only [if_neg hn1]
      by_cases h0 : R i = 0
      · by_cases hin : i < n
        · have hk : kindR3 n R i = .xBelow := by unfold kindR3; rw [if_pos h0, if_pos hin]
          simp only [if_pos (show R i = 0 ∧ i ≤ n - 1 by omega), hk]
          exact blocks_emits fun iz ix => connXBelow_emits
        · have hk : kindR3 n R i = .xAbove := by unfold kindR3; rw [if_pos h0, if_neg hin]
          simp only [if_neg (show ¬ (R i = 0 ∧ i ≤ n - 1) by omega), if_pos (show R i = 0 ∧ n - 1 < i by omega), hk]
          exact blocks_emits fun iz ix => connXAbove_emits
      · have h2 : R i = 2 := by omega
        simp only [if_neg (show ¬ (R i = 0 ∧ i ≤ n - 1) by omega), if_neg (show ¬ (R i = 0 ∧ n - 1 < i) by omega)]
        by_cases hin : i < n
        · have hk : kindR3 n R i = .zBelow := by unfold kindR3; rw [if_neg h0, if_pos h2, if_pos hin]
          simp only [if_pos (show R i = 2 ∧ i ≤ n - 1 by omega), hk]
          exact blocks_emits fun iz ix => connZBelow_emits
        · have hk : kindR3 n R i = .zAbove := by unfold kindR3; rw [if_neg h0, if_pos h2, if_neg hin]
          simp only [if_neg (show ¬ (R i = 2 ∧ i ≤ n - 1) by omega), if_pos (show R i = 2 ∧ n - 1 < i by omega), hk]
          exact blocks_emits fun iz ix => connZAbove_emits
  obtain ⟨t', a1, a2, a3, -⟩ := key (Ten.empty [M.nelem, 8]) 0 rfl (by rw [hM.nelem]; exact (Nat.zero_add _).le)
  refine ⟨t', c, ?_, ⟨a2, fun k j hk hj => ?_⟩, fun i bx bz q j hi hbx hbz hq hj => ?_⟩
  · unfold FineLayer3.conn
    rw [hsz, hM.nne]
    dsimp only at a1 ⊢
    rw [a1, Res.ok_bind]
  · have := a3 k j (by rw [hM.nelem] at hk; exact hk) hj
    rwa [Nat.zero_add] at this
  · have hlt : (bx + bz * (nelx / WX i)) * (kindR3 n R i).tiles + q < layE3 nelx nelz n WX WZ R i := by
      rw [layE3]
      refine grid_lt ?_ hq
      rw [Nat.add_comm, Nat.mul_comm (nelx / WX i)]
      exact grid_lt hbz hbx
    have := congrFun (hc i _ hlt) j
    rw [layS3, Nat.add_assoc, this]
    beta_reduce
    rw [grid_div hq, grid_mod hq, Nat.add_comm bx, grid_div hbx, grid_mod hbx]

end
end GF.FineLayer3
