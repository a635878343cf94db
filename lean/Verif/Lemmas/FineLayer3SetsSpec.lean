import Verif.Lemmas.FineLayer3Sets

/-! Lemmas on the node sets of `Mesh::Hex8::FineLayer`: every function returns the corresponding list. -/

namespace GF.FineLayer3
open FineLayerSpec Finset FineLayer
variable {α : Type} {nelx nelz n : Nat} {WX WZ G : Nat → Nat} {R : Nat → Int}

theorem count_loop {ι : Type} (l : List ι) (body : Nat → ι → Res Nat) (F : ι → List Nat)
    (h : ∀ i ∈ l, ∀ m, body m i = .ok (m + (F i).length)) (m : Nat) :
    forEach l body m = .ok (m + (l.flatMap F).length) := by
  induction l generalizing m with
  | nil => rfl
  | cons a l ih =>
    rw [forEach, h a (by simp), Res.ok_bind', ih fun i hi => h i (by simp [hi]), List.flatMap_cons,
      List.length_append, Nat.add_assoc]

theorem rowN_below {nel : Nat} {W : Nat → Nat} {i : Nat} (hi : i < n) : rowN nel n W i = nel / W i + 1 := by
  rw [rowN, rowW, if_pos hi]

theorem rowN_above {nel : Nat} {W : Nat → Nat} {i : Nat} (hi : n ≤ i + 1) : rowN nel n W (i + 1) = nel / W i + 1 := by
  rw [rowN, rowW, if_neg (by omega), Nat.add_sub_cancel]

section sides
variable {M : FineLayer3 α} (hM : IsFine3 M nelx nelz n WX WZ G R) (hL : Layers3 nelx nelz n WX WZ G R)
include hM hL

theorem side_loops (S : Side) (lo hi : Nat) (lx lz : Loc)
    (hmain : ∀ nx nz b, (itFrom lo (S.len nx nz + hi)).map (fun k => b + S.main nx nz k) =
      (sel .same lx (nx + 1)).flatMap fun kx => (sel .same lz (nz + 1)).map fun kz => b + kx + kz * (nx + 1))
    (hmid : ∀ i, i < 2 * n - 1 → (if R i = S.dir then (it1 (2 * S.len (nelx / WX i) (nelz / WZ i))).map (fun k =>
        rowS3 nelx nelz n WX WZ R i + rowN3 nelx nelz n WX WZ i + S.mid (nelx / WX i) (nelz / WZ i) k) else []) =
      midL nelx nelz n WX WZ R lx lz i)
    (hdir : S.dir ≠ -1) (a b : Nat) (ha : a ≤ n) (hb : n ≤ b) (hb2 : b ≤ 2 * n) (cnt : Nat → Nat → Res Nat)
    (hcnt : ∀ i, i < 2 * n - 1 → ∀ m, cnt m i = .ok (m +
      (S.len (nelx / WX i) (nelz / WZ i) + hi - lo + if R i = S.dir then 2 * S.len (nelx / WX i) (nelz / WZ i) else 0))) :
    ∃ t, ((forEach (itFrom a n) cnt 0).bind fun m => (forEach (itFrom (n - 1) (b - 1)) cnt m).bind fun m =>
      (forEach (itFrom a n) (sideBelow M S lo hi) (Ten.empty [m], 0)).bind fun s =>
      (forEach (itFrom (n - 1) (b - 1)) (sideAbove M S lo hi) s).bind fun s => .ok s.1) = .ok t ∧
      IsL t (stackL nelx nelz n WX WZ R lx lz a b) := by
  have hp := hL.npos
  have hB : midL nelx nelz n WX WZ R lx lz (n - 1) = [] := by
    rw [midL, if_pos]
    rw [kindR3, hL.mid.2.2.2]
    simp
  have hlen : ∀ i, i < 2 * n - 1 → (midL nelx nelz n WX WZ R lx lz i).length =
      if R i = S.dir then 2 * S.len (nelx / WX i) (nelz / WZ i) else 0 := by
    intro i hi
    rw [← hmid i hi]
    split <;> simp [it1]
  have hA1 : ∀ i, i < n → planeL nelx nelz n WX WZ R lx lz i =
      (itFrom lo (S.len (nelx / WX i) (nelz / WZ i) + hi)).map (fun k =>
        rowS3 nelx nelz n WX WZ R i + S.main (nelx / WX i) (nelz / WZ i) k) := by
    intro i hi
    rw [hmain]; simp only [planeL, mainNode, rowN_below hi]
  have hA2 : ∀ i, n ≤ i + 1 → planeL nelx nelz n WX WZ R lx lz (i + 1) =
      (itFrom lo (S.len (nelx / WX i) (nelz / WZ i) + hi)).map (fun k =>
        rowS3 nelx nelz n WX WZ R (i + 1) + S.main (nelx / WX i) (nelz / WZ i) k) := by
    intro i hi
    rw [hmain]; simp only [planeL, mainNode, rowN_above hi]
  have hmidE : ∀ i N, i < 2 * n - 1 → Emits1 N (fun s => sideMid M S i (nelx / WX i) (nelz / WZ i) s)
      (midL nelx nelz n WX WZ R lx lz i) := by
    intro i N hi
    rw [← hmid i hi]
    simp only [sideMid, hM.refine.get hi, Res.ok_bind, hM.startNode.get (show i < 2 * n by omega),
      hM.nnd.get (show i < 2 * n by omega)]
    split
    · exact Emits1.map _ _
    · exact emits1_nil N
  have hbel : ∀ N, ∀ i ∈ itFrom a n, Emits1 N (fun s => sideBelow M S lo hi s i)
      (planeL nelx nelz n WX WZ R lx lz i ++ midL nelx nelz n WX WZ R lx lz i) := by
    intro N i hi
    obtain ⟨k, hk, rfl⟩ := mem_itFrom.1 hi
    have h1 : a + k < 2 * n - 1 := by omega
    simp only [sideBelow, hM.layerx.get h1, hM.layerz.get h1, hM.startNode.get (show a + k < 2 * n by omega), Res.ok_bind]
    rw [hA1 _ (by omega)]
    exact Emits1.seq (Emits1.map _ _) (hmidE _ N h1)
  have habv : ∀ N, ∀ i ∈ itFrom (n - 1) (b - 1), Emits1 N (fun s => sideAbove M S lo hi s i)
      (midL nelx nelz n WX WZ R lx lz i ++ planeL nelx nelz n WX WZ R lx lz (i + 1)) := by
    intro N i hi
    obtain ⟨k, hk, rfl⟩ := mem_itFrom.1 hi
    have h1 : n - 1 + k < 2 * n - 1 := by omega
    simp only [sideAbove, hM.layerx.get h1, hM.layerz.get h1, Res.ok_bind]
    rw [hA2 _ (by omega)]
    refine Emits1.seq (hmidE _ N h1) ?_
    simp only [hM.startNode.get (show n - 1 + k + 1 < 2 * n by omega), Res.ok_bind]
    exact Emits1.map _ _
  have hc1 := count_loop (itFrom a n) cnt (fun i => planeL nelx nelz n WX WZ R lx lz i ++ midL nelx nelz n WX WZ R lx lz i)
    (by
      intro i hi m
      obtain ⟨k, hk, rfl⟩ := mem_itFrom.1 hi
      rw [hcnt _ (by omega), List.length_append, hlen _ (by omega), hA1 _ (by omega)]
      simp [itFrom]) 0
  have hc2 := fun m => count_loop (itFrom (n - 1) (b - 1)) cnt (fun i => midL nelx nelz n WX WZ R lx lz i ++
    planeL nelx nelz n WX WZ R lx lz (i + 1))
    (by
      intro i hi m
      obtain ⟨k, hk, rfl⟩ := mem_itFrom.1 hi
      rw [hcnt _ (by omega), List.length_append, hlen _ (by omega), hA2 _ (by omega)]
      simp [itFrom]; omega) m
  rw [hc1, Res.ok_bind', hc2, Res.ok_bind']
  have hE := fun N => (Emits1.loop (hbel N)).seq (Emits1.loop (habv N))
  obtain ⟨t, a1, a2⟩ := (hE _).array (N := _) rfl
  rw [List.length_append] at a1
  refine ⟨t, ?_, ?_⟩
  · rw [Nat.zero_add]
    have a1' : ((forEach (itFrom a n) (sideBelow M S lo hi) (Ten.empty [((itFrom a n).flatMap (fun i => planeL nelx nelz n WX WZ R lx lz i ++ midL nelx nelz n WX WZ R lx lz i)).length + ((itFrom (n - 1) (b - 1)).flatMap (fun i => midL nelx nelz n WX WZ R lx lz i ++ planeL nelx nelz n WX WZ R lx lz (i + 1))).length], 0)).bind
      fun s => forEach (itFrom (n - 1) (b - 1)) (sideAbove M S lo hi) s) = _ := a1
    revert a1'
    cases forEach (itFrom a n) (sideBelow M S lo hi) _ with
    | ok s => intro a1'; rw [Res.ok_bind'] at a1' ⊢; rw [a1']; rfl
    | ub => intro a1'; cases a1'
    | throws => intro a1'; cases a1'
  · rwa [halves _ _ hp ha hb hB] at a2

theorem closedSide_spec (S : Side) (lx lz : Loc)
    (hmain : ∀ nx nz b, (itFrom 0 (S.len nx nz + 1)).map (fun k => b + S.main nx nz k) =
      (sel .same lx (nx + 1)).flatMap fun kx => (sel .same lz (nz + 1)).map fun kz => b + kx + kz * (nx + 1))
    (hmid : ∀ i, i < 2 * n - 1 → (if R i = S.dir then (it1 (2 * S.len (nelx / WX i) (nelz / WZ i))).map (fun k =>
        rowS3 nelx nelz n WX WZ R i + rowN3 nelx nelz n WX WZ i + S.mid (nelx / WX i) (nelz / WZ i) k) else []) =
      midL nelx nelz n WX WZ R lx lz i) (hdir : S.dir ≠ -1) :
    ∃ t, closedSide M S = .ok t ∧ IsL t (setL nelx nelz n WX WZ R lx .all lz) := by
  have hp := hL.npos
  obtain ⟨t, h1, h2⟩ := side_loops hM hL S 0 1 lx lz hmain hmid hdir 0 (2 * n) (by omega) (by omega) (by omega)
    (countClosed M S) (by
      intro i hi m
      simp only [countClosed, hM.layerx.get hi, hM.layerz.get hi, hM.refine.get hi, Res.ok_bind]
      congr 1
      split <;> omega)
  refine ⟨t, ?_, h2⟩
  simp only [closedSide, hM.nhy.size]
  rw [show (2 * n - 1 + 1) / 2 = n by omega, show (2 * n - 1 - 1) / 2 = n - 1 by omega,
    show it1 n = itFrom 0 n by rw [it1, List.range_eq_range']; rfl]
  exact h1

theorem openSide_spec (S : Side) (lx lz : Loc)
    (hmain : ∀ nx nz b, (itFrom 1 (S.len nx nz + 0)).map (fun k => b + S.main nx nz k) =
      (sel .same lx (nx + 1)).flatMap fun kx => (sel .same lz (nz + 1)).map fun kz => b + kx + kz * (nx + 1))
    (hmid : ∀ i, i < 2 * n - 1 → (if R i = S.dir then (it1 (2 * S.len (nelx / WX i) (nelz / WZ i))).map (fun k =>
        rowS3 nelx nelz n WX WZ R i + rowN3 nelx nelz n WX WZ i + S.mid (nelx / WX i) (nelz / WZ i) k) else []) =
      midL nelx nelz n WX WZ R lx lz i) (hdir : S.dir ≠ -1)
    (hlen : ∀ i, i < 2 * n - 1 → 0 < S.len (nelx / WX i) (nelz / WZ i)) :
    ∃ t, openSide M S = .ok t ∧ IsL t (setL nelx nelz n WX WZ R lx .mid lz) := by
  have hp := hL.npos
  obtain ⟨t, h1, h2⟩ := side_loops hM hL S 1 0 lx lz hmain hmid hdir 1 (2 * n - 1) (by omega) (by omega) (by omega)
    (countOpen M S) (by
      intro i hi m
      have := hlen i hi
      simp only [countOpen, hM.layerx.get hi, hM.layerz.get hi, hM.refine.get hi, Res.ok_bind]
      rw [if_neg (by omega)]
      congr 1
      split <;> omega)
  refine ⟨t, ?_, h2⟩
  simp only [openSide, hM.nhy.size]
  rw [show (2 * n - 1 + 1) / 2 = n by omega, show (2 * n - 1 - 1) / 2 = n - 1 by omega]
  exact h1

end sides

theorem sel_lo (c : Nat) : sel .same .lo c = [0] := rfl
theorem sel_hi (c : Nat) : sel .same .hi (c + 1) = [c] := by simp [sel, Loc.start, Loc.width]
theorem sel_all (c : Nat) : sel .same .all (c + 1) = itFrom 0 (c + 1) := by simp [sel, Loc.start, Loc.width, itFrom]
theorem sel_mid (c : Nat) : sel .same .mid (c + 1) = itFrom 1 c := by simp [sel, Loc.start, Loc.width, itFrom]

theorem flatMap_one {β γ : Type} (l : List β) (f : β → γ) : (l.flatMap fun k => [f k]) = l.map f := by
  rw [← List.map_eq_flatMap]

theorem kind_x {i : Nat} (h : R i = 0) : kindR3 n R i ≠ .normal ∧ (kindR3 n R i).mz = .same ∧
    ((kindR3 n R i).mx = .below ∨ (kindR3 n R i).mx = .above) := by
  rw [kindR3, if_pos h]; split <;> simp [Kind3.mx, Kind3.mz]

theorem kind_z {i : Nat} (h : R i = 2) : kindR3 n R i ≠ .normal ∧ (kindR3 n R i).mx = .same ∧
    ((kindR3 n R i).mz = .below ∨ (kindR3 n R i).mz = .above) := by
  rw [kindR3, if_neg (by omega), if_pos h]; split <;> simp [Kind3.mx, Kind3.mz]

theorem kind_n {i : Nat} (h : R i = -1) : kindR3 n R i = .normal := by
  rw [kindR3, if_neg (by omega), if_neg (by omega)]

/-- inside a layer that is refined in x-direction, at one end of the z-axis -/
theorem midL_x {i : Nat} (hL : Layers3 nelx nelz n WX WZ G R) (hi : i < 2 * n - 1) {lx lz : Loc} {kz : Nat}
    (hx : lx = .all ∨ lx = .mid) (hz : lz = .lo ∨ lz = .hi) (hk : sel .same lz (nelz / WZ i + 1) = [kz]) :
    midL nelx nelz n WX WZ R lx lz i = if R i = 0 then (it1 (2 * (nelx / WX i))).map (fun k =>
        rowS3 nelx nelz n WX WZ R i + rowN3 nelx nelz n WX WZ i + (k + kz * (2 * (nelx / WX i)))) else [] := by
  rcases hL.types i hi with h | h | h
  · rw [midL, if_pos (kind_n h), if_neg (by omega)]
  · obtain ⟨h1, h2, h3⟩ := kind_x (n := n) h
    rw [midL, if_neg h1, if_pos h, h2]
    have hs : sel (kindR3 n R i).mx lx (axM nelx (WX i) (kindR3 n R i).mx) = it1 (2 * (nelx / WX i)) := by
      rcases h3 with h3 | h3 <;> rcases hx with rfl | rfl <;> rw [h3] <;> rfl
    rw [hs, show axM nelz (WZ i) .same = nelz / WZ i + 1 from rfl, hk]
    have ha : axM nelx (WX i) (kindR3 n R i).mx = 2 * (nelx / WX i) := by rcases h3 with h3 | h3 <;> rw [h3] <;> rfl
    simp only [List.map_cons, List.map_nil, flatMap_one, midNode, ha, Nat.add_assoc]
  · obtain ⟨h1, h2, h3⟩ := kind_z (n := n) h
    rw [midL, if_neg h1, if_neg (by omega)]
    have hs : sel (kindR3 n R i).mz lz (axM nelz (WZ i) (kindR3 n R i).mz) = [] := by
      rcases h3 with h3 | h3 <;> rcases hz with rfl | rfl <;> rw [h3] <;> rfl
    simp [hs]

/-- inside a layer that is refined in z-direction, at one end of the x-axis -/
theorem midL_z {i : Nat} (hL : Layers3 nelx nelz n WX WZ G R) (hi : i < 2 * n - 1) {lx lz : Loc} {kx : Nat}
    (hz : lz = .all ∨ lz = .mid) (hx : lx = .lo ∨ lx = .hi) (hk : sel .same lx (nelx / WX i + 1) = [kx]) :
    midL nelx nelz n WX WZ R lx lz i = if R i = 2 then (it1 (2 * (nelz / WZ i))).map (fun k =>
        rowS3 nelx nelz n WX WZ R i + rowN3 nelx nelz n WX WZ i + (kx + k * (nelx / WX i + 1))) else [] := by
  rcases hL.types i hi with h | h | h
  · rw [midL, if_pos (kind_n h), if_neg (by omega)]
  · obtain ⟨h1, h2, h3⟩ := kind_x (n := n) h
    rw [midL, if_neg h1, if_neg (by omega)]
    have hs : sel (kindR3 n R i).mx lx (axM nelx (WX i) (kindR3 n R i).mx) = [] := by
      rcases h3 with h3 | h3 <;> rcases hx with rfl | rfl <;> rw [h3] <;> rfl
    simp [hs]
  · obtain ⟨h1, h2, h3⟩ := kind_z (n := n) h
    rw [midL, if_neg h1, if_pos h, h2]
    have hs : sel (kindR3 n R i).mz lz (axM nelz (WZ i) (kindR3 n R i).mz) = it1 (2 * (nelz / WZ i)) := by
      rcases h3 with h3 | h3 <;> rcases hz with rfl | rfl <;> rw [h3] <;> rfl
    rw [hs, show axM nelx (WX i) .same = nelx / WX i + 1 from rfl, hk]
    simp only [List.flatMap_cons, List.flatMap_nil, List.append_nil, midNode, h2, Nat.add_assoc]
    rfl

theorem ite_any {β : Type} {p : Prop} {i1 i2 : Decidable p} {a b c : β} (h : a = b) :
    @ite _ p i1 a c = @ite _ p i2 b c := by
  subst h
  congr

section functions
variable {M : FineLayer3 α} (hM : IsFine3 M nelx nelz n WX WZ G R) (hL : Layers3 nelx nelz n WX WZ G R)
include hM hL

theorem nodesFront_spec : ∃ t, M.nodesFront = .ok t ∧ IsL t (setL nelx nelz n WX WZ R .all .all .lo) :=
  closedSide_spec hM hL sideFront .all .lo
    (by intro nx nz b; simp [sideFront, sel_lo, sel_all, flatMap_one])
    (by intro i hi; rw [midL_x hL hi (kz := 0) (by simp) (by simp) (sel_lo _)]; simp only [sideFront]; exact ite_any (by simp)) (by decide)

theorem nodesBack_spec : ∃ t, M.nodesBack = .ok t ∧ IsL t (setL nelx nelz n WX WZ R .all .all .hi) :=
  closedSide_spec hM hL sideBack .all .hi
    (by
      intro nx nz b
      simp only [sideBack, sel_hi, sel_all, flatMap_one, List.map_cons, List.map_nil]
      exact List.map_congr_left fun k _ => by ring)
    (by
      intro i hi
      rw [midL_x hL hi (by simp) (by simp) (sel_hi _)]
      simp only [sideBack]
      exact ite_any (List.map_congr_left fun k _ => by ring)) (by decide)

theorem nodesLeft_spec : ∃ t, M.nodesLeft = .ok t ∧ IsL t (setL nelx nelz n WX WZ R .lo .all .all) :=
  closedSide_spec hM hL sideLeft .lo .all
    (by intro nx nz b; simp [sideLeft, sel_lo, sel_all])
    (by intro i hi; rw [midL_z hL hi (kx := 0) (by simp) (by simp) (sel_lo _)]; simp only [sideLeft]; exact ite_any (by simp)) (by decide)

theorem nodesRight_spec : ∃ t, M.nodesRight = .ok t ∧ IsL t (setL nelx nelz n WX WZ R .hi .all .all) :=
  closedSide_spec hM hL sideRight .hi .all
    (by
      intro nx nz b
      simp only [sideRight, sel_hi, sel_all, List.flatMap_cons, List.flatMap_nil, List.append_nil]
      exact List.map_congr_left fun k _ => by ring)
    (by
      intro i hi
      rw [midL_z hL hi (by simp) (by simp) (sel_hi _)]
      simp only [sideRight]
      exact ite_any (List.map_congr_left fun k _ => by ring)) (by decide)

theorem nodesFrontFace_spec (h0 : ∀ i, i < 2 * n - 1 → 0 < nelx / WX i) :
    ∃ t, M.nodesFrontFace = .ok t ∧ IsL t (setL nelx nelz n WX WZ R .mid .mid .lo) :=
  openSide_spec hM hL sideFront .mid .lo
    (by intro nx nz b; simp [sideFront, sel_lo, sel_mid, flatMap_one])
    (by intro i hi; rw [midL_x hL hi (kz := 0) (by simp) (by simp) (sel_lo _)]; simp only [sideFront]; exact ite_any (by simp)) (by decide) h0

theorem nodesBackFace_spec (h0 : ∀ i, i < 2 * n - 1 → 0 < nelx / WX i) :
    ∃ t, M.nodesBackFace = .ok t ∧ IsL t (setL nelx nelz n WX WZ R .mid .mid .hi) :=
  openSide_spec hM hL sideBack .mid .hi
    (by
      intro nx nz b
      simp only [sideBack, sel_hi, sel_mid, flatMap_one, List.map_cons, List.map_nil]
      exact List.map_congr_left fun k _ => by ring)
    (by
      intro i hi
      rw [midL_x hL hi (by simp) (by simp) (sel_hi _)]
      simp only [sideBack]
      exact ite_any (List.map_congr_left fun k _ => by ring)) (by decide) h0

theorem nodesLeftFace_spec (h0 : ∀ i, i < 2 * n - 1 → 0 < nelz / WZ i) :
    ∃ t, M.nodesLeftFace = .ok t ∧ IsL t (setL nelx nelz n WX WZ R .lo .mid .mid) :=
  openSide_spec hM hL sideLeft .lo .mid
    (by intro nx nz b; simp [sideLeft, sel_lo, sel_mid])
    (by intro i hi; rw [midL_z hL hi (kx := 0) (by simp) (by simp) (sel_lo _)]; simp only [sideLeft]; exact ite_any (by simp)) (by decide) h0

theorem nodesRightFace_spec (h0 : ∀ i, i < 2 * n - 1 → 0 < nelz / WZ i) :
    ∃ t, M.nodesRightFace = .ok t ∧ IsL t (setL nelx nelz n WX WZ R .hi .mid .mid) :=
  openSide_spec hM hL sideRight .hi .mid
    (by
      intro nx nz b
      simp only [sideRight, sel_hi, sel_mid, List.flatMap_cons, List.flatMap_nil, List.append_nil]
      exact List.map_congr_left fun k _ => by ring)
    (by
      intro i hi
      rw [midL_z hL hi (by simp) (by simp) (sel_hi _)]
      simp only [sideRight]
      exact ite_any (List.map_congr_left fun k _ => by ring)) (by decide) h0

end functions
end GF.FineLayer3
