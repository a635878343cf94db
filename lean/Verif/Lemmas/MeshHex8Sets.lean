import Verif.Lemmas.Grid3

/-! Node sets of `Hex8::Regular` (one lemma per function of the model). -/

namespace GF
variable {α : Type}

theorem Is1.recast {t : Ten α} {n n' : Nat} {f f' : Nat → α} (h : Is1 t n f) (hn : n' = n)
    (hf : ∀ i, i < n → f i = f' i) : Is1 t n' f' := by
  subst hn; exact h.congr hf

namespace Hex8.Regular

theorem nodesFront_spec (nelx nely nelz : Nat) (h : α) :
    ∃ t, nodesFront (new nelx nely nelz h) = .ok t ∧
      Is1 t (locCount nelx nely nelz .all .all .lo) (locEnum nelx nely nelz .all .all .lo) := by
  obtain ⟨t, h1, h2⟩ := fill2_spec (nely + 1) (nelx + 1) ((nelx + 1) * (nely + 1)) (Nat.mul_comm _ _)
    (fun iy ix => iy * (nelx + 1) + ix)
  refine ⟨t, h1, h2.recast (by simp [locCount, Loc.width]) fun k hk => ?_⟩
  · have hd : k / (nelx + 1) < nely + 1 := Nat.div_lt_of_lt_mul hk
    simp only [locEnum, boxEnum, enc, Loc.start, Loc.width, Nat.mod_one, Nat.div_one,
      Nat.mod_eq_of_lt hd, Nat.div_eq_of_lt hd]
    ring

theorem nodesBack_spec (nelx nely nelz : Nat) (h : α) :
    ∃ t, nodesBack (new nelx nely nelz h) = .ok t ∧
      Is1 t (locCount nelx nely nelz .all .all .hi) (locEnum nelx nely nelz .all .all .hi) := by
  obtain ⟨t, h1, h2⟩ := fill2_spec (nely + 1) (nelx + 1) ((nelx + 1) * (nely + 1)) (Nat.mul_comm _ _)
    (fun iy ix => iy * (nelx + 1) + ix + nelz * (nely + 1) * (nelx + 1))
  refine ⟨t, h1, h2.recast (by simp [locCount, Loc.width]) fun k hk => ?_⟩
  · have hd : k / (nelx + 1) < nely + 1 := Nat.div_lt_of_lt_mul hk
    simp only [locEnum, boxEnum, enc, Loc.start, Loc.width, Nat.mod_one, Nat.div_one,
      Nat.mod_eq_of_lt hd, Nat.div_eq_of_lt hd]
    ring

theorem nodesLeft_spec (nelx nely nelz : Nat) (h : α) :
    ∃ t, nodesLeft (new nelx nely nelz h) = .ok t ∧
      Is1 t (locCount nelx nely nelz .lo .all .all) (locEnum nelx nely nelz .lo .all .all) := by
  obtain ⟨t, h1, h2⟩ := fill2_spec (nelz + 1) (nely + 1) ((nely + 1) * (nelz + 1)) (Nat.mul_comm _ _)
    (fun iz iy => iy * (nelx + 1) + iz * (nelx + 1) * (nely + 1))
  refine ⟨t, h1, h2.recast (by simp [locCount, Loc.width]) fun k hk => ?_⟩
  · simp only [locEnum, boxEnum, enc, Loc.start, Loc.width, Nat.mod_one, Nat.div_one]
    ring

theorem nodesRight_spec (nelx nely nelz : Nat) (h : α) :
    ∃ t, nodesRight (new nelx nely nelz h) = .ok t ∧
      Is1 t (locCount nelx nely nelz .hi .all .all) (locEnum nelx nely nelz .hi .all .all) := by
  obtain ⟨t, h1, h2⟩ := fill2_spec (nelz + 1) (nely + 1) ((nely + 1) * (nelz + 1)) (Nat.mul_comm _ _)
    (fun iz iy => iy * (nelx + 1) + iz * (nelx + 1) * (nely + 1) + nelx)
  refine ⟨t, h1, h2.recast (by simp [locCount, Loc.width]) fun k hk => ?_⟩
  · simp only [locEnum, boxEnum, enc, Loc.start, Loc.width, Nat.mod_one, Nat.div_one]
    ring

theorem nodesBottom_spec (nelx nely nelz : Nat) (h : α) :
    ∃ t, nodesBottom (new nelx nely nelz h) = .ok t ∧
      Is1 t (locCount nelx nely nelz .all .lo .all) (locEnum nelx nely nelz .all .lo .all) := by
  obtain ⟨t, h1, h2⟩ := fill2_spec (nelz + 1) (nelx + 1) ((nelx + 1) * (nelz + 1)) (Nat.mul_comm _ _)
    (fun iz ix => ix + iz * (nelx + 1) * (nely + 1))
  refine ⟨t, h1, h2.recast (by simp [locCount, Loc.width]) fun k hk => ?_⟩
  · simp only [locEnum, boxEnum, enc, Loc.start, Loc.width, Nat.mod_one, Nat.div_one]
    ring

theorem nodesTop_spec (nelx nely nelz : Nat) (h : α) :
    ∃ t, nodesTop (new nelx nely nelz h) = .ok t ∧
      Is1 t (locCount nelx nely nelz .all .hi .all) (locEnum nelx nely nelz .all .hi .all) := by
  obtain ⟨t, h1, h2⟩ := fill2_spec (nelz + 1) (nelx + 1) ((nelx + 1) * (nelz + 1)) (Nat.mul_comm _ _)
    (fun iz ix => ix + nely * (nelx + 1) + iz * (nelx + 1) * (nely + 1))
  refine ⟨t, h1, h2.recast (by simp [locCount, Loc.width]) fun k hk => ?_⟩
  · simp only [locEnum, boxEnum, enc, Loc.start, Loc.width, Nat.mod_one, Nat.div_one]
    ring

theorem nodesFrontFace_spec (nelx nely nelz : Nat) (h : α) (hx : 0 < nelx) (hy : 0 < nely) :
    ∃ t, nodesFrontFace (new nelx nely nelz h) = .ok t ∧
      Is1 t (locCount nelx nely nelz .mid .mid .lo) (locEnum nelx nely nelz .mid .mid .lo) := by
  obtain ⟨t, h1, h2⟩ := fill2From1_spec nely nelx ((nelx - 1) * (nely - 1)) (Nat.mul_comm _ _)
    (fun iy ix => iy * (nelx + 1) + ix)
  refine ⟨t, ?_, h2.recast (by simp [locCount, Loc.width]) fun k hk => ?_⟩
  · rw [nodesFrontFace, if_neg (by simp only [new]; omega)]; exact h1
  · have hd : k / (nelx - 1) < nely - 1 := Nat.div_lt_of_lt_mul hk
    simp only [locEnum, boxEnum, enc, Loc.start, Loc.width, Nat.mod_one, Nat.div_one,
      Nat.mod_eq_of_lt hd, Nat.div_eq_of_lt hd]
    ring

theorem nodesBackFace_spec (nelx nely nelz : Nat) (h : α) (hx : 0 < nelx) (hy : 0 < nely) :
    ∃ t, nodesBackFace (new nelx nely nelz h) = .ok t ∧
      Is1 t (locCount nelx nely nelz .mid .mid .hi) (locEnum nelx nely nelz .mid .mid .hi) := by
  obtain ⟨t, h1, h2⟩ := fill2From1_spec nely nelx ((nelx - 1) * (nely - 1)) (Nat.mul_comm _ _)
    (fun iy ix => iy * (nelx + 1) + ix + nelz * (nely + 1) * (nelx + 1))
  refine ⟨t, ?_, h2.recast (by simp [locCount, Loc.width]) fun k hk => ?_⟩
  · rw [nodesBackFace, if_neg (by simp only [new]; omega)]; exact h1
  · have hd : k / (nelx - 1) < nely - 1 := Nat.div_lt_of_lt_mul hk
    simp only [locEnum, boxEnum, enc, Loc.start, Loc.width, Nat.mod_one, Nat.div_one,
      Nat.mod_eq_of_lt hd, Nat.div_eq_of_lt hd]
    ring

theorem nodesLeftFace_spec (nelx nely nelz : Nat) (h : α) (hy : 0 < nely) (hz : 0 < nelz) :
    ∃ t, nodesLeftFace (new nelx nely nelz h) = .ok t ∧
      Is1 t (locCount nelx nely nelz .lo .mid .mid) (locEnum nelx nely nelz .lo .mid .mid) := by
  obtain ⟨t, h1, h2⟩ := fill2From1_spec nelz nely ((nely - 1) * (nelz - 1)) (Nat.mul_comm _ _)
    (fun iz iy => iy * (nelx + 1) + iz * (nelx + 1) * (nely + 1))
  refine ⟨t, ?_, h2.recast (by simp [locCount, Loc.width]) fun k hk => ?_⟩
  · rw [nodesLeftFace, if_neg (by simp only [new]; omega)]; exact h1
  · simp only [locEnum, boxEnum, enc, Loc.start, Loc.width, Nat.mod_one, Nat.div_one]
    ring

theorem nodesRightFace_spec (nelx nely nelz : Nat) (h : α) (hy : 0 < nely) (hz : 0 < nelz) :
    ∃ t, nodesRightFace (new nelx nely nelz h) = .ok t ∧
      Is1 t (locCount nelx nely nelz .hi .mid .mid) (locEnum nelx nely nelz .hi .mid .mid) := by
  obtain ⟨t, h1, h2⟩ := fill2From1_spec nelz nely ((nely - 1) * (nelz - 1)) (Nat.mul_comm _ _)
    (fun iz iy => iy * (nelx + 1) + iz * (nelx + 1) * (nely + 1) + nelx)
  refine ⟨t, ?_, h2.recast (by simp [locCount, Loc.width]) fun k hk => ?_⟩
  · rw [nodesRightFace, if_neg (by simp only [new]; omega)]; exact h1
  · simp only [locEnum, boxEnum, enc, Loc.start, Loc.width, Nat.mod_one, Nat.div_one]
    ring

theorem nodesBottomFace_spec (nelx nely nelz : Nat) (h : α) (hx : 0 < nelx) (hz : 0 < nelz) :
    ∃ t, nodesBottomFace (new nelx nely nelz h) = .ok t ∧
      Is1 t (locCount nelx nely nelz .mid .lo .mid) (locEnum nelx nely nelz .mid .lo .mid) := by
  obtain ⟨t, h1, h2⟩ := fill2From1_spec nelz nelx ((nelx - 1) * (nelz - 1)) (Nat.mul_comm _ _)
    (fun iz ix => ix + iz * (nelx + 1) * (nely + 1))
  refine ⟨t, ?_, h2.recast (by simp [locCount, Loc.width]) fun k hk => ?_⟩
  · rw [nodesBottomFace, if_neg (by simp only [new]; omega)]; exact h1
  · simp only [locEnum, boxEnum, enc, Loc.start, Loc.width, Nat.mod_one, Nat.div_one]
    ring

theorem nodesTopFace_spec (nelx nely nelz : Nat) (h : α) (hx : 0 < nelx) (hz : 0 < nelz) :
    ∃ t, nodesTopFace (new nelx nely nelz h) = .ok t ∧
      Is1 t (locCount nelx nely nelz .mid .hi .mid) (locEnum nelx nely nelz .mid .hi .mid) := by
  obtain ⟨t, h1, h2⟩ := fill2From1_spec nelz nelx ((nelx - 1) * (nelz - 1)) (Nat.mul_comm _ _)
    (fun iz ix => ix + nely * (nelx + 1) + iz * (nelx + 1) * (nely + 1))
  refine ⟨t, ?_, h2.recast (by simp [locCount, Loc.width]) fun k hk => ?_⟩
  · rw [nodesTopFace, if_neg (by simp only [new]; omega)]; exact h1
  · simp only [locEnum, boxEnum, enc, Loc.start, Loc.width, Nat.mod_one, Nat.div_one]
    ring

theorem nodesFrontBottomEdge_spec (nelx nely nelz : Nat) (h : α) :
    ∃ t, nodesFrontBottomEdge (new nelx nely nelz h) = .ok t ∧
      Is1 t (locCount nelx nely nelz .all .lo .lo) (locEnum nelx nely nelz .all .lo .lo) := by
  obtain ⟨t, h1, h2⟩ := fill1_spec (nelx + 1) (fun ix => ix)
  refine ⟨t, h1, h2.recast (by simp [locCount, Loc.width]) fun k hk => ?_⟩
  · simp only [locEnum, boxEnum, enc, Loc.start, Loc.width, Nat.mod_one, Nat.div_one, Nat.zero_div,
      Nat.zero_mod, Nat.mod_eq_of_lt hk, Nat.div_eq_of_lt hk]
    ring

theorem nodesFrontTopEdge_spec (nelx nely nelz : Nat) (h : α) :
    ∃ t, nodesFrontTopEdge (new nelx nely nelz h) = .ok t ∧
      Is1 t (locCount nelx nely nelz .all .hi .lo) (locEnum nelx nely nelz .all .hi .lo) := by
  obtain ⟨t, h1, h2⟩ := fill1_spec (nelx + 1) (fun ix => ix + nely * (nelx + 1))
  refine ⟨t, h1, h2.recast (by simp [locCount, Loc.width]) fun k hk => ?_⟩
  · simp only [locEnum, boxEnum, enc, Loc.start, Loc.width, Nat.mod_one, Nat.div_one, Nat.zero_div,
      Nat.zero_mod, Nat.mod_eq_of_lt hk, Nat.div_eq_of_lt hk]
    ring

theorem nodesFrontLeftEdge_spec (nelx nely nelz : Nat) (h : α) :
    ∃ t, nodesFrontLeftEdge (new nelx nely nelz h) = .ok t ∧
      Is1 t (locCount nelx nely nelz .lo .all .lo) (locEnum nelx nely nelz .lo .all .lo) := by
  obtain ⟨t, h1, h2⟩ := fill1_spec (nely + 1) (fun iy => iy * (nelx + 1))
  refine ⟨t, h1, h2.recast (by simp [locCount, Loc.width]) fun k hk => ?_⟩
  · simp only [locEnum, boxEnum, enc, Loc.start, Loc.width, Nat.mod_one, Nat.div_one, Nat.zero_div,
      Nat.zero_mod, Nat.mod_eq_of_lt hk, Nat.div_eq_of_lt hk]
    ring

theorem nodesFrontRightEdge_spec (nelx nely nelz : Nat) (h : α) :
    ∃ t, nodesFrontRightEdge (new nelx nely nelz h) = .ok t ∧
      Is1 t (locCount nelx nely nelz .hi .all .lo) (locEnum nelx nely nelz .hi .all .lo) := by
  obtain ⟨t, h1, h2⟩ := fill1_spec (nely + 1) (fun iy => iy * (nelx + 1) + nelx)
  refine ⟨t, h1, h2.recast (by simp [locCount, Loc.width]) fun k hk => ?_⟩
  · simp only [locEnum, boxEnum, enc, Loc.start, Loc.width, Nat.mod_one, Nat.div_one, Nat.zero_div,
      Nat.zero_mod, Nat.mod_eq_of_lt hk, Nat.div_eq_of_lt hk]
    ring

theorem nodesBackBottomEdge_spec (nelx nely nelz : Nat) (h : α) :
    ∃ t, nodesBackBottomEdge (new nelx nely nelz h) = .ok t ∧
      Is1 t (locCount nelx nely nelz .all .lo .hi) (locEnum nelx nely nelz .all .lo .hi) := by
  obtain ⟨t, h1, h2⟩ := fill1_spec (nelx + 1) (fun ix => ix + nelz * (nely + 1) * (nelx + 1))
  refine ⟨t, h1, h2.recast (by simp [locCount, Loc.width]) fun k hk => ?_⟩
  · simp only [locEnum, boxEnum, enc, Loc.start, Loc.width, Nat.mod_one, Nat.div_one, Nat.zero_div,
      Nat.zero_mod, Nat.mod_eq_of_lt hk, Nat.div_eq_of_lt hk]
    ring

theorem nodesBackTopEdge_spec (nelx nely nelz : Nat) (h : α) :
    ∃ t, nodesBackTopEdge (new nelx nely nelz h) = .ok t ∧
      Is1 t (locCount nelx nely nelz .all .hi .hi) (locEnum nelx nely nelz .all .hi .hi) := by
  obtain ⟨t, h1, h2⟩ := fill1_spec (nelx + 1) (fun ix => nely * (nelx + 1) + ix + nelz * (nely + 1) * (nelx + 1))
  refine ⟨t, h1, h2.recast (by simp [locCount, Loc.width]) fun k hk => ?_⟩
  · simp only [locEnum, boxEnum, enc, Loc.start, Loc.width, Nat.mod_one, Nat.div_one, Nat.zero_div,
      Nat.zero_mod, Nat.mod_eq_of_lt hk, Nat.div_eq_of_lt hk]
    ring

theorem nodesBackLeftEdge_spec (nelx nely nelz : Nat) (h : α) :
    ∃ t, nodesBackLeftEdge (new nelx nely nelz h) = .ok t ∧
      Is1 t (locCount nelx nely nelz .lo .all .hi) (locEnum nelx nely nelz .lo .all .hi) := by
  obtain ⟨t, h1, h2⟩ := fill1_spec (nely + 1) (fun iy => iy * (nelx + 1) + nelz * (nelx + 1) * (nely + 1))
  refine ⟨t, h1, h2.recast (by simp [locCount, Loc.width]) fun k hk => ?_⟩
  · simp only [locEnum, boxEnum, enc, Loc.start, Loc.width, Nat.mod_one, Nat.div_one, Nat.zero_div,
      Nat.zero_mod, Nat.mod_eq_of_lt hk, Nat.div_eq_of_lt hk]
    ring

theorem nodesBackRightEdge_spec (nelx nely nelz : Nat) (h : α) :
    ∃ t, nodesBackRightEdge (new nelx nely nelz h) = .ok t ∧
      Is1 t (locCount nelx nely nelz .hi .all .hi) (locEnum nelx nely nelz .hi .all .hi) := by
  obtain ⟨t, h1, h2⟩ := fill1_spec (nely + 1) (fun iy => iy * (nelx + 1) + nelz * (nelx + 1) * (nely + 1) + nelx)
  refine ⟨t, h1, h2.recast (by simp [locCount, Loc.width]) fun k hk => ?_⟩
  · simp only [locEnum, boxEnum, enc, Loc.start, Loc.width, Nat.mod_one, Nat.div_one, Nat.zero_div,
      Nat.zero_mod, Nat.mod_eq_of_lt hk, Nat.div_eq_of_lt hk]
    ring

theorem nodesBottomLeftEdge_spec (nelx nely nelz : Nat) (h : α) :
    ∃ t, nodesBottomLeftEdge (new nelx nely nelz h) = .ok t ∧
      Is1 t (locCount nelx nely nelz .lo .lo .all) (locEnum nelx nely nelz .lo .lo .all) := by
  obtain ⟨t, h1, h2⟩ := fill1_spec (nelz + 1) (fun iz => iz * (nelx + 1) * (nely + 1))
  refine ⟨t, h1, h2.recast (by simp [locCount, Loc.width]) fun k hk => ?_⟩
  · simp only [locEnum, boxEnum, enc, Loc.start, Loc.width, Nat.mod_one, Nat.div_one, Nat.zero_div,
      Nat.zero_mod]
    ring

theorem nodesBottomRightEdge_spec (nelx nely nelz : Nat) (h : α) :
    ∃ t, nodesBottomRightEdge (new nelx nely nelz h) = .ok t ∧
      Is1 t (locCount nelx nely nelz .hi .lo .all) (locEnum nelx nely nelz .hi .lo .all) := by
  obtain ⟨t, h1, h2⟩ := fill1_spec (nelz + 1) (fun iz => iz * (nelx + 1) * (nely + 1) + nelx)
  refine ⟨t, h1, h2.recast (by simp [locCount, Loc.width]) fun k hk => ?_⟩
  · simp only [locEnum, boxEnum, enc, Loc.start, Loc.width, Nat.mod_one, Nat.div_one, Nat.zero_div,
      Nat.zero_mod]
    ring

theorem nodesTopLeftEdge_spec (nelx nely nelz : Nat) (h : α) :
    ∃ t, nodesTopLeftEdge (new nelx nely nelz h) = .ok t ∧
      Is1 t (locCount nelx nely nelz .lo .hi .all) (locEnum nelx nely nelz .lo .hi .all) := by
  obtain ⟨t, h1, h2⟩ := fill1_spec (nelz + 1) (fun iz => nely * (nelx + 1) + iz * (nelx + 1) * (nely + 1))
  refine ⟨t, h1, h2.recast (by simp [locCount, Loc.width]) fun k hk => ?_⟩
  · simp only [locEnum, boxEnum, enc, Loc.start, Loc.width, Nat.mod_one, Nat.div_one, Nat.zero_div,
      Nat.zero_mod]
    ring

theorem nodesTopRightEdge_spec (nelx nely nelz : Nat) (h : α) :
    ∃ t, nodesTopRightEdge (new nelx nely nelz h) = .ok t ∧
      Is1 t (locCount nelx nely nelz .hi .hi .all) (locEnum nelx nely nelz .hi .hi .all) := by
  obtain ⟨t, h1, h2⟩ := fill1_spec (nelz + 1) (fun iz => nely * (nelx + 1) + iz * (nelx + 1) * (nely + 1) + nelx)
  refine ⟨t, h1, h2.recast (by simp [locCount, Loc.width]) fun k hk => ?_⟩
  · simp only [locEnum, boxEnum, enc, Loc.start, Loc.width, Nat.mod_one, Nat.div_one, Nat.zero_div,
      Nat.zero_mod]
    ring

theorem nodesFrontBottomOpenEdge_spec (nelx nely nelz : Nat) (h : α) (hx : 0 < nelx) :
    ∃ t, nodesFrontBottomOpenEdge (new nelx nely nelz h) = .ok t ∧
      Is1 t (locCount nelx nely nelz .mid .lo .lo) (locEnum nelx nely nelz .mid .lo .lo) := by
  obtain ⟨t, h1, h2⟩ := fill1From1_spec nelx (fun ix => ix)
  refine ⟨t, ?_, h2.recast (by simp [locCount, Loc.width]) fun k hk => ?_⟩
  · rw [nodesFrontBottomOpenEdge, if_neg (by simp only [new]; omega)]; exact h1
  · simp only [locEnum, boxEnum, enc, Loc.start, Loc.width, Nat.mod_one, Nat.div_one, Nat.zero_div,
      Nat.zero_mod, Nat.mod_eq_of_lt hk, Nat.div_eq_of_lt hk]
    ring

theorem nodesFrontTopOpenEdge_spec (nelx nely nelz : Nat) (h : α) (hx : 0 < nelx) :
    ∃ t, nodesFrontTopOpenEdge (new nelx nely nelz h) = .ok t ∧
      Is1 t (locCount nelx nely nelz .mid .hi .lo) (locEnum nelx nely nelz .mid .hi .lo) := by
  obtain ⟨t, h1, h2⟩ := fill1From1_spec nelx (fun ix => ix + nely * (nelx + 1))
  refine ⟨t, ?_, h2.recast (by simp [locCount, Loc.width]) fun k hk => ?_⟩
  · rw [nodesFrontTopOpenEdge, if_neg (by simp only [new]; omega)]; exact h1
  · simp only [locEnum, boxEnum, enc, Loc.start, Loc.width, Nat.mod_one, Nat.div_one, Nat.zero_div,
      Nat.zero_mod, Nat.mod_eq_of_lt hk, Nat.div_eq_of_lt hk]
    ring

theorem nodesFrontLeftOpenEdge_spec (nelx nely nelz : Nat) (h : α) (hy : 0 < nely) :
    ∃ t, nodesFrontLeftOpenEdge (new nelx nely nelz h) = .ok t ∧
      Is1 t (locCount nelx nely nelz .lo .mid .lo) (locEnum nelx nely nelz .lo .mid .lo) := by
  obtain ⟨t, h1, h2⟩ := fill1From1_spec nely (fun iy => iy * (nelx + 1))
  refine ⟨t, ?_, h2.recast (by simp [locCount, Loc.width]) fun k hk => ?_⟩
  · rw [nodesFrontLeftOpenEdge, if_neg (by simp only [new]; omega)]; exact h1
  · simp only [locEnum, boxEnum, enc, Loc.start, Loc.width, Nat.mod_one, Nat.div_one, Nat.zero_div,
      Nat.zero_mod, Nat.mod_eq_of_lt hk, Nat.div_eq_of_lt hk]
    ring

theorem nodesFrontRightOpenEdge_spec (nelx nely nelz : Nat) (h : α) (hy : 0 < nely) :
    ∃ t, nodesFrontRightOpenEdge (new nelx nely nelz h) = .ok t ∧
      Is1 t (locCount nelx nely nelz .hi .mid .lo) (locEnum nelx nely nelz .hi .mid .lo) := by
  obtain ⟨t, h1, h2⟩ := fill1From1_spec nely (fun iy => iy * (nelx + 1) + nelx)
  refine ⟨t, ?_, h2.recast (by simp [locCount, Loc.width]) fun k hk => ?_⟩
  · rw [nodesFrontRightOpenEdge, if_neg (by simp only [new]; omega)]; exact h1
  · simp only [locEnum, boxEnum, enc, Loc.start, Loc.width, Nat.mod_one, Nat.div_one, Nat.zero_div,
      Nat.zero_mod, Nat.mod_eq_of_lt hk, Nat.div_eq_of_lt hk]
    ring

theorem nodesBackBottomOpenEdge_spec (nelx nely nelz : Nat) (h : α) (hx : 0 < nelx) :
    ∃ t, nodesBackBottomOpenEdge (new nelx nely nelz h) = .ok t ∧
      Is1 t (locCount nelx nely nelz .mid .lo .hi) (locEnum nelx nely nelz .mid .lo .hi) := by
  obtain ⟨t, h1, h2⟩ := fill1From1_spec nelx (fun ix => ix + nelz * (nely + 1) * (nelx + 1))
  refine ⟨t, ?_, h2.recast (by simp [locCount, Loc.width]) fun k hk => ?_⟩
  · rw [nodesBackBottomOpenEdge, if_neg (by simp only [new]; omega)]; exact h1
  · simp only [locEnum, boxEnum, enc, Loc.start, Loc.width, Nat.mod_one, Nat.div_one, Nat.zero_div,
      Nat.zero_mod, Nat.mod_eq_of_lt hk, Nat.div_eq_of_lt hk]
    ring

theorem nodesBackTopOpenEdge_spec (nelx nely nelz : Nat) (h : α) (hx : 0 < nelx) :
    ∃ t, nodesBackTopOpenEdge (new nelx nely nelz h) = .ok t ∧
      Is1 t (locCount nelx nely nelz .mid .hi .hi) (locEnum nelx nely nelz .mid .hi .hi) := by
  obtain ⟨t, h1, h2⟩ := fill1From1_spec nelx (fun ix => nely * (nelx + 1) + ix + nelz * (nely + 1) * (nelx + 1))
  refine ⟨t, ?_, h2.recast (by simp [locCount, Loc.width]) fun k hk => ?_⟩
  · rw [nodesBackTopOpenEdge, if_neg (by simp only [new]; omega)]; exact h1
  · simp only [locEnum, boxEnum, enc, Loc.start, Loc.width, Nat.mod_one, Nat.div_one, Nat.zero_div,
      Nat.zero_mod, Nat.mod_eq_of_lt hk, Nat.div_eq_of_lt hk]
    ring

theorem nodesBackLeftOpenEdge_spec (nelx nely nelz : Nat) (h : α) (hy : 0 < nely) :
    ∃ t, nodesBackLeftOpenEdge (new nelx nely nelz h) = .ok t ∧
      Is1 t (locCount nelx nely nelz .lo .mid .hi) (locEnum nelx nely nelz .lo .mid .hi) := by
  obtain ⟨t, h1, h2⟩ := fill1From1_spec nely (fun iy => iy * (nelx + 1) + nelz * (nelx + 1) * (nely + 1))
  refine ⟨t, ?_, h2.recast (by simp [locCount, Loc.width]) fun k hk => ?_⟩
  · rw [nodesBackLeftOpenEdge, if_neg (by simp only [new]; omega)]; exact h1
  · simp only [locEnum, boxEnum, enc, Loc.start, Loc.width, Nat.mod_one, Nat.div_one, Nat.zero_div,
      Nat.zero_mod, Nat.mod_eq_of_lt hk, Nat.div_eq_of_lt hk]
    ring

theorem nodesBackRightOpenEdge_spec (nelx nely nelz : Nat) (h : α) (hy : 0 < nely) :
    ∃ t, nodesBackRightOpenEdge (new nelx nely nelz h) = .ok t ∧
      Is1 t (locCount nelx nely nelz .hi .mid .hi) (locEnum nelx nely nelz .hi .mid .hi) := by
  obtain ⟨t, h1, h2⟩ := fill1From1_spec nely (fun iy => iy * (nelx + 1) + nelz * (nelx + 1) * (nely + 1) + nelx)
  refine ⟨t, ?_, h2.recast (by simp [locCount, Loc.width]) fun k hk => ?_⟩
  · rw [nodesBackRightOpenEdge, if_neg (by simp only [new]; omega)]; exact h1
  · simp only [locEnum, boxEnum, enc, Loc.start, Loc.width, Nat.mod_one, Nat.div_one, Nat.zero_div,
      Nat.zero_mod, Nat.mod_eq_of_lt hk, Nat.div_eq_of_lt hk]
    ring

theorem nodesBottomLeftOpenEdge_spec (nelx nely nelz : Nat) (h : α) (hz : 0 < nelz) :
    ∃ t, nodesBottomLeftOpenEdge (new nelx nely nelz h) = .ok t ∧
      Is1 t (locCount nelx nely nelz .lo .lo .mid) (locEnum nelx nely nelz .lo .lo .mid) := by
  obtain ⟨t, h1, h2⟩ := fill1From1_spec nelz (fun iz => iz * (nelx + 1) * (nely + 1))
  refine ⟨t, ?_, h2.recast (by simp [locCount, Loc.width]) fun k hk => ?_⟩
  · rw [nodesBottomLeftOpenEdge, if_neg (by simp only [new]; omega)]; exact h1
  · simp only [locEnum, boxEnum, enc, Loc.start, Loc.width, Nat.mod_one, Nat.div_one, Nat.zero_div,
      Nat.zero_mod]
    ring

theorem nodesBottomRightOpenEdge_spec (nelx nely nelz : Nat) (h : α) (hz : 0 < nelz) :
    ∃ t, nodesBottomRightOpenEdge (new nelx nely nelz h) = .ok t ∧
      Is1 t (locCount nelx nely nelz .hi .lo .mid) (locEnum nelx nely nelz .hi .lo .mid) := by
  obtain ⟨t, h1, h2⟩ := fill1From1_spec nelz (fun iz => iz * (nelx + 1) * (nely + 1) + nelx)
  refine ⟨t, ?_, h2.recast (by simp [locCount, Loc.width]) fun k hk => ?_⟩
  · rw [nodesBottomRightOpenEdge, if_neg (by simp only [new]; omega)]; exact h1
  · simp only [locEnum, boxEnum, enc, Loc.start, Loc.width, Nat.mod_one, Nat.div_one, Nat.zero_div,
      Nat.zero_mod]
    ring

theorem nodesTopLeftOpenEdge_spec (nelx nely nelz : Nat) (h : α) (hz : 0 < nelz) :
    ∃ t, nodesTopLeftOpenEdge (new nelx nely nelz h) = .ok t ∧
      Is1 t (locCount nelx nely nelz .lo .hi .mid) (locEnum nelx nely nelz .lo .hi .mid) := by
  obtain ⟨t, h1, h2⟩ := fill1From1_spec nelz (fun iz => nely * (nelx + 1) + iz * (nelx + 1) * (nely + 1))
  refine ⟨t, ?_, h2.recast (by simp [locCount, Loc.width]) fun k hk => ?_⟩
  · rw [nodesTopLeftOpenEdge, if_neg (by simp only [new]; omega)]; exact h1
  · simp only [locEnum, boxEnum, enc, Loc.start, Loc.width, Nat.mod_one, Nat.div_one, Nat.zero_div,
      Nat.zero_mod]
    ring

theorem nodesTopRightOpenEdge_spec (nelx nely nelz : Nat) (h : α) (hz : 0 < nelz) :
    ∃ t, nodesTopRightOpenEdge (new nelx nely nelz h) = .ok t ∧
      Is1 t (locCount nelx nely nelz .hi .hi .mid) (locEnum nelx nely nelz .hi .hi .mid) := by
  obtain ⟨t, h1, h2⟩ := fill1From1_spec nelz (fun iz => nely * (nelx + 1) + iz * (nelx + 1) * (nely + 1) + nelx)
  refine ⟨t, ?_, h2.recast (by simp [locCount, Loc.width]) fun k hk => ?_⟩
  · rw [nodesTopRightOpenEdge, if_neg (by simp only [new]; omega)]; exact h1
  · simp only [locEnum, boxEnum, enc, Loc.start, Loc.width, Nat.mod_one, Nat.div_one, Nat.zero_div,
      Nat.zero_mod]
    ring

end Hex8.Regular

end GF
