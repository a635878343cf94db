import Verif.Model.FineLayer3Sets
import Verif.Lemmas.FineLayer3Mesh
import Verif.Lemmas.MeshHex8Table

/-! Lemmas on the node sets of `Mesh::Hex8::FineLayer`: the lists that the loops produce. -/

namespace GF.FineLayer3
open FineLayerSpec Finset FineLayer
variable {α : Type}

/-- the one-dimensional array `t` has the entries of the list `L` -/
def IsL (t : Ten Nat) (L : List Nat) : Prop := Is1 t L.length (fun i => L.getD i 0)

/-- `f` appends the entries of `L` to an array of `N` entries -/
def Emits1 (N : Nat) (f : Ten Nat × Nat → Res (Ten Nat × Nat)) (L : List Nat) : Prop :=
  ∀ t j, t.shape = [N] → j + L.length ≤ N → ∃ t', f (t, j) = .ok (t', j + L.length) ∧ t'.shape = [N] ∧
    (∀ i v, L[i]? = some v → t'.v [j + i] = some v) ∧ ∀ i, i < j → t'.v [i] = t.v [i]

theorem emits1_put (N v : Nat) : Emits1 N (fun s => putOne s v) [v] := by
  intro t j hs hj
  refine ⟨t.put [j] v, ?_, hs, ?_, ?_⟩
  · simp only [putOne]
    rw [set_put (by simp [hs]; simpa using hj), Res.ok_bind]; rfl
  · intro i w hi
    have : i = 0 := by
      have := List.getElem?_eq_some_iff.1 hi
      obtain ⟨h, -⟩ := this
      simpa using h
    subst this
    simp at hi
    simp [Ten.put_v, hi]
  · intro i hi
    have : i ≠ j := by omega
    simp [Ten.put_v, this]

theorem emits1_nil (N : Nat) : Emits1 N (fun s => .ok s) [] := by
  intro t j hs _
  exact ⟨t, rfl, hs, by simp, fun _ _ => rfl⟩

theorem Emits1.seq {N : Nat} {f g : Ten Nat × Nat → Res (Ten Nat × Nat)} {L K : List Nat} (hf : Emits1 N f L)
    (hg : Emits1 N g K) : Emits1 N (fun s => f s >>= g) (L ++ K) := by
  intro t j hs hj
  rw [List.length_append] at hj
  obtain ⟨t1, a1, a2, a3, a4⟩ := hf t j hs (by omega)
  obtain ⟨t2, b1, b2, b3, b4⟩ := hg t1 (j + L.length) a2 (by omega)
  refine ⟨t2, ?_, b2, ?_, ?_⟩
  · dsimp only; rw [a1, Res.ok_bind, b1, List.length_append, Nat.add_assoc]
  · intro i v hi
    rw [List.getElem?_append] at hi
    split at hi
    · rename_i h; rw [b4 _ (by omega)]; exact a3 i v hi
    · rename_i h
      have := b3 _ v hi
      rwa [show j + L.length + (i - L.length) = j + i by omega] at this
  · intro i hi
    rw [b4 i (by omega), a4 i hi]

theorem Emits1.loop {N : Nat} {ι : Type} {l : List ι} {body : Ten Nat × Nat → ι → Res (Ten Nat × Nat)} {F : ι → List Nat}
    (h : ∀ a ∈ l, Emits1 N (fun s => body s a) (F a)) : Emits1 N (fun s => forEach l body s) (l.flatMap F) := by
  induction l with
  | nil => exact emits1_nil N
  | cons a l ih =>
    have := (h a (by simp)).seq (ih fun b hb => h b (by simp [hb]))
    rw [List.flatMap_cons]
    exact this

theorem Emits1.map {N : Nat} {ι : Type} (l : List ι) (v : ι → Nat) :
    Emits1 N (fun s => forEach l (fun s k => putOne s (v k)) s) (l.map v) := by
  have := Emits1.loop (N := N) (l := l) (body := fun s k => putOne s (v k)) (F := fun k => [v k])
    fun a _ => emits1_put N (v a)
  rwa [show l.flatMap (fun k => [v k]) = l.map v from by rw [← List.map_eq_flatMap]] at this

theorem Emits1.array {N : Nat} {f : Ten Nat × Nat → Res (Ten Nat × Nat)} {L : List Nat} (h : Emits1 N f L)
    (hN : N = L.length) : ∃ t, f (Ten.empty [N], 0) = .ok (t, L.length) ∧ IsL t L := by
  obtain ⟨t, a1, a2, a3, -⟩ := h (Ten.empty [N]) 0 rfl (by omega)
  refine ⟨t, by rw [a1, Nat.zero_add], ⟨by rw [a2, hN], fun i hi => ?_⟩⟩
  have := a3 i (L.getD i 0) (by rw [List.getD_eq_getElem?_getD, List.getElem?_eq_getElem hi]; rfl)
  rwa [Nat.zero_add] at this

/-- the nodes with indices `k` along an axis with `c` nodes at location `l`; inside a layer that is refined along the
axis there are no nodes at the ends -/
def sel (m : Mode) (l : Loc) (c : Nat) : List Nat :=
  match m with
  | .same => List.range' (l.start (c - 1)) (l.width (c - 1))
  | _ => match l with
    | .lo => []
    | .hi => []
    | _ => List.range c

section
variable (nelx nelz n : Nat) (WX WZ : Nat → Nat) (R : Nat → Int)

/-- node `kx, kz` of plane `p` -/
def mainNode (p kx kz : Nat) : Nat := rowS3 nelx nelz n WX WZ R p + kx + kz * rowN nelx n WX p

/-- node `kx, kz` inside layer `i` -/
def midNode (i kx kz : Nat) : Nat :=
  rowS3 nelx nelz n WX WZ R i + rowN3 nelx nelz n WX WZ i + kx + kz * axM nelx (WX i) (kindR3 n R i).mx

/-- the nodes of plane `p` at locations `lx`, `lz` -/
def planeL (lx lz : Loc) (p : Nat) : List Nat :=
  (sel .same lx (rowN nelx n WX p)).flatMap fun kx => (sel .same lz (rowN nelz n WZ p)).map fun kz =>
    mainNode nelx nelz n WX WZ R p kx kz

/-- the nodes inside layer `i` at locations `lx`, `lz` -/
def midL (lx lz : Loc) (i : Nat) : List Nat :=
  if kindR3 n R i = .normal then []
  else (sel (kindR3 n R i).mx lx (axM nelx (WX i) (kindR3 n R i).mx)).flatMap fun kx =>
    (sel (kindR3 n R i).mz lz (axM nelz (WZ i) (kindR3 n R i).mz)).map fun kz => midNode nelx nelz n WX WZ R i kx kz

/-- a range of planes with the nodes inside the layers between them -/
def stackL (lx lz : Loc) (a b : Nat) : List Nat :=
  (itFrom a b).flatMap fun p =>
    planeL nelx nelz n WX WZ R lx lz p ++ if p + 1 < b then midL nelx nelz n WX WZ R lx lz p else []

/-- the list of nodes at locations `lx`, `ly`, `lz` that the library returns: an open vertical set starts with plane
`1` and ends with the last but one plane, without the nodes inside the outermost layers -/
def setL (lx ly lz : Loc) : List Nat :=
  match ly with
  | .lo => planeL nelx nelz n WX WZ R lx lz 0
  | .hi => planeL nelx nelz n WX WZ R lx lz (2 * n - 1)
  | .all => stackL nelx nelz n WX WZ R lx lz 0 (2 * n)
  | .mid => stackL nelx nelz n WX WZ R lx lz 1 (2 * n - 1)

end

/-- the two loops over the layers visit the planes in order -/
theorem halves_aux (A B : Nat → List Nat) (k c : Nat) :
    (List.range' c k).flatMap (fun i => B i ++ A (i + 1)) =
      (if k = 0 then [] else B c) ++ (List.range' (c + 1) k).flatMap (fun p => A p ++ if p + 1 < c + 1 + k then B p else []) := by
  induction k generalizing c with
  | zero => simp
  | succ k ih =>
    rw [List.range'_succ, List.flatMap_cons, ih, List.range'_succ, List.flatMap_cons, if_neg (Nat.succ_ne_zero k)]
    by_cases hk : k = 0
    · subst hk; simp
    · rw [if_neg hk, if_pos (show c + 1 + 1 < c + 1 + (k + 1) by omega), show c + 1 + 1 + k = c + 1 + (k + 1) by omega]
      simp only [List.append_assoc]

theorem halves (A B : Nat → List Nat) {a c b : Nat} (hc : 0 < c) (hac : a ≤ c) (hcb : c ≤ b) (hB : B (c - 1) = []) :
    (itFrom a c).flatMap (fun p => A p ++ B p) ++ (itFrom (c - 1) (b - 1)).flatMap (fun i => B i ++ A (i + 1)) =
      (itFrom a b).flatMap (fun p => A p ++ if p + 1 < b then B p else []) := by
  have e1 : itFrom a b = itFrom a c ++ itFrom c b := by
    unfold itFrom
    rw [show b - a = (c - a) + (b - c) by omega, ← List.range'_append_1, show a + (c - a) = c by omega]
  rw [e1, List.flatMap_append]
  congr 1
  · apply List.flatMap_congr
    intro p hp
    obtain ⟨k, hk, rfl⟩ := mem_itFrom.1 hp
    by_cases h : a + k + 1 < b
    · rw [if_pos h]
    · rw [if_neg h, show a + k = c - 1 by omega, hB]
  · unfold itFrom
    rw [halves_aux, show b - 1 - (c - 1) = b - c by omega, show c - 1 + 1 = c by omega, hB,
      show c + (b - c) = b by omega]
    simp

end GF.FineLayer3
