import Verif.Spec.VectorPartitionedTyings
import Verif.Lemmas.MatrixPartitioned

/-! C27: `VectorPartitionedTyings`. -/

namespace GF
open Finset
variable {α : Type}

theorem windowLoop_spec {V : Vector} {c d : Nat → Nat → Nat} (hV : V.Holds c d) (σ : Sched)
    (keep : Nat → Bool) (lo w : Nat) (hk : ∀ k, k < V.ndof → (keep k = true ↔ lo ≤ k ∧ k < lo + w))
    {x ret : Ten α} {g : Nat → Nat → α} {f : Nat → α} (hx : Is2 x V.nnode V.ndim g)
    (hg : ∀ m i, m < V.nnode → i < V.ndim → keep (d m i) = true → g m i = f (d m i))
    (hret : ret.shape = [w]) :
    ∃ y, windowLoop V σ keep lo x ret = .ok y ∧ y.shape = [w] ∧
      ∀ a, a < w → (∃ m i, m < V.nnode ∧ i < V.ndim ∧ d m i = lo + a) → y.v [a] = some (f (lo + a)) := by
  rw [windowLoop, forEach_filter _ (fun mi => keep (d mi.1 mi.2)) _
    (fun ret mi => do
      let k ← V.dofs.get [mi.1, mi.2]
      let a ← x.get [mi.1, mi.2]
      ret.set [k - lo] a)]
  · obtain ⟨y, h1, h2, h3, -⟩ := forEach_set
      ((σ.run (it2 V.nnode V.ndim)).filter (fun mi => keep (d mi.1 mi.2)))
      (fun (ret : Ten α) mi => do
      let k ← V.dofs.get [mi.1, mi.2]
      let a ← x.get [mi.1, mi.2]
      ret.set [k - lo] a) (fun mi => [d mi.1 mi.2 - lo]) (fun mi => f (d mi.1 mi.2)) ret
      (by
        rintro ⟨m, i⟩ hmi
        simp only [List.mem_filter, mem_sched, mem_it2] at hmi
        obtain ⟨⟨hm, hi⟩, hkk⟩ := hmi
        have := (hk _ (hV.dofs_lt m i hm hi)).1 hkk
        simp [hret]; omega)
      (by
        rintro ⟨m, i⟩ hmi s _
        simp only [List.mem_filter, mem_sched, mem_it2] at hmi
        obtain ⟨⟨hm, hi⟩, hkk⟩ := hmi
        simp [hV.dofs.get hm hi, hx.get hm hi, hg m i hm hi hkk])
    refine ⟨y, h1, by rw [h2, hret], ?_⟩
    rintro a ha ⟨m, i, hm, hi, e⟩
    have hkk : keep (d m i) = true := (hk _ (hV.dofs_lt m i hm hi)).2 (by omega)
    obtain ⟨⟨m', i'⟩, h4, h5, h6⟩ := h3 [a] ⟨(m, i), by simp [hm, hi, hkk], by simp [e]⟩
    simp only [List.mem_filter, mem_sched, mem_it2] at h4
    obtain ⟨⟨hm', hi'⟩, hkk'⟩ := h4
    have := (hk _ (hV.dofs_lt m' i' hm' hi')).1 hkk'
    simp only [List.cons.injEq, and_true] at h5
    rw [h6]
    have : d m' i' = lo + a := by omega
    rw [this]
  · rintro ⟨m, i⟩ hmi s
    simp only [mem_sched, mem_it2] at hmi
    simp only [hV.dofs.get hmi.1 hmi.2, Res.ok_bind]

namespace VectorPartitionedTyings
variable {P : VectorPartitionedTyings α} {c d : Nat → Nat → Nat} {C : Nat → Nat → α}

/-- **C27** The constructor establishes the state, given renumbered DOFs that use every number below
`nni + nnd` (as those of `Tyings::Periodic`, see `C25_constructor`). -/
theorem C27_constructor {conn dofs : Ten Nat} {nelem nne nnode ndim : Nat}
    (hc : Is2 conn nelem nne c) (hd : Is2 dofs nnode ndim d)
    (hlt : ∀ e m, e < nelem → m < nne → c e m < nnode) (hpos : 0 < nnode ∧ 0 < ndim)
    {Cdu Cdp Cdi : Mat α} (h1 : Cdi.nr = Cdp.nr) (h2 : Cdi.nc = Cdu.nc + Cdp.nc)
    (hr : ∀ m i, m < nnode → i < ndim → d m i < Cdi.nc + Cdi.nr)
    (hs : ∀ k, k < Cdi.nc + Cdi.nr → ∃ m i, m < nnode ∧ i < ndim ∧ d m i = k) :
    ∃ P, VectorPartitionedTyings.new conn dofs Cdu Cdp Cdi = .ok P ∧ P.Holds c d Cdi.e ∧
      P.nnu = Cdu.nc ∧ P.nnp = Cdp.nc ∧ P.nnd = Cdp.nr ∧ Vector.new conn dofs = .ok P.V := by
  obtain ⟨V, v1, v2, v3, v4, v5, v6, v7⟩ := Vector.new_spec hc hd hlt
  obtain ⟨m, i, hm, hi, e⟩ := v7 hpos.1 hpos.2
  have hn : V.ndof = Cdi.nc + Cdi.nr := by
    have := hr m i hm hi
    obtain ⟨m', i', hm', hi', e'⟩ := hs (Cdi.nc + Cdi.nr - 1) (by omega)
    have := v6.dofs_lt m' i' (by rw [v4]; exact hm') (by rw [v5]; exact hi')
    omega
  refine ⟨_, by rw [VectorPartitionedTyings.new, v1]; rfl, ⟨v6, rfl, rfl, rfl, rfl, rfl, ?_, ?_,
    ⟨h2, h1⟩, fun _ _ _ _ => rfl⟩, rfl, rfl, rfl, v1⟩
  · dsimp only; omega
  · intro k hk
    dsimp only at hk ⊢
    rw [v4, v5]
    exact hs k (by omega)

/-- **C27** `Copy_p` copies exactly the prescribed DOFs, for every schedule. -/
theorem C27_copy_p (hP : P.Holds c d C) (σ : Sched) {src dest : Ten α} {n n' : Nat} {f g : Nat → α}
    (hs : Is1 src n f) (hd : Is1 dest n' g) (hn : P.nni ≤ n) (hn' : P.nni ≤ n') :
    ∃ y, P.copy_p σ src dest = .ok y ∧ Is1 y n' (fun k => if k ∈ P.iip then f k else g k) := by
  have hni := hP.nni
  obtain ⟨y, h1, h2, h3, h4⟩ := forEach_set
    (σ.run ((List.range (P.nni - P.nnu)).map (P.nnu + ·))) (fun (ret : Ten α) i => do
    let a ← src.get [i]
    ret.set [i] a) (fun i => [i]) f dest
    (by
      intro i hi
      simp only [mem_sched, List.mem_map, List.mem_range] at hi
      obtain ⟨a, ha, rfl⟩ := hi
      simp [hd.1]; omega)
    (by
      intro i hi s _
      simp only [mem_sched, List.mem_map, List.mem_range] at hi
      obtain ⟨a, ha, rfl⟩ := hi
      rw [hs.get (by omega)]; rfl)
  refine ⟨y, h1, by rw [h2, hd.1], fun k hk => ?_⟩
  dsimp only
  split
  · rename_i hkp
    rw [hP.iip, List.mem_map] at hkp
    obtain ⟨a, ha, rfl⟩ := hkp
    simp only [List.mem_range] at ha
    obtain ⟨i, _, h5, h6⟩ := h3 [P.nnu + a] ⟨P.nnu + a, by
      simp only [mem_sched, List.mem_map, List.mem_range]; exact ⟨a, by omega, rfl⟩, rfl⟩
    simp only [List.cons.injEq, and_true] at h5
    rw [h6, h5]
  · rename_i hkp
    rw [h4, hd.2 k hk]
    intro i hi h
    simp only [mem_sched, List.mem_map, List.mem_range] at hi
    simp only [List.cons.injEq, and_true] at h
    apply hkp
    rw [hP.iip, List.mem_map]
    obtain ⟨a, ha, rfl⟩ := hi
    exact ⟨a, by simp; omega, h⟩

/-- **C27** without tyings: `asDofs_i(x, ret, false)` is the independent part of the DOF values. -/
theorem C27_asDofs_i_plain [NonUnitalNonAssocSemiring α] (hP : P.Holds c d C) (σ : Nat → Sched)
    {x ret : Ten α} {g : Nat → Nat → α} {f : Nat → α} (hx : Is2 x P.V.nnode P.V.ndim g)
    (hg : ∀ m i, m < P.V.nnode → i < P.V.ndim → g m i = f (d m i)) (hret : ret.shape = [P.nni]) :
    ∃ y, P.asDofs_i σ x ret false = .ok y ∧ Is1 y P.nni f := by
  obtain ⟨y, h1, h2, h3⟩ := windowLoop_spec hP.base (σ 0) (fun k => decide (k < P.nni)) 0 P.nni
    (by intro k _; simp) hx (fun m i hm hi _ => hg m i hm hi) (ret := Ten.full ret.shape 0)
    (by simp [Ten.full, hret])
  refine ⟨y, by simp [asDofs_i, h1], h2, fun a ha => ?_⟩
  obtain ⟨m, i, hm, hi, e⟩ := hP.surj a (by have := hP.ndof; omega)
  have := h3 a ha ⟨m, i, hm, hi, by omega⟩
  simpa using this

/-- **C27** `AsDofs_i(x)` = independent part + transposed tying matrix times the dependent part. -/
theorem C27_AsDofs_i [CommSemiring α] (hP : P.Holds c d C) (σ : Nat → Sched)
    {x : Ten α} {g : Nat → Nat → α} {f : Nat → α} (hx : Is2 x P.V.nnode P.V.ndim g)
    (hg : ∀ m i, m < P.V.nnode → i < P.V.ndim → g m i = f (d m i)) :
    ∃ y, P.AsDofs_i σ x = .ok y ∧
      Is1 y P.nni (fun k => f k + ∑ r ∈ range P.nnd, C r k * f (P.nni + r)) := by
  have hnd := hP.ndof
  obtain ⟨y, h1, h2, h3⟩ := windowLoop_spec hP.base (σ 0) (fun k => decide (k < P.nni)) 0 P.nni
    (by intro k _; simp) hx (fun m i hm hi _ => hg m i hm hi) (ret := Ten.full [P.nni] 0) rfl
  obtain ⟨z, z1, z2, z3⟩ := windowLoop_spec hP.base (σ 1) (fun k => decide (P.nni ≤ k)) P.nni P.nnd
    (by intro k _; simp; omega) hx (fun m i hm hi _ => hg m i hm hi) (ret := Ten.empty [P.nnd]) rfl
  have hy : Is1 y P.nni f := ⟨h2, fun a ha => by
    obtain ⟨m, i, hm, hi, e⟩ := hP.surj a (by omega)
    have := h3 a ha ⟨m, i, hm, hi, by omega⟩
    simpa using this⟩
  have hz : Is1 z P.nnd (fun r => f (P.nni + r)) := ⟨z2, fun a ha => by
    obtain ⟨m, i, hm, hi, e⟩ := hP.surj (P.nni + a) (by omega)
    exact z3 a ha ⟨m, i, hm, hi, e⟩⟩
  obtain ⟨w, w1, w2⟩ := P.Cid.mulVec_spec (x := z) (f := fun r => f (P.nni + r)) (by
    rw [hP.dim.2]; exact hz)
  rw [hP.dim.1] at w2
  obtain ⟨v, v1, v2, v3⟩ := forEach_add ((σ 2).run (it1 P.nni)) (fun (ret : Ten α) i => do
    let a ← w.get [i]
    ret.addAt [i] a) (fun i => [i]) (fun k => ∑ r ∈ range P.Cid.nc, P.Cid.e k r * f (P.nni + r)) y
    (fun ix => f (ix.getD 0 0))
    (by
      intro ix hix
      rw [hy.1] at hix
      obtain ⟨i, rfl, hi⟩ := inb1.1 hix
      exact hy.2 i hi)
    (by intro i hi; simp only [mem_sched, mem_it1] at hi; simp [hy.1, hi])
    (by
      intro i hi s _
      simp only [mem_sched, mem_it1] at hi
      rw [w2.get hi]; rfl)
  refine ⟨v, ?_, by rw [v2, hy.1], fun k hk => ?_⟩
  · rw [AsDofs_i, asDofs_i]
    show (windowLoop P.V (σ 0) (fun k => decide (k < P.nni)) 0 x (Ten.full [P.nni] 0) >>= _) = _
    rw [h1]
    simp only [Res.ok_bind, if_true]
    rw [asDofs_d, z1]
    simp only [Res.ok_bind, w1]
    exact v1
  · rw [v3 [k] (by simp [hy.1, hk])]
    congr 1
    simp only [List.getD_cons_zero, List.cons.injEq, and_true]
    congr 1
    rw [((σ 2).perm (it1 P.nni)).map _ |>.sum_eq, sum_it1, Finset.sum_eq_single k]
    · simp only [if_true, hP.dim.2]
      refine Finset.sum_congr rfl fun r hr => ?_
      rw [hP.Cid k r hk (mem_range.1 hr)]
    · intro b _ hb; simp [hb]
    · intro h; exact absurd (mem_range.2 hk) h

/-- **C27** Virtual work: for DOF values `v` that satisfy the tyings, the work of the reduced forces
on the independent values equals the work of all forces on all values. -/
theorem C27_virtual_work [CommSemiring α] (hP : P.Holds c d C) (σ : Nat → Sched)
    {x : Ten α} {g : Nat → Nat → α} {f v : Nat → α} (hx : Is2 x P.V.nnode P.V.ndim g)
    (hg : ∀ m i, m < P.V.nnode → i < P.V.ndim → g m i = f (d m i))
    (hv : ∀ r, r < P.nnd → v (P.nni + r) = ∑ k ∈ range P.nni, C r k * v k) :
    ∃ y fi, P.AsDofs_i σ x = .ok y ∧ Is1 y P.nni fi ∧
      ∑ k ∈ range P.nni, fi k * v k = ∑ k ∈ range P.V.ndof, f k * v k := by
  obtain ⟨y, h1, h2⟩ := C27_AsDofs_i hP σ hx hg
  refine ⟨y, _, h1, h2, ?_⟩
  rw [hP.ndof, Finset.sum_range_add]
  simp only [add_mul, Finset.sum_add_distrib]
  congr 1
  simp only [Finset.sum_mul]
  rw [Finset.sum_comm]
  refine Finset.sum_congr rfl fun r hr => ?_
  rw [hv r (mem_range.1 hr), Finset.mul_sum]
  refine Finset.sum_congr rfl fun k _ => ?_
  ring

/-- the hypotheses are met by a bar of two elements whose last node is tied to the first -/
example : ∃ P : VectorPartitionedTyings Int, P.Holds (fun e m => e + m) (fun m _ => m)
    (fun _ k => if k = 0 then 1 else 0) ∧ P.nnu = 1 ∧ P.nnp = 1 ∧ P.nnd = 1 := by
  obtain ⟨P, -, h2, h3, h4, h5, -⟩ := C27_constructor (α := Int) (c := fun e m => e + m)
    (d := fun m _ => m) (conn := lit2 2 [[0, 1], [1, 2]])
    (dofs := lit2 1 [[0], [1], [2]]) (nelem := 2) (nne := 2) (nnode := 3) (ndim := 1)
    ⟨rfl, ball2 (by decide)⟩ ⟨rfl, ball2 (by decide)⟩ (by intros; omega) (by decide)
    (Cdu := ⟨1, 1, fun _ _ => 1⟩) (Cdp := ⟨1, 1, fun _ _ => 0⟩)
    (Cdi := ⟨1, 2, fun _ k => if k = 0 then 1 else 0⟩) rfl rfl (by intro m i hm _; exact hm)
    (by intro k hk; exact ⟨k, 0, hk, by decide, rfl⟩)
  exact ⟨P, h2, h3, h4, h5⟩

end VectorPartitionedTyings
end GF
