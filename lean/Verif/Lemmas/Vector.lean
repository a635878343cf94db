import Verif.Spec.Vector
import Verif.Lemmas.Base

namespace GF
namespace Vector
open Finset

variable {α : Type}

theorem new_spec {conn dofs : Ten Nat} {nelem nne nnode ndim : Nat} {c d : Nat → Nat → Nat}
    (hc : Is2 conn nelem nne c) (hd : Is2 dofs nnode ndim d)
    (hlt : ∀ e m, e < nelem → m < nne → c e m < nnode) :
    ∃ V, Vector.new conn dofs = .ok V ∧ V.nelem = nelem ∧ V.nne = nne ∧ V.nnode = nnode ∧
      V.ndim = ndim ∧ V.Holds c d ∧ (0 < nnode → 0 < ndim → ∃ m i, m < nnode ∧ i < ndim ∧
        V.ndof = d m i + 1) := by
  obtain ⟨k, h1, h2, h3⟩ := amax_is2 hd
  refine ⟨⟨conn, dofs, nelem, nne, nnode, ndim, k + 1⟩, ?_, rfl, rfl, rfl, rfl,
    ⟨hc, hd, hlt, fun m i hm hi => Nat.lt_succ_of_le (h2 m i hm hi)⟩, ?_⟩
  · simp [Vector.new, hc.1, hd.1, h1]
  · intro hn hi
    rcases h3 with h3 | ⟨m, i, hm, hi', h⟩
    · refine ⟨0, 0, hn, hi, ?_⟩
      have := h2 0 0 hn hi
      show k + 1 = d 0 0 + 1
      omega
    · exact ⟨m, i, hm, hi', by show k + 1 = _; rw [h]⟩

variable {V : Vector} {c d : Nat → Nat → Nat}

/-- scatter-assign on a zero-filled 1-d array over an arbitrary iteration order -/
theorem scatter1 {ι : Type} [Zero α] (l : List ι) (body : Ten α → ι → Res (Ten α)) (n : Nat)
    (pos : ι → Nat) (val : ι → α) (hin : ∀ i ∈ l, pos i < n)
    (hbody : ∀ i ∈ l, ∀ s : Ten α, body s i = s.set [pos i] (val i)) :
    ∃ t', forEach l body (Ten.full [n] 0) = .ok t' ∧ ∃ f : Nat → α, Is1 t' n f ∧
      ∀ k, k < n → ((∃ i ∈ l, pos i = k) → ∃ i ∈ l, pos i = k ∧ f k = val i) ∧
        ((∀ i ∈ l, pos i ≠ k) → f k = 0) := by
  obtain ⟨t', h1, h2, h3, h4⟩ := forEach_set l body (fun i => [pos i]) val (Ten.full [n] 0)
    (fun i hi => by simp [Ten.full, hin i hi]) (fun i hi s _ => hbody i hi s)
  have key : ∀ k, ∃ a, (k < n → t'.v [k] = some a) ∧
      (((∃ i ∈ l, pos i = k) → ∃ i ∈ l, pos i = k ∧ a = val i) ∧
        ((∀ i ∈ l, pos i ≠ k) → a = 0)) := by
    intro k
    by_cases hk : ∃ i ∈ l, pos i = k
    · obtain ⟨i, hi, h5, h6⟩ := h3 [k] (by obtain ⟨i, hi, h⟩ := hk; exact ⟨i, hi, by rw [h]⟩)
      refine ⟨val i, fun _ => h6, fun _ => ⟨i, hi, by simpa using h5, rfl⟩, fun h => ?_⟩
      obtain ⟨i, hi, h'⟩ := hk
      exact absurd h' (h i hi)
    · refine ⟨0, fun _ => ?_, fun h => absurd h hk, fun _ => rfl⟩
      rw [h4 [k] (fun i hi h => hk ⟨i, hi, by simpa using h⟩)]; rfl
  choose f hf using key
  exact ⟨t', h1, f, ⟨by rw [h2]; rfl, fun i hi => (hf i).1 hi⟩, fun k _ => (hf k).2⟩

/-- scatter-assign on a zero-filled 2-d array -/
theorem scatter2 {ι : Type} [Zero α] (l : List ι) (body : Ten α → ι → Res (Ten α)) (n m : Nat)
    (pos : ι → Nat × Nat) (val : ι → α) (hin : ∀ i ∈ l, (pos i).1 < n ∧ (pos i).2 < m)
    (hbody : ∀ i ∈ l, ∀ s : Ten α, body s i = s.set [(pos i).1, (pos i).2] (val i)) :
    ∃ t', forEach l body (Ten.full [n, m] 0) = .ok t' ∧ ∃ f : Nat → Nat → α, Is2 t' n m f ∧
      ∀ a b, a < n → b < m → ((∃ i ∈ l, pos i = (a, b)) → ∃ i ∈ l, pos i = (a, b) ∧ f a b = val i) ∧
        ((∀ i ∈ l, pos i ≠ (a, b)) → f a b = 0) := by
  obtain ⟨t', h1, h2, h3, h4⟩ := forEach_set l body (fun i => [(pos i).1, (pos i).2]) val
    (Ten.full [n, m] 0) (fun i hi => by simp [Ten.full, hin i hi]) (fun i hi s _ => hbody i hi s)
  have key : ∀ a b, ∃ x, (a < n → b < m → t'.v [a, b] = some x) ∧
      (((∃ i ∈ l, pos i = (a, b)) → ∃ i ∈ l, pos i = (a, b) ∧ x = val i) ∧
        ((∀ i ∈ l, pos i ≠ (a, b)) → x = 0)) := by
    intro a b
    by_cases hk : ∃ i ∈ l, pos i = (a, b)
    · obtain ⟨i, hi, h5, h6⟩ := h3 [a, b] (by obtain ⟨i, hi, h⟩ := hk; exact ⟨i, hi, by rw [h]⟩)
      refine ⟨val i, fun _ _ => h6, fun _ => ⟨i, hi, by simpa [Prod.ext_iff] using h5, rfl⟩, fun h => ?_⟩
      obtain ⟨i, hi, h'⟩ := hk
      exact absurd h' (h i hi)
    · refine ⟨0, fun _ _ => ?_, fun h => absurd h hk, fun _ => rfl⟩
      rw [h4 [a, b] (fun i hi h => hk ⟨i, hi, by simpa [Prod.ext_iff] using h⟩)]; rfl
  choose f hf using key
  exact ⟨t', h1, f, ⟨by rw [h2]; rfl, fun i j hi hj => (hf i j).1 hi hj⟩, fun a b _ _ => (hf a b).2⟩

/-- gather into a 2-d array: every cell is written by its own iteration -/
theorem gather2 (l : List (Nat × Nat)) (body : Ten α → Nat × Nat → Res (Ten α)) (n m : Nat)
    (ret : Ten α) (hret : ret.shape = [n, m])
    (val : Nat → Nat → α) (hl : ∀ p, p ∈ l ↔ p.1 < n ∧ p.2 < m)
    (hbody : ∀ a b, a < n → b < m → ∀ s : Ten α, body s (a, b) = s.set [a, b] (val a b)) :
    ∃ t', forEach l body ret = .ok t' ∧ Is2 t' n m val := by
  obtain ⟨t', h1, h2, h3, -⟩ := forEach_set l body (fun i => [i.1, i.2]) (fun i => val i.1 i.2)
    ret (fun i hi => by simp [hret, (hl i).1 hi])
    (fun i hi s _ => hbody i.1 i.2 ((hl i).1 hi).1 ((hl i).1 hi).2 s)
  refine ⟨t', h1, by rw [h2, hret], fun a b ha hb => ?_⟩
  obtain ⟨i, _, h5, h6⟩ := h3 [a, b] ⟨(a, b), (hl _).2 ⟨ha, hb⟩, rfl⟩
  simp only [List.cons.injEq, and_true] at h5
  rw [h6, h5.1, h5.2]

/-- gather into a 3-d array -/
theorem gather3 (l : List (Nat × Nat × Nat)) (body : Ten α → Nat × Nat × Nat → Res (Ten α))
    (n m k : Nat) (ret : Ten α) (hret : ret.shape = [n, m, k])
    (val : Nat → Nat → Nat → α) (hl : ∀ p, p ∈ l ↔ p.1 < n ∧ p.2.1 < m ∧ p.2.2 < k)
    (hbody : ∀ a b c, a < n → b < m → c < k → ∀ s : Ten α,
      body s (a, b, c) = s.set [a, b, c] (val a b c)) :
    ∃ t', forEach l body ret = .ok t' ∧ Is3 t' n m k val := by
  obtain ⟨t', h1, h2, h3, -⟩ := forEach_set l body (fun i => [i.1, i.2.1, i.2.2])
    (fun i => val i.1 i.2.1 i.2.2) ret (fun i hi => by simp [hret, (hl i).1 hi])
    (fun i hi s _ => hbody i.1 i.2.1 i.2.2 ((hl i).1 hi).1 ((hl i).1 hi).2.1 ((hl i).1 hi).2.2 s)
  refine ⟨t', h1, by rw [h2, hret], fun a b c ha hb hc => ?_⟩
  obtain ⟨i, _, h5, h6⟩ := h3 [a, b, c] ⟨(a, b, c), (hl _).2 ⟨ha, hb, hc⟩, rfl⟩
  simp only [List.cons.injEq, and_true] at h5
  rw [h6, h5.1, h5.2.1, h5.2.2]

/-- scatter-add on a zero-filled 1-d array -/
theorem scatterAdd1 {ι : Type} [AddCommMonoid α] (l : List ι) (body : Ten α → ι → Res (Ten α))
    (n : Nat) (pos : ι → Nat) (val : ι → α) (hin : ∀ i ∈ l, pos i < n)
    (hbody : ∀ i ∈ l, ∀ s : Ten α, body s i = s.addAt [pos i] (val i)) :
    ∃ t', forEach l body (Ten.full [n] 0) = .ok t' ∧
      Is1 t' n (fun k => (l.map fun i => if pos i = k then val i else 0).sum) := by
  obtain ⟨t', h1, h2, h3⟩ := forEach_add l body (fun i => [pos i]) val (Ten.full [n] 0)
    (fun _ => 0) (fun _ _ => rfl)
    (fun i hi => by simp [Ten.full, hin i hi]) (fun i hi s _ => hbody i hi s)
  refine ⟨t', h1, by rw [h2]; rfl, fun k hk => ?_⟩
  rw [h3 [k] (by simp [Ten.full, hk])]
  simp

theorem asNode_dofval_spec (hV : V.Holds c d) (σ : Sched) {u ret : Ten α} {f : Nat → α}
    (hret : ret.shape = [V.nnode, V.ndim]) (hu : Is1 u V.ndof f) :
    ∃ x, V.asNode_dofval σ u ret = .ok x ∧ Is2 x V.nnode V.ndim (fun m i => f (d m i)) := by
  apply gather2 _ _ _ _ _ hret _ (by simp)
  intro a b ha hb s
  simp [hV.dofs.get ha hb, hu.get (hV.dofs_lt a b ha hb)]

theorem asNode_elemvec_spec [Zero α] (hV : V.Holds c d) (σ : Sched) {x ret : Ten α}
    {g : Nat → Nat → Nat → α} (hret : ret.shape = [V.nnode, V.ndim])
    (hx : Is3 x V.nelem V.nne V.ndim g) :
    ∃ y, V.asNode_elemvec σ x ret = .ok y ∧ ∃ f : Nat → Nat → α, Is2 y V.nnode V.ndim f ∧
      ∀ n i, n < V.nnode → i < V.ndim →
        ((∃ e m, e < V.nelem ∧ m < V.nne ∧ c e m = n) →
          ∃ e m, e < V.nelem ∧ m < V.nne ∧ c e m = n ∧ f n i = g e m i) ∧
        ((∀ e m, e < V.nelem → m < V.nne → c e m ≠ n) → f n i = 0) := by
  obtain ⟨t', h1, f, h2, h3⟩ := scatter2 (σ.run (it3 V.nelem V.nne V.ndim)) (fun ret emi => do
    let n ← V.conn.get [emi.1, emi.2.1]
    let a ← x.get [emi.1, emi.2.1, emi.2.2]
    ret.set [n, emi.2.2] a) V.nnode V.ndim (fun p => (c p.1 p.2.1, p.2.2))
    (fun p => g p.1 p.2.1 p.2.2)
    (by
      rintro ⟨e, m, i⟩ hi
      simp only [mem_sched, mem_it3] at hi
      exact ⟨hV.conn_lt _ _ hi.1 hi.2.1, hi.2.2⟩)
    (by
      rintro ⟨e, m, i⟩ hi s
      simp only [mem_sched, mem_it3] at hi
      simp [hV.conn.get hi.1 hi.2.1, hx.get hi.1 hi.2.1 hi.2.2])
  refine ⟨t', by rw [asNode_elemvec, hret]; exact h1, f, h2, fun n i hn hi => ⟨?_, ?_⟩⟩
  · rintro ⟨e, m, he, hm, hc⟩
    obtain ⟨⟨e', m', i'⟩, h4, h5, h6⟩ := (h3 n i hn hi).1 ⟨(e, m, i), by simp [he, hm, hi], by simp [hc]⟩
    simp only [mem_sched, mem_it3, Prod.mk.injEq] at h4 h5
    exact ⟨e', m', h4.1, h4.2.1, h5.1, by rw [h6, h5.2]⟩
  · intro h
    apply (h3 n i hn hi).2
    rintro ⟨e', m', i'⟩ h4 h5
    simp only [mem_sched, mem_it3, Prod.mk.injEq] at h4 h5
    exact h e' m' h4.1 h4.2.1 h5.1

theorem asElement_dofval_spec (hV : V.Holds c d) (σ : Sched) {u ret : Ten α} {f : Nat → α}
    (hret : ret.shape = [V.nelem, V.nne, V.ndim]) (hu : Is1 u V.ndof f) :
    ∃ x, V.asElement_dofval σ u ret = .ok x ∧
      Is3 x V.nelem V.nne V.ndim (fun e m i => f (d (c e m) i)) := by
  apply gather3 _ _ _ _ _ _ hret _ (by simp)
  intro a b k ha hb hk s
  simp [hV.conn.get ha hb, hV.dofs.get (hV.conn_lt a b ha hb) hk,
    hu.get (hV.dofs_lt _ k (hV.conn_lt a b ha hb) hk)]

theorem asElement_nodevec_spec (hV : V.Holds c d) (σ : Sched) {x ret : Ten α} {g : Nat → Nat → α}
    (hret : ret.shape = [V.nelem, V.nne, V.ndim]) (hx : Is2 x V.nnode V.ndim g) :
    ∃ y, V.asElement_nodevec σ x ret = .ok y ∧
      Is3 y V.nelem V.nne V.ndim (fun e m i => g (c e m) i) := by
  apply gather3 _ _ _ _ _ _ hret _ (by simp)
  intro a b k ha hb hk s
  simp [hV.conn.get ha hb, hx.get (hV.conn_lt a b ha hb) hk]

theorem asDofs_nodevec_spec [Zero α] (hV : V.Holds c d) (σ : Sched) {x ret : Ten α}
    {g : Nat → Nat → α} (hret : ret.shape = [V.ndof]) (hx : Is2 x V.nnode V.ndim g) :
    ∃ y, V.asDofs_nodevec σ x ret = .ok y ∧ ∃ f : Nat → α, Is1 y V.ndof f ∧
      ∀ k, k < V.ndof →
        ((∃ m i, m < V.nnode ∧ i < V.ndim ∧ d m i = k) →
          ∃ m i, m < V.nnode ∧ i < V.ndim ∧ d m i = k ∧ f k = g m i) ∧
        ((∀ m i, m < V.nnode → i < V.ndim → d m i ≠ k) → f k = 0) := by
  obtain ⟨t', h1, f, h2, h3⟩ := scatter1 (σ.run (it2 V.nnode V.ndim)) (fun ret mi => do
    let d ← V.dofs.get [mi.1, mi.2]
    let a ← x.get [mi.1, mi.2]
    ret.set [d] a) V.ndof (fun p => d p.1 p.2) (fun p => g p.1 p.2)
    (by
      rintro ⟨m, i⟩ hi
      simp only [mem_sched, mem_it2] at hi
      exact hV.dofs_lt _ _ hi.1 hi.2)
    (by
      rintro ⟨m, i⟩ hi s
      simp only [mem_sched, mem_it2] at hi
      simp [hV.dofs.get hi.1 hi.2, hx.get hi.1 hi.2])
  refine ⟨t', by rw [asDofs_nodevec, hret]; exact h1, f, h2, fun k hk => ⟨?_, ?_⟩⟩
  · rintro ⟨m, i, hm, hi, hd⟩
    obtain ⟨⟨m', i'⟩, h4, h5, h6⟩ := (h3 k hk).1 ⟨(m, i), by simp [hm, hi], hd⟩
    simp only [mem_sched, mem_it2] at h4 h5
    exact ⟨m', i', h4.1, h4.2, h5, h6⟩
  · intro h
    apply (h3 k hk).2
    rintro ⟨m', i'⟩ h4 h5
    simp only [mem_sched, mem_it2] at h4 h5
    exact h m' i' h4.1 h4.2 h5

theorem asDofs_elemvec_spec [Zero α] (hV : V.Holds c d) (σ : Sched) {x ret : Ten α}
    {g : Nat → Nat → Nat → α} (hret : ret.shape = [V.ndof]) (hx : Is3 x V.nelem V.nne V.ndim g) :
    ∃ y, V.asDofs_elemvec σ x ret = .ok y ∧ ∃ f : Nat → α, Is1 y V.ndof f ∧
      ∀ k, k < V.ndof →
        ((∃ e m i, e < V.nelem ∧ m < V.nne ∧ i < V.ndim ∧ d (c e m) i = k) →
          ∃ e m i, e < V.nelem ∧ m < V.nne ∧ i < V.ndim ∧ d (c e m) i = k ∧ f k = g e m i) ∧
        ((∀ e m i, e < V.nelem → m < V.nne → i < V.ndim → d (c e m) i ≠ k) → f k = 0) := by
  obtain ⟨t', h1, f, h2, h3⟩ := scatter1 (σ.run (it3 V.nelem V.nne V.ndim)) (fun ret emi => do
    let n ← V.conn.get [emi.1, emi.2.1]
    let d ← V.dofs.get [n, emi.2.2]
    let a ← x.get [emi.1, emi.2.1, emi.2.2]
    ret.set [d] a) V.ndof (fun p => d (c p.1 p.2.1) p.2.2) (fun p => g p.1 p.2.1 p.2.2)
    (by
      rintro ⟨e, m, i⟩ hi
      simp only [mem_sched, mem_it3] at hi
      exact hV.dofs_lt _ _ (hV.conn_lt _ _ hi.1 hi.2.1) hi.2.2)
    (by
      rintro ⟨e, m, i⟩ hi s
      simp only [mem_sched, mem_it3] at hi
      simp [hV.conn.get hi.1 hi.2.1, hV.dofs.get (hV.conn_lt _ _ hi.1 hi.2.1) hi.2.2,
        hx.get hi.1 hi.2.1 hi.2.2])
  refine ⟨t', by rw [asDofs_elemvec, hret]; exact h1, f, h2, fun k hk => ⟨?_, ?_⟩⟩
  · rintro ⟨e, m, i, he, hm, hi, hd⟩
    obtain ⟨⟨e', m', i'⟩, h4, h5, h6⟩ := (h3 k hk).1 ⟨(e, m, i), by simp [he, hm, hi], hd⟩
    simp only [mem_sched, mem_it3] at h4 h5
    exact ⟨e', m', i', h4.1, h4.2.1, h4.2.2, h5, h6⟩
  · intro h
    apply (h3 k hk).2
    rintro ⟨e', m', i'⟩ h4 h5
    simp only [mem_sched, mem_it3] at h4 h5
    exact h e' m' i' h4.1 h4.2.1 h4.2.2 h5

theorem assembleDofs_nodevec_spec [AddCommMonoid α] (hV : V.Holds c d) {x ret : Ten α}
    {g : Nat → Nat → α} (hret : ret.shape = [V.ndof]) (hx : Is2 x V.nnode V.ndim g) :
    ∃ y, V.assembleDofs_nodevec x ret = .ok y ∧ Is1 y V.ndof (fun k =>
      ∑ m ∈ range V.nnode, ∑ i ∈ range V.ndim, if d m i = k then g m i else 0) := by
  obtain ⟨t', h1, h2⟩ := scatterAdd1 (it2 V.nnode V.ndim) (fun ret mi => do
    let d ← V.dofs.get [mi.1, mi.2]
    let a ← x.get [mi.1, mi.2]
    ret.addAt [d] a) V.ndof (fun p => d p.1 p.2) (fun p => g p.1 p.2)
    (by
      rintro ⟨m, i⟩ hi
      simp only [mem_it2] at hi
      exact hV.dofs_lt _ _ hi.1 hi.2)
    (by
      rintro ⟨m, i⟩ hi s
      simp only [mem_it2] at hi
      simp [hV.dofs.get hi.1 hi.2, hx.get hi.1 hi.2])
  refine ⟨t', by rw [assembleDofs_nodevec, hret]; exact h1, h2.congr fun k _ => ?_⟩
  rw [sum_it2]

theorem assembleDofs_elemvec_spec [AddCommMonoid α] (hV : V.Holds c d) {x ret : Ten α}
    {g : Nat → Nat → Nat → α} (hret : ret.shape = [V.ndof]) (hx : Is3 x V.nelem V.nne V.ndim g) :
    ∃ y, V.assembleDofs_elemvec x ret = .ok y ∧ Is1 y V.ndof (fun k =>
      ∑ e ∈ range V.nelem, ∑ m ∈ range V.nne, ∑ i ∈ range V.ndim,
        if d (c e m) i = k then g e m i else 0) := by
  obtain ⟨t', h1, h2⟩ := scatterAdd1 (it3 V.nelem V.nne V.ndim) (fun ret emi => do
    let n ← V.conn.get [emi.1, emi.2.1]
    let d ← V.dofs.get [n, emi.2.2]
    let a ← x.get [emi.1, emi.2.1, emi.2.2]
    ret.addAt [d] a) V.ndof (fun p => d (c p.1 p.2.1) p.2.2) (fun p => g p.1 p.2.1 p.2.2)
    (by
      rintro ⟨e, m, i⟩ hi
      simp only [mem_it3] at hi
      exact hV.dofs_lt _ _ (hV.conn_lt _ _ hi.1 hi.2.1) hi.2.2)
    (by
      rintro ⟨e, m, i⟩ hi s
      simp only [mem_it3] at hi
      simp [hV.conn.get hi.1 hi.2.1, hV.dofs.get (hV.conn_lt _ _ hi.1 hi.2.1) hi.2.2,
        hx.get hi.1 hi.2.1 hi.2.2])
  refine ⟨t', by rw [assembleDofs_elemvec, hret]; exact h1, h2.congr fun k _ => ?_⟩
  rw [sum_it3]

end Vector
end GF
