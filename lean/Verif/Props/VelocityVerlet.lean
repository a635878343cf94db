import Verif.Spec.VelocityVerlet
import Verif.Props.Dynamics
import Verif.Props.Reproducible

/-! **C94**: the two programs of docs/examples/dynamics compute the same motion, bit for bit. -/

namespace GF
variable {α : Type}

/-- an iteration of a loop that succeeds, succeeds -/
theorem forEach_each {ι β : Type} {f : β → ι → Res β} : ∀ {l : List ι} {b b' : β}, forEach l f b = .ok b' → ∀ i ∈ l, ∃ s s', f s i = .ok s'
  | [], _, _, _, _, hi => by cases hi
  | j :: l, b, b', h, i, hi => by
    rw [forEach] at h
    obtain ⟨s, h1, h2⟩ := Res.bind_ok h
    rcases List.mem_cons.1 hi with rfl | hi
    · exact ⟨_, _, h1⟩
    · exact forEach_each h2 i hi

theorem get_some [Zero α] {t : Ten α} {ix : List Nat} {a : α} (h : t.get ix = .ok a) : t.v ix = some ((t.v ix).getD 0) := by
  rw [Ten.get] at h
  split at h
  · split at h
    · rename_i hh; rw [hh]; rfl
    · cases h
  · cases h

/-- the arguments of an expression that is evaluated can be read -/
theorem nodeExpr_args [Zero α] {f : α → α → α → α} {a b c t : Ten α} (h : nodeExpr f a b c = .ok t) :
    ∃ n m A B C, Is2 a n m A ∧ Is2 b n m B ∧ Is2 c n m C := by
  rw [nodeExpr] at h
  split at h
  · rename_i n m hs
    split at h
    · rename_i hbc
      have key : ∀ i j, i < n → j < m → a.v [i, j] = some ((a.v [i, j]).getD 0) ∧ b.v [i, j] = some ((b.v [i, j]).getD 0) ∧
          c.v [i, j] = some ((c.v [i, j]).getD 0) := by
        intro i j hi hj
        obtain ⟨s, s', h1⟩ := forEach_each h (i, j) (mem_it2.2 ⟨hi, hj⟩)
        obtain ⟨x, h2, h1⟩ := Res.bind_ok h1
        obtain ⟨y, h3, h1⟩ := Res.bind_ok h1
        obtain ⟨z, h4, h1⟩ := Res.bind_ok h1
        exact ⟨get_some h2, get_some h3, get_some h4⟩
      exact ⟨n, m, _, _, _, ⟨hs, fun i j hi hj => (key i j hi hj).1⟩, ⟨hbc.1, fun i j hi hj => (key i j hi hj).2.1⟩,
        ⟨hbc.2, fun i j hi hj => (key i j hi hj).2.2⟩⟩
    · cases h
  · cases h

/-- to solve again with the same right-hand side gives the same solution, and does not change the matrix -/
theorem C94_solve_again [Zero α] [One α] [Mul α] [Div α] {M M' : MatrixDiagonal α} {b x : Ten α} {σ : Nat → Sched}
    (h : M.solve_nodevec σ b = .ok (M', x)) (τ : Nat → Sched) : M'.solve_nodevec τ b = .ok (M', x) := by
  refine C88_diagonal_solve_nodevec σ τ _ ?_
  change M'.solve_nodevec σ b = _
  rw [MatrixDiagonal.solve_nodevec] at h ⊢
  obtain ⟨M1, h1, h2⟩ := Res.bind_ok h
  obtain ⟨y, h3, h4⟩ := Res.bind_ok h2
  obtain ⟨rfl, rfl⟩ : M1 = M' ∧ y = x := by injection h4 with h4; exact Prod.mk.inj h4
  have : M1.factorize (σ 0) = .ok M1 := by
    rw [MatrixDiagonal.factorize] at h1
    split at h1
    · injection h1 with h1
      subst h1
      rw [MatrixDiagonal.factorize, if_pos (by assumption)]
    · obtain ⟨r, -, h5⟩ := Res.bind_ok h1
      injection h5 with h5
      subst h5
      rfl
  rw [this]
  exact h2

variable [Zero α] [One α] [Add α] [Sub α] [Mul α] [Div α] [Neg α] [NatCast α]

/-- one increment -/
theorem C94_step (D : Dynamics α) (nu : α → α → α → α) (pv : α → α → α) (nv : α → α → α → α) (material : List (Ten α) → Res (Ten α)) (fext : Ten α)
    (σ τ : Nat → Sched) (S S' : Motion α) :
    D.stepVV nu pv nv material fext σ S = .ok S' ↔ D.stepWith nu nv material fext τ S = .ok S' := by
  constructor
  · intro h
    refine C88_step σ τ _ ?_
    rw [Dynamics.stepVV] at h
    obtain ⟨u, u1, h⟩ := Res.bind_ok h
    obtain ⟨ep, e1, h⟩ := Res.bind_ok h
    obtain ⟨sg, s1, h⟩ := Res.bind_ok h
    obtain ⟨fe, f1, h⟩ := Res.bind_ok h
    obtain ⟨fi, f2, h⟩ := Res.bind_ok h
    obtain ⟨v0, v1, h⟩ := Res.bind_ok h
    obtain ⟨fr, r1, h⟩ := Res.bind_ok h
    obtain ⟨⟨M, a⟩, m1, h⟩ := Res.bind_ok h
    dsimp only at h
    obtain ⟨v, v2, h⟩ := Res.bind_ok h
    rw [r1, Res.ok_bind, C94_solve_again m1, Res.ok_bind] at h
    dsimp only at h
    rw [v2, Res.ok_bind, Res.ok_bind, C94_solve_again m1, Res.ok_bind] at h
    simp only [Dynamics.stepWith, u1, e1, s1, f1, f2, r1, m1, v2, Res.ok_bind]
    exact h
  · intro h
    replace h := C88_step τ σ _ h
    dsimp only at h
    rw [Dynamics.stepWith] at h
    obtain ⟨u, u1, h⟩ := Res.bind_ok h
    obtain ⟨ep, e1, h⟩ := Res.bind_ok h
    obtain ⟨sg, s1, h⟩ := Res.bind_ok h
    obtain ⟨fe, f1, h⟩ := Res.bind_ok h
    obtain ⟨fi, f2, h⟩ := Res.bind_ok h
    obtain ⟨fr, r1, h⟩ := Res.bind_ok h
    obtain ⟨⟨M, a⟩, m1, h⟩ := Res.bind_ok h
    dsimp only at h
    obtain ⟨v, v2, h⟩ := Res.bind_ok h
    obtain ⟨n, m, A, B, C, -, hv, ha⟩ := nodeExpr_args u1
    obtain ⟨v0, v1, -⟩ := nodeExpr_ok (fun v a _ => pv v a) hv ha ha
    simp only [Dynamics.stepVV, u1, e1, s1, f1, f2, v1, r1, m1, v2, C94_solve_again m1, Res.ok_bind]
    exact h

/-- **C94** (`Elastic-VelocityVerlet` is `Elastic-Verlet`) for any mesh, material (which may depend on the history), load, time step, initial motion,
schedules and number of increments, and for any arithmetic, also one that rounds: the program of `Elastic-VelocityVerlet` completes if and only if that of
`Elastic-Verlet` does, and it ends with the same displacement, velocity, acceleration, mass matrix and strains, bit for bit: the two extra solves and
estimates of the velocity have no effect -/
theorem C94_run (D : Dynamics α) (nu : α → α → α → α) (pv : α → α → α) (nv : α → α → α → α) (material : List (Ten α) → Res (Ten α)) (fext : Ten α)
    (σ τ : Nat → Nat → Sched) (n : Nat) (S S' : Motion α) :
    D.runVV nu pv nv material fext σ n S = .ok S' ↔ D.runWith nu nv material fext τ n S = .ok S' := by
  induction n generalizing S' with
  | zero => rfl
  | succ n ih =>
    rw [Dynamics.runVV, Dynamics.runWith]
    constructor
    · intro h
      obtain ⟨T, h1, h2⟩ := Res.bind_ok h
      rw [(ih T).1 h1, Res.ok_bind]
      exact (C94_step ..).1 h2
    · intro h
      obtain ⟨T, h1, h2⟩ := Res.bind_ok h
      rw [(ih T).2 h1, Res.ok_bind]
      exact (C94_step ..).2 h2

section
variable {β : Type} [Field β]

/-- `Dynamics.run` is `Dynamics.runWith` with the expressions of velocity Verlet -/
theorem run_runWith (D : Dynamics β) (dt : β) (material : List (Ten β) → Res (Ten β)) (fext : Ten β) (σ : Nat → Nat → Sched) (n : Nat) (S : Motion β) :
    D.run dt material fext σ n S = D.runWith (fun u v a => u + dt * v + 1 / 2 * dt ^ 2 * a) (fun v a a' => v + 1 / 2 * dt * (a + a')) material fext σ n S := by
  induction n with
  | zero => rfl
  | succ n ih => rw [Dynamics.run, Dynamics.runWith, ih]; rfl

/-- **C94** (the complete program) on any mesh of a rectangle, with any material that always responds (also if its stress depends on the history), any
load and any number of increments, `Elastic-VelocityVerlet` completes, and so does `Elastic-Verlet`, with the same motion -/
theorem C94_programs [LinearOrder β] [IsStrictOrderedRing β] {nn ne : Nat} {c d : Nat → Nat → Nat} {x : Nat → Nat → β} {Lx Ly : β} {O : Outline}
    (hM : RectMesh nn ne c x Lx Ly O) (lx : 0 < Lx) (ly : 0 < Ly) {s : β} (s1 : -1 ≤ s) (s2 : s ≤ 1) (σ σ' : Nat → Sched)
    (υ υ' : Nat → Nat → Sched) {conn dofs : Ten Nat} {coor rho : Ten β} (hc : Is2 conn ne 4 c) (hx : Is2 coor nn 2 x) (hd : Is2 dofs nn 2 d)
    {R : Nat → Nat → β} (hr : Is2 rho ne 4 R) (hR : ∀ e q, e < ne → q < 4 → 0 < R e q) (dt : β) {material : List (Ten β) → Res (Ten β)}
    (hm : Responds ne material) {u v a fext : Ten β} {U : Nat → Nat → β} {V A B : Nat → β} (hu : Is2 u nn 2 U) (hv : Is2 v nn 2 fun m i => V (d m i))
    (ha : Is2 a nn 2 fun m i => A (d m i)) (hf : Is2 fext nn 2 fun m i => B (d m i)) (n : Nat) :
    ∃ D M S, Dynamics.new s σ conn dofs coor rho = .ok (D, M) ∧ Dynamics.new s σ' conn dofs coor rho = .ok (D, M) ∧
      D.run dt material fext υ n ⟨u, v, a, M, []⟩ = .ok S ∧
      D.runVV (fun u v a => u + dt * v + 1 / 2 * dt ^ 2 * a) (fun v a => v + dt * a) (fun v a a' => v + 1 / 2 * dt * (a + a')) material fext υ' n
        ⟨u, v, a, M, []⟩ = .ok S := by
  obtain ⟨t, h, -⟩ := C84_momentum hM lx ly s1 s2 σ υ hc hx hd hr hR dt hm hu hv ha hf n
  obtain ⟨⟨D, M⟩, h1, h2⟩ := Res.bind_ok h
  dsimp only at h2
  obtain ⟨S, h3, -⟩ := Res.bind_ok h2
  refine ⟨D, M, S, h1, C88_startup σ σ' _ h1, h3, ?_⟩
  rw [run_runWith] at h3
  exact (C94_run ..).2 h3

/-- **C94** (Quad4 `Regular`) the two programs on the mesh of the examples, with periodic DOFs, from any initial displacement, at rest -/
theorem C94_quad4_regular [LinearOrder β] [IsStrictOrderedRing β] {nelx nely : Nat} (hx : 0 < nelx) (hy : 0 < nely) {h : β} (hh : 0 < h) {s : β} (s1 : -1 ≤ s)
    (s2 : s ≤ 1) (σ σ' : Nat → Sched) (υ υ' : Nat → Nat → Sched) {rho u v fext : Ten β} {R : Nat → Nat → β} (hr : Is2 rho (nelx * nely) 4 R)
    (hR : ∀ e q, e < nelx * nely → q < 4 → 0 < R e q) (dt : β) {material : List (Ten β) → Res (Ten β)} (hm : Responds (nelx * nely) material)
    {U : Nat → Nat → β} (hu : Is2 u ((nelx + 1) * (nely + 1)) 2 U) (hv : Is2 v ((nelx + 1) * (nely + 1)) 2 fun _ _ => 0)
    (hf : Is2 fext ((nelx + 1) * (nely + 1)) 2 fun _ _ => 0) (n : Nat) :
    let M := Quad4.Regular.new nelx nely h
    ∃ conn coor dofs D M' S, Quad4.Regular.conn M = .ok conn ∧ M.coor = .ok coor ∧ Quad4.Regular.dofsPeriodic M = .ok dofs ∧
      Dynamics.new s σ conn dofs coor rho = .ok (D, M') ∧ Dynamics.new s σ' conn dofs coor rho = .ok (D, M') ∧
      D.run dt material fext υ n ⟨u, v, v, M', []⟩ = .ok S ∧
      D.runVV (fun u v a => u + dt * v + 1 / 2 * dt ^ 2 * a) (fun v a => v + dt * a) (fun v a a' => v + 1 / 2 * dt * (a + a')) material fext υ' n
        ⟨u, v, v, M', []⟩ = .ok S := by
  intro M
  obtain ⟨c, x, O, hA, hM⟩ := C73_quad4_regular nelx nely hh
  obtain ⟨cn, a1, a2⟩ := hA.conn
  obtain ⟨xt, b1, b2⟩ := hA.coor
  obtain ⟨xt', x'', dt', d, q1, q2, q3, q4, q5, q6⟩ := C33_quad4_dofsPeriodic nelx nely hx hy hh
  have lx : 0 < h * (nelx : β) := mul_pos hh (by exact_mod_cast hx)
  have ly : 0 < h * (nely : β) := mul_pos hh (by exact_mod_cast hy)
  obtain ⟨D, M', S, h1, h2, h3, h4⟩ := C94_programs (V := fun _ => 0) (A := fun _ => 0) (B := fun _ => 0) hM lx ly s1 s2 σ σ' υ υ' a2 b2 q4 hr hR dt hm
    hu hv hv hf n
  exact ⟨cn, xt, dt', D, M', S, a1, b1, q3, h1, h2, h3, h4⟩

/-- the hypotheses can be met: a 3 x 2 mesh with a material whose stress grows with the number of increments -/
example : ∃ material : List (Ten ℚ) → Res (Ten ℚ), Responds (3 * 2) material ∧ material [] ≠ material [Ten.full [] 0] ∧
    ∃ rho u v : Ten ℚ, ∃ conn coor dofs D M' S, Quad4.Regular.conn (Quad4.Regular.new 3 2 (1 : ℚ)) = .ok conn ∧
      (Quad4.Regular.new 3 2 (1 : ℚ)).coor = .ok coor ∧ Quad4.Regular.dofsPeriodic (Quad4.Regular.new 3 2 (1 : ℚ)) = .ok dofs ∧
      Dynamics.new (1 / 2) (fun _ => Sched.seq) conn dofs coor rho = .ok (D, M') ∧ Dynamics.new (1 / 2) (fun _ => Sched.rev) conn dofs coor rho = .ok (D, M') ∧
      D.run (1 / 10) material v (fun _ _ => Sched.seq) 100 ⟨u, v, v, M', []⟩ = .ok S ∧
      D.runVV (fun u v a => u + 1 / 10 * v + 1 / 2 * (1 / 10) ^ 2 * a) (fun v a => v + 1 / 10 * a) (fun v a a' => v + 1 / 2 * (1 / 10) * (a + a')) material v
        (fun _ _ => Sched.rev) 100 ⟨u, v, v, M', []⟩ = .ok S := by
  refine ⟨fun l => .ok (Ten.of [3 * 2, 4, 2, 2] fun _ => (l.length : ℚ)), fun l _ _ => ⟨_, rfl, fun _ _ _ _ => (l.length : ℚ), rfl, fun _ _ _ _ _ _ _ _ => rfl⟩, ?_,
    Ten.of [3 * 2, 4] fun _ => 1, Ten.of [(3 + 1) * (2 + 1), 2] fun _ => 5, Ten.of [(3 + 1) * (2 + 1), 2] fun _ => 0, ?_⟩
  · intro h
    injection h with h
    have := congrArg (fun t : Ten ℚ => t.v [0, 0, 0, 0]) h
    simp [Ten.of] at this
  · exact C94_quad4_regular (nelx := 3) (nely := 2) (by omega) (by omega) (by norm_num) (by norm_num) (by norm_num) _ _ _ _ (is2_of _ _ fun _ => 1)
      (fun _ _ _ _ => by norm_num) _ (fun l _ _ => ⟨_, rfl, fun _ _ _ _ => (l.length : ℚ), rfl, fun _ _ _ _ _ _ _ _ => rfl⟩)
      (is2_of _ _ fun _ => 5) (is2_of _ _ fun _ => 0) (is2_of _ _ fun _ => 0) 100

end
end GF
