import Verif.Spec.Dynamics

/-! The loop of docs/examples/dynamics/Elastic-VelocityVerlet/main.cpp, beside that of Elastic-Verlet (Spec/Dynamics.lean). -/

namespace GF

/-- One increment of docs/examples/dynamics/Elastic-VelocityVerlet/main.cpp:108-156.

    v_n = v;  a_n = a;  u = u + dt * v + 0.5 * dt * dt * a;
    vector.asElement(u, ue); quad.symGradN_vector(ue, Eps); material.stress(Eps, Sig);
    quad.int_gradN_dot_tensor2_dV(Sig, fe); vector.assembleNode(fe, fint);
    v = v_n + dt * a_n;                  fres = fext - fint;  M.solve(fres, a);
    v = v_n + 0.5 * dt * (a_n + a);      fres = fext - fint;  M.solve(fres, a);
    v = v_n + 0.5 * dt * (a_n + a);      fres = fext - fint;  M.solve(fres, a);

The expressions `nu u v a` of the displacement, `pv v_n a_n` of the first estimate of the velocity and `nv v_n a_n a` of the next
estimates are arguments. -/
def Dynamics.stepVV {α : Type} [Zero α] [One α] [Add α] [Sub α] [Mul α] [Div α] [Neg α] [NatCast α] (D : Dynamics α) (nu : α → α → α → α)
    (pv : α → α → α) (nv : α → α → α → α) (material : List (Ten α) → Res (Ten α)) (fext : Ten α) (σ : Nat → Sched) (S : Motion α) : Res (Motion α) := do
  let v_n := S.v
  let a_n := S.a
  let u ← nodeExpr nu S.u S.v S.a
  let Eps ← D.strain (σ 0) (σ 1) u
  let Sig ← material (Eps :: S.strains)
  let fe ← Element.Quad4.Int_gradN_dot_tensor2_dV D.quad (σ 2) Sig
  let fint ← D.vector.AssembleNode (σ 3) fe
  let _v ← nodeExpr (fun v a _ => pv v a) v_n a_n a_n
  let fres ← nodeExpr (fun f g _ => f - g) fext fint fint
  let (M, a) ← S.M.solve_nodevec (fun i => σ (4 + i)) fres
  let _v ← nodeExpr nv v_n a_n a
  let fres ← nodeExpr (fun f g _ => f - g) fext fint fint
  let (M, a) ← M.solve_nodevec (fun i => σ (6 + i)) fres
  let v ← nodeExpr nv v_n a_n a
  let fres ← nodeExpr (fun f g _ => f - g) fext fint fint
  let (M, a) ← M.solve_nodevec (fun i => σ (8 + i)) fres
  return ⟨u, v, a, M, Eps :: S.strains⟩

/-- `n` increments; `σ k` are the schedules of increment `k` -/
def Dynamics.runVV {α : Type} [Zero α] [One α] [Add α] [Sub α] [Mul α] [Div α] [Neg α] [NatCast α] (D : Dynamics α) (nu : α → α → α → α)
    (pv : α → α → α) (nv : α → α → α → α) (material : List (Ten α) → Res (Ten α)) (fext : Ten α) (σ : Nat → Nat → Sched) : Nat → Motion α → Res (Motion α)
  | 0, S => .ok S
  | n + 1, S => do
    let S ← D.runVV nu pv nv material fext σ n S
    D.stepVV nu pv nv material fext (σ n) S

end GF
