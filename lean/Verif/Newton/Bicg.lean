/-
The Newton step by the method of biconjugate gradients, stabilised
(src/atm/JacobianFreeNewtonKrylov.cpp), over the real numbers.
-/
import Mathlib.Data.Real.Basic
import Mathlib.Algebra.BigOperators.Fin
import Mathlib.LinearAlgebra.Matrix.DotProduct

namespace Verif.Newton

/-- What a call does.  `undefined`: a variable never assigned is read, an array is left, or a quotient by zero (an
infinity or not a number in the code) enters the result. -/
inductive Out (α : Type) where
  | ret (a : α)
  | thrown
  | undefined

/-- The initialised object: `iter` iterations per restart, perturbation `eps`, the function to evaluate; the number of
equations is `n` (InitializeJFNK, JacobianFreeNewtonKrylov.cpp:41-89; Evaluate, JacobianFreeNewtonKrylov.h:155-158,
simplified: a function of the state alone). -/
structure Solver (n : Nat) where
  iter : Nat
  eps : ℝ
  eval : (Fin n → ℝ) → Fin n → ℝ

/-- LAPACK::DDOT of vectors of the same length (src/base/LinearAlgebra.h:261-281). -/
def dot {n : Nat} (x y : Fin n → ℝ) : ℝ := ∑ j, x j * y j

/-- LAPACK::DAXPY (src/base/LinearAlgebra.h:218-235). -/
def axpy {n : Nat} (a : ℝ) (x y : Fin n → ℝ) : Fin n → ℝ := fun j => a * x j + y j

/-- The derivative in a direction by a difference (JacobianFreeNewtonKrylov.cpp:396-402 and 411-416). -/
noncomputable def Solver.along {n : Nat} (S : Solver n) (x w : Fin n → ℝ) : Fin n → ℝ :=
  fun j => (S.eval (axpy S.eps w x) j - S.eval x j) / S.eps

/-- The variables of the iteration: `g` m_dG, `r` m_dR, `p` m_dW, `v` m_dY (JacobianFreeNewtonKrylov.cpp:354-375). -/
structure Bicg (n : Nat) where
  g : Fin n → ℝ
  r : Fin n → ℝ
  p : Fin n → ℝ
  v : Fin n → ℝ
  rhoOld : ℝ
  alpha : ℝ
  omega : ℝ
  first : Bool

/-- Before the first iteration (JacobianFreeNewtonKrylov.cpp:354-375); `p` and `v` are assigned before use. -/
def Bicg.start {n : Nat} (S : Solver n) (x : Fin n → ℝ) : Bicg n where
  g := fun _ => 0
  r := S.eval x
  p := fun _ => 0
  v := fun _ => 0
  rhoOld := 1
  alpha := 1
  omega := 1
  first := true

/-- One iteration and its error (JacobianFreeNewtonKrylov.cpp:378-434).  The vectors m_dS and m_dT have `iter` elements
until m_dS is copied to, so LAPACK::DDOT of both refuses unless `iter = n` (LinearAlgebra.h:270-272). -/
noncomputable def Bicg.next {n : Nat} (S : Solver n) (x : Fin n → ℝ) (B : Bicg n) : Out (Bicg n × ℝ) :=
  open Classical in
  let fx := S.eval x
  let rho := dot fx B.r
  let beta := (rho / B.rhoOld) * (B.alpha / B.omega)
  let p := if B.first then B.r else axpy 1 B.r (fun j => beta * axpy (-B.omega) B.v B.p j)
  let v := S.along x p
  let alpha := rho / dot fx v
  let s := axpy (-alpha) v B.r
  let t := S.along x s
  let normT := dot t t
  let omega := if normT = 0 then 0 else dot t s / normT
  let g := axpy omega s (axpy alpha p B.g)
  let r := axpy (-omega) t s
  if S.iter ≠ n then .thrown
  else if B.first = false ∧ (B.rhoOld = 0 ∨ B.omega = 0) ∨ S.eps = 0 ∨ dot fx v = 0 then .undefined
  else .ret (⟨g, r, p, v, rho, alpha, omega, false⟩, dot r r)

/-- The loop from an iteration to the last, at least one (JacobianFreeNewtonKrylov.cpp:378-443): `k` more are allowed
after this one. -/
noncomputable def Bicg.loop {n : Nat} (S : Solver n) (x : Fin n → ℝ) (tol : ℝ) : Nat → Bicg n → Out (Bicg n × ℝ)
  | k, B =>
    open Classical in
    match B.next S x with
    | .ret (C, e) =>
      match k with
      | 0 => .ret (C, e)
      | k + 1 => if e < tol then .ret (C, e) else Bicg.loop S x tol k C
    | .thrown => .thrown
    | .undefined => .undefined

/-- PerformBICGSTAB_NewtonStep (JacobianFreeNewtonKrylov.cpp:343-451) of an object just initialised (an earlier GMRES step may change the length of m_dY): the new state and the
returned error, which is never assigned when no iteration is allowed. -/
noncomputable def bicgStep {n : Nat} (S : Solver n) (x : Fin n → ℝ) (maxIter : Int) (tol : ℝ) : Out ((Fin n → ℝ) × ℝ) :=
  match maxIter.toNat with
  | 0 => .undefined
  | k + 1 =>
    match Bicg.loop S x tol k (Bicg.start S x) with
    | .ret (B, e) => .ret (fun j => x j - B.g j, e)
    | .thrown => .thrown
    | .undefined => .undefined

end Verif.Newton
