/-
The Newton step by the method of generalised minimal residuals and the
iteration of Newton steps (src/atm/JacobianFreeNewtonKrylov.cpp), over the
real numbers.
-/
import Verif.Newton.Bicg
import Mathlib.Analysis.SpecialFunctions.Pow.Real

namespace Verif.Newton

/-- LAPACK::DNORM2 (src/base/LinearAlgebra.h:306-319). -/
noncomputable def norm2 {n : Nat} (x : Fin n → ℝ) : ℝ := Real.sqrt (dot x x)

/-- GivensRotationMatrix (JacobianFreeNewtonKrylov.cpp:92-114): cosine and sine. -/
noncomputable def givens (a b : ℝ) : ℝ × ℝ :=
  open Classical in
  if b = 0 then (1, 0)
  else if |a| < |b| then
    let t := a / b
    let s := 1 / Real.sqrt (1 + t * t)
    (t * s, s)
  else
    let t := b / a
    let c := 1 / Real.sqrt (1 + t * t)
    (c, t * c)

/-- `w` after the first steps of the orthogonalisation against m_dV (JacobianFreeNewtonKrylov.cpp:226-233). -/
def gramW {n : Nat} (V : Nat → Fin n → ℝ) (w : Fin n → ℝ) : Nat → Fin n → ℝ
  | 0 => w
  | k + 1 => axpy (-dot (gramW V w k) (V k)) (V k) (gramW V w k)

/-- The coefficient m_dH[u0i + k] before rotation (JacobianFreeNewtonKrylov.cpp:228-229). -/
def gramH {n : Nat} (V : Nat → Fin n → ℝ) (w : Fin n → ℝ) (k : Nat) : ℝ := dot (gramW V w k) (V k)

/-- The element m_dH[u0i + k] when rotation `k` begins: earlier rotations have changed it (JacobianFreeNewtonKrylov.cpp:242-249). -/
def carry (h cs sn : Nat → ℝ) : Nat → ℝ
  | 0 => h 0
  | k + 1 => -sn k * carry h cs sn k + cs k * h (k + 1)

/-- The basis m_dV, the triangle m_dH by column and row (element `k` of column `i` is m_dH[i (i + 1) / 2 + k]), m_dCS,
m_dSN and m_dS. -/
structure Krylov (n : Nat) where
  V : Nat → Fin n → ℝ
  H : Nat → Nat → ℝ
  cs : Nat → ℝ
  sn : Nat → ℝ
  s : Nat → ℝ

/-- LAPACK::DTPSV, upper, not transposed, with diagonal, of order `k` (src/base/LinearAlgebra.cpp:250-272): substitution
from the last column on, which skips zeros; `none`: a quotient by zero. -/
noncomputable def backSubst (H : Nat → Nat → ℝ) : Nat → (Nat → ℝ) → Option (Nat → ℝ)
  | 0, y => some y
  | k + 1, y =>
    open Classical in
    if y k = 0 then backSubst H k y
    else if H k k = 0 then none
    else backSubst H k (fun l => if l = k then y k / H k k else if l < k then y l - y k / H k k * H k l else y l)

/-- The vector `w` of column `i` before and after orthogonalisation, and its length (JacobianFreeNewtonKrylov.cpp:216-236). -/
noncomputable def Krylov.length {n : Nat} (S : Solver n) (x : Fin n → ℝ) (i : Nat) (K : Krylov n) : ℝ :=
  norm2 (gramW K.V (S.along x (K.V i)) (i + 1))

/-- Iteration `i` (JacobianFreeNewtonKrylov.cpp:214-264).  The next vector is not a number where `length` is zero; it is
used only if the iteration goes on. -/
noncomputable def Krylov.next {n : Nat} (S : Solver n) (x : Fin n → ℝ) (i : Nat) (K : Krylov n) : Krylov n :=
  let w := S.along x (K.V i)
  let h := gramH K.V w
  let hx := K.length S x i
  let u := carry h K.cs K.sn
  let R := givens (u i) hx
  { V := Function.update K.V (i + 1) (fun j => 1 / hx * gramW K.V w (i + 1) j)
    H := Function.update K.H i (fun k => if k < i then K.cs k * u k + K.sn k * h (k + 1) else R.1 * u i + R.2 * hx)
    cs := Function.update K.cs i R.1
    sn := Function.update K.sn i R.2
    s := Function.update (Function.update K.s (i + 1) (-R.2 * K.s i)) i (R.1 * K.s i) }

/-- The iterations from `i` on and what is added to the state (JacobianFreeNewtonKrylov.cpp:214-289); `left` more elements
of m_dS, which has as many elements as there are iterations per restart, are behind element `i`.  The last iteration of
a restart assigns m_dS[m_nIterPerRestart] (line 257), behind the end; so lines 291-322 are not reached. -/
noncomputable def Krylov.cycle {n : Nat} (S : Solver n) (x : Fin n → ℝ) (b tol : ℝ) : Nat → Nat → Krylov n → Out ((Fin n → ℝ) × ℝ)
  | 0, _, _ => .undefined
  | left + 1, i, K =>
    open Classical in
    let L := K.next S x i
    let error := |L.s (i + 1)| * (1 / b)
    if error ≤ tol then
      match backSubst L.H (i + 1) L.s with
      | some y => .ret (fun c => (List.range (i + 1)).foldl (fun g j => y j * L.V j c + g) 0, error)
      | none => .undefined
    else if K.length S x i = 0 then .undefined
    else Krylov.cycle S x b tol left (i + 1) L

/-- JacobianFreeNewtonKrylov.cpp:195-204: before the first iteration. -/
noncomputable def Krylov.start {n : Nat} (fx : Fin n → ℝ) : Krylov n where
  V := fun _ j => 1 / norm2 fx * fx j
  H := fun _ _ => 0
  cs := fun _ => 0
  sn := fun _ => 0
  s := fun k => if k = 0 then norm2 fx else 0

/-- PerformJFNK_NewtonStep (JacobianFreeNewtonKrylov.cpp:153-339) of an initialised object: the new state and the returned
error. -/
noncomputable def gmresStep {n : Nat} (S : Solver n) (x : Fin n → ℝ) (maxIter : Int) (tol : ℝ) : Out ((Fin n → ℝ) × ℝ) :=
  open Classical in
  let fx := S.eval x
  let b := norm2 fx
  if |b| < 1 / 10 ^ 14 then .ret (x, 0)
  else if maxIter ≤ 0 then .undefined
  else if b * (1 / b) ≤ tol then .ret (fun j => x j - 0, b * (1 / b))
  else if S.eps = 0 then .undefined
  else
    match Krylov.cycle S x b tol (S.iter - 1) 0 (Krylov.start fx) with
    | .ret (g, e) => .ret (fun j => x j - g j, e)
    | .thrown => .thrown
    | .undefined => .undefined

/-- The loop of PerformJFNK with `k` steps left (JacobianFreeNewtonKrylov.cpp:131-143): the state and whether a step was
accepted. -/
noncomputable def newtonLoop {n : Nat} (S : Solver n) (solnTol : ℝ) (gIter : Int) (gTol : ℝ) :
    Nat → (Fin n → ℝ) → Out ((Fin n → ℝ) × Bool)
  | 0, x => .ret (x, false)
  | k + 1, x =>
    open Classical in
    match gmresStep S x gIter gTol with
    | .ret (y, e) => if e < solnTol then .ret (y, true) else newtonLoop S solnTol gIter gTol k y
    | .thrown => .thrown
    | .undefined => .undefined

/-- PerformJFNK (JacobianFreeNewtonKrylov.cpp:118-149): the counter is zero after no step, so a negative number of steps
does not equal it. -/
noncomputable def newton {n : Nat} (S : Solver n) (x : Fin n → ℝ) (maxIter : Int) (solnTol : ℝ) (gIter : Int) (gTol : ℝ) :
    Out ((Fin n → ℝ) × Bool) :=
  if maxIter < 0 then .ret (x, true) else newtonLoop S solnTol gIter gTol maxIter.toNat x

end Verif.Newton
