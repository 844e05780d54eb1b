/-
Model of the polynomial interpolation and differentiation coefficients (src/base/PolynomialInterp.cpp) and of the
fixed-degree interpolation of src/base/MathHelper.cpp.

Simplifications: `double` is the real numbers.  The pointer arguments are functions of the index, read only below
`nPoints`; the output array is a list.  Loops are folds over the indices in increasing order.
-/
import Mathlib.Data.Real.Basic

namespace Verif.Interp

/-- One pass of the inner loop of `LagrangianPolynomialCoeffs`, PolynomialInterp.cpp:39-45. -/
noncomputable def lagrangeStep (x : Nat → ℝ) (s : ℝ) (i : Nat) (c : ℝ) (j : Nat) : ℝ :=
  if i = j then c else c * ((s - x j) / (x i - x j))

/-- Coefficient `i` of `LagrangianPolynomialCoeffs`, PolynomialInterp.cpp:36-46. -/
noncomputable def lagrangeCoeff (n : Nat) (x : Nat → ℝ) (s : ℝ) (i : Nat) : ℝ :=
  (List.range n).foldl (lagrangeStep x s i) 1

/-- `LagrangianPolynomialCoeffs`, PolynomialInterp.cpp:26-47. -/
noncomputable def lagrangeCoeffs (n : Nat) (x : Nat → ℝ) (s : ℝ) : List ℝ :=
  (List.range n).map (lagrangeCoeff n x s)

open Classical in
/-- The search for a node equal to the sample point, PolynomialInterp.cpp:62-67 (also 134-139 and 214-219). -/
noncomputable def findMatch (n : Nat) (x : Nat → ℝ) (s : ℝ) : Option Nat :=
  (List.range n).find? fun i => decide (|s - x i| < 1 / 10 ^ 14)

/-- The running quantities of the loops: product and sums of the powers of `1 / (s - x j)`. -/
structure Acc where
  c : ℝ
  sum : ℝ
  sum2 : ℝ
  sum3 : ℝ

/-- One pass of the inner loop in the case of a match, PolynomialInterp.cpp:79-87, 154-165 and 234-246.  The first
derivative only uses `sum`, the second `sum` and `sum2`. -/
noncomputable def matchStep (x : Nat → ℝ) (s : ℝ) (i m : Nat) (a : Acc) (j : Nat) : Acc :=
  if j = i ∨ j = m then a
  else
    let d := 1 / (s - x j)
    ⟨a.c * ((s - x j) / (x i - x j)), a.sum + d, a.sum2 + d * d, a.sum3 + 2 * d * d * d⟩

/-- The inner loop in the case of a match at node `m`. -/
noncomputable def matchAcc (n : Nat) (x : Nat → ℝ) (s : ℝ) (i m : Nat) : Acc :=
  (List.range n).foldl (matchStep x s i m) ⟨1, 0, 0, 0⟩

/-- One pass of the inner loop otherwise, PolynomialInterp.cpp:109-115, 187-195 and 270-279. -/
noncomputable def sumStep (x : Nat → ℝ) (s : ℝ) (i : Nat) (a : Acc) (j : Nat) : Acc :=
  if i = j then a
  else
    let d := 1 / (s - x j)
    { a with sum := a.sum + d, sum2 := a.sum2 + d * d, sum3 := a.sum3 + 2 * d * d * d }

/-- The inner loop otherwise; the product is computed by `LagrangianPolynomialCoeffs` before. -/
noncomputable def sumAcc (n : Nat) (x : Nat → ℝ) (s : ℝ) (i : Nat) : Acc :=
  (List.range n).foldl (sumStep x s i) ⟨lagrangeCoeff n x s i, 0, 0, 0⟩

/-- Coefficient `i` of `DiffLagrangianPolynomialCoeffs`, PolynomialInterp.cpp:51-118. -/
noncomputable def diffCoeff (n : Nat) (x : Nat → ℝ) (s : ℝ) (i : Nat) : ℝ :=
  match findMatch n x s with
  | some m =>
    let a := matchAcc n x s i m
    if i ≠ m then a.c * ((1 + (s - x m) * a.sum) / (x i - x m)) else a.c * a.sum
  | none =>
    let a := sumAcc n x s i
    a.c * a.sum

/-- Coefficient `i` of `DiffDiffLagrangianPolynomialCoeffs`, PolynomialInterp.cpp:122-198. -/
noncomputable def diffDiffCoeff (n : Nat) (x : Nat → ℝ) (s : ℝ) (i : Nat) : ℝ :=
  match findMatch n x s with
  | some m =>
    let a := matchAcc n x s i m
    if i ≠ m then a.c * ((2 * a.sum + (s - x m) * (a.sum * a.sum - a.sum2)) / (x i - x m))
    else a.c * (a.sum * a.sum - a.sum2)
  | none =>
    let a := sumAcc n x s i
    a.c * (a.sum * a.sum - a.sum2)

/-- Coefficient `i` of `DiffDiffDiffLagrangianPolynomialCoeffs`, PolynomialInterp.cpp:202-282. -/
noncomputable def diffDiffDiffCoeff (n : Nat) (x : Nat → ℝ) (s : ℝ) (i : Nat) : ℝ :=
  match findMatch n x s with
  | some m =>
    let a := matchAcc n x s i m
    if i ≠ m then
      a.c * ((3 * (a.sum * a.sum - a.sum2) +
        (s - x m) * (a.sum * a.sum * a.sum - 3 * a.sum * a.sum2 + a.sum3)) / (x i - x m))
    else a.c * (a.sum * a.sum * a.sum - 3 * a.sum * a.sum2 + a.sum3)
  | none =>
    let a := sumAcc n x s i
    a.c * (a.sum * a.sum * a.sum - 3 * a.sum * a.sum2 + a.sum3)

/-- `DiffLagrangianPolynomialCoeffs`, PolynomialInterp.cpp:51-118. -/
noncomputable def diffCoeffs (n : Nat) (x : Nat → ℝ) (s : ℝ) : List ℝ := (List.range n).map (diffCoeff n x s)

/-- `DiffDiffLagrangianPolynomialCoeffs`, PolynomialInterp.cpp:122-198. -/
noncomputable def diffDiffCoeffs (n : Nat) (x : Nat → ℝ) (s : ℝ) : List ℝ := (List.range n).map (diffDiffCoeff n x s)

/-- `DiffDiffDiffLagrangianPolynomialCoeffs`, PolynomialInterp.cpp:202-282. -/
noncomputable def diffDiffDiffCoeffs (n : Nat) (x : Nat → ℝ) (s : ℝ) : List ℝ :=
  (List.range n).map (diffDiffDiffCoeff n x s)

/-- `Interpolate`, PolynomialInterp.cpp:286-313. -/
noncomputable def interpolate (n : Nat) (x y : Nat → ℝ) (s : ℝ) : ℝ :=
  (List.range n).foldl (fun v i => v + (List.range n).foldl (lagrangeStep x s i) 1 * y i) 0

/-- The Vandermonde matrix `InterpolateCoeffs` builds, row by row as stored, PolynomialInterp.cpp:344-357: entry `k`
of the workspace for `k < n * n`.  The solution of the linear system is LAPACK's and is not modelled. -/
noncomputable def vandermonde (n : Nat) (x : Nat → ℝ) (mid : ℝ) : Nat → ℝ
  | k => if h : n = 0 ∨ k < n then 1
    else (x (k % n) - mid) * vandermonde n x mid (k - n)
  termination_by k => k
  decreasing_by simp only [not_or] at h; omega

/-- `LinearInterpolate`, MathHelper.cpp:21-31. -/
noncomputable def linearInterpolate (xout x1 x2 y1 y2 : ℝ) : ℝ :=
  let w := (xout - x1) / (x2 - x1)
  (1 - w) * y1 + w * y2

/-- `QuadraticInterpolate`, MathHelper.cpp:35-48. -/
noncomputable def quadraticInterpolate (xout dx y1 y2 y3 : ℝ) : ℝ :=
  let adj := 1 / (2 * dx * dx)
  adj * (y1 * (xout - dx) * (xout - 2 * dx) - 2 * y2 * xout * (xout - 2 * dx) + y3 * xout * (xout - dx))

/-- `CubicInterpolate`, MathHelper.cpp:52-71. -/
noncomputable def cubicInterpolate (xout dx y1 y2 y3 y4 : ℝ) : ℝ :=
  let adj := 1 / (6 * dx * dx * dx)
  let x1 := xout - dx
  let x2 := xout - 2 * dx
  let x3 := xout - 3 * dx
  adj * (-(y1 * x1 * x2 * x3) + y2 * 3 * xout * x2 * x3 - y3 * 3 * xout * x1 * x3 + y4 * xout * x1 * x2)

end Verif.Interp
