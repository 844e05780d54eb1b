/-
Model of the evaluation of Legendre polynomials (src/base/LegendrePolynomial.cpp).

Simplifications: `double` is the real numbers.  Output parameters are the result; `none` when they are left unset.
The work arrays keep every degree but only the last entries are used, so the loop state keeps only those.
-/
import Mathlib.Data.Real.Basic

namespace Verif.Legendre

/-- State of the loop: `dP0`, `dP1`, `dXk` and the last entry of `dPd`. -/
structure St where
  p0 : ℝ
  p1 : ℝ
  xk : ℝ
  pd : ℝ

open Classical in
/-- One pass of the loop, LegendrePolynomial.cpp:90-106. -/
noncomputable def step (x : ℝ) (s : St) (k : Nat) : St :=
  let kk : ℝ := k
  let pf := (2 * kk - 1) / kk * x * s.p1 - (kk - 1) / kk * s.p0
  let xk := s.xk * x
  let pd := if |x| = 1 then 1 / 2 * xk * kk * (kk + 1) else kk * (s.p1 - x * pf) / (1 - x * x)
  ⟨s.p1, pf, xk, pd⟩

/-- The loop `for (int k = 2; k <= nDegree; k++)`, LegendrePolynomial.cpp:76-106; for `nDegree = m + 1`. -/
noncomputable def loop (x : ℝ) : Nat → St
  | 0 => ⟨1, x, x * x, 1⟩
  | m + 1 => step x (loop x m) (m + 2)

/-- `EvaluateValueAndDerivative`, LegendrePolynomial.cpp:26-115. -/
noncomputable def evaluate (n : Int) (x : ℝ) : Option (ℝ × ℝ) :=
  if n < 9 then
    if n = 0 then some (1, 0)
    else if n = 1 then some (x, 1)
    else if n = 2 then some (1.5 * x * x - 0.5, 3.0 * x)
    else if n = 3 then some ((2.5 * x * x - 1.5) * x, 7.5 * x * x - 1.5)
    else if n = 4 then some ((4.375 * x * x - 3.75) * x * x + 0.375, 2.5 * (7.0 * x * x - 3.0) * x)
    else if n = 5 then some (((7.875 * x * x - 8.75) * x * x + 1.875) * x, (39.375 * x * x - 26.25) * x * x + 1.875)
    else if n = 6 then
      some (((14.4375 * x * x - 19.6875) * x * x + 6.5625) * x * x - 0.3125,
        ((86.625 * x * x - 78.75) * x * x + 13.125) * x)
    else if n = 7 then
      some ((((26.8125 * x * x - 43.3125) * x * x + 19.6875) * x * x - 2.1875) * x,
        ((187.6875 * x * x - 216.5625) * x * x + 59.0625) * x * x - 2.1875)
    else if n = 8 then
      some ((((50.2734375 * x * x - 93.84375) * x * x + 54.140625) * x * x - 9.84375) * x * x + 0.2734375,
        (((402.1875 * x * x - 563.0625) * x * x + 216.5625) * x * x - 19.6875) * x)
    else none
  else
    let s := loop x (n.toNat - 1)
    some (s.p1, s.pd)

/-- The second derivative used to refine the roots of the derivative, LegendrePolynomial.cpp:726-730, from the value
and the derivative. -/
noncomputable def secondDerivative (n : Int) (x value derivative : ℝ) : ℝ :=
  1 / (1 - x * x) * (2 * x * derivative - n * (n + 1) * value)

end Verif.Legendre
