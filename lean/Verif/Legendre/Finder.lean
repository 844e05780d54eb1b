/-
Model of the root finders of Legendre polynomials and their derivatives (src/base/LegendrePolynomial.cpp:583-750).

Simplifications: `double` is the real numbers; a division by zero, which would put infinities or NaN into the roots, is
the outcome `notFinite`.  The array written is the result, a list; for degrees for which nothing is written it is empty.
The caller always passes an array, so the check for a null pointer is left out.
-/
import Verif.Legendre.Model

namespace Verif.Legendre

/-- How a call can fail. -/
inductive Fault where
  /-- "Invalid degree", LegendrePolynomial.cpp:595-598 and 675-678. -/
  | invalidDegree
  /-- A division by zero in the iteration. -/
  | notFinite
  deriving DecidableEq

open Classical in
/-- A quotient; `none` when the divisor is zero. -/
noncomputable def quotient (a b : ℝ) : Option ℝ := if b = 0 then none else some (a / b)

/-- Fills an array of `n` entries by a loop over the indices; `none` when one of them is not finite. -/
def fill {α : Type} (n : Nat) (f : Nat → Option α) : Option (List α) := (List.range n).mapM f

/-- `dMod`, LegendrePolynomial.cpp:633-640 and 717-724: the sum over the other estimates.  The skipped index adds
nothing. -/
noncomputable def crowd (r : List ℝ) (k : Nat) : Option ℝ :=
  (fill r.length fun l => if l = k then some 0 else quotient 1 (r.getD k 0 - r.getD l 0)).map List.sum

/-- The new estimate `x - 1 / (ratio - dMod)`, LegendrePolynomial.cpp:642 and 732-733. -/
noncomputable def update (x ratio mod : ℝ) : Option ℝ := (quotient 1 (ratio - mod)).map fun q => x - q

/-- The iteration tolerance, LegendrePolynomial.cpp:588 and 668. -/
noncomputable def tolerance : ℝ := 1 / 10 ^ 14

open Classical in
/-- One estimate refined, LegendrePolynomial.cpp:622-642, and whether it counts as found. -/
noncomputable def refineRoot (n : Nat) (r : List ℝ) (k : Nat) : Option (Bool × ℝ) :=
  let x := r.getD k 0
  match evaluate n x with
  | none => none
  | some (value, derivative) =>
    if |value| < tolerance then some (true, x)
    else (crowd r k).bind fun mod => (quotient derivative value).bind fun ratio =>
      (update x ratio mod).map fun y => (false, y)

open Classical in
/-- One estimate of a root of the derivative refined, LegendrePolynomial.cpp:706-733, and whether it counts as found.
The second derivative is `secondDerivative`, whose divisor is `1 - x * x`. -/
noncomputable def refineDerivative (n : Nat) (r : List ℝ) (k : Nat) : Option (Bool × ℝ) :=
  let x := r.getD k 0
  match evaluate n x with
  | none => none
  | some (value, derivative) =>
    if |derivative| < tolerance then some (true, x)
    else (crowd r k).bind fun mod => (quotient 1 (1 - x * x)).bind fun _ =>
      (quotient (secondDerivative n x value derivative) derivative).bind fun ratio =>
        (update x ratio mod).map fun y => (false, y)

/-- The loop over iterations with its early exit, LegendrePolynomial.cpp:617-652 and 697-743: at most `passes` more,
each computing all new estimates from all old ones.  The flag tells whether the loop was left because all estimates
were found. -/
noncomputable def iterate (refine : List ℝ → Nat → Option (Bool × ℝ)) : Nat → List ℝ → Option (Bool × List ℝ)
  | 0, r => some (false, r)
  | passes + 1, r =>
    match fill r.length (refine r) with
    | none => none
    | some buffer =>
      let r' := buffer.map Prod.snd
      if (buffer.filter Prod.fst).length = r.length then some (true, r') else iterate refine passes r'

/-- The first estimates for `m` roots, LegendrePolynomial.cpp:611-613 and 691-693: the midpoints of `m` equal parts of
[-1, 1]. -/
noncomputable def guess (m : Nat) : List ℝ := (List.range m).map fun (k : Nat) => ((k : ℝ) + 0.5) * 2.0 / m - 1.0

/-- `std::sort`, LegendrePolynomial.cpp:655 and 746. -/
noncomputable def sorted (r : List ℝ) : List ℝ :=
  open Classical in r.mergeSort fun a b => decide (a ≤ b)

/-- What remains after the iteration: the sorted estimates, with the flag. -/
noncomputable def finish : Option (Bool × List ℝ) → Except Fault (Bool × List ℝ)
  | none => .error .notFinite
  | some (found, r) => .ok (found, sorted r)

/-- `AllRoots`, LegendrePolynomial.cpp:583-659. -/
noncomputable def allRoots (n : Int) : Except Fault (Bool × List ℝ) :=
  if n = 0 then .ok (true, [])
  else if n < 0 then .error .invalidDegree
  else finish (iterate (refineRoot n.toNat) (n.toNat + 10) (guess n.toNat))

/-- `AllDerivativeRoots`, LegendrePolynomial.cpp:663-750. -/
noncomputable def allDerivativeRoots (n : Int) : Except Fault (Bool × List ℝ) :=
  if n = 0 ∨ n = 1 then .ok (true, [])
  else if n < 0 then .error .invalidDegree
  else finish (iterate (refineDerivative n.toNat) (n.toNat + 10) (guess (n.toNat - 1)))

end Verif.Legendre
