/-
Model of the flux correction derivative (src/atm/LinearColumnOperatorFEM.cpp, `InitializeFluxCorrectionMethod`).

Simplifications: as in `Verif.Column.Fem` and `Verif.Column.Correction`.  Scaling a row scales all of it; entries that were
never written are zero.
-/
import Verif.Column.Fem
import Verif.Column.Correction

namespace Verif.Column

open Verif.Interp

/-- `m_dCoeff[l][b + k] += v * list[k]`. -/
noncomputable def addAt (c : Nat → ℝ) (b : Nat) (v : ℝ) (l : List ℝ) : Nat → ℝ :=
  fun k => if b ≤ k ∧ k < b + l.length then c k + v * l.getD (k - b) 0 else c k

/-- The local derivative times the element size, LinearColumnOperatorFEM.cpp:544-566. -/
noncomputable def localDeriv (n : Nat) (node : Nat → ℝ) (a : Nat) (on : Bool) (d s : ℝ) : Nat → ℝ :=
  let c := put (fun _ => 0) (a * n) (diffCoeffs n (fun i => node (a * n + i)) s)
  if on then
    let c := put c ((a + 1) * n) (diffCoeffs n (fun i => node ((a + 1) * n + i)) s)
    fun k => c k * (0.5 * d)
  else fun k => c k * d

/-- The correction for the jump at the lower edge of element `a`, LinearColumnOperatorFEM.cpp:628-651; `dl` is `dDerivL[0]`. -/
noncomputable def lowerCorrection (n m : Nat) (node edge : Nat → ℝ) (zb : Bool) (a : Nat) (on : Bool) (dl : ℝ) (c : Nat → ℝ) :
    Nat → ℝ :=
  let lr := lagrangeCoeffs n (fun i => node (a * n + i)) (edge (a * n))
  let rl := lagrangeCoeffs n (fun i => node (a * n + i)) (edge ((a + 1) * n))
  let ll := lagrangeCoeffs n (fun i => node ((a - 1) * n + i)) (edge (a * n))
  let rr := lagrangeCoeffs n (fun i => node ((a + 1) * n + i)) (edge ((a + 1) * n))
  if a ≠ 0 then addAt (if on then c else addAt c ((a - 1) * n) (0.5 * dl) ll) (a * n) (-(0.5 * dl)) lr
  else if zb = false ∧ m ≠ 1 then addAt (addAt c (a * n) (0.5 * dl) rl) ((a + 1) * n) (-(0.5 * dl)) rr
  else c

/-- The correction for the jump at the upper edge, LinearColumnOperatorFEM.cpp:653-672; `dr` is `dDerivR[0]`. -/
noncomputable def upperCorrection (n m : Nat) (node edge : Nat → ℝ) (zb : Bool) (a : Nat) (dr : ℝ) (c : Nat → ℝ) : Nat → ℝ :=
  let lr := lagrangeCoeffs n (fun i => node (a * n + i)) (edge (a * n))
  let rl := lagrangeCoeffs n (fun i => node (a * n + i)) (edge ((a + 1) * n))
  let ll := lagrangeCoeffs n (fun i => node ((a - 1) * n + i)) (edge (a * n))
  let rr := lagrangeCoeffs n (fun i => node ((a + 1) * n + i)) (edge ((a + 1) * n))
  if a ≠ m - 1 then addAt (addAt c ((a + 1) * n) (0.5 * dr) rr) (a * n) (-(0.5 * dr)) rl
  else if zb = false ∧ m ≠ 1 then addAt (addAt c (a * n) (0.5 * dr) lr) ((a - 1) * n) (-(0.5 * dr)) ll
  else c

/-- The row of location `s`, LinearColumnOperatorFEM.cpp:513-690; `f` is the derivative of the flux correction function. -/
noncomputable def fluxRow (f : ℝ → ℝ) (n m : Nat) (node edge : Nat → ℝ) (zb : Bool) (s : ℝ) : Row :=
  let (a, on) := findElement (fun b => edge (b * n)) m s
  let d := edge ((a + 1) * n) - edge (a * n)
  let y := (s - edge (a * n)) / d
  let c := localDeriv n node a on d s
  let c := lowerCorrection n m node edge zb a on (f (1 - y) * -1) c
  let c := upperCorrection n m node edge zb a (f y) c
  ⟨fun k => c k / d, if a ≠ 0 then (a - 1) * n else a * n, if a ≠ m - 1 then (a + 2) * n else (a + 1) * n⟩

open Classical in
/-- `LinearColumnDiffFEM::InitializeFluxCorrectionMethod`, LinearColumnOperatorFEM.cpp:477-699.  The levels are read whatever
the source; the source only sets the number of columns. -/
noncomputable def fluxInit (solve : Dgesv) (src : Source) (n N nEdge : Nat) (node edge : Nat → ℝ) (nOut : Nat) (out : Nat → ℝ)
    (zb : Bool) : Res :=
  if n = 0 then .ub
  else if N = 0 then .exc
  else if nEdge ≠ N + 1 then .exc
  else if N % n ≠ 0 then .exc
  else if ∃ l < nOut, out l < edge 0 ∨ edge N < out l then .exc
  else match getDerivatives solve 2 (n + 1) with
    | .ok f => .ok ⟨nOut, match src with
        | .interfaces => N + 1
        | .levels => N, fun l => fluxRow f n (N / n) node edge zb (out l)⟩
    | .exc => .exc
    | .ub => .ub

end Verif.Column
