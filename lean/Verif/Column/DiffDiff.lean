/-
Model of the second derivative operators of a column (src/atm/LinearColumnOperatorFEM.cpp, `LinearColumnDiffDiffFEM`).

Simplifications: as in `Verif.Column.Fem`, `Verif.Column.Variational` and `Verif.Column.Correction`.  The quadrature rules on
[-1, 1] are parameters.  The values of the basis functions at the edges do not depend on the loop they are computed in.
-/
import Verif.Column.Flux
import Verif.Column.Variational

namespace Verif.Column

open Verif.Interp

/-- The integral over element `a` of the row of its level `j`, LinearColumnOperatorFEM.cpp:1136-1163; `w` are the weights of
the levels of the element. -/
noncomputable def ddInner (n : Nat) (node : Nat → ℝ) (w : Nat → ℝ) (a j : Nat) : Nat → ℝ := fun c =>
  if a * n ≤ c ∧ c < a * n + n then
    (List.range n).foldl (fun v s =>
      v - (diffCoeffs n (fun i => node (a * n + i)) (node (a * n + s))).getD j 0 *
        (diffCoeffs n (fun i => node (a * n + i)) (node (a * n + s))).getD (c - a * n) 0 * w s) 0
  else 0

/-- The value of basis function `j` of element `a` at `s`, LinearColumnOperatorFEM.cpp:1171-1187. -/
noncomputable def ddBasis (n : Nat) (node : Nat → ℝ) (a j : Nat) (s : ℝ) : ℝ :=
  interpolate n (fun i => node (a * n + i)) (fun i => if i = j then 1 else 0) s

/-- The fluxes over the edges, LinearColumnOperatorFEM.cpp:1189-1233. -/
noncomputable def ddBoundary (n m : Nat) (node edge : Nat → ℝ) (a j : Nat) (c : Nat → ℝ) : Nat → ℝ :=
  let phiL := ddBasis n node a j (edge (a * n))
  let phiR := ddBasis n node a j (edge ((a + 1) * n))
  let c := if a ≠ 0 then
      addAt (addAt c (a * n) (-(0.5 * phiL)) (diffCoeffs n (fun i => node (a * n + i)) (edge (a * n)))) ((a - 1) * n)
        (-(0.5 * phiL)) (diffCoeffs n (fun i => node ((a - 1) * n + i)) (edge (a * n)))
    else c
  if a ≠ m - 1 then
    addAt (addAt c (a * n) (0.5 * phiR) (diffCoeffs n (fun i => node (a * n + i)) (edge ((a + 1) * n)))) ((a + 1) * n)
      (0.5 * phiR) (diffCoeffs n (fun i => node ((a + 1) * n + i)) (edge ((a + 1) * n)))
  else c

/-- The corrections for the jumps over the edges, LinearColumnOperatorFEM.cpp:1235-1281; `dc` is `dDiffCorrectionFn[0]`. -/
noncomputable def ddCorrection (n m : Nat) (node edge : Nat → ℝ) (dc : ℝ) (a j : Nat) (c : Nat → ℝ) : Nat → ℝ :=
  let phiL := ddBasis n node a j (edge (a * n))
  let phiR := ddBasis n node a j (edge ((a + 1) * n))
  let c := if a + 1 < m then
      addAt (addAt c (a * n) (-(0.5 * phiR * dc)) (lagrangeCoeffs n (fun i => node (a * n + i)) (edge ((a + 1) * n))))
        ((a + 1) * n) (0.5 * phiR * dc) (lagrangeCoeffs n (fun i => node ((a + 1) * n + i)) (edge ((a + 1) * n)))
    else c
  if a > 0 then
    addAt (addAt c ((a - 1) * n) (0.5 * phiL * dc) (lagrangeCoeffs n (fun i => node ((a - 1) * n + i)) (edge (a * n))))
      (a * n) (-(0.5 * phiL * dc)) (lagrangeCoeffs n (fun i => node (a * n + i)) (edge (a * n)))
  else c

/-- The row of level `k`, LinearColumnOperatorFEM.cpp:1115-1305; `f` is the derivative of the flux correction function, which is
taken at one only. -/
noncomputable def ddRow (f : ℝ → ℝ) (n m : Nat) (node edge : Nat → ℝ) (gauss : List ℝ × List ℝ) (k : Nat) : Row :=
  let a := k / n
  let j := k % n
  let d := edge ((a + 1) * n) - edge (a * n)
  let c := ddInner n node (gaussWeight n edge gauss a) a j
  let c := ddBoundary n m node edge a j c
  let c := ddCorrection n m node edge (f 1 / d) a j c
  ⟨fun i => c i / gaussWeight n edge gauss a j, if a = 0 then 0 else (a - 1) * n,
    if a = m - 1 then (a + 1) * n else (a + 2) * n⟩

/-- `dWlocal` of point `j` of element `a`, LinearColumnOperatorFEM.cpp:1336-1343 and 1440-1447; `w` are the weights of the
element. -/
noncomputable def ddLocal (n m : Nat) (w : Nat → ℝ) (a j : Nat) : ℝ :=
  let w0 := w j
  let w1 := if j = 0 ∧ a ≠ 0 then w0 * 2 else w0
  if j = n ∧ a ≠ m - 1 then w1 * 2 else w1

/-- The coefficients of `m` elements of `n + 1` points that share their ends, LinearColumnOperatorFEM.cpp:1331-1355 and
1435-1459; `D a s` are the derivatives of the basis functions of element `a` at its point `s`, `w a` the weights. -/
noncomputable def ddCoeff (n m : Nat) (D : Nat → Nat → List ℝ) (w : Nat → Nat → ℝ) (jx ix : Nat) : ℝ :=
  (List.range m).foldl (fun v a =>
    if (a * n ≤ jx ∧ jx ≤ a * n + n) ∧ a * n ≤ ix ∧ ix ≤ a * n + n then
      (List.range (n + 1)).foldl (fun v s =>
        v - (D a s).getD (jx - a * n) 0 * (D a s).getD (ix - a * n) 0 * w a s / ddLocal n m (w a) a (jx - a * n)) v
    else v) 0

/-- The range of a row, LinearColumnOperatorFEM.cpp:1357-1375 and 1475-1493. -/
def ddRange (n m jx : Nat) : Nat × Nat :=
  let a := jx / n
  if m * n < jx ∨ m = 0 then (0, 0)
  else if jx % n ≠ 0 then (a * n, (a + 1) * n + 1)
  else if a = 0 then (0, n + 1)
  else if a = m then ((a - 1) * n, a * n + 1)
  else ((a - 1) * n, (a + 1) * n + 1)

/-- The row of point `jx` of such elements. -/
noncomputable def ddSharedRow (n m : Nat) (D : Nat → Nat → List ℝ) (w : Nat → Nat → ℝ) (jx : Nat) : Row :=
  ⟨ddCoeff n m D w jx, (ddRange n m jx).1, (ddRange n m jx).2⟩

/-- `LinearColumnDiffDiffFEM::Initialize`, LinearColumnOperatorFEM.cpp:1062-1383, from levels to levels or from interfaces to
interfaces. -/
noncomputable def diffDiffInit (solve : Dgesv) (src : Source) (n N nEdge : Nat) (node edge : Nat → ℝ) (gauss lobatto : List ℝ × List ℝ) :
    Res :=
  if n = 0 then .ub
  else if (match src with | .levels => N | .interfaces => nEdge) = 0 then .exc
  else if N % n ≠ 0 then .exc
  else if N ≠ 0 ∧ nEdge < N + 1 then .ub
  else match src with
    | .levels => match getDerivatives solve 2 (n + 1) with
      | .ok f => .ok ⟨N, N, ddRow f n (N / n) node edge gauss⟩
      | .exc => .exc
      | .ub => .ub
    | .interfaces => .ok ⟨nEdge, nEdge, ddSharedRow n (N / n)
        (fun a s => diffCoeffs (n + 1) (fun i => edge (a * n + i)) (edge (a * n + s))) (gaussWeight n edge lobatto)⟩

/-- `LinearColumnDiffDiffFEM::InitializeGLLNodes`, LinearColumnOperatorFEM.cpp:1387-1497, for an order of at least one.  With
order one the number of elements is a division by zero. -/
noncomputable def diffDiffGLLInit (n N : Nat) (node : Nat → ℝ) (lobatto : List ℝ × List ℝ) : Res :=
  if n ≤ 1 then .ub
  else if N = 0 then .exc
  else if (N - 1) % (n - 1) ≠ 0 then .exc
  else .ok ⟨N, N, ddSharedRow (n - 1) ((N - 1) / (n - 1))
    (fun a s => diffCoeffs n (fun i => node (a * (n - 1) + i)) (gaussPoint (n - 1) node lobatto a s))
    (gaussWeight (n - 1) node lobatto)⟩

end Verif.Column
