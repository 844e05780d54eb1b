/-
Model of the discontinuous penalty operator (src/atm/LinearColumnOperatorFEM.cpp, `LinearColumnDiscPenaltyFEM`).

Simplifications: as in `Verif.Column.Fem`; the row of a level is given by the one pass of the loops that writes it.  The buffer
and the output are different arrays from the input.  The `DEBUG` check that an operator was initialised is left out.
-/
import Verif.Column.Fem
import Verif.Column.Correction

namespace Verif.Column

open Verif.Interp

/-- `LinearColumnDiscPenaltyFEM`, LinearColumnOperatorFEM.h: order, number of elements, operators to the two sides of edges. -/
structure Penalty where
  n : Nat
  m : Nat
  left : Op
  right : Op

/-- What setting one up gives. -/
inductive PenaltyRes where
  | exc
  | ub
  | ok (P : Penalty)

/-- The two halves of a row, LinearColumnOperatorFEM.cpp:1664-1674 (`b = ax`) and 1707-1715 (`b = ax - n`): the derivative of
the flux correction times the jump over the edge `s` between the element from level `b` and the next. -/
noncomputable def jumpRow (n : Nat) (node : Nat → ℝ) (b : Nat) (s d : ℝ) : Row :=
  let l := lagrangeCoeffs n (fun i => node (b + i)) s
  let r := lagrangeCoeffs n (fun i => node (b + n + i)) s
  ⟨put (put (fun _ => 0) b (l.map fun c => -0.5 * d * c)) (b + n) (r.map fun c => 0.5 * d * c), b, b + 2 * n⟩

/-- The row of level `k` for the penalty below an edge, LinearColumnOperatorFEM.cpp:1637-1679; `f` is the derivative of the
flux correction. -/
noncomputable def penaltyLeftRow (f : ℝ → ℝ) (n m : Nat) (node edge : Nat → ℝ) (k : Nat) : Row :=
  let a := k / n
  let lo := edge (a * n)
  let hi := edge ((a + 1) * n)
  if a < m - 1 then jumpRow n node (a * n) (edge ((a + 1) * n)) (f ((node k - lo) / (hi - lo)) / (hi - lo)) else blank

/-- The row of level `k` for the penalty above an edge, LinearColumnOperatorFEM.cpp:1682-1720. -/
noncomputable def penaltyRightRow (f : ℝ → ℝ) (n m : Nat) (node edge : Nat → ℝ) (k : Nat) : Row :=
  let a := k / n
  let lo := edge (a * n)
  let hi := edge ((a + 1) * n)
  if 1 ≤ a ∧ a < m then
    jumpRow n node ((a - 1) * n) (edge (a * n)) (f (1 - (node k - lo) / (hi - lo)) / -(hi - lo))
  else blank

/-- `LinearColumnDiscPenaltyFEM::Initialize`, LinearColumnOperatorFEM.cpp:1574-1729.  The upper edges of all elements must be
inside the interfaces. -/
noncomputable def penaltyInit (solve : Dgesv) (n N nEdge : Nat) (node edge : Nat → ℝ) : PenaltyRes :=
  if n = 0 then .ub
  else if N / n = 1 then .ok ⟨n, N / n, allocated 0 0, allocated 0 0⟩
  else if N = 0 then .exc
  else if N % n ≠ 0 then .exc
  else if nEdge < N + 1 then .ub
  else match getDerivatives solve 2 (n + 1) with
    | .ok f => .ok ⟨n, N / n, ⟨N, N, penaltyLeftRow f n (N / n) node edge⟩, ⟨N, N, penaltyRightRow f n (N / n) node edge⟩⟩
    | .exc => .exc
    | .ub => .ub

/-- The two stencils at edge `k`, LinearColumnOperatorFEM.cpp:1786-1795 and 1815-1824: begin and one past the last, of the
reconstruction from below and from above. -/
def leftStencil (n N k : Nat) : Nat × Nat := (k - ((n - 2) / 2 + 1), min (k + (n - 2) / 2) N)
def rightStencil (n N k : Nat) : Nat × Nat := (k - (n - 2) / 2, min (k + (n - 2) / 2 + 1) N)

/-- The coefficients at edge `k`, LinearColumnOperatorFEM.cpp:1797-1807 and 1826-1836, with the sign of the row below the edge
(`dLeftPenaltyCoeff[k-1]`), divided by the length of the volume (1841-1850). -/
noncomputable def reconJumpRow (n N : Nat) (node edge : Nat → ℝ) (sl sr : ℝ) (k : Nat) (d : ℝ) : Row :=
  let L := leftStencil n N k
  let R := rightStencil n N k
  let cl := lagrangeCoeffs (L.2 - L.1) (fun i => node (L.1 + i)) (edge k)
  let cr := lagrangeCoeffs (R.2 - R.1) (fun i => node (R.1 + i)) (edge k)
  let c1 : Nat → ℝ := fun j => if L.1 ≤ j ∧ j < L.2 then 0 + sl * cl.getD (j - L.1) 0 else 0
  let c2 : Nat → ℝ := fun j => if R.1 ≤ j ∧ j < R.2 then c1 j + sr * cr.getD (j - R.1) 0 else c1 j
  ⟨fun j => if L.1 ≤ j ∧ j < R.2 then c2 j / d else c2 j, L.1, R.2⟩

/-- `LinearColumnDiscPenaltyFEM::InitializeReconstructed`, LinearColumnOperatorFEM.cpp:1733-1859.  The code does not check that
there is one interface more than levels, nor that the order is not zero; the rows it writes are those of inner edges. -/
noncomputable def penaltyReconInit (n N nEdge : Nat) (node edge : Nat → ℝ) : PenaltyRes :=
  if N = 1 then .ok ⟨1, N, allocated 0 0, allocated 0 0⟩
  else if N = 0 then .exc
  else if nEdge ≠ N + 1 ∨ n = 0 then .ub
  else .ok ⟨1, N,
    ⟨N, N, fun k => if k + 1 < N then reconJumpRow n N node edge (-0.5) 0.5 (k + 1) (edge (k + 1) - edge k) else blank⟩,
    ⟨N, N, fun k => if 1 ≤ k ∧ k < N then reconJumpRow n N node edge 0.5 (-0.5) k (edge (k + 1) - edge k) else blank⟩⟩

/-- The loops that add the buffer to the output, LinearColumnOperatorFEM.cpp:1872-1877 and 1881-1886. -/
noncomputable def addBuffer (n : Nat) (elements : List Nat) (w : Nat → ℝ) (buf out : Nat → ℝ) (stride : Nat) : Nat → ℝ :=
  elements.foldl (fun o a => (List.range n).foldl
    (fun o i => Function.update o ((a * n + i) * stride) (o ((a * n + i) * stride) + buf (a * n + i) * w a)) o) out

/-- `LinearColumnDiscPenaltyFEM::Apply`, LinearColumnOperatorFEM.cpp:1863-1888. -/
noncomputable def penaltyApply (P : Penalty) (w x out : Nat → ℝ) (strideIn strideOut : Nat) : Nat → ℝ :=
  let buf := applyAll P.left x (fun _ => 0) strideIn 1
  let out := addBuffer P.n (List.range (P.m - 1)) w buf out strideOut
  let buf := applyAll P.right x buf strideIn 1
  addBuffer P.n (List.range' 1 (P.m - 1)) (fun a => w (a - 1)) buf out strideOut

end Verif.Column
