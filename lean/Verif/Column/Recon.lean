/-
Model of the reconstructed column operators (src/atm/LinearColumnOperatorFEM.cpp).

Simplifications: as in `Verif.Column.Fem`.  The code does not check that there is one interface more than levels, nor that
the order is not zero; without either it reads outside its arrays, which is `ub` here.  Loop bounds `klast` are kept one
past the last.
-/
import Verif.Column.Fem

namespace Verif.Column

open Verif.Interp

/-- One level row from the two interfaces around it, LinearColumnOperatorFEM.cpp:238-246. -/
noncomputable def meanRow (k : Nat) : Row :=
  ⟨fun j => if j = k + 1 then 0.5 else if j = k then 0.5 else 0, k, k + 2⟩

/-- One interface row from levels, LinearColumnOperatorFEM.cpp:258-316; `n` is the order, `N` the number of levels. -/
noncomputable def reconRow (n N : Nat) (node edge : Nat → ℝ) (k : Nat) : Row :=
  let w : ℝ := if k = 0 ∨ k = N then 1 else 0.5
  let bl := k - ((n - 2) / 2 + 1)
  let el := min (k + (n - 2) / 2) N
  let left := lagrangeCoeffs (el - bl) (fun i => node (bl + i)) (edge k)
  let c1 : Nat → ℝ := fun j => if k ≠ 0 ∧ bl ≤ j ∧ j < el then 0 + w * left.getD (j - bl) 0 else 0
  let br := k - (n - 2) / 2
  let er := min (k + (n - 2) / 2 + 1) N
  let right := lagrangeCoeffs (er - br) (fun i => node (br + i)) (edge k)
  let c2 : Nat → ℝ := fun j => if k ≠ N ∧ br ≤ j ∧ j < er then c1 j + w * right.getD (j - br) 0 else c1 j
  ⟨c2, if k ≠ 0 then bl else 0, if k ≠ N then er else N⟩

/-- `LinearColumnInterpFEM::InitializeReconstructed`, LinearColumnOperatorFEM.cpp:209-335. -/
noncomputable def reconInterpInit (src dst : Source) (n N nEdge : Nat) (node edge : Nat → ℝ) : Res :=
  if N = 0 then .exc
  else if nEdge = 0 then .exc
  else if n % 2 ≠ 0 then .exc
  else match src, dst with
    | .interfaces, .levels => if nEdge = N + 1 then .ok ⟨N, nEdge, meanRow⟩ else .ub
    | .levels, .interfaces => if nEdge = N + 1 ∧ n ≠ 0 then .ok ⟨nEdge, N, reconRow n N node edge⟩ else .ub
    | _, _ => .exc

/-- One level row of the difference quotient, LinearColumnOperatorFEM.cpp:957-965. -/
noncomputable def quotientRow (edge : Nat → ℝ) (k : Nat) : Row :=
  let d := edge (k + 1) - edge k
  ⟨fun j => if j = k + 1 then 1 / d else if j = k then -1 / d else 0, k, k + 2⟩

/-- One interface row of derivatives from a stencil around it, LinearColumnOperatorFEM.cpp:1001-1020 (from interfaces:
`K = nEdge`, `up = n / 2 + 1`) and 1030-1049 (from levels: `K = N`, `up = n / 2`). -/
noncomputable def stencilRow (n K up : Nat) (x edge : Nat → ℝ) (k : Nat) : Row :=
  let b := k - n / 2
  let e := min (k + up) K
  ⟨put (fun _ => 0) b (diffCoeffs (e - b) (fun i => x (b + i)) (edge k)), b, e⟩

/-- `LinearColumnDiffFEM::InitializeReconstructed`, LinearColumnOperatorFEM.cpp:924-1056. -/
noncomputable def reconDiffInit (src dst : Source) (n N nEdge : Nat) (node edge : Nat → ℝ) : Res :=
  if N = 0 then .exc
  else if nEdge = 0 then .exc
  else if n < 2 then .exc
  else if n % 2 ≠ 0 then .exc
  else if nEdge ≠ N + 1 then .ub
  else
    let quotient : Op := ⟨N, nEdge, quotientRow edge⟩
    match src, dst with
    | .interfaces, .levels => .ok quotient
    | .levels, .levels =>
      match reconInterpInit .levels .interfaces n N nEdge node edge with
      | .ok i => match compose quotient i with
        | some c => .ok c
        | none => .exc
      | r => r
    | .interfaces, .interfaces => .ok ⟨nEdge, nEdge, stencilRow n nEdge (n / 2 + 1) edge edge⟩
    | .levels, .interfaces => .ok ⟨nEdge, N, stencilRow n N (n / 2) node edge⟩

end Verif.Column
