/-
Model of the finite element and reconstructed column operators (src/atm/LinearColumnOperatorFEM.cpp).

Simplifications: `double` is the real numbers.  The arrays `dREtaNode`, `dREtaREdge` and `dREtaOut` are functions of the
index with their sizes; the vertical order is at least one.  Rows are built one at a time, as the code does; a row that
would read or write outside the arrays is `none`.
-/
import Verif.Column.Model
import Verif.Interp.Model

namespace Verif.Column

open Verif.Interp

/-- `ParamEpsilon`, LinearColumnOperatorFEM.cpp:41, 349 and 709. -/
noncomputable def eps : ℝ := 1 / 10 ^ 12

open Classical in
/-- The search for the element of an output location, LinearColumnOperatorFEM.cpp:86-97, 378-389 and 735-746: `bnd b` is
the lower bound of element `b`; the first argument counts the elements left before the last.  The result is the element
and `fOnREdge`. -/
noncomputable def findFrom (bnd : Nat → ℝ) (s : ℝ) : Nat → Nat → Nat × Bool
  | 0, a => (a, false)
  | r + 1, a =>
    let next := bnd (a + 1) - eps
    if s < next then (a, false)
    else if s < next + 2 * eps then (a, true)
    else findFrom bnd s r (a + 1)

/-- The search over `m` elements. -/
noncomputable def findElement (bnd : Nat → ℝ) (m : Nat) (s : ℝ) : Nat × Bool := findFrom bnd s (m - 1) 0

/-- Coefficients written to a row from position `b` on. -/
def put (c : Nat → ℝ) (b : Nat) (l : List ℝ) : Nat → ℝ := fun j =>
  if b ≤ j ∧ j < b + l.length then l.getD (j - b) 0 else c j

/-- `InterpSource`. -/
inductive Source where
  | interfaces
  | levels
  deriving DecidableEq

/-- The weights of the interpolants left and right of an element edge, LinearColumnOperatorFEM.cpp:159-174, 411-426 and
768-783. -/
noncomputable def edgeWeights (bnd : Nat → ℝ) (power a : Nat) : ℝ × ℝ :=
  let dl := bnd (a + 1) - bnd a
  let dr := bnd (a + 2) - bnd (a + 1)
  let el := dl ^ power
  let er := dr ^ power
  (er / (el + er), el / (el + er))

/-- A row of `LinearColumnInterpFEM::Initialize` from interfaces, LinearColumnOperatorFEM.cpp:100-116. -/
noncomputable def interfaceRow (n : Nat) (edge : Nat → ℝ) (m : Nat) (s : ℝ) : Row :=
  let (a, on) := findElement (fun b => edge (b * n)) m s
  if on then ⟨put (fun _ => 0) ((a + 1) * n) [1], (a + 1) * n, (a + 1) * n + 1⟩
  else ⟨put (fun _ => 0) (a * n) (lagrangeCoeffs (n + 1) (fun i => edge (a * n + i)) s), a * n, (a + 1) * n + 1⟩

/-- The first part of a row from levels, LinearColumnOperatorFEM.cpp:121-151.  `N` is the number of levels. -/
noncomputable def levelBase (n N : Nat) (node : Nat → ℝ) (nOut l a : Nat) (s : ℝ) : Option Row :=
  if n = 1 ∧ l = 0 then
    if a + 2 ≤ N then some ⟨put (fun _ => 0) (a * n) (lagrangeCoeffs (n + 1) (fun i => node (a * n + i)) s), a * n, (a + 2) * n⟩
    else none
  else if n = 1 ∧ l = nOut - 1 then
    if 1 ≤ a then
      some ⟨put (fun _ => 0) ((a - 1) * n) (lagrangeCoeffs (n + 1) (fun i => node ((a - 1) * n + i)) s), (a - 1) * n, (a + 1) * n⟩
    else none
  else some ⟨put (fun _ => 0) (a * n) (lagrangeCoeffs n (fun i => node (a * n + i)) s), a * n, (a + 1) * n⟩

/-- A row of `LinearColumnInterpFEM::Initialize` from levels, LinearColumnOperatorFEM.cpp:118-195. -/
noncomputable def levelRow (n N : Nat) (node edge : Nat → ℝ) (m nOut l : Nat) (s : ℝ) : Option Row :=
  let (a, on) := findElement (fun b => edge (b * n)) m s
  (levelBase n N node nOut l a s).bind fun r =>
    if on then
      let w := edgeWeights (fun b => edge (b * n)) n a
      let c := put r.coeff r.iend (lagrangeCoeffs n (fun i => node ((a + 1) * n + i)) s)
      let iend' := r.iend + n
      if iend' ≤ N then
        some ⟨fun k => if r.ibegin ≤ k ∧ k < r.iend then c k * w.1 else if r.iend ≤ k ∧ k < iend' then c k * w.2 else c k,
          r.ibegin, iend'⟩
      else none
    else some r

/-- What an initialisation ends in: an exception, an access outside an array, or the operator. -/
inductive Res where
  | exc
  | ub
  | ok (A : Op)

/-- Rows `lo ≤ l < hi` filled by `f`, the others left as allocated. -/
noncomputable def fill (nIn nOut lo hi : Nat) (f : Nat → Option Row) : Res :=
  if (List.range nOut).all fun l => decide (lo ≤ l ∧ l < hi → (f l).isSome) then
    .ok ⟨nOut, nIn, fun l => if lo ≤ l ∧ l < hi then (f l).getD blank else blank⟩
  else .ub

open Classical in
/-- `LinearColumnInterpFEM::Initialize`, LinearColumnOperatorFEM.cpp:33-205.  With `fZeroBoundaries` the code reads the
first output location, so there must be one. -/
noncomputable def interpInit (src : Source) (n N nEdge : Nat) (node edge : Nat → ℝ) (nOut : Nat) (out : Nat → ℝ)
    (zeroBoundaries : Bool) : Res :=
  if N = 0 then .exc
  else if nEdge ≠ N + 1 then .exc
  else if N % n ≠ 0 then .exc
  else
    let m := N / n
    let lo := if zeroBoundaries ∧ |out 0| < eps then 1 else 0
    let hi := if zeroBoundaries ∧ |out (nOut - 1) - 1| < eps then nOut - 1 else nOut
    match src with
    | .interfaces => fill (N + 1) nOut lo hi fun l => some (interfaceRow n edge m (out l))
    | .levels => fill N nOut lo hi fun l => levelRow n N node edge m nOut l (out l)

/-- A row of derivatives, LinearColumnOperatorFEM.cpp:371-448 (`p` the order, `x` the interfaces) and 728-805 (`p` the
order less one, `x` the levels): element `b` has the points `x (b * p), …, x (b * p + p)`. -/
noncomputable def diffRow (p : Nat) (x : Nat → ℝ) (m : Nat) (s : ℝ) : Row :=
  let (a, on) := findElement (fun b => x (b * p)) m s
  let c := put (fun _ => 0) (a * p) (diffCoeffs (p + 1) (fun i => x (a * p + i)) s)
  if on then
    let w := edgeWeights (fun b => x (b * p)) p a
    let temp := diffCoeffs (p + 1) (fun i => x ((a + 1) * p + i)) s
    let c1 : Nat → ℝ := fun j => if a * p ≤ j ∧ j ≤ a * p + p then c j * w.1 else c j
    let c2 : Nat → ℝ := fun j =>
      if (a + 1) * p ≤ j ∧ j ≤ (a + 1) * p + p then c1 j + w.2 * temp.getD (j - (a + 1) * p) 0 else c1 j
    ⟨c2, a * p, (a + 2) * p + 1⟩
  else ⟨c, a * p, (a + 1) * p + 1⟩

/-- `LinearColumnDiffFEM::InitializeInterfaceMethod`, LinearColumnOperatorFEM.cpp:341-473. -/
noncomputable def diffInterfaceInit (src : Source) (n N nEdge : Nat) (node edge : Nat → ℝ) (nOut : Nat) (out : Nat → ℝ)
    (zeroBoundaries : Bool) : Res :=
  if N = 0 then .exc
  else if nEdge ≠ N + 1 then .exc
  else if N % n ≠ 0 then .exc
  else
    let d : Op := ⟨nOut, N + 1, fun l => diffRow n edge (N / n) (out l)⟩
    match src with
    | .interfaces => .ok d
    | .levels =>
      match interpInit .levels n N nEdge node edge nEdge edge zeroBoundaries with
      | .ok i => match compose d i with
        | some c => .ok c
        | none => .exc
      | r => r

/-- `LinearColumnDiffFEM::InitializeGLLNodes`, LinearColumnOperatorFEM.cpp:703-810; the order is at least two. -/
noncomputable def diffGLLInit (n N : Nat) (node : Nat → ℝ) (nOut : Nat) (out : Nat → ℝ) : Res :=
  if N = 0 then .exc
  else if (N - 1) % (n - 1) ≠ 0 then .exc
  else .ok ⟨nOut, N, fun l => diffRow (n - 1) node ((N - 1) / (n - 1)) (out l)⟩

end Verif.Column
