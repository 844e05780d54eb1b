/-
Model of how the other two vertical dynamics copy columns to the nodes they are shared by, at the end of the implicit step of a patch
(src/atm/VerticalDynamicsSchur.cpp and src/atm/VerticalDynamicsFEMV2.cpp, `StepImplicit`).

Simplifications: `double` is the real numbers.  An array of the patch is a function from addresses, with a size.  The arrays of
levels, of interfaces and of tracers are apart, so that the statements about each of them are listed by themselves, in their order.
-/
import Verif.Vdyn.Patch

namespace Verif.Schur

open Verif.Vdyn

/-- The sizes of an array after the first (component): nodes in alpha and beta direction with halo, levels or interfaces
(GridPatch.cpp:343-391). -/
structure Sizes where
  a : Nat
  b : Nat
  r : Nat

/-- `[c][i][j][k]`, DataArray4D.h:507-526. -/
def Sizes.at (s : Sizes) (c i j k : Nat) : Nat := c * s.a * s.b * s.r + i * s.b * s.r + j * s.r + k

/-- Statements `x[d] = x[s]`, one after the other, on an array of `size` numbers; `none` is an access outside of it. -/
noncomputable def copies (size : Nat) (m : Nat → ℝ) : List (Nat × Nat) → Option (Nat → ℝ)
  | [] => some m
  | (d, s) :: l => if d < size ∧ s < size then copies size (Function.update m d (m s)) l else none

/-- The columns of edges of constant alpha, VerticalDynamicsSchur.cpp:1869-1887 and VerticalDynamicsFEMV2.cpp:1675-1693. -/
def alphaEdges (B : Box) (p : Nat) : List Place :=
  let nA := B.aWidth / p
  let nB := B.bWidth / p
  (List.range' 1 (nA - 1)).flatMap fun a => (List.range nB).flatMap fun b => (List.range (if b = nB - 1 then p else p - 1)).map fun j =>
    (B.aBegin + a * p - 1, B.bBegin + b * p + j)

/-- The columns of edges of constant beta, VerticalDynamicsSchur.cpp:1923-1925 and VerticalDynamicsFEMV2.cpp:1729-1731. -/
def betaEdges (B : Box) (p : Nat) : List Place :=
  let nB := B.bWidth / p
  (List.range' 1 (nB - 1)).flatMap fun b => (List.range' B.aBegin B.aWidth).map fun i => (i, B.bBegin + b * p - 1)

/-- The statements of VerticalDynamicsSchur.cpp:1868-1961 about one array, `cs` its components that are copied (density times
potential temperature, vertical velocity and density of levels and interfaces; every tracer) and `s.r` its last size. -/
def schurCopies (s : Sizes) (B : Box) (p : Nat) (cs : List Nat) : List (Nat × Nat) :=
  ((alphaEdges B p).flatMap fun x => (List.range s.r).flatMap fun k => cs.map fun c => (s.at c x.1 x.2 k, s.at c k (x.1 + 1) x.2)) ++
  (betaEdges B p).flatMap fun x => (List.range s.r).flatMap fun k => cs.map fun c => (s.at c k x.1 x.2, s.at c k x.1 (x.2 + 1))

/-- The statements of VerticalDynamicsFEMV2.cpp:1674-1767 about one array. -/
def secondCopies (s : Sizes) (B : Box) (p : Nat) (cs : List Nat) : List (Nat × Nat) :=
  ((alphaEdges B p).flatMap fun x => (List.range s.r).flatMap fun k => cs.map fun c => (s.at c x.1 x.2 k, s.at c (x.1 + 1) x.2 k)) ++
  (betaEdges B p).flatMap fun x => (List.range s.r).flatMap fun k => cs.map fun c => (s.at c k x.1 x.2, s.at c x.1 (x.2 + 1) k)

/-- The copies of `VerticalDynamicsSchur` in an array of `n` components. -/
noncomputable def schurShare (s : Sizes) (B : Box) (p n : Nat) (cs : List Nat) (m : Nat → ℝ) : Option (Nat → ℝ) :=
  copies (n * s.a * s.b * s.r) m (schurCopies s B p cs)

/-- The copies of `VerticalDynamicsFEMV2` in an array of `n` components. -/
noncomputable def secondShare (s : Sizes) (B : Box) (p n : Nat) (cs : List Nat) (m : Nat → ℝ) : Option (Nat → ℝ) :=
  copies (n * s.a * s.b * s.r) m (secondCopies s B p cs)

end Verif.Schur
