/-
Construction, initialisation and use of the Newton solver
(src/atm/JacobianFreeNewtonKrylov.cpp and .h).
-/
import Verif.Newton.Gmres

namespace Verif.Newton

/-- What initialisation stores (JacobianFreeNewtonKrylov.cpp:58-61). -/
structure Params where
  count : Nat
  iter : Nat
  eps : ℝ

/-- The object: m_fInitialized, indeterminate before it is assigned, and what is stored.  The length of m_dG is the number
of equations, zero before it is allocated. -/
structure Object where
  flag : Option Bool
  params : Option Params

/-- The default constructor (JacobianFreeNewtonKrylov.cpp:25-27). -/
def Object.plain : Object := ⟨some false, none⟩

/-- The object in which the second constructor initialises: the flag is not assigned
(JacobianFreeNewtonKrylov.cpp:31-37). -/
def Object.raw : Object := ⟨none, none⟩

/-- InitializeJFNK (JacobianFreeNewtonKrylov.cpp:41-88): an array without elements is not allocated (src/base/DataArray1D.h:114-119);
simplified: counts are not negative and there is enough memory. -/
def Object.init (O : Object) (p : Params) : Out Object :=
  match O.flag with
  | none => .undefined
  | some true => .thrown
  | some false => if p.iter < p.count ∨ p.count = 0 then .thrown else .ret ⟨some true, some p⟩

/-- The constructor with arguments (JacobianFreeNewtonKrylov.cpp:31-37). -/
def Object.construct (p : Params) : Out Object := Object.raw.init p

/-- GetRows of m_dG (JacobianFreeNewtonKrylov.h:107 and 141). -/
def Object.rows (O : Object) : Nat :=
  match O.params with
  | some p => p.count
  | none => 0

/-- The checks before a step on a vector of `len` elements, and with what the step is done
(JacobianFreeNewtonKrylov.h:101-114 and 135-148, JacobianFreeNewtonKrylov.cpp:159-162 and 349-352). -/
def Object.step (O : Object) (len : Nat) : Out Params :=
  if len ≠ O.rows then .thrown
  else
    match O.flag with
    | none => .undefined
    | some false => .thrown
    | some true =>
      match O.params with
      | some p => .ret p
      | none => .undefined

/-- A call by the user of the object. -/
inductive Call where
  | init (p : Params)
  | step (len : Nat)

/-- The object after a call that returns or throws: a call that throws changes nothing. -/
def Object.after (O : Object) : Call → Object
  | .init p =>
    match O.init p with
    | .ret Q => Q
    | _ => O
  | .step _ => O

/-- The object after calls in order. -/
def Object.run (O : Object) (calls : List Call) : Object := calls.foldl Object.after O

end Verif.Newton
