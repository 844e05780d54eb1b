/-
All time-stepping schemes of the model in one type.
-/
import Verif.Steps.Model

namespace Verif.Steps

/-- `ExplicitDiscretization`, TimestepSchemeERK.h:40-46 and TimestepSchemeStrang.h:40-46. -/
inductive Erk
  | forwardEuler
  | rungeKutta4
  | rungeKuttaSSP3
  | kinnmarkGrayUllrich35
  | rungeKuttaSSPRK53

/-- The block of calls selected by the discretization, TimestepSchemeERK.cpp:163-294. -/
def Erk.block {K : Type*} [Field K] : Erk → (Nat → Nat → K → List (Cmd K)) → K → List (Cmd K)
  | .forwardEuler => Steps.forwardEuler
  | .rungeKutta4 => rk4
  | .rungeKuttaSSP3 => ssp3
  | .kinnmarkGrayUllrich35 => kgu35
  | .rungeKuttaSSPRK53 => ssprk53

/-- The schemes with their constants (which the theorems either leave arbitrary or instantiate). -/
inductive Scheme (K : Type*)
  | erk (m : Erk)
  | strang (m : Erk) (oc : K) (first last : Bool)
  | ars222 (γ δ : K)
  | ars232 (γ δ : K)
  | ars343 (T : Tab343 K)
  | ars343b (T : Tab343 K)
  | ars443
  | ssp3332 (γ : K)
  | gark2 (γ α : K)
  | ark232 (γ δ α : K)
  | ark4
  | splitExp (ns : Nat)

/-- The calls of `Step`. -/
def Scheme.prog {K : Type*} [Field K] : Scheme K → K → List (Cmd K)
  | .erk m => erkStep m.block
  | .strang m oc first last => strangStep oc m.block first last
  | .ars222 γ δ => Steps.ars222 γ δ
  | .ars232 γ δ => Steps.ars232 γ δ
  | .ars343 T => Steps.ars343 T
  | .ars343b T => Steps.ars343b T
  | .ars443 => Steps.ars443
  | .ssp3332 γ => Steps.ssp3332 γ
  | .gark2 γ α => Steps.gark2 γ α
  | .ark232 γ δ α => Steps.ark232 γ δ α
  | .ark4 => Steps.ark4
  | .splitExp ns => Steps.splitExp ns

/-- The calls of all steps of a run with the Strang scheme: `Model::Go` passes `fFirstStep` for the first and
`fLastStep` for the last call of `Step` (Model.cpp:389-420, 517).  The calls between the steps (output and workflow
processes) are left out. -/
def strangRun {K : Type*} [Field K] (oc : K) (m : Erk) : Bool → List K → List (Cmd K)
  | _, [] => []
  | first, [dt] => strangStep oc m.block first true dt
  | first, dt :: dt' :: dts => strangStep oc m.block first false dt ++ strangRun oc m false (dt' :: dts)

/-- `GetComponentDataInstances` and `GetTracerDataInstances`: TimestepSchemeERK.h:61-70, Strang.h:62-71,
ARS222.h:48-57, ARS232.h:48-57, ARS343.h:48-57, ARS343b.h:48-57, ARS443.h:48-57, SSP3332.h:48-57, GARK2.h:48-57,
ARK232.h:51-60, ARK4.h:48-57, SplitExp.h:48-57. -/
def Scheme.slots {K : Type*} : Scheme K → Nat
  | .erk _ => 5
  | .strang .. => 5
  | .ars222 .. => 4
  | .ars232 .. => 7
  | .ars343 _ => 7
  | .ars343b _ => 7
  | .ars443 => 10
  | .ssp3332 _ => 9
  | .gark2 .. => 5
  | .ark232 .. => 8
  | .ark4 => 14
  | .splitExp _ => 6

end Verif.Steps
