import Verif.Horiz.Loop

/-!
# Arrays of a patch and the positive definite filter

Models `HorizontalDynamicsFEM::FilterNegativeTracers` (src/atm/HorizontalDynamicsFEM.cpp:213-318; the same code is in
HorizontalDynamicsFEMV2.cpp), compiled in because `POSITIVE_DEFINITE_FILTER_TRACERS` is defined
(src/atm/Defines.h:80).

Simplifications: `double` is the real numbers; arrays are total functions of their indices (the loops stay inside the
interior); one patch, since patches share no array.
-/

namespace Verif.Horiz

/-- Which array of a patch, and which of its components: a state variable (`GetDataState`) or a tracer
(`GetDataTracers`), src/atm/HorizontalDynamicsFEM.cpp:386-397. -/
inductive Var where
  | state (c : Nat)
  | tracer (c : Nat)
deriving DecidableEq

/-- A cell `(c,iA,iB,k)` of the data of a patch. -/
structure Cell where
  v : Var
  iA : Nat
  iB : Nat
  k : Nat
deriving DecidableEq

/-- The data of one instance of a patch, `dataUpdateNode` and `dataUpdateTracer`. -/
abbrev Data := Cell → ℝ

/-- The shape of a patch: horizontal order, number of elements in each direction, number of levels and of tracers and
the halo width, src/atm/HorizontalDynamicsFEM.cpp:220-256. -/
structure Shape where
  order : Nat
  elemA : Nat
  elemB : Nat
  levels : Nat
  tracers : Nat
  halo : Nat

/-- `a * nHorizontalOrder + i + box.GetHaloElements()`, src/atm/HorizontalDynamicsFEM.cpp:274-275 and 415-416. -/
def Shape.at (S : Shape) (a i : Nat) : Nat := a * S.order + i + S.halo

/-- The mass of one element, `dTotalMass`, src/atm/HorizontalDynamicsFEM.cpp:268-287. -/
noncomputable def totalMass (S : Shape) (area : Nat → Nat → Nat → ℝ) (u : Data) (c a b k : Nat) : ℝ :=
  loop S.order (fun i acc => loop S.order (fun j acc =>
    acc + u ⟨.tracer c, S.at a i, S.at b j, k⟩ * area (S.at a i) (S.at b j) k) acc) 0

open Classical in
/-- The mass of the points at which the tracer is not negative, `dNonNegativeMass`,
src/atm/HorizontalDynamicsFEM.cpp:269-287. -/
noncomputable def nonNegativeMass (S : Shape) (area : Nat → Nat → Nat → ℝ) (u : Data) (c a b k : Nat) : ℝ :=
  loop S.order (fun i acc => loop S.order (fun j acc =>
    if u ⟨.tracer c, S.at a i, S.at b j, k⟩ ≥ 0 then
      acc + u ⟨.tracer c, S.at a i, S.at b j, k⟩ * area (S.at a i) (S.at b j) k
    else acc) acc) 0

open Classical in
/-- The update of one point, src/atm/HorizontalDynamicsFEM.cpp:304-308. -/
noncomputable def filterPoint (r : ℝ) (x : Cell) (u : Data) : Data :=
  if u x > 0 then put u x (u x * r) else put u x 0

/-- One element, level and tracer, src/atm/HorizontalDynamicsFEM.cpp:266-310. -/
noncomputable def filterElement (S : Shape) (area : Nat → Nat → Nat → ℝ) (c a b k : Nat) (u : Data) : Data :=
  let r := totalMass S area u c a b k / nonNegativeMass S area u c a b k
  loop S.order (fun i u => loop S.order (fun j u =>
    filterPoint r ⟨.tracer c, S.at a i, S.at b j, k⟩ u) u) u

/-- `FilterNegativeTracers` on one patch, src/atm/HorizontalDynamicsFEM.cpp:259-314. -/
noncomputable def filterTracers (S : Shape) (area : Nat → Nat → Nat → ℝ) (u : Data) : Data :=
  loop S.elemA (fun a u => loop S.elemB (fun b u => loop S.tracers (fun c u => loop S.levels (fun k u =>
    filterElement S area c a b k u) u) u) u) u

end Verif.Horiz
