/-
Model of the implicit terms taken explicitly, and of the loop over columns of the implicit step, of one patch of method `v2`
(src/atm/VerticalDynamicsFEMV2.cpp, `StepImplicitTermsExplicitly` and `StepImplicit`).

Simplifications: as in `Column.lean`, `Implicit.lean`, `Tracer.lean` and `Vdyn/Explicit.lean`, whose `addTerms` (word for word 553-605
here), `sweep` and `interior`, and whose `stepPlaces` of `Vdyn/Patch.lean` (word for word 1417-1447 here) are used.
`EXPLICIT_VERTICAL_VELOCITY_ADVECTION` and `EXPLICIT_THERMO` are not defined.  In `StepImplicitTermsExplicitly` the initial data and the
data to update are different arrays, as in all time steppers.  What `StepImplicit` does after the loop, the copies of shared columns, is
the model of C132.
-/
import Verif.VertV2.Tracer
import Verif.Vdyn.Explicit

namespace Verif.ColumnV2

open Verif.Column Verif.Vdyn

variable (solve : BandSolver) (S : Setup)

/-- One column of `StepImplicitTermsExplicitly`, VerticalDynamicsFEMV2.cpp:536-617: `fullyExplicit` is the option, which only the update of
tracers asks for. -/
noncomputable def termsColumn (G : Metric) (P : Schur.Site) (fullyExplicit : Bool) (D : Data) (M : Memory) (count : Nat)
    (q ref : Nat → Nat → ℝ) (U : Vdyn.State) : ColumnRes :=
  let M1 := setupColumn S D M
  let V := addTerms S (residual S G M1 M1.state) U
  match updateTracers S G P M1 solve fullyExplicit D V count q ref V.tracer with
  | .exc => .exc
  | .ub => .ub
  | .ok t => .ok { V with tracer := t }

/-- One column of the loop of `StepImplicit`, VerticalDynamicsFEMV2.cpp:1449-1668: `D` is the initial column, `q` its tracers, `U` the
column to update. -/
noncomputable def stepColumn (G : Metric) (P : Schur.Site) (D : Data) (M : Memory) (count : Nat) (q ref : Nat → Nat → ℝ) (U : Vdyn.State) :
    ColumnRes :=
  match implicitColumn solve S G D M U with
  | none => .exc
  | some V =>
    match updateTracers S G P (setupColumn S D M) solve false D V count q ref V.tracer with
    | .exc => .exc
    | .ub => .ub
    | .ok t => .ok { V with tracer := t }

/-- The place `x` in a patch with `a` by `b` columns and the array `volumes`: `m_iA`, `m_iB` and `dJacobianREdge`,
VerticalDynamicsFEMV2.cpp:1799-1800 and 4092-4093. -/
def site (a b : Nat) (volumes : Nat → ℝ) (x : Place) : Schur.Site := ⟨a, b, x.1, x.2, volumes⟩

/-- `StepImplicitTermsExplicitly` for one patch, VerticalDynamicsFEMV2.cpp:447-623. -/
noncomputable def termsPatch (F : Fixed) (a b : Nat) (volumes : Nat → ℝ) (count : Nat) (fullyExplicit : Bool) (B : Box) (init : Columns)
    (leave : Place → Memory → Memory) (M : Memory) (P : Columns) : PatchRes :=
  sweep (fun M x U => termsColumn solve S (F.metric x) (site a b volumes x) fullyExplicit (columnData F x (init x)) M count
    (init x).tracer (F.refTracer x) U) leave (interior B) M P

/-- The loop over columns of `StepImplicit` for one patch, VerticalDynamicsFEMV2.cpp:1352-1673: `p` is `m_nHorizontalOrder`; `same` says
that initial data and data to update are the same arrays. -/
noncomputable def stepPatch (F : Fixed) (a b : Nat) (volumes : Nat → ℝ) (count : Nat) (fullyExplicit : Bool) (B : Box) (p : Nat)
    (same : Bool) (init : Columns) (leave : Place → Memory → Memory) (M : Memory) (P : Columns) : PatchRes :=
  if fullyExplicit then .ok P
  else sweep (fun M x U => stepColumn solve S (F.metric x) (site a b volumes x) (columnData F x (if same then U else init x)) M count
    (if same then U else init x).tracer (F.refTracer x) U) leave (stepPlaces B p) M P

end Verif.ColumnV2
