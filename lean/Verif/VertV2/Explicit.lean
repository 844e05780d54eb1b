/-
Model of the explicit step of the columns of one patch of method `v2` under the fully explicit option
(src/atm/VerticalDynamicsFEMV2.cpp, `StepExplicit` with `m_fFullyExplicit`).

Simplifications: as in `Terms.lean`, whose `termsColumn` (lines 753-760 and 792-846 here are word for word those of
`StepImplicitTermsExplicitly`) and whose `sweep` and `interior` are used, and as in `Advect.lean`.  The volume elements of interfaces
that the advection of horizontal velocity reads, `GetElementAreaREdge`, are a `Schur.Site` too; an access outside of that array is
`ColumnRes.ub`.
-/
import Verif.VertV2.Terms

namespace Verif.ColumnV2

open Verif.Column Verif.Vdyn

variable (solve : BandSolver) (S : Setup)

/-- `m_dXiDotREdge` after the update of tracers, which leaves its own wind there (VerticalDynamicsFEMV2.cpp:4290-4306), or without tracers
after `Evaluate` (2196-2209). -/
noncomputable def fullWind (G : Metric) (D : Data) (M : Memory) (count : Nat) : Nat → ℝ :=
  let M1 := setupColumn S D M
  if count = 0 then xiDotEdge S G M1 M1.state else tracerWind S G M1 (D.node 3) (D.edge 3)

/-- `dDeltaU` (`c = 0`) and `dDeltaV` (`c = 1`), VerticalDynamicsFEMV2.cpp:886-918, with density on interfaces from 783-790: `A` holds
`dElementAreaREdge`, `area` is `dElementAreaNodeNode[i][j]`. -/
noncomputable def windDelta (A : Schur.Site) (area : Nat → ℝ) (xi : Nat → ℝ) (D : Data) (M : Memory) (c k : Nat) : ℝ :=
  (List.range S.levels).foldl (fun d l =>
    d - applyRow S.interpNE (D.node 4) l * A.data (A.address S l A.iA A.iB) * xi l * (S.interpNE.row l).coeff k *
      applyRow S.diffNE ((setupColumn S D M).node c) l) 0 / (D.node 4 k * area k)

/-- Uniform diffusion of horizontal velocity, VerticalDynamicsFEMV2.cpp:1173-1217. -/
noncomputable def windSmooth (D : Data) (M : Memory) (c k : Nat) : ℝ :=
  if S.uniform = true then
    S.dt * (S.nuVector / (S.ztop * S.ztop)) *
      (applyRow S.diffDiffNN ((setupColumn S D M).node c) k - applyRow S.diffDiffNN (D.refNode c) k)
  else 0

/-- One column of `StepExplicit` under the option, VerticalDynamicsFEMV2.cpp:753-1269. -/
noncomputable def fullColumn (G : Metric) (P A : Schur.Site) (area : Nat → ℝ) (D : Data) (M : Memory) (count : Nat)
    (q ref : Nat → Nat → ℝ) (U : Vdyn.State) : ColumnRes :=
  match termsColumn solve S G P true D M count q ref U with
  | .exc => .exc
  | .ub => .ub
  | .ok V =>
    if (List.range S.levels).any (fun l => decide (A.a * A.b * (S.levels + 1) ≤ A.address S l A.iA A.iB)) then .ub
    else .ok { V with
      node := fun c k =>
        if (c = 0 ∨ c = 1) ∧ k < S.levels then
          V.node c k + S.dt * windDelta S A area (fullWind S G D M count) D M c k + windSmooth S D M c k
        else V.node c k }

/-- `StepExplicit` for one patch under the option, VerticalDynamicsFEMV2.cpp:631-1274: `volumes` and `areas` are the arrays of volume
elements and of areas of interfaces. -/
noncomputable def fullPatch (F : Fixed) (a b : Nat) (volumes areas : Nat → ℝ) (area : Place → Nat → ℝ) (count : Nat) (B : Box)
    (init : Columns) (leave : Place → Memory → Memory) (M : Memory) (P : Columns) : PatchRes :=
  sweep (fun M x U => fullColumn solve S (F.metric x) (site a b volumes x) (site a b areas x) (area x) (columnData F x (init x)) M count
    (init x).tracer (F.refTracer x) U) leave (interior B) M P

end Verif.ColumnV2
