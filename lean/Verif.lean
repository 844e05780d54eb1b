import Verif.Acoustic.After
import Verif.Acoustic.Column
import Verif.Acoustic.Combos
import Verif.Acoustic.Conserve
import Verif.Acoustic.Faults
import Verif.Acoustic.Implicit
import Verif.Acoustic.Lemmas
import Verif.Acoustic.Model
import Verif.Acoustic.RestProps
import Verif.Acoustic.Reverse
import Verif.Acoustic.Samples
import Verif.Acoustic.Spec
import Verif.Acoustic.Whole
import Verif.Acoustic.WholeSamples
import Verif.Base.Cli
import Verif.Base.CliProps
import Verif.Base.CliSpec
import Verif.Base.Failure
import Verif.Base.FailureProps
import Verif.Base.Log
import Verif.Base.LogProps
import Verif.Base.LogSpec
import Verif.Base.Prefs
import Verif.Base.PrefsProps
import Verif.Base.PrefsSpec
import Verif.Base.Strings
import Verif.Base.StringsProps
import Verif.Base.StringsSpec
import Verif.Base.Timer
import Verif.Base.TimerProps
import Verif.Base.TimerSpec
import Verif.Cases.ChannelLemmas
import Verif.Cases.Eddy
import Verif.Cases.EddyProps
import Verif.Cases.Examples
import Verif.Cases.Horizontal
import Verif.Cases.Instability
import Verif.Cases.InstabilityProps
import Verif.Cases.InstabilityTurned
import Verif.Cases.Jet
import Verif.Cases.JetLemmas
import Verif.Cases.JetProps
import Verif.Cases.Lemmas
import Verif.Cases.Model
import Verif.Cases.Props
import Verif.Cases.PropsWave
import Verif.Cases.ReliefProps
import Verif.Cases.Shallow
import Verif.Cases.ShallowProps
import Verif.Cases.Spec
import Verif.Cases.Sponge
import Verif.Cases.SpongeProps
import Verif.Cases.WaveLemmas
import Verif.Checksum.Lemmas
import Verif.Checksum.Model
import Verif.Checksum.Props
import Verif.Checksum.Spec
import Verif.Column.Correction
import Verif.Column.CorrectionProps
import Verif.Column.CorrectionSpec
import Verif.Column.DiffDiff
import Verif.Column.DiffDiffProps
import Verif.Column.DiffDiffShared
import Verif.Column.DiffDiffSpec
import Verif.Column.Fem
import Verif.Column.FemLemmas
import Verif.Column.FemProps
import Verif.Column.FemSpec
import Verif.Column.Flux
import Verif.Column.FluxAdjoint
import Verif.Column.FluxProps
import Verif.Column.FluxSpec
import Verif.Column.Model
import Verif.Column.Penalty
import Verif.Column.PenaltyProps
import Verif.Column.PenaltySpec
import Verif.Column.Props
import Verif.Column.Recon
import Verif.Column.ReconProps
import Verif.Column.Spec
import Verif.Column.Variational
import Verif.Column.VariationalProps
import Verif.Consol.Lemmas
import Verif.Consol.Model
import Verif.Consol.Props
import Verif.Consol.Spec
import Verif.Container.Lemmas
import Verif.Container.Model
import Verif.Container.Props
import Verif.Container.Spec
import Verif.Container.Struct
import Verif.Container.StructProps
import Verif.Deep.Agree
import Verif.Deep.Columns
import Verif.Deep.Model
import Verif.Deep.Nodes
import Verif.Deep.Props
import Verif.Deep.Rest
import Verif.Deep.RestColumns
import Verif.Deep.RestProps
import Verif.Deep.RestRuns
import Verif.Deep.RestSamples
import Verif.Deep.RestSpec
import Verif.Deep.Runs
import Verif.Deep.Samples
import Verif.Deep.Spec
import Verif.Dss.Lemmas
import Verif.Dss.Model
import Verif.Dss.Props
import Verif.Dss.Spec
import Verif.Exchange.Lemmas
import Verif.Exchange.Links
import Verif.Exchange.Model
import Verif.Exchange.PatchLemmas
import Verif.Exchange.Props
import Verif.Exchange.Spec
import Verif.Forcing.False
import Verif.Forcing.Lemmas
import Verif.Forcing.Model
import Verif.Forcing.Props
import Verif.Forcing.Spec
import Verif.Halo.Copies
import Verif.Halo.Corner
import Verif.Halo.Lemmas
import Verif.Halo.Line
import Verif.Halo.Means
import Verif.Halo.Model
import Verif.Halo.Props
import Verif.Halo.Setting
import Verif.Halo.Spec
import Verif.Halo.Strips
import Verif.Horiz.Basis
import Verif.Horiz.BasisProps
import Verif.Horiz.Congr
import Verif.Horiz.Diffusion
import Verif.Horiz.DiffusionLemmas
import Verif.Horiz.DiffusionProps
import Verif.Horiz.DiffusionSamples
import Verif.Horiz.DiffusionSpec
import Verif.Horiz.FilterLemmas
import Verif.Horiz.FilterProps
import Verif.Horiz.Loop
import Verif.Horiz.Model
import Verif.Horiz.Nest
import Verif.Horiz.PartsLemmas
import Verif.Horiz.Rayleigh
import Verif.Horiz.RayleighProps
import Verif.Horiz.Shallow
import Verif.Horiz.ShallowFour
import Verif.Horiz.ShallowLemmas
import Verif.Horiz.ShallowProps
import Verif.Horiz.Spec
import Verif.Horiz.SubCycle
import Verif.Horiz.SubCycleProps
import Verif.Horiz.Vector
import Verif.Horiz.VectorProps
import Verif.Horiz.Vorticity
import Verif.Horiz.VorticityProps
import Verif.HorizV2.Faults
import Verif.HorizV2.FaultsFalse
import Verif.HorizV2.Keep
import Verif.HorizV2.Model
import Verif.HorizV2.Props
import Verif.HorizV2.Same
import Verif.HorizV2.SameViscous
import Verif.HorizV2.Samples
import Verif.HorizV2.Spec
import Verif.HorizV2.Uniform
import Verif.Init.Lemmas
import Verif.Init.Model
import Verif.Init.Passes
import Verif.Init.PerturbLemmas
import Verif.Init.PerturbProps
import Verif.Init.Points
import Verif.Init.Props
import Verif.Init.Samples
import Verif.Init.Spec
import Verif.Init.Whole
import Verif.Interp.Lemmas
import Verif.Interp.Model
import Verif.Interp.Props
import Verif.Interp.Spec
import Verif.Legendre.Finder
import Verif.Legendre.FinderLemmas
import Verif.Legendre.FinderProps
import Verif.Legendre.Integral
import Verif.Legendre.Lemmas
import Verif.Legendre.Model
import Verif.Legendre.Props
import Verif.Legendre.Spec
import Verif.Mem.Lemmas
import Verif.Mem.Model
import Verif.Mem.Props
import Verif.Mem.Spec
import Verif.Metric.Gnomonic
import Verif.Metric.HeightLemmas
import Verif.Metric.Lemmas
import Verif.Metric.Model
import Verif.Metric.Props
import Verif.Metric.PropsArea
import Verif.Metric.PropsGnomonic
import Verif.Metric.PropsHeight
import Verif.Metric.PropsTopo
import Verif.Metric.Samples
import Verif.Metric.Spec
import Verif.Newton.Bicg
import Verif.Newton.BicgProps
import Verif.Newton.Gmres
import Verif.Newton.GmresDone
import Verif.Newton.GmresProps
import Verif.Newton.GmresSpace
import Verif.Newton.Object
import Verif.Newton.ObjectProps
import Verif.Nonhydro.Explicit
import Verif.Nonhydro.ExplicitLemmas
import Verif.Nonhydro.ExplicitMore
import Verif.Nonhydro.ExplicitProps
import Verif.Nonhydro.ExplicitSamples
import Verif.Nonhydro.ExplicitSpec
import Verif.Nonhydro.Lemmas
import Verif.Nonhydro.Model
import Verif.Nonhydro.Prepare
import Verif.Nonhydro.Props
import Verif.Nonhydro.PropsMore
import Verif.Nonhydro.Samples
import Verif.Nonhydro.Spec
import Verif.Norms.Lemmas
import Verif.Norms.Model
import Verif.Norms.Props
import Verif.Norms.Samples
import Verif.Norms.Spec
import Verif.Num.ISqrt
import Verif.Num.ISqrtProps
import Verif.Outref.Lemmas
import Verif.Outref.Loops
import Verif.Outref.Model
import Verif.Outref.Props
import Verif.Outref.PropsFalse
import Verif.Outref.PropsValues
import Verif.Outref.Spec
import Verif.Outref.Values
import Verif.Panel.Model
import Verif.Panel.Props
import Verif.Panel.Spec
import Verif.Patch.ConnLemmas
import Verif.Patch.CornerLemmas
import Verif.Patch.LinkLemmas
import Verif.Patch.LinkSpec
import Verif.Patch.Model
import Verif.Patch.PropsBox
import Verif.Patch.PropsConn
import Verif.Patch.PropsDist
import Verif.Patch.PropsLayout
import Verif.Patch.PropsLink
import Verif.Patch.PropsLookup
import Verif.Patch.SegLemmas
import Verif.Patch.Spec
import Verif.Physics.Kessler
import Verif.Physics.KesslerProps
import Verif.Physics.KesslerRun
import Verif.Physics.KesslerSpec
import Verif.Physics.Moist
import Verif.Physics.MoistProps
import Verif.Physics.Simple
import Verif.Physics.SimpleProps
import Verif.Physics.SimpleRun
import Verif.Physics.Terminator
import Verif.Physics.TerminatorProps
import Verif.Physics.TerminatorRun
import Verif.Physics.TerminatorSpec
import Verif.Quad.Lobatto
import Verif.Quad.Model
import Verif.Quad.Props
import Verif.Quad.Roots
import Verif.Quad.Spec
import Verif.Quad.Weights
import Verif.Registry.AttachLemmas
import Verif.Registry.Lemmas
import Verif.Registry.Model
import Verif.Registry.Props
import Verif.Registry.Spec
import Verif.Registry.WaitLemmas
import Verif.Restart.Lemmas
import Verif.Restart.Lemmas2
import Verif.Restart.Model
import Verif.Restart.Props
import Verif.Restart.PropsResume
import Verif.Restart.Spec
import Verif.Rich.Model
import Verif.Rich.Props
import Verif.Rich.Spec
import Verif.Run.Lemmas
import Verif.Run.Model
import Verif.Run.Props
import Verif.Run.Spec
import Verif.Schur.Copies
import Verif.Schur.CopiesProps
import Verif.Schur.CopiesSpec
import Verif.Schur.Elimination
import Verif.Schur.FalseProps
import Verif.Schur.Lemmas
import Verif.Schur.Model
import Verif.Schur.Props
import Verif.Schur.Rows
import Verif.Schur.Solve
import Verif.Schur.Spec
import Verif.Schur.Step
import Verif.Schur.Tracer
import Verif.Schur.TracerProps
import Verif.Schur.TracerSpec
import Verif.Schur.TracerWitness
import Verif.Schur.Witness
import Verif.Schur.WitnessFourth
import Verif.Sphere.LonLat
import Verif.Sphere.Model
import Verif.Sphere.PanelLemmas
import Verif.Sphere.PropsCross
import Verif.Sphere.PropsLonLat
import Verif.Sphere.PropsPanel
import Verif.Sphere.PropsPoint
import Verif.Sphere.PropsTangent
import Verif.Sphere.PropsVector
import Verif.Sphere.Spec
import Verif.Steps.Clock
import Verif.Steps.ClockEval
import Verif.Steps.Flow
import Verif.Steps.Lemmas
import Verif.Steps.Model
import Verif.Steps.Programs
import Verif.Steps.PropsConst
import Verif.Steps.PropsFlow
import Verif.Steps.PropsKeep
import Verif.Steps.PropsMethod
import Verif.Steps.PropsStale
import Verif.Steps.Relate
import Verif.Steps.RelateRuns
import Verif.Steps.Schemes
import Verif.Steps.Settle
import Verif.Steps.Spec
import Verif.Steps.Symbolic
import Verif.Steps.Tableaux
import Verif.Steps.WeightEval
import Verif.Steps.Weights
import Verif.Thermo.Constants
import Verif.Thermo.ConstantsProps
import Verif.Thermo.Diagnostics
import Verif.Thermo.DiagnosticsFalse
import Verif.Thermo.DiagnosticsLemmas
import Verif.Thermo.DiagnosticsProps
import Verif.Thermo.DiagnosticsSpec
import Verif.Thermo.DiagnosticsVariation
import Verif.Time.Lemmas
import Verif.Time.Model
import Verif.Time.Props
import Verif.Time.Spec
import Verif.Time.StringLemmas
import Verif.Time.StringModel
import Verif.Time.StringProps
import Verif.Vars.Model
import Verif.Vars.Props
import Verif.Vdyn.Band
import Verif.Vdyn.Energy
import Verif.Vdyn.Examples
import Verif.Vdyn.Explicit
import Verif.Vdyn.ExplicitProps
import Verif.Vdyn.ExplicitSpec
import Verif.Vdyn.Implicit
import Verif.Vdyn.ImplicitExamples
import Verif.Vdyn.ImplicitLemmas
import Verif.Vdyn.ImplicitProps
import Verif.Vdyn.ImplicitSpec
import Verif.Vdyn.Jacobian
import Verif.Vdyn.JacobianExamples
import Verif.Vdyn.JacobianLemmas
import Verif.Vdyn.JacobianProps
import Verif.Vdyn.JacobianSpec
import Verif.Vdyn.Lemmas
import Verif.Vdyn.Model
import Verif.Vdyn.Patch
import Verif.Vdyn.PatchLemmas
import Verif.Vdyn.PatchProps
import Verif.Vdyn.PatchSpec
import Verif.Vdyn.Props
import Verif.Vdyn.Spec
import Verif.Vdyn.Tracer
import Verif.Vdyn.TracerExamples
import Verif.Vdyn.TracerLemmas
import Verif.Vdyn.TracerProps
import Verif.Vdyn.TracerSpec
import Verif.Vert.Lemmas
import Verif.Vert.Model
import Verif.Vert.PropsLevels
import Verif.Vert.PropsSpacing
import Verif.Vert.PropsStretch
import Verif.Vert.Rules
import Verif.Vert.Spec
import Verif.VertV2.Advect
import Verif.VertV2.AdvectFalse
import Verif.VertV2.AdvectProps
import Verif.VertV2.AdvectSpec
import Verif.VertV2.Column
import Verif.VertV2.ColumnExamples
import Verif.VertV2.ColumnJacobian
import Verif.VertV2.ColumnProps
import Verif.VertV2.ColumnSpec
import Verif.VertV2.Explicit
import Verif.VertV2.ExplicitProps
import Verif.VertV2.ExplicitSpec
import Verif.VertV2.Implicit
import Verif.VertV2.ImplicitExamples
import Verif.VertV2.ImplicitLemmas
import Verif.VertV2.ImplicitProps
import Verif.VertV2.Terms
import Verif.VertV2.TermsExamples
import Verif.VertV2.TermsProps
import Verif.VertV2.TermsSpec
import Verif.VertV2.Tracer
import Verif.VertV2.TracerExamples
import Verif.VertV2.TracerProps
import Verif.VertV2.TracerSpec
import Verif.Wall.Average
import Verif.Wall.Lemmas
import Verif.Wall.Model
import Verif.Wall.Props
import Verif.Wall.Samples
import Verif.Wall.Spec
import Verif.Whole.Areas
import Verif.Whole.Conserve
import Verif.Whole.Cubed
import Verif.Whole.CubedProps
import Verif.Whole.Exist
import Verif.Whole.Flat
import Verif.Whole.Grids
import Verif.Whole.Layout
import Verif.Whole.LayoutProps
import Verif.Whole.LayoutSamples
import Verif.Whole.LayoutSpec
import Verif.Whole.Means
import Verif.Whole.Model
import Verif.Whole.Mutual
import Verif.Whole.PointProps
import Verif.Whole.PointSamples
import Verif.Whole.Points
import Verif.Whole.Props
import Verif.Whole.Rest
import Verif.Whole.Runs
import Verif.Whole.Samples
import Verif.Whole.SingleProps
import Verif.Whole.SingleSpec
import Verif.Whole.Spec
import Verif.Whole.Summation
import Verif.Whole.Tiling
import Verif.Whole.Vectors
