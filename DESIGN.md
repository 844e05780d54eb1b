# Formal model of tempestmodel in Lean 4 — design

Source modelled: `/repo` (paullric/tempestmodel, pinned commit), C++.  Nothing is built or run;
the tie to the code is the citation (`file:lines`) carried by every model definition.

## Layout

* `lean/Verif/<Area>/Model.lean` — executable (or, over `ℝ`/a field, mathematical) model, function by
  function, each definition citing the lines it models and the simplifications it makes.
* `lean/Verif/<Area>/Spec.lean` — small independent vocabulary used by the property statements
  (only where the plain statement needs one).
* `lean/Verif/<Area>/Lemmas.lean` — helper lemmas.
* `lean/Verif/<Area>/Props.lean` — the property theorems, named `Cnn_...`, with non-vacuity examples.

A theorem named `..._partial` proves less than the English property; `..._false`/`..._counterexample`
theorems prove that the code (as modelled) violates the English property, with a concrete witness.

## Trusted base

* Lean 4.33.0's kernel (and the gate's re-check of every constant).
* Axioms: only `propext`, `Classical.choice`, `Quot.sound` (Lean's standard ones).  No own axioms, no
  `sorry`, no `native_decide`, no `bv_decide`.
* The reading of the C++ by hand into Lean.  Standing modelling conventions:
  - C++ `int` is modelled as `Int` and sizes as `Nat` (no overflow) unless the property is about
    overflow (ISqrt uses 32-bit wrap-around arithmetic).
  - C++ `/` and `%` on ints are modelled as truncating division (`Int.tdiv`, `Int.tmod`).
  - `double` is modelled as an exact field element (`ℚ`, `ℝ` or any field): rounding is NOT modelled.
    Decimal literals are modelled as the exact rational they denote.
  - An `_EXCEPTION` is modelled as `Except.error`/`none`; undefined behaviour is a distinct outcome
    where it can be reached.
  - MPI is modelled as reliable delivery in an arbitrary order chosen by the environment.

## Per-property plan

| id | modelled | method |
|---|---|---|
| C01 | `Time` record, `NormalizeTime` loops as well-founded recursion with fuel-free carry | case analysis + loop invariant; negative-field failures as counterexamples |
| C02 | same + `GetSeconds` as integer microseconds | invariant: elapsed microseconds preserved by each carry |
| C03 | comparison operators field by field | lexicographic order lemma, link to elapsed time |
| C04 | `operator-`, `GetSeconds` over ℚ | algebra from closed form of elapsed time |
| C05 | printf/atoi of fixed-width decimal digits as `List Char` functions | digit round-trip lemma |
| C06 | `ToFreeString` and the Free state of `FromFormattedString` | digit-run parser lemma |
| C07 | leap rule of NormalizeTime/VerifyTime | false: witness year; partial: agrees off century years |
| C08 | `Model::Go` time loop, time abstracted to elapsed integer microseconds by C02/C03 | well-founded measure end − now, induction |
| C09–C12 | OutputManager/WorkflowProcess state machines driven by the loop | invariants by induction over steps |
| C13–C14 | DataContainer as state machine over a heap of blocks | induction over chunk list / op list |
| C15 | offset functions | mixed-radix arithmetic |
| C16–C17 | DataArray1D..4D as state machine over a heap | invariants, counterexample for 2D self-assignment |
| C18 | LinearCombineData over slots | fold lemma |
| C19–C21 | Pack/Unpack loops as index enumerations; arrays as functions | pointwise equality of enumerations, frame |
| C22–C23 | registry allocation, WaitReceive with oracle | induction over lists / schedules |
| C24 | segmentation loop | induction over the neighbour list |
| C25–C27 | default layouts, lookup with cache, distribution | arithmetic, induction |
| C28–C29 | tags, receive status matrix | bit arithmetic, induction over arrivals |
| C30–C32 | direction tables and RelativeCoord | finite table (decide) + omega for all N; real algebra for edges |
| C33–C36 | coordinate and vector transforms over ℝ | field_simp/ring, sqrt/arctan identities |
| C37 | ISqrt on 32-bit words | bit-loop invariant |
| C38–C39 | Lagrange / derivative coefficient loops over a field | Mathlib Lagrange uniqueness |
| C40 | Legendre evaluator | recurrence, polynomial identities, HasDerivAt |
| C41 | quadrature tables as exact decimals | bounded residual for each table entry, linearity; false for Gauss n=9 |
| C42–C49 | time-step drivers as programs over named slots in a vector space with abstract dynamics | symbolic execution (module/ring normalisation); counterexamples by concrete dynamics |
| C50–C52 | stretching, vertical coordinate, grid spacing over ℝ/ℚ | algebra, telescoping sums, induction |
| C53 | column operator | finite sums |
| C54–C57 | parsers and bookkeeping state machines | list induction |
| C58–C59 | DSS sweep, checksum reductions | induction, commutative-monoid sums |
| C60–C61 | box arithmetic, variable counters | omega, list induction |
| C62–C64 | durations, short and display strings, file names | digit lemmas, elapsed time; counterexamples |
| C65–C66 | slots named by each scheme; instance check of the exchange | program traversal; counterexample |
| C67–C68 | layout, lookup, connection building and packing chained together | composition of C19, C20, C24–C26, C30–C32; counterexample for deep corners |
| C69–C72 | finite element, reconstruction and variational column operators | Lagrange uniqueness, telescoping, summation by parts |
| C73 | `FilterNegativeTracers` loops | fold lemmas; counterexample for negative element mass |
| C74 | `StepShallowWater` loops | each loop writes each cell once; discrete integration by parts |
| C75–C76 | scalar and vector hyperdiffusion | as C74, quadratic forms |
| C77 | `ApplyRayleighFriction` | induction over sub-cycles, exponential bound |
| C78 | `StepAfterSubCycle` over data slots, averaging as any symmetric idempotent map | composition of C75, C76 |
| C79–C80 | `EvaluateGeometricTerms`, heights, friction strength, Coriolis of both grids | real algebra, HasDerivAt, monotonicity; counterexamples |
| C81 | `EvaluateTopography`, `EvaluateCoriolis` | polynomial exactness (C39), panel to sphere maps (C36) |
| C82 | `GnomonicGridAngle`, `GnomonicElementArea` | fundamental theorem of calculus twice |
| C83 | `StepNonhydrostaticPrimitive`: interpolations, level loops, interface loops | column by column, discrete integration by parts; counterexamples |
| C84 | `StepExplicit` over numbered states: choice of equations, uniform diffusion, filter | composition of C73 to C76 and C83; difference to the step without diffusion |
| C85 | `PhysicalConstants` as a state machine of setters, its conversions over the reals | induction over the history; real powers, derivative |
| C86 | the diagnostics of `GridPatch` and the totals of `Grid` | loops as sums, ideal gas from C85, derivative along a tendency; counterexamples |
| C87 | `FluxCorrectionFunction::GetDerivatives`, `LinearColumnDiscPenaltyFEM` | conditions on the correction determine it (orthogonality and integration by parts); summation by parts over Gauss nodes; LAPACK DGESV is a parameter that solves nonsingular systems |
| C88 | `LinearColumnDiffFEM::InitializeFluxCorrectionMethod` | rows as sums of element values; the correction is lumped into the edge at Gauss-Lobatto points, then integration by parts element by element; counterexample for elements of different size |
| C89 | `LinearColumnDiffDiffFEM` | Gauss rule turns every row into an integral of slopes; exactness by integration by parts, dissipation from the weak form and a bound of end values by the rule; counterexamples for elements of different size |
| C90 | `SetupReferenceColumn`, `PrepareColumn`, `BuildF`, `Evaluate` of the vertical dynamics | what is prepared is rewritten in the words of the specification; the Gauss rule integrates the derivative exactly (C70), the penalty by C87, energy by the adjointness of C88; counterexamples |
| C91 | `BuildJacobianF`, band storage | the statements are a list; the list times a vector is rewritten in the words of the specification and compared with the derivative of the residual (C90); stencils of the operators give the band; the flux correction vanishes at inner Lobatto points (C88), so nothing is lost outside |
| C92 | `StepImplicit` of one column, `DGBSV` | LAPACK is a parameter that solves regular band systems; what it reads is the Jacobian (C91), so the step solves the Newton equations; summing them over the column gives conservation (C87, C90); small steps make the matrix diagonally dominant |
| C93 | `UpdateColumnTracers`, `TracerMatFIx`, `DGBTRF`/`DGBTRS` | the statements that build the matrix, times a vector, are the linear transport operator; injectivity of the band addresses inside the band gives what LAPACK reads; consistency by showing that the density of the Newton step (C92) solves the same equation; sums over the column give conservation |
| C94 | `StepImplicit` for a patch, `FilterNegativeTracers` | the list of places stepped has no duplicates and is the set of fixed points of the map to the column that stands for a place; the loop, by induction, with independence of memory from C92 and C93; the copies compose to that map; sums for the filter |
| C95 | `StepExplicit`, `StepImplicitTermsExplicitly` | the residual of C90 at the initial data is the tendency, with independence of memory from C92; conservation and energy of the penalty from C87; the tracers from C93; induction over the loop |
| C96 | `OutputManagerComposite`: sizes, offsets, messages and file of `Output`, stream of `Input`; what `SetGridFromRestartFile` and `SetTestCase` leave out | the file under construction agrees with the whole file on what has been written (invariant over own patches, then over messages in any order); reading by induction over the ascending list of own patches, with the stream failed only beyond the cut; remaining steps by simulation of the two runs of C08; states from C43 |
| C97 | `OutputManagerReference` (points and entries), `ConvertReferenceToPatchCoord`, `InterpolateData` and `ReduceInterpolate` | the lookup finds an element by C25 and C36; the nested sums are the polynomials of the element (C38), the column operator that of the vertical element (C69), the winds C34; loops over points, components and patches by invariants; a relation between two runs that differ at other points for the independence of the distribution |
| C98 | `TransformHaloVelocities`, `TransformTopographyDeriv`, node coordinates and the averaging of the two components | the set of nodes at a point of the sphere is computed from the images of the panels; each strip loop replaces halo values by the components in the own panel (C34, C35); C58 gives the mean over twins, and the twins are exactly the copies |
| C99 | `HeldSuarezPhysics::Perform` on a patch | loops by invariants; the update as a rational function of the ratio of temperatures; Bernoulli inequality for real exponents against overshoot; derivative at step 0 for the rate |
| C100 | evaluation of a test case on a patch of either grid, conversion of components, defaults of `TestCase`, the grid-wide loop | loops that may fail, with an invariant for the buffers that live across points and a postcondition per point; C34 for the winds, C46 for the heights |
| C101 | perturbation of a patch of either grid and `Model::SetTestCase` | loops in which each pass changes its own point, by a view of the state per point |
| C102 | `ApplyBoundaryConditions` of a Cartesian patch, its inherited namesake, the setting of conditions | one closed form per side from loop lemmas over pairs of a halo node and its neighbour; sides do not undo one another; composed with the averaging of C58 |
| C103 | `ComputeErrorNorms` on all processes, with copying and combining of data instances; evaluation from C100, checksums from C59 | closed form of the two scratch instances on each patch; norms from C59; the exact state is what C100 describes |
| C104 | all patches of a grid on the sphere or the periodic plane: node lookup, exchange, averaging, `StepExplicit`, `StepAfterSubCycle`, any scheme of `Steps` | copies of a node find each other (from C03, C04, C28) and have equal areas, so averaging conserves; elements conserve (C74, C75); the scheme hands both on (C48), by induction over the steps |
| C105 | exchange, `TransformHaloVelocities` and averaging on all patches | each halo node holds the value of the node it stands for (C03, C04); the mean over the halo is the mean over the nodes at the point (C98 on the sphere, wrapped indices on the plane) |
| C106 | the programs of all schemes with the dynamics of `Whole` | an abstract interpretation that records which slots are known to agree, proved sound for each call and evaluated on each program |
| C107 | `Whole` with the horizontal step of `Nonhydro`, the vertical steps of `Vdyn` and viscosity as the dynamics of `Steps` | the horizontal step conserves in elements (C84), the vertical ones in columns (C90, C92, C94), which agree where they are copied because averaging left them so; averaging conserves level by level (C104); the scheme hands both on, by induction over the steps |
| C108 | the same model | each step maps rest to rest (C83, C92, C95, C75, averaging of equal values); the stages are combinations whose weights add up to one (C47); induction over the steps |
| C109 | two whole shallow water models of one grid | a relation between their data (the same value at the same node) kept by every call: by the steps element by element, by averaging because it gives the mean over the nodes at a point (C105); then by programs of calls, with what is not yet known in scratch slots left out (`Steps/Relate`) |
| C110 | the same, with different tracers | the same relation, for any pairing of tracers; with none, for the flow |
| C111 | the iterations of the root finders, with division by zero as an outcome | mirroring commutes with a refinement and with sorting, by induction on the passes; the logarithmic derivative of a product for the correction |
| C112 | the state functions of the nonhydrostatic test cases over the real numbers, exceptions as an outcome, Newton's iteration for the pressure coordinate as a loop | derivatives of the closed formulas; the inverse function theorem where the pressure coordinate is implicit; bounds on the profiles for positive temperature |
| C113 | the same, and the state functions of the shallow water test cases | derivatives along a meridian and algebra; the wind of the baroclinic wave as the root of the quadratic equation of balance |
| C114 | rates, source terms and initial values of the terminator chemistry, and the process on a patch with its subscripts as they are, accesses outside the array as an outcome | the solution of the Riccati equation by differentiation; bounds on the exponential; induction on the loops |
| C115 | the subroutine `KESSLER` with its subcycles, and the process that converts the state of a patch for it | invariants of a subcycle, sums over layers that telescope, induction on the subcycles and on the columns |
| C116 | the subroutine `DCMIP2016_PHYSICS` with its three choices, `KESSLER` as above, `stop` as an outcome | the coefficients of the elimination are between zero and one by induction; the system that is solved gives fluxes that telescope; bounds through all parts of the subroutine |
| C117 | the process that calls the simple physics for the columns of a patch, with the transformations of the wind and the equation of state from above | each column is computed from itself, by induction on the columns; the theorems on the subroutine, the transformations and the equation of state |
| C118 | `EvaluateRayleighStrength` of the test cases, with the constants of each | every layer is one function of the distance from its edge, which falls and is continuous; the strength is the largest of three layers |
| C119 | `EvaluateTopography` of the test cases and their perturbations of wind and temperature | bounds on cosine and exponential; the distance on the sphere is the angle between unit vectors |
| C120 | `StepExplicit` of the split-explicit dynamics with its three acoustic loops, both parts of the high-speed dynamics | weak derivatives sum to zero by parts, vertical fluxes vanish at ground and top, means keep totals |
| C121 | the tridiagonal systems of both dynamics | the rows of the system are the eliminated equations; the derivative of the power law is the coefficient of the code |
| C122 | as C120 | all tendencies vanish; zero is the only solution of the systems |
| C123 | `PerformAcousticLoop` three times | the negation, by computing the steps of one column |
| C124 | `StepExplicitCombine` | every term is even or odd in the velocities; the negation for vertical momentum by one column |
| C125 | as C120 | the negation, by one column |
| C126 | `ARS343b::Step` with both parts of the high-speed dynamics, averaging and viscosity; viscosity of the split-explicit dynamics | the coefficients of each stage sum to one, every stage keeps the total, induction over the steps |
| C127 | the calls of all time schemes, the base class of the dynamics | every other scheme calls a method that throws; the negation by running the calls of ARS343b on the empty methods |
| C128 | viscosity, filter of negative values and averaging of both dynamics | the viscosity keeps the mass of each layer of an element, the filter scales what is positive to it |
| C129 | the whole of HorizontalDynamicsFEMV2 on a patch, written independently of the model of the first version | the two loops change the same cells by the same amounts: equality of each intermediate quantity by algebra, of the loops by exchanging their order |
| C130 | the same | the cells each loop writes; the two diffusions of the wind are opposite when both read instance zero; the negations on a flat element with three-eighths nodes |
| C131 | VerticalDynamicsSchur on one column: residual, Jacobian, its band storage with aliasing diagonals, elimination, right hand side, back substitution | the band entry at each address as a sum of updates; the elimination of vertical velocity as algebra on the full system (`Elimination`, `Solve`); rows of the system as the linear equations of `Spec` (`Rows`, `Step`); telescoping fluxes; the negation on a column of five levels |
| C132 | copies of shared columns at the end of StepImplicit of VerticalDynamicsSchur and VerticalDynamicsFEMV2, as lists of pairs of addresses of an array with a size | addresses are injective within the sizes; copies between disjoint sets of addresses; an address beyond the size for each patch with two elements and many levels; a list traced to the origin of each number for the negations |
| C133 | UpdateColumnTracers of VerticalDynamicsSchur for an implicit step with finite volumes: the statements that build the matrix, with volume elements of interfaces read from the array of the patch, the banded storage, the right hand side, the velocity correction | product of the matrix row by row; band and addresses as in C93; DGBSV by its contract; the difference to the equation for density of C131 is a multiple of it; conservation by telescoping; a column of ten levels next to one with another volume element for the negation |
| C134 | ComputeRichardson of GridPatchGLL for interfaces, as output calls it, and for levels: the interpolations, the column operators, the loops and the flat array of the result | the last of the writes to an address decides, by the order of the passes; linear profiles by the exactness of C71; three levels for the negation |
| C135 | vertical advection and uniform diffusion of the horizontal wind in StepExplicit of VerticalDynamicsFEMV2: the loop over columns, the flat array of volume elements and its index | addresses in closed form; the sweep by induction over the columns; budgets by exchanging sums; two levels for the negation, and the pushes of C129 for the part done twice |
| C136 | PrepareColumn and BuildF of VerticalDynamicsFEMV2 with the types of C90: vertical velocity in length per time | closed form of every residual; budgets by the derivative of fluxes over elements as in C90; the default method by stretching vertical velocity |
| C137 | BuildJacobianF_LOR_RhoTheta_Pi of VerticalDynamicsFEMV2: its additions to entries of the matrix, as in C91 | each row as a sum over stencils, then derivatives of the closed forms of C136; two levels for the negation |
| C138 | StepImplicit of VerticalDynamicsFEMV2 for one column, with the band solver of C92 as a parameter | statements within the band as in C91, independence of what the column does not own, then the Newton equations summed over the column |
| C139 | UpdateColumnTracers of VerticalDynamicsFEMV2 as compiled, with the place of the column in the patch as in C133 and the band solver of C92 as a parameter | its statements are among those of C93 for a metric with other volume elements; then as C93, and the density equation of C138 subtracted from the tracer equation |
| C140 | StepImplicitTermsExplicitly of VerticalDynamicsFEMV2: one column, with the equations of C136 and the tracers of C139, and the loop over the interior | the equations of C136 at the data of the column; divergence sums to zero as in C95; the equation of density subtracted from that of a tracer; the loop by induction over columns as in C95 |
| C141 | the loop over columns of StepImplicit of VerticalDynamicsFEMV2 with C138 and C139 in it | independence of memory of C138 and C139, then induction over the list of columns as in C94; conservation from C138 and C139 |
| C142 | ComputeVorticityDivergence and ComputeCurlAndDiv of the spectral element patches, with the values of C76 | disjointness of the nodes in the loops; derivative coefficients of C39 with the fundamental theorem of calculus for the Lagrange polynomials, then telescoping over elements |
| C143 | StepExplicit of VerticalDynamicsFEMV2 under the fully explicit option: one column, with the terms of C140 and the advection of C135, and the loop over the interior | the wind left by tracers or by Evaluate is that of the data; then C140 with the option; exactness of the derivative on constants (C88); the loop by induction over columns as in C140 |
| C144 | PerformBICGSTAB_NewtonStep with the derivative by differences, any function to evaluate; a quotient by zero and an unassigned value are an outcome of their own | the residual of the recursion is that of the state, by induction over iterations |
| C145 | PerformJFNK_NewtonStep: Gram-Schmidt, rotations, solution of the triangle, the array that is left; PerformJFNK | the basis stays orthonormal, right hand side and columns are combinations of the rotated basis, by induction over iterations; then the residual is a multiple of one unit vector |
| C146 | constructors, InitializeJFNK and the checks of the safe steps; the flag is indeterminate until it is assigned | the object after a history is that of the first good initialisation, by induction over calls |
| C147 | wind and state of the barotropic instability test case without rotation, with the loop of the quadrature; its coordinates and wind on a turned grid; an infinite value is an outcome of its own | the exponent completed to a square; places of the quadrature are not north of the point, so all terms vanish south of the jet |
| C148 | the helpers for text on bytes, with reads beyond memory, negative characters and overflow as no result | induction on the text; the value of digits as `Nat.ofDigits` |
| C149 | wind and state of the shallow water eddy test case without rotation of the grid, on the model of C147 | from C147 at the size of the latitude; the terms of the quadrature are not positive in the south |
| C150 | `DataStruct` with the memory it allocates, is attached to and releases | invariant over histories: blocks allocated are those released and the one in use |
| C151 | exceptions with their buffers and the conversions they use | messages as lists of pieces, induction on them |

No property is classified as inexpressible; floating-point rounding, MPI transport, LAPACK, NetCDF and
OpenMP are outside the model everywhere.

## Wrong programs

`seeded/LOG.jsonl` has one line per wrong program: the definition edited, the edit, the claim it breaks, the declarations whose proofs
failed when the edited copy was built (`failed_directly`), and the property theorems that rest on one of these (`theorems_failed`: those
of the claim first, at most thirty names in all).  The latter are found in Lean's own record of which constants a proof uses, not by building them.
Edits that do not compile are not counted.

## What is modelled

| directory | code |
|---|---|
| `Time` | src/base/TimeObj.{h,cpp}: records, normalisation, arithmetic, comparison, the string formats |
| `Restart` | OutputManagerComposite: restart files, and what is set up from them |
| `Outref` | OutputManagerReference, ConvertReferenceToPatchCoord, InterpolateData, Grid::ReduceInterpolate: output on the reference grid (calls of NetCDF left out) |
| `Run` | Model.cpp `Go` loop, OutputManager, WorkflowProcess: schedules and files |
| `Container`, `Mem` | DataContainer, DataChunk, DataArray1D to 4D on a heap, DataStruct (`Struct`, `StructProps`: C150) |
| `Base` | UserDataMeta/Preferences files, command line parser, Announce, FunctionTimer, `Strings` (model), `StringsSpec`, `StringsProps` (C148), `Failure` (model), `FailureProps` (C151) |
| `Num`, `Interp`, `Legendre`, `Quad` | MathHelper ISqrt, PolynomialInterp, LegendrePolynomial, GaussQuadrature, GaussLobattoQuadrature |
| `Vert`, `Column` | VerticalStretch, GridSpacing, levels, LinearColumnOperator and its finite element, reconstructed and variational kinds, FluxCorrectionFunction, flux correction derivative, LinearColumnDiscPenaltyFEM, LinearColumnDiffDiffFEM |
| `Halo` | GridPatchCSGLL TransformHaloVelocities and TransformTopographyDeriv, InitializeCoordinateData, and GridCSGLL::ApplyDSS on velocities |
| `Forcing` | HeldSuarezPhysics::Perform |
| `Init` | EvaluateTestCase and EvaluateTestCase_Perturbation of both grids, ConvertComponents, TestCase defaults, SetTestCase |
| `Wall` | lateral boundary conditions of a Cartesian grid |
| `Norms` | the table of error norms |
| `Whole` | a whole shallow water model: all patches, averaging over the grid, dynamics and time stepping together |
| `Deep` | a whole nonhydrostatic model: the grid of `Whole`, horizontal and vertical dynamics and time stepping together |
| `Cases` | states of the test cases: `Model`, `Jet`, `Shallow` (model), `Spec`, lemmas, `Props`, `PropsWave`, `JetProps` (C112), `Horizontal`, `ShallowProps` (C113), `Examples`, `Sponge` (model), `SpongeProps` (C118), `ReliefProps` (C119), `Instability` (model), `InstabilityProps`, `InstabilityTurned` (C147), `Eddy` (model), `EddyProps` (C149) |
| `Physics` | physics of the test cases: `Terminator`, `Kessler`, `Simple` (model), `TerminatorSpec`, `KesslerSpec`, `TerminatorProps`, `TerminatorRun` (C114), `KesslerProps`, `KesslerRun` (C115), `SimpleProps`, `SimpleRun` (C116), `Moist` (model), `MoistProps` (C117) |
| `Acoustic` | the split-explicit and the high-speed dynamics: `Model`, `Spec`, `Lemmas`, `Conserve` (C120), `Implicit` (C121), `RestProps` (C122), `Reverse` (C124), `Column`, `Faults` (C121, C123, C124, C125), `Samples` |
| `HorizV2` | HorizontalDynamicsFEMV2: `Model`, `Spec`, lemmas `Same`, `SameViscous`, `Uniform`, `Keep`, `Props` (C129), `Samples`, `Faults`, `FaultsFalse` (C130) |
| `Schur` | VerticalDynamicsSchur for one column: `Model`, `Spec`, lemmas `Lemmas`, `Elimination`, `Solve`, `Rows`, `Step`, `Props`, `Witness`, `WitnessFourth`, `FalseProps` (C131); `Copies`, `CopiesSpec`, `CopiesProps` for copies of shared columns in it and in VerticalDynamicsFEMV2 (C132); `Tracer`, `TracerSpec`, `TracerProps`, `TracerWitness` for its tracers (C133) |
| `Rich` | the Richardson number of a patch (C134) |
| `VertV2` | vertical dynamics of method v2: explicit step (C135), equations of a column and their Jacobian (C136, C137), implicit step of a column (C138), tracers of a column (C139), implicit terms taken explicitly and the loops over columns (C140, C141), explicit step under the fully explicit option (C143) |
| `Newton` | Newton steps without a Jacobian: stabilised biconjugate gradients (C144), generalised minimal residuals and the iteration of steps (C145), life of the solver (C146) |
| `Panel`, `Sphere` | CubedSphereTrans tables, point and vector transforms |
| `Patch`, `Exchange`, `Registry`, `Consol` | layouts, lookup, distribution, connectivity, Neighbor packing, ExchangeBufferRegistry, ConsolidationStatus |
| `Dss`, `Checksum`, `Vars` | direct stiffness summation, checksum reductions, variable bookkeeping |
| `Steps` | every TimestepScheme*: explicit, IMEX, Strang, split-explicit, over named slots and abstract dynamics |
| `Horiz` | HorizontalDynamicsFEM: tracer filter, shallow water step, viscosity, Rayleigh friction, step after the sub-cycle, vorticity and divergence of the output (C142) |
| `Nonhydro` | HorizontalDynamicsFEM: the nonhydrostatic step, the explicit step |
| `Vdyn` | VerticalDynamicsFEM: set-up of a column, residual of the vertical equations, Jacobian and its band storage, implicit step of a column, update of its tracers, implicit step of a patch with copies and filter, explicit step of a patch |
| `Thermo` | PhysicalConstants; GridPatch and Grid: pressure, temperature, surface pressure, energy, enstrophy, momentum |
| `Metric` | GridPatchCSGLL / GridPatchCartesianGLL: ground, heights, geometric terms, Coriolis; gnomonic areas |

## What is not modelled

* Rounding, NaN, infinities; integer overflow except where a property is about it.
* MPI itself, NetCDF files, LAPACK calls, threads.
* Newton and GMRES iterations (`Newton`, FGMRES not modelled) as part of the implicit vertical step; `Vdyn` models the direct
  column solve. Time-step schemes take the vertical step as an abstract update.
* Physics packages and perturbations of the test drivers and the stand-alone utilities, except where a row above names them.
* Convergence of the root finders of Legendre polynomials (C41 assumes they return the roots, which are proved to exist).

## Where the code does not do what the property says

Each line is a theorem with a concrete witness (names contain `false`), or a restriction named in the note.

* C01, C07, C08: the standard calendar takes leap years at multiples of 1000 instead of 100/400, and adding time to it leaves
  invalid months or throws; no run in it completes a step.
* C02: adding negative microseconds can throw.
* C06, C62: durations that are not normalised change fields when written; a day duration beyond 30 days becomes months.
* C14: the destructor of a container leaves its chunks dangling.  C15: the debug bounds check is off by one.
  C16: self-assignment of an owned 2D array loses the data.
* C21: the receive buffer reports its size in bytes as a count of doubles.  C22: two connections with equal headers share a region.
* C25, C27: the Cartesian layout accepts patch counts that give empty patches; boxes never set are distributed too.
* C28: data types 16 to 19 collide with tags of the next patch.  C29: a type requested twice never completes.
* C34: at the south pole one component of the converted vector has the wrong sign.
* C41, C51: the nine-point Gauss table holds the Gauss-Lobatto nodes.  C52: negative indices of Gauss-Lobatto spacings are wrong.
* C42, C45, C47: decimals of SSPRK53 do not add up to one; ARK232 and ARK4 are not consistent.
* C43: six schemes step tracers from stale data.  C46: Strang with other off-centerings or unequal first and last steps loses time.
  C49: split-explicit with no small step skips the vertical terms.
* C54: the last line without newline is lost, a line over 255 characters hangs, an empty name is undefined behaviour.
* C56: nesting deeper than 16 is not restored; the banner ignores a redirected buffer.  C57: a timer stopped and then destroyed counts twice.
* C64: outputs within one second share a file name.  C66: the instance just past the end is not refused.
* C68: corner blocks of wide halos arrive transposed for panels 1-4, 2-4, 2-5 and 3-5.  C69: order-one rows on inner edges are misplaced.
* C73: elements of negative mass keep negative values.  C74: the order-four table is rounded.
* C76: the sign convention of vector viscosity is opposite to the scalar one.
* C80: Cartesian levels fold for high ground, the cubed sphere accepts ground above the top, the top interface of the Cartesian grid has no
  friction strength.  C81: the Cartesian reference latitude is not that of the centre unless the grid begins at zero.
* C83: vertical velocity on levels makes the step read outside a metric array; density times potential temperature on
  interfaces is never transported horizontally.
* C86: pressure is computed from the copy of density times potential temperature on levels even where that lives on
  interfaces, and energy with vertical velocity on interfaces from copies of vertical velocity on levels and density on
  interfaces that nothing renews.  The shallow water energy takes covariant velocities for contravariant ones.  Potential
  enstrophy of the nonhydrostatic equations is the sum of density times alpha velocity.  The totals over the grid are zero
  in a build without MPI.
* C88: on the edge of two elements the jump is divided by the size of the lower element and both sides have weight one half, so the
  gradient is the adjoint of the divergence only over elements of one size; a stretched column has elements of several sizes.
* C89: the second derivative divides the jump by the size of each element by itself, and on shared points doubles the weight of
  one element, so over elements of different size it neither conserves nor is exact on straight lines.
* C90: upwinding of density is not weighted by the volume element, so it changes the mass of a column where the volume element
  jumps; with Charney–Phillips staggering the vertical residual reads a left-over density times potential temperature.
* C91: the Jacobian leaves out uniform diffusion and, over sloping interfaces, the shear of the horizontal wind.
* C92: `DGBSV` compares the size of the array it needs with the number of equations (LinearAlgebra.cpp:164), so columns
  of fewer than 4, 9, 15, 22, 30 levels for vertical orders 1 to 5 cannot be stepped.
* C93: the matrix of the tracers has as many rows and columns as there are levels (VerticalDynamicsFEM.cpp:390), but its band needs
  `6 p - 2` rows for vertical order `p`: with at most `4 p - 2` levels (for order 4, up to 12 levels) the identity alone is written
  outside the array, also under the fully explicit option; with fewer than `6 p - 2` LAPACK rejects the leading dimension.
  Uniform diffusion of tracers lacks the division by the squared height of the model top.
* C94: `FilterNegativeTracers` scales the positive values of a column by total mass over non-negative mass; if the total is negative
  the scale is negative and positive values become negative, in a filter named positive definite.
* C95: uniform diffusion of horizontal velocity in `StepExplicit` (VerticalDynamicsFEM.cpp:1060-1118) differentiates `m_dStateNode`,
  which is set for the column at hand only under the fully explicit option; otherwise it is the last column of an earlier step.
* C96: `Input` checks neither the length of the file nor the result of any read after `tellg` (OutputManagerComposite.cpp:533-572), so
  that a file cut by a crash is accepted and the missing data are zeros.  `Output` throws on a process without patches (246-248),
  accepts an index equal to the number of patches (138, which is one too many) and keeps sizes in `int` (121 of the header).  On a
  restart neither `SetVerticalStretchFunction` nor the flag of a vertical slice is set (TempestInitialize.h:520-580, 638-697),
  `EvaluatePhysicalConstants` is not called (Model.cpp:240-247), the flag `m_fFromRestartFile` is set on a temporary manager only
  (Model.cpp:164-166), and Strang splitting loses the increment in slot 1 (only slot 0 is meaningful to a first step).
* C97: the division by the vertical derivative asks only for `c == WIx` (GridPatchCSGLL.cpp:1649-1680), not for the type of data, and
  `fConvertToPrimitive` is true by default (Grid.h:399), so that the fourth tracer and the fourth user field are divided too, and with
  three components the location of component 3 is read beyond its array.  The derivative is that of the first node of the element,
  and the reference state is taken off undivided (1697-1704).  The type Richardson is unknown to the sphere (1392-1438).  With vertical
  finite volumes the plane uses the identity (GridPatchCartesianGLL.cpp:1655-1658), which overruns the buffer of output levels for a
  variable on interfaces; with one level the sphere and the plane leave the other output levels at zero.
* C99: the surface pressure and the pressure of the friction are computed from density times the third component (HeldSuarezPhysics.cpp:107-120),
  which in the formulation of Defines.h:41 already is density times potential temperature; the heating uses the third component alone
  (141-152).  So in any formulation one of the two is wrong.  With theta on levels the interface arrays of lines 108-110 are not
  interpolated before they are read.
* C100: the Cartesian grid asks for the reference state without tracers (GridPatchCartesianGLL.cpp:605-611), the cubed sphere with
  them (GridPatchCSGLL.cpp:757-768).  So on a Cartesian grid reference tracers are always zero, and a test case that overrides only the
  function with tracers (as SupercellTest does) cannot be evaluated.  At the south pole the wind is wrong, as in C34.
* C101: on the cubed sphere the transform of the disturbed winds is commented out (GridPatchCSGLL.cpp:1018-1044), the third component
  gets the old density times the disturbance of potential temperature (997-1001), and for shallow water this reads component 4 of 3.
  Under `FORMULATION_PRESSURE` no branch of the loop is compiled.  The Cartesian grid assigns instead of adding
  (GridPatchCartesianGLL.cpp:742-756).
* C102: when everything is on interfaces the right and top sides compare with `!=` (GridPatchCartesianGLL.cpp:831, 841, 876, 885), so no
  slip and no flux are exchanged and unknown conditions are accepted.  When everything is on levels the function throws before it
  looks at the conditions (811-816), so such a grid cannot even be periodic.  Component 3 is read whatever the equations are, so shallow water
  with a wall leaves its array.  `Grid::ApplyBoundaryConditions` calls a virtual function of two arguments with an empty body
  (GridPatch.h:144); the Cartesian patch has one of three arguments, which does not override it, so the call in `Model::Go` does nothing.
* C103: evaluating a test case stores the full state, but `ComputeErrorNorms` adds the reference state to its copy once more
  (Model.cpp:715-716), so with a reference state the printed errors of components on levels are too small, by half when the exact
  state is the reference state.  Interfaces are not affected: `AddReferenceState` only touches levels.
* C104: for order four the tables of derivatives and stiffness of the code agree with the weights only to 15 digits, so the mass
  of an element changes by that much each step (`C74_mass_four`); the theorems are about the other orders.
* C107: where the volume element jumps over an element edge of a column, upwinding changes the mass (`C90_conserved_false`), so the
  theorem is about columns in which it does not.  Order four and SSPRK53 as for C104.
* C108: uniform diffusion moves a profile towards the reference state, so the theorem is about models without.  Order four and
  SSPRK53 as for C104.
* C109: in exact arithmetic; a different division adds in a different order.  Schemes that read tracers of scratch slots before
  writing them need the scratch slots to agree.
* C110: one tracer only with the schemes that copy tracers to the scratch slots, for the same reason.
* C111: convergence of the iteration is not proved; that the values are the roots remains an assumption of C41 for more
  than ten points.
* C112: convergence of Newton's iteration for the pressure coordinate is not proved.  The check that its result is between
  zero and one can never be reached (BaroclinicWaveJWTest.cpp:340-342): the loop either returns or ends in the exception before it.
  False parts: the reference state of the mountain waves for zero gravity multiplies 300 K by a power of the
  pressure instead of its quotient (NonHydroMountainCartesianTest.cpp:273-277, C112_weightless_false); the channel with a
  ridge adds the height to the radius in the gradient of the Coriolis parameter (Baroclinic3DCartesianRidgeTest.cpp:310,
  C112_ridge_false).
* C113: false parts: the Schaer mountain on the sphere takes a speed of rotation that its balance ignores
  (ScharMountainSphereTest.cpp:158, C113_schar_rotating_false); the inclination of the zonal flow of water is not part
  of the Coriolis parameter of the model (SWTest2.cpp:76, GridPatchCSGLL.cpp:355-361, C113_zonal_inclined_false).
* C114: the process takes the subscripts of the data in the order level, a, b, while the data are stored in the order
  a, b, level (TerminatorPhysics.cpp:106-133, GridPatch.cpp:344-348,379-383).  Nodes of the interior do not react
  (C114_interior_false), and a grid with more levels than nodes across a patch writes outside the array
  (C114_outside_false).  Steps for which the product of determinant and time step is positive but at most 1e-16 are not
  exact.
* C115: the limit of the time step looks at the layers below the highest one only (kessler.f90:122-126) and is not
  looked at again when the velocity is recalculated (:173-177), so that a layer may lose more rain than it has and
  clipping creates water (C115_water_false).  KesslerPhysics passes ratios of densities to the density of moist air
  (KesslerPhysics.cpp:189-204) where the subroutine takes ratios to dry air, so that the rain that is reported is not the
  water that the column has lost (C115_rain_false).  With one level the subroutine reads the height of a level that does
  not exist (kessler.f90:144); the theorems have at least two.  Single precision of the local variables of the
  subroutine and potential temperature on interfaces are not modelled.
* C116: large-scale precipitation reports the change of the share of vapour times the density before the change
  (dcmip_physics_z_v1.f90:250), which is less than the vapour that is lost (C116_rain_false).  The interfaces are
  declared with one entry less than is read (:84).
* C117: like the process of warm rain this one passes ratios to moist air for ratios to dry air
  (DCMIPPhysics.cpp:284-300); the theorems say what is saturated in terms of these ratios.
* C118: at the left side of the hydrostatic mountain the friction grows inwards and ends with a jump
  (HydrostaticMountainCartesianTest.cpp:194: `1.0 - ...`).  The baroclinic wave in a channel compares `x` with the
  bounds of `y` (Baroclinic3DCartesianTest.cpp:231,235), and its layers of 50000 km are wider than the channel of
  6000 km: at least half of the full friction is at work everywhere.  The Held-Suarez test announces friction and
  multiplies it by zero (HeldSuarezTest.cpp:319).
* C119: the ridge in the channel is half as high as given, because the exponential at the centre is one
  (Baroclinic3DCartesianRidgeTest.cpp:216), and is at twice the given position.  The cone of the mountain test of
  shallow water takes the difference of longitudes without a turn (MountainRossbyTest.cpp:118-120): with its centre near
  longitude zero it is cut in half.  The default centre is away from there.
* C121: the right-hand sides of the split-explicit dynamics take the gradient of the update of density times potential
  temperature where they need that of pressure (SplitExplicitDynamics.cpp:1302-1318, 1947-1967: `dDzPressureUpdate`).
* C123: `dataAcoustic1REdge` is bound to the data on levels (SplitExplicitDynamics.cpp:1521-1522), where vertical momentum
  is never written in this arrangement.
* C124: the vertical flux of vertical momentum is the vertical momentum itself, without a second factor
  (SplitExplicitDynamics.cpp:575-581, HighSpeedDynamics.cpp:641-647: `m_dSDotWNode`).
* C125: neither dynamics has a term for tracers.  `StepExplicitCombine` and `StepImplicitCombine` do not even combine them
  (HighSpeedDynamics.cpp:662-684, 1426-1448), so that the tracers of the state after a step of ARS343b are those before it.
  The general model of the time schemes (C41 to C49) does combine the tracers of ARS343b; its theorems about that scheme
  speak of the state, and of tracers only as far as this simplification goes.
* C127: `StepExplicitCombine`, `StepImplicitCombine` and `StepAfterSubCycleCombine` are empty in `HorizontalDynamics`
  (HorizontalDynamics.h:91-99, 115-123, 161-167) and only `HighSpeedDynamics` overrides them; `TempestInitialize.h` accepts
  `--timescheme ars343b` with every `--hmethod`.
* C130: the update of tracers is in a comment (HorizontalDynamicsFEMV2.cpp:1060-1083) and absent from the shallow water step.
  `ApplyVectorHyperdiffusion` sets `fApplyToRefState` and changes `DATA_INDEX_REFERENCE` to zero (1538-1542) but never reads
  the flag, so that it reads data instance zero for the reference state.  No line tests for a slice in x and z, and
  `InterpolateREdgeToNode(WIx)` is called whatever the staggering (701).
* C131: at second order `m_nJacobianFOffD` is 4 (VerticalDynamicsSchur.cpp:171-199), so a diagonal has nine entries, but the
  elimination (1614-1636) reads the factor of density times potential temperature on level `k - 1` in the equation for density on
  level `k`, five below the diagonal.  That address belongs to another entry: the factor of vertical velocity in the equation for
  density times potential temperature, two levels down.  The constructor allocates `m_matJacobianF` so that these reads stay within
  it.  The derivative of the pressure gradient divides by `m_dColumnDerivRNode` (3476) where the residual divides by
  `m_dColumnDerivRREdge`, so the matrix is not the derivative of the residual where the spacing of height changes; the specification
  of the equations says so.
* C132: the copies at the end of `StepImplicit` mix two orders of indices, `[c][i][j][k]` and `[c][k][i][j]`: on the right hand side
  in alpha direction and on both sides in beta direction in VerticalDynamicsSchur.cpp:1888-1959, on the left hand side in beta
  direction in VerticalDynamicsFEMV2.cpp:1732-1761.  Arrays are `[c][i][j][k]` everywhere else.  An access outside of an array is
  `none` in the model.  In the program arrays of a patch lie in one block of memory (DataContainer), so such an access reads or
  writes another array or leaves the block; neither is modelled.
* C133: VerticalDynamicsSchur.cpp:3761 reads `dJacobianREdge[m][m_iA][m_iB]`, where 3906 and VerticalDynamicsFEM.cpp:3970 read
  `[m_iA][m_iB][m]`.  An access outside of that array is `ub` in the model; as for C132, in the program it lies in a block of memory
  that holds other arrays, which is not modelled.  The branch for `m_fFullyExplicit` is not modelled.
* C134: Grid.cpp:836 calls `ComputeRichardson` without a location, which is interfaces (GridPatchGLL.h:109-112), while
  GridPatch.cpp:444-447 allocates levels only; GridPatchGLL.cpp:313 misses the minus sign and the metric term of height, and
  272-280 does not interpolate the horizontal wind.  The array is in a memory of its own in the model, an access outside is `ub`.
* C135: VerticalDynamicsFEMV2.cpp:904 and 911 index `dElementAreaREdge[l][i][j]`, while GridPatch.cpp:199-202 allocates it by column
  and level.  The loop omits the uppermost interface, which is harmless because the vertical wind there is zero.  `C135_twice` is about
  V2 of the horizontal dynamics; it combines its push of horizontal wind with this step in a horizontally uniform state.
* C136: the parts of PrepareColumn and SetupReferenceColumn that are word for word those of VerticalDynamicsFEM.cpp are taken from the
  model of C90.  Modelled is vertical velocity on interfaces and on levels, the theorems are about interfaces (Lorenz staggering).
* C137: VerticalDynamicsFEMV2.cpp:3280 divides by `m_dColumnDerivRNode[k][2]` what BuildF (2694) divides by
  `m_dColumnDerivRREdge[k][2]`.  For vertical velocity on levels the boundary conditions at 3346-3355 replace two entries; that staggering
  is not modelled in the Jacobian.
* C138: `StepImplicit` of V2 differs from that of VerticalDynamicsFEM.cpp in the functions it calls and in the copies of shared columns
  at its end (C132).
* C139: VerticalDynamicsFEMV2.cpp:4178 reads `dJacobianREdge[m][m_iA][m_iB]` where line 4323 and all other code read
  `dJacobianREdge[m_iA][m_iB][m]`, as VerticalDynamicsSchur.cpp does (C133).  Unlike there, the upwinding of tracers is compiled out: it
  is behind the macro `UPWIND_RHO_AND_TRACERS`, which is commented out at line 40.  So mass is conserved without a condition on jumps.
* C140: `StepImplicitTermsExplicitly` (VerticalDynamicsFEMV2.cpp:447-623) calls `UpdateColumnTracers`, which takes an implicit step unless
  the fully explicit option is set, after an explicit step of density.  So even where all volume elements are the same a tracer that
  follows density does not follow it any more (`C140_constant_false`).
* C141: because of the places read in C139, with tracers the implicit step of a patch whose first direction, with halo, has no more
  columns than there are levels always leaves the array of volume elements (`C141_outside`).
* C142: modelled is what a patch computes.  `GridGLL::ComputeVorticityDivergence` (GridGLL.cpp:587-602) computes nothing at all while
  parallel exchanges are blocked, and afterwards applies direct stiffness summation (C105) to both fields; these are not part of C142.
* C143: as in C135, VerticalDynamicsFEMV2.cpp:904 and 911 index `dElementAreaREdge[l][i][j]`.  The array of areas has the extents of the
  array of volume elements (GridPatch.cpp:199-202), and the step leaves it where the patch has fewer columns in the first direction than
  levels (`C143_outside`).
* C144: JacobianFreeNewtonKrylov.cpp:404 divides by the product of the right hand side and its image: zero by zero at a solution
  (`C144_solution_kept_false`); `dError` is not assigned without iterations (`C144_unassigned`).
* C145: JacobianFreeNewtonKrylov.cpp:257 assigns `m_dS[i+1]` with `i` up to `m_nIterPerRestart - 1`; the array has `m_nIterPerRestart`
  elements (line 75).  All three vertical methods take as many iterations per restart as equations, so a column whose Krylov space is
  the whole space gets there (`C145_outside_general`; `C145_outside` for one iteration per restart); with one iteration more no regular linear equations do (`C145_done`).  Line 140 compares the value of a step with the
  tolerance of the solution under the comment that it is the step's difference; it is the reduction of the linear residual
  (`C145_one_step`, `C145_success_false`).  `k == nMaxIter` (line 145) is false for a negative number of steps (`C145_no_step`).
* C146: the constructor with arguments (JacobianFreeNewtonKrylov.cpp:31-37) does not assign `m_fInitialized` before InitializeJFNK reads
  it (`C146_construct_false`).  No class of the code uses this constructor.
* C147: BarotropicInstabilityTest.cpp:171 excludes latitudes beyond the northern edge of the jet but not the edge, where line 179 divides a
  positive number by zero; the exponential of the result is infinite (`C147_finite_false`).  At the southern edge the quotient is minus
  infinity and its exponential zero, as it should be.
  On a turned grid lines 263-269 avoid a division by the cosine of the longitude when it is below 1e-13, but then choose the branch by the
  sign of that cosine rather than of the sine; just east of a quarter turn to the west the zonal wind has the wrong sign (`C147_turned_false`).
* C148: StringToHex (StringHelper.h:126) starts at the last digit, as if it were the most significant (`C148_hex_false`), and adds the byte of
  a digit before it subtracts that of zero, which overflows for the sixteen largest ints (`C148_hex_edge_false`).  tolower and toupper are
  given a char, negative beyond ASCII where char is signed (`C148_case_false`).
* C149: ShallowWaterEddyTest.cpp:173 excludes sizes of latitude beyond the poleward edge but not the edge, as in C147
  (`C149_finite_false`).
* C150: DataStruct.h:81 allocates by malloc and line 114 releases by delete[] (`C150_matching_false`).  The cast to the value (line 225)
  does not check the pointer (`C150_read_false`).  AttachToData accepts a null pointer and then calls the data not its own
  (`C150_null_false`).
* C151: Exception.cpp:49 writes the message by vsprintf into 1024 bytes, without a bound (`C151_long_false`); messages hold file names
  given by the user.
