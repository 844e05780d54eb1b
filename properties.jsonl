{"id": "C01", "title": "Advancing a Time keeps it a valid calendar time", "statement": "Whenever adding a duration (or seconds/days/months/years) to a Time returns without an exception, the resulting month is in 0..11, the day lies inside that month for the calendar in use, seconds lie in 0..86399 and microseconds in 0..999999; and for the no-leap calendar adding a non-negative duration never throws.", "quantifier": "every calendar, every starting Time and every (positive or negative) duration the int fields can hold", "why_tests_cant": "the field space is ~10^30 states and every one of the carry loops (usec, sec, month, day) interacts with the others; a suite only samples it", "anchors": ["src/base/TimeObj.cpp: Time::NormalizeTime, Time::AddTime", "src/base/TimeObj.h: Time::AddSeconds, AddDays, AddMonths, AddYears"]}
{"id": "C02", "title": "Time addition is exact", "statement": "In the no-leap calendar, adding a duration of D days, S seconds and U microseconds moves the elapsed time since year 0 by exactly D*86400 + S + U/10^6 seconds, with nothing gained or lost by carrying.", "quantifier": "every valid no-leap Time and every duration of whole days/seconds/microseconds (non-negative for the proved theorem; negative durations are shown to break it)", "why_tests_cant": "exactness must hold through every combination of carries, month lengths and year ends", "anchors": ["src/base/TimeObj.cpp: Time::NormalizeTime, Time::AddTime, Time::GetSeconds", "src/base/TimeObj.h: Time::AddSeconds"]}
{"id": "C03", "title": "Time comparison is a strict total order that agrees with elapsed time", "statement": "For Times of the same calendar and type, exactly one of a<b, a==b, a>b holds, < is transitive, a<=b and a>=b are the negations of > and <, and for valid no-leap Times a<b holds exactly when a has elapsed fewer (micro)seconds than b.", "quantifier": "every pair/triple of Times", "why_tests_cant": "trichotomy and transitivity quantify over all pairs and triples of five-field values", "anchors": ["src/base/TimeObj.cpp: operator==, operator<, operator>", "src/base/TimeObj.h: operator<=, operator>=, operator!="]}
{"id": "C04", "title": "Time subtraction measures elapsed seconds", "statement": "In the no-leap calendar, a - b is the difference of the two elapsed times in seconds, so a - a = 0, (a-b) = -(b-a), (a-b)+(b-c) = a-c, and (t + d) - t recovers the duration d.", "quantifier": "every pair and triple of valid no-leap Times, every non-negative duration", "why_tests_cant": "the law relates three operations over all pairs of dates including year boundaries", "anchors": ["src/base/TimeObj.cpp: Time::operator-, Time::GetSeconds, Time::AddTime"]}
{"id": "C05", "title": "A Time survives being written and read back (long format)", "statement": "For every valid Time with year 0..9999, parsing the string produced by the long (YYYY-MM-DD-SSSSS-UUUUUU) formatter gives back a Time equal to the original.", "quantifier": "every valid fixed Time", "why_tests_cant": "there are about 3*10^17 valid times; the formatter and the offset-based parser must agree on every digit position", "anchors": ["src/base/TimeObj.cpp: Time::ToLongString, Time::FromLongString, Time::VerifyTime"]}
{"id": "C06", "title": "A duration survives being written and read back (free format)", "statement": "For every duration with non-negative fields that is not all zero, parsing the free-format string (e.g. 1y2M3d4s5u) produced for it gives back the same duration.", "quantifier": "every duration with non-negative integer fields", "why_tests_cant": "the number of digits of each field is unbounded and absent fields change the shape of the string", "anchors": ["src/base/TimeObj.cpp: Time::ToFreeString, Time::FromFormattedString"]}
{"id": "C07", "title": "The standard calendar follows the Gregorian leap-year rule", "statement": "In the standard calendar February has 29 days exactly in Gregorian leap years (divisible by 4, except centuries not divisible by 400).", "quantifier": "every year", "why_tests_cant": "must hold for all years; the code's rule differs from the Gregorian rule only on century years", "anchors": ["src/base/TimeObj.cpp: Time::NormalizeTime, Time::VerifyTime"]}
{"id": "C08", "title": "A run ends exactly at the requested end time", "statement": "Starting from a start time before the end time and with a positive time step, the main loop of Model::Go takes finitely many steps, model time strictly increases, never exceeds the end time, is exactly the end time when the run finishes, and the step lengths handed to the time integrator are positive, at most the nominal step and add up to end - start.", "quantifier": "every start time, end time and time step", "why_tests_cant": "termination and the no-overshoot bound hold for every ratio of run length to step, including steps longer than the run", "anchors": ["src/atm/Model.cpp: Model::Go"]}
{"id": "C09", "title": "Every run writes its final state exactly once and never writes the same time twice", "statement": "An output manager attached to a run writes at the start time (unless restarting), never writes two outputs for the same model time, writes output times in strictly increasing order, and its last write is at the end time.", "quantifier": "every output frequency, start, end and step, any number of output managers", "why_tests_cant": "it is a property of whole execution histories, including frequencies that do or do not divide the run length", "anchors": ["src/atm/OutputManager.cpp: IsOutputNeeded, PerformOutput, ManageOutput, InitialOutput, FinalOutput", "src/atm/Model.cpp: Model::Go"]}
{"id": "C10", "title": "Output keeps to its cadence", "statement": "If the time step is not longer than the output frequency, then after each time step no output is overdue: an output due at time T0 + k*frequency is written at the first step that reaches it.", "quantifier": "every run, frequency and step", "why_tests_cant": "it is an invariant over unbounded histories; when the step exceeds the frequency the schedule silently falls behind without bound", "anchors": ["src/atm/OutputManager.cpp: IsOutputNeeded, ManageOutput"]}
{"id": "C11", "title": "Workflow processes fire on schedule", "statement": "A workflow process with a given frequency is performed when and only when model time has reached its next due time, each performance moves the due time forward by exactly one period, and with a step no longer than the frequency it is never more than one period behind.", "quantifier": "every run, frequency and step", "why_tests_cant": "history property over unbounded runs", "anchors": ["src/atm/WorkflowProcess.cpp: Initialize, IsReady, Perform", "src/atm/Model.cpp: Model::Go"]}
{"id": "C12", "title": "Output files are filled in order and hold at most the configured number of records", "statement": "With n records per file, record number k of a run is written at position k mod n of file number k div n; a file is opened before it is written, never holds more than n records, and every record is written into an open file.", "quantifier": "every sequence of output calls and every n>=1", "why_tests_cant": "property of arbitrarily long call histories", "anchors": ["src/atm/OutputManager.cpp: PerformOutput"]}
{"id": "C13", "title": "A data container lays its chunks out without overlap", "statement": "Allocating a container of chunks of arbitrary byte sizes gives consecutive, non-overlapping, 8-byte aligned slices that exactly tile the buffer, in the order the chunks were added; a chunk whose size is not a multiple of 8 is rejected.", "quantifier": "every list of chunks and sizes", "why_tests_cant": "the number and size of chunks is unbounded", "anchors": ["src/base/DataContainer.cpp: GetTotalByteSize, Allocate, AttachTo", "src/base/DataArray1D.h..4D.h: GetByteSize"]}
{"id": "C14", "title": "Container memory is owned exactly once", "statement": "Through any sequence of Allocate, AttachTo, Deallocate/Detach calls and destruction, a buffer allocated by the container is freed exactly once, a buffer supplied by the caller is never freed, and allocating or attaching while attached is refused without changing the state.", "quantifier": "every finite sequence of container operations", "why_tests_cant": "quantifies over call histories", "anchors": ["src/base/DataContainer.cpp: Allocate, AttachTo, Detach, Deallocate, ~DataContainer"]}
{"id": "C15", "title": "Multi-dimensional array indexing is injective and in bounds", "statement": "For arrays of 1 to 4 dimensions the offset computed for an in-range index tuple is inside the allocation, distinct index tuples have distinct offsets, and every offset inside the array is hit.", "quantifier": "every array shape and index tuple", "why_tests_cant": "shapes are unbounded", "anchors": ["src/base/DataArray2D.h: operator()", "src/base/DataArray3D.h: operator()", "src/base/DataArray4D.h: operator()", "src/base/Subscript.h"]}
{"id": "C16", "title": "Array assignment copies the value", "statement": "After a = b for arrays of matching ownership, a has b's shape and contents, b is unchanged, and assigning an array to itself leaves it unchanged.", "quantifier": "every shape, content and ownership state", "why_tests_cant": "values and shapes are unbounded; aliasing is a boundary the ordinary tests do not reach", "anchors": ["src/base/DataArray1D.h: Assign", "src/base/DataArray2D.h: Assign", "src/base/DataArray3D.h: Assign", "src/base/DataArray4D.h: Assign"]}
{"id": "C17", "title": "Arrays never free memory they do not own", "statement": "Through any sequence of Allocate, SetSize, AttachToData, Detach, Deallocate and destruction, memory the array allocated is released exactly once and attached memory is never released by the array; reads and writes through an attached array stay inside it.", "quantifier": "every finite call sequence", "why_tests_cant": "quantifies over call histories", "anchors": ["src/base/DataArray1D.h: Allocate, SetSize, AttachToData, Detach, Deallocate, ~DataArray1D"]}
{"id": "C18", "title": "Combining state slots computes the linear combination", "statement": "LinearCombineData(coeff, dest) leaves slot dest equal to the sum over slots m of coeff[m]*slot m evaluated before the call, for every dest and coefficient vector not longer than the number of slots, leaves all other slots unchanged, and does not read slot dest when its coefficient is zero; bad indices are refused.", "quantifier": "every number of slots, coefficient vector, destination and data", "why_tests_cant": "aliasing between destination and sources and skipped zero coefficients must be right for every position", "anchors": ["src/atm/GridPatch.cpp: LinearCombineData, CopyData, ZeroData"]}
{"id": "C19", "title": "Halo exchange across an edge delivers the neighbour's adjacent interior values in place", "statement": "When a patch packs an edge and the neighbouring patch unpacks the message on the matching edge, each halo node at depth d next to boundary position s receives the value of the neighbour's interior node at depth d at the matching position (mirrored when the edge orientation is reversed), and nothing else is modified.", "quantifier": "all patch sizes, halo widths, edge ranges, level counts and orientation flags", "why_tests_cant": "sizes are unbounded and there are 4x4 direction pairings with reversal", "anchors": ["src/atm/Connectivity.cpp: ExchangeBuffer::Pack, ExchangeBuffer::Unpack"]}
{"id": "C20", "title": "Halo exchange across a corner delivers the diagonal neighbour's values in place", "statement": "When a patch packs a corner block and the diagonal neighbour unpacks it on the matching corner, each corner halo node receives the value of the matching interior node, nothing else is modified.", "quantifier": "all patch sizes, halo widths, level counts", "why_tests_cant": "sizes unbounded, four corners and reversal", "anchors": ["src/atm/Connectivity.cpp: ExchangeBuffer::Pack, ExchangeBuffer::Unpack"]}
{"id": "C21", "title": "Exchange buffers are large enough and messages have the same length on both sides", "statement": "For every neighbour connection the number of values packed for any exchanged data type is at most the capacity reserved for the connection and equals the number of values unpacked by the receiver.", "quantifier": "every patch size, halo, number of levels, components, tracers and staggering", "why_tests_cant": "must hold for all configuration parameters", "anchors": ["src/atm/Connectivity.cpp: ExchangeBuffer::Pack, Unpack", "src/atm/Connectivity.h: CalculateByteSize, GetMessageSize", "src/atm/Grid.cpp: RegisterExchangeBuffer"]}
{"id": "C22", "title": "Message buffers of different neighbours do not overlap", "statement": "After buffer allocation, the send (and receive) regions assigned to the registered connections with a given processor are disjoint and exactly fill that processor's buffer.", "quantifier": "every set of registered exchange buffers and processors", "why_tests_cant": "unbounded number of connections", "anchors": ["src/atm/Connectivity.cpp: ExchangeBufferRegistry::Allocate"]}
{"id": "C23", "title": "Receives complete for every arrival order", "statement": "Whatever order messages arrive in, successive waits return each communicating processor's message exactly once and then report completion.", "quantifier": "every arrival order (schedule) and number of processors", "why_tests_cant": "all interleavings", "anchors": ["src/atm/Connectivity.cpp: ExchangeBufferRegistry::WaitReceive"]}
{"id": "C24", "title": "Neighbour segmentation covers each patch edge exactly once", "statement": "When exchange connections are built for a patch, the edge ranges registered along each side are consecutive, non-overlapping and cover the whole side, and each range faces a single neighbouring patch.", "quantifier": "every sequence of neighbour patches along a side", "why_tests_cant": "unbounded side length and arbitrary neighbour patterns", "anchors": ["src/atm/Grid.cpp: InitializeExchangeBuffersFromPatch"]}
{"id": "C25", "title": "The default patch layout partitions the grid", "statement": "After the default layout is applied (cubed sphere or Cartesian), every global grid node of every panel lies in the interior of exactly one patch.", "quantifier": "every resolution, order and patch count accepted by the layout", "why_tests_cant": "unbounded resolutions and counts", "anchors": ["src/atm/GridCSGLL.cpp: ApplyDefaultPatchLayout", "src/atm/GridCartesianGLL.cpp: ApplyDefaultPatchLayout", "src/atm/PatchBox.h: ContainsGlobalPoint"]}
{"id": "C26", "title": "Patch lookup by coordinate is correct and order independent", "statement": "Looking up a list of global node indices returns for each the patch that contains it (after panel crossing or periodic wrapping), independent of the other entries in the list (the search cache never changes the answer).", "quantifier": "every list of coordinates and every disjoint patch layout", "why_tests_cant": "cache behaviour depends on history of queries", "anchors": ["src/atm/GridCSGLL.cpp: GetPatchFromCoordinateIndex", "src/atm/GridCartesianGLL.cpp: GetPatchFromCoordinateIndex"]}
{"id": "C27", "title": "Each patch is active on exactly one processor", "statement": "Distributing patches over processors makes every patch active on exactly one rank, ranks agree on the owner of each patch, and loads differ by at most one patch.", "quantifier": "every number of patches and processors", "why_tests_cant": "all counts and ranks", "anchors": ["src/atm/Grid.cpp: DistributePatches, ActivateEmptyPatch, DeactivatePatch"]}
{"id": "C28", "title": "Message tags identify patch, data type and location", "statement": "Parsing the tag generated for (patch, data type, location) returns the same triple, and distinct triples have distinct tags.", "quantifier": "every patch index, data type and location", "why_tests_cant": "unbounded patch indices", "anchors": ["src/atm/ConsolidationStatus.h: GenerateTag, ParseTag"]}
{"id": "C29", "title": "Output consolidation finishes exactly when everything has arrived", "statement": "For distinct requested data types, consolidation reports done if and only if every (patch, requested type) has been received; a duplicate, unknown or out-of-range message is refused and leaves the status unchanged; arrival order does not matter.", "quantifier": "every set of requested types, number of patches and arrival order", "why_tests_cant": "all interleavings and sizes", "anchors": ["src/atm/ConsolidationStatus.cpp: ConsolidationStatus, SetReceiveStatus, Done, Contains"]}
{"id": "C30", "title": "Opposing directions are symmetric across every boundary", "statement": "If crossing from panel P in direction d reaches panel Q, the opposing direction reported for (P,Q,d) is the direction in which Q reaches P, and taking the opposing direction twice gives d back.", "quantifier": "all panels, destination panels and the eight directions", "why_tests_cant": "the tables must agree pairwise in all entries and with the coordinate maps for every resolution", "anchors": ["src/atm/CubedSphereTrans.h: OpposingDirection, PanelFromDirection, DirectionFromPanel, RelativePanel", "src/atm/Direction.cpp"]}
{"id": "C31", "title": "Crossing a panel edge and coming back returns to the same node", "statement": "For every resolution and every index up to one panel beyond an edge (not a corner), the index reported on the neighbouring panel is a valid index there, the map is injective, the node's mirror image on the neighbour maps back to the original panel at the same depth, and indices outside by both coordinates are reported invalid.", "quantifier": "every resolution N>=1, panel, and index pair", "why_tests_cant": "unbounded resolution", "anchors": ["src/atm/CubedSphereTrans.h: RelativeCoord"]}
{"id": "C32", "title": "Index crossing agrees with the sphere geometry", "statement": "For equiangular cubed-sphere nodes, the neighbour index reported for a node just across a panel edge is consistent with the three-dimensional panel coordinates: the shared edge point, seen from either panel, is the same point of the sphere, for every position along the edge.", "quantifier": "every panel edge and every position along it", "why_tests_cant": "continuous family of points and all resolutions", "anchors": ["src/atm/CubedSphereTrans.h: RelativeCoord", "src/atm/CubedSphereTrans.cpp: XYZFromXYP"]}
{"id": "C33", "title": "Panel to Cartesian conversion lands on the unit sphere and is invertible", "statement": "XYZFromXYP always gives a point on the unit sphere; two (panel, coordinate) pairs in the closed panels with the same point have matching coordinates; converting panel coordinates to another panel and back is the identity whenever the point is visible from both.", "quantifier": "all real gnomonic coordinates and panel pairs", "why_tests_cant": "real-valued domain", "anchors": ["src/atm/CubedSphereTrans.cpp: XYZFromXYP, XYPFromXYP"]}
{"id": "C34", "title": "Vector component conversions are mutually inverse and preserve the inner product", "statement": "On every panel converting (lon,lat) vector components to panel components and back is the identity, for vectors and covectors (away from the pole point), and the pairing of the vector with its covector components equals the physical squared length.", "quantifier": "all panel points away from poles and all vectors", "why_tests_cant": "real-valued domain", "anchors": ["src/atm/CubedSphereTrans.cpp: VecTransABPFromRLL, VecTransRLLFromABP, CoVecTransABPFromRLL, CoVecTransRLLFromABP"]}
{"id": "C35", "title": "Panel-to-panel vector transforms represent the same physical vector", "statement": "Transforming panel components of a vector (or covector) from one panel to a neighbouring panel gives the components that the longitude-latitude conversion on the destination panel gives for the same physical vector; round trip is the identity.", "quantifier": "all adjacent panel pairs, all points off the singular axes and all vectors", "why_tests_cant": "real-valued domain", "anchors": ["src/atm/CubedSphereTrans.h: VecPanelTrans, VecToP*FromP*, CoVecPanelTrans, CoVecToP*FromP*"]}
{"id": "C36", "title": "Longitude-latitude to panel conversion is invertible", "statement": "Every point of the sphere is assigned a panel and gnomonic coordinates with both coordinates in [-1,1], and mapping those back to Cartesian coordinates reproduces the point.", "quantifier": "all longitudes and latitudes", "why_tests_cant": "real-valued domain with tie-breaking on edges and corners", "anchors": ["src/atm/CubedSphereTrans.cpp: XYPFromRLL, XYZFromXYP"]}
{"id": "C37", "title": "Integer square root is exact", "statement": "ISqrt(n) is the largest r with r*r <= n for every 32-bit n, with no intermediate overflow.", "quantifier": "all 2^32 inputs", "why_tests_cant": "requires an invariant over the bit loop", "anchors": ["src/base/MathHelper.h: ISqrt"]}
{"id": "C38", "title": "Interpolation coefficients reproduce polynomials", "statement": "The Lagrange coefficients at a point sum to one, are the Kronecker delta at nodes, and the weighted sum of samples of any polynomial of degree below the number of distinct nodes equals the polynomial's value at the point.", "quantifier": "every node set of every size, every polynomial, every point", "why_tests_cant": "unbounded number of nodes and degree, real values", "anchors": ["src/base/PolynomialInterp.cpp: LagrangianPolynomialCoeffs, Interpolate"]}
{"id": "C39", "title": "Differentiation coefficients differentiate polynomials exactly", "statement": "The first (and second) derivative coefficients at a point applied to samples of any polynomial of degree below the number of distinct nodes give the derivative of the polynomial at that point.", "quantifier": "every node set, polynomial and point", "why_tests_cant": "unbounded degree, and the code takes different branches at nodes and between them", "anchors": ["src/base/PolynomialInterp.cpp: DiffLagrangianPolynomialCoeffs, DiffDiffLagrangianPolynomialCoeffs"]}
{"id": "C40", "title": "Legendre evaluation is the Legendre polynomial and its derivative", "statement": "For every degree the evaluated value satisfies the three-term recurrence, equals 1 at x=1 and (-1)^n at x=-1, the closed forms used for low degree agree with the recurrence, and the reported derivative is the derivative of the value.", "quantifier": "every degree and every real x", "why_tests_cant": "unbounded degree", "anchors": ["src/base/LegendrePolynomial.cpp: EvaluateValueAndDerivative"]}
{"id": "C41", "title": "Quadrature tables integrate polynomials of their nominal degree", "statement": "The n-point Gauss (Gauss-Lobatto) rule integrates polynomials up to degree 2n-1 (2n-3) on the interval to within rounding of the tabulated digits, and rescaling to [a,b] preserves exactness.", "quantifier": "each tabulated n, all polynomials of the degree, all intervals", "why_tests_cant": "all polynomials and intervals", "anchors": ["src/base/GaussQuadrature.cpp: GetPoints", "src/base/GaussLobattoQuadrature.cpp: GetPoints"]}
{"id": "C42", "title": "Explicit Runge-Kutta steps compute the advertised method", "statement": "For every right-hand side and step length, each explicit scheme's step maps the state to the result of the textbook Butcher tableau for that scheme, and the tableau meets its order conditions.", "quantifier": "all right-hand sides, states and step lengths", "why_tests_cant": "right-hand sides form an infinite-dimensional family", "anchors": ["src/atm/TimestepSchemeERK.cpp: Step"]}
{"id": "C43", "title": "A time step depends only on the current state", "statement": "The result of a step is a function of the state (and tracers) at the start of the step, the step length and the dynamics, never of the left-over contents of scratch slots.", "quantifier": "all initial contents of every slot", "why_tests_cant": "left-over contents are arbitrary history", "anchors": ["src/atm/TimestepSchemeERK.cpp: Step", "src/atm/TimestepSchemeARS222.cpp: Step", "src/atm/TimestepSchemeARS232.cpp: Step", "src/atm/TimestepSchemeARS343.cpp: Step", "src/atm/TimestepSchemeARS443.cpp: Step", "src/atm/TimestepSchemeSSP3332.cpp: Step", "src/atm/TimestepSchemeGARK2.cpp: Step"]}
{"id": "C44", "title": "IMEX steps compute the advertised additive Runge-Kutta method", "statement": "For every explicit tendency and every implicit solver, each IMEX scheme's step maps the model state to the result of its additive Runge-Kutta tableau pair, whose order conditions hold.", "quantifier": "all right-hand sides, states and step lengths", "why_tests_cant": "infinite-dimensional family", "anchors": ["src/atm/TimestepSchemeARS222.cpp", "src/atm/TimestepSchemeARS232.cpp", "src/atm/TimestepSchemeARS343.cpp", "src/atm/TimestepSchemeARS443.cpp", "src/atm/TimestepSchemeSSP3332.cpp", "src/atm/TimestepSchemeGARK2.cpp"]}
{"id": "C45", "title": "Every time-stepping scheme is consistent", "statement": "When explicit and implicit tendencies are constants f and g, one step of length dt moves the state by exactly dt*(f+g).", "quantifier": "all constant tendencies, states and step lengths, every scheme", "why_tests_cant": "must hold for all values; it is a necessary condition for convergence", "anchors": ["src/atm/TimestepSchemeERK.cpp", "src/atm/TimestepSchemeARK232.cpp", "src/atm/TimestepSchemeARK4.cpp", "src/atm/TimestepSchemeStrang.cpp", "src/atm/TimestepSchemeSplitExp.cpp"]}
{"id": "C46", "title": "Strang splitting integrates the vertical terms for the whole run", "statement": "Over a run of steps the Strang scheme applies explicit terms for the total run length and vertical implicit terms for the total run length.", "quantifier": "all runs, step lengths and off-centering parameters in [0,1]", "why_tests_cant": "it couples consecutive steps through a carried-over increment", "anchors": ["src/atm/TimestepSchemeStrang.cpp: Step", "src/atm/Model.cpp: Go"]}
{"id": "C47", "title": "A steady state stays steady", "statement": "If the dynamics produce no change from a state (zero tendencies, the implicit solver returns its input), a step of any scheme leaves the state unchanged.", "quantifier": "all states, all step lengths, all scratch contents", "why_tests_cant": "arbitrary scratch contents and states", "anchors": ["src/atm/TimestepScheme*.cpp: Step"]}
{"id": "C48", "title": "Linear invariants are conserved by the time integrator", "statement": "Any linear functional of the state (such as total mass) that every explicit and implicit sub-step leaves unchanged is left unchanged by a whole step of the scheme.", "quantifier": "all linear functionals and all dynamics that conserve them", "why_tests_cant": "infinite family of functionals and dynamics", "anchors": ["src/atm/TimestepScheme*.cpp: Step", "src/atm/GridPatch.cpp: LinearCombineData"]}
{"id": "C49", "title": "Split-explicit stepping always advances the vertical terms", "statement": "A step of the split-explicit scheme advances horizontal terms by dt and vertical terms by dt in total, however small dt is.", "quantifier": "every dt, vertical extent and level count", "why_tests_cant": "the substep count is computed by truncation and can be zero", "anchors": ["src/atm/TimestepSchemeSplitExp.cpp: Step"]}
{"id": "C50", "title": "Vertical stretching is a monotone map of [0,1] onto itself", "statement": "Each provided stretching function fixes 0 and 1, is strictly increasing, and reports the derivative of the map.", "quantifier": "all real coordinates", "why_tests_cant": "real-valued domain", "anchors": ["src/atm/VerticalStretch.h"]}
{"id": "C51", "title": "Vertical levels are ordered and their weights add up to the column", "statement": "After vertical initialisation, levels and interfaces are strictly increasing in [0,1] and the level weights and the interface weights each add up to exactly 1.", "quantifier": "every number of levels, order dividing it, staggering and monotone stretching", "why_tests_cant": "unbounded level counts and arbitrary stretching functions", "anchors": ["src/atm/GridGLL.cpp: InitializeVerticalCoordinate", "src/atm/Grid.cpp: InitializeVerticalCoordinate"]}
{"id": "C52", "title": "Grid spacing coordinates are increasing and periodic by element", "statement": "Node and edge coordinates increase with the index, repeat per element with the element spacing added, and negative (halo) indices continue the same pattern.", "quantifier": "every order, element size and every (also negative) index", "why_tests_cant": "all integers", "anchors": ["src/atm/GridSpacing.cpp"]}
{"id": "C53", "title": "Composed column operators act as composition", "statement": "Composing column operators and applying the result equals applying one after the other; the identity operator is neutral; the stored non-zero range of each row never drops a contribution.", "quantifier": "all operator sizes, coefficients and column data", "why_tests_cant": "unbounded sizes, arbitrary reals", "anchors": ["src/atm/LinearColumnOperator.cpp: ComposeWith, InitializeIdentity", "src/atm/LinearColumnOperator.h: Apply"]}
{"id": "C54", "title": "Preference files are read as written", "statement": "For a preference file of well-formed lines each name maps to the trimmed value of its first occurrence, comments and blank lines have no effect, and a line without '=' is rejected.", "quantifier": "every file content", "why_tests_cant": "unbounded strings and line counts", "anchors": ["src/base/Preferences.cpp: ParsePreferences and getters"]}
{"id": "C55", "title": "Command-line arguments set exactly the named parameters", "statement": "Parsing a command line sets each named parameter to its given values, leaves the others at their defaults, and reports unknown names and missing values.", "quantifier": "every argument vector and parameter set", "why_tests_cant": "unbounded argument lists", "anchors": ["src/base/CommandLine.h: ParseCommandLine macros", "src/atm/CommandLine.h"]}
{"id": "C56", "title": "Log indentation stays balanced and bounded", "statement": "Through any sequence of announcements the indentation level stays between 0 and 16, a start/end pair restores the level, and non-root ranks print nothing.", "quantifier": "every sequence of announcement calls", "why_tests_cant": "unbounded call histories", "anchors": ["src/base/Announce.cpp"]}
{"id": "C57", "title": "Timer groups add up", "statement": "The total recorded for a timer group is the sum of the recorded durations and the entry count is the number of recordings, each timer being counted once; resetting clears only that group.", "quantifier": "every sequence of timer operations", "why_tests_cant": "unbounded call histories", "anchors": ["src/base/FunctionTimer.cpp"]}
{"id": "C58", "title": "Direct stiffness summation makes shared nodes agree", "statement": "After averaging along one direction both copies of every shared element-edge node hold the same value, the mean of the old ones; constants are preserved; repeating the averaging changes nothing; the (equal-weight) total is conserved.", "quantifier": "all element counts, orders and data", "why_tests_cant": "unbounded sizes and arbitrary reals", "anchors": ["src/atm/GridCSGLL.cpp: ApplyDSS", "src/atm/GridCartesianGLL.cpp: ApplyDSS"]}
{"id": "C59", "title": "Global checksums do not depend on how the grid is split over processors", "statement": "For each checksum type, the value reported at the root is the same for every assignment of patches to processors.", "quantifier": "all assignments of patches to ranks and all data", "why_tests_cant": "all partitions", "anchors": ["src/atm/Grid.cpp: Checksum", "src/atm/GridPatch.cpp: Checksum"]}
{"id": "C60", "title": "Array sizes reported for a patch agree with its box", "statement": "A patch's interior width, total width and local interior range are mutually consistent, global-to-local index conversion maps interior to interior bijectively, and perimeter and node counts match enumeration.", "quantifier": "every box with non-negative interior and halo", "why_tests_cant": "unbounded sizes", "anchors": ["src/atm/PatchBox.h"]}
{"id": "C61", "title": "Variable bookkeeping per location is a bijection", "statement": "For every staggering, the per-location variable counters assign to the components stored at each location consecutive indices 0,1,..., so (location, index) identifies the component.", "quantifier": "every equation set size and every assignment of locations", "why_tests_cant": "any number of components and any location assignment", "anchors": ["src/atm/Grid.cpp: InitializeVerticalCoordinate"]}
{"id": "C62", "title": "A duration given in days or seconds advances time by that much", "statement": "Parsing a duration string such as \"45d\" or \"5400s\" and adding it to a valid no-leap Time moves elapsed time by exactly the stated number of days or seconds.", "quantifier": "every non-negative count and every valid no-leap Time", "why_tests_cant": "The duration is normalised as if it were a date in January, so whether it is exact depends on the pair (count, starting month); the counts and starts are unbounded.", "anchors": ["src/base/TimeObj.cpp: Time::FromFormattedString, Time::NormalizeTime, Time::AddTime", "src/atm/CommandLine.h: CommandLineDeltaTime"]}
{"id": "C63", "title": "Displayed and short time strings can be read back", "statement": "Parsing the display string (YYYY-MM-DD hh:mm:ss[.uuuuuu]) of a valid Time gives the Time back; parsing the short string (YYYY-MM-DD-SSSSS, used in output file names) gives it back up to microseconds, so distinct whole-second times give distinct file names.", "quantifier": "every valid fixed Time of either calendar with non-negative year", "why_tests_cant": "The parser is a character state machine over an unbounded set of strings; only a proof covers every field combination.", "anchors": ["src/base/TimeObj.cpp: Time::ToString, Time::ToShortString, Time::FromFormattedString", "src/atm/OutputManager.cpp: OutputManager::GetFileName"]}
{"id": "C64", "title": "Distinct output files have distinct names", "statement": "Two different files opened by one output manager during one run never have the same name, so no file overwrites an earlier one. (False when outputs are less than a second apart: the name carries whole seconds only.)", "quantifier": "every run, output frequency, number of records per file and pair of files", "why_tests_cant": "The number of files and their times is unbounded; a collision needs a particular combination of frequency and outputs per file.", "anchors": ["src/atm/OutputManager.cpp: OutputManager::GetFileName", "src/atm/TimeObj.cpp: Time::ToShortString"]}
{"id": "C65", "title": "Time steps use only the data slots they request", "statement": "Every time-stepping scheme, given a grid with the number of state and tracer data instances the scheme itself requests, carries out a whole step without any copy, combination or sub-step addressing an instance that does not exist (so no step can fail with an index exception), whatever the contents of the slots and the dynamics.", "quantifier": "all schemes (with their explicit discretizations and first/last flags), all slot contents, all dynamics, all step lengths", "why_tests_cant": "A test exercises the configurations it was written for; the claim is for every scheme, discretization, flag and data, including the paths only taken on a first or last step.", "anchors": ["src/atm/TimestepScheme*.cpp: Step", "src/atm/TimestepScheme*.h: GetComponentDataInstances, GetTracerDataInstances", "src/atm/GridPatch.cpp: CopyData, LinearCombineData"]}
{"id": "C66", "title": "Exchanging a data instance that does not exist is reported", "statement": "Packing or unpacking an exchange for a data instance the patch does not have, an unsupported data type or a connection of another patch raises an exception and never touches memory outside the patch data.", "quantifier": "every instance number, data type and connection", "why_tests_cant": "unbounded instance numbers; the failing value is one past the end, where a test may appear to pass", "anchors": ["src/atm/GridPatch.cpp: PackExchangeBuffer, UnpackExchangeBuffer"]}
{"id": "C69", "title": "Finite element interpolation in a column is the element polynomial", "statement": "Interpolating a column to any output location gives the value, at that location, of the polynomial through the source values of the element containing it; on the edge of two elements it gives the interface value (from interfaces) or a convex mean of the two elements' polynomials (from levels). Polynomials of degree below the order are reproduced, the stored column ranges drop no coefficient, rows held at zero give zero, and initialisation is refused exactly for inconsistent sizes.", "quantifier": "all orders, numbers of levels, level and interface positions, output locations and column values", "why_tests_cant": "Unbounded orders and columns, real positions, and a tolerance around element edges: sampled columns miss the edge rows and the orders not sampled.", "anchors": ["src/atm/LinearColumnOperatorFEM.cpp: LinearColumnInterpFEM::Initialize"]}
{"id": "C70", "title": "Finite element differentiation in a column is the derivative of the element polynomial", "statement": "The column derivative at any output location is the derivative of the polynomial through the source values of the element containing it, or on an element edge a convex mean of the derivatives from the two sides; from levels the operator first interpolates to interfaces. Derivatives of polynomials of degree below the order are exact.", "quantifier": "all orders above one, numbers of levels, positions, output locations and column values", "why_tests_cant": "Same as interpolation: exactness must hold for every polynomial, spacing and location.", "anchors": ["src/atm/LinearColumnOperatorFEM.cpp: LinearColumnDiffFEM::InitializeInterfaceMethod, InitializeGLLNodes"]}
{"id": "C71", "title": "Reconstructed column operators are exact and conservative", "statement": "Interpolation from levels to interfaces by reconstruction is the mean of the left and right stencil polynomials, one-sided at the ends; interfaces to levels is the two-point mean; differences are difference quotients or stencil derivatives. Polynomials of degree below half the order are reproduced everywhere, of degree below the order less one away from the ends. The differences at levels, weighted by the layer thickness, telescope to the values at the ends of the column. Odd or too low orders are refused.", "quantifier": "all even orders, columns, positions and values", "why_tests_cant": "Stencils shrink near the ends in a way that depends on order and column length together; conservation is a statement about every column.", "anchors": ["src/atm/LinearColumnOperatorFEM.cpp: LinearColumnInterpFEM::InitializeReconstructed, LinearColumnDiffFEM::InitializeReconstructed"]}
{"id": "C72", "title": "The variational column derivative satisfies summation by parts", "statement": "The derivative from levels to interfaces is minus the adjoint of the finite element derivative from interfaces to levels: for all columns f on levels and g on interfaces, the interface-area weighted sum of g times the derivative of f is minus the Gauss sum of f times the derivative of g. It follows that the weighted sum of the derivative of any column is zero, and, with exact rules and the matching points, that it is exact for polynomials of degree below the order inside the column.", "quantifier": "all orders, columns, interface positions and column values", "why_tests_cant": "An identity over all pairs of columns; a sampled pair can satisfy it by accident or symmetry.", "anchors": ["src/atm/LinearColumnOperatorFEM.cpp: LinearColumnDiffFEM::InitializeVariationalNodeToREdge"]}
{"id": "C67", "title": "Sides of patches are linked in pairs and an exchange brings each halo node its owner's value", "statement": "With the default patch layout of the cubed sphere, every side of every patch is connected to exactly one side of exactly one other patch; the two ends agree on the opposing side, the range and whether positions run backwards. After an exchange over such a link, every halo node straight outside the side holds, in every exchanged array, the value the owning patch holds at the very node of the sphere the halo node stands for; nothing else changes.", "quantifier": "every accepted number of patches, order, resolution, halo width up to the patch width, patch, side, exchanged data type and array contents", "why_tests_cant": "the pairing must hold for all layouts and all twelve panel edges at once, with reversals that only show on some of them; a test covers one layout and usually symmetric data", "anchors": ["src/atm/Grid.cpp: InitializeExchangeBuffersFromPatch, RegisterExchangeBuffer", "src/atm/GridCSGLL.cpp: ApplyDefaultPatchLayout, GetPatchFromCoordinateIndex, GetOpposingDirection", "src/atm/Connectivity.cpp: ExchangeBuffer::Pack, ExchangeBuffer::Unpack", "src/atm/CubedSphereTrans.cpp: RelativeCoord, OpposingDirection"]}
{"id": "C68", "title": "Corners of patches are linked in pairs and an exchange brings each diagonal halo node its owner's value", "statement": "With the default patch layout of the cubed sphere, every corner of every patch that is not at a corner of the cube is connected to exactly one corner of exactly one patch, symmetrically, and an exchange fills the diagonal halo nodes with the values their owners hold at the nodes they stand for; at a corner of the cube nothing is registered because there is no such node.", "quantifier": "every accepted number of patches, order, resolution, halo width up to the patch width, patch, corner, exchanged data type and array contents", "why_tests_cant": "whether the block arrives transposed depends on the pair of panels and is invisible with one halo node or symmetric data", "anchors": ["src/atm/Grid.cpp: InitializeExchangeBuffersFromPatch, RegisterExchangeBuffer", "src/atm/GridCSGLL.cpp: GetOpposingDirection", "src/atm/Connectivity.cpp: ExchangeBuffer::Pack, ExchangeBuffer::Unpack", "src/atm/CubedSphereTrans.cpp: OpposingDirection"]}
{"id": "C73", "title": "The positive definite filter removes negative tracer values without changing mass", "statement": "After the positive definite filter is applied to a patch, no tracer value in an element is negative and the mass of each tracer in each element at each level is what it was; elements without negative values, other variables and the halo are left as they were, and no value is raised above what it was except from negative to zero. This needs the mass of the tracer in the element not to be negative: otherwise the filter turns every positive value negative, or, if there is none, sets all to zero and so adds mass.", "quantifier": "all tracer values, positive node areas, element counts, orders, levels and tracer counts", "why_tests_cant": "Depends on the sign of sums of arbitrary values in every element; the failing case is a sign of the total, which tests on physical initial data never produce.", "anchors": ["src/atm/HorizontalDynamicsFEM.cpp: HorizontalDynamicsFEM::FilterNegativeTracers", "src/atm/Defines.h: POSITIVE_DEFINITE_FILTER_TRACERS"]}
{"id": "C74", "title": "The shallow water step conserves mass and tracers, respects a lake at rest and makes no energy", "statement": "One explicit shallow water step of any length, from any state and over any topography, leaves the mass of fluid and of each tracer in each element unchanged; leaves fluid at rest with a level surface exactly as it is over any topography; changes a tracer that is a multiple of the depth by that multiple of the change in depth; and changes the energy of an element only at second order in the length of the step. At order four, where coefficients are tabulated, mass measured by the node areas drifts by no more than 3e-15 of the fluxes per step.", "quantifier": "all states, step lengths, topographies, metrics, Coriolis fields, element counts, levels, tracers and horizontal orders with distinct nodes and non-zero weights", "why_tests_cant": "Conservation is an identity over all states and coefficients; a test sees one state and rounding error, and cannot distinguish an exact cancellation from a small leak.", "anchors": ["src/atm/HorizontalDynamicsFEM.cpp: HorizontalDynamicsFEM::StepShallowWater", "src/atm/GridGLL.cpp: GridGLL::Initialize", "src/atm/GridPatchCSGLL.cpp: GridPatchCSGLL::EvaluateGeometricTerms"]}
{"id": "C75", "title": "Scalar viscosity conserves mass, dissipates and is symmetric", "statement": "Applying scalar viscosity of any strength leaves the sum of every diffused variable over every element and level unchanged, leaves an element alone where the diffused field is uniform, never increases the variance to first order in the time step (what it adds, tested with the diffused field, is minus time step times viscosity times the summed squared gradient), and is symmetric; it diffuses exactly the requested components, refuses components that do not exist and leaves every other variable untouched.", "quantifier": "for every grid geometry, horizontal order, state, time step, viscosity, scaling flag and component index", "why_tests_cant": "the sums range over arbitrary fields, metrics and orders; a test sees finitely many fields and cannot tell exact conservation from smallness", "anchors": ["src/atm/HorizontalDynamicsFEM.cpp: HorizontalDynamicsFEM::ApplyScalarHyperdiffusion"]}
{"id": "C76", "title": "Vector viscosity damps divergence and vorticity and nothing else", "statement": "What vector viscosity adds to the horizontal velocity, tested with any flow, is time step times (divergence viscosity times product of divergences plus vorticity viscosity times product of vorticities); with the sign callers use it never adds kinetic energy, vorticity viscosity alone is invisible to every flow without vorticity (such as any gradient) and divergence viscosity alone to every flow without divergence; a uniform flow on a uniform element is unchanged; no other variable changes, and in a vertical slice the second velocity does not either.", "quantifier": "for every metric consistent with its Jacobian, horizontal order, state, test flow, time step and pair of viscosities", "why_tests_cant": "the identity holds for all pairs of flows; tests check a few flows", "anchors": ["src/atm/HorizontalDynamicsFEM.cpp: HorizontalDynamicsFEM::ApplyVectorHyperdiffusion", "src/atm/GridPatchCSGLL.cpp: GridPatchCSGLL::ComputeCurlAndDiv", "src/atm/GridPatchCartesianGLL.cpp: GridPatchCartesianGLL::ComputeCurlAndDiv"]}
{"id": "C77", "title": "Rayleigh friction relaxes towards the reference state for any time step", "statement": "Rayleigh friction multiplies the distance of each damped variable from the reference state by (1 + dt nu / 10)^-10: the result lies between the old value and the reference for every time step, never decays faster than the exact solution, leaves the reference state fixed and is a contraction; tracers, halos, density (and the second velocity in a vertical slice) of the nonhydrostatic equations and points of zero strength are untouched.", "quantifier": "for every patch, equation set, strength field, reference state, state and non-negative time step", "why_tests_cant": "unconditional stability and the bound by the exponential are statements about all time steps and strengths", "anchors": ["src/atm/HorizontalDynamicsFEM.cpp: HorizontalDynamicsFEM::ApplyRayleighFriction", "src/atm/EquationSet.cpp: EquationSet::EquationSet"]}
{"id": "C78", "title": "Viscosity after a time step refuses misuse, keeps other data and dissipates at order two and four", "statement": "The step after the sub-cycle refuses a working instance that is the initial or the updated one and any order other than 0, 2 or 4; it writes only the updated (and at order four the working) instance; with viscosity off it copies; at order two, and at order four with the intermediate averaging, the product of old and new state is the old square minus time step times viscosity times a sum of squares, for scalars and for the horizontal velocity (at order four with equal divergence and vorticity viscosity): both orders dissipate.", "quantifier": "for every choice of data instances, state that averaging leaves as it is, symmetric idempotent averaging, viscosities and time step", "why_tests_cant": "the sign of the fourth-order operator comes from two applications with opposite signs and an averaging in between; no finite set of states settles it", "anchors": ["src/atm/HorizontalDynamicsFEM.cpp: HorizontalDynamicsFEM::StepAfterSubCycle"]}
{"id": "C79", "title": "The geometric terms of a patch are those of one metric", "statement": "After the geometric terms are set, the covariant metric at a node of the cubed sphere is made of the inner products of the tangents of the grid, the contravariant metric (2x2 and 3x3, at levels and interfaces) is its inverse, the squared Jacobian is its determinant, the vertical terms are the derivatives of the height of the surfaces, and the area of a node is its Jacobian times quadrature weights and widths; all areas are positive or the setup is refused, and the assumptions of the dynamics (symmetry, regularity, no negative squares) follow.", "quantifier": "for every patch, node, level, radius, ground and model top", "why_tests_cant": "each identity holds at every point of every panel for every ground and cannot be sampled", "anchors": ["src/atm/GridPatchCSGLL.cpp: GridPatchCSGLL::EvaluateGeometricTerms", "src/atm/GridPatchCartesianGLL.cpp: GridPatchCartesianGLL::EvaluateGeometricTerms"]}
{"id": "C80", "title": "Surfaces of constant vertical coordinate lie in order between ground and top", "statement": "After the initial state is set, the lowest surface is the ground and the highest the model top, a surface of greater coordinate is higher at every node, ground that reaches the top is refused, and the strength of Rayleigh friction at every level and interface is that of the test case at its height.", "quantifier": "for every patch, node, halo node, pair of coordinates, ground and model top", "why_tests_cant": "the order must hold for every ground a test case can give", "anchors": ["src/atm/GridPatchCSGLL.cpp: GridPatchCSGLL::EvaluateTestCase", "src/atm/GridPatchCartesianGLL.cpp: GridPatchCartesianGLL::EvaluateTopography, EvaluateTestCase, EvaluateGeometricTerms"]}
{"id": "C81", "title": "Slopes of the ground and the Coriolis parameter are those of the ground and the rotation", "statement": "The stored ground at a node is the test case's at the place of the node, its stored slopes are the derivatives of the polynomial through the ground at the nodes of the element, the Coriolis parameter on the cubed sphere is twice the vertical component of the rotation at the point of the sphere, and on the Cartesian grid it is the tangent at the reference latitude, zero on a vertical slice.", "quantifier": "for every patch, panel, order, node, ground, rotation, reference latitude and extent of the domain", "why_tests_cant": "exactness is a statement about all polynomials and all points of the sphere", "anchors": ["src/atm/GridPatchCSGLL.cpp: EvaluateTopography, EvaluateCoriolis", "src/atm/GridPatchCartesianGLL.cpp: EvaluateTopography, EvaluateCoriolis"]}
{"id": "C82", "title": "Areas of regions of the cubed sphere are the areas of the sphere", "statement": "The grid angle at a point is the angle between the grid lines; the area given for a region between grid lines is the integral over it of the area element the grid uses, is positive, adds up over any cutting of a panel by grid lines, and six panels give the area of the sphere.", "quantifier": "for every region, cutting and radius", "why_tests_cant": "additivity and the integral are statements about all regions and all cuttings", "anchors": ["src/atm/CubedSphereTrans.h: CubedSphereTrans::GnomonicGridAngle, GnomonicElementArea"]}
{"id": "C83", "title": "The horizontal step of the nonhydrostatic equations conserves what it moves", "statement": "A horizontal step of any length from any state leaves the mass of air, of density times potential temperature and of every tracer in every element and level as it was, moves a tracer that is a multiple of the density as that multiple, changes kinetic, potential and internal energy only through the surfaces of the vertical coordinate, leaves air at rest with level surfaces of pressure at rest, lets no air through the ground, and changes no halo and nothing of the state it starts from where variables live; it is defined for, and moves every variable of, every vertical staggering the grid offers.", "quantifier": "for every patch, shape, metric, rotation, terrain, state, step length, element, level, node and vertical staggering", "why_tests_cant": "conservation must hold for every state and geometry; a test sees the sum for one state, and rounding hides small leaks", "anchors": ["src/atm/HorizontalDynamicsFEM.cpp: HorizontalDynamicsFEM::StepNonhydrostaticPrimitive", "src/atm/GridPatchGLL.cpp: InterpolateNodeToREdge, InterpolateREdgeToNode", "src/atm/PhysicalConstants.h: ExnerPressureFromRhoTheta"]}
{"id": "C84", "title": "The explicit horizontal step is conservative, keeps tracers non-negative and diffuses towards the reference state", "statement": "An explicit horizontal step refuses an update in place and an unknown equation set and nothing else, changes no other state, conserves air, tracers and, on levels, density times potential temperature in every element and level with and without uniform diffusion, leaves no tracer value negative where the tracer's mass is not, and its uniform diffusion dissipates the deviation from the reference state of the wind, of density times potential temperature and of vertical velocity, each with its own coefficient and wherever it lives, and leaves the reference state alone.", "quantifier": "for every patch, metric, staggering, state, reference state, coefficient, step length, pair of states and either equation set", "why_tests_cant": "conservation and dissipation must hold for every state; a sign or a coefficient exchanged between two calls shows up only in particular states", "anchors": ["src/atm/HorizontalDynamicsFEM.cpp: HorizontalDynamicsFEM::StepExplicit, ApplyScalarHyperdiffusion, ApplyVectorHyperdiffusion, FilterNegativeTracers"]}
{"id": "C85", "title": "Physical constants stay consistent and the conversions of pressure invert each other", "statement": "After any history of calls of setters every getter returns the value set last, and the derived constants are those of the present values; the conversions between density times potential temperature, pressure and Exner pressure are the equation of state of an ideal gas with these values, undo each other, commute, increase strictly, and the Exner pressure is the derivative of internal energy.", "quantifier": "for every sequence of setter calls with any values and every positive argument", "why_tests_cant": "the derived constants are cached: only some order of calls shows a cache that was not renewed; inverses must hold for every argument", "anchors": ["src/atm/PhysicalConstants.h: PhysicalConstants"]}
{"id": "C86", "title": "Diagnostics report the pressure, temperature, weight and energy of the state", "statement": "Pressure, temperature and surface pressure are those of an ideal gas and of the weight of the column, written for every node of the interior and nothing else; total energy is the sum of volume times kinetic, internal and potential energy, is a function of the state wherever its variables live, and changes along any tendency by momentum, Bernoulli head and Exner pressure times the tendencies; potential enstrophy is never negative; the totals are the sums over all patches however they are distributed and with or without MPI; a call that cannot be answered is refused.", "quantifier": "for every patch, metric, state, staggering, equation set, set of constants, index and distribution of patches", "why_tests_cant": "the energy of one state at rest on a flat plane is right in any case; the metric, the staggering and the build must vary", "anchors": ["src/atm/GridPatch.cpp: GridPatch::ComputeSurfacePressure, ComputePressure, ComputeTemperature, ComputeTotalEnergy, ComputeTotalPotentialEnstrophy, ComputeTotalVerticalMomentum", "src/atm/Grid.cpp: Grid::ComputeTotalEnergy, ComputeTotalPotentialEnstrophy, ComputeTotalVerticalMomentum"]}
{"id": "C87", "title": "The discontinuous penalty removes jumps between vertical elements without creating or destroying anything", "statement": "Flux correction derivatives are those of the one polynomial of the requested degree that is one at the right end, vanishes to the requested order at the left end and is orthogonal to every polynomial of low enough degree; the penalty applied to a column leaves its integral unchanged, changes its quadratic integral by minus half the sum over element edges of weight times jump squared, never increases it for nonnegative weights, leaves a continuous column and every value outside the column alone, and on finite volumes of second order is the exchange of weight times difference between neighbours; layouts that cannot be initialised are refused, and a single element has no penalty.", "quantifier": "for every order, number of elements, element sizes, weights, column and stride", "why_tests_cant": "the integral of a column is the same whatever the sign or the weight of a symmetric test; element sizes, orders and jumps must vary independently", "anchors": ["src/base/FluxCorrectionFunction.cpp: FluxCorrectionFunction::GetDerivatives", "src/atm/LinearColumnOperatorFEM.cpp: LinearColumnDiscPenaltyFEM::Initialize, InitializeReconstructed, Apply"]}
{"id": "C88", "title": "The vertical gradient to interfaces is exact on polynomials and gives back in energy what the divergence takes", "statement": "Set up for a column of elements, the derivative from levels to interfaces is, inside an element, the derivative of the polynomial through its levels corrected by the jumps over its edges, and on an edge the mean of both sides and the jump; it is exact for every polynomial of degree below the order; with levels and interfaces at Gauss and Gauss-Lobatto points it is minus the adjoint of the derivative from interfaces to levels, so that a flux that vanishes at both ends exchanges energy with the column without creating any; layouts that do not fit and locations outside the column are refused.", "quantifier": "for every order, number and size of elements, output locations, boundary option, column and flux", "why_tests_cant": "adjointness is a statement about every pair of columns, and a test on one grid of equal elements cannot see the sizes of the elements", "anchors": ["src/atm/LinearColumnOperatorFEM.cpp: LinearColumnDiffFEM::InitializeFluxCorrectionMethod, InitializeInterfaceMethod", "src/atm/GridGLL.cpp: GridGLL::Initialize"]}
{"id": "C89", "title": "The second derivative of a column is the weak one: exact on polynomials, conserving and dissipating", "statement": "Set up for a column of elements, the second derivative on levels is, tested with any piecewise polynomial through the quadrature of the levels, minus the integral of the product of both slopes corrected by the jumps over element edges; it is exact for every polynomial of degree below the order away from the ends; with equal elements it adds nothing to the column in total and the energy of the column falls, by at least half the weak form and a penalty on every jump, and stays only for a constant column; on shared points it is the symmetric weak form divided by the weights of the points; layouts that do not fit are refused.", "quantifier": "for every order, number and size of elements, and column", "why_tests_cant": "sign and conservation are statements about every column, and tests on equal elements cannot see that sizes of neighbours are mixed up", "anchors": ["src/atm/LinearColumnOperatorFEM.cpp: LinearColumnDiffDiffFEM::Initialize, InitializeGLLNodes", "src/atm/GridGLL.cpp: GridGLL::Initialize"]}
{"id": "C90", "title": "The vertical equations of a column conserve mass and heat, exchange energy without loss, and vanish exactly in hydrostatic balance", "statement": "Evaluated for a column with vertical velocity on interfaces, the residual of density and of density times potential temperature is the derivative of the flux through interfaces over the volume element less upwinding and diffusion, and that of vertical velocity is the pressure gradient, gravity and the gradient of kinetic energy less shear, upwinding and diffusion, with nothing at the bottom and the top. The fluxes add nothing to the column in total, so that a column solving the equations keeps its mass and heat; pressure gradient, gravity and gradient of kinetic energy exchange energy with the fluxes without loss; a column at rest has no residual if and only if it is in discrete hydrostatic balance; what was computed for other columns before does not matter.", "quantifier": "for every column, order, number of elements, metric, time step and earlier use of the work arrays", "why_tests_cant": "conservation and balance are identities between sums over all columns, and a stale work array shows only after a particular earlier column", "anchors": ["src/atm/VerticalDynamicsFEM.cpp: VerticalDynamicsFEM::SetupReferenceColumn, PrepareColumn, BuildF, Evaluate", "src/atm/VerticalDynamicsFEM.h: VecFIx", "src/atm/GridGLL.cpp: InterpolateNodeToREdge, DifferentiateNodeToREdge, DifferentiateREdgeToNode"]}
{"id": "C91", "title": "The Jacobian of the vertical equations is the derivative of the residual, and the band storage holds all of it", "statement": "The matrix built for a column, times any change of the unknowns, is the derivative of the residual along the change, in the equation of every unknown; it is refused for the staggerings it is not written for. Every statement that adds something to it lies in the band allocated for the vertical order, no statement overwrites the entry of another, and the matrix the band solver reads from the storage is the sum of what was added.", "quantifier": "for every column state where the wind does not vanish on interfaces, every direction, order, number of elements, metric and time step", "why_tests_cant": "the derivative is a limit along every direction, and an entry outside the band is silently stored over another", "anchors": ["src/atm/VerticalDynamicsFEM.cpp: BuildJacobianF, BuildJacobianF_LOR_RhoTheta_Pi, BuildJacobianF_Diffusion, Initialize (m_nJacobianFOffD)", "src/atm/VerticalDynamicsFEM.h: MatFIx, VecFIx"]}
{"id": "C92", "title": "The implicit step of a column is one step of Newton's method that conserves, keeps the ends and keeps hydrostatic balance", "statement": "The implicit step of a column takes its state to the one and only state at which the residual, linearised with the Jacobian, vanishes. It keeps the mass of the column and the integral of density times potential temperature, leaves the vertical velocity at the bottom and the top as it was, leaves a column at rest in hydrostatic balance as it was, writes nothing but density, density times potential temperature and vertical velocity, and does not depend on the columns before it. It is refused only if the staggering or order is not supported or the Jacobian is singular, and never for small enough time steps.", "quantifier": "for every column state, metric, order, number of elements and time step, and every band solver that does what LAPACK documents", "why_tests_cant": "the solution of the linear system, its uniqueness and the integrals must hold for all states and sizes", "anchors": ["src/atm/VerticalDynamicsFEM.cpp: StepImplicit", "src/base/LinearAlgebra.cpp: LAPACK::DGBSV"]}
{"id": "C93", "title": "The update of the tracers of a column is conservative transport, consistent with that of density", "statement": "After the implicit step of a column, every tracer is changed by the one and only solution of the linearised transport equation, with the winds before and after the step and upwinding at element edges; under the fully explicit option it is changed by the explicit transport step. Neither changes the mass of a tracer in the column. A tracer that is a constant multiple of density stays the same multiple of the new density. Nothing but the tracers on levels is written, and nothing depends on the columns before. The update throws or writes outside its array exactly in stated cases, and never throws for small enough time steps in columns with enough levels.", "quantifier": "for every column state, metric, order, number of elements and tracers, time step, and every band solver that does what LAPACK documents", "why_tests_cant": "solution, uniqueness, integrals and consistency must hold for all states, winds and sizes", "anchors": ["src/atm/VerticalDynamicsFEM.cpp: UpdateColumnTracers", "src/atm/VerticalDynamicsFEM.h: TracerMatFIx", "src/base/LinearAlgebra.cpp: LAPACK::DGBTRF, LAPACK::DGBTRS"]}
{"id": "C94", "title": "The implicit step of a patch steps every column once, makes shared columns agree and filters negative tracers", "statement": "The implicit vertical step of a patch changes nothing outside the interior and nothing but density, density times potential temperature, vertical velocity and tracers. Every column of the interior gets what the step of one column gives for the column that stands for it: itself, or, on the last node of an element that has a neighbour, the first node of that neighbour, in each direction. That does not depend on the order of the columns, on what earlier columns left in the work space, or on whether initial and updated data are the same arrays. So columns at the same place agree afterwards. The step fails exactly when the step of a column that stands for itself fails, and does nothing under the fully explicit option. The filter leaves no negative tracer values, keeps the mass of each column, and leaves columns without negative values alone; so mass of columns and constant mixing ratios are kept by the whole step.", "quantifier": "for every patch of whole elements of at least two nodes a side, all data, metrics, numbers of tracers, work space contents, vertical sizes and orders, and every band solver that does what LAPACK documents", "why_tests_cant": "order independence, copies and mass must hold for all patch sizes and data", "anchors": ["src/atm/VerticalDynamicsFEM.cpp: StepImplicit, FilterNegativeTracers"]}
{"id": "C95", "title": "The explicit vertical step of a patch adds the vertical tendencies, conserves and damps", "statement": "The step that treats the implicit terms explicitly, and the explicit step under the fully explicit option, change density, density times potential temperature, vertical velocity and tracers by the time step times the tendencies of vertical transport, pressure gradient, gravity, diffusion and upwinding of the initial data; nothing at rest in hydrostatic balance moves; mass is conserved and constant mixing ratios stay. The explicit step adds to horizontal velocity the penalty of its jumps at element edges, which keeps its integral and takes energy, and uniform diffusion. Every column of the interior is stepped from its own data, in any order, and nothing else changes. Without the fully explicit option the step never fails.", "quantifier": "for every patch, all data, metrics, numbers of tracers, work space contents, time steps, vertical sizes and orders, and every band solver that does what LAPACK documents", "why_tests_cant": "tendencies, integrals and independence of order must hold for all states and sizes", "anchors": ["src/atm/VerticalDynamicsFEM.cpp: StepExplicit, StepImplicitTermsExplicitly, UpdateColumnTracers"]}
{"id": "C96", "title": "A run resumed from a restart file goes on as if it had not been interrupted", "statement": "The restart file of a run holds its time, grid parameters, table of patches and the geometry and state of every patch; it is the same file for every number of processes and every order of messages. Reading it on any number of processes restores all of it, each process holding its share of the patches. Files of another kind, and files a crash left incomplete, are refused. The resumed run makes exactly the steps the first run had still to make and reaches the same states.", "quantifier": "for all grids, patch sizes, contents, numbers of writing and reading processes, orders of arrival, points at which the file is cut, moments of interruption, time steps, schemes and dynamics", "why_tests_cant": "the round trip must hold for every content and every order of arrival, and a crash can cut the file at any byte", "anchors": ["src/atm/OutputManagerComposite.cpp: OutputManagerComposite::Output, Input, OpenFile", "src/atm/Model.cpp: Model::SetGridFromRestartFile, SetTestCase, Go", "src/atm/TempestInitialize.h: _TempestSetupCubedSphereModel, _TempestSetupCartesianModel", "src/atm/OutputManager.cpp: OutputManager::InitialOutput"]}
{"id": "C97", "title": "Output on the reference grid is the state at that place", "statement": "Each value in an output file belongs to the longitude and latitude (or x and y) and height of its entry: the points are the centres of equal cells, every point of the sphere or plane is found in a patch, and the value written is that of the field asked for, interpolated by the polynomial of the horizontal element that holds the point and by that of the vertical element that holds the height. Polynomials of the order of the elements are reproduced; at the levels of the model variables on levels are written unchanged; winds come out as eastward and northward; the reference state is taken off if asked. The result does not depend on how patches are distributed over processes. Points outside a plane are refused.", "quantifier": "for all grids, patch layouts, points, output levels, fields, numbers of processes and orders of reduction", "why_tests_cant": "a wrong node, element, panel or level shows only at some points of some fields, and the result must not depend on the distribution of the patches", "anchors": ["src/atm/OutputManagerReference.cpp: OutputManagerReference::CalculatePatchCoordinates, Output", "src/atm/GridCSGLL.cpp: GridCSGLL::ConvertReferenceToPatchCoord", "src/atm/GridCartesianGLL.cpp: GridCartesianGLL::ConvertReferenceToPatchCoord", "src/atm/GridPatchCSGLL.cpp: GridPatchCSGLL::InterpolateData", "src/atm/GridPatchCartesianGLL.cpp: GridPatchCartesianGLL::InterpolateData", "src/atm/Grid.cpp: Grid::ReduceInterpolate"]}
{"id": "C98", "title": "Velocities shared between panels are averaged as vectors", "statement": "On the cubed sphere a point on the edge of a panel is held by nodes of two panels, and a corner of the cube by three, each with velocity components along its own panel's directions. After the exchange and the averaging of shared nodes every node holds the components, in its own panel, of the mean of the vectors that all nodes at that point of the sphere held. So two nodes at one point end with the same vector whatever panels and patches they are on, and a velocity that is already continuous is not changed. The same holds of the derivatives of the topography.", "quantifier": "for all patches, layouts, resolutions, orders, halo widths, panels, velocities and both kinds of components", "why_tests_cant": "a rotation with the wrong source panel, position or component at one edge of one panel shows only for velocities that cross that edge, and there are 24 edge sides and 8 corners for every layout", "anchors": ["src/atm/GridPatchCSGLL.cpp: GridPatchCSGLL::TransformHaloVelocities, TransformTopographyDeriv, InitializeCoordinateData", "src/atm/GridCSGLL.cpp: GridCSGLL::ApplyDSS", "src/atm/CubedSphereTrans.cpp: CubedSphereTrans::VecPanelTrans, CoVecPanelTrans"]}
{"id": "C99", "title": "The Held-Suarez forcing damps winds and relaxes temperature as published", "statement": "Each time the Held-Suarez process runs, horizontal winds near the surface are damped at the published rate for the relative pressure, keeping their direction and never growing; the temperature moves towards the published equilibrium for the pressure and latitude at the published rate, never past it, and air in equilibrium is left alone. Density, vertical velocity and everything outside the patch's own columns stay as they were; the product of density and potential temperature stays positive; each column is treated by itself.", "quantifier": "for all states, constants, latitudes, steps, grids, column heights and vertical staggerings", "why_tests_cant": "the balance of the forcing shows only in the climate of runs of years; a wrong pressure in a rate is invisible in any single step", "anchors": ["src/atm/HeldSuarezPhysics.cpp: HeldSuarezPhysics::Perform"]}
{"id": "C100", "title": "The model starts from the state of the test case", "statement": "Evaluating a test case fills every point of every level and interface of a patch, halo included, with the air the test case prescribes at the position of the node and at the height of the point above the test case's ground: density, heat in the chosen formulation, vertical motion and the components of the wind in the coordinates of the panel; every level also gets the tracers, and zero for a tracer the test case does not mention. The reference state is filled the same way when the test case has one. The result does not depend on what the arrays held; other data instances are not touched. The evaluation is refused exactly when the patch has no such data instance, the equations do not fit the vertical order, the ground reaches the top on a Cartesian grid, or a promised reference state is not implemented.", "quantifier": "for all test cases that compute their answer from position, patches, panels, equation sets, formulations, level placements and previous contents", "why_tests_cant": "every simulation starts here, but a unit test can compare only a few test cases at a few nodes with the same formulas written again", "anchors": ["src/atm/GridPatchCSGLL.cpp: GridPatchCSGLL::EvaluateTestCase", "src/atm/GridPatchCartesianGLL.cpp: GridPatchCartesianGLL::EvaluateTestCase", "src/atm/EquationSet.cpp: EquationSet::ConvertComponents", "src/atm/TestCase.h: TestCase", "src/atm/Grid.cpp: Grid::EvaluateTestCase"]}
{"id": "C101", "title": "Restarting with a disturbance adds it to the state", "statement": "Attaching a test case to a fresh grid evaluates it; attaching it to a grid read from a restart file leaves the state alone unless a disturbance is asked for. A disturbance adds to the air at every point, and to every tracer, what the test case prescribes at that point, and changes nothing else; a test case without a disturbance changes nothing.", "quantifier": "for all test cases, states, patches, equation sets and formulations", "why_tests_cant": "the disturbed state is the start of an ensemble member, and a wrong disturbance looks like a valid one", "anchors": ["src/atm/GridPatchCSGLL.cpp: GridPatchCSGLL::EvaluateTestCase_Perturbation", "src/atm/GridPatchCartesianGLL.cpp: GridPatchCartesianGLL::EvaluateTestCase_Perturbation", "src/atm/Grid.cpp: Grid::EvaluateTestCase_Perturbation", "src/atm/Model.cpp: Model::SetTestCase"]}
{"id": "C102", "title": "Walls of a Cartesian grid hold the air as asked", "statement": "Where a side of a Cartesian grid is set to no slip, the air at every node of that side stands still after each averaging of shared nodes; where it is set to no flux, no air passes through the side and the wind along it is left alone. Sides that are periodic, and patches that do not reach the side, keep what was exchanged. Nodes inside the patch and everything but velocities are not changed. An unknown condition is refused, and the four conditions of a test case apply to right, top, left and bottom in this order. Walls are also respected at the start of the run.", "quantifier": "for all patches, positions of the patch in the grid, states, metrics, numbers of levels, vertical staggerings and combinations of conditions", "why_tests_cant": "an air leak through one node of a wall is a few lines of wrong indices among 500 that repeat with small changes; a unit test covers one combination of side, staggering and condition", "anchors": ["src/atm/GridPatchCartesianGLL.cpp: GridPatchCartesianGLL::ApplyBoundaryConditions", "src/atm/GridCartesianGLL.cpp: GridCartesianGLL::ApplyDSS", "src/atm/Grid.cpp: Grid::ApplyBoundaryConditions, Grid::SetBoundaryCondition", "src/atm/GridPatch.h: GridPatch::ApplyBoundaryConditions"]}
{"id": "C103", "title": "Error norms compare the state with the exact solution", "statement": "The table of error norms printed for a test case gives, for each component, the L1, L2 and maximum norm of the difference between the computed state and the exact state at the present time, over the nodes of all patches of all processes, divided by the norm of the exact state (undivided where that is zero). A printed zero means that the two agree at every node. The table does not depend on how patches are spread over processes. Printing it leaves the state of the run as it was. Without a test case nothing happens.", "quantifier": "for all grids, divisions into processes, orders of reduction, states, test cases, vertical staggerings and numbers of data instances", "why_tests_cant": "the scratch instances, the sign and place of each term and the divisor are only visible in the numbers of a convergence study; a unit test fixes one grid, one process and one test case", "anchors": ["src/atm/Model.cpp: Model::ComputeErrorNorms", "src/atm/GridPatch.cpp: GridPatch::CopyData, GridPatch::LinearCombineData, GridPatch::AddReferenceState", "src/atm/Grid.cpp: Grid::EvaluateTestCase, Grid::Checksum"]}
{"id": "C104", "title": "A whole shallow water run conserves the mass of fluid and keeps a lake at rest", "statement": "A shallow water run on the cubed sphere, or on a plane that is periodic both ways, ends with the mass of fluid it began with, whatever the initial state, topography, rotation, time stepping scheme, lengths and number of steps, viscosity and hyperviscosity, and however the panels are divided into patches. Averaging the copies of nodes over the grid conserves the mass of every scalar. A fluid at rest with a level surface, over any topography, stays at rest with that surface to the end of the run.", "quantifier": "for all divisions of the panels into patches, numbers of elements, orders, levels, Jacobians with the symmetry of the grid, metrics, topographies, rotations, states, contents of scratch slots, schemes (without SSPRK53), lists of time steps and viscosity settings", "why_tests_cant": "mass is conserved only if the index arithmetic across panel edges and corners, the weights of averaging, the tables of the elements and the coefficients of the scheme fit together at every node of every patch; a test sees one grid and a drift below its tolerance", "anchors": ["src/atm/GridCSGLL.cpp: GridCSGLL::ApplyDSS, GridCSGLL::GetPatchFromCoordinateIndex", "src/atm/GridCartesianGLL.cpp: GridCartesianGLL::ApplyDSS, GridCartesianGLL::GetPatchFromCoordinateIndex", "src/atm/HorizontalDynamicsFEM.cpp: HorizontalDynamicsFEM::StepExplicit, HorizontalDynamicsFEM::StepAfterSubCycle", "src/atm/GridGLL.cpp: GridGLL::PostProcessSubstage", "src/atm/TimestepSchemeERK.cpp, src/atm/TimestepSchemeStrang.cpp, src/atm/TimestepSchemeARS222.cpp: Step", "src/atm/CubedSphereTrans.cpp: CubedSphereTrans::RelativeCoord"]}
{"id": "C105", "title": "Averaging over the whole grid gives every node the mean over all nodes at the same point", "statement": "After averaging (direct stiffness summation) over all patches of a cubed sphere or of a plane that is periodic both ways, each node of each patch holds, for each scalar component, each tracer and each level, the mean of the values of all nodes at the same point of the sphere or plane, on whatever patches and panels they are; on the sphere its velocity is the components, in its own panel, of the mean of their velocity vectors. So nodes at one point agree afterwards, averaging again changes nothing, fields that agree already are kept, and no value leaves the range of those that were averaged.", "quantifier": "for all divisions of the panels into patches, numbers of elements, orders, numbers of components, tracers and levels, states, and both kinds of momenta", "why_tests_cant": "a node may have two, three or four copies on up to three panels and several patches, found by index arithmetic and turned by coordinate transforms that differ for each pair of panels; a test compares a few nodes of one grid", "anchors": ["src/atm/GridCSGLL.cpp: GridCSGLL::ApplyDSS, GridCSGLL::GetPatchFromCoordinateIndex", "src/atm/GridCartesianGLL.cpp: GridCartesianGLL::ApplyDSS", "src/atm/GridPatchCSGLL.cpp: GridPatchCSGLL::TransformHaloVelocities", "src/atm/Grid.cpp: Grid::Exchange"]}
{"id": "C106", "title": "At the end of every step the copies of a node agree", "statement": "At the end of each step, and of a run, of a shallow water model on the cubed sphere or the doubly periodic plane, all nodes at one point hold the same scalars, components of the same velocity and, for every scheme that steps tracers (all but ARK4), the same tracers. This holds whatever the initial state and the scratch data slots held, even if copies did not agree before. ARK4 keeps agreement of tracers.", "quantifier": "for all divisions into patches, orders, states, contents of all data slots, schemes, lists of time steps and viscosity settings", "why_tests_cant": "each scheme must post-process after its last change of every slot that enters the result, and copy or combine slots so that nothing that was not averaged gets through; a test with a state that is continuous at the start does not notice when it does", "anchors": ["src/atm/TimestepSchemeERK.cpp, src/atm/TimestepSchemeStrang.cpp, src/atm/TimestepSchemeARS222.cpp, src/atm/TimestepSchemeARS443.cpp, src/atm/TimestepSchemeARK4.cpp, src/atm/TimestepSchemeSplitExp.cpp: Step", "src/atm/GridGLL.cpp: GridGLL::PostProcessSubstage", "src/atm/HorizontalDynamicsFEM.cpp: HorizontalDynamicsFEM::StepAfterSubCycle"]}
{"id": "C107", "title": "A whole nonhydrostatic run conserves the mass of air", "statement": "From the initial state to the end of a run of the nonhydrostatic model, on a cubed sphere or a doubly periodic plane cut into patches in any way, with explicit or implicit vertical dynamics, the integral of density over the whole grid does not change; without diffusion in the column neither does the integral of density times potential temperature. Columns at the same place of a patch hold the same state after every step.", "quantifier": "for all divisions into patches, numbers of elements and levels, orders, metrics, states, contents of all data slots, schemes, lists of time steps and viscosity settings", "why_tests_cant": "the horizontal and vertical fluxes, the Newton step that is solved for by LAPACK, the copies of columns on element edges, viscosity, averaging over patches and the weights of all stages have to fit together; a test follows one case to rounding error", "anchors": ["src/atm/HorizontalDynamicsFEM.cpp: HorizontalDynamicsFEM::StepExplicit, HorizontalDynamicsFEM::StepAfterSubCycle", "src/atm/VerticalDynamicsFEM.cpp: VerticalDynamicsFEM::StepExplicit, VerticalDynamicsFEM::StepImplicit, VerticalDynamicsFEM::StepImplicitTermsExplicitly", "src/atm/GridCSGLL.cpp: GridCSGLL::ApplyDSS", "src/atm/GridCartesianGLL.cpp: GridCartesianGLL::ApplyDSS", "src/atm/TimestepScheme*.cpp: Step"]}
{"id": "C108", "title": "An atmosphere at rest in hydrostatic balance stays at rest", "statement": "A run of the nonhydrostatic model from an atmosphere that does not move, is horizontally uniform on level surfaces of the vertical coordinate and is in hydrostatic balance in the sense of the column operators, ends in the same state: no wind in any direction appears anywhere, and density and density times potential temperature are unchanged on every level, with explicit or implicit vertical dynamics, with viscosity and across patches.", "quantifier": "for all divisions into patches, numbers of elements and levels, orders, metrics, balanced profiles, contents of all data slots, schemes, lists of time steps and viscosity settings", "why_tests_cant": "pressure gradient, Coriolis and metric terms, the ground condition, the Newton step solved for by LAPACK, viscosity, the transform of velocities between panels and the weights of all stages each have to leave rest exactly alone; a test on one grid sees only that spurious winds stay small", "anchors": ["src/atm/HorizontalDynamicsFEM.cpp: HorizontalDynamicsFEM::StepExplicit, HorizontalDynamicsFEM::StepAfterSubCycle", "src/atm/VerticalDynamicsFEM.cpp: VerticalDynamicsFEM::StepExplicit, VerticalDynamicsFEM::StepImplicit, VerticalDynamicsFEM::StepImplicitTermsExplicitly", "src/atm/GridCSGLL.cpp: GridCSGLL::ApplyDSS", "src/atm/GridCartesianGLL.cpp: GridCartesianGLL::ApplyDSS", "src/atm/TimestepScheme*.cpp: Step"]}
{"id": "C109", "title": "The result does not depend on how the grid is divided into patches", "statement": "A run of the shallow water model on a given grid, from given values at its nodes, ends with the same state and the same tracers at every node however the panels are divided into patches and however wide the halo is.", "quantifier": "for all pairs of divisions of the same grid into patches, on the cubed sphere and the doubly periodic plane, all orders, numbers of elements, levels and tracers, metrics, initial data, contents of scratch slots, schemes, lists of time steps and viscosity settings", "why_tests_cant": "every loop over elements, the exchange, the averaging at edges and corners and the turning of velocities have to do the same whether a neighbour is in the same patch, another patch or another panel; the number of divisions grows with the grid, and tests compare a handful", "anchors": ["src/atm/Grid.cpp: Grid::Exchange", "src/atm/GridCSGLL.cpp: GridCSGLL::ApplyDSS", "src/atm/GridCartesianGLL.cpp: GridCartesianGLL::ApplyDSS", "src/atm/GridPatchCSGLL.cpp: GridPatchCSGLL::TransformHaloVelocities", "src/atm/HorizontalDynamicsFEM.cpp: HorizontalDynamicsFEM::StepExplicit, HorizontalDynamicsFEM::StepAfterSubCycle", "src/atm/TimestepScheme*.cpp: Step"]}
{"id": "C110", "title": "Tracers are passive", "statement": "In the shallow water model velocities and height at the end of a run do not depend on the tracers, neither on their values nor on their number; and a tracer at the end of a run depends only on the flow and on its own initial values, not on other tracers nor on its place among them.", "quantifier": "for all grids and divisions into patches, numbers and values of tracers, initial data, contents of scratch slots, schemes, lists of time steps and viscosity settings", "why_tests_cant": "a wrong index or a buffer used again would couple tracers to each other or to the flow for some number of tracers only; tests have one or two", "anchors": ["src/atm/HorizontalDynamicsFEM.cpp: HorizontalDynamicsFEM::StepExplicit, HorizontalDynamicsFEM::FilterNegativeTracers, HorizontalDynamicsFEM::ApplyScalarHyperdiffusion", "src/atm/GridCSGLL.cpp: GridCSGLL::ApplyDSS", "src/atm/GridCartesianGLL.cpp: GridCartesianGLL::ApplyDSS", "src/atm/Grid.cpp: Grid::LinearCombineData, Grid::CopyData", "src/atm/TimestepScheme*.cpp: Step"]}
{"id": "C111", "title": "Computed quadrature points are ordered and symmetric", "statement": "The root finders behind quadrature rules of more than ten points return as many values as there are roots, in increasing order and mirrored about zero, so that every Gauss and Gauss-Lobatto rule treats both halves of an interval alike; when the iteration reports success the polynomial is below the tolerance at every value; an estimate among exact roots is corrected to the missing root in one refinement; a negative degree is refused.", "quantifier": "for all degrees, numbers of points and estimates", "why_tests_cant": "the iteration runs for any degree and every estimate enters the refinement of all others; tests try a few degrees", "anchors": ["src/base/LegendrePolynomial.cpp: LegendrePolynomial::AllRoots, LegendrePolynomial::AllDerivativeRoots", "src/base/GaussQuadrature.cpp: GaussQuadrature::GetPoints", "src/base/GaussLobattoQuadrature.cpp: GaussLobattoQuadrature::GetPoints"]}
{"id": "C112", "title": "Initial states of the test cases are in hydrostatic balance", "statement": "At every place where they are given, the reference and unperturbed initial states of the nonhydrostatic test cases satisfy the equation of state with a positive temperature, which is the documented one, and pressure decreases upwards by the weight of the air; the states on the sphere that may refuse do not refuse there; the ground of the baroclinic waves has the reference pressure.", "quantifier": "for all proper physical constants, parameters of the test cases, heights and latitudes", "why_tests_cant": "the balance is a statement about derivatives at every point and every choice of parameters; tests evaluate the formulas at some", "anchors": ["test/nonhydro_xz: ThermalBubbleCartesianTest.cpp, RobertBubbleCartesianTest.cpp, DensityCurrentCartesianTest.cpp, NonHydroMountainCartesianTest.cpp, ScharMountainCartesianTest.cpp, InertialGravityCartesianXZTest.cpp, HydrostaticMountainCartesianTest.cpp, Baroclinic3DCartesianTest.cpp, Baroclinic3DCartesianRidgeTest.cpp: EvaluateReferenceState, EvaluatePointwiseState", "test/nonhydro_sphere: HeldSuarezTest.cpp, BaldaufGravityWaveTest.cpp, InertiaGravityWaveTest.cpp, MountainRossby3DTest.cpp, MountainWaveSphereTest.cpp, ScharMountainSphereTest.cpp, StationaryMountainFlowTest.cpp, BaroclinicWaveUMJSTest.cpp, BaroclinicWaveJWTest.cpp: EvaluateReferenceState, EvaluatePointwiseState"]}
{"id": "C113", "title": "Initial flows of the test cases are in balance along the ground", "statement": "The zonal flows the test cases start from are steady solutions: centrifugal force, Coriolis force and the gradient of pressure cancel along every meridian (in a deep atmosphere also upwards), or across the channel with the Coriolis parameter of the Cartesian grid; the zonal flow of shallow water satisfies the full steady equations, and the Rossby-Haurwitz wave has no divergence.", "quantifier": "for all physical constants, parameters of the test cases, heights, longitudes and latitudes away from the poles", "why_tests_cant": "steadiness is an identity between derivatives at every point; a run shows only the sum of many small imbalances and of discretisation errors", "anchors": ["test/nonhydro_sphere: InertiaGravityWaveTest.cpp, MountainRossby3DTest.cpp, MountainWaveSphereTest.cpp, ScharMountainSphereTest.cpp, BaroclinicWaveUMJSTest.cpp, BaroclinicWaveJWTest.cpp: EvaluateReferenceState, EvaluatePointwiseState", "test/nonhydro_xz/Baroclinic3DCartesianTest.cpp: EvaluateReferenceState", "test/shallowwater_sphere: SWTest2.cpp, MountainRossbyTest.cpp, RossbyHaurwitzWaveTest.cpp: EvaluatePointwiseState"]}
{"id": "C114", "title": "The chemistry of two tracers is exact and conserves chlorine", "statement": "The source terms of the terminator test are the exact solution over the time step of the reaction they approximate: they do not change the total amount of chlorine, never drive a concentration below zero, leave the initial state unchanged, and the photolysis is positive only where the sun is up.", "quantifier": "for all concentrations, longitudes, latitudes, time steps, grids and patches", "why_tests_cant": "exactness is a statement about a differential equation and conservation one about all states; a test shows both to rounding for some states", "anchors": ["test/dcmip2016/interface/Terminator.f90: k_vals, tendency_Terminator, initial_value_Terminator", "test/dcmip2016/TerminatorPhysics.cpp: TerminatorPhysics::Perform"]}
{"id": "C115", "title": "Warm rain conserves water and energy and keeps mixing ratios non-negative", "statement": "The process of warm rain never makes a mixing ratio negative; what vapour, cloud and rain lose in a column is the rain reported at the ground; the heat released is the latent heat of what condensed; dry air, wind and the columns outside the interior are not changed.", "quantifier": "for all columns, time steps, numbers of levels, patches and numbers of subcycles", "why_tests_cant": "the number of subcycles depends on the state; budgets must close for every state and not only for the columns of a test", "anchors": ["test/dcmip2016/interface/kessler.f90: KESSLER", "test/dcmip2016/KesslerPhysics.cpp: KesslerPhysics::Perform"]}
{"id": "C116", "title": "Surface fluxes, mixing and large-scale precipitation keep the column physical", "statement": "The simple physics never makes a mixing ratio of water negative and never strengthens the wind beyond the bounds it had; mixing in the boundary layer is diffusion: it conserves the column sum of what it mixes and makes no new extremes; large-scale precipitation leaves unsaturated levels alone and warms the others by the latent heat of the vapour that they lose, which is the rain reported; unknown choices of scheme end the program and known ones do not.", "quantifier": "for all columns, numbers of levels, time steps, temperatures of the ocean below boiling and choices of scheme", "why_tests_cant": "the implicit solver must be stable for every profile of coefficients and every time step, and budgets must close for every column", "anchors": ["test/dcmip2016/interface/dcmip_physics_z_v1.f90: DCMIP2016_PHYSICS"]}
{"id": "C117", "title": "The process of the simple physics changes only what it should", "statement": "The process conserves the dry air of every node, leaves vertical velocity, other tracers and columns outside the interior unchanged, writes no negative density of water, reads and writes the wind of the vector components that the dynamics uses, so that bounds on eastward and northward wind hold afterwards, and leaves a column unchanged in which the physics has nothing to do.", "quantifier": "for all patches, panels, states, gases, numbers of levels and choices of scheme", "why_tests_cant": "conversions between the variables of the dynamics and of the physics must be inverse to each other for every state; a test sees small drifts only", "anchors": ["test/dcmip2016/DCMIPPhysics.cpp: DCMIPPhysics::Perform", "src/atm/CubedSphereTrans.cpp: CoVecTransRLLFromABP, CoVecTransABPFromRLL"]}
{"id": "C118", "title": "Sponge layers of the test cases damp where and as much as announced", "statement": "The strength of the friction a test case asks for is never negative and never above its stated strength, zero away from the layers at the top and at the sides, full at the outer edges, no smaller nearer to an edge, and without jumps.", "quantifier": "for all points, boxes, strengths, depths and widths of the layers", "why_tests_cant": "a wrong sign or a swapped coordinate damps the interior or reflects waves without an error; tests look at few points", "anchors": ["test/nonhydro_xz/DensityCurrentCartesianTest.cpp: EvaluateRayleighStrength", "test/nonhydro_xz/Baroclinic3DCartesianTest.cpp: EvaluateRayleighStrength", "test/nonhydro_xz/HydrostaticMountainCartesianTest.cpp: EvaluateRayleighStrength", "test/nonhydro_sphere/ScharMountainSphereTest.cpp: EvaluateRayleighStrength", "test/nonhydro_sphere/HeldSuarezTest.cpp: EvaluateRayleighStrength"]}
{"id": "C119", "title": "Mountains and perturbations of the test cases have the announced place, height and extent", "statement": "Topography of the test cases is never below the ground, nowhere higher than the given height, which it has at the given centre, and the same at equal distances from it; perturbations of wind and temperature are confined to their radius and height, of one sign and no larger than given.", "quantifier": "for all points and parameters of the test cases", "why_tests_cant": "a mountain that is cut, shifted or too low still gives a plausible flow; no finite set of points shows its shape", "anchors": ["test/nonhydro_sphere/MountainRossby3DTest.cpp: EvaluateTopography", "test/nonhydro_sphere/ScharMountainSphereTest.cpp: EvaluateTopography", "test/nonhydro_sphere/StationaryMountainFlowTest.cpp: EvaluateTopography", "test/shallowwater_sphere/MountainRossbyTest.cpp: EvaluateTopography", "test/nonhydro_xz/Baroclinic3DCartesianRidgeTest.cpp: EvaluateTopography", "test/nonhydro_sphere/BaroclinicWaveUMJSTest.cpp: EvaluatePointwisePerturbation", "test/nonhydro_xz/ThermalBubbleCartesianTest.cpp: EvaluateTPrime"]}
{"id": "C120", "title": "The split-explicit and the high-speed dynamics conserve mass and heat", "statement": "A step of the split-explicit dynamics, and the explicit and the implicit part of the high-speed dynamics, leave the total of density and of density times potential temperature over the grid as the combination of instances they start from has it; the explicit part does so in every layer of every element.", "quantifier": "for all grids whose areas fit their derivative tables, all states, time steps, combinations, and every solver of the tridiagonal systems that returns the only solution", "why_tests_cant": "a loss in one term is below the accuracy of any single run and adds up over a simulation", "anchors": ["src/atm/SplitExplicitDynamics.cpp: StepExplicit, CalculateTendencies, FirstAcousticLoop, PerformAcousticLoop", "src/atm/HighSpeedDynamics.cpp: StepExplicitCombine, StepImplicitCombine"]}
{"id": "C121", "title": "The vertically implicit parts solve the linearised equations of sound", "statement": "The new vertical momentum, density and density times potential temperature of a column satisfy the backward Euler equations linearised about the argument, with no flow through the ground and the top.", "quantifier": "for all grids, columns, states with positive temperature, time steps and combinations", "why_tests_cant": "a wrong entry of the matrix still gives a solvable system and a damped column; only the equations show it", "anchors": ["src/atm/HighSpeedDynamics.cpp: StepImplicitCombine", "src/atm/SplitExplicitDynamics.cpp: FirstAcousticLoop"]}
{"id": "C122", "title": "With the split-explicit and the high-speed dynamics air at rest in balance stays at rest", "statement": "When the air is at rest over flat ground and the pressure carries its weight, a step leaves the updated instance (or the combination of instances) as it was.", "quantifier": "for all grids with exact derivatives of constants, all balanced states of rest, time steps and combinations", "why_tests_cant": "spurious motion is small and grows only over long runs; every balanced state has to be covered", "anchors": ["src/atm/SplitExplicitDynamics.cpp: StepExplicit", "src/atm/HighSpeedDynamics.cpp: StepExplicitCombine, StepImplicitCombine"]}
{"id": "C123", "title": "The substeps of the split-explicit dynamics add up to the time step", "statement": "Every substep builds on the momenta, mass and heat of the one before, so that over a step the vertical momentum changes as the forces on the air demand.", "quantifier": "for all states, grids and time steps", "why_tests_cant": "a lost substep shows as a slow vertical response, not as an error", "anchors": ["src/atm/SplitExplicitDynamics.cpp: StepExplicit, PerformAcousticLoop"]}
{"id": "C124", "title": "The explicit part of the high-speed dynamics does not distinguish forward from backward motion", "statement": "Reversing all velocities and the rotation of the planet reverses the gains of mass and heat and leaves the gains of momentum.", "quantifier": "for all grids, states, time steps and combinations", "why_tests_cant": "it relates two runs from all pairs of mirrored states; a missing factor in one term changes a single run plausibly", "anchors": ["src/atm/HighSpeedDynamics.cpp: StepExplicitCombine", "src/atm/SplitExplicitDynamics.cpp: CalculateTendencies"]}
{"id": "C125", "title": "Tracers move with the air in the split-explicit and the high-speed dynamics", "statement": "A tracer that is mixed with the air in the same ratio everywhere stays so.", "quantifier": "for all states, grids and time steps", "why_tests_cant": "needs all flows; tests of these dynamics have no tracers", "anchors": ["src/atm/SplitExplicitDynamics.cpp: StepExplicit", "src/atm/HighSpeedDynamics.cpp: StepExplicitCombine, StepImplicitCombine"]}
{"id": "C126", "title": "A run with the high-speed dynamics conserves mass and heat, with and without viscosity", "statement": "After any number of time steps of the scheme made for the high-speed dynamics the total of density over the grid is what it was at the start, and so is that of density times potential temperature unless there is friction; the viscosity of the split-explicit dynamics conserves both as well.", "quantifier": "for all grids whose areas fit their derivative tables, all states, numbers and lengths of steps, coefficients of viscosity, and coefficients of the scheme", "why_tests_cant": "a run of any length has to be covered, and a loss of mass per step is below what a test can see", "anchors": ["src/atm/TimestepSchemeARS343b.cpp: Step", "src/atm/HighSpeedDynamics.cpp: StepExplicitCombine, StepImplicitCombine, StepAfterSubCycleCombine, ApplyScalarHyperdiffusion", "src/atm/SplitExplicitDynamics.cpp: StepAfterSubCycle, ApplyScalarHyperdiffusion"]}
{"id": "C127", "title": "Every combination of time scheme and dynamics that is accepted advances the solution or stops with an error", "statement": "When a user selects a time scheme and a horizontal dynamics and the program accepts both, a time step either performs the step or ends in an exception.", "quantifier": "for all time schemes, dynamics, states and time steps", "why_tests_cant": "the number of combinations, and for each of them all states; a step that does nothing looks like a steady solution", "anchors": ["src/atm/TempestInitialize.h", "src/atm/HorizontalDynamics.h: StepExplicitCombine, StepImplicitCombine, StepAfterSubCycleCombine", "src/atm/HighSpeedDynamics.h: StepExplicit, StepImplicit", "src/atm/TimestepSchemeARS343b.cpp: Step"]}
{"id": "C128", "title": "Viscosity of the split-explicit and high-speed dynamics leaves tracers non-negative and conserved", "statement": "After the viscosity and the filter that follows it no tracer is negative and the total of each tracer is what it was, whenever no layer of an element held less than nothing of it.", "quantifier": "for all grids whose areas are positive and fit their derivative tables, all states, coefficients of viscosity and time steps", "why_tests_cant": "the filter divides by what is positive of a tracer in each element, which may be nothing; every distribution has to be covered", "anchors": ["src/atm/HighSpeedDynamics.cpp: StepAfterSubCycleCombine, ApplyScalarHyperdiffusion, FilterNegativeTracers", "src/atm/SplitExplicitDynamics.cpp: StepAfterSubCycle, ApplyScalarHyperdiffusion, FilterNegativeTracers"]}
{"id": "C129", "title": "The second version of the horizontal dynamics computes what the first computes", "statement": "For fourth order elements, the Lorenz staggering, a symmetric metric and a grid that is not a slice, choosing the second version instead of the first changes no state variable after an explicit step without uniform diffusion, nothing at all after the step that applies viscosity and friction, and the explicit step with uniform diffusion only in that the wind is diffused towards that of data instance zero instead of that of the reference state; so it conserves mass and heat in every element and level. It refuses every order but four, an update in place and an unknown equation set, and nothing else.", "quantifier": "for all grids of fourth order, metrics, derivative tables, states of all data instances, indices, coefficients and lengths of the step", "why_tests_cant": "two independent implementations of a page of formulas each have to agree on every input, and a test compares them on the few states it runs", "anchors": ["src/atm/HorizontalDynamicsFEMV2.cpp: HorizontalDynamicsFEMV2, StepShallowWater, StepNonhydrostaticPrimitive, StepExplicit, ApplyScalarHyperdiffusion, ApplyVectorHyperdiffusion, StepAfterSubCycle", "src/atm/HorizontalDynamicsFEM.cpp: StepShallowWater, StepNonhydrostaticPrimitive, StepExplicit, ApplyScalarHyperdiffusion, ApplyVectorHyperdiffusion, StepAfterSubCycle", "src/atm/TempestInitialize.h: --hmethod"]}
{"id": "C130", "title": "The second version of the horizontal dynamics transports tracers, damps the wind and respects slices and staggering", "statement": "An explicit step of the second version carries a tracer along so that a constant mixing ratio stays constant, its uniform diffusion damps the deviation of the wind from the reference state and leaves the reference state alone, it leaves the velocity across a slice in x and z alone, and it advances vertical velocity where that lives; it changes no other data instance and of the initial one nothing but vertical velocity on levels.", "quantifier": "for all grids of fourth order, states of all data instances, indices, coefficients and lengths of the step", "why_tests_cant": "a step that leaves something out looks right on every case in which that happens to be zero", "anchors": ["src/atm/HorizontalDynamicsFEMV2.cpp: StepShallowWater, StepNonhydrostaticPrimitive, StepExplicit, ApplyVectorHyperdiffusion, FilterNegativeTracers"]}
{"id": "C131", "title": "An implicit step by Schur complement solves the column's Newton equations", "statement": "With finite volumes in the vertical and the Lorenz staggering, an implicit step by Schur complement (vertical method schur) takes each column to the one and only solution of one step of Newton's method for the implicit equations, keeps vertical velocity at the bottom and the top, leaves a column at rest in hydrostatic balance alone, keeps the heat and the mass of a column with a uniform volume element, writes nothing but density, density times potential temperature and vertical velocity, and is refused exactly for other discretisations, unsupported orders, too few levels and equations without a unique solution.", "quantifier": "for all columns, metrics, states, lengths of the step, orders and band solvers that meet LAPACK's contract", "why_tests_cant": "the elimination of vertical velocity from a banded matrix stored in overlapping diagonals has to be right for every number of levels, order and state; a wrong entry changes the result by little", "anchors": ["src/atm/VerticalDynamicsSchur.cpp: Initialize, StepImplicit, SetupReferenceColumn, PrepareColumn, BuildF, BuildJacobianF, BuildJacobianF_Diffusion", "src/atm/VerticalDynamicsSchur.h: VecFIx, VecSIx, MatFIx, MatSIx", "src/atm/TempestInitialize.h: --vmethod"]}
{"id": "C132", "title": "Columns that elements share agree after an implicit step, whatever the vertical method", "statement": "With vertical method schur, and with the second version of the finite element method in the vertical, an implicit step of a patch leaves all copies of a column that elements share equal to the copy that was stepped, in density, density times potential temperature, vertical velocity and tracers, changes no other number, and stays within the arrays of the patch.", "quantifier": "for all patches, widths of the halo, orders of elements, numbers of levels, components and states", "why_tests_cant": "which numbers are copied depends on the sizes of the patch and the number of levels; with some sizes an access is outside of the array, with others it silently reads another column", "anchors": ["src/atm/VerticalDynamicsSchur.cpp: StepImplicit", "src/atm/VerticalDynamicsFEMV2.cpp: StepImplicit", "src/base/DataArray4D.h: operator[]"]}
{"id": "C133", "title": "With method schur, tracers follow density in an implicit step", "statement": "With vertical method schur, an implicit step of a column changes every tracer by the one solution of the equation for the transport of the tracer by the wind after the step, keeps the mass of every tracer, and leaves a tracer that was a multiple of density the same multiple of the new density; it accesses only the arrays of the patch, and refuses the step otherwise.", "quantifier": "for all columns of all patches, metrics, orders, numbers of levels and tracers, and states", "why_tests_cant": "the matrix takes volume elements from places that depend on the sizes of the patch and the position of the column; on flat grids they are all the same number, and the results are those of the equation", "anchors": ["src/atm/VerticalDynamicsSchur.cpp: UpdateColumnTracers", "src/atm/VerticalDynamicsSchur.h: TracerMatFIx", "src/base/DataArray3D.h: operator[]"]}
{"id": "C134", "title": "The Richardson number of the output is that of the column", "statement": "With output of the Richardson number, the number reported for a level of a column is gravity over density times the fall of density with height, over the square of the change of the horizontal wind with height, at that level of that column; computing it accesses only the arrays of the patch.", "quantifier": "for all patches, states, vertical orders and methods, positions of levels, terrains, and arrangements of variables on levels and interfaces", "why_tests_cant": "the number is of the right order of magnitude in a smooth column; which column and which place it belongs to, its sign, and what of the state it depends on, show only in a statement about all profiles", "anchors": ["src/atm/GridPatchGLL.cpp: ComputeRichardson, InterpolateNodeToREdge, InterpolateREdgeToNode", "src/atm/GridPatchGLL.h: ComputeRichardson", "src/atm/Grid.cpp: ComputeRichardson", "src/atm/GridPatch.cpp: m_dataRichardson", "src/atm/OutputManagerReference.cpp"]}
{"id": "C135", "title": "With vertical method v2 the vertical wind carries the horizontal wind once, within its column", "statement": "With vertical method v2, an explicit step changes the horizontal wind of a level by the time step times minus the vertical wind times the slope of the horizontal wind across the levels, weighted with the mass of the interfaces of that column; over the two parts of the explicit step this is done once, and only the arrays of the patch are accessed.", "quantifier": "for all patches, states, time steps, vertical operators, terrains, levels, and with or without uniform diffusion", "why_tests_cant": "on a small grid of regular volume elements a wrong index reads the same number, and a wind carried twice looks like a stronger wind; both show only in a statement about all patches and profiles", "anchors": ["src/atm/VerticalDynamicsFEMV2.cpp: StepExplicit, SetupReferenceColumn", "src/atm/HorizontalDynamicsFEMV2.cpp: StepNonhydrostaticPrimitive", "src/atm/GridPatch.cpp: m_dataElementAreaREdge", "src/atm/TempestInitialize.h"]}
{"id": "C136", "title": "With vertical method v2 the equations of a column conserve mass and heat and are those of the default method", "statement": "With vertical method v2, the nonlinear equations solved in a column balance density and density times potential temperature by fluxes between levels, so that a solution has the mass and heat the column had; vertical velocity in length per time obeys gravity and, per unit of height, the gradients of pressure and kinetic energy less shear; and where height grows evenly in the column these are the equations of the default vertical method without its upwinding.", "quantifier": "for all columns, states, metrics, terrains, vertical operators on finite elements, time steps, and with or without uniform diffusion", "why_tests_cant": "a test compares two runs of one profile; that no flux is lost and that two formulations agree must hold for every column and metric", "anchors": ["src/atm/VerticalDynamicsFEMV2.cpp: BuildF, PrepareColumn, Evaluate", "src/atm/VerticalDynamicsFEM.cpp: BuildF"]}
{"id": "C137", "title": "With vertical method v2 the Jacobian is the derivative of the equations of the column", "statement": "With vertical method v2, the matrix of the Newton step times any direction is the derivative of the residual of the column along that direction, in the equation of every unknown.", "quantifier": "for all columns, states with positive densities, directions, metrics, terrains, and with or without uniform diffusion", "why_tests_cant": "a wrong entry of the Jacobian only slows the Newton iteration or biases a single linear step, and a factor taken on a level instead of an interface is invisible on an unstretched grid", "anchors": ["src/atm/VerticalDynamicsFEMV2.cpp: BuildJacobianF_LOR_RhoTheta_Pi, BuildF, PrepareColumn"]}
{"id": "C138", "title": "With vertical method v2 the implicit step of a column solves its linear system, conserves and keeps balance", "statement": "With vertical method v2, the implicit step of a column is refused only if the order is too high or its matrix is singular; otherwise it takes the state to the one solution of the linear system of residual and Jacobian, leaves mass and, without diffusion, the integral of density times potential temperature as they were, leaves vertical velocity at the bottom and the top and everything else it does not solve for, leaves a column in hydrostatic balance, and does not depend on the columns stepped before.", "quantifier": "for all columns of finite elements, states, metrics, terrains, time steps, earlier columns, and with or without uniform diffusion", "why_tests_cant": "conservation to rounding in a test run does not show which linear system was solved, nor that no state of an earlier column is left in the buffers", "anchors": ["src/atm/VerticalDynamicsFEMV2.cpp: StepImplicit, BuildF, BuildJacobianF_LOR_RhoTheta_Pi", "src/base/LinearAlgebra.cpp: DGBSV"]}
{"id": "C139", "title": "With vertical method v2 the update of the tracers of a column conserves them and keeps constant mixing ratios", "statement": "With vertical method v2, the update of the tracers of a column stays inside its arrays, is refused only if the column has too few levels for the order or its matrix is singular, leaves the mass of every tracer in the column as it was, leaves a tracer proportional to density proportional to density with the same factor when density takes its implicit step, and does not depend on the columns updated before.", "quantifier": "for all columns of finite elements, numbers of tracers, winds, metrics, positions in the patch, time steps, implicit and fully explicit steps, and earlier columns", "why_tests_cant": "a grid with the same volume elements everywhere, as in most test cases on the plane, hides that those of other columns are read, and a wide patch hides that the place read may be behind the end of the array", "anchors": ["src/atm/VerticalDynamicsFEMV2.cpp: UpdateColumnTracers", "src/base/LinearAlgebra.cpp: DGBSV"]}
{"id": "C140", "title": "With vertical method v2 the implicit terms, taken explicitly, are transport and balance of forces, conserve mass and keep constant mixing ratios", "statement": "With vertical method v2, taking the implicit terms explicitly adds to every column of the interior of a patch the tendencies of vertical transport, pressure gradient, gravity and diffusion of the initial data times the time step, leaves horizontal velocity and vertical velocity at the bottom and the top as they were, keeps the mass of air and of every tracer of every column, leaves columns at rest in hydrostatic balance as they are, keeps tracers proportional to density proportional to density, does not depend on the order of columns, and touches no column of the halo.", "quantifier": "for all columns of finite elements, metrics, winds, reference states, numbers of tracers, time steps, with and without the fully explicit option, all patches and earlier columns", "why_tests_cant": "the terms run only in some stages of some time steppers, where their effect is mixed with that of all other terms, and each of these laws is about every wind and every metric", "anchors": ["src/atm/VerticalDynamicsFEMV2.cpp: StepImplicitTermsExplicitly, Evaluate, UpdateColumnTracers"]}
{"id": "C141", "title": "With vertical method v2 the implicit step updates each column once and conserves mass over the patch", "statement": "With vertical method v2, the implicit step does nothing under the fully explicit option; otherwise it steps every column of the interior of a patch once, the columns that two elements share once only, from its own data and whatever the order of columns and what earlier columns left behind, succeeds exactly if the step of each column does, changes nothing in the halo, keeps the mass of air and of every tracer in every column, and keeps tracers proportional to density proportional to density.", "quantifier": "for all patches, orders of elements, numbers of columns, levels and tracers, states and earlier columns", "why_tests_cant": "a test sees one shape of patch; that no column is stepped twice or depends on its neighbours must hold for all of them, and the place that is read outside an array depends on the width of the patch", "anchors": ["src/atm/VerticalDynamicsFEMV2.cpp: StepImplicit, UpdateColumnTracers", "src/atm/GridPatch.cpp: InitializeDataLocal"]}
{"id": "C142", "title": "Vorticity and divergence of the output obey the theorems of Stokes and Gauss on every patch", "statement": "Asking a spectral element grid for vorticity and divergence is refused exactly for states of fewer than three and of four components; otherwise every node of every level gets divergence and vorticity of the velocity given and nothing else changes. Integrated with the weights of the grid over a patch, vorticity is the circulation around the edge of the patch and divergence the flow out through the edge, whatever the velocity is inside, so that both integrals are zero on a patch that closes on itself.", "quantifier": "for all orders from two on, numbers of elements and levels, metrics, velocities with one value at the nodes that elements share, and rules exact for the polynomials of the element", "why_tests_cant": "the laws are exact identities of every velocity and every metric; a test compares a few flows with their analytic vorticity up to truncation errors", "anchors": ["src/atm/GridPatchCSGLL.cpp: ComputeVorticityDivergence, ComputeCurlAndDiv", "src/atm/GridPatchCartesianGLL.cpp: ComputeVorticityDivergence, ComputeCurlAndDiv"]}
{"id": "C143", "title": "With vertical method v2 under the fully explicit option the explicit step does all vertical terms, conserves mass and keeps constant mixing ratios and balance", "statement": "With vertical method v2 and the fully explicit option, the explicit step adds to every column of the interior of a patch the tendencies of vertical transport, pressure gradient, gravity and diffusion of the initial data times the time step, advects horizontal velocity with the same vertical wind, keeps the mass of air and of every tracer of every column, without uniform diffusion keeps tracers proportional to density proportional to density and columns at rest in hydrostatic balance and winds that do not change with height as they are, does not depend on the order of columns, touches no column of the halo, and succeeds wherever the columns have enough levels.", "quantifier": "for all columns of finite elements, metrics, winds, reference states, numbers of tracers, time steps, all patches and earlier columns", "why_tests_cant": "the option is off by default; that the implicit step, which then does nothing, and this one together lose no mass holds for every wind and metric, and the place that is read outside an array depends on the width of the patch", "anchors": ["src/atm/VerticalDynamicsFEMV2.cpp: StepExplicit, Evaluate, UpdateColumnTracers", "src/atm/GridPatch.cpp: InitializeDataLocal"]}
{"id": "C144", "title": "A Newton step by stabilised biconjugate gradients returns what is left of the equations, and leaves a solution as it is", "statement": "For linear equations a Newton step by stabilised biconjugate gradients returns the squared length of what is left of the equations at the new state, however many iterations it takes; zero means a solution; one equation is solved by one iteration; with iterations per restart other than the number of equations the step is refused; and a state that solves the equations is left as it is.", "quantifier": "for all numbers of equations, matrices and right hand sides, states, perturbation sizes, numbers of iterations and tolerances", "why_tests_cant": "the residual is updated by recursion and never computed from the state; that it is that of the state is an invariant over any number of iterations", "anchors": ["src/atm/JacobianFreeNewtonKrylov.cpp: InitializeJFNK, PerformBICGSTAB_NewtonStep", "src/atm/JacobianFreeNewtonKrylov.h: Evaluate", "src/base/LinearAlgebra.h: DDOT, DAXPY, DCOPY"]}
{"id": "C145", "title": "A Newton step by generalised minimal residuals reduces the equations as it reports, and the iteration of steps reports success only at a solution", "statement": "For linear equations a Newton step by generalised minimal residuals that returns has left a state with almost nothing left of the equations as it is, and otherwise reduced the length of what is left of the equations by exactly the factor it returns, which is at most the tolerance; every step that has something to do is done; the iteration of Newton steps reports success only after a step and only at a state where the equations are met to the tolerance given for the solution.", "quantifier": "for all numbers of equations, matrices and right hand sides, states, perturbation sizes, numbers of iterations and of iterations per restart, tolerances and numbers of steps", "why_tests_cant": "the factor is taken from rotations of a triangle and never from the state; that it is the factor of the state needs that the basis stays orthonormal over any number of iterations, and the element behind the end of an array is assigned only in the last iteration of a restart", "anchors": ["src/atm/JacobianFreeNewtonKrylov.cpp: PerformJFNK, PerformJFNK_NewtonStep, GivensRotationMatrix", "src/base/LinearAlgebra.cpp: DTPSV", "src/base/LinearAlgebra.h: DNORM2, DDOT_A, DAXPY_A"]}
{"id": "C146", "title": "A Newton solver is initialised once and used only after that, with what it was initialised with", "statement": "After any history of calls on a Newton solver, a step on a vector is done exactly if some initialisation was accepted and the vector has as many elements as it gave equations, and with the numbers of that initialisation; initialisation is accepted exactly if none was accepted before, there are equations and at least as many iterations per restart; a refused call changes nothing; and a solver constructed with arguments is initialised with them.", "quantifier": "for all histories of initialisations and steps, all arguments and lengths of vectors", "why_tests_cant": "histories are unbounded, and what a flag that was never assigned holds is not visible to a test that happens to find it zero", "anchors": ["src/atm/JacobianFreeNewtonKrylov.cpp: JacobianFreeNewtonKrylov, InitializeJFNK", "src/atm/JacobianFreeNewtonKrylov.h: PerformJFNK_NewtonStep_Safe, PerformBICGSTAB_NewtonStep_Safe", "src/base/DataArray1D.h: Allocate"]}
{"id": "C147", "title": "The barotropically unstable jet blows along circles of latitude, with its largest speed at 45 degrees, and leaves the south at rest", "statement": "Without rotation of the grid the state of the barotropic instability test case is a wind along circles of latitude, zero up to the southern and beyond the northern edge of the jet, positive and at most 80 metres per second within, with 80 exactly at 45 degrees and symmetric about it; the height is that of latitude alone plus a hill of at most 120 metres; south of the jet the surface is level but for the hill; a turn changes nothing and longitudes beyond are refused; and the state is finite everywhere; on a grid turned by an angle the wind is the same jet about the turned axis.", "quantifier": "for all longitudes, latitudes and angles, all radii, rates of rotation and gravities", "why_tests_cant": "the profile and its quadrature are functions of a real latitude; the latitude where the exponent is infinite is a single point", "anchors": ["test/shallowwater_sphere/BarotropicInstabilityTest.cpp: EvaluateUPrime, EvaluatePointwiseState"]}
{"id": "C148", "title": "The helpers for text change the case of letters only, stay within the text and read hexadecimal numbers", "statement": "ToLower and ToUpper change every letter of a text and nothing else, neither the terminator nor the memory after it, and the forms for strings do the same; IgnoreWhitespace moves exactly past the white space in front and FindWhitespace exactly to the first white space or the terminator, and neither leaves the text; StringToHex returns the number written in hexadecimal when it fits an int, and -1 if a byte is no digit.", "quantifier": "for all texts of any length, all memory after the terminator and all lengths given", "why_tests_cant": "the texts are unbounded; an undefined conversion or sum usually goes unnoticed in a run", "anchors": ["src/base/StringHelper.h: ToLower, ToUpper, IgnoreWhitespace, FindWhitespace, StringToHex", "src/base/STLStringHelper.h: ToLower, ToUpper"]}
{"id": "C149", "title": "The shallow water eddy case has the same jet in both hemispheres, without rotation of the Earth", "statement": "Without rotation of the grid the state of the shallow water eddy test case is a wind along circles of latitude, the same at north and south, positive and at most 80 metres per second between 180/7 and 450/7 degrees of either hemisphere, with 80 exactly at 45 degrees, and zero elsewhere; it does not depend on the radius of the Earth; poleward of the southern jet the surface is level but for the hill and up to the equator nowhere below that; longitudes beyond one and a half turns are refused; and the state is finite everywhere.", "quantifier": "for all longitudes and latitudes, all radii and gravities", "why_tests_cant": "the profile and its quadrature are functions of a real latitude; the latitudes where the exponent is infinite are single points", "anchors": ["test/shallowwater_sphere/ShallowWaterEddyTest.cpp: EvaluateUPrime, EvaluatePointwiseState, EvaluatePhysicalConstants"]}
{"id": "C150", "title": "A single value in a data structure is released once, never released when attached, and guarded when absent", "statement": "After any history of calls on a DataStruct and its destructor every block it has allocated is released exactly once, by the function that belongs to its allocation, and no memory attached to it is released or, while not attached, changed; with data the calls set, scale, add, copy and zero the value; without data every call that needs them throws, and Allocate gives a zero value; attached memory is given up by Detach alone; the size in bytes is the least multiple of a word that holds the type.", "quantifier": "for all histories of calls, all values, all attached places, all sizes of types and words", "why_tests_cant": "the histories are unbounded, and memory released by the wrong function or a read through a null pointer need not fail in a run", "anchors": ["src/base/DataStruct.h: DataStruct, Allocate, AttachToData, Detach, Deallocate, Assign, Zero, Scale, AddProduct, GetByteSize"]}
{"id": "C151", "title": "An exception reports its file, line and message as meant", "statement": "The report of an exception is its file, its line and its message with the texts and numbers given put in place, for messages of any length; without a message it is that of a general exception.", "quantifier": "for all messages of any number of pieces, all arguments, file names and lines", "why_tests_cant": "messages hold names from the user and have no bound; a buffer that is left need not fail in a run", "anchors": ["src/base/Exception.cpp: Exception, ToString", "src/base/Exception.h: _EXCEPTIONT, _EXCEPTION1, ExceptionBufferSize"]}
