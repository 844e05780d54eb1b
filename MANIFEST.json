{
 "claims": [
  {
   "property": "C01",
   "status": "partial",
   "theorems": [
    "Verif.TimeObj.C01_add_result_valid_noLeap",
    "Verif.TimeObj.C01_unit_adds_valid_noLeap",
    "Verif.TimeObj.C01_nonneg_add_succeeds",
    "Verif.TimeObj.C01_addSeconds_refused_iff",
    "Verif.TimeObj.C01_standard_false",
    "Verif.TimeObj.C01_add_valid_any_calendar_partial",
    "Verif.TimeObj.C01_nonneg_add_succeeds_any_calendar"
   ],
   "note": "Proved in full for the no-leap calendar (any start, any signed duration). False for the standard calendar (C01_standard_false); there proved when the month sum stays inside the year."
  },
  {
   "property": "C02",
   "status": "proved",
   "theorems": [
    "Verif.TimeObj.C02_add_exact",
    "Verif.TimeObj.C02_add_total_exact",
    "Verif.TimeObj.C02_addDays_exact",
    "Verif.TimeObj.C02_addYears_exact",
    "Verif.TimeObj.C02_addDays_is_n_next_days",
    "Verif.TimeObj.C02_negative_usec_false"
   ],
   "note": "Exact for every successful addition of any sign; total for non-negative durations and for AddDays/AddYears of any sign; C02_negative_usec_false shows that negative microseconds can throw."
  },
  {
   "property": "C03",
   "status": "proved",
   "theorems": [
    "Verif.TimeObj.C03_trichotomy",
    "Verif.TimeObj.C03_eq",
    "Verif.TimeObj.C03_lt_trans",
    "Verif.TimeObj.C03_derived_ops",
    "Verif.TimeObj.C03_mismatch_throws",
    "Verif.TimeObj.C03_order_is_elapsed_time"
   ],
   "note": "Comparison operators, both calendars; elapsed-time order for valid no-leap times."
  },
  {
   "property": "C04",
   "status": "proved",
   "theorems": [
    "Verif.TimeObj.C04_sub_is_elapsed_difference",
    "Verif.TimeObj.C04_sub_laws",
    "Verif.TimeObj.C04_sub_recovers_duration",
    "Verif.TimeObj.C04_standard_throws"
   ],
   "note": "Exact rational arithmetic in place of double."
  },
  {
   "property": "C05",
   "status": "proved",
   "theorems": [
    "Verif.TimeObj.C05_long_round_trip",
    "Verif.TimeObj.C05_long_read_valid"
   ],
   "note": "Both calendars, years 0..9999; sprintf/atoi modelled without int overflow."
  },
  {
   "property": "C06",
   "status": "partial",
   "theorems": [
    "Verif.TimeObj.C06_free_round_trip",
    "Verif.TimeObj.C06_free_round_trip_length",
    "Verif.TimeObj.C06_free_round_trip_false"
   ],
   "note": "Proved for normalised durations; durations that are not normalised keep their length but not their fields (C06_free_round_trip_false)."
  },
  {
   "property": "C07",
   "status": "partial",
   "theorems": [
    "Verif.TimeObj.C07_gregorian_false",
    "Verif.TimeObj.C07_gregorian_partial"
   ],
   "note": "False as stated (C07_gregorian_false: the code uses 1000 instead of 100/400); proved outside century years."
  },
  {
   "property": "C08",
   "status": "partial",
   "theorems": [
    "Verif.Run.C08_run_ends_at_end",
    "Verif.Run.C08_every_step",
    "Verif.Run.C08_degenerate_runs",
    "Verif.Run.C08_standard_calendar_throws"
   ],
   "note": "Proved for the no-leap calendar and any non-negative non-zero step; the run never throws. In the standard calendar no run completes a step (C08_standard_calendar_throws)."
  },
  {
   "property": "C09",
   "status": "proved",
   "theorems": [
    "Verif.Run.C09_writes_increasing",
    "Verif.Run.C09_final_state_written_once"
   ],
   "note": "No-leap calendar; file system open assumed to succeed."
  },
  {
   "property": "C10",
   "status": "proved",
   "theorems": [
    "Verif.Run.C10_no_output_overdue",
    "Verif.Run.C10_output_count",
    "Verif.Run.C10_zero_frequency",
    "Verif.Run.C10_never_early"
   ],
   "note": "No-leap calendar; any frequency, including months and years, via the schedule start + k*frequency."
  },
  {
   "property": "C11",
   "status": "proved",
   "theorems": [
    "Verif.Run.C11_workflow_only_when_due",
    "Verif.Run.C11_workflow_on_schedule"
   ],
   "note": "No-leap calendar."
  },
  {
   "property": "C12",
   "status": "proved",
   "theorems": [
    "Verif.Run.C12_files_filled_in_order",
    "Verif.Run.C12_calls_succeed",
    "Verif.Run.C12_files_during_run"
   ],
   "note": "Every sequence of output calls, and every run; records per file at least one."
  },
  {
   "property": "C13",
   "status": "proved",
   "theorems": [
    "Verif.Container.C13_allocate_layout",
    "Verif.Container.C13_attach_layout",
    "Verif.Container.C13_misaligned_refused",
    "Verif.Container.C13_array_sizes_aligned"
   ],
   "note": "Chunk arrays modelled by size and attachment; malloc success is an input."
  },
  {
   "property": "C14",
   "status": "proved",
   "theorems": [
    "Verif.Container.C14_released_exactly_once",
    "Verif.Container.C14_in_use_not_released",
    "Verif.Container.C14_refused",
    "Verif.Container.C14_detach",
    "Verif.Container.C14_destructor_leaves_chunks_dangling"
   ],
   "note": "AttachTo(NULL) excluded. C14_destructor_leaves_chunks_dangling records that the destructor does not detach the chunks."
  },
  {
   "property": "C15",
   "status": "proved",
   "theorems": [
    "Verif.Mem.C15_offset_in_bounds",
    "Verif.Mem.C15_offset_injective",
    "Verif.Mem.C15_offset_onto",
    "Verif.Mem.C15_slices_agree",
    "Verif.Mem.C15_access_in_memory",
    "Verif.Mem.C15_debug_check_false"
   ],
   "note": "1 to 4 dimensions. The optional debug bounds check is off by one (C15_debug_check_false)."
  },
  {
   "property": "C16",
   "status": "partial",
   "theorems": [
    "Verif.Mem.C16_assign_copies",
    "Verif.Mem.C16_assign_to_view",
    "Verif.Mem.C16_self_assign",
    "Verif.Mem.C16_self_assign_2d_false",
    "Verif.Mem.C16_refused"
   ],
   "note": "False for self-assignment of owned 2D arrays (C16_self_assign_2d_false); proved for every other assignment between non-overlapping arrays."
  },
  {
   "property": "C17",
   "status": "proved",
   "theorems": [
    "Verif.Mem.C17_ownership",
    "Verif.Mem.C17_no_leak",
    "Verif.Mem.C17_detach",
    "Verif.Mem.C17_refused",
    "Verif.Mem.C17_allocate_fresh_and_zero"
   ],
   "note": "Byte-level heap; malloc assumed to succeed; element types of any size."
  },
  {
   "property": "C18",
   "status": "proved",
   "theorems": [
    "Verif.Steps.C18_linearCombine",
    "Verif.Steps.C18_zero_not_read",
    "Verif.Steps.C18_refused",
    "Verif.Steps.C18_copy",
    "Verif.Steps.C18_zero"
   ],
   "note": "Exact arithmetic over any field; the zero-coefficient test is modelled."
  },
  {
   "property": "C19",
   "status": "proved",
   "theorems": [
    "Verif.Exchange.C19_edge_exchange",
    "Verif.Exchange.C19_nodes",
    "Verif.Exchange.C19_whole_edge"
   ],
   "note": "For every pair of patches, edge pairing, range, width, level count, orientation and exchanged data type; values of any type, int arithmetic unbounded, delivery of the message itself assumed (see C22, C23 for the registry)."
  },
  {
   "property": "C20",
   "status": "proved",
   "theorems": [
    "Verif.Exchange.C20_corner_exchange",
    "Verif.Exchange.C20_interior_block",
    "Verif.Exchange.C20_nodes"
   ],
   "note": "As C19, for the four corners and for split points of edges; C20_interior_block characterises which corner connections are accepted."
  },
  {
   "property": "C21",
   "status": "proved",
   "theorems": [
    "Verif.Exchange.C21_edge_size",
    "Verif.Exchange.C21_corner_size"
   ],
   "note": "Exact number of values, equality of both sides and fit into the reserved size.  The code reports the receive buffer as eight times its real size; the model forbids reading past the real size, and the theorem shows this never happens."
  },
  {
   "property": "C22",
   "status": "proved",
   "theorems": [
    "Verif.Registry.C22_send_layout",
    "Verif.Registry.C22_no_processor",
    "Verif.Registry.C22_receive",
    "Verif.Registry.C22_false_duplicate_headers"
   ],
   "note": "Send regions inside their processor's buffer, disjoint, covering every byte, for every registry; receive regions coincide with the peer's send regions whenever the two ends agree on messages and headers identify them. C22_false_duplicate_headers shows the exception when two connections have equal headers."
  },
  {
   "property": "C23",
   "status": "proved",
   "theorems": [
    "Verif.Registry.C23_each_once",
    "Verif.Registry.C23_completes",
    "Verif.Registry.C23_single_wait",
    "Verif.Registry.C23_missing_message"
   ],
   "note": "For every arrival schedule (an oracle answering each MPI_Test): each processor once, completion iff all arrived. MPI itself is the oracle."
  },
  {
   "property": "C24",
   "status": "proved",
   "theorems": [
    "Verif.Patch.C24_exact",
    "Verif.Patch.C24_cover",
    "Verif.Patch.C24_ranges"
   ],
   "note": "Connections of one patch, for every arrangement of patches around it; needs at least one interior node in each direction (an empty patch is not modelled)."
  },
  {
   "property": "C25",
   "status": "proved",
   "theorems": [
    "Verif.Patch.C25_cubed_sphere",
    "Verif.Patch.C25_cartesian",
    "Verif.Patch.C25_cubed_sphere_accepts",
    "Verif.Patch.C25_cubed_sphere_balanced",
    "Verif.Patch.C25_cartesian_unbalanced"
   ],
   "note": "Both layouts partition the nodes. Finding recorded in C25_cartesian_unbalanced: the Cartesian layout accepts patch counts that give empty patches."
  },
  {
   "property": "C26",
   "status": "proved",
   "theorems": [
    "Verif.Patch.C26_cubed_sphere",
    "Verif.Patch.C26_history",
    "Verif.Patch.C26_default",
    "Verif.Patch.C26_cartesian"
   ],
   "note": "Lookup by global index, with the cached last answer, for both grids. Hypotheses: the boxes are those of a layout and every queried node is in range (or, Cartesian, one wrap away in a periodic direction)."
  },
  {
   "property": "C27",
   "status": "proved",
   "theorems": [
    "Verif.Patch.C27_exactly_one",
    "Verif.Patch.C27_agree",
    "Verif.Patch.C27_balanced",
    "Verif.Patch.C27_deactivate",
    "Verif.Patch.C27_active_nodup",
    "Verif.Patch.C27_repeated_activation"
   ],
   "note": "Distribution of patches over processors, activation and deactivation. Boxes that were never initialised are distributed too, as in the code."
  },
  {
   "property": "C28",
   "status": "partial",
   "theorems": [
    "Verif.Consol.C28_roundtrip_partial",
    "Verif.Consol.C28_injective_partial",
    "Verif.Consol.C28_parse",
    "Verif.Consol.C28_false",
    "Verif.Consol.C28_no_overflow"
   ],
   "note": "Round trip and injectivity proved for data types 0..15 and non-negative patch indices (C28_roundtrip_partial, C28_injective_partial); C28_false: types 16 to 19, which exist, collide with the next patch's tags. Integers unbounded except in C28_no_overflow, which bounds the patch index for 32-bit int."
  },
  {
   "property": "C29",
   "status": "proved",
   "theorems": [
    "Verif.Consol.C29_done",
    "Verif.Consol.C29_accept",
    "Verif.Consol.C29_order",
    "Verif.Consol.C29_contains",
    "Verif.Consol.C29_duplicate_never_done",
    "Verif.Consol.C29_not_root",
    "Verif.Consol.C29_sends"
   ],
   "note": "All request lists and all arrival sequences, by induction over the messages; C29_duplicate_never_done records that requesting one type twice never completes. MPI itself is not modelled: a message is one SetReceiveStatus call."
  },
  {
   "property": "C30",
   "status": "proved",
   "theorems": [
    "Verif.Panel.C30_edges",
    "Verif.Panel.C30_involutive",
    "Verif.Panel.C30_diagonals",
    "Verif.Panel.C30_opposite",
    "Verif.Panel.C30_grids"
   ],
   "note": "All panels and all edges (a finite domain settled completely); the Cartesian grid as well."
  },
  {
   "property": "C31",
   "status": "proved",
   "theorems": [
    "Verif.Panel.C31_crossing",
    "Verif.Panel.C31_valid",
    "Verif.Panel.C31_injective",
    "Verif.Panel.C31_corner"
   ],
   "note": "Every panel width and every index in the range reached by a halo no deeper than the panel."
  },
  {
   "property": "C32",
   "status": "proved",
   "theorems": [
    "Verif.Sphere.C32_same_point"
   ],
   "note": "For any node coordinates symmetric about the panel centre and running from -1 to 1 (as the equiangular element nodes do): same point, same or opposite edge direction as reported, and outward of one is inward of the other, on all 24 edges. Real arithmetic."
  },
  {
   "property": "C33",
   "status": "proved",
   "theorems": [
    "Verif.Sphere.C33_projection",
    "Verif.Sphere.C33_unit",
    "Verif.Sphere.C33_panels",
    "Verif.Sphere.C33_refused",
    "Verif.Sphere.C33_roundtrip",
    "Verif.Sphere.C33_injective"
   ],
   "note": "Over the real numbers, with exact square roots (no rounding)."
  },
  {
   "property": "C34",
   "status": "partial",
   "theorems": [
    "Verif.Sphere.C34_tangent",
    "Verif.Sphere.C34_roundtrip",
    "Verif.Sphere.C34_pairing",
    "Verif.Sphere.C34_north_pole",
    "Verif.Sphere.C34_false_south_pole",
    "Verif.Sphere.C34_vector_from",
    "Verif.Sphere.C34_vector_to",
    "Verif.Sphere.C34_covector_from",
    "Verif.Sphere.C34_covector_to"
   ],
   "note": "Over the real numbers. Proved at every point of every panel except within the pole tolerance of the polar panels, and on the polar panels for |X| > DBL_EPSILON or X = 0 (the code uses longitude 0 or pi below that). C34_false_south_pole: at the south pole the code's special case gives a vector with one component reversed, at every longitude."
  },
  {
   "property": "C35",
   "status": "proved",
   "theorems": [
    "Verif.Sphere.C35_lonlat",
    "Verif.Sphere.C35_defined",
    "Verif.Sphere.C35_vector",
    "Verif.Sphere.C35_covector",
    "Verif.Sphere.C35_roundtrip"
   ],
   "note": "All 12 pairs of neighbouring panels in both directions, vectors and covectors, over the real numbers; divisions by zero are excluded because the point must be in front of both panels."
  },
  {
   "property": "C36",
   "status": "proved",
   "theorems": [
    "Verif.Sphere.C36_total",
    "Verif.Sphere.C36_total_angles",
    "Verif.Sphere.C36_range",
    "Verif.Sphere.C36_from",
    "Verif.Sphere.C36_roundtrip",
    "Verif.Sphere.C36_roundtrip_panel"
   ],
   "note": "Over the real numbers, with exact trigonometric functions; the way back to longitudes excludes the poles and 0 < |X| <= DBL_EPSILON on the polar panels."
  },
  {
   "property": "C37",
   "status": "proved",
   "theorems": [
    "Verif.Num.C37_isqrt",
    "Verif.Num.C37_no_overflow",
    "Verif.Num.C37_square"
   ],
   "note": "Every 32-bit input, with the machine's wrap-around arithmetic; no intermediate result overflows."
  },
  {
   "property": "C38",
   "status": "proved",
   "theorems": [
    "Verif.Interp.C38_exact",
    "Verif.Interp.C38_sum",
    "Verif.Interp.C38_delta",
    "Verif.Interp.C38_interpolate",
    "Verif.Interp.C38_fixed",
    "Verif.Interp.C38_vandermonde"
   ],
   "note": "Real arithmetic. Exactness, partition of unity, delta property, interpolation and the fixed-order helpers are proved for every number of distinct nodes. The library solve in the polynomial fit is not modelled: what is proved is that any solution of its system is the interpolant."
  },
  {
   "property": "C39",
   "status": "proved",
   "theorems": [
    "Verif.Interp.C39_first",
    "Verif.Interp.C39_second",
    "Verif.Interp.C39_third",
    "Verif.Interp.C39_sum_zero"
   ],
   "note": "Real arithmetic; nodes at least 1e-14 apart, the tolerance below which the code reuses a node."
  },
  {
   "property": "C40",
   "status": "proved",
   "theorems": [
    "Verif.Legendre.C40_evaluate",
    "Verif.Legendre.C40_negative",
    "Verif.Legendre.C40_derivative",
    "Verif.Legendre.C40_recurrence",
    "Verif.Legendre.C40_ends",
    "Verif.Legendre.C40_second",
    "Verif.Legendre.C40_orthogonal"
   ],
   "note": "Real arithmetic; all degrees. The root finders are numeric iterations and are not modelled."
  },
  {
   "property": "C41",
   "status": "partial",
   "theorems": [
    "Verif.Quad.C41_refused",
    "Verif.Quad.C41_gauss_table_partial",
    "Verif.Quad.C41_lobatto_table",
    "Verif.Quad.C41_false",
    "Verif.Quad.C41_gauss_formula",
    "Verif.Quad.C41_lobatto_formula",
    "Verif.Quad.C41_roots_exist",
    "Verif.Quad.C41_rescale"
   ],
   "note": "Real arithmetic, literals as decimal fractions. False for the nine-point Gauss rule (C41_false): its table pairs the Gauss-Lobatto nodes with the Gauss weights. For more than ten points the root finder's iteration is a parameter assumed to return the exact roots, which are proved to exist."
  },
  {
   "property": "C42",
   "status": "partial",
   "theorems": [
    "Verif.Steps.C42_erk_step_partial",
    "Verif.Steps.C42_erk_order_partial",
    "Verif.Steps.C42_ssprk53_partial",
    "Verif.Steps.C42_ssprk53_order_partial"
   ],
   "note": "Forward Euler, RK4, SSP3 and KGU35 exactly, any right-hand side, exact arithmetic; SSPRK53 within 1e-15 (its decimals do not add up to one)."
  },
  {
   "property": "C43",
   "status": "partial",
   "theorems": [
    "Verif.Steps.C43_scratch_partial",
    "Verif.Steps.C43_no_tracers_partial",
    "Verif.Steps.C43_strang_next",
    "Verif.Steps.C43_false_ars222",
    "Verif.Steps.C43_false_gark2",
    "Verif.Steps.C43_false_ssp3332",
    "Verif.Steps.C43_false_ars443",
    "Verif.Steps.C43_false_ark232",
    "Verif.Steps.C43_false_ark4"
   ],
   "note": "False with tracers for six schemes (C43_false_*); proved with tracers for the others and without tracers for all."
  },
  {
   "property": "C44",
   "status": "partial",
   "theorems": [
    "Verif.Steps.C44_ars222_partial",
    "Verif.Steps.C44_ars232",
    "Verif.Steps.C44_ars343",
    "Verif.Steps.C44_ars343b",
    "Verif.Steps.C44_ars443_partial",
    "Verif.Steps.C44_ssp3332_partial",
    "Verif.Steps.C44_gark2_partial",
    "Verif.Steps.C44_order2",
    "Verif.Steps.C44_order3_ars443",
    "Verif.Steps.C44_order3_ars343_partial"
   ],
   "note": "ARS232, ARS343, ARS343b with tracers, the others without tracers; order conditions exact except the decimal ARS343 (1e-15). ARK232 and ARK4 are not the published methods (see C45)."
  },
  {
   "property": "C45",
   "status": "partial",
   "theorems": [
    "Verif.Steps.C45_state_partial",
    "Verif.Steps.C45_tracers_partial",
    "Verif.Steps.C45_false_ark232",
    "Verif.Steps.C45_false_ark4",
    "Verif.Steps.C45_false_ssprk53"
   ],
   "note": "All schemes but SSPRK53, ARK232 and ARK4, for which it is false (C45_false_*); exact arithmetic. Strang is C46."
  },
  {
   "property": "C46",
   "status": "partial",
   "theorems": [
    "Verif.Steps.C46_total",
    "Verif.Steps.C46_run_partial",
    "Verif.Steps.C46_false_offcentering",
    "Verif.Steps.C46_false_short_last"
   ],
   "note": "Exact total for every run and off-centering (C46_total). It equals the run length for off-centering 0 or 1 with equal first and last step; false otherwise (C46_false_*)."
  },
  {
   "property": "C47",
   "status": "partial",
   "theorems": [
    "Verif.Steps.C47_step_partial",
    "Verif.Steps.C47_strang_run",
    "Verif.Steps.C47_false_ssprk53"
   ],
   "note": "All schemes but SSPRK53 (false, C47_false_ssprk53); with tracers only for the schemes that copy them; whole Strang runs."
  },
  {
   "property": "C48",
   "status": "partial",
   "theorems": [
    "Verif.Steps.C48_step_partial",
    "Verif.Steps.C48_strang_run"
   ],
   "note": "As C47; exact arithmetic."
  },
  {
   "property": "C49",
   "status": "partial",
   "theorems": [
    "Verif.Steps.C49_partial",
    "Verif.Steps.C49_false",
    "Verif.Steps.C49_small_steps"
   ],
   "note": "Proved with at least one small step; false without (C49_false), which happens for every short enough step (C49_small_steps)."
  },
  {
   "property": "C50",
   "status": "proved",
   "theorems": [
    "Verif.Vert.C50_stretching",
    "Verif.Vert.C50_derivative",
    "Verif.Vert.C50_onto"
   ],
   "note": "Real arithmetic."
  },
  {
   "property": "C51",
   "status": "partial",
   "theorems": [
    "Verif.Vert.C51_levels",
    "Verif.Vert.C51_interface_levels",
    "Verif.Vert.C51_refused",
    "Verif.Vert.C51_gauss_rule",
    "Verif.Vert.C51_lobatto_rule",
    "Verif.Vert.C51_false"
   ],
   "note": "Real arithmetic, literals as decimal fractions. False for the spectral element method at order nine (C51_false): the Gauss table holds the Gauss-Lobatto nodes, so the last level of an element is the first of the next. The finite volume spacing on interfaces divides by zero when it has one node and is outside the model."
  },
  {
   "property": "C52",
   "status": "partial",
   "theorems": [
    "Verif.Vert.C52_uniform",
    "Verif.Vert.C52_repeated_partial",
    "Verif.Vert.C52_lobatto_partial",
    "Verif.Vert.C52_pattern",
    "Verif.Vert.C52_weights_partial",
    "Verif.Vert.C52_false"
   ],
   "note": "Real arithmetic. Proved for non-negative indices; for negative indices the Gauss-Lobatto spacings are wrong (C52_false): node -1 is node 0 and the weight is read before the array."
  },
  {
   "property": "C53",
   "status": "proved",
   "theorems": [
    "Verif.Column.C53_apply",
    "Verif.Column.C53_column",
    "Verif.Column.C53_compose",
    "Verif.Column.C53_refused",
    "Verif.Column.C53_identity",
    "Verif.Column.C53_initialize"
   ],
   "note": "Real arithmetic. Rows are functions of the column index."
  },
  {
   "property": "C54",
   "status": "partial",
   "theorems": [
    "Verif.Prefs.C54_read_partial",
    "Verif.Prefs.C54_getters",
    "Verif.Prefs.C54_malformed",
    "Verif.Prefs.C54_no_name",
    "Verif.Prefs.C54_last_line_lost",
    "Verif.Prefs.C54_long_line"
   ],
   "note": "every file of newline-terminated lines of at most 255 characters is read as specified; a final line without newline is lost and a longer line hangs the program (both proved), and a name that is empty is undefined behaviour"
  },
  {
   "property": "C55",
   "status": "proved",
   "theorems": [
    "Verif.Cli.C55_set",
    "Verif.Cli.C55_unknown",
    "Verif.Cli.C55_missing",
    "Verif.Cli.C55_integer"
   ],
   "note": "both versions of the parser; conversion of text to double and to time is not repeated here; parameter names distinct and not empty; values that begin with two dashes and are longer than that cannot be given"
  },
  {
   "property": "C56",
   "status": "partial",
   "theorems": [
    "Verif.Log.C56_bounds",
    "Verif.Log.C56_nested_partial",
    "Verif.Log.C56_false_deep",
    "Verif.Log.C56_root_only",
    "Verif.Log.C56_verbosity",
    "Verif.Log.C56_message",
    "Verif.Log.C56_banner",
    "Verif.Log.C56_false_redirect"
   ],
   "note": "bounds, root-only output, verbosity, line structure and banner for every call sequence; nesting restores the level up to depth 16, and beyond it the claim is false (C56_false_deep); the banner bypasses a redirected buffer (C56_false_redirect); formatting of arguments is not modelled"
  },
  {
   "property": "C57",
   "status": "partial",
   "theorems": [
    "Verif.Timer.C57_total",
    "Verif.Timer.C57_exact",
    "Verif.Timer.C57_reset",
    "Verif.Timer.C57_once_partial",
    "Verif.Timer.C57_false_once",
    "Verif.Timer.C57_unnamed"
   ],
   "note": "sums, counts, averages and resets for every history, modulo the counter sizes; 'each timer counted once' is false of a timer that is stopped and then destroyed (C57_false_once)"
  },
  {
   "property": "C58",
   "status": "proved",
   "theorems": [
    "Verif.Dss.C58_mean",
    "Verif.Dss.C58_corner",
    "Verif.Dss.C58_global",
    "Verif.Dss.C58_agree",
    "Verif.Dss.C58_panels",
    "Verif.Dss.C58_bounds",
    "Verif.Dss.C58_constant",
    "Verif.Dss.C58_continuous",
    "Verif.Dss.C58_cartesian",
    "Verif.Dss.C58_idempotent",
    "Verif.Dss.C58_topography",
    "Verif.Dss.C58_repeat",
    "Verif.Dss.C58_conserved",
    "Verif.Dss.C58_inside"
   ],
   "note": "Averaging loops of both grids on one patch, one component and one level, in exact arithmetic; the halo contents are a hypothesis (delivered by the exchange, C19/C20), and vector components are those already rotated into the patch's own basis."
  },
  {
   "property": "C59",
   "status": "proved",
   "theorems": [
    "Verif.Checksum.C59_sum",
    "Verif.Checksum.C59_l1",
    "Verif.Checksum.C59_l2",
    "Verif.Checksum.C59_linf",
    "Verif.Checksum.C59_independent",
    "Verif.Checksum.C59_defined",
    "Verif.Checksum.C59_refused"
   ],
   "note": "Exact real arithmetic: rounding differences from a different order of summation are outside the model. MPI_Reduce is any binary tree over the processes."
  },
  {
   "property": "C60",
   "status": "proved",
   "theorems": [
    "Verif.Patch.C60_ranges",
    "Verif.Patch.C60_local_global",
    "Verif.Patch.C60_total_nodes",
    "Verif.Patch.C60_perimeter_length",
    "Verif.Patch.C60_perimeter_mem",
    "Verif.Patch.C60_grid_counts"
   ],
   "note": ""
  },
  {
   "property": "C61",
   "status": "proved",
   "theorems": [
    "Verif.Vars.C61_index",
    "Verif.Vars.C61_injective",
    "Verif.Vars.C61_consecutive",
    "Verif.Vars.C61_accepts",
    "Verif.Vars.C61_staggering",
    "Verif.Vars.C61_flat"
   ],
   "note": "All component counts and location lists; the writes of fixed component numbers assume arrays of at least 3 or 5 components."
  },
  {
   "property": "C62",
   "status": "partial",
   "theorems": [
    "Verif.TimeObj.C62_day_duration_partial",
    "Verif.TimeObj.C62_day_duration_false",
    "Verif.TimeObj.C62_second_duration_partial",
    "Verif.TimeObj.C62_hms_duration_partial"
   ],
   "note": "False beyond 30 days (C62_day_duration_false); proved up to 30 days / below 31 days in seconds."
  },
  {
   "property": "C63",
   "status": "proved",
   "theorems": [
    "Verif.TimeObj.C63_display_round_trip",
    "Verif.TimeObj.C63_short_round_trip",
    "Verif.TimeObj.C63_short_injective",
    "Verif.TimeObj.C63_date_and_minutes_read",
    "Verif.TimeObj.C63_long_not_general"
   ],
   "note": "Display and short formats, both calendars."
  },
  {
   "property": "C64",
   "status": "partial",
   "theorems": [
    "Verif.Run.C64_file_names_distinct_partial",
    "Verif.Run.C64_file_names_false"
   ],
   "note": "False for output intervals below one second (C64_file_names_false); proved when no two outputs fall in the same second."
  },
  {
   "property": "C65",
   "status": "proved",
   "theorems": [
    "Verif.Steps.C65_step_succeeds",
    "Verif.Steps.C65_needed"
   ],
   "note": "All schemes."
  },
  {
   "property": "C66",
   "status": "partial",
   "theorems": [
    "Verif.Exchange.C66_false",
    "Verif.Exchange.C66_partial"
   ],
   "note": "False for the instance just past the end (C66_false: undefined behaviour); C66_partial proves the rest."
  },
  {
   "property": "C69",
   "status": "proved",
   "theorems": [
    "Verif.Column.C69_ranges",
    "Verif.Column.C69_located",
    "Verif.Column.C69_zero",
    "Verif.Column.C69_interfaces",
    "Verif.Column.C69_levels",
    "Verif.Column.C69_order_one",
    "Verif.Column.C69_polynomial",
    "Verif.Column.C69_refused"
   ],
   "note": "Real arithmetic. With one level per element the first and last rows use two levels (C69_order_one); if such a row falls on an inner element edge its coefficients are misplaced by the code, and that case is outside the theorems."
  },
  {
   "property": "C70",
   "status": "proved",
   "theorems": [
    "Verif.Column.C70_interfaces",
    "Verif.Column.C70_lobatto",
    "Verif.Column.C70_levels",
    "Verif.Column.C70_polynomial"
   ],
   "note": "Real arithmetic; points of an element at least 1e-14 apart."
  },
  {
   "property": "C71",
   "status": "proved",
   "theorems": [
    "Verif.Column.C71_ranges",
    "Verif.Column.C71_to_levels",
    "Verif.Column.C71_to_interfaces",
    "Verif.Column.C71_polynomial",
    "Verif.Column.C71_diff_levels",
    "Verif.Column.C71_conserve",
    "Verif.Column.C71_diff_interfaces",
    "Verif.Column.C71_refused"
   ],
   "note": "Real arithmetic. The code does not check that there is one interface more than levels; the theorems are for columns where there is."
  },
  {
   "property": "C72",
   "status": "proved",
   "theorems": [
    "Verif.Column.C72_ranges",
    "Verif.Column.C72_adjoint",
    "Verif.Column.C72_conserve",
    "Verif.Column.C72_exact"
   ],
   "note": "Real arithmetic. C72_adjoint and C72_conserve hold for any weights; C72_exact assumes exact quadrature rules, which the code's tables are only up to rounding (C41)."
  },
  {
   "property": "C67",
   "status": "proved",
   "theorems": [
    "Verif.Patch.C67_links",
    "Verif.Patch.C67_delivered"
   ],
   "note": "end to end from layout through lookup, connection building, opposing directions and packing to the delivered values; MPI transport and the matching of messages are C21/C22"
  },
  {
   "property": "C68",
   "status": "partial",
   "theorems": [
    "Verif.Patch.C68_links",
    "Verif.Patch.C68_delivered_partial",
    "Verif.Patch.C68_transposed",
    "Verif.Patch.C68_false_depth"
   ],
   "note": "links proved for every corner; delivery proved for one halo node and for all but four pairs of panels; for panels 1-4, 2-4, 2-5 and 3-5 with a wider halo the block arrives transposed (C68_transposed, C68_false_depth)"
  },
  {
   "property": "C73",
   "status": "partial",
   "theorems": [
    "Verif.Horiz.C73_nonneg_partial",
    "Verif.Horiz.C73_mass_partial",
    "Verif.Horiz.C73_untouched",
    "Verif.Horiz.C73_bounded",
    "Verif.Horiz.C73_false",
    "Verif.Horiz.C73_false_mass",
    "Verif.Horiz.C73_elsewhere",
    "Verif.Horiz.C73_patch_partial"
   ],
   "note": "non-negativity and mass proved where the element mass is not negative; both are false where it is (C73_false, C73_false_mass); exact real arithmetic"
  },
  {
   "property": "C74",
   "status": "proved",
   "theorems": [
    "Verif.Horiz.C74_paired",
    "Verif.Horiz.C74_paired_four",
    "Verif.Horiz.C74_table",
    "Verif.Horiz.C74_mass_four",
    "Verif.Horiz.C74_weights_four",
    "Verif.Horiz.C74_mass",
    "Verif.Horiz.C74_tracer",
    "Verif.Horiz.C74_lake",
    "Verif.Horiz.C74_consistent",
    "Verif.Horiz.C74_energy"
   ],
   "note": "one patch, exact real arithmetic; exact for coefficients that belong together (C74_paired for every order but four, C74_paired_four for the table), with an explicit bound for order four (C74_mass_four); the averaging over shared nodes that follows is C58"
  },
  {
   "property": "C75",
   "status": "proved",
   "theorems": [
    "Verif.Horiz.C75_mass",
    "Verif.Horiz.C75_uniform",
    "Verif.Horiz.C75_rate",
    "Verif.Horiz.C75_dissipates",
    "Verif.Horiz.C75_symmetric",
    "Verif.Horiz.C75_variance",
    "Verif.Horiz.C75_scaling",
    "Verif.Horiz.C75_succeeds",
    "Verif.Horiz.C75_untouched"
   ],
   "note": "one patch, exact real arithmetic, coefficients that belong together (C74_paired); weights as in C74"
  },
  {
   "property": "C76",
   "status": "proved",
   "theorems": [
    "Verif.Horiz.C76_weak",
    "Verif.Horiz.C76_dissipates",
    "Verif.Horiz.C76_separate",
    "Verif.Horiz.C76_gradient",
    "Verif.Horiz.C76_uniform",
    "Verif.Horiz.C76_untouched",
    "Verif.Horiz.C76_slice"
   ],
   "note": "one patch, exact real arithmetic; metric assumed consistent with its Jacobian"
  },
  {
   "property": "C77",
   "status": "proved",
   "theorems": [
    "Verif.Horiz.C77_law",
    "Verif.Horiz.C77_between",
    "Verif.Horiz.C77_exact",
    "Verif.Horiz.C77_reference",
    "Verif.Horiz.C77_contracts",
    "Verif.Horiz.C77_untouched"
   ],
   "note": "one patch, exact real arithmetic"
  },
  {
   "property": "C78",
   "status": "proved",
   "theorems": [
    "Verif.Horiz.C78_succeeds",
    "Verif.Horiz.C78_instances",
    "Verif.Horiz.C78_off",
    "Verif.Horiz.C78_second",
    "Verif.Horiz.C78_fourth",
    "Verif.Horiz.C78_second_flow",
    "Verif.Horiz.C78_fourth_flow"
   ],
   "note": "one patch with direct stiffness summation as any symmetric idempotent averaging; fourth-order velocity for equal viscosities; exact real arithmetic"
  },
  {
   "property": "C79",
   "status": "proved",
   "theorems": [
    "Verif.Metric.C79_sphere",
    "Verif.Metric.C79_sphere_measures",
    "Verif.Metric.C79_plane_measures",
    "Verif.Metric.C79_slopes",
    "Verif.Metric.C79_positive",
    "Verif.Metric.C79_column",
    "Verif.Metric.C79_dynamics"
   ],
   "note": "exact real arithmetic; ground and its slopes are inputs (their exactness is C81); C79_dynamics links the terms to the hypotheses of C74 to C78"
  },
  {
   "property": "C80",
   "status": "partial",
   "theorems": [
    "Verif.Metric.C80_heights",
    "Verif.Metric.C80_ends",
    "Verif.Metric.C80_ordered_sphere",
    "Verif.Metric.C80_ordered_plane_partial",
    "Verif.Metric.C80_false_ordered",
    "Verif.Metric.C80_false_top",
    "Verif.Metric.C80_refuses",
    "Verif.Metric.C80_damping_sphere",
    "Verif.Metric.C80_damping_plane_partial",
    "Verif.Metric.C80_false_damping"
   ],
   "note": "order proved on the cubed sphere for ground below the top and on the Cartesian grid for ground up to a quarter of the top; false for higher ground (C80_false_ordered), ground above the top is not refused on the cubed sphere (C80_false_top), and the friction strength at the top interface of the Cartesian grid is never set (C80_false_damping)"
  },
  {
   "property": "C81",
   "status": "partial",
   "theorems": [
    "Verif.Metric.C81_slopes",
    "Verif.Metric.C81_ground",
    "Verif.Metric.C81_coriolis_sphere",
    "Verif.Metric.C81_coriolis_plane",
    "Verif.Metric.C81_centre",
    "Verif.Metric.C81_false_centre"
   ],
   "note": "slopes exact for every order but four, whose coefficients are rounded decimals (C74_table bounds them); the reference latitude of a Cartesian grid is that of its centre only if the grid begins at zero (C81_centre, C81_false_centre)"
  },
  {
   "property": "C82",
   "status": "proved",
   "theorems": [
    "Verif.Metric.C82_angle",
    "Verif.Metric.C82_area",
    "Verif.Metric.C82_additive",
    "Verif.Metric.C82_tiles",
    "Verif.Metric.C82_total",
    "Verif.Metric.C82_positive"
   ],
   "note": "exact real arithmetic"
  },
  {
   "property": "C83",
   "status": "partial",
   "theorems": [
    "Verif.Nonhydro.C83_input",
    "Verif.Nonhydro.C83_interpolated",
    "Verif.Nonhydro.C83_mass",
    "Verif.Nonhydro.C83_theta",
    "Verif.Nonhydro.C83_tracer",
    "Verif.Nonhydro.C83_consistent",
    "Verif.Nonhydro.C83_energy",
    "Verif.Nonhydro.C83_ground",
    "Verif.Nonhydro.C83_lid",
    "Verif.Nonhydro.C83_momentum",
    "Verif.Nonhydro.C83_interfaces",
    "Verif.Nonhydro.C83_rest",
    "Verif.Nonhydro.C83_halo",
    "Verif.Nonhydro.C83_false_transport",
    "Verif.Nonhydro.C83_defined",
    "Verif.Nonhydro.C83_false_levels"
   ],
   "note": "conservation, consistency, energy, rest, ground and halo proved for every staggering for which the step is defined; undefined with vertical velocity on levels (C83_false_levels); density times potential temperature on interfaces is never moved (C83_false_transport); energy needs a grid that is not an XZ slice; exact real arithmetic"
  },
  {
   "property": "C84",
   "status": "proved",
   "theorems": [
    "Verif.Nonhydro.C84_undiffused",
    "Verif.Nonhydro.C84_wind",
    "Verif.Nonhydro.C84_scalars",
    "Verif.Nonhydro.C84_reference",
    "Verif.Nonhydro.C84_refused",
    "Verif.Nonhydro.C84_instances",
    "Verif.Nonhydro.C84_mass",
    "Verif.Nonhydro.C84_theta",
    "Verif.Nonhydro.C84_tracers",
    "Verif.Nonhydro.C84_shallow"
   ],
   "note": "where the nonhydrostatic step is defined (C83); exact real arithmetic"
  },
  {
   "property": "C85",
   "status": "proved",
   "theorems": [
    "Verif.Thermo.C85_values",
    "Verif.Thermo.C85_derived",
    "Verif.Thermo.C85_state",
    "Verif.Thermo.C85_inverse",
    "Verif.Thermo.C85_monotone",
    "Verif.Thermo.C85_energy"
   ],
   "note": "real arithmetic in place of floating point"
  },
  {
   "property": "C86",
   "status": "partial",
   "theorems": [
    "Verif.Thermo.C86_false_pressure",
    "Verif.Thermo.C86_false_interfaces",
    "Verif.Thermo.C86_false_shallow",
    "Verif.Thermo.C86_false_enstrophy",
    "Verif.Thermo.C86_false_serial",
    "Verif.Thermo.C86_pressure_partial",
    "Verif.Thermo.C86_temperature",
    "Verif.Thermo.C86_surface",
    "Verif.Thermo.C86_hydrostatic",
    "Verif.Thermo.C86_refused",
    "Verif.Thermo.C86_energy",
    "Verif.Thermo.C86_interfaces_partial",
    "Verif.Thermo.C86_shallow_partial",
    "Verif.Thermo.C86_enstrophy",
    "Verif.Thermo.C86_momentum",
    "Verif.Thermo.C86_total",
    "Verif.Thermo.C86_variation"
   ],
   "note": "pressure and energy read copies that do not belong to the state for some staggerings (C86_false_pressure, C86_false_interfaces); shallow water energy is right only where the metric is its own inverse (C86_false_shallow); potential enstrophy of the nonhydrostatic equations is something else (C86_false_enstrophy); totals are zero without MPI (C86_false_serial); real arithmetic in place of floating point"
  },
  {
   "property": "C87",
   "status": "proved",
   "theorems": [
    "Verif.Column.C87_correction",
    "Verif.Column.C87_correction_refused",
    "Verif.Column.C87_energy",
    "Verif.Column.C87_conserves",
    "Verif.Column.C87_dissipates",
    "Verif.Column.C87_continuous",
    "Verif.Column.C87_refused",
    "Verif.Column.C87_volumes",
    "Verif.Column.C87_volumes_two",
    "Verif.Column.C87_volumes_conserve"
   ],
   "note": "LAPACK DGESV is a parameter assumed to solve every nonsingular system; Gauss nodes are a parameter with the exactness of the Gauss rule; real arithmetic in place of floating point"
  },
  {
   "property": "C88",
   "status": "partial",
   "theorems": [
    "Verif.Column.C88_interfaces",
    "Verif.Column.C88_adjoint_partial",
    "Verif.Column.C88_energy_partial",
    "Verif.Column.C88_refused",
    "Verif.Column.C88_adjoint_false",
    "Verif.Column.C88_value",
    "Verif.Column.C88_exact"
   ],
   "note": "adjoint only over elements of one size: with stretched levels the jump is divided by the size of the lower element alone (C88_adjoint_false); LAPACK DGESV and the quadrature rules are parameters; real arithmetic in place of floating point"
  },
  {
   "property": "C89",
   "status": "partial",
   "theorems": [
    "Verif.Column.C89_weak",
    "Verif.Column.C89_exact",
    "Verif.Column.C89_conserves_partial",
    "Verif.Column.C89_dissipates_partial",
    "Verif.Column.C89_shared_partial",
    "Verif.Column.C89_shared_energy_partial",
    "Verif.Column.C89_shared_exact_partial",
    "Verif.Column.C89_refused",
    "Verif.Column.C89_conserves_false",
    "Verif.Column.C89_shared_false"
   ],
   "note": "conservation and dissipation only for elements of one size: the jump is divided by the size of each element by itself (C89_conserves_false); on shared points the weight of the element is doubled in place of adding that of its neighbour, so that a straight line has a second derivative where elements differ in size (C89_shared_false); quadrature rules and LAPACK DGESV are parameters; real arithmetic in place of floating point"
  },
  {
   "property": "C90",
   "status": "partial",
   "theorems": [
    "Verif.Vdyn.C90_energy_partial",
    "Verif.Vdyn.C90_rest",
    "Verif.Vdyn.C90_history",
    "Verif.Vdyn.C90_staggering_false",
    "Verif.Vdyn.C90_conserved_false",
    "Verif.Vdyn.C90_mass",
    "Verif.Vdyn.C90_heat",
    "Verif.Vdyn.C90_velocity",
    "Verif.Vdyn.C90_levels",
    "Verif.Vdyn.C90_conserved_partial"
   ],
   "note": "where the volume element jumps over element edges upwinding changes the mass of a column (C90_conserved_false, C90_conserved_partial without jumps); with Charney-Phillips staggering the residual ignores the density times potential temperature of the column (C90_staggering_false); the energy budget is for elements of one size without uniform diffusion; the equations for Lorenz staggering with finite elements; LAPACK DGESV and quadrature rules are parameters; real arithmetic in place of floating point"
  },
  {
   "property": "C91",
   "status": "partial",
   "theorems": [
    "Verif.Vdyn.C91_in_band",
    "Verif.Vdyn.C91_stored",
    "Verif.Vdyn.C91_derivative_false",
    "Verif.Vdyn.C91_levels",
    "Verif.Vdyn.C91_interfaces",
    "Verif.Vdyn.C91_ends",
    "Verif.Vdyn.C91_derivative_partial",
    "Verif.Vdyn.C91_refused",
    "Verif.Vdyn.C91_band",
    "Verif.Vdyn.C91_solver"
   ],
   "note": "the Jacobian leaves out uniform diffusion and the shear over sloping interfaces (C91_derivative_false; C91_levels and C91_interfaces state the exact difference, C91_derivative_partial the case without); Lorenz staggering with finite elements; DGBSV's reading of band storage is a definition after its documentation; real arithmetic in place of floating point"
  },
  {
   "property": "C92",
   "status": "partial",
   "theorems": [
    "Verif.Vdyn.C92_small_steps",
    "Verif.Vdyn.C92_few_levels_false",
    "Verif.Vdyn.C92_refused",
    "Verif.Vdyn.C92_newton",
    "Verif.Vdyn.C92_derivative_partial",
    "Verif.Vdyn.C92_untouched",
    "Verif.Vdyn.C92_ends",
    "Verif.Vdyn.C92_conserved_partial",
    "Verif.Vdyn.C92_balance",
    "Verif.Vdyn.C92_history"
   ],
   "note": "columns with fewer levels than the band has diagonals are refused although nothing is wrong with them (C92_few_levels_false); mass and heat are conserved where the volume element does not jump over element edges (C92_conserved_partial, see C90_conserved_false) and, for heat, without uniform diffusion; Lorenz staggering with finite elements; LAPACK is a parameter with its documentation as hypothesis; real arithmetic in place of floating point"
  },
  {
   "property": "C93",
   "status": "partial",
   "theorems": [
    "Verif.Vdyn.C93_small_steps",
    "Verif.Vdyn.C93_few_levels_false",
    "Verif.Vdyn.C93_scale_false",
    "Verif.Vdyn.C93_refused",
    "Verif.Vdyn.C93_implicit",
    "Verif.Vdyn.C93_explicit",
    "Verif.Vdyn.C93_untouched",
    "Verif.Vdyn.C93_mass_partial",
    "Verif.Vdyn.C93_consistent",
    "Verif.Vdyn.C93_history"
   ],
   "note": "columns of at most 4 p - 2 levels for vertical order p make the update write outside its array, and up to 6 p - 3 levels make it throw (C93_few_levels_false, exact in C93_refused); uniform diffusion of tracers is not scaled like that of the other variables (C93_scale_false); mass is conserved where the volume element does not jump over element edges (C93_mass_partial, see C90_conserved_false); Lorenz staggering with finite elements; LAPACK is a parameter with its documentation as hypothesis; real arithmetic in place of floating point"
  },
  {
   "property": "C94",
   "status": "partial",
   "theorems": [
    "Verif.Vdyn.C94_filter",
    "Verif.Vdyn.C94_filter_false",
    "Verif.Vdyn.C94_refused",
    "Verif.Vdyn.C94_columns",
    "Verif.Vdyn.C94_shared",
    "Verif.Vdyn.C94_mass_partial",
    "Verif.Vdyn.C94_constant"
   ],
   "note": "where the negative values of a tracer outweigh the positive ones in a column the filter makes the positive values negative (C94_filter_false); C94_filter needs positive areas and non-negative mass of the column; mass of density where the volume element does not jump (C94_mass_partial, see C90_conserved_false); Lorenz staggering with finite elements; LAPACK is a parameter with its documentation as hypothesis; real arithmetic in place of floating point"
  },
  {
   "property": "C95",
   "status": "partial",
   "theorems": [
    "Verif.Vdyn.C95_terms",
    "Verif.Vdyn.C95_horizontal_partial",
    "Verif.Vdyn.C95_rest",
    "Verif.Vdyn.C95_refused",
    "Verif.Vdyn.C95_mass_partial",
    "Verif.Vdyn.C95_constant",
    "Verif.Vdyn.C95_balance",
    "Verif.Vdyn.C95_dissipation_partial",
    "Verif.Vdyn.C95_history",
    "Verif.Vdyn.C95_stale_false",
    "Verif.Vdyn.C95_patch_partial"
   ],
   "note": "without the fully explicit option uniform diffusion of horizontal velocity diffuses the column that an earlier step left in memory (C95_stale_false; hence C95_horizontal_partial and C95_patch_partial); mass where the volume element does not jump (C95_mass_partial, see C90_conserved_false); Lorenz staggering with finite elements; initial and updated data are different arrays; real arithmetic in place of floating point"
  },
  {
   "property": "C96",
   "status": "partial",
   "theorems": [
    "Verif.Restart.C96_roundtrip",
    "Verif.Restart.C96_same_file",
    "Verif.Restart.C96_accepted_only",
    "Verif.Restart.C96_one_output",
    "Verif.Restart.C96_idle_process_false",
    "Verif.Restart.C96_unset_boxes_false",
    "Verif.Restart.C96_unset_box_ub",
    "Verif.Restart.C96_large_container_ub",
    "Verif.Restart.C96_cut_partial",
    "Verif.Restart.C96_damage_false",
    "Verif.Restart.C96_crash_false",
    "Verif.Restart.C96_resumed_steps",
    "Verif.Restart.C96_written_again_false",
    "Verif.Restart.C96_resumed_state_partial",
    "Verif.Restart.C96_strang_false",
    "Verif.Restart.C96_settings_false"
   ],
   "note": "round trip, layout and remaining steps proved; a file cut after the table is accepted and the missing part is zeros (C96_cut_partial, C96_damage_false, C96_crash_false); no file can be written with an idle process (C96_idle_process_false) or with unset boxes in the table (C96_unset_boxes_false, C96_unset_box_ub); containers of two gigabytes are undefined behaviour (C96_large_container_ub); states agree for the schemes of C43 (C96_resumed_state_partial) but not for Strang (C96_strang_false); vertical stretching, vertical slice and physical constants are not restored (C96_settings_false); the state is written again (C96_written_again_false); sizes of parts are given functions of parameters and table"
  },
  {
   "property": "C97",
   "status": "partial",
   "theorems": [
    "Verif.Outref.C97_points",
    "Verif.Outref.C97_located_sphere",
    "Verif.Outref.C97_located_plane",
    "Verif.Outref.C97_refused_plane",
    "Verif.Outref.C97_tracer_false",
    "Verif.Outref.C97_userdata_false",
    "Verif.Outref.C97_reference_false",
    "Verif.Outref.C97_vertical_velocity_false",
    "Verif.Outref.C97_single_level_false",
    "Verif.Outref.C97_richardson_false",
    "Verif.Outref.C97_finite_volume_false",
    "Verif.Outref.C97_shallow_water_false",
    "Verif.Outref.C97_value",
    "Verif.Outref.C97_fourth",
    "Verif.Outref.C97_winds",
    "Verif.Outref.C97_untouched",
    "Verif.Outref.C97_succeeds",
    "Verif.Outref.C97_polynomial",
    "Verif.Outref.C97_native",
    "Verif.Outref.C97_reduce",
    "Verif.Outref.C97_process",
    "Verif.Outref.C97_levels",
    "Verif.Outref.C97_distribution"
   ],
   "note": "points, lookup, values, winds, reduction and independence of the distribution proved; with the default conversion the fourth tracer and the fourth user field are divided by the vertical derivative (C97_tracer_false, C97_userdata_false), vertical velocity is divided by the derivative at the first node of the element (C97_vertical_velocity_false) and its reference is not (C97_reference_false); one level is written as zero at further output levels (C97_single_level_false); no Richardson number on a sphere (C97_richardson_false); finite volumes on a plane overrun a buffer (C97_finite_volume_false), as do four tracers with three components read beyond an array (C97_shallow_water_false)"
  },
  {
   "property": "C98",
   "status": "proved",
   "theorems": [
    "Verif.Halo.C98_mean",
    "Verif.Halo.C98_topography",
    "Verif.Halo.C98_agree",
    "Verif.Halo.C98_continuous",
    "Verif.Halo.C98_points",
    "Verif.Halo.C98_refused"
   ],
   "note": "for exact arithmetic; the content of the halo after the exchange is the hypothesis Exchanged, which the exchange properties C18 to C24 are about; the points the program uses meet the hypotheses for orders 2 to 10 (C98_points); C98_refused says which halo widths cannot be set up"
  },
  {
   "property": "C99",
   "status": "partial",
   "theorems": [
    "Verif.Forcing.C99_friction_false",
    "Verif.Forcing.C99_rate_false",
    "Verif.Forcing.C99_theta_false",
    "Verif.Forcing.C99_levels_false",
    "Verif.Forcing.C99_wind",
    "Verif.Forcing.C99_friction_partial",
    "Verif.Forcing.C99_friction_rhoTheta",
    "Verif.Forcing.C99_heating_partial",
    "Verif.Forcing.C99_rate",
    "Verif.Forcing.C99_untouched",
    "Verif.Forcing.C99_local"
   ],
   "note": "winds, direction towards equilibrium, positivity, locality and what is left alone proved; as compiled the friction and the rate of relaxation use wrong relative pressures (C99_friction_false, C99_rate_false with the exact errors in C99_friction_rhoTheta and C99_rate); with potential temperature as the variable the heating is wrong instead (C99_theta_false); with all variables on levels the surface pressure comes from arrays that are not part of the state (C99_levels_false)"
  },
  {
   "property": "C100",
   "status": "partial",
   "theorems": [
    "Verif.Init.C100_sphere",
    "Verif.Init.C100_plane",
    "Verif.Init.C100_shallow",
    "Verif.Init.C100_tracers",
    "Verif.Init.C100_reference_sphere",
    "Verif.Init.C100_reference_plane_partial",
    "Verif.Init.C100_untouched",
    "Verif.Init.C100_defined_sphere",
    "Verif.Init.C100_defined_plane",
    "Verif.Init.C100_grid",
    "Verif.Init.C100_reference_tracers_false",
    "Verif.Init.C100_reference_false",
    "Verif.Init.C100_wind_false"
   ],
   "note": "state, tracers and reference state proved for both grids, with the exact conditions of success; false for a reference state with tracers on the Cartesian grid (C100_reference_tracers_false, C100_reference_false) and for the wind at the south pole (C100_wind_false); test cases that draw random numbers are not covered"
  },
  {
   "property": "C101",
   "status": "partial",
   "theorems": [
    "Verif.Init.C101_sphere_partial",
    "Verif.Init.C101_scalars",
    "Verif.Init.C101_none",
    "Verif.Init.C101_untouched",
    "Verif.Init.C101_defined",
    "Verif.Init.C101_fresh",
    "Verif.Init.C101_restart",
    "Verif.Init.C101_wind_false",
    "Verif.Init.C101_theta_false",
    "Verif.Init.C101_pressure_false",
    "Verif.Init.C101_shallow_false",
    "Verif.Init.C101_plane_false",
    "Verif.Init.C101_plane_none_false"
   ],
   "note": "proved on the cubed sphere for disturbances of vertical velocity, potential temperature and tracers (and density, when theta is the variable); false for winds (C101_wind_false), for density with rho theta (C101_theta_false), for the pressure formulation (C101_pressure_false), for shallow water (C101_shallow_false) and on the Cartesian grid, where the disturbance replaces the state (C101_plane_false, C101_plane_none_false)"
  },
  {
   "property": "C102",
   "status": "partial",
   "theorems": [
    "Verif.Wall.C102_noslip_averaged_partial",
    "Verif.Wall.C102_noflux_averaged_partial",
    "Verif.Wall.C102_noflux_averaged_skew_partial",
    "Verif.Wall.C102_noslip_partial",
    "Verif.Wall.C102_noflux_partial",
    "Verif.Wall.C102_open",
    "Verif.Wall.C102_untouched",
    "Verif.Wall.C102_periodic",
    "Verif.Wall.C102_defined",
    "Verif.Wall.C102_refused_partial",
    "Verif.Wall.C102_settings",
    "Verif.Wall.C102_interfaces_noslip_false",
    "Verif.Wall.C102_interfaces_noflux_false",
    "Verif.Wall.C102_interfaces_unknown_false",
    "Verif.Wall.C102_levels_false",
    "Verif.Wall.C102_shallow_false",
    "Verif.Wall.C102_start_false"
   ],
   "note": "proved for staggerings with the vertical velocity on interfaces, before and after the averaging of shared nodes; false at the right and top when everything is on interfaces, where the two conditions are exchanged (C102_interfaces_noslip_false, C102_interfaces_noflux_false, C102_interfaces_unknown_false), when everything is on levels (C102_levels_false), for shallow water (C102_shallow_false) and at the start of the run (C102_start_false); not covered: nodes where a no-slip and a no-flux wall meet, after averaging, in coordinates that are not orthogonal"
  },
  {
   "property": "C103",
   "status": "partial",
   "theorems": [
    "Verif.Norms.C103_exact",
    "Verif.Norms.C103_norms_partial",
    "Verif.Norms.C103_zero",
    "Verif.Norms.C103_kept",
    "Verif.Norms.C103_split",
    "Verif.Norms.C103_defined",
    "Verif.Norms.C103_without",
    "Verif.Norms.C103_reference_false",
    "Verif.Norms.C103_refused",
    "Verif.Norms.C103_sample_false"
   ],
   "note": "proved without a reference state and for components on interfaces; with a reference state the errors of components on levels are divided by the norm of the exact state plus the reference state, which is the exact state counted twice when the two are equal (C103_reference_false, C103_sample_false)"
  },
  {
   "property": "C104",
   "status": "partial",
   "theorems": [
    "Verif.Whole.C104_mass_cubed_partial",
    "Verif.Whole.C104_mass_cubed_dry_partial",
    "Verif.Whole.C104_lake_cubed_partial",
    "Verif.Whole.C104_lake_cubed_dry_partial",
    "Verif.Whole.C104_summation_sphere_partial",
    "Verif.Whole.C104_summation_plane_partial",
    "Verif.Whole.C104_summation_tracers_partial",
    "Verif.Whole.C104_mass_partial",
    "Verif.Whole.C104_mass_dry_partial",
    "Verif.Whole.C104_mass_strang_partial",
    "Verif.Whole.C104_lake_partial",
    "Verif.Whole.C104_lake_dry_partial",
    "Verif.Whole.C104_lake_strang_partial"
   ],
   "note": "proved for every order whose derivative and stiffness tables belong together, which those the code has for order four do only to 15 digits (C74_mass_four); SSPRK53 is false (C47_false_ssprk53); schemes that leave the tracers of scratch slots alone are covered for models without tracers; mass of tracers through a run and floating point are missing"
  },
  {
   "property": "C105",
   "status": "proved",
   "theorems": [
    "Verif.Whole.C105_state",
    "Verif.Whole.C105_tracers",
    "Verif.Whole.C105_velocity",
    "Verif.Whole.C105_any",
    "Verif.Whole.C105_agree",
    "Verif.Whole.C105_kept",
    "Verif.Whole.C105_again",
    "Verif.Whole.C105_bounds",
    "Verif.Whole.C105_beyond"
   ],
   "note": "messages are not modelled here (C29, C30): a halo node receives the value of the node it stands for"
  },
  {
   "property": "C106",
   "status": "proved",
   "theorems": [
    "Verif.Whole.C106_step",
    "Verif.Whole.C106_run",
    "Verif.Whole.C106_strang",
    "Verif.Whole.C106_ark4"
   ],
   "note": "about every step that ends without an exception; vertical dynamics are VerticalDynamicsStub, as for shallow water"
  },
  {
   "property": "C107",
   "status": "partial",
   "theorems": [
    "Verif.Deep.C107_summation_partial",
    "Verif.Deep.C107_joined",
    "Verif.Deep.C107_mass_partial",
    "Verif.Deep.C107_mass_dry_partial",
    "Verif.Deep.C107_mass_strang_partial",
    "Verif.Deep.C107_theta_partial",
    "Verif.Deep.C107_theta_dry_partial",
    "Verif.Deep.C107_theta_strang_partial"
   ],
   "note": "proved for volume elements that do not jump over element edges of a column (else a step changes the mass, C90_conserved_false), for tables that belong together (not those of order four, C74_mass_four) and for all schemes but SSPRK53 (C47_false_ssprk53); the memory of the vertical dynamics is that at the beginning for every call; a step that throws is taken to leave the data; floating point is missing"
  },
  {
   "property": "C108",
   "status": "partial",
   "theorems": [
    "Verif.Deep.C108_still_partial",
    "Verif.Deep.C108_still_dry_partial",
    "Verif.Deep.C108_still_strang_partial"
   ],
   "note": "proved without uniform diffusion, for tables that belong together (not those of order four, C74_mass_four) and for all schemes but SSPRK53 (C47_false_ssprk53); the memory of the vertical dynamics is that at the beginning for every call; a step that throws is taken to leave the data; floating point is missing"
  },
  {
   "property": "C109",
   "status": "partial",
   "theorems": [
    "Verif.Whole.C109_run",
    "Verif.Whole.C109_strang",
    "Verif.Whole.C109_slots"
   ],
   "note": "proved for the whole shallow water model; for the schemes that do not copy tracers to their scratch slots (C65) the tracers agree if the scratch slots do (C109_slots); in exact arithmetic (sums are taken in another order in another division, so floating point results may differ in the last digits); the nonhydrostatic model is missing"
  },
  {
   "property": "C110",
   "status": "partial",
   "theorems": [
    "Verif.Whole.C110_flow",
    "Verif.Whole.C110_tracer",
    "Verif.Whole.C110_strang"
   ],
   "note": "proved for the whole shallow water model, for one tracer with the schemes that copy tracers to their scratch slots; the others read tracers left in scratch slots (C65); the nonhydrostatic model, where tracers are passive too, is missing"
  },
  {
   "property": "C111",
   "status": "partial",
   "theorems": [
    "Verif.Legendre.C111_refused",
    "Verif.Legendre.C111_roots",
    "Verif.Legendre.C111_derivative",
    "Verif.Legendre.C111_found_partial",
    "Verif.Legendre.C111_correct_root",
    "Verif.Legendre.C111_correct_derivative",
    "Verif.Legendre.C111_gauss_rule",
    "Verif.Legendre.C111_lobatto_rule"
   ],
   "note": "that the iteration converges and how far the values are from the roots is missing; in exact arithmetic, a division by zero being a separate outcome"
  },
  {
   "property": "C112",
   "status": "partial",
   "theorems": [
    "Verif.Cases.C112_jet",
    "Verif.Cases.C112_jet_balance",
    "Verif.Cases.C112_jet_exists",
    "Verif.Cases.C112_jet_ground",
    "Verif.Cases.C112_channel",
    "Verif.Cases.C112_channel_balance",
    "Verif.Cases.C112_channel_exists",
    "Verif.Cases.C112_channel_ground",
    "Verif.Cases.C112_ridge_false",
    "Verif.Cases.C112_neutral",
    "Verif.Cases.C112_stratified",
    "Verif.Cases.C112_mountain",
    "Verif.Cases.C112_weightless_false",
    "Verif.Cases.C112_hydrostatic_mountain",
    "Verif.Cases.C112_held_suarez",
    "Verif.Cases.C112_baldauf_reference",
    "Verif.Cases.C112_baldauf",
    "Verif.Cases.C112_mountain_rossby",
    "Verif.Cases.C112_mountain_wave",
    "Verif.Cases.C112_schar",
    "Verif.Cases.C112_stationary",
    "Verif.Cases.C112_inertia_gravity",
    "Verif.Cases.Wave.C112_wave_reference",
    "Verif.Cases.Wave.C112_wave",
    "Verif.Cases.Wave.C112_wave_ground"
   ],
   "note": "false for the mountain waves without gravity (C112_weightless_false) and for the channel with a ridge (C112_ridge_false); the states in pressure coordinates are balanced for the exact pressure coordinate, and what Newton's iteration returns is within its tolerance of a point whose residual is bounded, but that the iteration converges is not proved; in exact arithmetic"
  },
  {
   "property": "C113",
   "status": "partial",
   "theorems": [
    "Verif.Cases.C113_mountain_rossby",
    "Verif.Cases.C113_mountain_wave",
    "Verif.Cases.C113_inertia_gravity",
    "Verif.Cases.C113_schar",
    "Verif.Cases.C113_schar_rotating_false",
    "Verif.Cases.Wave.C113_wave",
    "Verif.Cases.Wave.C113_wave_deep",
    "Verif.Cases.C113_jet_isobaric",
    "Verif.Cases.C113_jet",
    "Verif.Cases.C113_channel_isobaric",
    "Verif.Cases.C113_channel",
    "Verif.Cases.C113_zonal_inclined",
    "Verif.Cases.C113_zonal",
    "Verif.Cases.C113_zonal_inclined_false",
    "Verif.Cases.C113_haurwitz"
   ],
   "note": "false for the Schaer mountain on a rotating sphere (C113_schar_rotating_false) and for inclined zonal flow of water (C113_zonal_inclined_false); the height of the Rossby-Haurwitz wave and of the barotropic instability, which is integrated numerically, are not covered; in exact arithmetic"
  },
  {
   "property": "C114",
   "status": "partial",
   "theorems": [
    "Verif.Physics.C114_sunlight",
    "Verif.Physics.C114_conserves",
    "Verif.Physics.C114_nonnegative",
    "Verif.Physics.C114_exact",
    "Verif.Physics.C114_equilibrium",
    "Verif.Physics.C114_perform_partial",
    "Verif.Physics.C114_refused",
    "Verif.Physics.C114_interior_false",
    "Verif.Physics.C114_outside_false"
   ],
   "note": "false for the process on a patch: interior nodes do not react and storage outside the array can be written (C114_interior_false, C114_outside_false), C114_perform_partial says what is reached; the reaction at a point is exact but for steps with a tiny positive product of determinant and time step, which are excluded by hypothesis; in exact arithmetic"
  },
  {
   "property": "C115",
   "status": "partial",
   "theorems": [
    "Verif.Physics.C115_nonnegative",
    "Verif.Physics.C115_heat",
    "Verif.Physics.C115_water",
    "Verif.Physics.C115_conserves",
    "Verif.Physics.C115_untouched",
    "Verif.Physics.C115_dry",
    "Verif.Physics.C115_tracers",
    "Verif.Physics.C115_water_false",
    "Verif.Physics.C115_rain_false"
   ],
   "note": "conservation of water is false in general, because the limit of the time step ignores the highest layer (C115_water_false), and the rain reported by the process is not the water lost, because ratios to moist air are passed for ratios to dry air (C115_rain_false); conservation is proved where rain falls slowly and for steps up to 1000 s; potential temperature on levels only; in exact arithmetic"
  },
  {
   "property": "C116",
   "status": "partial",
   "theorems": [
    "Verif.Physics.C116_bounds",
    "Verif.Physics.C116_diffusion",
    "Verif.Physics.C116_conserves",
    "Verif.Physics.C116_nonnegative",
    "Verif.Physics.C116_wind",
    "Verif.Physics.C116_choices",
    "Verif.Physics.C116_saturation",
    "Verif.Physics.C116_rain_partial",
    "Verif.Physics.C116_rain_false"
   ],
   "note": "the rain reported by large-scale precipitation is less than what the column loses (C116_rain_false), C116_rain_partial says what it is; conservation by mixing is for the density of moist air before the mixing, which the subroutine recomputes afterwards; for the temperature of the ocean a bound below boiling is assumed; in exact arithmetic"
  },
  {
   "property": "C117",
   "status": "partial",
   "theorems": [
    "Verif.Physics.C117_untouched",
    "Verif.Physics.C117_dry",
    "Verif.Physics.C117_tracers",
    "Verif.Physics.C117_wind",
    "Verif.Physics.C117_idle"
   ],
   "note": "bounds on the wind and the unchanged idle column are proved away from the nodes that are treated as poles and from those of polar panels where the longitude is not exact (see C34); density after the process is assumed positive where tracers are claimed non-negative; in exact arithmetic"
  },
  {
   "property": "C118",
   "status": "partial",
   "theorems": [
    "Verif.Cases.C118_box",
    "Verif.Cases.C118_box_top",
    "Verif.Cases.C118_tests",
    "Verif.Cases.C118_cap",
    "Verif.Cases.C118_sine",
    "Verif.Cases.C118_held_suarez_false",
    "Verif.Cases.C118_hydrostatic_partial",
    "Verif.Cases.C118_hydrostatic_false",
    "Verif.Cases.C118_channel_partial",
    "Verif.Cases.C118_channel_false"
   ],
   "note": "false of three test cases, proved: the left layer of the hydrostatic mountain is turned around, the baroclinic wave in a channel is damped everywhere, and the Held-Suarez test is damped nowhere; bounds are proved for all; in exact arithmetic"
  },
  {
   "property": "C119",
   "status": "partial",
   "theorems": [
    "Verif.Cases.C119_distance",
    "Verif.Cases.C119_agnesi",
    "Verif.Cases.C119_schar",
    "Verif.Cases.C119_ridge_partial",
    "Verif.Cases.C119_ridge_false",
    "Verif.Cases.C119_sphere",
    "Verif.Cases.C119_bell_outside",
    "Verif.Cases.C119_cone_partial",
    "Verif.Cases.C119_cone_false",
    "Verif.Cases.C119_waves_false",
    "Verif.Cases.C119_taper",
    "Verif.Cases.C119_gust",
    "Verif.Cases.C119_gust_plane",
    "Verif.Cases.C119_bubble",
    "Verif.Cases.C119_cold_bubble"
   ],
   "note": "false, proved: the ridge has half of the given height, the cone of the shallow water test is cut at longitude zero, and the waves of the mountain wave test are below the ground at as many points as above; the test cases of DCMIP 2016 in Fortran are not modelled; in exact arithmetic"
  },
  {
   "property": "C120",
   "status": "proved",
   "theorems": [
    "Verif.Acoustic.C120_split",
    "Verif.Acoustic.C120_explicit",
    "Verif.Acoustic.C120_implicit"
   ],
   "note": "direct stiffness summation of scalars is the mean over the nodes at a place; the tridiagonal solver returns the only solution when it succeeds; in exact arithmetic"
  },
  {
   "property": "C121",
   "status": "partial",
   "theorems": [
    "Verif.Acoustic.C121_split_false",
    "Verif.Acoustic.C121_backward"
   ],
   "note": "proved of the high-speed dynamics; false of the split-explicit dynamics, proved: its first substep leaves out the derivative of pressure in one term; in exact arithmetic"
  },
  {
   "property": "C122",
   "status": "proved",
   "theorems": [
    "Verif.Acoustic.C122_split",
    "Verif.Acoustic.C122_explicit",
    "Verif.Acoustic.C122_implicit"
   ],
   "note": "over ground where the derivatives of height vanish; in exact arithmetic"
  },
  {
   "property": "C123",
   "status": "partial",
   "theorems": [
    "Verif.Acoustic.C123_forgets_false",
    "Verif.Acoustic.C123_fall_false"
   ],
   "note": "false, proved: a later substep does not depend on the vertical momentum of the one before, so that a falling column gains at most a third of what the forces demand; in exact arithmetic"
  },
  {
   "property": "C124",
   "status": "partial",
   "theorems": [
    "Verif.Acoustic.C124_vertical_false",
    "Verif.Acoustic.C124_reverse_partial"
   ],
   "note": "false of vertical momentum, proved; proved of all other variables; in exact arithmetic"
  },
  {
   "property": "C125",
   "status": "partial",
   "theorems": [
    "Verif.Acoustic.C125_step",
    "Verif.Acoustic.C125_kept",
    "Verif.Acoustic.C125_mixing_false"
   ],
   "note": "false, proved: tracers are never changed although density is; in exact arithmetic"
  },
  {
   "property": "C126",
   "status": "proved",
   "theorems": [
    "Verif.Acoustic.C126_viscosity",
    "Verif.Acoustic.C126_split",
    "Verif.Acoustic.C126_step",
    "Verif.Acoustic.C126_run"
   ],
   "note": "the tridiagonal solver returns the only solution when it succeeds; in exact arithmetic"
  },
  {
   "property": "C127",
   "status": "partial",
   "theorems": [
    "Verif.Acoustic.C127_refused",
    "Verif.Acoustic.C127_idle",
    "Verif.Acoustic.C127_advances_false"
   ],
   "note": "false, proved: with any dynamics but the high-speed one the scheme ARS343b does nothing and reports success; proved: with the high-speed dynamics every other scheme ends in an exception; the schemes with the dynamics of the finite element method are the subject of C41 to C49"
  },
  {
   "property": "C128",
   "status": "proved",
   "theorems": [
    "Verif.Acoustic.C128_nonnegative",
    "Verif.Acoustic.C128_split"
   ],
   "note": "in exact arithmetic"
  },
  {
   "property": "C129",
   "status": "proved",
   "theorems": [
    "Verif.HorizV2.C129_refused",
    "Verif.HorizV2.C129_nonhydro",
    "Verif.HorizV2.C129_shallow",
    "Verif.HorizV2.C129_after",
    "Verif.HorizV2.C129_explicit",
    "Verif.HorizV2.C129_uniform_wind",
    "Verif.HorizV2.C129_uniform",
    "Verif.HorizV2.C129_mass",
    "Verif.HorizV2.C129_theta"
   ],
   "note": "with uniform diffusion for updates of another data instance than number zero; in exact arithmetic"
  },
  {
   "property": "C130",
   "status": "partial",
   "theorems": [
    "Verif.HorizV2.C130_instances",
    "Verif.HorizV2.C130_interpolated",
    "Verif.HorizV2.C130_tracers",
    "Verif.HorizV2.C130_still",
    "Verif.HorizV2.C130_levels",
    "Verif.HorizV2.C130_wind",
    "Verif.HorizV2.C130_transport_false",
    "Verif.HorizV2.C130_slice_false",
    "Verif.HorizV2.C130_reference_false"
   ],
   "note": "false, proved: C130_transport_false, C130_slice_false, C130_reference_false; proved in their place: tracers do not move at all (C130_tracers, C130_still), from instance zero the diffusion of the wind cancels (C130_wind), vertical velocity on levels is overwritten in the initial instance and never advanced in the other one (C130_interpolated, C130_levels), other instances do not change (C130_instances)"
  },
  {
   "property": "C131",
   "status": "partial",
   "theorems": [
    "Verif.Schur.C131_newton_false",
    "Verif.Schur.C131_refused",
    "Verif.Schur.C131_step",
    "Verif.Schur.C131_newton_partial",
    "Verif.Schur.C131_conserved_partial",
    "Verif.Schur.C131_ends",
    "Verif.Schur.C131_balance",
    "Verif.Schur.C131_untouched"
   ],
   "note": "false at second order, proved: C131_newton_false (neither Newton's step nor mass kept); proved in its place: the equations that are solved at second order, with the stray factors (C131_step, C131_refused), Newton's equations at fourth and sixth order (C131_newton_partial), heat always and mass at fourth and sixth order where the volume element is uniform (C131_conserved_partial), ends, balance, what is written"
  },
  {
   "property": "C132",
   "status": "partial",
   "theorems": [
    "Verif.Schur.C132_single",
    "Verif.Schur.C132_second_partial",
    "Verif.Schur.C132_schur_outside",
    "Verif.Schur.C132_second_outside",
    "Verif.Schur.C132_schur_false",
    "Verif.Schur.C132_second_false"
   ],
   "note": "false, proved: neither method makes copies agree (C132_schur_false, C132_second_false), and with more levels than nodes in alpha direction both leave the array (C132_schur_outside, C132_second_outside); proved in its place: the second version with one element in beta direction (C132_second_partial) and patches of one element (C132_single)"
  },
  {
   "property": "C133",
   "status": "partial",
   "theorems": [
    "Verif.Schur.C133_refused",
    "Verif.Schur.C133_outside",
    "Verif.Schur.C133_step",
    "Verif.Schur.C133_untouched",
    "Verif.Schur.C133_mass_partial",
    "Verif.Schur.C133_consistent_partial",
    "Verif.Schur.Ten.C133_consistent_false"
   ],
   "note": "false, proved: the matrix reads volume elements of other columns, so a tracer equal to density does not stay so (C133_consistent_false), and reads behind the end of their array in every patch with at most as many columns in the first direction as levels (C133_outside); proved in its place: which equation is solved (C133_step), when it is refused (C133_refused), what is untouched, mass for volume elements constant in the column (C133_mass_partial), consistency where the elements read are those of the column (C133_consistent_partial)"
  },
  {
   "property": "C134",
   "status": "partial",
   "theorems": [
    "Verif.Rich.C134_refused",
    "Verif.Rich.C134_values",
    "Verif.Rich.C134_sign",
    "Verif.Rich.C134_wind",
    "Verif.Rich.C134_height",
    "Verif.Rich.C134_linear",
    "Verif.Rich.C134_levels",
    "Verif.Rich.C134_false"
   ],
   "note": "false, proved (C134_false): the number for a level is that of the interface below it, with the sign reversed (C134_sign, C134_linear), from slopes in the vertical coordinate rather than in height (C134_height) and from a horizontal wind on interfaces that nothing interpolates (C134_wind); one interface too many is written in every column, which leaves the array if the interior reaches the last column (C134_refused) and otherwise changes the halo (C134_values); proved in its place: when it is refused, what each place holds (C134_values, C134_levels), and its value on linear profiles for all orders (C134_linear)"
  },
  {
   "property": "C135",
   "status": "partial",
   "theorems": [
    "Verif.VertV2.C135_false",
    "Verif.VertV2.C135_twice",
    "Verif.VertV2.C135_outside",
    "Verif.VertV2.C135_step",
    "Verif.VertV2.C135_untouched",
    "Verif.VertV2.C135_uniform",
    "Verif.VertV2.C135_momentum_partial",
    "Verif.VertV2.C135_energy_partial"
   ],
   "note": "false, proved (C135_false, C135_outside, C135_twice): the volume element of interface l of column (i,j) is read at place [l][i][j] of an array indexed by column and level, so volume elements of other columns weigh the step and a patch with more levels than columns in the first direction is left; and the horizontal part of the step has already applied vertical advection, so that the wind is carried twice. Proved: what a step adds to each place (C135_step), that nothing else changes (C135_untouched), that a wind without shear stays (C135_uniform), and the budgets of momentum and kinetic energy of the column with the volume elements taken (C135_momentum_partial, C135_energy_partial)"
  },
  {
   "property": "C136",
   "status": "proved",
   "theorems": [
    "Verif.ColumnV2.C136_levels",
    "Verif.ColumnV2.C136_velocity",
    "Verif.ColumnV2.C136_integral",
    "Verif.ColumnV2.C136_conserved",
    "Verif.ColumnV2.C136_same"
   ],
   "note": "for vertical velocity on interfaces and the rest on levels, over finite elements. C136_levels and C136_velocity give every residual; C136_integral and C136_conserved are the budgets; C136_same compares with the equations of the default method, whose upwinding is written out"
  },
  {
   "property": "C137",
   "status": "partial",
   "theorems": [
    "Verif.ColumnV2.C137_derivative_false",
    "Verif.ColumnV2.C137_levels",
    "Verif.ColumnV2.C137_interfaces",
    "Verif.ColumnV2.C137_ends",
    "Verif.ColumnV2.C137_derivative_partial"
   ],
   "note": "false, proved (C137_derivative_false): the change of the Exner pressure is divided by the derivative of height on level k instead of interface k. The Jacobian also leaves out uniform diffusion and shear over sloping interfaces. Proved: the exact difference in every equation (C137_levels, C137_interfaces, C137_ends) and that it is the derivative where none of these matters (C137_derivative_partial)"
  },
  {
   "property": "C138",
   "status": "partial",
   "theorems": [
    "Verif.ColumnV2.C138_small_steps",
    "Verif.ColumnV2.C138_few_levels_false",
    "Verif.ColumnV2.C138_refused",
    "Verif.ColumnV2.C138_newton",
    "Verif.ColumnV2.C138_derivative",
    "Verif.ColumnV2.C138_untouched",
    "Verif.ColumnV2.C138_ends",
    "Verif.ColumnV2.C138_conserved",
    "Verif.ColumnV2.C138_balance",
    "Verif.ColumnV2.C138_history"
   ],
   "note": "false, proved (C138_few_levels_false): the check of the size of the array in DGBSV refuses columns with few levels although their matrix is regular. Proved: exactly when the step is refused (C138_refused), that it is not for small steps with enough levels (C138_small_steps), and everything else; mass is conserved for every volume element, unlike C92, because nothing is upwinded. Vertical velocity on interfaces, the rest on levels, finite elements"
  },
  {
   "property": "C139",
   "status": "partial",
   "theorems": [
    "Verif.ColumnV2.C139_small_steps",
    "Verif.ColumnV2.C139_consistent_false",
    "Verif.ColumnV2.C139_refused",
    "Verif.ColumnV2.C139_outside",
    "Verif.ColumnV2.C139_step",
    "Verif.ColumnV2.C139_explicit",
    "Verif.ColumnV2.C139_untouched",
    "Verif.ColumnV2.C139_mass",
    "Verif.ColumnV2.C139_consistent",
    "Verif.ColumnV2.C139_consistent_partial",
    "Verif.ColumnV2.C139_history"
   ],
   "note": "false, proved (C139_consistent_false, C139_outside): the matrix of implicit steps reads the volume elements in the places [m][iA][iB] of an array that has its levels last, those of other columns or behind its end. Proved: exactly when the update leaves an array or throws (C139_refused), the system it solves (C139_step, C139_explicit), conservation of every tracer whatever is read (C139_mass), independence of earlier columns, exactly when a constant mixing ratio stays (C139_consistent) and that it does where the volume elements read equal those of the column (C139_consistent_partial). Vertical velocity on interfaces, the rest on levels, finite elements"
  },
  {
   "property": "C140",
   "status": "partial",
   "theorems": [
    "Verif.ColumnV2.C140_constant_false",
    "Verif.ColumnV2.C140_terms",
    "Verif.ColumnV2.C140_tracers",
    "Verif.ColumnV2.C140_refused",
    "Verif.ColumnV2.C140_mass",
    "Verif.ColumnV2.C140_constant_partial",
    "Verif.ColumnV2.C140_balance",
    "Verif.ColumnV2.C140_history",
    "Verif.ColumnV2.C140_patch"
   ],
   "note": "constant mixing ratios are false without the fully explicit option, proved (C140_constant_false): tracers take an implicit step while density takes an explicit one, even where the same volume elements are everywhere. Proved for all columns: the tendencies and what stays (C140_terms, C140_tracers), exactly when the step fails (C140_refused), conservation of air and tracers (C140_mass), balance (C140_balance), independence of earlier columns (C140_history), the loop over the patch (C140_patch); constant mixing ratios under the option without uniform diffusion (C140_constant_partial)."
  },
  {
   "property": "C141",
   "status": "partial",
   "theorems": [
    "Verif.ColumnV2.C141_step",
    "Verif.ColumnV2.C141_refused",
    "Verif.ColumnV2.C141_history",
    "Verif.ColumnV2.C141_columns",
    "Verif.ColumnV2.C141_mass",
    "Verif.ColumnV2.C141_outside",
    "Verif.ColumnV2.C141_consistent_partial"
   ],
   "note": "that the step succeeds and keeps constant mixing ratios is false, proved: with tracers the loop never ends normally in a patch not wider than columns have levels (C141_outside), and see C139_consistent_false. Proved: what the loop does to every column and exactly when it succeeds (C141_columns, C141_step, C141_refused, C141_history), conservation of air and tracers (C141_mass), constant mixing ratios where the volume elements read are those of the column (C141_consistent_partial)."
  },
  {
   "property": "C142",
   "status": "proved",
   "theorems": [
    "Verif.Horiz.C142_rule",
    "Verif.Horiz.C142_rule_four",
    "Verif.Horiz.C142_refused",
    "Verif.Horiz.C142_value",
    "Verif.Horiz.C142_circulation",
    "Verif.Horiz.C142_flux",
    "Verif.Horiz.C142_closed"
   ],
   "note": "before the direct stiffness summation that follows (C105). The integrals use the volume of the horizontal coordinates; orders other than four with any rule exact for the polynomials of the element (C142_rule), order four with the table of the code exactly (C142_rule_four)."
  },
  {
   "property": "C143",
   "status": "partial",
   "theorems": [
    "Verif.ColumnV2.C143_step",
    "Verif.ColumnV2.C143_refused",
    "Verif.ColumnV2.C143_mass",
    "Verif.ColumnV2.C143_constant",
    "Verif.ColumnV2.C143_balance",
    "Verif.ColumnV2.C143_uniform",
    "Verif.ColumnV2.C143_history",
    "Verif.ColumnV2.C143_patch",
    "Verif.ColumnV2.C143_outside"
   ],
   "note": "that the step succeeds is false, proved (C143_outside): areas of interfaces are read in the place of another column, behind the end of the array in every patch with fewer columns in the first direction than levels, and where they are within it advection is with these areas (C143_step, see C135). Proved for all columns: all tendencies and what stays (C143_step), exactly when the step fails (C143_refused), conservation of air and tracers (C143_mass), constant mixing ratios (C143_constant), balance (C143_balance), uniform winds (C143_uniform), independence of earlier columns (C143_history) and the loop over the patch (C143_patch)."
  },
  {
   "property": "C144",
   "status": "partial",
   "theorems": [
    "Verif.Newton.C144_residual",
    "Verif.Newton.C144_solution",
    "Verif.Newton.C144_refused",
    "Verif.Newton.C144_unassigned",
    "Verif.Newton.C144_solution_kept_false",
    "Verif.Newton.C144_single"
   ],
   "note": "that a solution is left as it is is false, proved (C144_solution_kept_false): from every solution the first coefficient is a quotient of zeros; so is what a step without iterations returns never assigned (C144_unassigned). Proved for all linear equations and any number of iterations: the returned value is the squared length of what is left (C144_residual), zero exactly at a solution (C144_solution), one equation is solved (C144_single), exactly which numbers of iterations per restart are refused (C144_refused). Real numbers in place of doubles."
  },
  {
   "property": "C145",
   "status": "partial",
   "theorems": [
    "Verif.Newton.C145_done",
    "Verif.Newton.C145_solved",
    "Verif.Newton.C145_linear",
    "Verif.Newton.C145_residual",
    "Verif.Newton.C145_kept",
    "Verif.Newton.C145_outside",
    "Verif.Newton.C145_one_step",
    "Verif.Newton.C145_no_step",
    "Verif.Newton.C145_success",
    "Verif.Newton.C145_single",
    "Verif.Newton.C145_success_false",
    "Verif.Newton.C145_space",
    "Verif.Newton.C145_outside_general"
   ],
   "note": "that every step is done is false, proved (C145_outside, C145_outside_general): the last iteration of a restart assigns behind the end of an array, so every step that needs as many vectors as there are iterations per restart does; that success means a solution is false, proved (C145_success_false, C145_one_step): the iteration compares the reduction of a step with the tolerance of the solution; a negative number of steps reports success after none (C145_no_step). Proved for all linear equations and any number of iterations: the returned factor is the reduction, at most the tolerance (C145_residual), almost solutions stay (C145_kept), one equation is solved (C145_single), what success means (C145_success), which states a step can reach (C145_space), and that with more iterations per restart than equations every step of regular linear equations is done (C145_done, C145_solved) and the iteration of steps then reports success (C145_linear). Restarts are not reached, as an array is left before them. Real numbers in place of doubles."
  },
  {
   "property": "C146",
   "status": "partial",
   "theorems": [
    "Verif.Newton.C146_step",
    "Verif.Newton.C146_init",
    "Verif.Newton.C146_construct_false"
   ],
   "note": "that the constructor with arguments initialises is false, proved (C146_construct_false): it reads a flag that was never assigned. Proved for all histories of a default constructed solver: when and with what a step is done (C146_step), when initialisation is accepted and refused (C146_init). Counts are not negative."
  },
  {
   "property": "C147",
   "status": "partial",
   "theorems": [
    "Verif.Cases.Instability.C147_outside_jet",
    "Verif.Cases.Instability.C147_jet",
    "Verif.Cases.Instability.C147_edges",
    "Verif.Cases.Instability.C147_symmetric",
    "Verif.Cases.Instability.C147_finite_false",
    "Verif.Cases.Instability.C147_refused",
    "Verif.Cases.Instability.C147_zonal",
    "Verif.Cases.Instability.C147_periodic",
    "Verif.Cases.Instability.C147_hill",
    "Verif.Cases.Instability.C147_south",
    "Verif.Cases.Instability.C147_turned",
    "Verif.Cases.Instability.C147_turned_false",
    "Verif.Cases.Instability.C147_turned_east"
   ],
   "note": "that the state is finite is false, proved (C147_finite_false): at the northern edge of the jet, which the test does not exclude, the exponent is plus infinity. Proved: calm outside the jet (C147_outside_jet), its edges in degrees (C147_edges), sign, bound and place of the largest wind (C147_jet), symmetry (C147_symmetric), zonal wind and height (C147_zonal), the hill (C147_hill), rest in the south (C147_south), turns (C147_periodic), refused longitudes (C147_refused). On a grid turned about the y axis the wind is the jet about the turned axis when the cosine of the longitude is at least 1e-13 in size (C147_turned); nearer a quarter turn that is false, proved (C147_turned_false, C147_turned_east): the wind blows the wrong way. Not modelled: the height on turned grids; real numbers in place of doubles."
  },
  {
   "property": "C148",
   "status": "partial",
   "theorems": [
    "Verif.Base.Strings.C148_case",
    "Verif.Base.Strings.C148_letters",
    "Verif.Base.Strings.C148_case_false",
    "Verif.Base.Strings.C148_ignore",
    "Verif.Base.Strings.C148_find",
    "Verif.Base.Strings.C148_within",
    "Verif.Base.Strings.C148_hex",
    "Verif.Base.Strings.C148_hex_false",
    "Verif.Base.Strings.C148_hex_edge_false",
    "Verif.Base.Strings.C148_hex_bad",
    "Verif.Base.Strings.C148_hex_length"
   ],
   "note": "three parts are false, proved: StringToHex reads the first digit as the least significant, so that a digit followed by zeros gives the digit (C148_hex_false; what it returns is C148_hex); the sixteen largest ints have no result (C148_hex_edge_false); a byte beyond ASCII makes the conversion of case undefined where char is signed (C148_case_false). Proved: C148_case, C148_letters, C148_ignore, C148_find, C148_within, C148_hex, C148_hex_bad, C148_hex_length. Assumed: the C locale, an int of 32 bits."
  },
  {
   "property": "C149",
   "status": "partial",
   "theorems": [
    "Verif.Cases.Eddy.C149_jets",
    "Verif.Cases.Eddy.C149_hemispheres",
    "Verif.Cases.Eddy.C149_finite_false",
    "Verif.Cases.Eddy.C149_zonal",
    "Verif.Cases.Eddy.C149_south",
    "Verif.Cases.Eddy.C149_rest",
    "Verif.Cases.Eddy.C149_refused"
   ],
   "note": "that the state is finite is false, proved (C149_finite_false): at the poleward edges of both jets the exponent is plus infinity. Proved: C149_jets, C149_hemispheres, C149_zonal (with the radius), C149_south, C149_rest, C149_refused. Not modelled: grids with rotation; real numbers in place of doubles."
  },
  {
   "property": "C150",
   "status": "partial",
   "theorems": [
    "Verif.Container.Struct.C150_released",
    "Verif.Container.Struct.C150_matching_false",
    "Verif.Container.Struct.C150_outside",
    "Verif.Container.Struct.C150_values",
    "Verif.Container.Struct.C150_unattached",
    "Verif.Container.Struct.C150_read_false",
    "Verif.Container.Struct.C150_null_false",
    "Verif.Container.Struct.C150_detach",
    "Verif.Container.Struct.C150_size"
   ],
   "note": "three parts are false, proved: memory from malloc is given to delete[] (C150_matching_false); the cast to the value reads through a null pointer (C150_read_false); after a null pointer is attached an object without data cannot be allocated (C150_null_false). Proved: C150_released, C150_outside, C150_values, C150_unattached, C150_detach, C150_size. Assumed: malloc succeeds, arguments are attached outside or not at all; the value is an integer."
  },
  {
   "property": "C151",
   "status": "partial",
   "theorems": [
    "Verif.Base.Failure.C151_reported",
    "Verif.Base.Failure.C151_long_false",
    "Verif.Base.Failure.C151_plain",
    "Verif.Base.Failure.C151_arguments"
   ],
   "note": "that messages of any length are reported is false, proved (C151_long_false): from 1024 characters on the buffer is left. Proved: shorter messages of any number of pieces (C151_reported), the general exception (C151_plain), missing or wrong arguments (C151_arguments). Of the conversions of printf only those without width and precision for text and whole numbers are modelled."
  }
 ]
}