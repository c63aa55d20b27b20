{
 "claims": [
  {
   "property": "C01",
   "status": "proved",
   "theorems": [
    "Verif.ListHeap.list_program_safe",
    "Verif.ListHeap.list_program_releases_all"
   ],
   "note": "Every program over list variables, with loops and exceptions."
  },
  {
   "property": "C02",
   "status": "proved",
   "theorems": [
    "Verif.LinkedList.list_empty",
    "Verif.LinkedList.list_head_tail",
    "Verif.LinkedList.list_prepend",
    "Verif.LinkedList.list_append",
    "Verif.LinkedList.list_concat",
    "Verif.LinkedList.list_reverse",
    "Verif.LinkedList.list_size",
    "Verif.LinkedList.list_iterate",
    "Verif.LinkedList.list_from_range",
    "Verif.LinkedList.list_eq",
    "Verif.LinkedList.time_series_round_trip",
    "Verif.LinkedList.denotes_bijective",
    "Verif.ListHeap.list_reverse_heap"
   ],
   "note": ""
  },
  {
   "property": "C03",
   "status": "proved",
   "theorems": [
    "Verif.Rational.rational_expr_sound",
    "Verif.Rational.rational_add_exact",
    "Verif.Rational.rational_sub_exact",
    "Verif.Rational.rational_mul_exact",
    "Verif.Rational.rational_div_exact",
    "Verif.Rational.rational_div_zero_throws",
    "Verif.Rational.rational_make_exact"
   ],
   "note": "Exact on every expression; int overflow is the separate outcome ub."
  },
  {
   "property": "C04",
   "status": "partial",
   "theorems": [
    "Verif.Rational.rational_eq_violated",
    "Verif.Rational.rational_eq_partial",
    "Verif.Rational.rational_eq_sound"
   ],
   "note": "Violated by the code for zero (0/5 vs 0/9); proved for non-zero values."
  },
  {
   "property": "C05",
   "status": "proved",
   "theorems": [
    "Verif.Rational.rational_order"
   ],
   "note": "Within the no-overflow region."
  },
  {
   "property": "C06",
   "status": "proved",
   "theorems": [
    "Verif.Rational.iteration_counter_integral",
    "Verif.Rational.iteration_step",
    "Verif.Rational.rational_as_integral",
    "Verif.Rational.iteration_overflow_at_limit"
   ],
   "note": "Up to 2^29-1 steps; overflow at the limit is shown."
  },
  {
   "property": "C07",
   "status": "proved",
   "theorems": [
    "Verif.Tree.index_valid",
    "Verif.Tree.index_shift_bound",
    "Verif.Tree.index_children",
    "Verif.Tree.index_parent_relative",
    "Verif.Tree.index_relative_valid",
    "Verif.Tree.index_step",
    "Verif.Tree.index_period",
    "Verif.Tree.index_step_bad_axis",
    "Verif.Tree.index_eq",
    "Verif.Tree.bits_bijection"
   ],
   "note": "Levels up to 30 where the code shifts an int (undefined beyond, index_shift_bound); children up to level 62."
  },
  {
   "property": "C08",
   "status": "partial",
   "theorems": [
    "Verif.Tree.tree_indexes",
    "Verif.Tree.tree_sink",
    "Verif.Tree.tree_at",
    "Verif.Tree.tree_node_at",
    "Verif.Tree.tree_leaf_cells",
    "Verif.Tree.tree_contains_partial",
    "Verif.Tree.tree_contains_hardware_partial",
    "Verif.Tree.tree_contains_interior_ub"
   ],
   "note": "Enumeration and lookup proved in full; contains() is undefined behaviour on the index of a subdivided cell (tree_contains_interior_ub), proved for all other cells, and for all cells on a platform where oversized shifts yield a non-zero value."
  },
  {
   "property": "C09",
   "status": "proved",
   "theorems": [
    "Verif.Tree.tree_map",
    "Verif.Tree.tree_map_map",
    "Verif.Tree.tree_binary_op",
    "Verif.Tree.tree_pair_indexes"
   ],
   "note": ""
  },
  {
   "property": "C10",
   "status": "partial",
   "theorems": [
    "Verif.Tree.tree_find_partial",
    "Verif.Tree.tree_find_interior_throws"
   ],
   "note": "Violated: find on a subdivided cell throws bad_variant_access; proved for all other indexes."
  },
  {
   "property": "C11",
   "status": "proved",
   "theorems": [
    "Verif.Tree.tree_bifurcate_if",
    "Verif.Tree.tree_bifurcate_if_size",
    "Verif.Tree.tree_bifurcate_all"
   ],
   "note": ""
  },
  {
   "property": "C12",
   "status": "partial",
   "theorems": [
    "Verif.Tree.tree_insert",
    "Verif.Tree.tree_update_partial",
    "Verif.Tree.tree_update_invalid_index"
   ],
   "note": "Insert proved for every index; update proved for valid indexes and violated for indexes outside of the domain, where it alters another leaf."
  },
  {
   "property": "C13",
   "status": "proved",
   "theorems": [
    "Verif.Tree.tree_reductions",
    "Verif.Tree.tree_min_max",
    "Verif.Tree.tree_depth"
   ],
   "note": ""
  },
  {
   "property": "C14",
   "status": "partial",
   "theorems": [
    "Verif.Tree.hilbert_violated",
    "Verif.Tree.hilbert_partial"
   ],
   "note": "Violated on every level but the first: hilbert_index passes the level where the algorithm expects the number of cells on a side, so that there are fewer positions than cells. The algorithm itself (xy2d) is proved to be one to one and onto, up to level 15."
  },
  {
   "property": "C15",
   "status": "proved",
   "theorems": [
    "Verif.TreeSerialize.tree_file_round_trip"
   ],
   "note": "Depth up to 30 (beyond, format_tree_index shifts an int by more than its width), any rank, any order of the members, written to an empty group."
  },
  {
   "property": "C16",
   "status": "proved",
   "theorems": [
    "Verif.TreeSerialize.index_name_round_trip",
    "Verif.TreeSerialize.index_name_injective",
    "Verif.TreeSerialize.index_name_wrong_rank"
   ],
   "note": "Levels up to 30; the code shifts an int beyond its width for larger levels."
  },
  {
   "property": "C17",
   "status": "proved",
   "theorems": [
    "Verif.Tree.ensure_valid_quadtree"
   ],
   "note": "For trees of at most 30 levels (the shift 1 << level) of blocks of equal shape with fewer than 2^31 vertices. The result is moreover the coarsest balanced subdivision."
  },
  {
   "property": "C18",
   "status": "proved",
   "theorems": [
    "Verif.Tree.create_vertex_quadtree"
   ],
   "note": "Depth at most 30, at least one cell per axis and fewer than 2^31 vertices per block; over the real numbers. With zero cells on an axis the code divides zero by zero."
  },
  {
   "property": "C19",
   "status": "partial",
   "theorems": [
    "Verif.Tree.get_cell_block_leaf",
    "Verif.Tree.get_cell_block_coarser",
    "Verif.Tree.get_cell_block_finer_partial",
    "Verif.Tree.get_cell_block_partial",
    "Verif.Tree.get_vertex_block_partial",
    "Verif.Tree.get_cell_block_finer_violated",
    "Verif.Tree.get_cell_block_over_refined_violated"
   ],
   "note": "Proved with values for machines where a shift by too many bits gives some number. By the C++ standard the lookup at a divided cell is undefined (get_cell_block_finer_violated). Two levels below a leaf it recurses without end instead of throwing."
  },
  {
   "property": "C20",
   "status": "proved",
   "theorems": [
    "Verif.Nd.offset_bijection",
    "Verif.Nd.offset_row_major"
   ],
   "note": "All ranks, shapes with fewer than 2^64 elements."
  },
  {
   "property": "C21",
   "status": "partial",
   "theorems": [
    "Verif.Nd.iterate_region",
    "Verif.Nd.iterate_empty_partial",
    "Verif.Nd.iterate_empty_violated",
    "Verif.Nd.iterate_empty_witness",
    "Verif.Nd.region_index_maps"
   ],
   "note": "Proved for every region with an index on each axis; violated for empty regions: a region that is empty on some axis but has start different from final is iterated, e.g. the shape (0,3) visits three indexes."
  },
  {
   "property": "C22",
   "status": "partial",
   "theorems": [
    "Verif.Nd.evaluate_partial",
    "Verif.Nd.evaluate_empty_violated",
    "Verif.Nd.evaluate_empty_witness",
    "Verif.Nd.bounds_check",
    "Verif.Nd.elementwise"
   ],
   "note": "Proved for arrays with an element on each axis, or of rank one; violated for arrays of higher rank with an empty axis, where evaluation writes out of bounds."
  },
  {
   "property": "C23",
   "status": "partial",
   "theorems": [
    "Verif.Nd.select_partial",
    "Verif.Nd.select_outside_throws",
    "Verif.Nd.select_reversed_violated",
    "Verif.Nd.select_empty_stride_violated",
    "Verif.Nd.select_rejects_inside"
   ],
   "note": "Regions with an index on each axis: in bounds or exception. Violated for start beyond final and for an empty region with a stride (accepted, out of bounds); with strides some selections that fit are rejected."
  },
  {
   "property": "C24",
   "status": "partial",
   "theorems": [
    "Verif.Nd.shift_down_partial",
    "Verif.Nd.shift_up_violated",
    "Verif.Nd.shift_up_witness"
   ],
   "note": "Negative shifts proved; every positive shift reads out of bounds."
  },
  {
   "property": "C25",
   "status": "proved",
   "theorems": [
    "Verif.Nd.concat_select",
    "Verif.Nd.concat_throws",
    "Verif.Nd.concat_assoc"
   ],
   "note": "Extents whose sum fits size_t."
  },
  {
   "property": "C26",
   "status": "proved",
   "theorems": [
    "Verif.Nd.divvy_partition"
   ],
   "note": "Fewer than 2^31 elements (the volume of a shape is computed as an int, C29)."
  },
  {
   "property": "C27",
   "status": "partial",
   "theorems": [
    "Verif.Par.evaluate_on_partial",
    "Verif.Par.evaluate_on_race_violated",
    "Verif.Par.evaluate_on_race_witness"
   ],
   "note": "Proved for at most as many threads as rows, or rank one, under every interleaving. Violated otherwise: two threads write the same elements, a data race."
  },
  {
   "property": "C28",
   "status": "partial",
   "theorems": [
    "Verif.Par.propose_partial",
    "Verif.Par.block_regions",
    "Verif.Par.prime_factors_partial",
    "Verif.Par.prime_factors_violated"
   ],
   "note": "Regions proved in full. The proposal is proved for 1 <= n < 46340^2; for n = 0 the recursion does not end and for the prime 2^31-1 the search overflows."
  },
  {
   "property": "C29",
   "status": "partial",
   "theorems": [
    "Verif.Nd.volume_partial",
    "Verif.Nd.volume_violated",
    "Verif.Nd.buffer_large_enough_partial"
   ],
   "note": "Below 2^31 elements; violated for 65536 x 65536."
  },
  {
   "property": "C30",
   "status": "partial",
   "theorems": [
    "Verif.Nd.arange_partial",
    "Verif.Nd.arange_count",
    "Verif.Nd.arange_violated",
    "Verif.Nd.arange_negative_violated"
   ],
   "note": "Violated: the last element is missing unless the step divides the difference, and negative elements wrap around."
  },
  {
   "property": "C31",
   "status": "partial",
   "theorems": [
    "Verif.Nd.difference_partial",
    "Verif.Nd.difference_sum",
    "Verif.Nd.midpoint_partial",
    "Verif.Nd.zip_adjacent_partial",
    "Verif.Nd.difference_empty_violated",
    "Verif.Nd.extend_periodic",
    "Verif.Nd.extend_zero_gradient",
    "Verif.Nd.extend_zeros"
   ],
   "note": "Proved for axes with at least one element; on an axis without elements differences and midpoints have 2^64-1 elements."
  },
  {
   "property": "C32",
   "status": "partial",
   "theorems": [
    "Verif.Nd.restrict_prolong_axis",
    "Verif.Nd.coarsen_prolong_all",
    "Verif.Nd.coarsen_prolong_double",
    "Verif.Nd.restrict_sum",
    "Verif.Nd.coarsen_sum",
    "Verif.Nd.prolong_sum",
    "Verif.Nd.restrict_single_violated"
   ],
   "note": "Proved for every rank and every shape with at least one element on each axis (even extents for sums), over a field in which 2 is invertible; that coarsening undoes refinement is also proved bit for bit in double precision (coarsen_prolong_double). Restricting an axis with a single cell gives 2^63 cells (restrict_single_violated)."
  },
  {
   "property": "C33",
   "status": "partial",
   "theorems": [
    "Verif.Nd.bisect_cells",
    "Verif.Nd.bisect_verts",
    "Verif.Nd.combine_refine_cells",
    "Verif.Nd.combine_refine_verts_partial",
    "Verif.Nd.combine_verts_three_violated"
   ],
   "note": "Cells proved for every rank. Vertices proved for ranks up to two; combine_verts throws for rank three."
  },
  {
   "property": "C34",
   "status": "proved",
   "theorems": [
    "Verif.Sched.run_scheduled_tasks",
    "Verif.Sched.run_scheduled_unknown",
    "Verif.Sched.mark_as_due",
    "Verif.Sched.mark_as_completed",
    "Verif.Sched.create_task"
   ],
   "note": ""
  },
  {
   "property": "C35",
   "status": "proved",
   "theorems": [
    "Verif.Runs.binary_cadence",
    "Verif.Runs.binary_backlog",
    "Verif.Runs.app_cadence",
    "Verif.Runs.app_backlog"
   ],
   "note": "For all four programs, over an ordered field. An output is decided on with the time before the step and written after it, so it may be late by a step."
  },
  {
   "property": "C36",
   "status": "partial",
   "theorems": [
    "Verif.Runs.Binary.binary_restart_partial",
    "Verif.Runs.Binary.binary_restart_violated"
   ],
   "note": "Proved for every checkpoint written in the loop, provided no string parameter but restart is empty. Violated by a checkpoint written after the loop: the restarted run takes a further step and writes a further checkpoint."
  },
  {
   "property": "C37",
   "status": "partial",
   "theorems": [
    "Verif.Runs.App.app_restart_overwrites_violated",
    "Verif.Runs.App.app_restart_loses_violated",
    "Verif.Runs.App.app_restart_keeps_partial"
   ],
   "note": "Violated: the first checkpoint after a restart always overwrites the one restarted from, and diagnostics that were due are lost. Kept are the solution and the times of later outputs."
  },
  {
   "property": "C38",
   "status": "partial",
   "theorems": [
    "Verif.Runs.App.app_restart_partial",
    "Verif.Runs.App.sedov_restart_violated",
    "Verif.Runs.Binary.binary_restart_partial"
   ],
   "note": "Violated by sedov, which opens a group that it does not write and so always throws. Proved for binary, boilerplate and cloud."
  },
  {
   "property": "C39",
   "status": "partial",
   "theorems": [
    "Verif.Path.numbered_distinct",
    "Verif.Path.numbered_sorted_partial",
    "Verif.Path.numbered_sorted_violated"
   ],
   "note": "Distinct for names that fit the buffer. Sorted by number below 10000 only."
  },
  {
   "property": "C40",
   "status": "proved",
   "theorems": [
    "Verif.Config.config_keys_types",
    "Verif.Config.config_set_throws",
    "Verif.Config.config_update_throws",
    "Verif.Config.config_get_last"
   ],
   "note": ""
  },
  {
   "property": "C41",
   "status": "proved",
   "theorems": [
    "Verif.Config.config_precedence",
    "Verif.Config.config_precedence_fresh",
    "Verif.Config.config_restart_unknown"
   ],
   "note": ""
  },
  {
   "property": "C42",
   "status": "proved",
   "theorems": [
    "Verif.Config.argv_map"
   ],
   "note": ""
  },
  {
   "property": "C43",
   "status": "partial",
   "theorems": [
    "Verif.Config.config_file_round_trip_partial",
    "Verif.Config.config_file_round_trip_violated"
   ],
   "note": "Violated by empty strings, which read back as a NUL character; doubles are taken to be stored losslessly."
  },
  {
   "property": "C44",
   "status": "proved",
   "theorems": [
    "Verif.Pool.pool_fifo",
    "Verif.Pool.pool_once",
    "Verif.Pool.pool_safe",
    "Verif.Pool.pool_progress"
   ],
   "note": "For jobs whose functions return; an exception that leaves a job's function terminates the program."
  },
  {
   "property": "C45",
   "status": "partial",
   "theorems": [
    "Verif.Pool.shutdown_partial",
    "Verif.Pool.shutdown_violated"
   ],
   "note": "Violated: a worker that has found it must wait, but does not wait yet, misses the notification sent by stop_all, which then waits for it forever. Proved for all interleavings without such a worker."
  },
  {
   "property": "C46",
   "status": "proved",
   "theorems": [
    "Verif.Pool.map_on_pool",
    "Verif.Pool.map_on_pool_total"
   ],
   "note": "Progress is pool_progress of C44."
  },
  {
   "property": "C47",
   "status": "partial",
   "theorems": [
    "Verif.Handles.link_closed_once",
    "Verif.Handles.handles_once_partial",
    "Verif.Handles.value_no_leak",
    "Verif.Handles.link_leak_violated",
    "Verif.Handles.value_closed_twice_violated",
    "Verif.Handles.self_assign_violated"
   ],
   "note": "Files, groups and datasets are never closed twice, whatever the history, but moving into an open one leaks. Property lists, data types and data spaces never leak, but closing by hand or assigning to itself closes twice."
  },
  {
   "property": "C48",
   "status": "proved",
   "theorems": [
    "Verif.Requests.requests_once",
    "Verif.Requests.requests_finished",
    "Verif.Requests.communicators_once"
   ],
   "note": ""
  },
  {
   "property": "C49",
   "status": "partial",
   "theorems": [
    "Verif.Mpi.scatter_scalars",
    "Verif.Mpi.scatter_throws",
    "Verif.Mpi.scatterv_partial",
    "Verif.Mpi.scatterv_throws",
    "Verif.Mpi.scatterv_violated",
    "Verif.Mpi.all_gather_partial",
    "Verif.Mpi.all_gather_violated",
    "Verif.Mpi.all_gather_empty_violated",
    "Verif.Mpi.all_gather_scalars",
    "Verif.Mpi.all_to_all",
    "Verif.Mpi.all_to_all_throws"
   ],
   "note": "Proved for totals below 2^31 bytes, on implementations that tolerate &v[0] of an empty vector; by the standard that is undefined, and every scatter evaluates it."
  },
  {
   "property": "C50",
   "status": "partial",
   "theorems": [
    "Verif.Mpi.recv_partial",
    "Verif.Mpi.recv_same_length_partial",
    "Verif.Mpi.recv_violated"
   ],
   "note": "Proved for a named source, and for any source if matching messages have one length. Otherwise the message received need not be the one probed."
  },
  {
   "property": "C51",
   "status": "proved",
   "theorems": [
    "Verif.Plm.plm_bounded",
    "Verif.Plm.plm_extremum",
    "Verif.Plm.plm_sign",
    "Verif.Plm.plm_reflect",
    "Verif.Plm.plm_scale",
    "Verif.Plm.plm_linear",
    "Verif.Plm.plm_faces"
   ],
   "note": "over any ordered field"
  },
  {
   "property": "C52",
   "status": "proved",
   "theorems": [
    "Verif.Polynomial.cubic_roots",
    "Verif.Polynomial.quartic_roots",
    "Verif.Polynomial.parabola_vertex"
   ],
   "note": "in exact arithmetic; a division by zero is undefined behaviour"
  },
  {
   "property": "C53",
   "status": "partial",
   "theorems": [
    "Verif.Euler.recover_toConserved",
    "Verif.Euler.toConserved_recover",
    "Verif.Euler.floor_partial",
    "Verif.Euler.floor_violated"
   ],
   "note": "The round trip is proved in both directions. The floor is violated: it is documented as p = max(p, T rho), but is applied only when the recovered pressure is negative."
  },
  {
   "property": "C54",
   "status": "proved",
   "theorems": [
    "Verif.Euler.eigenvectors_inverse",
    "Verif.Euler.jacobian_diagonal",
    "Verif.Euler.jacobian_derivative"
   ],
   "note": "for the x direction, which is the one in the code"
  },
  {
   "property": "C55",
   "status": "proved",
   "theorems": [
    "Verif.Euler.hlle_consistent",
    "Verif.Euler.hlle_upwind",
    "Verif.Euler.hlle_opposite",
    "Verif.Euler.hlle_mirrored",
    "Verif.Iso2d.hlle_consistent",
    "Verif.Iso2d.hlle_upwind",
    "Verif.Iso2d.hlle_opposite",
    "Verif.Srhd.hlle_consistent",
    "Verif.Srhd.hlle_upwind",
    "Verif.Srhd.hlle_opposite"
   ],
   "note": "euler, iso2d and srhd; the latter for adiabatic indices up to two and directions of length one"
  },
  {
   "property": "C56",
   "status": "partial",
   "theorems": [
    "Verif.Euler.roe_between",
    "Verif.Euler.roe_partial",
    "Verif.Euler.roe_violated"
   ],
   "note": "The Roe property holds for mass and momentum; it is violated for energy, because the pressure is averaged rather than the enthalpy."
  },
  {
   "property": "C57",
   "status": "proved",
   "theorems": [
    "Verif.Iso2d.recover_toConserved",
    "Verif.Iso2d.recoverAngmom_toAngmom",
    "Verif.Iso2d.toConserved_recover",
    "Verif.Iso2d.angmom_agree",
    "Verif.Iso2d.recover_negative",
    "Verif.Iso2d.angmom_flux"
   ],
   "note": ""
  },
  {
   "property": "C58",
   "status": "partial",
   "theorems": [
    "Verif.Iso2d.hllc_defined",
    "Verif.Iso2d.hllc_consistent",
    "Verif.Iso2d.hllc_jump",
    "Verif.Iso2d.hllc_order_partial",
    "Verif.Iso2d.hllc_star_positive",
    "Verif.Iso2d.hllc_opposite_partial",
    "Verif.Iso2d.hllc_order_violated",
    "Verif.Iso2d.hllc_rest_violated"
   ],
   "note": "Consistency, jump conditions and the unreachable failure branch proved. The order of the waves is violated by fast collisions and by different sound speeds; proved for equal sound speeds and collisions not faster than sound."
  },
  {
   "property": "C59",
   "status": "partial",
   "theorems": [
    "Verif.Srhd.beta_causal",
    "Verif.Srhd.causal_partial",
    "Verif.Srhd.waves_around",
    "Verif.Srhd.causal_violated",
    "Verif.Srhd.recover_physical",
    "Verif.Srhd.recover_fixed"
   ],
   "note": "Causality is proved for adiabatic indices up to two and violated above. Recovery proved for all inputs, divisions by zero being undefined behaviour."
  },
  {
   "property": "C60",
   "status": "partial",
   "theorems": [
    "Verif.TwoBody.state_elements",
    "Verif.TwoBody.state_returns_partial",
    "Verif.TwoBody.state_returns_violated",
    "Verif.TwoBody.state_on_orbit",
    "Verif.TwoBody.full_state_elements",
    "Verif.TwoBody.full_returns_partial",
    "Verif.TwoBody.full_on_orbit"
   ],
   "note": "Whatever is returned has the requested elements, and is within a tolerance of the motion under Newton's law. That it returns is proved for eccentricities up to 9/10, and violated above: the iteration for the eccentric anomaly can cycle."
  },
  {
   "property": "C61",
   "status": "partial",
   "theorems": [
    "Verif.TwoBody.elements_recovered",
    "Verif.TwoBody.elements_roundtrip",
    "Verif.TwoBody.unbound_throws_partial",
    "Verif.TwoBody.elements_radial_violated"
   ],
   "note": "Violated by radial orbits, which divide by zero; states with energy exactly zero divide by zero before the exception."
  },
  {
   "property": "C62",
   "status": "partial",
   "theorems": [
    "Verif.Geometry.unit_length_partial",
    "Verif.Geometry.unit_length_violated"
   ],
   "note": "violated: the constructor normalises its parameters, not the members; the axis vectors and the default have length one"
  },
  {
   "property": "C63",
   "status": "proved",
   "theorems": [
    "Verif.Matrices.product_assoc",
    "Verif.Matrices.product_distrib",
    "Verif.Matrices.product_identity",
    "Verif.Matrices.product_vectors",
    "Verif.Matrices.equal_iff"
   ],
   "note": "over any commutative ring"
  },
  {
   "property": "C64",
   "status": "partial",
   "theorems": [
    "Verif.Atmosphere.density_documented",
    "Verif.Atmosphere.density_continuous",
    "Verif.Atmosphere.mass_within",
    "Verif.Atmosphere.mass_beyond",
    "Verif.Atmosphere.mass_total",
    "Verif.Atmosphere.total_mass_partial",
    "Verif.Atmosphere.total_mass_violated"
   ],
   "note": "with_total_mass disregards the coefficient the model already has: right if that is one, violated otherwise."
  },
  {
   "property": "C65",
   "status": "proved",
   "theorems": [
    "Verif.Sedov.spherical_balance",
    "Verif.Sedov.periodic_balance",
    "Verif.Cloud.advance_balance"
   ],
   "note": "in exact arithmetic, for the radial grid of the Sedov program, the radial and polar grid of the cloud program, and the periodic grid"
  },
  {
   "property": "C66",
   "status": "partial",
   "theorems": [
    "Verif.Binary.flux_correction_partial",
    "Verif.Binary.flux_conservation_partial",
    "Verif.Binary.uncorrected_not_conservative",
    "Verif.Binary.flux_correction_violated"
   ],
   "note": "in exact arithmetic, on machines where every shift 1 << n has a value; under the C++ standard the correction is undefined wherever a neighbour is finer (contains is asked for a divided index)"
  },
  {
   "property": "C67",
   "status": "partial",
   "theorems": [
    "Verif.Binary.step_records_partial",
    "Verif.Binary.mass_budget_partial",
    "Verif.Binary.angmom_budget_partial",
    "Verif.Binary.angmom_budget_linear_partial",
    "Verif.Binary.run_budget_partial"
   ],
   "note": "in exact arithmetic, one update (advance) from a state of positive density on a balanced mesh, and runs of steps that succeed; for machines where every shift 1 << n has a value. In the mode that conserves linear momentum the budget of angular momentum has the moments of the flux differences as a further term, which is more than the flow through the edges of the domain"
  },
  {
   "property": "C68",
   "status": "partial",
   "theorems": [
    "Verif.Binary.step_density_partial",
    "Verif.Binary.run_density_partial"
   ],
   "note": "in exact arithmetic; a NaN density would pass the check of the program. An exception while the time step is computed is not retried (see C94)"
  },
  {
   "property": "C69",
   "status": "proved",
   "theorems": [
    "Verif.Sedov.shells",
    "Verif.Cloud.geometry_exact"
   ],
   "note": "in exact arithmetic"
  },
  {
   "property": "C70",
   "status": "partial",
   "theorems": [
    "Verif.Path.join_split",
    "Verif.Path.split_join",
    "Verif.Path.split_parts",
    "Verif.Path.extension_partial",
    "Verif.Path.extension_violated",
    "Verif.Path.parent_path",
    "Verif.Path.require_dir_prefixes",
    "Verif.Path.require_dir_last_partial",
    "Verif.Path.require_dir_absolute_violated"
   ],
   "note": "Split and join proved. Violated by the extension of a file without a dot in a directory with one, and by absolute paths given to require_dir, which are made below the working directory."
  },
  {
   "property": "C71",
   "status": "partial",
   "theorems": [
    "Verif.Shock.shock_index_partial",
    "Verif.Shock.shock_index_violated",
    "Verif.Shock.maximum_behind",
    "Verif.Shock.maximum_behind_outside",
    "Verif.Shock.plateau_ahead"
   ],
   "note": "Profiles of a single cell make find_shock_index read outside of an array; all others proved."
  },
  {
   "property": "C72",
   "status": "proved",
   "theorems": [
    "Verif.Seq.seq_at",
    "Verif.Seq.seq_set_update",
    "Verif.Seq.seq_elementwise",
    "Verif.Seq.seq_sum",
    "Verif.Seq.seq_all_any",
    "Verif.Seq.seq_min_max",
    "Verif.Seq.seq_rearrange",
    "Verif.Seq.seq_ends",
    "Verif.Seq.seq_transpose"
   ],
   "note": ""
  },
  {
   "property": "C73",
   "status": "partial",
   "theorems": [
    "Verif.Units.add_units",
    "Verif.Units.mul_units",
    "Verif.Units.div_units",
    "Verif.Units.mul_compiles",
    "Verif.Units.pow_units_partial",
    "Verif.Units.pow_compiles",
    "Verif.Units.pow_units_violated",
    "Verif.Units.pow_rejected"
   ],
   "note": "violated for powers that give negative exponents: they are computed as unsigned"
  },
  {
   "property": "C74",
   "status": "proved",
   "theorems": [
    "Verif.Binary.viscous_stress",
    "Verif.Binary.viscous_rigid"
   ],
   "note": "in exact arithmetic; also never gains energy, and rigid rotation on a grid gives no viscous flux with the limited differences"
  },
  {
   "property": "C75",
   "status": "partial",
   "theorems": [
    "Verif.Binary.gravity_gradient",
    "Verif.Binary.gravity_newton",
    "Verif.Binary.momentum_budget_partial",
    "Verif.Binary.recoil",
    "Verif.Binary.step_records_partial"
   ],
   "note": "in exact arithmetic; the momentum budget in the mode that conserves linear momentum, apart from the flow through the edges, the buffer and the density floor"
  },
  {
   "property": "C76",
   "status": "proved",
   "theorems": [
    "Verif.ListHeap.list_program_safe"
   ],
   "note": "The model grants two nested destructor calls and makes any deeper nesting the outcome ub; the theorem excludes ub."
  },
  {
   "property": "C77",
   "status": "proved",
   "theorems": [
    "Verif.Tree.tree_leaf_cover",
    "Verif.Tree.tree_leaf_disjoint"
   ],
   "note": ""
  },
  {
   "property": "C78",
   "status": "partial",
   "theorems": [
    "Verif.Par.propose_not_even",
    "Verif.Par.propose_even_partial"
   ],
   "note": "Violated: 2 x 6 is proposed for twelve processes. Proved for powers of a prime."
  },
  {
   "property": "C79",
   "status": "partial",
   "theorems": [
    "Verif.Tree.create_quadtree_level_violated",
    "Verif.Tree.create_quadtree_level_partial"
   ],
   "note": "Violated: the predicate receives the number of the round, so that the root, of level zero, is divided by a predicate that only holds at level one. Proved for predicates that hold at lower levels where they hold at some level, as that of the binary program."
  },
  {
   "property": "C80",
   "status": "partial",
   "theorems": [
    "Verif.Requests.buffer_partial",
    "Verif.Requests.buffer_violated"
   ],
   "note": "Violated by messages short enough for the string to hold inside of itself; proved for longer ones."
  },
  {
   "property": "C81",
   "status": "proved",
   "theorems": [
    "Verif.Euler.hlle_positive",
    "Verif.Iso2d.hlle_positive"
   ],
   "note": "euler: density and pressure; iso2d: density"
  },
  {
   "property": "C82",
   "status": "proved",
   "theorems": [
    "Verif.Iso2d.roe_property"
   ],
   "note": ""
  },
  {
   "property": "C83",
   "status": "proved",
   "theorems": [
    "Verif.Srhd.recover_accurate",
    "Verif.Srhd.recover_rest"
   ],
   "note": "for adiabatic indices below two, and Lorentz factors below the cut-off"
  },
  {
   "property": "C84",
   "status": "partial",
   "theorems": [
    "Verif.TwoBody.elements_on_orbit_partial",
    "Verif.TwoBody.elements_on_orbit_violated"
   ],
   "note": "Proved for counterclockwise orbits; violated by every clockwise orbit."
  },
  {
   "property": "C85",
   "status": "partial",
   "theorems": [
    "Verif.TwoBody.diff_same_orbit",
    "Verif.TwoBody.diff_small_partial",
    "Verif.TwoBody.diff_small_violated"
   ],
   "note": "The difference is shortened by one turn and one period only."
  },
  {
   "property": "C86",
   "status": "partial",
   "theorems": [
    "Verif.TwoBody.delta_a_partial",
    "Verif.TwoBody.delta_a_violated"
   ],
   "note": "Proved for a centre of mass at rest; violated if it moves."
  },
  {
   "property": "C87",
   "status": "partial",
   "theorems": [
    "Verif.TwoBody.mean_anomaly_partial",
    "Verif.TwoBody.mean_anomaly_violated"
   ],
   "note": "The time of periapse is not subtracted."
  },
  {
   "property": "C88",
   "status": "proved",
   "theorems": [
    "Verif.Sedov.advection_run"
   ],
   "note": "in exact arithmetic"
  },
  {
   "property": "C89",
   "status": "proved",
   "theorems": [
    "Verif.Sedov.newtonian_budget",
    "Verif.Sedov.relativistic_budget"
   ],
   "note": "in exact arithmetic"
  },
  {
   "property": "C90",
   "status": "partial",
   "theorems": [
    "Verif.Sedov.rest_violated",
    "Verif.Sedov.rest_partial"
   ],
   "note": "Violated on every grid: the momentum of every cell grows. Mass and energy are kept exactly, and the velocity given to a cell is bounded by the square of its width."
  },
  {
   "property": "C91",
   "status": "proved",
   "theorems": [
    "Verif.Cloud.budget_first_order",
    "Verif.Cloud.budget_second_order",
    "Verif.Cloud.step_budget",
    "Verif.Cloud.run_budget"
   ],
   "note": "In exact arithmetic, for every step that succeeds; the sum over a run is stated for rk_order=1."
  },
  {
   "property": "C92",
   "status": "partial",
   "theorems": [
    "Verif.Binary.short_step",
    "Verif.Binary.first_step_partial"
   ],
   "note": "in exact arithmetic, for machines where every shift 1 << n has a value and meshes of at most 30 levels; the length of the steps that succeed is not computed, and is not compared with the step the program chooses"
  },
  {
   "property": "C93",
   "status": "partial",
   "theorems": [
    "Verif.Binary.start_partial",
    "Verif.Binary.cells_cover",
    "Verif.Binary.start_odd_violated",
    "Verif.Binary.start_wide_violated"
   ],
   "note": "in exact arithmetic, for sensible configurations (structure Sensible). With an odd number of cells on an undivided mesh, or without ambient density on a domain that is wide in terms of the disk radius, the initial velocities are not numbers"
  },
  {
   "property": "C94",
   "status": "partial",
   "theorems": [
    "Verif.Binary.timestep_partial",
    "Verif.Binary.timestep_angmom_violated"
   ],
   "note": "in exact arithmetic, in the mode that conserves linear momentum. In the other mode the program ends with bad_variant_access on every divided mesh, unless fixed_dt is set"
  },
  {
   "property": "C95",
   "status": "partial",
   "theorems": [
    "Verif.Binary.disk_balance_partial"
   ],
   "note": "in exact arithmetic, for softening length zero; with another softening length the profile is an approximation"
  },
  {
   "property": "C96",
   "status": "proved",
   "theorems": [
    "Verif.Spherical.euler_uniform",
    "Verif.Spherical.srhd_uniform",
    "Verif.Spherical.flow_any",
    "Verif.Spherical.divergence_unique",
    "Verif.Spherical.radial_source"
   ],
   "note": "in exact arithmetic"
  },
  {
   "property": "C97",
   "status": "partial",
   "theorems": [
    "Verif.Nd.freeze_axes_partial",
    "Verif.Nd.freeze_axes_throws",
    "Verif.Nd.freeze_order_violated",
    "Verif.Nd.freeze_axis",
    "Verif.Nd.reduce_axis",
    "Verif.Nd.replace_region",
    "Verif.Nd.replace_throws",
    "Verif.Nd.select_replace",
    "Verif.Nd.replace_outside_violated",
    "Verif.Nd.all_any"
   ],
   "note": "Axes given in another than increasing order get the values of each other; a region outside of the array is not refused by replace. all and any for arrays with an element on every axis"
  },
  {
   "property": "C98",
   "status": "partial",
   "theorems": [
    "Verif.Binary.run_budget_partial",
    "Verif.Binary.live_mass_partial"
   ],
   "note": "in exact arithmetic, on balanced meshes of at most 30 levels, for machines where every shift 1 << n has a value; the run is one whose steps succeed"
  },
  {
   "property": "C99",
   "status": "partial",
   "theorems": [
    "Verif.Binary.live_motion",
    "Verif.TwoBody.drift_exact",
    "Verif.TwoBody.drift_newton"
   ],
   "note": "in exact arithmetic. The pull of the gas and the accretion are taken into account one by one, so that the momentum given by the pull is too large by the ratio of the masses after and before the update; one update, with the recoil of accreted gas"
  },
  {
   "property": "C100",
   "status": "partial",
   "theorems": [
    "Verif.JetNozzle.jet_power",
    "Verif.JetNozzle.jet_energy_partial",
    "Verif.JetNozzle.jet_energy_sphere",
    "Verif.JetNozzle.jet_energy_violated",
    "Verif.JetNozzle.inflow_symmetric"
   ],
   "note": "violated for structure exponents other than 2, for which the comment of the code expects errors of ten percent: with the exponent 1 the energy is almost doubled. Energy given by the model's own power per steradian, which neglects the rest of the ultra-relativistic corrections; exact on the plane, within a fraction qj^2/6 on the sphere"
  },
  {
   "property": "C101",
   "status": "proved",
   "theorems": [
    "Verif.Envelope.shells_ordered",
    "Verif.Envelope.shells_mass",
    "Verif.Envelope.shell_located",
    "Verif.Envelope.density_at",
    "Verif.Envelope.velocity_at",
    "Verif.Envelope.cloud_mass"
   ],
   "note": "in exact arithmetic; the exponent psi, which cannot be configured, at most 1/2 (it is 1/4)"
  },
  {
   "property": "C102",
   "status": "partial",
   "theorems": [
    "Verif.Cloud.new_solution",
    "Verif.Cloud.toInt_iff",
    "Verif.Cloud.reference_units",
    "Verif.Cloud.printed_units_violated"
   ],
   "note": "violated for the printed units: the printed reference mass (and density, energy, atmosphere mass) is that of the envelope model, which does not depend on the configured cloud mass; the used one is the configured cloud mass. The start itself is proved for all sensible configurations, in exact arithmetic"
  },
  {
   "property": "C103",
   "status": "proved",
   "theorems": [
    "Verif.Cloud.angular_fields"
   ],
   "note": "in exact arithmetic"
  },
  {
   "property": "C104",
   "status": "partial",
   "theorems": [
    "Verif.H5.write_region",
    "Verif.H5.write_region_refused",
    "Verif.H5.write_blocks",
    "Verif.H5.read_region_violated",
    "Verif.H5.read_region_partial",
    "Verif.H5.read_sample",
    "Verif.H5.read_scalar_refused",
    "Verif.H5.read_column",
    "Verif.H5.read_vector_violated"
   ],
   "note": "Writing is proved in full. Reading is violated: Dataset::read(fspace) of an array or vector makes a buffer of the whole extent, so a selection that is not the whole dataset never matches it and the call always throws. The whole dataset reads back."
  },
  {
   "property": "C105",
   "status": "proved",
   "theorems": [
    "Verif.H5.append_sample",
    "Verif.H5.sedov_series"
   ],
   "note": "For runs from the start; the sedov program cannot restart (C38)."
  },
  {
   "property": "C106",
   "status": "partial",
   "theorems": [
    "Verif.AmrSand.start_ok",
    "Verif.AmrSand.maximum_principle_partial",
    "Verif.AmrSand.run_partial"
   ],
   "note": "In exact arithmetic, for machines where every shift 1 << n has a value, at most 30 levels, blocks of at most about 46000 cells on a side."
  },
  {
   "property": "C107",
   "status": "partial",
   "theorems": [
    "Verif.AmrSand.mass_violated",
    "Verif.AmrSand.mass_step_partial",
    "Verif.AmrSand.mass_uniform_partial"
   ],
   "note": "Violated: there is no flux correction, so mass is lost or gained at faces where the flow goes from finer to coarser cells. Proved: the exact loss on every balanced mesh, and conservation on meshes without refinement."
  },
  {
   "property": "C108",
   "status": "proved",
   "theorems": [
    "Verif.Binary.diagnostic_fields"
   ],
   "note": "In exact arithmetic; meshes on which no cell has its middle at the origin, where the code divides by zero."
  },
  {
   "property": "C109",
   "status": "partial",
   "theorems": [
    "Verif.Binary.safe_step_positive",
    "Verif.Binary.fallback_partial"
   ],
   "note": "safe_step_positive: one step of any length in safe mode, in both modes of the program, on any balanced mesh: the density after the step is at least (1 - 16 k - dt (drain1 + drain2 + buffer rate)) times the one before. fallback_partial: the second attempt with the step length of the program (linear momentum mode, rk_order=1) gives positive densities and fails only in the elements of the orbit. Needs cells not much larger than the softened distances of the bodies (3/2). Missing: rk_order=2 (the second substep starts from speeds that the choice of the step does not know), and a bound on the orbit."
  },
  {
   "property": "C110",
   "status": "proved",
   "theorems": [
    "Verif.Binary.face_flux",
    "Verif.Binary.disk_torque",
    "Verif.Binary.alpha_torque",
    "Verif.Binary.cutoff_shape",
    "Verif.Binary.viscosity_nonneg"
   ],
   "note": "In exact arithmetic. The states on the two sides of the face are assumed to extrapolate to the same state, with any derivatives."
  },
  {
   "property": "C111",
   "status": "proved",
   "theorems": [
    "Verif.Partdom.partdom"
   ],
   "note": "In exact arithmetic; printed text is modelled by the coordinates printed. Zero processes: see prime_factors_violated (C28)."
  },
  {
   "property": "C112",
   "status": "partial",
   "theorems": [
    "Verif.Sedov.start_partial",
    "Verif.Sedov.zones_violated"
   ],
   "note": "Violated: every zone spans more than the configured part of a decade (204.8 zones per decade instead of 256 by default), and the explosion begins at 10^(-1/2), not 1/2. Everything else of the start is proved for both gases, in exact arithmetic, for configurations with at least one zone."
  },
  {
   "property": "C113",
   "status": "partial",
   "theorems": [
    "Verif.Sedov.series_newtonian_partial",
    "Verif.Sedov.series_relativistic_partial",
    "Verif.Sedov.series_bracket",
    "Verif.Sedov.series_rest_violated",
    "Verif.Sedov.series_first_violated",
    "Verif.Sedov.series_radius_violated"
   ],
   "note": "Violated: the first row, written before the first step, always has undefined numbers, and shock_radius is one cell inside of the face across which the entropy drops the most. Proved: exactly when a row is a row of numbers, and which numbers. A NaN (division by zero, logarithm of a number that is not positive) counts as undefined."
  },
  {
   "property": "C114",
   "status": "proved",
   "theorems": [
    "Verif.Binary.disk_mass"
   ],
   "note": "In exact arithmetic, for the profile as a function on the plane; the sum over the cells of a mesh is not compared with the integral. The ambient value is the configured part of the maximum of the ring, which differs from that of the total by that part of it."
  },
  {
   "property": "C115",
   "status": "partial",
   "theorems": [
    "Verif.Cloud.shock_columns_partial",
    "Verif.Cloud.cell_fields_partial",
    "Verif.Cloud.power_max_violated"
   ],
   "note": "Violated: postshock_flow_power_max is that of the first local peak inwards of the shock, and can be zero while the gas two cells behind has power; the powers use the mean of the areas of the two radial faces of a cell and radial_energy_flow that of the inner face, which differ by a factor (2/5 in the witness). Proved: every field for every state, which cells are reported, in which units, and that no index is out of bounds. Exact arithmetic."
  },
  {
   "property": "C116",
   "status": "partial",
   "theorems": [
    "Verif.Binary.series_run_partial",
    "Verif.Binary.new_run_partial"
   ],
   "note": "In exact arithmetic; for machines where every shift 1 << n has a value. The solver data of a restarted run must be those of the first. The lost mass is what flows through the edges in each step less what the density floor adds, as stated by StepLoss; its sign is not determined. In the mode that conserves linear momentum nothing is said of the angular momentum."
  },
  {
   "property": "C117",
   "status": "proved",
   "theorems": [
    "Verif.Srhd.conserved_iff",
    "Verif.Srhd.hlle_positive"
   ],
   "note": "In exact arithmetic. For gamma above 2 the wave speeds can exceed that of light (C59). Recovery is not part of the update: how close it comes to the gas is C83."
  },
  {
   "property": "C118",
   "status": "partial",
   "theorems": [
    "Verif.Sedov.newtonian_physical",
    "Verif.Sedov.newtonian_run",
    "Verif.Sedov.relativistic_physical",
    "Verif.Sedov.relativistic_exact",
    "Verif.Sedov.fine_geometric",
    "Verif.Sedov.start_physical",
    "Verif.Sedov.coarse_violated"
   ],
   "note": "In exact arithmetic. Violated on coarse grids (zones that grow by a factor of ten). Missing: that the relativistic program stays with gas over many steps, for which the errors of recovery (C83) would have to be bounded against the distance from the boundary of the physical states; and a bound of the speed of sound in the Newtonian program, which the step length does not take into account."
  },
  {
   "property": "C119",
   "status": "proved",
   "theorems": [
    "Verif.Runs.App.finish_cases",
    "Verif.Runs.App.finish_count",
    "Verif.Runs.App.finish_ends",
    "Verif.Runs.App.main_ends",
    "Verif.Runs.App.main_late",
    "Verif.Runs.App.boilerplate_ends",
    "Verif.Runs.App.sedov_steps",
    "Verif.Runs.App.cloud_steps",
    "Verif.Runs.Binary.finish_iff",
    "Verif.Runs.Binary.finish_count",
    "Verif.Runs.Binary.finish_ends",
    "Verif.Binary.fixed_run"
   ],
   "note": "In exact arithmetic (C120 for double precision). Of the step of the sedov, cloud and binary programs it is proved how far it takes the clock, not that it succeeds. The outputs are counted for intervals that are not shorter than a step. A run that is asked to end no later than it starts takes one step nevertheless."
  },
  {
   "property": "C120",
   "status": "partial",
   "theorems": [
    "Verif.Double.clock_stalls",
    "Verif.Double.run_ends",
    "Verif.Double.run_ends_violated",
    "Verif.Double.binary_cadence",
    "Verif.Double.app_cadence"
   ],
   "note": "Violated for runs of more than 2^55 steps: the clock stands still at 2^54 steps, and the run never ends though every step succeeds. Proved up to 2^52 steps; between 2^52 and 2^55 steps it depends on the rule for ties. Double precision without overflow, infinities and NaN, for all rules of rounding to nearest."
  },
  {
   "property": "C121",
   "status": "proved",
   "theorems": [
    "Verif.Tree.double_mesh"
   ],
   "note": "Double precision without overflow, infinities and NaN. Any function may stand for std::sqrt, which only enters the refinement predicate."
  },
  {
   "property": "C122",
   "status": "proved",
   "theorems": [
    "Verif.Binary.binary_double"
   ],
   "note": "As C121; with at most 30 levels and fewer than 2^31 values in a block (with guard zones) the mesh is never too fine. The largest velocity and the cfl number are given; the disk profile itself is not computed in double precision."
  },
  {
   "property": "C123",
   "status": "partial",
   "theorems": [
    "Verif.Main.main_runs",
    "Verif.Main.main_usage",
    "Verif.Main.command_line_partial",
    "Verif.Main.command_line_violated",
    "Verif.Main.unknown_name_violated"
   ],
   "note": "Violated: arguments without '=' (as in 'N 512') are ignored without a message, and an unknown name of a sub-program ends with exit code 0. The rest is proved. The test sub-program reads its arguments itself; std::stod is a parameter."
  },
  {
   "property": "C124",
   "status": "partial",
   "theorems": [
    "Verif.Plm.cloud_faces_partial",
    "Verif.Plm.binary_faces_partial",
    "Verif.Plm.gradient_near",
    "Verif.Plm.cloud_faces_positive",
    "Verif.Plm.faces_violated"
   ],
   "note": "Violated for plm_theta=2, the largest value documented: densities 2^-60, 1, 8 give a face density of zero. Proved up to 2 - 2^-50 (cloud) and 2 - 2^-48 (binary, spacing up to 2^300, differing values that differ by at least 2^-700). Double precision without overflow, infinities and NaN. Reconstruction next to blocks of another level uses gradients of the guard cells in the same way, but the values of the guard cells are not computed in double precision here."
  },
  {
   "property": "C125",
   "status": "proved",
   "theorems": [
    "Verif.Binary.edge_double"
   ],
   "note": "Double precision without overflow, infinities and NaN; domain radius at least 2^-300. The fluxes of mass and linear momentum are given, not computed in double precision."
  },
  {
   "property": "C126",
   "status": "partial",
   "theorems": [
    "Verif.Frame.euler_axes",
    "Verif.Frame.srhd_axes",
    "Verif.Frame.iso2d_axes",
    "Verif.Frame.angmom_axes",
    "Verif.Frame.euler_units",
    "Verif.Frame.iso2d_units",
    "Verif.Frame.srhd_units_partial",
    "Verif.Frame.srhd_units_violated"
   ],
   "note": "Violated: the tolerance of relativistic recovery is an absolute pressure, so that the result depends on the unit of density; of a gas with pressure 1e-10 the recovered pressure is 31 % too small. All else proved, in exact arithmetic."
  },
  {
   "property": "C127",
   "status": "proved",
   "theorems": [
    "Verif.Cloud.step_mirrored",
    "Verif.Cloud.step_counter",
    "Verif.Cloud.stays_symmetric",
    "Verif.Cloud.stays_unturned",
    "Verif.Cloud.nozzle_symmetric",
    "Verif.Cloud.run_symmetric"
   ],
   "note": "In exact arithmetic, where the two hemispheres agree exactly; in double precision sums are taken in another order. The relativistic program, which is the one that exists."
  },
  {
   "property": "C128",
   "status": "proved",
   "theorems": [
    "Verif.Cloud.stage_ends_iff",
    "Verif.Cloud.envelope_slow",
    "Verif.Cloud.first_step_ends"
   ],
   "note": "In exact arithmetic; dividing by zero counts as failure. That recovery succeeds in every further step is not proved: C83 says of which states it does."
  },
  {
   "property": "C129",
   "status": "partial",
   "theorems": [
    "Verif.Buffers.run_ok",
    "Verif.Buffers.run_values",
    "Verif.Buffers.step_throws",
    "Verif.Buffers.run_owned",
    "Verif.Buffers.no_leak",
    "Verif.Buffers.shared_constant",
    "Verif.Buffers.shared_full",
    "Verif.Buffers.unique_full_violated",
    "Verif.Buffers.unique_full_partial"
   ],
   "note": "Violated: an array that was moved from (also by a reshape that throws, or assigned to itself) keeps its shape without elements. All else proved. One thread; allocation does not fail."
  },
  {
   "property": "C130",
   "status": "partial",
   "theorems": [
    "Verif.File.cloud_file",
    "Verif.File.sedov_file",
    "Verif.File.boilerplate_file",
    "Verif.File.binary_file_partial",
    "Verif.File.binary_state_file_partial",
    "Verif.File.binary_diagnostics_file",
    "Verif.File.other_type_throws",
    "Verif.File.other_rank_throws",
    "Verif.File.write_over_throws",
    "Verif.File.read_other_throws",
    "Verif.File.array_places",
    "Verif.File.tuple_order_violated"
   ],
   "note": "Violated: the trees of the binary program are written as the bytes of std::tuple, whose arrangement differs between compilers; a program of another compiler reads another disk without an error. Proved for writer and reader with the same arrangement (any), and for all other programs. The schedule and the configuration in the file are C43 and the restart theorems."
  },
  {
   "property": "C131",
   "status": "proved",
   "theorems": [
    "Verif.Cloud.stage_local",
    "Verif.Cloud.step_local",
    "Verif.Cloud.run_local",
    "Verif.Cloud.riemann_upwind",
    "Verif.Cloud.outward_iff",
    "Verif.Cloud.supersonic_stage"
   ],
   "note": "In exact arithmetic, for steps that succeed. Runs with the same outcome of comparisons between zeros; the second part is stated for a stage with reconstruct_method=1."
  },
  {
   "property": "C132",
   "status": "partial",
   "theorems": [
    "Verif.Nan.recover_refuses_nan",
    "Verif.Nan.recover_refuses_index",
    "Verif.Nan.recover_result_partial",
    "Verif.Nan.recover_result_violated",
    "Verif.Nan.Ext.recover_agrees",
    "Verif.Nan.euler_keeps_nan",
    "Verif.Nan.validate_partial",
    "Verif.Nan.validate_violated",
    "Verif.Nan.possible_of_physical",
    "Verif.Nan.recover_impossible_violated"
   ],
   "note": "Violated: the check of the binary program and the Euler recovery let NaN pass; the relativistic recovery refuses NaN, but returns NaN for some states of numbers, and does not refuse impossible states."
  },
  {
   "property": "C133",
   "status": "partial",
   "theorems": [
    "Verif.Par.async_map",
    "Verif.Par.evaluate_on_throws_partial",
    "Verif.Par.evaluate_on_too_large",
    "Verif.Par.evaluate_on_throws_violated",
    "Verif.Pool.pool_throws_violated",
    "Verif.Pool.map_on_pool_throws_violated"
   ],
   "note": "Holds for trees mapped with std::async. Violated for evaluate_on, for jobs of a thread pool and trees mapped on one: the exception leaves the function of a thread, which ends the program. The binary program maps on a pool, so that its retry catches only what is thrown outside of such maps (the check of the new densities)."
  },
  {
   "property": "C134",
   "status": "proved",
   "theorems": [
    "Verif.Sedov.step_iff",
    "Verif.Sedov.newtonian_step_iff",
    "Verif.Sedov.step_local",
    "Verif.Sedov.run_local",
    "Verif.Sedov.run_stretched",
    "Verif.Sedov.gas_run_stretched",
    "Verif.Sedov.stays_radial"
   ],
   "note": "In exact arithmetic. Where the code would take the square root of a negative number or divide by zero the step counts as failed; the program itself would go on with NaN."
  },
  {
   "property": "C135",
   "status": "partial",
   "theorems": [
    "Verif.Binary.Scale.step_units",
    "Verif.Binary.Scale.steps_units",
    "Verif.Binary.Scale.timestep_units",
    "Verif.Binary.Scale.frozen_units",
    "Verif.Binary.Scale.frozen_short_units",
    "Verif.Binary.Scale.diskMass_units",
    "Verif.Binary.Scale.diskAngmom_units",
    "Verif.Binary.Scale.cutoff_violated",
    "Verif.Binary.Scale.temperature_violated"
   ],
   "note": "In exact arithmetic. Holds for the options of Fits: not with a cutoff of the viscosity (its width is a third of the unit of length) nor with the axisymmetric temperature (that of a mass one), witnesses given. With a factor of the density alone, the work and the orbital changes recorded are not multiplied, and whether a step fails in the orbital elements may depend on the mass of the gas, so frozen_units takes both steps to succeed; frozen_short_units shows that they do if short."
  },
  {
   "property": "C136",
   "status": "partial",
   "theorems": [
    "Verif.Sedov.step_budget_double",
    "Verif.Sedov.run_budget_double",
    "Verif.Sedov.exact_budget_violated"
   ],
   "note": "Numbers are doubles without a largest one: overflow, infinities and NaN are not modelled, and a volume of zero counts as failure. That the sum is kept exactly, as in exact arithmetic (C65), is refuted by a witness. The gas is any set of functions on doubles; that mass and energy have no source terms is a hypothesis, as in the code (physics_euler.hpp:334-336, physics_srhd.hpp:345-347)."
  },
  {
   "property": "C137",
   "status": "partial",
   "theorems": [
    "Verif.Files.removeRecurse_tree",
    "Verif.Files.removeRecurse_other",
    "Verif.Files.removeRecurse_link_violated",
    "Verif.Files.removeRecurse_dangling_violated",
    "Verif.Files.isDir_iff",
    "Verif.Files.isFile_iff",
    "Verif.Files.isdir_violated",
    "Verif.Files.listdir_spec",
    "Verif.Files.requireDir_makes_partial",
    "Verif.Files.requireDir_violated"
   ],
   "note": "Violated: remove_recurse follows symbolic links, removes the files of the directory they lead to, elsewhere, and then fails; it does not remove a directory with a link to nothing; require_dir does not notice that a file has the name of the directory; sockets (and block devices) pass for directories, sockets for regular files. Proved for directories without links in them, ways without links to the directory to be made, and in full for listdir. No missing permissions, no other program that changes the files; paths without . and .. ."
  },
  {
   "property": "C138",
   "status": "partial",
   "theorems": [
    "Verif.Groups.contains_spec",
    "Verif.Groups.contains_violated",
    "Verif.Groups.requireGroup_spec",
    "Verif.Groups.requireGroup_dataset",
    "Verif.Groups.write_read",
    "Verif.Groups.write_refused",
    "Verif.Groups.requireDataset_again_partial",
    "Verif.Groups.requireDataset_again_violated",
    "Verif.Groups.readonly",
    "Verif.Groups.iterate_partial",
    "Verif.Groups.iterate_violated",
    "Verif.Groups.openFile_spec",
    "Verif.Groups.filename_spec",
    "Verif.Groups.readonly_throws",
    "Verif.Groups.absent_throws",
    "Verif.Groups.same_group",
    "Verif.Groups.iterate_long"
   ],
   "note": "Violated: contains and require_group of a/b are undefined if there is no group a (the error code of H5Lexists counts as true); a dataset with chunks is refused when it is required again; names of exactly 1024 characters are visited without the last one. All else proved, for names of one component. HDF5 by its contract; identifiers are paths, nothing is removed or linked twice."
  },
  {
   "property": "C139",
   "status": "proved",
   "theorems": [
    "Verif.Groups.schedule_file",
    "Verif.Groups.config_file"
   ],
   "note": "HDF5 by its contract (Model/Groups). An empty string comes back as one null character, as the statement says (C43). Doubles are taken to be stored losslessly, counts do not overflow."
  },
  {
   "property": "C140",
   "status": "proved",
   "theorems": [
    "Verif.Thermo.adiabat_exists",
    "Verif.Thermo.euler_sound",
    "Verif.Thermo.srhd_sound",
    "Verif.Thermo.euler_flux",
    "Verif.Thermo.srhd_flux",
    "Verif.Thermo.iso2d_flux",
    "Verif.Thermo.slow_conserved",
    "Verif.Thermo.slow_flux"
   ],
   "note": "In exact arithmetic. adiabat_exists shows that every gas has states of its specific entropy at all densities."
  },
  {
   "property": "C141",
   "status": "partial",
   "theorems": [
    "Verif.SedovFiles.diagnostics_file_partial",
    "Verif.SedovFiles.diagnostics_first_violated",
    "Verif.SedovFiles.row_file",
    "Verif.SedovFiles.time_series_file"
   ],
   "note": "Violated for the first file of diagnostics, of the state at the start: its row has undefined numbers (C113). Proved wherever the row is defined, and in full for the time series, given the rows. Exact arithmetic; HDF5 by its contract."
  },
  {
   "property": "C142",
   "status": "partial",
   "theorems": [
    "Verif.Nd.where_partial",
    "Verif.Nd.where_parts",
    "Verif.Nd.where_empty_violated",
    "Verif.Nd.read_indexes",
    "Verif.Nd.zip_unzip",
    "Verif.Nd.select_replace_from",
    "Verif.Nd.select_from_violated"
   ],
   "note": "Violated: where of an array of shape (0, 3) gives three indexes outside of it; select_from without an end is accepted and gives nearly 2^64 elements. Proved for shapes without an empty axis or of rank one with less than 2^31 elements, and for regions with an end."
  },
  {
   "property": "C143",
   "status": "partial",
   "theorems": [
    "Verif.CloudFiles.diagnostics_file_partial",
    "Verif.CloudFiles.time_series_violated"
   ],
   "note": "Violated for the time series: write_time_series does nothing, so that the columns time and shock_radius stay empty for ever. Proved for the diagnostics, on grids of at least two shells whose primitive variables can be recovered. Exact arithmetic; HDF5 by its contract."
  },
  {
   "property": "C144",
   "status": "partial",
   "theorems": [
    "Verif.Wrap.wrap_spec",
    "Verif.Wrap.wrap_empty_violated",
    "Verif.Wrap.wrap_ends_violated",
    "Verif.Wrap.wrap_double_partial",
    "Verif.Wrap.wrap_double_error",
    "Verif.Wrap.wrap_double_violated",
    "Verif.Wrap.catch_up_double_violated",
    "Verif.Wrap.catch_up_same"
   ],
   "note": "Proved in exact arithmetic for intervals that are not empty, and in double precision for numbers up to 2^52 lengths if the length is a double. Violated: without end for empty intervals, and in double precision for numbers beyond 2^55 lengths (or periods); both ends are returned as they are. In double precision the result is off a whole number of lengths by at most one rounding of the largest number for each length. Doubles without a largest one."
  },
  {
   "property": "C145",
   "status": "partial",
   "theorems": [
    "Verif.Linspace.linspace_start",
    "Verif.Linspace.linspace_mono",
    "Verif.Linspace.linspace_near",
    "Verif.Linspace.linspace_strict",
    "Verif.Linspace.linspace_end_partial",
    "Verif.Linspace.linspace_end_pow",
    "Verif.Linspace.linspace_block_end",
    "Verif.Linspace.linspace_end_violated"
   ],
   "note": "Proved: start, order, distance from the exact place, and that points are different if their distance is more than 2^-49 of the ends. The end is exact if the length, and the length times the number of intervals, are doubles (so for the meshes of blocks, from -1 to 1, and for numbers of intervals that are powers of two); violated otherwise: linspace(0, 0.9, 10) stops before its end and linspace(0, 1.3, 14) goes beyond it. A count of one, for which the code divides zero by zero, is left out. Doubles without a largest one."
  },
  {
   "property": "C146",
   "status": "partial",
   "theorems": [
    "Verif.Runs.Sand.run_files",
    "Verif.Runs.Sand.program_files",
    "Verif.Runs.Sand.not_later",
    "Verif.Runs.Sand.late_violated",
    "Verif.Runs.Sand.behind_violated",
    "Verif.Runs.Sand.last_violated",
    "Verif.Runs.Sand.restart_violated"
   ],
   "note": "Proved: the number of steps, the names of the files and which state is in which file, for the program with its start and its step (exact arithmetic, any interval of output). Violated: each file after the first is written one step late, later and later if the interval is smaller than a time step, the state at the final time is in general in no file, and the option restart is ignored. Not modelled: messages, and the creation of the output directory; how a tree is laid out in a file is C15."
  },
  {
   "property": "C147",
   "status": "proved",
   "theorems": [
    "Verif.Runs.config_refused",
    "Verif.Runs.App.state_refused",
    "Verif.Runs.App.state_taken",
    "Verif.Runs.Binary.state_refused",
    "Verif.Runs.Binary.state_taken"
   ],
   "note": "A checkpoint is what its root group has under each name; whether the parts of a solution are all there is not part of this (reading a missing dataset is refused by C130). That failing calls of HDF5 throw is taken from core_hdf5.hpp:90-104."
  },
  {
   "property": "C148",
   "status": "partial",
   "theorems": [
    "Verif.Mpi.receives_partial",
    "Verif.Mpi.values_partial",
    "Verif.Mpi.receives_any_partial",
    "Verif.Mpi.receives_in_order",
    "Verif.Mpi.values_any_violated"
   ],
   "note": "Proved for a named source, with or without a named tag; for any source if all messages asked for have the size of a value (each returned once, those of one rank taken in order). Otherwise with any_source a value may be returned that nobody has sent (as in C50). That messages of one source do not overtake each other is MPI's guarantee and is taken as given."
  },
  {
   "property": "C149",
   "status": "partial",
   "theorems": [
    "Verif.Mpi.irecv_partial",
    "Verif.Mpi.irecv_some",
    "Verif.Mpi.irecv_short_violated",
    "Verif.Mpi.irecv_empty_violated"
   ],
   "note": "Proved for a named source and messages that are empty or longer than what a text keeps inside of itself. Shorter ones may be put into memory that is gone (as in C80); no message looks like an empty one."
  },
  {
   "property": "C150",
   "status": "proved",
   "theorems": [
    "Verif.Seq.derived_eq",
    "Verif.Seq.derived_ne",
    "Verif.Seq.derived_eq_same",
    "Verif.Seq.derived_space",
    "Verif.Seq.lift_elementwise"
   ],
   "note": "The same operators of derivable_tuple_t call a function to_sequenc that does not exist (core_tuple.hpp:230-231), and so cannot be used; they are not modelled. lift is modelled for functions of two elements."
  }
 ]
}