import Verif.Props.AmrSand
import Verif.Props.AmrSandRun
import Verif.Props.AppRestart
import Verif.Props.Atmosphere
import Verif.Props.Binary
import Verif.Props.BinaryDiagnostics
import Verif.Props.BinaryDisk
import Verif.Props.BinaryDiskMass
import Verif.Props.BinaryDouble
import Verif.Props.BinaryEnds
import Verif.Props.BinaryGas
import Verif.Props.BinaryPositive
import Verif.Props.BinaryRun
import Verif.Props.BinarySafety
import Verif.Props.BinarySeries
import Verif.Props.BinarySetup
import Verif.Props.BinaryShort
import Verif.Props.BinaryStep
import Verif.Props.BinaryTimestep
import Verif.Props.BinaryUnits
import Verif.Props.Buffers
import Verif.Props.Cloud
import Verif.Props.CloudBudget
import Verif.Props.CloudDiagnostics
import Verif.Props.CloudEnds
import Verif.Props.CloudFiles
import Verif.Props.CloudGas
import Verif.Props.CloudLocal
import Verif.Props.CloudMirror
import Verif.Props.CloudSetup
import Verif.Props.Config
import Verif.Props.DoubleRuns
import Verif.Props.EdgeDouble
import Verif.Props.Envelope
import Verif.Props.Euler
import Verif.Props.EulerEigen
import Verif.Props.EulerRiemann
import Verif.Props.FileSystem
import Verif.Props.FluxCorrection
import Verif.Props.Frame
import Verif.Props.FrameRecover
import Verif.Props.Geometry
import Verif.Props.GroupFiles
import Verif.Props.Groups
import Verif.Props.Handles
import Verif.Props.Hilbert
import Verif.Props.Hllc
import Verif.Props.Hyperslab
import Verif.Props.Iso2d
import Verif.Props.JetNozzle
import Verif.Props.LinkedList
import Verif.Props.Linspace
import Verif.Props.ListHeap
import Verif.Props.Main
import Verif.Props.Mpi
import Verif.Props.MpiIrecv
import Verif.Props.MpiValues
import Verif.Props.Nan
import Verif.Props.NdArray
import Verif.Props.NdFreeze
import Verif.Props.NdGather
import Verif.Props.NdOps
import Verif.Props.Parallel
import Verif.Props.ParallelThrows
import Verif.Props.Partdom
import Verif.Props.Path
import Verif.Props.Plm
import Verif.Props.PlmDouble
import Verif.Props.Polynomial
import Verif.Props.Prolong
import Verif.Props.ProlongDouble
import Verif.Props.Quadtree
import Verif.Props.QuadtreeDouble
import Verif.Props.QuadtreeLevels
import Verif.Props.QuadtreeLookup
import Verif.Props.Rational
import Verif.Props.Requests
import Verif.Props.Restart
import Verif.Props.RestartRefused
import Verif.Props.RunEnds
import Verif.Props.Schedule
import Verif.Props.Sedov
import Verif.Props.SedovDouble
import Verif.Props.SedovFiles
import Verif.Props.SedovGas
import Verif.Props.SedovPositive
import Verif.Props.SedovSeries
import Verif.Props.SedovStep
import Verif.Props.Sequence
import Verif.Props.SequenceDerived
import Verif.Props.Shock
import Verif.Props.SolutionFile
import Verif.Props.SphericalSource
import Verif.Props.Srhd
import Verif.Props.SrhdRecover
import Verif.Props.SrhdRiemann
import Verif.Props.Thermo
import Verif.Props.ThreadPool
import Verif.Props.Tree
import Verif.Props.TreeIndex
import Verif.Props.TreeSerialize
import Verif.Props.TwoBody
import Verif.Props.TwoBodyChanges
import Verif.Props.TwoBodyDrift
import Verif.Props.TwoBodyElements
import Verif.Props.TwoBodyFull
import Verif.Props.Units
import Verif.Props.Wrap

/-! # Axioms used by every property theorem (see the build log) -/

#print axioms Verif.ListHeap.list_program_safe
#print axioms Verif.ListHeap.list_program_releases_all
#print axioms Verif.LinkedList.list_empty
#print axioms Verif.LinkedList.list_head_tail
#print axioms Verif.LinkedList.list_prepend
#print axioms Verif.LinkedList.list_append
#print axioms Verif.LinkedList.list_concat
#print axioms Verif.LinkedList.list_reverse
#print axioms Verif.LinkedList.list_size
#print axioms Verif.LinkedList.list_iterate
#print axioms Verif.LinkedList.list_from_range
#print axioms Verif.LinkedList.list_eq
#print axioms Verif.LinkedList.time_series_round_trip
#print axioms Verif.LinkedList.denotes_bijective
#print axioms Verif.ListHeap.list_reverse_heap
#print axioms Verif.Rational.rational_expr_sound
#print axioms Verif.Rational.rational_add_exact
#print axioms Verif.Rational.rational_sub_exact
#print axioms Verif.Rational.rational_mul_exact
#print axioms Verif.Rational.rational_div_exact
#print axioms Verif.Rational.rational_div_zero_throws
#print axioms Verif.Rational.rational_make_exact
#print axioms Verif.Rational.rational_eq_violated
#print axioms Verif.Rational.rational_eq_partial
#print axioms Verif.Rational.rational_eq_sound
#print axioms Verif.Rational.rational_order
#print axioms Verif.Rational.iteration_counter_integral
#print axioms Verif.Rational.iteration_step
#print axioms Verif.Rational.rational_as_integral
#print axioms Verif.Rational.iteration_overflow_at_limit
#print axioms Verif.Tree.index_valid
#print axioms Verif.Tree.index_shift_bound
#print axioms Verif.Tree.index_children
#print axioms Verif.Tree.index_parent_relative
#print axioms Verif.Tree.index_relative_valid
#print axioms Verif.Tree.index_step
#print axioms Verif.Tree.index_period
#print axioms Verif.Tree.index_step_bad_axis
#print axioms Verif.Tree.index_eq
#print axioms Verif.Tree.bits_bijection
#print axioms Verif.Tree.tree_indexes
#print axioms Verif.Tree.tree_sink
#print axioms Verif.Tree.tree_at
#print axioms Verif.Tree.tree_node_at
#print axioms Verif.Tree.tree_leaf_cells
#print axioms Verif.Tree.tree_contains_partial
#print axioms Verif.Tree.tree_contains_hardware_partial
#print axioms Verif.Tree.tree_contains_interior_ub
#print axioms Verif.Tree.tree_map
#print axioms Verif.Tree.tree_map_map
#print axioms Verif.Tree.tree_binary_op
#print axioms Verif.Tree.tree_pair_indexes
#print axioms Verif.Tree.tree_find_partial
#print axioms Verif.Tree.tree_find_interior_throws
#print axioms Verif.Tree.tree_bifurcate_if
#print axioms Verif.Tree.tree_bifurcate_if_size
#print axioms Verif.Tree.tree_bifurcate_all
#print axioms Verif.Tree.tree_insert
#print axioms Verif.Tree.tree_update_partial
#print axioms Verif.Tree.tree_update_invalid_index
#print axioms Verif.Tree.tree_reductions
#print axioms Verif.Tree.tree_min_max
#print axioms Verif.Tree.tree_depth
#print axioms Verif.Tree.hilbert_violated
#print axioms Verif.Tree.hilbert_partial
#print axioms Verif.TreeSerialize.tree_file_round_trip
#print axioms Verif.TreeSerialize.index_name_round_trip
#print axioms Verif.TreeSerialize.index_name_injective
#print axioms Verif.TreeSerialize.index_name_wrong_rank
#print axioms Verif.Tree.ensure_valid_quadtree
#print axioms Verif.Tree.create_vertex_quadtree
#print axioms Verif.Tree.get_cell_block_leaf
#print axioms Verif.Tree.get_cell_block_coarser
#print axioms Verif.Tree.get_cell_block_finer_partial
#print axioms Verif.Tree.get_cell_block_partial
#print axioms Verif.Tree.get_vertex_block_partial
#print axioms Verif.Tree.get_cell_block_finer_violated
#print axioms Verif.Tree.get_cell_block_over_refined_violated
#print axioms Verif.Nd.offset_bijection
#print axioms Verif.Nd.offset_row_major
#print axioms Verif.Nd.iterate_region
#print axioms Verif.Nd.iterate_empty_partial
#print axioms Verif.Nd.iterate_empty_violated
#print axioms Verif.Nd.iterate_empty_witness
#print axioms Verif.Nd.region_index_maps
#print axioms Verif.Nd.evaluate_partial
#print axioms Verif.Nd.evaluate_empty_violated
#print axioms Verif.Nd.evaluate_empty_witness
#print axioms Verif.Nd.bounds_check
#print axioms Verif.Nd.elementwise
#print axioms Verif.Nd.select_partial
#print axioms Verif.Nd.select_outside_throws
#print axioms Verif.Nd.select_reversed_violated
#print axioms Verif.Nd.select_empty_stride_violated
#print axioms Verif.Nd.select_rejects_inside
#print axioms Verif.Nd.shift_down_partial
#print axioms Verif.Nd.shift_up_violated
#print axioms Verif.Nd.shift_up_witness
#print axioms Verif.Nd.concat_select
#print axioms Verif.Nd.concat_throws
#print axioms Verif.Nd.concat_assoc
#print axioms Verif.Nd.divvy_partition
#print axioms Verif.Par.evaluate_on_partial
#print axioms Verif.Par.evaluate_on_race_violated
#print axioms Verif.Par.evaluate_on_race_witness
#print axioms Verif.Par.propose_partial
#print axioms Verif.Par.block_regions
#print axioms Verif.Par.prime_factors_partial
#print axioms Verif.Par.prime_factors_violated
#print axioms Verif.Nd.volume_partial
#print axioms Verif.Nd.volume_violated
#print axioms Verif.Nd.buffer_large_enough_partial
#print axioms Verif.Nd.arange_partial
#print axioms Verif.Nd.arange_count
#print axioms Verif.Nd.arange_violated
#print axioms Verif.Nd.arange_negative_violated
#print axioms Verif.Nd.difference_partial
#print axioms Verif.Nd.difference_sum
#print axioms Verif.Nd.midpoint_partial
#print axioms Verif.Nd.zip_adjacent_partial
#print axioms Verif.Nd.difference_empty_violated
#print axioms Verif.Nd.extend_periodic
#print axioms Verif.Nd.extend_zero_gradient
#print axioms Verif.Nd.extend_zeros
#print axioms Verif.Nd.restrict_prolong_axis
#print axioms Verif.Nd.coarsen_prolong_all
#print axioms Verif.Nd.coarsen_prolong_double
#print axioms Verif.Nd.restrict_sum
#print axioms Verif.Nd.coarsen_sum
#print axioms Verif.Nd.prolong_sum
#print axioms Verif.Nd.restrict_single_violated
#print axioms Verif.Nd.bisect_cells
#print axioms Verif.Nd.bisect_verts
#print axioms Verif.Nd.combine_refine_cells
#print axioms Verif.Nd.combine_refine_verts_partial
#print axioms Verif.Nd.combine_verts_three_violated
#print axioms Verif.Sched.run_scheduled_tasks
#print axioms Verif.Sched.run_scheduled_unknown
#print axioms Verif.Sched.mark_as_due
#print axioms Verif.Sched.mark_as_completed
#print axioms Verif.Sched.create_task
#print axioms Verif.Runs.binary_cadence
#print axioms Verif.Runs.binary_backlog
#print axioms Verif.Runs.app_cadence
#print axioms Verif.Runs.app_backlog
#print axioms Verif.Runs.Binary.binary_restart_partial
#print axioms Verif.Runs.Binary.binary_restart_violated
#print axioms Verif.Runs.App.app_restart_overwrites_violated
#print axioms Verif.Runs.App.app_restart_loses_violated
#print axioms Verif.Runs.App.app_restart_keeps_partial
#print axioms Verif.Runs.App.app_restart_partial
#print axioms Verif.Runs.App.sedov_restart_violated
#print axioms Verif.Runs.Binary.binary_restart_partial
#print axioms Verif.Path.numbered_distinct
#print axioms Verif.Path.numbered_sorted_partial
#print axioms Verif.Path.numbered_sorted_violated
#print axioms Verif.Config.config_keys_types
#print axioms Verif.Config.config_set_throws
#print axioms Verif.Config.config_update_throws
#print axioms Verif.Config.config_get_last
#print axioms Verif.Config.config_precedence
#print axioms Verif.Config.config_precedence_fresh
#print axioms Verif.Config.config_restart_unknown
#print axioms Verif.Config.argv_map
#print axioms Verif.Config.config_file_round_trip_partial
#print axioms Verif.Config.config_file_round_trip_violated
#print axioms Verif.Pool.pool_fifo
#print axioms Verif.Pool.pool_once
#print axioms Verif.Pool.pool_safe
#print axioms Verif.Pool.pool_progress
#print axioms Verif.Pool.shutdown_partial
#print axioms Verif.Pool.shutdown_violated
#print axioms Verif.Pool.map_on_pool
#print axioms Verif.Pool.map_on_pool_total
#print axioms Verif.Handles.link_closed_once
#print axioms Verif.Handles.handles_once_partial
#print axioms Verif.Handles.value_no_leak
#print axioms Verif.Handles.link_leak_violated
#print axioms Verif.Handles.value_closed_twice_violated
#print axioms Verif.Handles.self_assign_violated
#print axioms Verif.Requests.requests_once
#print axioms Verif.Requests.requests_finished
#print axioms Verif.Requests.communicators_once
#print axioms Verif.Mpi.scatter_scalars
#print axioms Verif.Mpi.scatter_throws
#print axioms Verif.Mpi.scatterv_partial
#print axioms Verif.Mpi.scatterv_throws
#print axioms Verif.Mpi.scatterv_violated
#print axioms Verif.Mpi.all_gather_partial
#print axioms Verif.Mpi.all_gather_violated
#print axioms Verif.Mpi.all_gather_empty_violated
#print axioms Verif.Mpi.all_gather_scalars
#print axioms Verif.Mpi.all_to_all
#print axioms Verif.Mpi.all_to_all_throws
#print axioms Verif.Mpi.recv_partial
#print axioms Verif.Mpi.recv_same_length_partial
#print axioms Verif.Mpi.recv_violated
#print axioms Verif.Plm.plm_bounded
#print axioms Verif.Plm.plm_extremum
#print axioms Verif.Plm.plm_sign
#print axioms Verif.Plm.plm_reflect
#print axioms Verif.Plm.plm_scale
#print axioms Verif.Plm.plm_linear
#print axioms Verif.Plm.plm_faces
#print axioms Verif.Polynomial.cubic_roots
#print axioms Verif.Polynomial.quartic_roots
#print axioms Verif.Polynomial.parabola_vertex
#print axioms Verif.Euler.recover_toConserved
#print axioms Verif.Euler.toConserved_recover
#print axioms Verif.Euler.floor_partial
#print axioms Verif.Euler.floor_violated
#print axioms Verif.Euler.eigenvectors_inverse
#print axioms Verif.Euler.jacobian_diagonal
#print axioms Verif.Euler.jacobian_derivative
#print axioms Verif.Euler.hlle_consistent
#print axioms Verif.Euler.hlle_upwind
#print axioms Verif.Euler.hlle_opposite
#print axioms Verif.Euler.hlle_mirrored
#print axioms Verif.Iso2d.hlle_consistent
#print axioms Verif.Iso2d.hlle_upwind
#print axioms Verif.Iso2d.hlle_opposite
#print axioms Verif.Srhd.hlle_consistent
#print axioms Verif.Srhd.hlle_upwind
#print axioms Verif.Srhd.hlle_opposite
#print axioms Verif.Euler.roe_between
#print axioms Verif.Euler.roe_partial
#print axioms Verif.Euler.roe_violated
#print axioms Verif.Iso2d.recover_toConserved
#print axioms Verif.Iso2d.recoverAngmom_toAngmom
#print axioms Verif.Iso2d.toConserved_recover
#print axioms Verif.Iso2d.angmom_agree
#print axioms Verif.Iso2d.recover_negative
#print axioms Verif.Iso2d.angmom_flux
#print axioms Verif.Iso2d.hllc_defined
#print axioms Verif.Iso2d.hllc_consistent
#print axioms Verif.Iso2d.hllc_jump
#print axioms Verif.Iso2d.hllc_order_partial
#print axioms Verif.Iso2d.hllc_star_positive
#print axioms Verif.Iso2d.hllc_opposite_partial
#print axioms Verif.Iso2d.hllc_order_violated
#print axioms Verif.Iso2d.hllc_rest_violated
#print axioms Verif.Srhd.beta_causal
#print axioms Verif.Srhd.causal_partial
#print axioms Verif.Srhd.waves_around
#print axioms Verif.Srhd.causal_violated
#print axioms Verif.Srhd.recover_physical
#print axioms Verif.Srhd.recover_fixed
#print axioms Verif.TwoBody.state_elements
#print axioms Verif.TwoBody.state_returns_partial
#print axioms Verif.TwoBody.state_returns_violated
#print axioms Verif.TwoBody.state_on_orbit
#print axioms Verif.TwoBody.full_state_elements
#print axioms Verif.TwoBody.full_returns_partial
#print axioms Verif.TwoBody.full_on_orbit
#print axioms Verif.TwoBody.elements_recovered
#print axioms Verif.TwoBody.elements_roundtrip
#print axioms Verif.TwoBody.unbound_throws_partial
#print axioms Verif.TwoBody.elements_radial_violated
#print axioms Verif.Geometry.unit_length_partial
#print axioms Verif.Geometry.unit_length_violated
#print axioms Verif.Matrices.product_assoc
#print axioms Verif.Matrices.product_distrib
#print axioms Verif.Matrices.product_identity
#print axioms Verif.Matrices.product_vectors
#print axioms Verif.Matrices.equal_iff
#print axioms Verif.Atmosphere.density_documented
#print axioms Verif.Atmosphere.density_continuous
#print axioms Verif.Atmosphere.mass_within
#print axioms Verif.Atmosphere.mass_beyond
#print axioms Verif.Atmosphere.mass_total
#print axioms Verif.Atmosphere.total_mass_partial
#print axioms Verif.Atmosphere.total_mass_violated
#print axioms Verif.Sedov.spherical_balance
#print axioms Verif.Sedov.periodic_balance
#print axioms Verif.Cloud.advance_balance
#print axioms Verif.Binary.flux_correction_partial
#print axioms Verif.Binary.flux_conservation_partial
#print axioms Verif.Binary.uncorrected_not_conservative
#print axioms Verif.Binary.flux_correction_violated
#print axioms Verif.Binary.step_records_partial
#print axioms Verif.Binary.mass_budget_partial
#print axioms Verif.Binary.angmom_budget_partial
#print axioms Verif.Binary.angmom_budget_linear_partial
#print axioms Verif.Binary.run_budget_partial
#print axioms Verif.Binary.step_density_partial
#print axioms Verif.Binary.run_density_partial
#print axioms Verif.Sedov.shells
#print axioms Verif.Cloud.geometry_exact
#print axioms Verif.Path.join_split
#print axioms Verif.Path.split_join
#print axioms Verif.Path.split_parts
#print axioms Verif.Path.extension_partial
#print axioms Verif.Path.extension_violated
#print axioms Verif.Path.parent_path
#print axioms Verif.Path.require_dir_prefixes
#print axioms Verif.Path.require_dir_last_partial
#print axioms Verif.Path.require_dir_absolute_violated
#print axioms Verif.Shock.shock_index_partial
#print axioms Verif.Shock.shock_index_violated
#print axioms Verif.Shock.maximum_behind
#print axioms Verif.Shock.maximum_behind_outside
#print axioms Verif.Shock.plateau_ahead
#print axioms Verif.Seq.seq_at
#print axioms Verif.Seq.seq_set_update
#print axioms Verif.Seq.seq_elementwise
#print axioms Verif.Seq.seq_sum
#print axioms Verif.Seq.seq_all_any
#print axioms Verif.Seq.seq_min_max
#print axioms Verif.Seq.seq_rearrange
#print axioms Verif.Seq.seq_ends
#print axioms Verif.Seq.seq_transpose
#print axioms Verif.Units.add_units
#print axioms Verif.Units.mul_units
#print axioms Verif.Units.div_units
#print axioms Verif.Units.mul_compiles
#print axioms Verif.Units.pow_units_partial
#print axioms Verif.Units.pow_compiles
#print axioms Verif.Units.pow_units_violated
#print axioms Verif.Units.pow_rejected
#print axioms Verif.Binary.viscous_stress
#print axioms Verif.Binary.viscous_rigid
#print axioms Verif.Binary.gravity_gradient
#print axioms Verif.Binary.gravity_newton
#print axioms Verif.Binary.momentum_budget_partial
#print axioms Verif.Binary.recoil
#print axioms Verif.Binary.step_records_partial
#print axioms Verif.ListHeap.list_program_safe
#print axioms Verif.Tree.tree_leaf_cover
#print axioms Verif.Tree.tree_leaf_disjoint
#print axioms Verif.Par.propose_not_even
#print axioms Verif.Par.propose_even_partial
#print axioms Verif.Tree.create_quadtree_level_violated
#print axioms Verif.Tree.create_quadtree_level_partial
#print axioms Verif.Requests.buffer_partial
#print axioms Verif.Requests.buffer_violated
#print axioms Verif.Euler.hlle_positive
#print axioms Verif.Iso2d.hlle_positive
#print axioms Verif.Iso2d.roe_property
#print axioms Verif.Srhd.recover_accurate
#print axioms Verif.Srhd.recover_rest
#print axioms Verif.TwoBody.elements_on_orbit_partial
#print axioms Verif.TwoBody.elements_on_orbit_violated
#print axioms Verif.TwoBody.diff_same_orbit
#print axioms Verif.TwoBody.diff_small_partial
#print axioms Verif.TwoBody.diff_small_violated
#print axioms Verif.TwoBody.delta_a_partial
#print axioms Verif.TwoBody.delta_a_violated
#print axioms Verif.TwoBody.mean_anomaly_partial
#print axioms Verif.TwoBody.mean_anomaly_violated
#print axioms Verif.Sedov.advection_run
#print axioms Verif.Sedov.newtonian_budget
#print axioms Verif.Sedov.relativistic_budget
#print axioms Verif.Sedov.rest_violated
#print axioms Verif.Sedov.rest_partial
#print axioms Verif.Cloud.budget_first_order
#print axioms Verif.Cloud.budget_second_order
#print axioms Verif.Cloud.step_budget
#print axioms Verif.Cloud.run_budget
#print axioms Verif.Binary.short_step
#print axioms Verif.Binary.first_step_partial
#print axioms Verif.Binary.start_partial
#print axioms Verif.Binary.cells_cover
#print axioms Verif.Binary.start_odd_violated
#print axioms Verif.Binary.start_wide_violated
#print axioms Verif.Binary.timestep_partial
#print axioms Verif.Binary.timestep_angmom_violated
#print axioms Verif.Binary.disk_balance_partial
#print axioms Verif.Spherical.euler_uniform
#print axioms Verif.Spherical.srhd_uniform
#print axioms Verif.Spherical.flow_any
#print axioms Verif.Spherical.divergence_unique
#print axioms Verif.Spherical.radial_source
#print axioms Verif.Nd.freeze_axes_partial
#print axioms Verif.Nd.freeze_axes_throws
#print axioms Verif.Nd.freeze_order_violated
#print axioms Verif.Nd.freeze_axis
#print axioms Verif.Nd.reduce_axis
#print axioms Verif.Nd.replace_region
#print axioms Verif.Nd.replace_throws
#print axioms Verif.Nd.select_replace
#print axioms Verif.Nd.replace_outside_violated
#print axioms Verif.Nd.all_any
#print axioms Verif.Binary.run_budget_partial
#print axioms Verif.Binary.live_mass_partial
#print axioms Verif.Binary.live_motion
#print axioms Verif.TwoBody.drift_exact
#print axioms Verif.TwoBody.drift_newton
#print axioms Verif.JetNozzle.jet_power
#print axioms Verif.JetNozzle.jet_energy_partial
#print axioms Verif.JetNozzle.jet_energy_sphere
#print axioms Verif.JetNozzle.jet_energy_violated
#print axioms Verif.JetNozzle.inflow_symmetric
#print axioms Verif.Envelope.shells_ordered
#print axioms Verif.Envelope.shells_mass
#print axioms Verif.Envelope.shell_located
#print axioms Verif.Envelope.density_at
#print axioms Verif.Envelope.velocity_at
#print axioms Verif.Envelope.cloud_mass
#print axioms Verif.Cloud.new_solution
#print axioms Verif.Cloud.toInt_iff
#print axioms Verif.Cloud.reference_units
#print axioms Verif.Cloud.printed_units_violated
#print axioms Verif.Cloud.angular_fields
#print axioms Verif.H5.write_region
#print axioms Verif.H5.write_region_refused
#print axioms Verif.H5.write_blocks
#print axioms Verif.H5.read_region_violated
#print axioms Verif.H5.read_region_partial
#print axioms Verif.H5.read_sample
#print axioms Verif.H5.read_scalar_refused
#print axioms Verif.H5.read_column
#print axioms Verif.H5.read_vector_violated
#print axioms Verif.H5.append_sample
#print axioms Verif.H5.sedov_series
#print axioms Verif.AmrSand.start_ok
#print axioms Verif.AmrSand.maximum_principle_partial
#print axioms Verif.AmrSand.run_partial
#print axioms Verif.AmrSand.mass_violated
#print axioms Verif.AmrSand.mass_step_partial
#print axioms Verif.AmrSand.mass_uniform_partial
#print axioms Verif.Binary.diagnostic_fields
#print axioms Verif.Binary.safe_step_positive
#print axioms Verif.Binary.fallback_partial
#print axioms Verif.Binary.face_flux
#print axioms Verif.Binary.disk_torque
#print axioms Verif.Binary.alpha_torque
#print axioms Verif.Binary.cutoff_shape
#print axioms Verif.Binary.viscosity_nonneg
#print axioms Verif.Partdom.partdom
#print axioms Verif.Sedov.start_partial
#print axioms Verif.Sedov.zones_violated
#print axioms Verif.Sedov.series_newtonian_partial
#print axioms Verif.Sedov.series_relativistic_partial
#print axioms Verif.Sedov.series_bracket
#print axioms Verif.Sedov.series_rest_violated
#print axioms Verif.Sedov.series_first_violated
#print axioms Verif.Sedov.series_radius_violated
#print axioms Verif.Binary.disk_mass
#print axioms Verif.Cloud.shock_columns_partial
#print axioms Verif.Cloud.cell_fields_partial
#print axioms Verif.Cloud.power_max_violated
#print axioms Verif.Binary.series_run_partial
#print axioms Verif.Binary.new_run_partial
#print axioms Verif.Srhd.conserved_iff
#print axioms Verif.Srhd.hlle_positive
#print axioms Verif.Sedov.newtonian_physical
#print axioms Verif.Sedov.newtonian_run
#print axioms Verif.Sedov.relativistic_physical
#print axioms Verif.Sedov.relativistic_exact
#print axioms Verif.Sedov.fine_geometric
#print axioms Verif.Sedov.start_physical
#print axioms Verif.Sedov.coarse_violated
#print axioms Verif.Runs.App.finish_cases
#print axioms Verif.Runs.App.finish_count
#print axioms Verif.Runs.App.finish_ends
#print axioms Verif.Runs.App.main_ends
#print axioms Verif.Runs.App.main_late
#print axioms Verif.Runs.App.boilerplate_ends
#print axioms Verif.Runs.App.sedov_steps
#print axioms Verif.Runs.App.cloud_steps
#print axioms Verif.Runs.Binary.finish_iff
#print axioms Verif.Runs.Binary.finish_count
#print axioms Verif.Runs.Binary.finish_ends
#print axioms Verif.Binary.fixed_run
#print axioms Verif.Double.clock_stalls
#print axioms Verif.Double.run_ends
#print axioms Verif.Double.run_ends_violated
#print axioms Verif.Double.binary_cadence
#print axioms Verif.Double.app_cadence
#print axioms Verif.Tree.double_mesh
#print axioms Verif.Binary.binary_double
#print axioms Verif.Main.main_runs
#print axioms Verif.Main.main_usage
#print axioms Verif.Main.command_line_partial
#print axioms Verif.Main.command_line_violated
#print axioms Verif.Main.unknown_name_violated
#print axioms Verif.Plm.cloud_faces_partial
#print axioms Verif.Plm.binary_faces_partial
#print axioms Verif.Plm.gradient_near
#print axioms Verif.Plm.cloud_faces_positive
#print axioms Verif.Plm.faces_violated
#print axioms Verif.Binary.edge_double
#print axioms Verif.Frame.euler_axes
#print axioms Verif.Frame.srhd_axes
#print axioms Verif.Frame.iso2d_axes
#print axioms Verif.Frame.angmom_axes
#print axioms Verif.Frame.euler_units
#print axioms Verif.Frame.iso2d_units
#print axioms Verif.Frame.srhd_units_partial
#print axioms Verif.Frame.srhd_units_violated
#print axioms Verif.Cloud.step_mirrored
#print axioms Verif.Cloud.step_counter
#print axioms Verif.Cloud.stays_symmetric
#print axioms Verif.Cloud.stays_unturned
#print axioms Verif.Cloud.nozzle_symmetric
#print axioms Verif.Cloud.run_symmetric
#print axioms Verif.Cloud.stage_ends_iff
#print axioms Verif.Cloud.envelope_slow
#print axioms Verif.Cloud.first_step_ends
#print axioms Verif.Buffers.run_ok
#print axioms Verif.Buffers.run_values
#print axioms Verif.Buffers.step_throws
#print axioms Verif.Buffers.run_owned
#print axioms Verif.Buffers.no_leak
#print axioms Verif.Buffers.shared_constant
#print axioms Verif.Buffers.shared_full
#print axioms Verif.Buffers.unique_full_violated
#print axioms Verif.Buffers.unique_full_partial
#print axioms Verif.File.cloud_file
#print axioms Verif.File.sedov_file
#print axioms Verif.File.boilerplate_file
#print axioms Verif.File.binary_file_partial
#print axioms Verif.File.binary_state_file_partial
#print axioms Verif.File.binary_diagnostics_file
#print axioms Verif.File.other_type_throws
#print axioms Verif.File.other_rank_throws
#print axioms Verif.File.write_over_throws
#print axioms Verif.File.read_other_throws
#print axioms Verif.File.array_places
#print axioms Verif.File.tuple_order_violated
#print axioms Verif.Cloud.stage_local
#print axioms Verif.Cloud.step_local
#print axioms Verif.Cloud.run_local
#print axioms Verif.Cloud.riemann_upwind
#print axioms Verif.Cloud.outward_iff
#print axioms Verif.Cloud.supersonic_stage
#print axioms Verif.Nan.recover_refuses_nan
#print axioms Verif.Nan.recover_refuses_index
#print axioms Verif.Nan.recover_result_partial
#print axioms Verif.Nan.recover_result_violated
#print axioms Verif.Nan.Ext.recover_agrees
#print axioms Verif.Nan.euler_keeps_nan
#print axioms Verif.Nan.validate_partial
#print axioms Verif.Nan.validate_violated
#print axioms Verif.Nan.possible_of_physical
#print axioms Verif.Nan.recover_impossible_violated
#print axioms Verif.Par.async_map
#print axioms Verif.Par.evaluate_on_throws_partial
#print axioms Verif.Par.evaluate_on_too_large
#print axioms Verif.Par.evaluate_on_throws_violated
#print axioms Verif.Pool.pool_throws_violated
#print axioms Verif.Pool.map_on_pool_throws_violated
#print axioms Verif.Sedov.step_iff
#print axioms Verif.Sedov.newtonian_step_iff
#print axioms Verif.Sedov.step_local
#print axioms Verif.Sedov.run_local
#print axioms Verif.Sedov.run_stretched
#print axioms Verif.Sedov.gas_run_stretched
#print axioms Verif.Sedov.stays_radial
#print axioms Verif.Binary.Scale.step_units
#print axioms Verif.Binary.Scale.steps_units
#print axioms Verif.Binary.Scale.timestep_units
#print axioms Verif.Binary.Scale.frozen_units
#print axioms Verif.Binary.Scale.frozen_short_units
#print axioms Verif.Binary.Scale.diskMass_units
#print axioms Verif.Binary.Scale.diskAngmom_units
#print axioms Verif.Binary.Scale.cutoff_violated
#print axioms Verif.Binary.Scale.temperature_violated
#print axioms Verif.Sedov.step_budget_double
#print axioms Verif.Sedov.run_budget_double
#print axioms Verif.Sedov.exact_budget_violated
#print axioms Verif.Files.removeRecurse_tree
#print axioms Verif.Files.removeRecurse_other
#print axioms Verif.Files.removeRecurse_link_violated
#print axioms Verif.Files.removeRecurse_dangling_violated
#print axioms Verif.Files.isDir_iff
#print axioms Verif.Files.isFile_iff
#print axioms Verif.Files.isdir_violated
#print axioms Verif.Files.listdir_spec
#print axioms Verif.Files.requireDir_makes_partial
#print axioms Verif.Files.requireDir_violated
#print axioms Verif.Groups.contains_spec
#print axioms Verif.Groups.contains_violated
#print axioms Verif.Groups.requireGroup_spec
#print axioms Verif.Groups.requireGroup_dataset
#print axioms Verif.Groups.write_read
#print axioms Verif.Groups.write_refused
#print axioms Verif.Groups.requireDataset_again_partial
#print axioms Verif.Groups.requireDataset_again_violated
#print axioms Verif.Groups.readonly
#print axioms Verif.Groups.iterate_partial
#print axioms Verif.Groups.iterate_violated
#print axioms Verif.Groups.openFile_spec
#print axioms Verif.Groups.filename_spec
#print axioms Verif.Groups.readonly_throws
#print axioms Verif.Groups.absent_throws
#print axioms Verif.Groups.same_group
#print axioms Verif.Groups.iterate_long
#print axioms Verif.Groups.schedule_file
#print axioms Verif.Groups.config_file
#print axioms Verif.Thermo.adiabat_exists
#print axioms Verif.Thermo.euler_sound
#print axioms Verif.Thermo.srhd_sound
#print axioms Verif.Thermo.euler_flux
#print axioms Verif.Thermo.srhd_flux
#print axioms Verif.Thermo.iso2d_flux
#print axioms Verif.Thermo.slow_conserved
#print axioms Verif.Thermo.slow_flux
#print axioms Verif.SedovFiles.diagnostics_file_partial
#print axioms Verif.SedovFiles.diagnostics_first_violated
#print axioms Verif.SedovFiles.row_file
#print axioms Verif.SedovFiles.time_series_file
#print axioms Verif.Nd.where_partial
#print axioms Verif.Nd.where_parts
#print axioms Verif.Nd.where_empty_violated
#print axioms Verif.Nd.read_indexes
#print axioms Verif.Nd.zip_unzip
#print axioms Verif.Nd.select_replace_from
#print axioms Verif.Nd.select_from_violated
#print axioms Verif.CloudFiles.diagnostics_file_partial
#print axioms Verif.CloudFiles.time_series_violated
#print axioms Verif.Wrap.wrap_spec
#print axioms Verif.Wrap.wrap_empty_violated
#print axioms Verif.Wrap.wrap_ends_violated
#print axioms Verif.Wrap.wrap_double_partial
#print axioms Verif.Wrap.wrap_double_error
#print axioms Verif.Wrap.wrap_double_violated
#print axioms Verif.Wrap.catch_up_double_violated
#print axioms Verif.Wrap.catch_up_same
#print axioms Verif.Linspace.linspace_start
#print axioms Verif.Linspace.linspace_mono
#print axioms Verif.Linspace.linspace_near
#print axioms Verif.Linspace.linspace_strict
#print axioms Verif.Linspace.linspace_end_partial
#print axioms Verif.Linspace.linspace_end_pow
#print axioms Verif.Linspace.linspace_block_end
#print axioms Verif.Linspace.linspace_end_violated
#print axioms Verif.Runs.Sand.run_files
#print axioms Verif.Runs.Sand.program_files
#print axioms Verif.Runs.Sand.not_later
#print axioms Verif.Runs.Sand.late_violated
#print axioms Verif.Runs.Sand.behind_violated
#print axioms Verif.Runs.Sand.last_violated
#print axioms Verif.Runs.Sand.restart_violated
#print axioms Verif.Runs.config_refused
#print axioms Verif.Runs.App.state_refused
#print axioms Verif.Runs.App.state_taken
#print axioms Verif.Runs.Binary.state_refused
#print axioms Verif.Runs.Binary.state_taken
#print axioms Verif.Mpi.receives_partial
#print axioms Verif.Mpi.values_partial
#print axioms Verif.Mpi.receives_any_partial
#print axioms Verif.Mpi.receives_in_order
#print axioms Verif.Mpi.values_any_violated
#print axioms Verif.Mpi.irecv_partial
#print axioms Verif.Mpi.irecv_some
#print axioms Verif.Mpi.irecv_short_violated
#print axioms Verif.Mpi.irecv_empty_violated
#print axioms Verif.Seq.derived_eq
#print axioms Verif.Seq.derived_ne
#print axioms Verif.Seq.derived_eq_same
#print axioms Verif.Seq.derived_space
#print axioms Verif.Seq.lift_elementwise
