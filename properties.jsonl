{"id": "C01", "title": "Persistent lists never disturb one another and never leak", "statement": "Whatever program of list operations is executed (make an empty list, prepend, take the tail, copy, move, assign, destroy), every list object that is still alive reads exactly the sequence of values that was put into it; no storage that a live list can reach is ever released, none is released twice, and once a list object is destroyed every node that no other list can reach has been released.", "quantifier": "every finite history of list operations over any number of list objects sharing nodes", "why_tests_cant": "sharing patterns between lists are unbounded and the destructor's cut-off (stop at the first shared node) only matters for particular histories; a test samples a few and cannot see use-after-free in general", "anchors": ["src/core_linked_list.hpp: linked_list_t::~linked_list_t, prepend, tail, node_t"]}
{"id": "C02", "title": "List operations agree with finite sequences", "statement": "size, head, tail, prepend, append, concat, reverse, iteration, == and construction from a range agree with the corresponding operations on finite sequences, head and tail throw out_of_range exactly on the empty list; in particular writing a time series as its reversal and reversing after reading gives the original list back.", "quantifier": "all lists of any length and element type", "why_tests_cant": "needs all lengths; concat/append are implemented through double reversal whose correctness is inductive", "anchors": ["src/core_linked_list.hpp: linked_list_t", "src/subprog_binary_io.cpp: mara::write<binary::state_t>, mara::read<binary::state_t>", "src/app_serialize.hpp: linked_list_t serialization"]}
{"id": "C03", "title": "Rational arithmetic is exact and reduced", "statement": "Whenever no intermediate integer leaves the range of int, adding, subtracting, multiplying or dividing two rational numbers returns the exact rational result, in lowest terms with a positive denominator (for non-zero results); constructing with a zero denominator, or dividing by zero, throws instead of returning.", "quantifier": "all pairs of representable rationals, with the exact no-overflow region stated", "why_tests_cant": "the operand space is 2^124; the binary gcd and sign normalisation must be right for all of them and overflow is undefined behaviour that a test does not observe", "anchors": ["src/core_rational.hpp: rational_number_t, reduce, gcd, operator+,-,*,/"]}
{"id": "C04", "title": "Equality of rationals means equality of the numbers", "statement": "Two rational numbers compare equal exactly when they denote the same number, no matter by which arithmetic they were obtained.", "quantifier": "all pairs of rational values reachable by the public API", "why_tests_cant": "depends on canonical forms for every value; the violating values (several zeros) do not show up unless zero is built in two different ways", "anchors": ["src/core_rational.hpp: operator==, reduce"]}
{"id": "C05", "title": "Ordering of rationals is the numeric order", "statement": "<, >, <= and >= decide the numeric order of the two rationals whenever the cross products fit in int; they form a total order.", "quantifier": "all pairs of rationals in the no-overflow region", "why_tests_cant": "order axioms quantify over triples of values", "anchors": ["src/core_rational.hpp: operator<, operator>, operator<=, operator>="]}
{"id": "C06", "title": "The iteration counter stays an integer under Runge-Kutta averaging", "statement": "Starting from an integer iteration, every time step (first order, or second order which averages two advanced states with weights 1/2 and 1-1/2) yields exactly the next integer iteration, so printing the iteration never throws, for any number of steps up to the int range; the time advances by exactly one dt.", "quantifier": "all step counts n within the int range and all rk orders accepted", "why_tests_cant": "needs induction over the run length; the average goes through non-integer and non-normalised intermediate values", "anchors": ["src/subprog_binary.cpp: binary::next_solution", "src/subprog_cloud.cpp: CloudProblem::next_solution", "src/core_rational.hpp: as_integral"]}
{"id": "C07", "title": "Tree index navigation is consistent and periodic", "statement": "For every valid tree index: its children are valid, pairwise distinct, one level deeper and have it as their parent; the position relative to the parent together with the parent determine the index; stepping forward then back along an axis returns to the same index; stepping 2^level times returns to the start; stepping keeps the index valid and the other coordinates unchanged.", "quantifier": "all ranks, levels below the shift width and coordinates", "why_tests_cant": "unbounded levels and ranks; wrap-around at the domain edge", "anchors": ["src/core_tree.hpp: tree_index_t::parent_index, child_indexes, relative_to_parent, orthant, next_on, prev_on, valid"]}
{"id": "C08", "title": "Enumerating a tree's indexes visits every leaf exactly once", "statement": "The indexes reported for a tree are valid, pairwise distinct, one per leaf, in the same order as iteration over the leaf values; the tree contains an index exactly when it is one of these, and looking that index up returns the corresponding leaf value; lookup with any other index of the tree's interior or outside throws.", "quantifier": "all trees of any rank and depth and all indexes", "why_tests_cant": "arbitrary tree shapes and the recursion between relative and absolute indexes", "anchors": ["src/core_tree.hpp: indexes, at, contains, node_at, contains_node, begin/end"]}
{"id": "C09", "title": "Tree maps keep the topology and act leaf by leaf", "statement": "Mapping a function over a tree (with or without a launcher) gives a tree with the same leaf indexes whose leaf at each index is the function applied to the old leaf there; pairing or combining two trees succeeds exactly when they have the same topology and combines leaf by leaf; otherwise it throws and returns nothing.", "quantifier": "all trees, functions, and pairs of trees", "why_tests_cant": "arbitrary nesting; mismatch may occur at any depth", "anchors": ["src/core_tree.hpp: map, apply, pair, binary_op, pair_indexes"]}
{"id": "C10", "title": "Optional lookup in a tree never fails", "statement": "find on an index returns the leaf value when the index names a leaf and nothing otherwise; it never throws (it is documented as \"can't fail\").", "quantifier": "all trees and all indexes, valid or not", "why_tests_cant": "needs every tree and every kind of index; the failing case is the index of a subdivided cell", "anchors": ["src/core_tree.hpp: arithmetic_binary_tree_t::find"]}
{"id": "C11", "title": "Refinement splits exactly the selected leaves", "statement": "Refining with a predicate replaces exactly the leaves that satisfy it by 2^rank leaves produced by the split function, leaves every other leaf and its index untouched, and increases the number of leaves by (2^rank - 1) per split.", "quantifier": "all trees, predicates and split functions", "why_tests_cant": "all tree shapes", "anchors": ["src/core_tree.hpp: bifurcate_if, bifurcate_all"]}
{"id": "C12", "title": "Insert and update change only their target", "statement": "After inserting or updating a value at an index, looking up that index returns the new value and every leaf outside the affected branch keeps its value; an update that the tree cannot honour throws rather than altering another leaf.", "quantifier": "all trees, indexes and values", "why_tests_cant": "all tree shapes and index depths", "anchors": ["src/core_tree.hpp: insert, update"]}
{"id": "C13", "title": "Tree reductions equal the reductions over the leaf sequence", "statement": "sum, min, max, any, all, size, depth and front of a tree equal the same reductions over the sequence of its leaves, independent of the nesting.", "quantifier": "all trees over an associative combination", "why_tests_cant": "all tree shapes", "anchors": ["src/core_tree.hpp: sum, min, max, any, all, size, depth, front"]}
{"id": "C14", "title": "Space-filling-curve index distinguishes cells", "statement": "Distinct indexes at the same level get distinct positions on the space-filling curve.", "quantifier": "all pairs of indexes on a level", "why_tests_cant": "injectivity quantifies over pairs at every level", "anchors": ["src/core_tree.hpp: hilbert_index"]}
{"id": "C15", "title": "A tree written to a file group reads back identically", "statement": "Writing a tree's leaves under their index names and reading the group back - in whatever order the group lists its members - reproduces the tree: same topology and same leaf values.", "quantifier": "all rank-2 trees and all permutations of the stored members", "why_tests_cant": "permutation order is decided by the library that lists the group; tests see only one", "anchors": ["src/app_serialize_tree.hpp: write_tree, read_tree, format_tree_index, read_tree_index", "src/core_tree.hpp: insert"]}
{"id": "C16", "title": "Index names in a file are unambiguous", "statement": "The textual name of a tree index parses back to the same index, hence distinct indexes have distinct names; names with the wrong number of coordinates are rejected.", "quantifier": "all levels and coordinates of any rank", "why_tests_cant": "needs all digit counts and paddings", "anchors": ["src/app_serialize_tree.hpp: format_tree_index, read_tree_index"]}
{"id": "C17", "title": "Quadtree balancing terminates with a 2:1 balanced tree", "statement": "Starting from any quadtree, the balancing loop terminates, the result has no leaf with a neighbour refined more than one level further, nothing is ever coarsened, and the maximum depth does not grow.", "quantifier": "all quadtrees", "why_tests_cant": "termination and the postcondition are over an unbounded loop on arbitrary trees", "anchors": ["src/mesh_tree_operators.hpp: ensure_valid_quadtree, over_refined_neighbors"]}
{"id": "C18", "title": "Mesh creation terminates, is balanced and bounded in depth", "statement": "Creating a vertex quadtree with any refinement predicate, block size and depth terminates, produces a balanced tree of at most the requested depth, and every block covers its index's square of the domain with block_size+1 equally spaced vertices per axis.", "quantifier": "all predicates, block sizes and depths", "why_tests_cant": "predicate is arbitrary user code", "anchors": ["src/mesh_tree_operators.hpp: create_vertex_quadtree"]}
{"id": "C19", "title": "Guard-zone lookups never fail on a balanced mesh", "statement": "On a balanced mesh of uniformly sized even blocks, requesting the cell block at any leaf index or at any of its periodic neighbours returns a block of the same shape and never throws: the leaf itself, a prolonged quadrant of a coarser leaf, or the restriction of four finer leaves.", "quantifier": "all balanced quadtrees, leaves, axes and directions", "why_tests_cant": "requires the balance invariant for every mesh", "anchors": ["src/mesh_tree_operators.hpp: get_cell_block, get_vertex_block"]}
{"id": "C20", "title": "Multi-dimensional offsets are a bijection onto the buffer", "statement": "For every shape (whose volume fits) the memory offset of an in-bounds index is less than the number of elements, distinct indexes have distinct offsets, and every offset is hit.", "quantifier": "all ranks, shapes and indexes", "why_tests_cant": "all ranks and extents", "anchors": ["src/core_ndarray.hpp: make_strides_row_major, memory_strides_t::compute_offset, shape_t::volume, contains"]}
{"id": "C21", "title": "Iterating a region visits each index exactly once in row-major order", "statement": "Iterating over an access pattern (start, final, jumps) with a non-empty extent on every axis yields exactly the indexes of the region, each once, in row-major order, and stops; for an empty region it yields nothing.", "quantifier": "all ranks, bounds and strides", "why_tests_cant": "odometer logic must hold for all extents including empties", "anchors": ["src/core_ndarray.hpp: access_pattern_t::begin, end, advance, shape, map_index, generates, contains"]}
{"id": "C22", "title": "Evaluating a lazy array does not change it", "statement": "Evaluating any lazy array to memory and indexing the result gives the same values as indexing the lazy array, for every index in its shape; out-of-range indexing of a bounds-checked array throws.", "quantifier": "all shapes and providers", "why_tests_cant": "all shapes; combination of iteration order and offsets", "anchors": ["src/core_ndarray.hpp: evaluate_as_shared, evaluate_as_unique, bounds_check, to_shared"]}
{"id": "C23", "title": "An accepted selection stays inside its parent array", "statement": "If selecting a region of an array does not throw then every element of the selection reads an in-bounds element of the parent, namely start + index*jump; selections that would leave the parent throw.", "quantifier": "all ranks, shapes, regions and strides (with 64-bit wrap-around)", "why_tests_cant": "bounds arithmetic wraps; the dangerous cases are extreme values", "anchors": ["src/core_ndarray.hpp: select, access_pattern_t::within, map_index, shape"]}
{"id": "C24", "title": "Shifting an array reads in bounds", "statement": "Shifting an array along an axis by a signed offset that is smaller than the extent yields the overlapping part, reading only elements that exist.", "quantifier": "all extents and offsets", "why_tests_cant": "sign conventions on size_t", "anchors": ["src/core_ndarray.hpp: shift_by"]}
{"id": "C25", "title": "Concatenation and selection are inverse", "statement": "Concatenating two arrays along an axis adds the extents on that axis, requires equal extents elsewhere (throws otherwise), and selecting the first or final part returns the respective operand; the concatenation is associative.", "quantifier": "all ranks, axes, shapes", "why_tests_cant": "all shapes", "anchors": ["src/core_ndarray.hpp: concat", "src/core_ndarray_ops.hpp: select_first, select_final"]}
{"id": "C26", "title": "Dividing a range into groups is a balanced partition", "statement": "Dividing a sequence into n groups keeps every element exactly once in order, and the group sizes differ by at most one.", "quantifier": "all lengths and group counts", "why_tests_cant": "integer division rounding for all pairs", "anchors": ["src/core_ndarray.hpp: divvy"]}
{"id": "C27", "title": "Parallel evaluation writes every element exactly once", "statement": "Evaluating an array on N threads assigns every element to exactly one thread, so the result equals the sequential evaluation under every thread schedule, with no element written by two threads and none left unwritten.", "quantifier": "all shapes, thread counts and interleavings", "why_tests_cant": "data races are schedule dependent and may not show up even when run", "anchors": ["src/app_parallel.hpp: evaluate_on, partition_shape"]}
{"id": "C28", "title": "Block decomposition tiles the domain", "statement": "Proposing a decomposition for n processes gives block counts whose product is n; the array of block regions built from it covers every cell of the domain exactly once, or throws when some block would be empty.", "quantifier": "all process counts, domain shapes and ranks", "why_tests_cant": "factorisations of all integers", "anchors": ["src/app_parallel.hpp: propose_block_decomposition, create_access_pattern_array, prime_factors"]}
{"id": "C29", "title": "The element count of a shape is the product of its extents", "statement": "The reported volume of a shape equals the product of its extents, so that a buffer that passes the size check is large enough for every in-bounds index.", "quantifier": "all shapes representable in size_t", "why_tests_cant": "wrong only for huge shapes which tests never allocate", "anchors": ["src/core_ndarray.hpp: shape_t::volume, shared_provider_t, unique_provider_t"]}
{"id": "C30", "title": "Ranges contain the multiples they promise", "statement": "A range from start to final with a step contains exactly the values start + k*step lying before final.", "quantifier": "all starts, finals, steps", "why_tests_cant": "rounding depends on divisibility", "anchors": ["src/core_ndarray.hpp: arange"]}
{"id": "C31", "title": "Axis operators: differences telescope, guard zones are periodic", "statement": "Differences along an axis sum to last minus first; midpoints and differences have one element fewer; periodic extension by g guard zones reads element (i-g) mod n at position i; zero-gradient extension repeats the edge value; oversize guards throw.", "quantifier": "all lengths, guard counts and values", "why_tests_cant": "all lengths", "anchors": ["src/core_ndarray_ops.hpp: difference_on_axis, midpoint_on_axis, extend_periodic_on_axis, extend_zero_gradient, extend_zeros, select_first, select_final"]}
{"id": "C32", "title": "Restriction undoes prolongation and both conserve totals", "statement": "Restricting a prolonged block returns the block exactly (cells and vertices, each axis and all axes together); restricting an even block preserves its integral (average times 2^rank) and restricting fluxes preserves their sum; prolonging cells preserves the mean.", "quantifier": "all block shapes, ranks 1-3 and values", "why_tests_cant": "all shapes and values", "anchors": ["src/mesh_prolong_restrict.hpp: prolong_cells, restrict_cells, prolong_verts, restrict_verts, restrict_extrinsic, coarsen_cells, refine_cells"]}
{"id": "C33", "title": "Splitting a block into children and combining them is lossless", "statement": "Refining a block into 2^rank children and combining the children gives the prolonged block; bisecting and re-joining is the identity; bisecting cells throws exactly for odd extents and vertices exactly for even extents.", "quantifier": "all block shapes and ranks", "why_tests_cant": "all shapes and child orders", "anchors": ["src/mesh_prolong_restrict.hpp: bisect_cells, bisect_verts, combine_cells, combine_verts, refine_cells, refine_verts"]}
{"id": "C34", "title": "Scheduled tasks: each due task runs once, in the listed order, and nothing else runs", "statement": "Running the scheduled tasks invokes exactly the listed tasks that were due when the call was made, once each (per listing), in the listed order, threading the state through them; marking a task due or completed affects only that task; naming an unknown task throws.", "quantifier": "all schedules, task lists and task functions", "why_tests_cant": "arbitrary task functions may themselves alter the schedule", "anchors": ["src/app_schedule.hpp: run_scheduled_tasks, mark_as_due, mark_as_completed, complete_task_in"]}
{"id": "C35", "title": "Outputs keep their cadence without drift", "statement": "In a run whose time steps never exceed the output interval, after every step the number of times an output became due is exactly the number of whole intervals elapsed (plus the initial one), so outputs never drift, never double up and none is skipped; with longer steps at most one output per step happens and the backlog is caught up one per step.", "quantifier": "all time-step sequences and intervals", "why_tests_cant": "needs induction over arbitrary histories of step sizes", "anchors": ["src/app_schedule.hpp: mark_tasks_in", "src/subprog_binary.cpp: binary::next_schedule, run_tasks", "src/subprog_sedov.cpp: next_schedule"]}
{"id": "C36", "title": "Restarting the binary program from a checkpoint continues the same run", "statement": "For the binary sub-program: whichever checkpoint file of a run is used to restart, the restarted run goes through the same states and produces the same remaining output files as the uninterrupted run, and never overwrites the checkpoint it restarted from.", "quantifier": "every run, every crash point, every checkpoint", "why_tests_cant": "requires every crash point and every history; depends on the order in which due tasks run and on what the file stores", "anchors": ["src/subprog_binary.cpp: run_tasks, create_state, next_state", "src/app_serialize.hpp: write_schedule, read_schedule", "src/subprog_binary_io.cpp"]}
{"id": "C37", "title": "Restarting the other programs does not overwrite or drop outputs", "statement": "For the boilerplate, sedov and cloud sub-programs: restarting from a checkpoint never overwrites the file it was restarted from and does not lose outputs that were due at the time of the checkpoint.", "quantifier": "every run and every checkpoint", "why_tests_cant": "crash and restart histories", "anchors": ["src/subprog_boilerplate.cpp: write_checkpoint, run_tasks", "src/subprog_sedov.cpp: write_checkpoint, run_tasks", "src/subprog_cloud.cpp: write_checkpoint, run_tasks", "src/app_serialize.hpp: write_schedule, read_schedule"]}
{"id": "C38", "title": "A checkpoint can be restarted by the program that wrote it", "statement": "Every checkpoint written by a sub-program contains all the groups its restart path opens.", "quantifier": "every sub-program with restart support", "why_tests_cant": "the restart path is only exercised by an actual restart", "anchors": ["src/subprog_sedov.cpp: create_run_config, write_checkpoint", "src/subprog_cloud.cpp: create_run_config, write_checkpoint", "src/subprog_boilerplate.cpp", "src/subprog_binary_io.cpp"]}
{"id": "C39", "title": "Numbered output files are distinct and sort by number", "statement": "Distinct counts give distinct file names, and choosing the lexicographically last checkpoint selects the one with the highest count.", "quantifier": "all counts", "why_tests_cant": "fails only beyond four digits", "anchors": ["src/app_serialize.hpp: create_numbered_filename", "tools/run_suite.py: latest_checkpoint", "tools/copy_latest.py"]}
{"id": "C40", "title": "Run configuration keeps the declared keys and types", "statement": "However a configuration is updated, it has exactly the keys of its template, each with the declared type; setting an unknown key, or a value of another type, throws and leaves the configuration unchanged; reading back a key returns the last value set, else the default.", "quantifier": "all templates and all sequences of updates", "why_tests_cant": "arbitrary update histories", "anchors": ["src/app_config.hpp: config_template_t, config_t::set, update, get"]}
{"id": "C41", "title": "Command line overrides restart file overrides defaults", "statement": "On a restart, each parameter takes the command-line value if given, else the value stored in the restart file, else the template default.", "quantifier": "all combinations of templates, stored configurations and arguments", "why_tests_cant": "combinatorial", "anchors": ["src/subprog_binary.cpp: create_run_config", "src/app_config.hpp: update, argv_to_string_map"]}
{"id": "C42", "title": "Command-line parsing", "statement": "Each argument is split at its first '=', arguments without '=' are ignored, and giving the same key twice throws; the resulting map has exactly the given key/value pairs.", "quantifier": "all argument lists", "why_tests_cant": "all strings", "anchors": ["src/app_config.hpp: argv_to_string_map"]}
{"id": "C43", "title": "A configuration written to file reads back identically", "statement": "Writing a configuration to a group and reading it back returns the same key/value map, for every value a parameter can take.", "quantifier": "all configurations", "why_tests_cant": "all strings including the empty one", "anchors": ["src/app_serialize.hpp: write_config, read_config, config_parameter serialization", "src/core_hdf5.hpp: Datatype, hdf5_type_info<std::string>"]}
{"id": "C44", "title": "Thread pool executes each job exactly once, first-in first-out", "statement": "Under every interleaving of producers and workers, each enqueued job is started at most once, jobs are started in the order they were enqueued, no job is lost, and at most one job per worker runs at a time.", "quantifier": "all numbers of workers and producers and all interleavings", "why_tests_cant": "schedules", "anchors": ["src/core_thread_pool.hpp: ThreadPool::enqueue, next, run"]}
{"id": "C45", "title": "Thread pool shutdown completes", "statement": "Destroying or restarting a thread pool executes the jobs still pending and returns: every worker exits, under every interleaving.", "quantifier": "all interleavings of shutdown with waiting workers", "why_tests_cant": "the losing interleaving has a window of a few instructions", "anchors": ["src/core_thread_pool.hpp: stop_all, ~ThreadPool, restart, next"]}
{"id": "C46", "title": "Mapping a tree on the thread pool equals mapping it sequentially", "statement": "Launching the leaf computations of a tree map on a pool, in whatever order they run or finish, gives the same tree as the sequential map.", "quantifier": "all trees, pure functions, and completion orders", "why_tests_cant": "schedules", "anchors": ["src/core_tree.hpp: map with launcher", "src/core_thread_pool.hpp: enqueue"]}
{"id": "C47", "title": "File handles are closed exactly once", "statement": "Through any sequence of opening, moving, assigning, closing and destroying file, group and dataset handles, no identifier is closed twice and none is leaked.", "quantifier": "all histories of handle operations", "why_tests_cant": "ownership histories", "anchors": ["src/core_hdf5.hpp: Link, Location, Group, Dataset, File, PropertyList, Dataspace, Datatype"]}
{"id": "C48", "title": "Message requests are completed or cancelled exactly once", "statement": "Through any sequence of starting, moving, waiting on, cancelling and destroying requests, every started request is waited for or cancelled exactly once, and never touched afterwards.", "quantifier": "all histories of request operations", "why_tests_cant": "ownership histories", "anchors": ["src/core_mpi.hpp: Request, Communicator"]}
{"id": "C49", "title": "Variable-size gathers and scatters deliver each rank's data", "statement": "A variable-size scatter from the root gives rank i exactly the i-th container; a variable-size all-gather gives every rank the list whose j-th entry is rank j's container.", "quantifier": "all rank counts and container sizes, including empty ones", "why_tests_cant": "all size vectors", "anchors": ["src/core_mpi.hpp: scatter, all_gather, all_to_all"]}
{"id": "C50", "title": "A receive returns the message it probed", "statement": "Receiving from any source with any tag returns one complete message: its length is the probed length and its content one sender's message.", "quantifier": "all arrival orders of messages", "why_tests_cant": "race between probe and receive", "anchors": ["src/core_mpi.hpp: Communicator::recv"]}
{"id": "C51", "title": "Limited gradients are bounded and monotone", "statement": "The limited slope has magnitude at most theta times each one-sided difference and at most the central one, vanishes at local extrema, has the sign of the differences otherwise, is antisymmetric under reflection, scales with the data, and reproduces linear data exactly for theta >= 1; for theta in [1,2] face values lie between the neighbouring cell values.", "quantifier": "all real triples and theta", "why_tests_cant": "all sign combinations and magnitudes", "anchors": ["src/math_interpolation.hpp: plm_gradient", "src/subprog_cloud.cpp: estimate_gradient_plm"]}
{"id": "C52", "title": "Every returned real root is a root", "statement": "Each value the cubic (quartic) solver reports as a real root satisfies the polynomial; when the cubic reports three real roots they are all the roots; the parabola vertex is the stationary point of the interpolating parabola.", "quantifier": "all real coefficients", "why_tests_cant": "all coefficients and discriminant branches", "anchors": ["src/math_polynomial.hpp: cubic_roots, quartic_roots, parabola_vertex"]}
{"id": "C53", "title": "Euler variables convert losslessly", "statement": "For positive density and pressure, converting primitives to conserved densities and back returns the primitives; the recovered pressure respects the temperature floor.", "quantifier": "all physical states and adiabatic indexes > 1", "why_tests_cant": "continuous state space", "anchors": ["src/physics_euler.hpp: to_conserved_density, recover_primitive"]}
{"id": "C54", "title": "Euler eigensystem diagonalises the flux Jacobian", "statement": "The right and left eigenvector matrices are inverse to each other and diagonalise the flux Jacobian with eigenvalues v-c, v, v, v, v+c, and the Jacobian is the derivative of the flux in conserved variables.", "quantifier": "all physical states", "why_tests_cant": "matrix identities over a continuum", "anchors": ["src/physics_euler.hpp: flux_jacobian, right_eigenvectors, left_eigenvectors, eigenvalues"]}
{"id": "C55", "title": "Riemann solvers are consistent, upwind and conservative", "statement": "With equal states on both sides the HLLE flux is the physical flux; when all waves move one way it is the upwind flux; reflecting the problem reflects the flux, so mass and energy fluxes seen from both sides cancel.", "quantifier": "all pairs of states", "why_tests_cant": "continuous state space and branch structure", "anchors": ["src/physics_euler.hpp: riemann_hlle", "src/physics_iso2d.hpp: riemann_hlle", "src/physics_srhd.hpp: riemann_hlle"]}
{"id": "C56", "title": "Roe average has the Roe property", "statement": "The Roe average state Q of two states satisfies A(Q)(Ur-Ul) = F(Ur)-F(Ul).", "quantifier": "all pairs of physical states", "why_tests_cant": "identity over pairs of states; existing test uses states at rest only", "anchors": ["src/physics_euler.hpp: roe_average"]}
{"id": "C57", "title": "Isothermal variables convert losslessly", "statement": "Converting primitives to linear-momentum or to angular-momentum conserved variables and back returns the primitives wherever the density is positive and the radius non-zero; the angular momentum computed from either agrees; negative density throws.", "quantifier": "all physical states and positions", "why_tests_cant": "continuous state space", "anchors": ["src/physics_iso2d.hpp: to_conserved_per_area, to_conserved_angmom_per_area, recover_primitive, to_conserved_angmom_flux, angular_momentum"]}
{"id": "C58", "title": "HLLC interface flux is well defined and consistent", "statement": "For equal states the HLLC flux is the physical flux; the contact lies between the outer waves; the star states satisfy the jump conditions; the solver's failure branch is unreachable.", "quantifier": "all pairs of physical states", "why_tests_cant": "continuous state space and branch structure", "anchors": ["src/physics_iso2d.hpp: compute_hllc_variables, riemann_hllc"]}
{"id": "C59", "title": "Relativistic states stay causal and recovery returns only physical states", "statement": "Wave speeds are always strictly below the speed of light; recovering primitives either throws or returns positive density and pressure; the true pressure is a fixed point of the recovery iteration.", "quantifier": "all states and inputs", "why_tests_cant": "continuous state space; unbounded inputs", "anchors": ["src/physics_srhd.hpp: recover_primitive, wavespeeds, to_conserved_density"]}
{"id": "C60", "title": "The two-body solution has the requested orbital elements", "statement": "At every time, the computed binary has its centre of mass at rest at the origin, the requested total mass and mass ratio, and total energy and angular momentum equal to those of the orbital elements.", "quantifier": "all elements with 0 <= e < 1 and all times", "why_tests_cant": "continuous parameters and times", "anchors": ["src/model_two_body.hpp: compute_two_body_state, orbital_energy, orbital_angular_momentum, total_energy"]}
{"id": "C61", "title": "Orbital elements are recovered from the state", "statement": "Computing orbital elements from the two bodies of a bound orbit recovers mass, mass ratio, separation, eccentricity and centre-of-mass motion; unbound states throw.", "quantifier": "all bound two-body states", "why_tests_cant": "continuous parameters", "anchors": ["src/model_two_body.hpp: compute_orbital_elements, diff, mean_anomaly"]}
{"id": "C62", "title": "Unit vectors have unit length", "statement": "Every unit vector constructed through the public interface has length one.", "quantifier": "all non-zero component triples", "why_tests_cant": "constructor must normalise for all inputs", "anchors": ["src/core_geometric.hpp: unit_vector_t"]}
{"id": "C63", "title": "Matrix algebra", "statement": "The matrix product is associative, distributes over addition and has the identity as unit, and row/column vectors multiply as expected.", "quantifier": "all sizes and entries", "why_tests_cant": "all dimensions", "anchors": ["src/core_matrix.hpp: matrix_product, identity, zeros"]}
{"id": "C64", "title": "Atmosphere model has the requested mass and continuous density", "statement": "Setting the total mass of an atmosphere model gives a model with that total mass, keeping the radial profile shape; the density is continuous at the cutoff; the mass function matches the density profile.", "quantifier": "all radii, indexes and masses", "why_tests_cant": "continuous parameters and repeated re-scaling", "anchors": ["src/model_atmosphere.hpp: with_total_mass, total_mass, density_at"]}
{"id": "C65", "title": "Grid updates conserve totals", "statement": "The finite-volume updates change the total of each conserved quantity only through the domain boundary and the source terms: exactly zero for the periodic update, boundary fluxes for the spherical ones.", "quantifier": "all grids, states and time steps", "why_tests_cant": "telescoping over all grid sizes and values", "anchors": ["src/subprog_boilerplate.cpp: next_solution", "src/subprog_sedov.cpp: next_solution", "src/core_ndarray_ops.hpp: difference_on_axis"]}
{"id": "C66", "title": "Flux correction makes the adaptive mesh conservative", "statement": "After flux correction, the flux a coarse block uses at a refinement boundary is the sum of the fluxes its finer neighbours use there, so that on a periodic balanced mesh the update conserves the total of every quantity; without correction it does not.", "quantifier": "all balanced quadtrees and all flux values", "why_tests_cant": "all meshes", "anchors": ["src/subprog_binary_scheme.cpp: correct_fluxes_xl, correct_fluxes_xr, correct_fluxes_yl, correct_fluxes_yr, block_update_u", "src/mesh_prolong_restrict.hpp: restrict_extrinsic"]}
{"id": "C67", "title": "Mass and angular momentum budget of the binary run", "statement": "At every step, the change in disk mass equals minus what the accretion and ejection counters record, plus floor mass and net boundary flux; likewise for angular momentum with torque.", "quantifier": "all states and steps", "why_tests_cant": "histories of steps", "anchors": ["src/subprog_binary_scheme.cpp: source_terms_u, source_terms_q, advance_u, advance_q"]}
{"id": "C68", "title": "No step of the binary program returns a negative density", "statement": "A time step either returns a solution with non-negative density in every cell or throws; when the first attempt fails it is retried once with a smaller step from the same state.", "quantifier": "all states, orders and update results", "why_tests_cant": "all states", "anchors": ["src/subprog_binary.cpp: next_solution", "src/subprog_binary_scheme.cpp: validate_u, validate_q, operator+, operator*"]}
{"id": "C69", "title": "Spherical grid volumes and areas are exact", "statement": "The cell volumes of a radial or polar grid add up to the volume of the covered shell, and the face areas at a radius add up to the sphere's area.", "quantifier": "all grids", "why_tests_cant": "telescoping over all grid sizes", "anchors": ["src/subprog_sedov.cpp: cell_volumes, face_areas", "src/subprog_cloud.cpp: cell_volumes, radial_face_areas"]}
{"id": "C70", "title": "Path splitting and joining are inverse", "statement": "Joining the components a path was split into gives the path back, splitting joined non-empty slash-free components gives them back; the extension is taken from the final component; creating a directory tree creates the directory that was named.", "quantifier": "all strings", "why_tests_cant": "all strings", "anchors": ["src/app_filesystem.hpp: split, join, extension, parent, require_dir"]}
{"id": "C71", "title": "Shock locator indexes are in range and optimal", "statement": "The shock index is the position of the steepest drop, the maximum behind it is a local maximum reached by walking uphill, and all searches terminate within the array.", "quantifier": "all profiles", "why_tests_cant": "all arrays, ties and edges", "anchors": ["src/post_shock_locator.hpp: find_shock_index, find_index_of_maximum_behind, find_index_of_pressure_plateau_ahead"]}
{"id": "C72", "title": "Sequence arithmetic is elementwise", "statement": "Fixed-length sequence operations (map, set, update, concat, reverse, arithmetic, sum) act element by element; setting an out-of-range position leaves the sequence unchanged and reading one throws.", "quantifier": "all lengths and values", "why_tests_cant": "all lengths", "anchors": ["src/core_sequence.hpp: arithmetic_sequence_t"]}
{"id": "C73", "title": "Units are tracked correctly", "statement": "Multiplying, dividing and taking rational powers of dimensional quantities gives the dimensions of the corresponding physical quantity.", "quantifier": "all exponents", "why_tests_cant": "all integer exponents incl. negative ones", "anchors": ["src/core_dimensional.hpp: dimensional_value_t, pow"]}
{"id": "C74", "title": "Viscous fluxes come from a symmetric trace-free stress", "statement": "The momentum flux through x faces and y faces derive from one symmetric, trace-free stress tensor, and vanish for rigid rotation and uniform motion.", "quantifier": "all velocity gradients and viscosities", "why_tests_cant": "continuous inputs", "anchors": ["src/subprog_binary_scheme.cpp: viscous_flux"]}
{"id": "C75", "title": "Gravity is the gradient of the potential and obeys Newton's third law", "statement": "The acceleration field is minus the gradient of the potential, and the momentum given to the gas by each body equals minus the momentum recorded for the body.", "quantifier": "all positions, masses, softening lengths", "why_tests_cant": "continuous inputs", "anchors": ["src/subprog_binary_scheme.cpp: grav_vdot_field, grav_phi_field, source_terms_u"]}
{"id": "C76", "title": "Destroying a list takes constant stack", "statement": "Whatever lists a program builds and however long they are, destroying or overwriting a list never needs more than two nested destructor calls, so it cannot overflow the stack.", "quantifier": "every program over list variables, lists of every length", "why_tests_cant": "the test suite can only try some lengths (one of its own checks is commented out because comparison does overflow)", "anchors": ["src/core_linked_list.hpp: linked_list_t::~linked_list_t"]}
{"id": "C77", "title": "The leaves of a tree tile the domain", "statement": "Every cell at least as deep as the tree lies inside exactly one leaf cell of the tree, and distinct leaf cells do not overlap.", "quantifier": "all trees of any rank, all cells", "why_tests_cant": "ranges over all trees and all cells", "anchors": ["src/core_tree.hpp: arithmetic_binary_tree_t, indexes"]}
{"id": "C78", "title": "Proposed block decompositions are as even as possible", "statement": "The block counts proposed for n processes on the axes of the domain are as similar as possible, as documented: no other factorisation of n into that many factors has a smaller spread.", "quantifier": "all process counts and ranks", "why_tests_cant": "The documented optimality quantifies over all factorisations of all numbers; spot checks of powers of two pass.", "anchors": ["src/app_parallel.hpp: propose_block_decomposition"]}
{"id": "C79", "title": "The refinement predicate is asked about the block it decides on", "statement": "When a vertex quadtree is created, a block of level l is divided only if the predicate holds for the level l and the radius of the block: a predicate that is false at level l for all radii never lets a block of level l be divided by the predicate.", "quantifier": "all predicates, block sizes and depths", "why_tests_cant": "the predicate is arbitrary user code; for predicates monotone in the level the difference does not show", "anchors": ["src/mesh_tree_operators.hpp: create_vertex_quadtree"]}
{"id": "C80", "title": "Message buffers stay in place", "statement": "As long as a non-blocking send or receive is pending, the memory that MPI was told of exists and is the buffer of the request object, wherever that object has been moved to.", "quantifier": "all histories of request operations and message lengths", "why_tests_cant": "lifetime of memory shared with a library", "anchors": ["src/core_mpi.hpp: Communicator::isend, irecv, Request"]}
{"id": "C81", "title": "First-order updates keep gas physical", "statement": "A cell that is updated with HLLE fluxes from its neighbours, with a time step at most half the cell width over the largest wave speed, keeps positive density, and for the adiabatic gas positive pressure.", "quantifier": "all physical states of a cell and its two neighbours, all time steps within the bound", "why_tests_cant": "continuous state space; extreme density and speed ratios", "anchors": ["src/physics_euler.hpp: riemann_hlle", "src/physics_iso2d.hpp: riemann_hlle"]}
{"id": "C82", "title": "The isothermal Roe average has the Roe property", "statement": "For two states with the same sound speed, the flux difference equals the flux Jacobian at the averaged state times the difference of the conserved states.", "quantifier": "all pairs of states with positive density", "why_tests_cant": "an identity over a continuous state space", "anchors": ["src/physics_iso2d.hpp: roe_average"]}
{"id": "C83", "title": "Relativistic recovery converges to the true state", "statement": "Recovering the primitives of a state computed from primitives never divides by zero and either throws or returns a pressure within the tolerance divided by 2 - g below the true one, a density within six times that below the true one, and a velocity of exactly the true direction whose size exceeds the true one by at most a fraction of seven times that over the density; a temperature floor below the temperature of the gas changes none of this.  It succeeds for pressures below the tolerance times (g-1)^-49, and exactly for gas at rest.", "quantifier": "all physical states with adiabatic index between one and two and Lorentz factor below the cut-off", "why_tests_cant": "convergence of an iteration over a continuous state space", "anchors": ["src/physics_srhd.hpp: recover_primitive"]}
{"id": "C84", "title": "Computed orbital elements describe the orbit of the bodies", "statement": "The elements computed from two bound bodies describe a motion under Newton's law of gravity on which the bodies have, at that time, exactly the positions and velocities they were given with.", "quantifier": "all bound two-body states", "why_tests_cant": "continuous parameters, and a claim about the solution of a differential equation", "anchors": ["src/model_two_body.hpp: compute_orbital_elements"]}
{"id": "C85", "title": "The difference of orbital elements is the smallest one", "statement": "Adding the difference of two sets of elements to the first gives elements of the same orbit as the second, and the difference in angle and in time of periapse is at most half a turn and half a period.", "quantifier": "all pairs of elements", "why_tests_cant": "continuous parameters; the shortening by whole turns matters only after many orbits", "anchors": ["src/model_two_body.hpp: diff, operator+"]}
{"id": "C86", "title": "Relative change of the semi-major axis", "statement": "delta_a_over_a is the first-order change of the logarithm of the semi-major axis when masses and velocities of the bodies change.", "quantifier": "all bound states and all changes", "why_tests_cant": "a derivative over a continuous state space", "anchors": ["src/model_two_body.hpp: delta_a_over_a"]}
{"id": "C87", "title": "Mean anomaly", "statement": "The mean anomaly is zero at periapse and grows by one turn in each period.", "quantifier": "all elements and times", "why_tests_cant": "continuous parameters", "anchors": ["src/model_two_body.hpp: mean_anomaly"]}
{"id": "C88", "title": "The advection program obeys a maximum principle", "statement": "From any initial condition and after any number of steps on its own grid, the advection program keeps the total, and no value leaves the range of the initial values.", "quantifier": "all initial conditions, grid sizes and numbers of steps", "why_tests_cant": "unbounded histories and all initial conditions", "anchors": ["src/subprog_boilerplate.cpp: next_solution, new_solution"]}
{"id": "C89", "title": "Mass and energy leave the Sedov grid only at the outer radius", "statement": "A step of the Sedov program changes the total mass and energy only by what flows out of the last cell with the density, velocity and pressure of that cell; the inner boundary reflects. Holds for Newtonian and for relativistic gas.", "quantifier": "all states with positive mass and pressure, all radial grids", "why_tests_cant": "all states and grids; telescoping and exact cancellation at the wall", "anchors": ["src/subprog_sedov.cpp: next_solution, extend_reflecting_inner, extend_zero_gradient_outer", "src/physics_euler.hpp: riemann_hlle", "src/physics_srhd.hpp: riemann_hlle"]}
{"id": "C90", "title": "Gas at rest stays at rest on a spherical grid", "statement": "Uniform gas at rest is in equilibrium, and a step of the Sedov program leaves it as it is.", "quantifier": "all densities, pressures and grids", "why_tests_cant": "all grids", "anchors": ["src/subprog_sedov.cpp: next_solution", "src/physics_euler.hpp: spherical_geometry_source_terms_radial"]}
{"id": "C91", "title": "Mass and energy leave the cloud grid only at its innermost and outermost radius", "statement": "A step of the cloud program, of first or second order and with or without slopes, changes total rest mass and energy only by the flux at the inner radius and the flux of the outermost cells at the outer radius; nothing passes the poles.", "quantifier": "all states for which the step finds primitive quantities, all grids", "why_tests_cant": "all states and grids; telescoping in two directions", "anchors": ["src/subprog_cloud.cpp: advance, next_solution", "src/physics_srhd.hpp: riemann_hlle, spherical_geometry_source_terms"]}
{"id": "C92", "title": "Every short enough step of the binary program succeeds", "statement": "From every state of positive density with a bound binary there is a positive time, such that every step that is not longer returns a state instead of an exception, also in safe mode; hence the retry with a shorter step is a remedy.", "quantifier": "all meshes, states, parameters and step lengths below the bound", "why_tests_cant": "for all states there is a bound; no finite number of steps shows it", "anchors": ["src/subprog_binary_scheme.cpp: advance_u, advance_q, validate_u, validate_q", "src/subprog_binary.cpp: next_solution"]}
{"id": "C93", "title": "The binary program starts from consistent data", "statement": "For every configuration with sensible values and every rule of refinement, the program makes a balanced mesh whose cells cover the domain, cell centers, areas and buffer rates that belong to this mesh, and an initial state with positive density that is the disk profile in the middles of the cells, together with a bound binary.", "quantifier": "all configurations and refinement rules", "why_tests_cant": "configurations are real valued and the rule of refinement is arbitrary", "anchors": ["src/subprog_binary.cpp: create_vertices, create_disk_profile, create_solution", "src/subprog_binary_solver_data.cpp: create_solver_data"]}
{"id": "C94", "title": "The time step obeys the Courant condition", "statement": "The largest time step is positive, in this time no signal crosses a cell of any block on any level along an axis, and it is the largest time with this property; it is computed in both modes of the program.", "quantifier": "all meshes and states", "why_tests_cant": "all states on all meshes", "anchors": ["src/subprog_binary_scheme.cpp: maximum_timestep"]}
{"id": "C95", "title": "The initial disk is in centrifugal balance", "statement": "At every point the rotation of the initial disk balances gravity and the gradient of the pressure, the radial flow carries the configured rate of mass, and the sense of rotation is the configured one.", "quantifier": "all disk parameters and all points", "why_tests_cant": "a differential equation for all points and parameters", "anchors": ["src/subprog_binary.cpp: create_disk_profile"]}
{"id": "C96", "title": "Geometrical source terms balance the divergence of a uniform flow", "statement": "In spherical coordinates, for Newtonian and for relativistic gas, the source terms are exactly the divergence of the fluxes of a uniform flow, so that a uniform flow in any direction is a steady solution; the terms for radial flow are those of the general case for gas without velocity along the angles.", "quantifier": "all states, radii, polar angles off the axis, azimuths and adiabatic indices", "why_tests_cant": "identities between derivatives at all points for all states", "anchors": ["src/physics_euler.hpp: spherical_geometry_source_terms", "src/physics_euler.hpp: spherical_geometry_source_terms_radial", "src/physics_srhd.hpp: spherical_geometry_source_terms", "src/physics_srhd.hpp: spherical_geometry_source_terms_radial"]}
{"id": "C97", "title": "Freezing, reducing and replacing act on the parts of an array that were named", "statement": "Freezing axes at an index gives the array of the other axes, with the values at the frozen index; reducing an axis applies the operator to the line through every index; replacing a region changes the elements of the region to those of the replacement and no others, and reading the region afterwards gives the replacement; `all` and `any` quantify over all elements. Axes or regions that do not exist are refused.", "quantifier": "all ranks, shapes, axes, regions and arrays", "why_tests_cant": "all ranks, shapes and sets of axes", "anchors": ["src/core_ndarray.hpp: axis_freezer_t, axis_reducer_t, replacer_t, insert_elements, remove_elements, all, any"]}
{"id": "C98", "title": "Gas and a live binary share a fixed amount of mass", "statement": "Over any run of the binary program with a live binary, the mass of the gas and the bodies together changes only by what the buffer takes, what leaves through the edges of the domain, and what the density floor adds; the bodies never lose mass. Before the binary is live its mass does not change, and the orbit that is perturbed by accretion has gained exactly the recorded mass.", "quantifier": "all runs, with steps of any lengths, retried or not, with one or two stages", "why_tests_cant": "histories of steps over a whole mesh; continuous states", "anchors": ["src/subprog_binary_scheme.cpp: advance_u, advance_q, operator+ and operator* of solution_t", "src/subprog_binary.cpp: next_solution", "src/model_two_body.hpp: compute_orbital_elements, diff"]}
{"id": "C99", "title": "A live binary moves under the momentum it is given", "statement": "In an update of a live binary its momentum changes by the momentum of the accreted gas and the pull of the gas, and its centre of mass moves with its velocity (and toward the body that accretes); elements drifted in this way describe a motion under Newton's law of gravity with a uniformly moving centre of mass.", "quantifier": "all updates, all elliptic orbits, all times", "why_tests_cant": "continuous states, and a claim about the solution of a differential equation", "anchors": ["src/model_two_body.hpp: diff_cm, diff, compute_orbital_elements", "src/subprog_binary_scheme.cpp: advance_u, advance_q"]}
{"id": "C100", "title": "The jet carries the energy it is given", "statement": "The jet and the counter-jet together, over all angles and all times, carry the configured total energy; the power per steradian at an angle and time is that of a cold stream of the density at the base with the gamma-beta at that angle and time; the inflow is the same on both sides of the equator.", "quantifier": "all jet models with positive parameters, all angles, all times", "why_tests_cant": "an integral over all angles and all times of a transcendental function; tests see it at single points", "anchors": ["src/model_jet_nozzle.hpp: luminosity_per_steradian, gamma_beta, density_at_base", "src/subprog_cloud.cpp: extend_inflow_nozzle_inner"]}
{"id": "C101", "title": "The expanding envelope has the mass and the motion of its shells", "statement": "Shells of the cloud-and-envelope model never cross and never exceed the speed of light; the gas between two shells has as its mass the difference of their mass coordinates; the search for the shell at a radius ends and finds a shell at that radius (within its tolerance); density and velocity at a radius have everywhere a value, the flow is homologous in the envelope, and the mass of the cloud is the integral of its density.", "quantifier": "all models with positive parameters (exponent at most 1/2), all times after the start, all radii", "why_tests_cant": "an integral over a profile given only implicitly, and termination of a secant iteration for all radii", "anchors": ["src/model_atmosphere.hpp: solve_secant, cloud_and_envelop_model"]}
{"id": "C102", "title": "The cloud program starts with the configured envelope, in the units it reports", "statement": "A new run starts on a grid from the inner radius over the configured number of decades and from pole to pole, with cells of positive volume; each cell holds gas of the density and velocity of the envelope model at its centre, divided by the units of the run; the units printed at the start are those the program computes with.", "quantifier": "all configurations with positive lengths, times and masses, and a grid that fits", "why_tests_cant": "real parameters; the printed units can agree with the used ones by coincidence for the tested configuration", "anchors": ["src/subprog_cloud.cpp: new_solution, make_reference_units, make_atmosphere_model, make_cloud_envelop_model, print_run_dimensions"]}
{"id": "C103", "title": "Angular diagnostics of the cloud program add up", "statement": "The solid angles of the polar bins are exact and add up to the whole sphere; the energies reported in the bins add up to the total energy on the grid in physical units.", "quantifier": "all states and grids", "why_tests_cant": "grids and states of any size with real values", "anchors": ["src/subprog_cloud.cpp: make_diagnostic_fields"]}
{"id": "C104", "title": "Parts of a dataset", "statement": "Writing an array to a region of an HDF5 dataset stores the value at each index of the array at the corresponding index of the region and changes nothing else; an array of another size, or a region that leaves the dataset, is refused with an exception. Writing the blocks of a decomposition one by one, in any order, stores the whole array. Reading a region gives the array that was written there.", "quantifier": "every rank, every dataset extent, every non-empty region with any stride, every decomposition, every order", "why_tests_cant": "Regions, strides, shapes and orders of writing are unbounded, and no test reads a region back.", "anchors": ["src/core_hdf5.hpp:110-127", "src/core_hdf5.hpp:397-406", "src/core_hdf5.hpp:694-721", "src/app_serialize.hpp:171-181", "src/app_serialize.hpp:194-220", "src/subprog_partdom.cpp:124-135"]}
{"id": "C105", "title": "The file of the time series", "statement": "At every moment of a run of the sedov program, each column of the time series file holds exactly one entry for every time the task was performed, in order; each entry is that of the solution at that moment. Writing an entry with a number smaller than the length of the column, as after a restart, drops the later entries and keeps the earlier ones.", "quantifier": "all runs, all schedules and intervals, any number of rounds, any column", "why_tests_cant": "The property relates the whole history of the schedule to the contents of a file after any number of rounds.", "anchors": ["src/subprog_sedov.cpp:517-530", "src/subprog_sedov.cpp:560-581", "src/subprog_sedov.cpp:599-616", "src/core_hdf5.hpp:739-753"]}
{"id": "C106", "title": "The sandbox for adaptive meshes makes no new extrema, and its run ends", "statement": "subprog_amrsand.cpp, for every block size and depth: create_solution_state gives a state on a balanced tree of blocks whose vertices cover the square from -1 to 1; each call of next_solution succeeds, keeps the mesh, increases the time by the step and the iteration by one, and every value in the new cells lies between the smallest and the largest of the old ones. The run with tfinal > 0 ends, at a time that exceeds tfinal by less than one step, with all values between 0 and 1 as at the start.", "quantifier": "all block sizes, depths, states on balanced meshes, numbers of steps", "why_tests_cant": "A new extremum depends on the ratio of time step and cell size at some level and on what is read from blocks of another level; a test sees one mesh and a few steps.", "anchors": ["src/subprog_amrsand.cpp:133-157", "src/subprog_amrsand.cpp:247-306"]}
{"id": "C107", "title": "The sandbox for adaptive meshes conserves mass", "statement": "next_solution of subprog_amrsand.cpp keeps the sum over all cells of value times cell area, with the periodic continuation of the domain: what flows out of a cell flows into the next one.", "quantifier": "all states on balanced meshes", "why_tests_cant": "The sum over a refined mesh changes only at faces between blocks of different levels, by amounts that depend on the state; a test on a uniform mesh or with a smooth state does not see it.", "anchors": ["src/subprog_amrsand.cpp:247-306"]}
{"id": "C108", "title": "Diagnostic fields of the binary program", "statement": "The fields make_diagnostic_fields writes are, cell by cell, the surface density of the solution and the radial and azimuthal components of the velocity of the gas about the origin (multiplied by the density and put together again they are the conserved momentum), the vertices are those of the solver, the positions are those of the two bodies at the time of the solution; and the sums over the cells of density times area and of density times azimuthal velocity times radius times area are the disk mass and the disk angular momentum of the time series file, in either set of conserved variables.", "quantifier": "all meshes and states of the solver on which no cell has its middle at the origin", "why_tests_cant": "The fields and the time series are computed by separate code from different representations of the state; agreement on one state does not show it for another, and the meshes are unbounded.", "anchors": ["src/subprog_binary_diagnostics.cpp:19-82"]}
{"id": "C109", "title": "The fallback step of the binary program keeps densities positive", "statement": "When the first attempt of a step of the binary program throws, the step is repeated from the same state in safe mode (no slopes in the reconstruction), a tenth as long. In this mode no density can become negative: if signals cross at most the part k of each cell in the time of the step, advection takes at most the part 16 k of the gas of a cell, on meshes whose neighbouring blocks differ in resolution, too; with the length of step chosen by the program the densities stay positive if 8/5 of the CFL number plus the loss to sinks and buffer is less than one, and the second attempt fails only if the orbit can no longer be described by elements.", "quantifier": "for all meshes (balanced, any depth), numbers of cells per block, states of positive density, bodies, masses, positions, sinks and buffers with non-negative rates, all step lengths and CFL numbers", "why_tests_cant": "Whether a density becomes negative depends on the flow in every cell and on the fluxes corrected at the faces between fine and coarse blocks; a test sees one flow on one mesh, and the fallback itself is only reached when something else has gone wrong.", "anchors": ["src/subprog_binary.cpp:258-293", "src/subprog_binary_scheme.cpp:726-752", "src/subprog_binary_scheme.cpp:790-904", "src/subprog_binary_scheme.cpp:1107-1126"]}
{"id": "C110", "title": "Pressure and viscosity of the binary program", "statement": "Where the gas is smooth across a face (the states on both sides extrapolate to one state), the flux of the binary program is that of an isothermal gas whose speed of sound gives the requested Mach number (orbits around a unit mass, or the potential of the two bodies), with a symmetric trace-free stress and the requested viscosity (constant nu, or alpha times sound speed times thickness, reduced inside the cutoff radius). Hence gas on circular orbits with angular velocity W(r) carries no mass outwards and carries the angular momentum -nu sigma r^2 W'(r) outwards per length of the circle; in a Kepler disk with alpha viscosity that is 3/2 alpha sigma / M^2 at every radius.", "quantifier": "for all positions, bodies, Mach numbers, viscosities, cutoffs, cell sizes, densities, velocity gradients and differentiable rotation laws", "why_tests_cant": "The rate at which a disk accretes is set by this flux; a test compares one point with one number, while a factor or sign in one of the gradient terms shows only for flows that shear in the other direction.", "anchors": ["src/subprog_binary_scheme.cpp:160-193", "src/subprog_binary_scheme.cpp:220-293"]}
{"id": "C111", "title": "Blocks, vertices, centres and file of the decomposition program", "statement": "The partdom program divides a cube of N cells on a side into as many blocks as there are processes. If a side has fewer cells than blocks it ends with a logic error. Otherwise it prints every block once, the centres it prints over all blocks are the centres of all cells of the domain, each once, the vertices printed for a block are exactly the corners of the cells of that block, each once, and the file it leaves holds at every cell of the first block the first coordinate of the centre of that cell, and zero elsewhere.", "quantifier": "for all domain sizes with fewer than 2^31 cells and all numbers of processes from 1 to 2147395599", "why_tests_cant": "Which cell ends in which block and where its value lands in the file depends on the factors of the number of processes and on the remainders of all three divisions; a test fixes one pair of sizes.", "anchors": ["src/subprog_partdom.cpp:60-139", "src/app_parallel.hpp:119-179", "src/core_ndarray_ops.hpp:121-129", "src/app_serialize.hpp:171-181"]}
{"id": "C112", "title": "The state a Sedov run starts with", "statement": "A new run of the sedov program has nr zones per decade of radius, from the inner edge of the explosion to the configured outer radius, in geometric progression; the gas is at rest, with the configured density and pressure of the explosion in the cells inside of radius one, and with density r^-n and temperature 10^-6 outside of it, for both gases.", "quantifier": "for all configurations with an outer radius above one and at least one zone", "why_tests_cant": "The number of zones comes from a truncated product with a logarithm, and the number per decade is only visible when the width of every zone is compared with the configured one for all radii; a test with a given outer radius sees a plausible grid.", "anchors": ["src/subprog_sedov.cpp:55-70", "src/subprog_sedov.cpp:348-383"]}
{"id": "C113", "title": "A row of the time series of the Sedov program", "statement": "Every row of the time series of the sedov program consists of numbers that locate the shock: shock_radius is the radius of the face across which the entropy drops the most, the upstream and downstream radii are the middles of the cells of the pressure plateau ahead of it and of the pressure peak behind it, the interpolated radius is where a parabola through the velocities about the peak is stationary, near the peak, and shock_velocity conserves mass between the peak and the plateau.", "quantifier": "for all states of the gas on all radial grids, for both gases", "why_tests_cant": "Which cells are read depends on the whole profile of entropy and pressure, and the failures (peak in the innermost cell, gas at rest, equal densities) give NaN or reads out of bounds silently.", "anchors": ["src/subprog_sedov.cpp:96-114", "src/subprog_sedov.cpp:275-308", "src/post_shock_locator.hpp:71-170", "src/math_polynomial.hpp:206-215"]}
{"id": "C114", "title": "The initial disk has the configured mass", "statement": "The surface density a binary run starts with is that of a disk of the configured total mass, whatever its radius, on top of a constant ambient density that is the configured fraction of the maximum, which is at the configured radius.", "quantifier": "for all configurations with a positive disk radius", "why_tests_cant": "The profile is normalised by a literal that was computed elsewhere (17.0618), and a mesh sees only a part of the plane with finite cells; that the literal belongs to this profile is a statement about an integral over the plane.", "anchors": ["src/subprog_binary.cpp:84-86", "src/subprog_binary.cpp:105-153"]}
{"id": "C115", "title": "Diagnostic fields of the cloud program", "statement": "For each bin in polar angle, the written shock radii, Lorentz factor and powers are those of the cells at the shock, ahead of it and behind it; postshock_flow_power_max is the largest of the powers at and behind the shock; the powers agree with radial_energy_flow of the same cell; all fields are in the units of the run, and no element outside of an array is read.", "quantifier": "for all states on any mesh with at least two cells in radius and one in angle, with conserved quantities that can be recovered", "why_tests_cant": "Which cells are reported depends on the profile along each ray, with searches that may run to either end; tests have a few profiles, with a single shock well inside.", "anchors": ["src/subprog_cloud.cpp:177-196", "src/subprog_cloud.cpp:334-429", "src/post_shock_locator.hpp:71-170"]}
{"id": "C116", "title": "Time series of the binary program are a ledger", "statement": "In the time series of every checkpoint, of new and of restarted runs, times and the masses accreted by each body do not decrease from row to row; between any two rows the mass of the disk changes by what is recorded as accreted and ejected and by what was lost through the edges in the steps between them; in the mode that conserves angular momentum the angular momentum of the disk and all that is recorded as exchanged have the same sum in every row; the orbit perturbed by accretion gains the accreted mass and that perturbed by gravity none, and the binary gains it when it is live; in every row the positions of the two bodies are about the recorded centre of mass.  The first row of a new run is that of the initial disk, with all totals zero.", "quantifier": "for all sensible configurations, whole runs of any number of steps with any cadence of samples and checkpoints, and any chain of restarts", "why_tests_cant": "It relates all rows written over a run of any length, whose steps have different lengths and may have been repeated in safe mode; tests run a few steps and look at single values.", "anchors": ["src/subprog_binary.cpp:326-386", "src/subprog_binary.cpp:411-434", "src/subprog_binary.hpp:144-176", "src/subprog_binary_io.cpp:150-201"]}
{"id": "C117", "title": "First-order updates keep relativistic gas physical", "statement": "Five numbers are the conserved densities of a relativistic gas with positive density and pressure exactly if the density of rest mass is positive and the energy exceeds that of cold matter of the same rest mass and momentum, and that gas is unique.  The conserved densities of a cell between any two others, changed by the HLLE fluxes through its two faces, are again those of exactly one such gas, if light crosses at most half of the cell.", "quantifier": "for all physical states of the three cells, at any Lorentz factor and temperature, all directions, 1 < gamma <= 2 and all step lengths up to half of a cell", "why_tests_cant": "The states range over ten continuous parameters and the interesting ones are at the limits of cold and fast gas, where a test with a few shock tubes does not go.", "anchors": ["src/physics_srhd.hpp:213-230", "src/physics_srhd.hpp:241-300", "src/physics_srhd.hpp:466-485"]}
{"id": "C118", "title": "Steps of the Sedov program keep the gas physical", "statement": "On a grid whose zones grow by at most 8% and with the Courant number of the program, a step from zones that hold radial gas of positive density and pressure succeeds and leaves zones that hold such gas.  For the Newtonian program this is so as long as no sound wave is faster than one unit of length per unit of time, over any number of steps.  For the relativistic program the new conserved quantities are those of such gas up to the error of recovery, and exactly those of such gas in the first step of a run, for gas at rest.  A run with 30 zones per decade or more starts with such gas on such a grid.", "quantifier": "for all radial states of any number of zones, any density and pressure contrast and Lorentz factor, all configurations with 30 or more zones per decade, and all numbers of steps", "why_tests_cant": "Whether density or pressure can become negative depends on all states of three neighbouring cells, the geometry of the shell and the source term; tests run one explosion.", "anchors": ["src/subprog_sedov.cpp:167-181", "src/subprog_sedov.cpp:217-250", "src/subprog_sedov.cpp:348-421", "src/physics_srhd.hpp:339-348", "src/physics_euler.hpp:328-338"]}
{"id": "C119", "title": "Runs come to their end after the expected number of steps and outputs", "statement": "A run of the boilerplate, sedov or cloud program passes its loop exactly as many times as there are time steps in the time to be simulated, rounded up, and makes one step more after it; it never goes on for ever unless a step does.  If all steps succeed it comes to that end, with one output of each kind at the start and one for every whole interval in the time passed before the last step.  In the binary program with a fixed time step the number of passes is at least that number and less than ten times it and one more, and the run ends less than two steps beyond its final time.", "quantifier": "for all configurations, final times, initial states, grids, intervals of output, and numbers of steps", "why_tests_cant": "Whether an unbounded loop ends, and after how many passes, is a statement on all passes; tests can only run short loops.", "anchors": ["src/subprog_boilerplate.cpp:229-285", "src/subprog_sedov.cpp:552-557", "src/subprog_sedov.cpp:631-650", "src/subprog_cloud.cpp:822-827", "src/subprog_cloud.cpp:921-935", "src/subprog_binary.cpp:317-320", "src/subprog_binary.cpp:416-434"]}
{"id": "C120", "title": "The clock and the outputs keep time in double precision", "statement": "With the rounding of double precision, a run whose steps succeed comes to its end, after the number of passes that exact arithmetic gives but for the accumulated rounding; and the number of outputs at any time is that of whole intervals passed, but for a relative error of one part in 2^52 for every output so far.", "quantifier": "for all rules of rounding to nearest, time steps, final times, intervals of output and numbers of steps (steps of at most half an interval, up to 2^50 intervals)", "why_tests_cant": "Rounding errors accumulate over the whole run; whether they can stall the clock or shift an output is a statement on all step sizes and run lengths.", "anchors": ["src/app_schedule.hpp:180-196", "src/subprog_binary.cpp:295-320", "src/subprog_boilerplate.cpp:158-168", "src/subprog_boilerplate.cpp:229-234", "src/subprog_sedov.cpp:446-459", "src/subprog_cloud.cpp:720-732"]}
{"id": "C121", "title": "The mesh has no gaps and no empty zones in double precision", "statement": "With the rounding of double precision create_vertex_quadtree makes a balanced mesh in which two vertices that should be at the same coordinate have bitwise the same coordinate, whichever blocks and levels they belong to; vertices are within (level + 2) 2^-52 of where they should be, do not leave the domain, and the ends of the domain are exactly -1 and 1; and two vertices that should be at different coordinates are, in the right order, as long as there are no more than 2^46 zones along an axis.", "quantifier": "for all rules of rounding to nearest, refinement predicates, block sizes, and depths up to 30", "why_tests_cant": "The coordinates of blocks are computed along different paths of refinement; that the roundings always agree is a statement on all trees, block sizes and rules of rounding.", "anchors": ["src/mesh_tree_operators.hpp:158-190", "src/mesh_prolong_restrict.hpp:75-159", "src/mesh_prolong_restrict.hpp:312-322", "src/core_ndarray.hpp:2544-2551"]}
{"id": "C122", "title": "Cells of the binary program have an area, and its time step is positive, in double precision", "statement": "With the rounding of double precision, the mesh of the binary program keeps the properties of C121 when it is multiplied with domain_radius; every cell area the program computes is positive, so that nothing is divided by zero; and recommended_time_step is positive.", "quantifier": "for all rules of rounding to nearest, refinement predicates, block sizes that fit into memory indexes and depths up to 30, domain radii and cfl numbers of at least 2^-300, and velocities of at most 2^300", "why_tests_cant": "Differences of rounded coordinates can cancel to zero; that they never do is a statement on all meshes and radii.", "anchors": ["src/subprog_binary.cpp:166-184", "src/subprog_binary_solver_data.cpp:29-55", "src/subprog_binary_solver_data.cpp:102-105"]}
{"id": "C123", "title": "A command line is either carried out in full or refused", "statement": "Without arguments the names of the sub-programs are listed. Otherwise the sub-program named first runs, with every further argument in effect: each sets an option the sub-program has, to a value of its type, and options not given have their defaults (or what the restart file has). Any other command line is refused, which shows in the exit code.", "quantifier": "for all command lines, choices of compiled sub-programs, and sets of options", "why_tests_cant": "All strings and all sets of options; a test of the parser alone does not show what a sub-program sees.", "anchors": ["src/app_main.cpp:53-95", "src/app_config.hpp:223-245", "src/subprog_binary.cpp:155-164", "src/subprog_amrsand.cpp:355", "src/subprog_partdom.cpp:62-64"]}
{"id": "C124", "title": "Reconstruction in double precision makes no new extrema", "statement": "In the double precision arithmetic that the programs run in, the values that the cloud and the binary program put on the two faces of a cell lie between the value of the cell and that of the neighbour on the same side, not a single bit outside; where the cell is an extremum both faces have the value of the cell; hence positive densities have positive values on all faces. The gradient is the smallest of the three differences but for a few roundings. This holds for all values of plm_theta that are documented, 1 to 2.", "quantifier": "for all cell values, all rules of rounding to nearest, all values of plm_theta", "why_tests_cant": "Rounding errors of all triples of doubles; the bound is attained only at particular triples.", "anchors": ["src/math_interpolation.hpp:85-94", "src/subprog_cloud.cpp:450-464", "src/subprog_cloud.cpp:554-571", "src/subprog_binary_scheme.cpp:149-154", "src/subprog_binary_scheme.cpp:281-282", "src/subprog_binary_scheme.cpp:309-310", "src/subprog_binary_scheme.cpp:794-799", "src/subprog_binary.cpp:77"]}
{"id": "C125", "title": "The edge of the domain is recognised in double precision", "statement": "In the mode of the binary program that conserves angular momentum, the flux of angular momentum is exactly zero through every face on the edge of the domain and is not suppressed at any other face, although positions are compared with == after rounding; and the blocks on the two sides of a face place it at the same position with the same length, bit for bit.", "quantifier": "for all block sizes, depths, domain radii, refinement rules and rules of rounding", "why_tests_cant": "Exact comparison of rounded numbers for all radii and levels; a test shows it for one radius.", "anchors": ["src/subprog_binary_scheme.cpp:199-214", "src/subprog_binary_scheme.cpp:493-494", "src/subprog_binary_scheme.cpp:537-560", "src/subprog_binary.cpp:166-184", "src/mesh_prolong_restrict.hpp:75-159"]}
{"id": "C126", "title": "Gas dynamics does not depend on the axes and the units", "statement": "Conserved densities, fluxes, wave speeds, the fluxes of the Riemann solvers (hlle and hllc) and the recovered state of a gas that is described in turned or mirrored axes are those of the gas itself, turned or mirrored, and likewise in other units of density and velocity; seen from a position that is turned along, radial and angular momentum are the same, and angular momentum changes its sign in a mirror.", "quantifier": "for all states, directions, orthogonal axes and positive units", "why_tests_cant": "Equality of two outputs for all rotations and units, with square roots and case distinctions; a test compares some and needs a tolerance that hides small violations.", "anchors": ["src/physics_euler.hpp:160-284", "src/physics_euler.hpp:555-575", "src/physics_euler.hpp:614-631", "src/physics_srhd.hpp:151-295", "src/physics_srhd.hpp:364-451", "src/physics_srhd.hpp:466-483", "src/physics_iso2d.hpp:191-447", "src/physics_iso2d.hpp:488-712"]}
{"id": "C127", "title": "North and south are alike in the cloud program", "statement": "The cloud program prefers neither hemisphere and no sense of rotation: if two states are mirror images at the equator (or differ by the sense of rotation), and the inflow as well, then a step that succeeds for one succeeds for the other and the results are mirror images again. In particular, in a run from the program's initial state with its two jets the hemispheres are exact mirror images and no gas ever turns around the axis.", "quantifier": "for all states, grids, inflows, both reconstruction methods, first and second order in time, and all numbers of steps", "why_tests_cant": "It relates two runs for all states; signs of geometric sources, pole fluxes, ghost zones and the limiter all enter, and a test with one symmetric state does not show the covariance of steps from asymmetric states.", "anchors": ["src/subprog_cloud.cpp:466-483", "src/subprog_cloud.cpp:439-697", "src/physics_srhd.hpp:309-348"]}
{"id": "C128", "title": "What makes a step of the cloud program fail", "statement": "A stage of the relativistic cloud program succeeds if and only if the primitive quantities of all cells can be recovered: given these, reconstruction, Riemann solver and source terms never fail, for limiter parameters below 2 and inflowing gas of positive density. From the initial state of the program, unless the envelope is denser than 10^19 times the reference density, the first step always succeeds.", "quantifier": "for all states, grids of non-degenerate cells, inflows, both reconstruction methods", "why_tests_cant": "An equivalence over all states: that no state with recoverable cells makes the Riemann solver divide by zero can not be sampled.", "anchors": ["src/subprog_cloud.cpp:439-697", "src/physics_srhd.hpp:364-483", "src/model_atmosphere.hpp:155-281"]}
{"id": "C129", "title": "Arrays own their memory", "statement": "In every program that makes, moves, assigns, writes, reshapes, shares, copies and destroys unique and shared arrays, no memory is used after it is deleted, deleted twice or lost; every array has the values it would have if each had a list of its own; a shared array never changes while it exists, whatever happens to the array it came from; reshapes throw exactly if the sizes differ, and every array has as many elements as its shape says.", "quantifier": "for all programs (lists of operations of any length) and all values", "why_tests_cant": "Double frees, leaks and aliasing depend on the order of operations: moved-from arrays, self-assignment, exceptions while a provider is constructed; no finite set of programs covers them.", "anchors": ["src/core_ndarray.hpp:1205-1283", "src/core_ndarray.hpp:1295-1380", "src/core_ndarray.hpp:1407-1440"]}
{"id": "C130", "title": "Checkpoints hold the solution", "statement": "What a program writes of a solution - numbers, rational iteration, arrays of any size, trees of blocks, orbital elements, time series, fields of diagnostics - is what it reads when it restarts, component by component; this does not depend on the order in which the library lists names, nor on which compiler made the program that reads. A value of another type or an array of another rank is refused with an exception, never misread.", "quantifier": "for all solutions: any array sizes, any trees of depth at most 30, any time series", "why_tests_cant": "A member left out of a compound type, a wrong offset or a name used twice shows only in the field concerned, and only for values that differ from the default; arrangement in memory differs between compilers, so that a test with one compiler always passes.", "anchors": ["src/core_hdf5.hpp:689-720", "src/core_hdf5.hpp:842-888", "src/app_serialize.hpp:194-284", "src/app_serialize_tree.hpp:136-180", "src/subprog_binary_io.cpp:10-215", "src/subprog_cloud.cpp:590-608", "src/subprog_sedov.cpp:329-346", "src/subprog_boilerplate.cpp:81-98"]}
{"id": "C131", "title": "Domain of dependence of the cloud program", "statement": "In the cloud program a change of the gas, or of the inflow, has no effect further away than the stencil reaches: one face for each stage with piecewise constant states, two with slopes; a step has rk_order stages. With piecewise constant states, and where the flow along a ray is supersonic (all waves move outwards, that is, the radial four-velocity is not below that of sound), nothing at all comes from outside: a cell after a stage does not depend on the gas further out in its ray.", "quantifier": "for all grids, states, inflows and gases, both reconstruction methods, both orders in time, and any number of steps; the second part for all states of the relativistic gas", "why_tests_cant": "An off-by-one of a shift, a guard cell taken from the wrong end or states exchanged at a face give plausible results that converge more slowly or become unstable only later; a test compares a few cells of one solution.", "anchors": ["src/subprog_cloud.cpp:439-448", "src/subprog_cloud.cpp:485-584", "src/subprog_cloud.cpp:676-697", "src/physics_srhd.hpp:283-295", "src/physics_srhd.hpp:466-483"]}
{"id": "C132", "title": "Not-a-number and impossible states are noticed", "statement": "Gas whose state is not-a-number, or which no gas can have (momentum or rest mass exceed the energy), is refused with an exception when primitive variables are recovered, or when a step of the binary program is checked; states that are returned consist of numbers. The run does not go on silently with gas that is not a number.", "quantifier": "for all conserved states in any arithmetic that treats NaN as IEEE 754 says, all adiabatic indices and temperature floors, all numbers of blocks and cells", "why_tests_cant": "Comparisons with NaN are false, so that each check catches NaN or lets it pass depending on how it is phrased; a test would have to place NaN in each component and know of the states that convert into NaN or into gas of another mass.", "anchors": ["src/physics_srhd.hpp:364-451", "src/physics_euler.hpp:555-575", "src/subprog_binary_scheme.cpp:726-784"]}
{"id": "C133", "title": "Failures on other threads reach the caller", "statement": "If a computation that is spread over threads fails (an array evaluated with evaluate_on, a job given to a thread pool, a tree mapped on a pool or with std::async), then the caller gets an exception that one of the parts threw, which it can catch, as it does if the computation runs on one thread; it does so if and only if a part threw. The retry of the binary program relies on this.", "quantifier": "for all arrays, trees, functions that return or throw, numbers of threads, and all interleavings", "why_tests_cant": "Which thread throws first, and what the others do meanwhile, depends on the schedule; a test sees one schedule, and a test of std::terminate takes the test program down.", "anchors": ["src/app_parallel.hpp:75-103 evaluate_on", "src/core_thread_pool.hpp:99-112 enqueue", "src/core_tree.hpp:601-625 map with launch policy, map with thread pool", "src/subprog_binary.cpp:285-292"]}
{"id": "C134", "title": "A step of the Sedov program: when it fails, what it depends on, no unit of length, radial motion", "statement": "A step of the spherical explosion succeeds exactly if gas can be recovered in every zone and the fluxes and source terms of that gas exist (for the Newtonian gas: if every zone has positive mass and positive internal energy). After N steps a zone depends on the zones at most N away only. The same explosion with radii, times and volumes in another unit of length goes on the same. Gas that moves along the radius goes on moving along the radius.", "quantifier": "for all numbers of zones, increasing radii, contents of the zones, numbers of steps, factors of length, and both gases (locality: for any hydrodynamics)", "why_tests_cant": "A test compares two runs; that a distant change can never be felt, that no step depends on absolute lengths, and that there is no other way for a step to fail, are statements on all runs.", "anchors": ["src/subprog_sedov.cpp:216-251 fluxes and boundaries", "src/subprog_sedov.cpp:394-421 next_solution"]}
{"id": "C135", "title": "The binary program knows no units; the density of the disk is only a normalisation", "statement": "Let a run of the binary program be set up in other units of length, time and mass (Newton's constant being one, the unit of mass follows). Then every step, the time step chosen, and every record of the run are those of the original run in the other units, and a step fails in the same way if it failed. Before the gas acts on the binary the surface density of the gas may moreover be multiplied by any factor: the gas, the orbit and the records of mass, angular momentum and torque are multiplied accordingly.", "quantifier": "for all meshes, states, options, units (positive factors of length, time and density), numbers of steps, and both forms of the conserved momentum", "why_tests_cant": "A test compares two runs on one mesh; that no absolute length, time or mass is hidden in any branch (floors, sinks, softening, limiter, orbit, second attempt) is a statement on all states and all units.", "anchors": ["src/subprog_binary_scheme.cpp:85-262 fields and fluxes", "src/subprog_binary_scheme.cpp:268-1072 advance", "src/subprog_binary_scheme.cpp:1107-1135 maximum_timestep","src/subprog_binary.cpp:258-293 next_solution", "src/model_two_body.hpp orbital elements"]}
{"id": "C136", "title": "In double precision the mass and energy of the Sedov program change only by the flow through the ends, up to rounding", "statement": "Let a step of the Sedov program, or a run of N steps, succeed in double precision. The sum over the zones of a quantity that has no source term (mass, energy) has changed by what the fluxes through the reflecting inner and the open outer end brought in, with an error of at most one part in 2^51 of the contents before and after plus one smallest number for each zone and step. The fluxes between zones do not enter the bound, however large they are. The sum is not kept exactly.", "quantifier": "for all numbers of zones and steps, radii, contents, rules of rounding to nearest, functions for the gas and for the third power", "why_tests_cant": "Conservation tests compare sums for one problem with a tolerance chosen by hand; that the error never exceeds a fixed fraction of the contents, for any gas and any fluxes, is a statement on all states.", "anchors": ["src/subprog_sedov.cpp:394-421 next_solution", "src/subprog_sedov.cpp:167-181 face_areas and cell_volumes", "src/subprog_sedov.cpp:217-250 fluxes and ends"]}
{"id": "C137", "title": "Removing, making, listing and recognising directories affect and report exactly what they name", "statement": "remove_recurse removes the directory with everything below and nothing else and reports success; require_dir leaves the directory there, having made the missing ones and nothing else; listdir gives the names in a directory, or throws; isdir and isfile hold for directories and regular files only.", "quantifier": "for all file systems (files, directories, devices, sockets, symbolic links, in any number and order) and all paths", "why_tests_cant": "A test makes one small tree of files; that nothing outside of the tree is touched is a statement on all file systems, links included.", "anchors": ["src/app_filesystem.hpp:67-86 listdir", "src/app_filesystem.hpp:137-146 require_dir", "src/app_filesystem.hpp:153-208 remove_recurse", "src/app_filesystem.hpp:210-230 isfile and isdir"]}
{"id": "C138", "title": "Groups of HDF5 files hold what was put in: names are found, visited once, read back, and nothing else changes", "statement": "contains says whether there is a group or dataset of a name; require_group and require_dataset give what is there or make it, and change nothing else; what is written is read back, and writing over something else fails; the loop over a group visits every name once; a file opened for reading does not change; opening with w empties the file.", "quantifier": "for all files (groups and datasets in any number, order and depth), locations, names, types, data spaces, values, and any order of HDF5", "why_tests_cant": "A test makes a few groups and datasets of short names; that nothing else in the file changes, and what happens with long names, nested names and chunked datasets, is a statement on all files.", "anchors": ["src/core_hdf5.hpp:550-646 Link", "src/core_hdf5.hpp:799-888 Location", "src/core_hdf5.hpp:941-989 File"]}
{"id": "C139", "title": "Schedules and configurations come back from a group of a file whatever order HDF5 lists it in, and leave the rest of the file alone", "statement": "write_schedule and write_config to an empty group succeed and change nothing outside of it; read_schedule and read_config then give the same tasks with the same counts and times, and the same parameters (but for empty strings, C43), in whatever order the library lists the group.", "quantifier": "for all files, groups in them, schedules and configurations with any number of entries of names without slashes below 1024 characters, and all orders of listing", "why_tests_cant": "A test writes one schedule to one file, with one version of the library and its order; the loops over any number of groups and datasets, and the rest of the file, need a proof.", "anchors": ["src/app_serialize.hpp:69-123 write_schedule, read_schedule, write_config, read_config", "src/app_serialize.hpp:290-347 config_parameter_t", "src/core_hdf5.hpp:607-646 iterator"]}
{"id": "C140", "title": "Sound speed, enthalpy, entropy and fluxes of the gases belong together, and slow relativistic gas is Newtonian gas", "statement": "Along states of one specific_entropy, pressure changes with density by sound_speed_squared (relativistic: with the energy density), and specific_enthalpy by the change of pressure over the density. The flux of momentum is symmetric; the flux of energy is the flux of mass times specific enthalpy and kinetic energy (relativistic: with the rest mass, the density of momentum); the source term of the isothermal gas is the trace of its momentum flux. With the speed of light going to infinity, conserved densities, fluxes and sound speed of srhd tend to those of euler.", "quantifier": "for all gases of positive density and pressure, all velocities, adiabatic indices above one and directions", "why_tests_cant": "Each function is tested by itself on a few states, if at all; that they describe the same gas is a statement on derivatives and limits.", "anchors": ["src/physics_euler.hpp:111-300 specific_enthalpy, enthalpy_density, specific_entropy, sound_speed_squared, to_conserved_density, flux", "src/physics_srhd.hpp:103-330 the same of relativistic gas", "src/physics_iso2d.hpp gas_pressure, flux, source terms"]}
{"id": "C141", "title": "The files of diagnostics and of the time series of the Sedov program hold what the state says, under names that belong together", "statement": "write_diagnostics leaves a file with pressure, density, specific entropy, radial velocity and radius of all cells in the same order, the row of the time series, and nothing else, whatever the file held before. prepare_filesystem makes a file with all columns that write_time_series looks for; after any rows every column has the numbers of its name, in order, and a row written again replaces those from it on. No other file, and nothing else in the file, changes.", "quantifier": "for all states of the gas, both gases, all grids and numbers of cells, all earlier files and any number of rows", "why_tests_cant": "A test could look at one file of one run. The names are given in three places of the code, the columns are written one after the other, and that all of them agree for any state and history is a statement on all of these.", "anchors": ["src/subprog_sedov.cpp:252-322 make_diagnostic_fields, compute_time_series_data, get_time_series_column_names", "src/subprog_sedov.cpp:496-530 write_diagnostics, write_time_series", "src/subprog_sedov.cpp:596-616 prepare_filesystem"]}
{"id": "C142", "title": "Masks, lists of indexes, zipped arrays and regions given step by step agree with the elements", "statement": "where gives the indexes at which an array is true: all of them, each once, in row-major order, and none outside of the array; read_indexes gives the elements at these indexes in the same order, so that a mask and its opposite part the array. unzip gives back what zip took, apply is the elementwise function, arrays of different shapes are not zipped. select_from(i) and replace_from(i), with to and jumping said in any order, are the region from i up to the end given last; without an end they are refused or reach to the end of the array.", "quantifier": "for all arrays of any rank and shape, all masks, all index arrays, all regions", "why_tests_cant": "The loop of where writes into memory whose size comes from another pass over the array; one element more or less is written out of bounds. Which shapes and masks occur is up to the data.", "anchors": ["src/core_ndarray.hpp:1628-1661 zip, unzip", "src/core_ndarray.hpp:2035-2052 where", "src/core_ndarray.hpp:2168-2179 read_indexes", "src/core_ndarray.hpp:1128-1173, 2238-2273 select_from, replace_from", "src/core_ndarray.hpp:2314-2321 apply"]}
{"id": "C143", "title": "The files of the cloud program have the fields under their names, and its time series has the shock", "statement": "write_diagnostics makes a file with exactly the 23 datasets of the diagnostics: the time, pressure, density, specific entropy, energy flow and radial velocity of every cell in row-major order with the extents of the grid, the vertices of the mesh, and for each bin in angle the solid angle, the energy and what was found about the shock, in physical units, each under the name of its field, whatever was in a file of that name before; no other file changes. The time series, for which prepare_filesystem makes the columns time and shock_radius, has an entry in each column for every time that write_time_series was performed.", "quantifier": "for all grids of gas whose primitive variables can be recovered, all units, all files there are before, all numbers of times the tasks are performed", "why_tests_cant": "The names, fields and arrays are matched by hand in 23 lines; a wrong one is seen only by someone who compares the file with the state. That a time series stays empty is seen only after a run.", "anchors": ["src/subprog_cloud.cpp:139-165 diagnostic_fields_t", "src/subprog_cloud.cpp:334-434 make_diagnostic_fields", "src/subprog_cloud.cpp:769-799 write_diagnostics", "src/subprog_cloud.cpp:801-803 write_time_series", "src/subprog_cloud.cpp:891-907 prepare_filesystem"]}
{"id": "C144", "title": "Numbers are brought into an interval by whole lengths of it", "statement": "two_body::detail::wrap(x0, x1, x) returns a number of the interval from x0 to x1 that differs from x by a whole number of lengths, x itself if it is in the interval, and the same for all numbers that differ by whole lengths; it always returns, as does the loop by which compute_two_body_state and the mean anomaly add whole periods to a time before periapse.", "quantifier": "for all x0, x1 and x, in exact arithmetic and in double precision", "why_tests_cant": "The number of calls grows with the distance; a test with a number nearby does not show that the recursion stands still for one far away.", "anchors": ["src/model_two_body.hpp:150-157 wrap", "src/model_two_body.hpp:213-216, 484-487"]}
{"id": "C145", "title": "Equally spaced points in double precision", "statement": "nd::linspace(x0, x1, count) in double precision begins with x0 exactly, is in order, has no two equal points unless their distance is of the size of the rounding, has every point within eight roundings of its exact place, and ends with x1 (the tutorial says that both end-points are included), so that neighbouring meshes share their edges and no point is outside of the interval.", "quantifier": "for all doubles x0 and x1, all counts from 2 to 2^53, and every rule of rounding to nearest", "why_tests_cant": "Whether the last point is the end of the interval depends on the digits of the end and on the count; the counts of the tests give it exactly.", "anchors": ["src/core_ndarray.hpp:2544-2551 linspace", "tutorial/tut2.cpp"]}
{"id": "C146", "title": "The output of the sandbox for adaptive meshes", "statement": "mara amrsand, from its options to its end: the run ends with the first step that reaches tfinal; diagnostics files are numbered from zero without gaps in the output directory; the first has the state at the start, file k the state at the time k * dfi, up to a time step; the last state is written; with the option restart an earlier run is taken up again.", "quantifier": "for every block size, depth, tfinal and interval of output", "why_tests_cant": "Tests do not run the programs; how late the files are and what is lost at the end depends on the ratio of interval and time step.", "anchors": ["src/subprog_amrsand.cpp:166-241", "src/subprog_amrsand.cpp:310-351"]}
{"id": "C147", "title": "Restarting from a missing or incomplete file is refused", "statement": "With the option restart naming a file that is not there, or a checkpoint that has no configuration under the name the program looks for, no solution, no schedule or (binary) no time series, for instance because its writing was cut short, the program ends with an exception before it makes a step or writes any file; a checkpoint with all parts is taken, with the solution and the time series in it.", "quantifier": "for all contents of the disk and of the checkpoint, all options, and the binary, boilerplate, sedov and cloud programs", "why_tests_cant": "A test would have to damage checkpoints in each possible way.", "anchors": ["src/subprog_binary.cpp:155-164, 238-252", "src/subprog_binary_io.cpp:193-201", "src/subprog_boilerplate.cpp:113-119, 150-156, 174-188", "src/subprog_sedov.cpp:385-392, 437-444, 465-479", "src/subprog_cloud.cpp:668-674, 712-718, 738-752"]}
{"id": "C148", "title": "Values sent as messages arrive as they are, in order", "statement": "Successive receives of values of one type from a source with a tag return the values that the source sent with that tag, in the order sent, none left out, repeated or altered, whatever other messages arrive in between; a message of another size gives an exception and is consumed; messages of other sources and tags stay.", "quantifier": "for all trivially copyable types, sources, tags, numbers of messages and receives, and orders of arrival", "why_tests_cant": "The order in which messages of several ranks arrive is not under the control of a test.", "anchors": ["src/core_mpi.hpp:533-540, 610-653"]}
{"id": "C149", "title": "A non-blocking receive gives the message, or tells that there is none", "statement": "A non-blocking receive, waited for, gives the first message there from the source with the tag, whole, whatever arrives in between; if there is none the caller can tell.", "quantifier": "for all messages, sources, tags and orders of arrival", "why_tests_cant": "When the library puts a message in place is not under the control of a test.", "anchors": ["src/core_mpi.hpp:232-237, 550-569"]}
{"id": "C150", "title": "States compare and combine like vectors", "statement": "Types derived from sequences (conserved and primitive states, indexes) are equal exactly if all their elements are, != is the negation of ==, also if elements such as NaN are not equal to themselves; in exact arithmetic their operators +, -, * and / obey the laws of a vector space; a lifted function acts on each element.", "quantifier": "for all lengths, elements, equalities of elements and fields", "why_tests_cant": "Laws for all values and all lengths; the second comparison operator is written separately from the first.", "anchors": ["src/core_sequence.hpp:500-531, 622-636"]}
