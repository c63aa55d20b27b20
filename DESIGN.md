# Formal model of Mara3: design and trusted base

Source under study: `/repo` (jzrake/Mara3, C++17), read as text; it is neither built nor run.
The model is Lean 4 (4.33.0) with single Mathlib modules, in `lean/Verif/`.

## Layout

* `lean/Verif/Model/*.lean` – definitions transcribing the code; each cites file and lines.
* `lean/Verif/Spec/*.lean` – the few notions that statements use besides the model (what it means for a tree
  to be valid, for an array to hold a function, for a state to be on an orbit, ...).
* `lean/Verif/Lemmas/*.lean` – helper lemmas (no property statements).
* `lean/Verif/Props/*.lean` – the property theorems and, beside each, an `example` that its
  hypotheses are met by a concrete non-trivial case.
* `lean/Verif/Axioms.lean` – `#print axioms` for every property theorem.
* `MANIFEST.json` – property → theorem names. `seeded/LOG.jsonl` – wrong-program experiments.

## Trusted base

* The Lean 4 kernel. Axioms used: at most `propext`, `Classical.choice`, `Quot.sound`
  (checked by `Verif/Axioms.lean`). No `sorry`, no own axioms, no `native_decide`/`bv_decide`.
* The reading of the C++ in the model definitions (each has a file/line citation).
* General modelling conventions:
  * **Integers.** `int` is `Int` with an explicit range check: an operation whose mathematical
    result leaves `[-2^31, 2^31)` is the distinct outcome `ub` (signed overflow). `std::size_t` is
    `Nat`, with explicit reduction mod `2^64` where the code subtracts or multiplies without a check.
  * **Floating point.** `double` is an element of a linearly ordered field or of `ℝ`. Rounding,
    NaN, infinities and signed zero are not modelled (except in `Nan`, C132); theorems on numerics are statements about the exact
    formula. Division by zero and roots of negative numbers are never relied on: either the model has the outcome
    `ub` there, or the theorems carry the hypothesis that excludes it. (The code goes on with infinities or NaN.)
    The sign of a difference that is zero, which `std::copysign` sees, is an arbitrary parameter.
    The restart theorems (C36–C38) hold for any arithmetic, and C120–C122, C124, C125 and part of C32 for rounded double precision (`Double`).
    The definitions of the mesh (`Prolong`, `Quadtree`, `linspace`) take the arithmetic as a parameter: the theorems
    over a field and those in double precision are about the same program.
  * **Exceptions.** Functions that may throw return `Outcome α`; which exception type is thrown is part
    of the model.
  * **Undefined behaviour** is a distinct outcome (`ub`) and never identified with a value.
  * **std containers** (`map`, `vector`, `string`, `shared_ptr`, `variant`) are modelled by their
    documented behaviour.  External libraries (HDF5, MPI, threads) are modelled by the part of their
    contract that the code relies on; this is stated in the module concerned.

## What is modelled, and what not

| module | source | left out / simplified |
|---|---|---|
| `Outcome` | – | result of a C++ expression: value, exception, undefined behaviour, divergence |
| `Rational` | core_rational.hpp | `int` with range checks; template instances other than `int` |
| `ListHeap`, `LinkedList` | core_linked_list.hpp | reference counts are explicit; thread safety of `shared_ptr` counts not used |
| `Sequence` | core_sequence.hpp | evaluation order of element-wise functions (pure) |
| `Tree` | core_tree.hpp | shift operation is a parameter, `1 << n` undefined for n > 30; memory sharing |
| `Text`, `TreeSerialize` | app_serialize_tree.hpp, parts of `<string>` | HDF5 group = finite map from names; value storage lossless |
| `NdArray`, `NdOps`, `NdFreeze`, `Parallel` | core_ndarray.hpp, core_ndarray_ops.hpp, app_parallel.hpp | providers are index functions plus buffers; allocation fails from 2^63 on |
| `Hdf5`, `SolutionFile` | core_hdf5.hpp: types, extents, datasets; app_serialize.hpp: `hdf5_type_info`; subprog_binary_io.cpp and the solutions of cloud, Sedov and boilerplate | HDF5 by its contract; memory is counted in numbers (no padding, no bytes); the order of the members of a `std::tuple` in memory is a parameter; schedule and configuration of a state are in `Config` and `App` |
| `Buffers` | core_ndarray.hpp: `buffer_t`, `unique_provider_t`, `shared_provider_t`: ownership of memory | shapes are sizes, elements are offsets; addresses are not used again; no failing allocation, no throwing elements; `std::shared_ptr` by its contract |
| `Prolong`, `Quadtree` | mesh_prolong_restrict.hpp, mesh_tree_operators.hpp | cell values from a ring |
| `StdMap`, `Config` | app_config.hpp, parts of app_serialize.hpp | `std::stod` is a parameter; pretty printing |
| `Schedule`, `Runs` | app_schedule.hpp, run loops of binary, boilerplate, sedov, cloud | the numerical step, diagnostics and samples are parameters; `int` overflow of counts; file system = sequence of writes |
| `Main` | app_main.cpp, app_subprogram.hpp, how each sub-program makes its configuration | the execution time printed; what Catch does with its arguments |
| `Double` | `double` | finite numbers with any rule of rounding to nearest; no largest number, infinities or NaN |
| `QuadtreeDouble` | `mesh_tree_operators.hpp` `create_vertex_quadtree`, `mesh_prolong_restrict.hpp` in `double` | rounding as in `Double` |
| `BinaryDouble` | `subprog_binary.cpp` `create_vertices`, `subprog_binary_solver_data.cpp` cell areas and `recommended_time_step`, `subprog_binary_scheme.cpp` positions of faces and `to_angmom_fluxes` in `double` | rounding as in `Double`; no overflow, underflow is rounding to a multiple of the smallest number |
| `PlmDouble` | `math_interpolation.hpp` `plm_gradient`, face values of the cloud and binary programs in `double` | rounding as in `Double`; the sign of a zero is a parameter; values of guard cells are given |
| `Path` | app_filesystem.hpp, `create_numbered_filename` | names only; the calls on files are in `FileSystem` |
| `FileSystem` | app_filesystem.hpp: `listdir`, `require_dir`, `remove_recurse`, `isfile`, `isdir` | a finite list of paths with their kinds, POSIX calls by their contract; no permissions, no other process, links followed up to a fixed number of steps |
| `Groups` | core_hdf5.hpp: `Link`, `Location`, `Group`, `File`: names, presence, creation, iteration, modes of opening | HDF5 by its contract; types, data spaces and values are any data; an identifier is the path; nothing is removed, renamed or linked twice; threads that share the buffer of the iterator are left out |
| `GroupFiles` | app_serialize.hpp:69-123: schedules and configurations written to and read from the groups of `Groups` | counts are natural numbers; values are stored losslessly |
| `Handles` | core_hdf5.hpp: ownership of identifiers | HDF5 itself: identifiers are numbers, opening gives a fresh one |
| `Hyperslab` | core_hdf5.hpp and app_serialize.hpp: selections, region reads and writes, extents; the time series of sedov | HDF5 by its contract: extent, values, row-major pairing of points; failing calls throw; types agree; file space is that of the dataset |
| `Partdom` | subprog_partdom.cpp | printed text = coordinates printed for each block; `N`, `procs` not negative |
| `AmrSand`, `AmrSandRun` | subprog_amrsand.cpp: start, step, run; schedule, output files and the step after the loop | messages; the making of the output directory |
| `Requests` | core_mpi.hpp: requests, communicators, message buffers | MPI progress; one process |
| `Mpi` | core_mpi.hpp: scatterv, all_gatherv, all_to_all, probe/recv | one collective call among ranks that all take part; messages between two ranks in order |
| `Loop` | – | `while` loops: value, exception, undefined, divergence; secant and Newton iterations |
| `Plm` | math_interpolation.hpp | – |
| `Polynomial` | math_polynomial.hpp | exact roots and trigonometric functions |
| `Geometry` | core_geometric.hpp, core_matrix.hpp | – |
| `Units` | core_dimensional.hpp | dimensions of templates are data; rejection by the compiler is an outcome |
| `Euler`, `Iso2d`, `Srhd` | physics_euler.hpp, physics_iso2d.hpp, physics_srhd.hpp | units; printing of states |
| `TwoBody` | model_two_body.hpp | units; `std::atan2` at the origin as in Mathlib (0) |
| `Atmosphere` | model_atmosphere.hpp: power_law_atmosphere_model | see below for the others |
| `Shock` | post_shock_locator.hpp | logarithms of the pressures are an array |
| `Sedov`, `SedovGas` | subprog_sedov.cpp, subprog_boilerplate.cpp: grids and updates | initial data are parameters |
| `SedovDouble` | subprog_sedov.cpp: `next_solution` in `double` | rounding as in `Double`; the numerical flux is a parameter |
| `SedovFiles` | subprog_sedov.cpp:252-269, 310-322, 496-530, 596-616: fields of the diagnostics, their file, the file of the time series | files of `Groups`; extending a dataset and writing one entry is one operation (C105 has the selections); the contents of `run_config` are C139 |
| `NdGather` | core_ndarray.hpp: `where` with both of its passes, `read_indexes`, `zip`, `unzip`, `apply`, `select_from`, `replace_from` | tuples are pairs; elements are read without side effects |
| `CloudFiles` | subprog_cloud.cpp:139-165, 769-803, 891-907: file of diagnostics, file of the time series | files of `Groups`; the arrays over bins in angle come as two arrays of records (`CloudSetup`, `CloudDiagnostics`); the contents of `config` are C139 |
| `Wrap` | model_two_body.hpp:150-157 and the loops of 213-216, 484-487 | for numbers of any kind; tail call, no limit of the stack |
| `SedovSeries` | subprog_sedov.cpp: initial state, row of the time series | NaN and infinities are undefined behaviour |
| `CloudDiagnostics` | subprog_cloud.cpp: `make_diagnostic_fields`, `unit_system_t` | fifteen arrays filled in a loop are one array of records |
| `BinarySeries` | subprog_binary.cpp: `record_time_series`, the run with the actual step and sample; subprog_binary.hpp: `time_series_sample_t` | diagnostic fields written during the run are a parameter |
| `Cloud`, `CloudGas` | subprog_cloud.cpp: grid and update | initial data and inflow are parameters; threads (C27) |
| `Nan` | physics_srhd.hpp and physics_euler.hpp: `recover_primitive`; `validate_u`, `validate_q` of subprog_binary_scheme.cpp, in arithmetic with NaN | any arithmetic that obeys the NaN rules; witnesses in exact arithmetic with infinities, NaN and one zero; the check sees only the densities |
| `FluxCorrection`, `Binary`, `BinaryStep` | subprog_binary_scheme.cpp, `next_solution` of subprog_binary.cpp, disk_mass and disk_angular_momentum of subprog_binary_diagnostics.cpp | `_u` and `_q` variants are one definition; threads; messages |
| `BinarySetup` | subprog_binary.cpp: initial state; subprog_binary_solver_data.cpp | the comparison in the refinement predicate is a parameter |
| `BinaryDiagnostics` | subprog_binary_diagnostics.cpp:48-82: the fields of the diagnostics files | dividing by a radius of zero is undefined behaviour |
| `JetNozzle` | model_jet_nozzle.hpp; the inflow of subprog_cloud.cpp:475-483 | exact `exp`, `pow`; dividing by zero is undefined behaviour |
| `CloudInflow` | subprog_cloud.cpp:466-483 (the inflow as the update uses it) | as `JetNozzle`; an inflow that has no value is zero, which no theorem uses |
| `Envelope` | model_atmosphere.hpp:56-80, 155-281 (`solve_secant`, `cloud_and_envelop_model`) | as `Atmosphere`; the call of `density_at` in itself is unfolded, or never ends |
| `CloudSetup` | subprog_cloud.cpp: units, initial state, solid angles and energies in angle (not: reading of restart files) | values of the configuration are given |
| `ThreadPool` | core_thread_pool.hpp, `map` on a pool | critical sections are atomic; sequential consistency; functions of jobs are deterministic |
| `ParallelThrows` | app_parallel.hpp `evaluate_on`, core_tree.hpp:601-611 `map` with a launch policy: how they end | `std::terminate` is told apart from an exception of the caller; failure to start a thread is left out |

Not modelled: terminal output (except for the list of sub-programs), Python tools, most compile-time
type checks, memory exhaustion (other than `NdArray`), performance.

## Findings: properties that the code violates

Each is proved as a theorem ending in `_violated` with a concrete witness, beside the `_partial` theorem
that says what does hold.

| id | what happens |
|---|---|
| C04 | zero has several representations that compare different (0/5 and 0/9) |
| C08 | `contains` on the index of a divided cell shifts by 2^64-1 bits: undefined |
| C10 | `find` lets `bad_variant_access` escape when the index is that of a divided node |
| C12 | `update` with an index outside of the domain alters another leaf |
| C14 | `hilbert_index` passes the level as the side length: the curve is not a bijection |
| C19 | cell lookup two or more levels below a leaf recurses without end; lookup at a divided cell is undefined |
| C21 | iteration over an empty region of shape (0,3) visits indexes that are outside |
| C22 | evaluating such an array writes out of bounds |
| C23 | `select` accepts reversed regions and rejects some valid strided ones |
| C24 | `shift_by` by a positive amount reads out of bounds |
| C27 | `evaluate_on` with more threads than rows has a data race for rank 2 and above |
| C28 | `prime_factors(0)` recurses without end; overflow for primes from 46340^2 on |
| C29 | the volume of a shape is computed as an `int` |
| C30 | `arange` misses the last element in some cases, and wraps for negative spans |
| C31 | `difference_on_axis` and others on an empty axis give 2^64-1 elements |
| C32 | `restrict_cells` of a single cell gives 2^63 cells |
| C33 | `combine_verts` throws in three dimensions |
| C36 | restarting a finished run from the checkpoint written after the loop takes one more step |
| C37 | boilerplate and cloud: a restarted run overwrites the checkpoint it was started from and loses due diagnostics |
| C38 | sedov can never restart: it writes group `config` and opens `run_config` |
| C39 | names of numbered files are not in order from 10000 on |
| C43 | an empty string parameter reads back as one NUL character |
| C45 | lost wakeup: `stop_all` can wait forever |
| C47 | moving into an open link handle leaks the old one; closing, or moving onto itself, a value handle closes it twice |
| C49 | every scatter takes the address `&v[0]` of vectors that may be empty; byte counts overflow `int` from 2^31 on |
| C50 | a receive from `any_source` may take another message than the one it probed |
| C148 | receiving a value from `any_source` may return a value that nobody has sent, without an exception: the buffer has the probed size, the message taken is a shorter one of another rank |
| C149 | a short message received without blocking may be put into memory that is gone; if there is no message the request is ready and gives an empty text, as after an empty message |
| C53 | the temperature floor is not applied to small positive pressures |
| C56 | the Roe average does not satisfy the Roe property in the energy |
| C58 | HLLC: the contact is not always between the outer waves (symmetric collision at Mach 2; gas at rest with different sound speeds) |
| C59 | adiabatic indices above 2 give waves faster than light |
| C60 | Newton's iteration for Kepler's equation cycles forever for an eccentricity near 0.97 |
| C61 | bodies moving on a line through each other, and states of zero energy, divide by zero |
| C62 | the constructor of unit vectors normalises its parameters and not its members |
| C64 | `with_total_mass` ignores the present coefficient |
| C66 | flux correction calls `contains` on the index of a divided cell (see C08): undefined by the standard |
| C67 | (not a violation of the theorem) `work_done_on` is never recorded with `conserve_linear_p=0`; the density floor adds mass that is not recorded and not scaled by the step |
| C99 | (second order) a live binary gets the pull of the gas times the ratio of its masses after and before the update (`live_motion`): accretion and pull are computed apart from each other and added |
| C100 | the density at the base of the jet does not depend on the structure exponent: with exponent 1 the two jets carry more than 1.9 times the configured energy (`jet_energy_violated`); the comment at model_jet_nozzle.hpp:99-102 expects errors of about ten percent. Also, by reading: the jet model has the speed of light 3e10, the rest of the program 2.998e10 |
| C102 | `print_run_dimensions` (subprog_cloud.cpp:863-890) prints as reference mass, density and energy those of the envelope model, while `make_reference_units` uses the power-law atmosphere with the configured `cloud_mass` (`printed_units_violated`); the printed values do not change with `cloud_mass`, the outputs do |
| C104 | `Dataset::read(fspace)` of an array or vector makes a buffer of the whole extent (`prepare` ignores the selection), so reading a region that is not the whole dataset always throws (`read_region_violated`) |
| C107 | the sandbox has no flux correction: one step on a mesh with one divided quarter loses mass (`mass_violated`); the loss is the difference of the last two layers of fine cells before the face (`mass_step_partial`) |
| C71 | `find_shock_index` on one cell is undefined |
| C112 | the grid of sedov spans half a decade more than the number of zones is computed from: always fewer zones per decade than configured (`zones_violated`); the explosion begins at 0.316, not 0.5 |
| C113 | the first row of the time series of sedov, of gas at rest, has an undefined interpolated radius (`series_first_violated`); a pressure peak in the innermost cell reads out of bounds; `shock_radius` is the inner face of the cell behind the drop of entropy (`series_radius_violated`); without a plateau the upstream cell is the innermost one |
| C118 | on coarse grids (10 to 1 in one zone) a step of sedov can take more mass out of a zone than there is: the step length does not take into account that outer faces are larger than inner ones (`coarse_violated`) |
| C115 | `postshock_flow_power_max` of cloud is the first local peak of the energy flow going inwards from the shock, not the largest: zero while `postshock_flow_power02` is positive; `radial_energy_flow` uses the area of the inner face of a cell, the powers the mean of both, so the same cell has two different powers (`power_max_violated`) |
| C73 | powers with negative exponents are computed in unsigned arithmetic |
| C80 | a message built in a temporary is sent from memory that is gone |
| C84 | clockwise orbits are not reproduced by their elements |
| C85 | `diff` wraps one period only |
| C86 | `delta_a_over_a` is wrong if the centre of mass moves |
| C87 | `mean_anomaly` ignores the time of periapse |
| C90 | uniform gas at rest is pushed outwards in every cell of the Sedov grid |
| C93 | odd `block_size` on an undivided mesh divides 0 by 0 in the central cell; zero `ambient_density` in a wide domain takes the root of a negative number |
| C94 | with `conserve_linear_p=0` the time step throws on every divided mesh, outside of the `try` block |
| C95 | (not a violation of the theorem) the balance is exact for zero softening only, since `create_disk_profile` softens as 1/(r+rs) and the forces as (r^2+rs^2)^(-3/2) |
| C97 | `insert_elements` gives the values to the axes in increasing order: an `axis_freezer_t` of the axes 1, 0 at (i, j) freezes axis 0 at i (`freeze_axis` has one axis only); `replace` accepts a region outside of the array and drops the elements |
| C70 | `extension` looks for the dot in the whole path; `require_dir` makes absolute paths relative |
| C78 | the proposed block decomposition of 12 is 2 x 6, not the evenest |
| C79 | the refinement predicate gets the round number instead of the level of the block |
| C123 | arguments without `=` are ignored: `mara binary N 512` runs with the default `N`; an unknown sub-program ends with exit code 0 |
| C124 | with `plm_theta=2`, the largest value documented, rounding takes face densities of 2^-60, 1, 8 to zero |
| C126 | the tolerance of relativistic recovery is an absolute pressure, 1e-10: of a gas with a pressure of that order the recovered pressure is 31 % too small, while in units in which it is 0.01 it is right to a percent and better (`srhd_units_violated`) |
| C129 | an array that was moved from (also by a reshape of an rvalue that throws, or assigned to itself) keeps its shape, and reading its elements is undefined |
| C130 | the disk is written as the bytes of `std::tuple`s, whose order in memory is up to the compiler (libstdc++ and libc++ differ): a checkpoint read by a program of another compiler gives another disk without an error |
| C132 | `validate_u`, `validate_q` of the binary program and the Euler recovery let NaN pass (`validate_violated`, `euler_keeps_nan`); the relativistic recovery refuses NaN, but it returns NaN for some finite states (a momentum with zero energy, `recover_result_violated`), and turns states that no gas can have into gas of thousands of times the mass (`recover_impossible_violated`) |
| C133 | an exception in `evaluate_on`, in a job of a thread pool, or in a tree mapped on one, ends the program (`std::terminate`) instead of reaching the caller; the retry of the binary program cannot catch it |
| C135 | the cutoff of the viscosity has a width of a third of the unit of length whatever `alpha_cutoff_radius` is (`cutoff_violated`); `axisymmetric_cs2` takes the temperature around a mass one (`temperature_violated`) |
| C136 | in double precision the mass is not kept exactly even if nothing flows through the ends: what leaves a thin zone is lost when it is added to a dense one (`exact_budget_violated`); the loss stays below one part in 2^51 of the contents for each step |
| C137 | `remove_recurse` calls `stat`, which follows symbolic links: it removes the files of directories elsewhere that links lead to, then fails (`removeRecurse_link_violated`); a link to nothing stops it (`removeRecurse_dangling_violated`); `isdir` and `isfile` test single bits of `st_mode` and hold for sockets (`isdir_violated`); `require_dir` ignores failures of `mkdir` (`requireDir_violated`) |
| C138 | `contains` takes the error code of `H5Lexists` for yes and then reads a variable without a value: `require_group("a/b")` without a group `a` is undefined (`contains_violated`); `require_dataset` compares with the default properties, so that a chunked dataset is refused the second time (`requireDataset_again_violated`); names of exactly 1024 characters lose the last one in loops over groups (`iterate_violated`), file names of 2048 characters in `filename` |
| C141 | The first file of diagnostics, of the state at the start, has undefined numbers (`diagnostics_first_violated`): the parabola through velocities that are all zero has no vertex, as for the first row (C113). |
| C142 | `where` of an array of shape (0, 3) gives three indexes, all outside of it (`where_empty_violated`); `select_from(1)` without `to` is accepted and has 2^64 - 1 elements (`select_from_violated`) |
| C143 | `write_time_series` of the cloud program is empty, although its file gets the columns `time` and `shock_radius` and the task is scheduled: after any number of times performed, both columns have no entry (`time_series_violated`) |
| C144 | `wrap` does not return for an interval that is empty or turned around (`wrap_empty_violated`), nor, in double precision, for numbers beyond 2^55 lengths of the interval (`wrap_double_violated`); the same for a time more than 2^55 periods before periapse (`catch_up_double_violated`). Both ends are returned as they are (`wrap_ends_violated`). `wrap` is not called by any program; the loop is. |
| C145 | `linspace` in double precision does not end where it is told to: ten points from 0 to 0.9 stop one unit in the last place before the end, and fourteen points from 0 to 1.3 go one beyond it (`linspace_end_violated`), for every rule of rounding to nearest. `core_ndarray.hpp:2544-2551` |
| C146 | amrsand decides on output with the time before the step and writes the state after it, so that every file after the first is at least one time step late (`late_violated`), and later and later if the interval is smaller than a time step (`behind_violated`); the state at the final time is in no file (`last_violated`); the option `restart` is there but never read (`restart_violated`). `subprog_amrsand.cpp:306, 128-138` |
| C120 | a clock that has got to 2^54 time steps stands still, so that a run of more than 2^55 steps never ends |

### Noticed while reading, without a theorem

* `File::intent` and `viscous_flux` end in `throw;` without an exception being handled (terminates).
* `isend` of a string literal sends the trailing NUL.
* `quartic_roots`: the fourth root of the branch without real roots has the sign of `R` wrong (never used as a root).
* `spherical_geometry_source_terms_radial` of the Euler equations uses the square of one tangential velocity only.
* cloud: the second stage of `rk_order=2` takes the nozzle inflow at the start of the step.
* binary: `reconstruct_method` is read but the scheme is always PLM; `threaded` is documented "0 disables" but 0 throws;
  at the domain edge a coarse flux may be replaced by finer fluxes from the opposite edge; the fluxes through opposite
  edges of the domain differ since the sound speed does; `validate` lets NaN pass; the work divides by zero for
  `mass_ratio=0`.
* amrsand: no flux correction, hence not conservative at refinement boundaries.

## Plan per property

| id | model | how it is proved |
|----|-------|------------------|
| C01 | `ListHeap`: heap of reference-counted nodes, handle table, the operations incl. destructor loop | invariant (count = number of references; every handle's chain is allocated) by induction over op histories; refinement to a map handle → sequence |
| C02 | `LinkedList`: the functions on an inductive list written as in the code | refinement to `List`, by induction |
| C03–C05 | `Rational`: pairs of `Int` with range check, binary gcd as in the code | algebra over ℚ; C04 is violated for zero: negation with witness + partial |
| C06 | `Rational` + RK step on the counter | induction over steps |
| C07 | `TreeIndex` on rank-generic coordinates | arithmetic |
| C08–C13 | `Tree`: inductive rank-generic tree | structural induction |
| C14 | `Tree`: hilbert_index transcription | violated on every level: pigeonhole, positions at most level²; `xy2d` itself one to one by induction on the bits |
| C15, C16 | `TreeSerialize`: group = list of (name, value); names as strings | permutation invariance of folding `insert`; digit lemma |
| C17–C19 | `Quadtree` (balancing loop, block lookup) | well-founded measure, invariant, case analysis |
| C20–C25, C29, C30 | `NdArray` (shapes, strides, access patterns, providers) with `Nat` mod 2^64 | induction on rank; violated parts: negation + partial |
| C26–C28 | `Parallel` | arithmetic of `k*n/m`; induction |
| C31 | `NdOps` on one axis | induction |
| C32, C33 | `Prolong` | arithmetic on index functions |
| C34–C38 | `Schedule`, `Restart` (state machines of the run loops; crash = stop anywhere, restart = read file) | induction over runs / simulation |
| C119 | `Runs`, `Loop` (`counted`) | loops with a clock; the step of each program moves the clock by a known amount; count of outputs from C35 |
| C120 | `Double`, `Runs` | relative rounding error of sums and differences of doubles; nominal times of the outputs as rounded sums, Bernoulli's inequality |
| C121 | `QuadtreeDouble`, `Lemmas/MeshLines` | in any arithmetic where the mean of a number with itself is that number, all blocks lie on one family of lines; error and order of the rounded lines |
| C122 | `BinaryDouble`, `QuadtreeDouble` | gaps of neighbouring lines are much more than the roundings; products and quotients of numbers in range do not round to zero |
| C123 | `Main`, `Config`, `Runs` | case analysis on the names; C41 and C42 |
| C124 | `PlmDouble` | the limited slope is at most half the rounded jump times theta; the last rounding returns to the neighbour at worst |
| C125 | `BinaryDouble` | C122's positions: vertices away from the edge differ from it by much more than the rounding; the middle of a number and itself is exact |
| C39 | `Filename` | digit-string order lemma; violated from 10000 on: negation + partial |
| C40–C43 | `Config` | invariant by induction over updates; round trip; empty string violates: negation + partial |
| C44–C46 | `ThreadPool`: labelled transition system of producers/workers/stopper | inductive invariants over all interleavings; lost wake-up: reachable stuck state (negation) |
| C47, C48 | `Handles`: ownership state machines | invariant over histories |
| C49, C50 | `Mpi` | concatenate/slice law; negation witness for the probe race |
| C51–C64 | `Plm`, `Polynomial`, `Euler`, `Iso2d`, `Srhd`, `TwoBody`, `Geometric`, `Matrix`, `Atmosphere` over ordered fields / ℝ | algebra (`field_simp`, `ring`, `nlinarith`) and analysis lemmas |
| C65, C69, C88–C91 | `Sedov`, `Cloud` on arrays with `Spec/Lines` | telescoping sums; induction over steps |
| C66 | `FluxCorrection` | case analysis on the levels of neighbours; sums over leaves |
| C67, C68, C74, C75 | `Binary`, `BinaryStep` | sums over cells and leaves |
| C92–C95 | `BinaryStep`, `BinarySetup` | every operation succeeds on consistent data; continuity in the time step |
| C98, C99 | `Binary`, `BinaryStep`, `TwoBody`, `Spec/BinaryRun` | success of an update implies what its budget needs; linear combinations of stages |
| C100 | `JetNozzle` | Gamma integrals on the plane; bounds of the sine on the sphere |
| C101 | `Envelope`, `Lemmas/Secant` | the function whose root is sought is concave, and convex in the logarithm: the secant method goes up to the root from the left, or shrinks a bracket; substitution in the integral |
| C102, C103 | `CloudSetup` | grid and volume lemmas of `Cloud`, `density_at` and `velocity_at` of `Envelope` |
| C104, C105 | `Hyperslab` | points of a selection in row-major order; the record of the task over the rounds as in `Schedule` |
| C114 | `BinarySetup` | polar coordinates; Gauss and error integrals with Taylor bounds; bounds of π and e |
| C112, C113 | `SedovSeries` | lines of arrays; the searches of C71; uniqueness of the parabola through three points |
| C115 | `CloudDiagnostics` | lines and grids of arrays; the searches of C71; recovery of cold gas with a temperature floor |
| C116 | `BinarySeries` | an invariant of `Runs` carried to the checkpoints; the budget of one step of C67, C98; the start of C93 |
| C117 | `SrhdRiemann` | conserved densities as an open cone, by the Minkowski inequality; the cone contains what is left of a cell ahead of and behind its waves; recovery by the intermediate value theorem, uniqueness by monotony in the pressure |
| C118 | `SedovPositive` | a cell as the sum of a part left by the outer waves, one left by the inner ones and one for work and source terms, each in the cone of C117 or its Newtonian counterpart; the start of C112 |
| C111 | `Partdom` | regions of the blocks (C28), midpoints on three axes, region writes (C104) |
| C108 | `BinaryDiagnostics` | recovered velocities against conserved momenta; sums as in C66 |
| C109 | `BinaryPositive` | bounds of the HLLE mass flux by the gas on either side; guard cells as copies or means of cells; finer fluxes of a corrected face leave from the coarse cell behind it; speed of sound on faces against that in cells |
| C110 | `Binary` | consistency of HLLE (C55); derivatives of a circular flow; algebra |
| C106, C107 | `AmrSand` | a step is a mean of cells with weights from the ratio of step and cell size; sums over faces by `Matched` as in C66 |
| C96 | `Euler`, `Srhd`, `Spec/Spherical` | derivatives of the components of a constant vector |
| C97 | `NdFreeze` | increasing lists of positions |
| C70 | `Path` on `List Char` | induction |
| C71 | `Shock` | loop invariants |
| C72, C73 | `Sequence`, `Units` | algebra |
| C76, C77 | `ListHeap`, `Tree` | structural induction |
| C78, C79 | `Parallel`, `Quadtree` | violated: negation with witness; what holds for prime powers, and for predicates that decrease with the level |
| C80 | `Requests` | invariant over histories |
| C126 | `Euler`, `Srhd`, `Iso2d` | scalar products in orthogonal axes; homogeneity; the witness of the violation is one step of Newton's iteration, against C83 |
| C127 | `Cloud`, `CloudGas`, `CloudInflow` with `Spec/CloudMirror` | from a step that succeeds to the states and fluxes of all cells (`found_of_advance`), which are mirrored one by one; reversal of lines and their slopes |
| C128 | `Cloud`, `CloudGas`, `CloudInflow`, `CloudSetup` | face values stay positive for theta below 2; wave speeds of gas are different; C83 and a bound of the speed of the envelope for the first step |
| C129 | `Buffers` with `Spec/Buffers` | invariant: a buffer has its values, no two buffers own a block, no block is without buffer, the count is the number of shared arrays; refinement of programs to lists of values |
| C130 | `Hdf5`, `SolutionFile`, `TreeSerialize` | places of a type cover the object, so that reading restores what writing took; names are distinct; the round trip of C15 for trees |
| C131 | `Cloud`, `CloudGas` with `Spec/CloudLocal` | what a successful stage computed (`found_of_advance`) is a function of the cells in reach; composition of stages; HLLE with all waves on one side is the flux of the inner state |
| C132 | `Nan`, `Srhd` | NaN laws carried through the formulas; the arithmetic with infinities and NaN agrees with the model in real numbers where that has an outcome (`recover_agrees`); witnesses computed |
| C133 | `ParallelThrows`, `ThreadPool`, `Parallel` | invariant of tasks and results along any order of runs; an effectful map returns or throws; invariants of the pool (C44) |
| C134 | `Sedov`, `SedovGas` with `Spec/SedovStep` | a successful step is inverted into what it computed (`computes_of_step`), which is a function of the neighbouring zones; induction over steps |
| C135 | `Binary`, `BinaryStep`, `TwoBody` with `Spec/BinaryUnits` | two runs of the same code on related data end alike: a library of relations on outcomes, arrays and trees (`Lemmas/Alike`, `Relate`), then every function of the step shown to respect the units (`BinaryUnits`, `OrbitUnits`, `StepUnits`, `SourceUnits`) |
| C136 | `Sedov`, `SedovDouble` with `Spec/SedovDouble` | the step in any arithmetic (`nextSolutionBy`), inverted from success (`Lemmas/SedovBy`); rounding of one zone is bounded by its content, the fluxes telescope as doubles |
| C137 | `FileSystem` with `Spec/FileSystem` | file systems as lists of paths with POSIX resolution of links; `remove_recurse` by induction on the depth, its loop by the names left |
| C138 | `Groups` with `Spec/Groups` | files as lists of paths with their objects; names of one component resolved by lemmas on splitting; the loop over a group by induction on the rounds |
| C139 | `GroupFiles` | one task or parameter by the theorems of C138; loops by induction, what other names leave alone by prefixes of paths; reading for any permutation of the names |
| C140 | `Euler`, `Srhd`, `Iso2d`, `SedovSeries` | states of equal specific entropy are a power law, whose derivative is compared with the sound speed and the enthalpy; fluxes by algebra; the slow limit by continuity of the Lorentz factor |
| C141 | `SedovSeries`, `SedovFiles` with `Spec/SedovFiles` | every field is a line of the same recovered cells; what a file holds (`Contents`, `Column`) is carried through the writes; rows by induction |
| C142 | `NdGather`, `NdArray` | the count of the first pass is the number of writes of the second; the rest from C23, C97 |
| C143 | `CloudFiles` with `Spec/CloudFiles`, `CloudDiagnostics`, `CloudSetup` | the fields are those of C103 and C115; `Contents` with extents is carried through the list of writes |
| C144 | `Wrap`, `Double` | induction over the number of lengths; in double precision each call gains at least a quarter of a length, and rounding is monotone, so that the interval is not jumped over |
| C145 | `NdOps`, `QuadtreeDouble`, `Double` | the four roundings of a point are monotone and their errors add up; a rounded number is pinned down by a double nearer than half of the spacing |
| C146 | `AmrSandRun`, `AmrSand`, `Schedule` | an explicit state after each step; the count of files against the ceiling of `k * dfi / dt`; C106 for the steps |
| C147 | `Runs` | case analysis on the parts of the checkpoint |
| C148 | `Mpi` | induction on the run of arrivals and receives, with the messages filtered by source and tag |
| C149 | `Mpi` | case analysis on what the library may do, on top of C50 |
| C150 | `SequenceDerived` | by element; induction on the loop of `lift` |
| C81–C83 | `Euler`, `Iso2d`, `Srhd` | algebra; monotone convergence of Newton's iteration |
| C84–C87 | `TwoBody` | algebra and trigonometry |
