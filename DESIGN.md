# Formal model of GridPACK (pinned source in /repo)

## Approach

* The C++ sources are read as text and transcribed function by function into
  small total Lean 4 functions.  Every model definition cites file and lines
  (relative to `/repo`) and names its simplifications.
* `lean/Verif/Model/*.lean`   – executable models of the code.
* `lean/Verif/Spec/*.lean`    – specifications that do not mention the model
  (only where a spec is bigger than the theorem statement).
* `lean/Verif/Lemmas/*.lean`  – helper lemmas.
* `lean/Verif/Props/*.lean`   – the property theorems plus, beside each, an
  `example` exhibiting a concrete non-trivial instance of its hypotheses.
* Undefined behaviour, C++ exceptions and aborts are distinct outcomes in the
  models (never silently totalised).
* Where the code violates a property, the negation is proved on a concrete
  witness (`..._violated`) and the largest true part is kept as `..._partial`.

## Trusted base

* The Lean 4 kernel, and the axioms `propext`, `Classical.choice`,
  `Quot.sound` (nothing else; no own axioms, no `sorry`, no `native_decide`,
  no `bv_decide`).  The per-theorem axiom listing is at the end of this file.
* The transcription from C++ to Lean (each definition cites its source).
* Modelled as primitives with their documented semantics: Global Arrays
  (`read_inc` atomic; `put/get/scatter/gather` as array updates between syncs),
  MPI collectives (allgather, allreduce, alltoall), `std::map`, `std::multimap`,
  `std::vector`, `std::string`, `boost::property_tree`.
* Floating point: arithmetic properties are proved over exact fields
  (`ℚ`, `ℝ`, `ℂ` or an arbitrary linearly ordered field).  Rounding is not
  modelled.
* 32-bit integer overflow is only modelled where said explicitly.

## Plan per property (written before the proofs)

| Id | What is modelled | How it is proved |
|----|------------------|------------------|
| C01–C03 | shared counter, per-call step function, arbitrary schedule = list of (process, operation) | invariant by induction over the schedule |
| C04–C06 | seven typed maps as association lists, key composition as in the code | refinement to an abstract partial map by induction over histories; injectivity of decimal rendering |
| C07 | colour computation and MPI_Comm_split | arithmetic |
| C08 | per-process item lists, local-first-then-rank-order merge | permutation / filter lemmas over all lists |
| C09 | hash routing, multimap at home process, reply routing | membership equivalence by list lemmas; negative keys excluded (UB) |
| C10–C11 | concatenation, chunk bounds, per-process visit order, local match | list membership + arithmetic partition lemma |
| C12–C13 | edge/node distribution and ghost computation; neighbour lists | membership reasoning over all graphs |
| C14, C19 | prefix-sum numbering, owner-keyed map for ghosts | induction over processes |
| C15 | compaction with index remap | induction over flag list; reference bus expected to be violated for inactive reference bus |
| C16 | scatter from active / gather into ghosts | function update lemmas |
| C17 | bound checks of accessors | case analysis; off-by-one in the buffer accessors expected to be violated |
| C18 | multimap lookups | list lemmas |
| C20 | sum of 0/1 flags | induction |
| C21–C23 | block offsets, scatter, gather | prefix-sum lemmas |
| C24 | scatter by global index, collection in index order | list lemmas |
| C25–C31 | string functions over `List Char` | structural induction; quoting corner cases expected to be violated |
| C32–C33 | fold over columns with mask | induction; base column masked out expected to be violated |
| C34–C35 | control block over a linear ordered field | invariants by induction over steps |
| C36 | property tree lookup | case analysis; string variant expected to be violated |
| C37–C38 | title map, per-process control flow of dump | induction; category mismatch expected to be violated |
| C39 | stream state machine | induction; missing final newline and string vectors expected to be violated |
| C40 | interleaving | induction |
| C41 | prefix indices, slices | induction |
| C42 | iteration loop | induction on the loop |
| C43–C45 | branch/bus admittance over ℂ | field algebra + sums over lists |
| C46 | mismatch and Jacobian over ℝ | `HasDerivAt` with Mathlib |
| C47–C48 | generator/load lists | list algebra; expected to be violated for zero or several loads, and for never-converted buses |
| C49–C50 | status tables, lone bus logic | induction; return value expected to be violated |
| C51 | ignore flags | case analysis; expected to be violated |
| C52 | `fmod` over ℝ | floor arithmetic |
| C53–C54 | counter with wrap-around; client loop with the barrier of the failing request | invariant over schedules |
| C55 | per-kind containers, removal of the last element | refinement |
| C56–C57 | partition followed by the data movement | counting over lists; duplicate ghosts expected to be violated |
| C58–C60 | neighbour pointers, buffer life cycle, remote rows of the generalised mapper | invariants; order lemmas |
| C61–C65 | quoting, tokenising and the block reading loop | structural induction |
| C66–C67 | average/RMS and mask counts | sums over lists |
| C68–C72 | control blocks: clamps, one-step formulas, piecewise slope, dead band | order arithmetic over ℝ |
| C73–C75 | keys, merging, opening on several processes | tree induction |
| C76–C79 | timer statistics, complex values held as reals, event termination, Newton on linear systems | list induction, ring |
| C80–C84 | admittance as a sum of two-ports, power balance, block sizes, corrections | field algebra, derivative lemmas |
| C85–C90 | reactive limits, lone buses, limit checks, contingencies | list induction |
| C91–C92 | result and termination of the power-flow iteration | measure and induction over passes |
| C93–C97 | global store, global vector, global-array shuffler | prefix sums, interleavings, permutation of messages |
| C98–C104 | relays and their effect on buses and branches | induction over histories of measurements |
| C105–C111 | events of the dynamic simulation, matrix before the simulation | time-grid lemmas, sums over event lists |
| C112–C118 | governors: flat start, limits, droop, ignored inputs | rest states of control blocks, Heun step as convex combination, linear cascades |
| C119–C124 | exciters: flat start, limits, lead times, saturation, ignored inputs, steady-state gain | rest states of control blocks, relations between runs, quadratic equations |
| C125–C133 | state estimation: Jacobian rows, residuals, numbering of columns, weighted least squares, passes | directional derivatives along an arbitrary correction, agreement of two mappers, induction over passes |
| C134–C147 | power flow bus data, area scaling, path rating search | induction over histories of calls, sums over buses, loop invariants of the search |
| C148–C151 | synchronous machines and the whole simulation at rest | phase invariants of one machine, composed over the buses by uniqueness of the network solution |
| C152–C155, C164 | generators and loads of a bus in the dynamic simulation | exact contents of the vectors by induction over the records |
| C165 | the step of a machine as Heun’s rule | equality of the code’s real arithmetic with the complex form of the textbook equations |
| C156–C163 | reports, tripping, security check, saturation, bases and reference angle of the machines | relation between rotated runs, closed form of the quadratic equation, fold invariants |
| C166–C172 | lines and transformers of a RAW file: matrix of the records, star equivalents, grouping, reuse, comments | additivity of the matrix over records by induction on the blocks, map invariants, simulation relation |
| C173–C175 | exported RAW files: placement of the texts of all processes, loads, write-and-read round trip of lines and transformers | positions form a permutation of a range, induction over branches, additivity of the matrix |
| C176 | generators out of service in the dynamic simulation | relation between two runs, preserved by every operation |
| C177–C180 | buses, loads, shunts and generators of a RAW file, shunts of the matrix | invariant of the data collections over the records, disjoint names of the blocks |
| C181–C186 | .dyr files: parameters of generators, loads and relays, directly and through the distribution over processes; other data; later records | executable check of each format against its class, proved sound; invariants over records, correctness of the hash distribution |
| C187–C189 | DAE form of the dynamic simulation: matrix as derivative of the residual, with and without fault; initial equilibrium | directional derivatives row by row, placement of device blocks, complex form of the network equations |
| C190–C196 | DAE form: places of variables, limiters, faults, swing equation, bases, lines compared with the power flow, dependence on earlier evaluations | partition of index ranges, induction over events, complex algebra of two-ports, scaling |
| C197–C199 | network analytics: counts, queries about one component, neighbourhoods | sums over permutations, uniqueness of the owning process |
| C200 | tables of bus data | invariant of the slice-wise filling, correctness of the hash distribution |
| C201–C202 | records of .dyr files, unit commitment files | grammar of the file against the reader, induction over its parts; hash distribution of structs |
| C203–C204 | parameters of the devices of generators | tables of the statements of `load`, checked against the formats of the records by a decision procedure proved sound for every file; composition with C181 |
| C205–C210 | contingency analysis driver: list, summary file, statistics, independence of tasks | grammar of the file against the reader; composition of C54, C94, C49; monotonicity of the truncated texts |
| C211–C214 | sequence data | invariant of the tables over the rows of the file, hash distribution of structs, one struct per entry decides |
| C215–C221 | files of version 23 and the first line of all versions | frame rules of the data collections, invariant of the branch map over the lines, simulation of two parsers |
| C222–C230 | commands to a running dynamic simulation: line trips, load changes, injections; time axis | invariant of the marks over histories on all processes, refinement to sums of two-ports; frame of pending changes; negations for all parameters |
| C231–C234 | reports of zones, loads and generators | concatenation by vector sums over processes, correctness of the exchange sort, permutation of buses over processes |
| C235–C238 | scaling, resetting, totals and transfer of the power flow in the dynamic simulation | invariant of the saved values over histories of calls, sums over processes with copies, frame rules of the data; negations for all data |
| C239–C241 | frequency monitoring | soundness and completeness of a state machine against runs of samples, bisimulation of monitors |
| C242–C243 | random numbers | history of calls against a hidden bit, algebra of the polar transform |
| C244–C247 | lists and verdict of the path rating | traversal against membership specifications, clean and unclean executions of the global vector, counting of votes over processes |
| C248–C249 | dynamic simulation with one fault | folds over the flags of buses on every process, arithmetic of floor and truncation |
| C250–C252 | linear solver object | invariant of the collected objects over histories of calls, exact description of the entry that is kept |
| C253–C258 | complex vectors and matrices in a real library | isomorphism between complex matrices and real block matrices, induction over rows and columns of the sparse storage |
| C259–C261 | copy of a network, connected buses, reference bus | induction over the insertions, reuse of the lookup theorem C18 |
| C262–C264 | options of solver objects in the common table of PETSc | invariant over histories of configuration and destruction; prefix order of names |
| C265–C269 | observations of the dynamic simulation on several processes | positions in global vectors, owner of each element, comparison of two filters over the same positions |
| C270–C271 | values of the generalised mappers, columns of a slab | indices of C23, writes in any order; fold over the sizes |
| C272–C276 | ensemble Kalman filter: update, random numbers, times of fault and measurements | matrix identities (push-through), positive definiteness; unfolding of the loop |
| C277–C282 | machines and network of the Kalman filter | complex identities, fold over generators |
| C283–C285 | translation between network and ParMETIS | invariant over the rows of the global arrays, consecutive blocks |
| C286–C287 | time series of watched generators | fold invariants, blocks of four values |
| C288–C291 | changing and reading parameters of the network | case analysis over the search for the element, filter of local copies |
| C292–C295 | MATPOWER files | fold invariants (sorted multimap, first rows of pairs) |
| C296–C299 | load models created for the dynamic simulation, composite load | lists of names, complex arithmetic of branch currents |
| C300–C301 | expansion of composite loads | positions in concatenated lists, consecutive ranges over processes |
| C302–C305 | Motor loads of the dynamic simulation: start, parameters, injected current | linear algebra over the reals, passivity of the circuit, loops as inductive relations |
| C306–C312 | Air conditioners of the dynamic simulation: parameters, stalling, protection, start, injected current | timers as lengths of last stretches, invariants over histories |
| C313–C318 | Converter and wind turbine: start, limits, reports, speeds, controllers | control blocks at rest, invariants over histories, complex power |
| C319–C320 | grid-forming inverter (also C157, C158) | invariant of the blocks at rest, algebra of the injected current |
| C321–C323, C328 | Plant controller: rest, frequency, limits, freezing | control blocks at rest, invariants over histories, strict monotony of a lag in its input |
| C324–C327 | Electrical controller: currents, dips, control of the reactive power, tables | runs of the switch by induction on histories, two runs side by side, first step from the start |

## What is modelled, module by module

Taken from the header comments of the model files; the definitions cite the exact lines.

* **AcMotor** (C306, C307, C308, C309, C310, C311, C312).  # The air conditioners of the dynamic simulation `AcmotorLoad` of `/repo/src/applications/modules/dynamic_simulation_full_y/model_classes/acmotor.cpp`: the motors of single-phase air conditioners, used for the loads `ACMTBLU1` and for the fourth motor of a composite load. Part A of the motors stays stalled, part B restarts. Numbers are real (the code uses doubles); `pow` is the power of real numbers, which for a negative base and an exponent that is no whole number has a value where the code gets NaN. A division by zero gives 0. The messages, the output and the variables that are never used are not modelled.
* **Actions** (C222, C223, C224, C225, C226, C227, C228, C229, C230).  Model of the commands given to a running dynamic simulation between two time steps (src/applications/modules/hadrec/hadrec_app_module.cpp 544-583, which passes them on to src/applications/modules/dynamic_simulation_full_y/dsf_app_module.cpp 2890-3240, 3735-4330, and dsf_components.cpp 204-431, 460-585, 2099-2250, 2960-3090, 3229-3370, 3404-3510, 3826-3925, 3981-4060). Line trips are modelled on every process: each process has its own copies of the buses and branches it holds, and its own marks. The matrix is the distributed matrix, indexed by bus numbers; `incrementMatrix` adds, for each row, what the process that owns the row's bus contributes (see the model of FullMatrixMap). The load commands are modelled on one copy of each bus (every process does the same with its copies, and only the owner's copy reaches the matrix and the right-hand side). No bus is isolated. Arithmetic is exact; `p_branch_status` is 0 or 1. `clean2Char` has been applied to the circuit ids. The generator commands (tripping, wide-area signal, adjustment of inverters) and the equations of the dynamic loads are left out.
* **AdjacencyList** (C13).  Model of `AdjacencyList::ready` (src/partition/adjacency_list.cpp:107-293). `nodes p` : (global index, original index) of the nodes added on process `p`; `edges p` : original indices of the two ends of the edges added on process `p`.
* **AngleWrap** (C52).  Model of the angle stored in the exchange buffer by `PFBus::setValues`, `setXCBuf`, `load` and `resetVoltage` (src/applications/components/pf_matrix/pf_components.cpp 355-360, 377-382, 408-413, 584-589, 637-642). Doubles are real numbers; `4.0*atan(1.0)` is π.
* **BlockParser** (C29, C30, C31, C63, C64, C65).  Model of the line helpers of `BaseBlockParser` (src/parser/block_parsers/base_block_parser.cpp) and of the block reading loop shared by the block parsers (e.g. bus_parser33.cpp:53-125).
* **BusTable** (C200).  Model of `BusTable` (src/parser/bus_table.hpp). A file is the list of its lines that end in a newline, and the text after the last newline (usually empty). `std::getline(…).eof()` holds when the end of the file was met before a newline. `atoi` and `atof` are parameters: any functions from a word to a number. The distribution of the lines over the ranks is `Verif.Model.HashDistr`. The table is read into a fresh object. Outcome `none`: undefined behaviour (a word that is missing is used, memory outside a buffer is read), an exception from `clean2Char`, or an endless loop.
* **BusVectorMap** (C21).  Model of `BusVectorMap` (src/mapper/bus_vector_map.hpp). A process holds a list of buses. `size` is the answer of `vectorSize` (`none` = returns false) and `vals` what `vectorValues` writes. Simplifications: `vectorSize` gives the same answer whenever it is asked (the mapper asks several times), `vectorValues` fills all `size` entries, timers are left out, real and complex versions are the same code and are one definition over any value type. The `GA_Pgroup_igop` sum is the exact sum. The math vector is a function from positions to values; as in PETSc, `addElements` calls of different processes may take effect in any order.
* **CaDriver** (C205, C206, C207, C208, C209, C210).  Model of the contingency analysis driver (src/applications/contingency_analysis/ca_driver.cpp) and of the texts of `PFBus::serialWrite` and `PFBranch::serialWrite` (src/applications/components/pf_matrix/pf_components.cpp 843-1080, 2261-2388) from which it takes its statistics. Doubles are real numbers. The conversion of a number to text and back (`%20.12e`, `%12.6f`, `atof`) is left out, but the length of the text is kept because the buffer of a component is limited to 512 characters (src/applications/modules/powerflow/pf_app_module.cpp 235, 238). `atoi` is a parameter. The power flow solver is a parameter as well: an arbitrary function of the network and of the initial voltages. The printed messages and the output files of the single contingencies are left out.
* **Cblock** (C34, C35, C68, C69).  Model of the linear control block `Cblock` and its subclasses (src/applications/modules/dynamic_simulation_full_y/cblock.cpp). Doubles are modelled as real numbers (no rounding, no NaN). The one-element arrays are plain fields. `p_xhat` and `p_dxdt` are not initialised by the constructor: the model leaves them arbitrary.
* **CoarseTimer** (C37, C38, C76).  Model of `CoarseTimer` (src/timer/coarse_timer.cpp). Times are real numbers supplied by the clock.
* **Communicator** (C07).  Model of `Communicator::divide` and `Communicator::split` (src/parallel/communicator.cpp, src/parallel/communicator.hpp).
* **ComplexOps** (C253, C254, C255, C256, C257, C258).  Model of the operations on vectors and matrices of complex numbers when the PETSc library is built for real numbers: the operators (src/math/complex_operators.hpp), the operations of vectors (src/math/petsc/petsc_vector_implementation.hpp, petsc_vector.cpp, src/math/vector_implementation.cpp), of matrices (src/math/petsc/petsc_matrix_implementation.hpp, petsc_matrix.cpp, petsc_matrix_operations.cpp, src/math/fallback_matrix_operations.hpp, fallback_matrix_methods.hpp). A vector is the list of the local arrays of the processes; a matrix is the function of its real entries with the positions present in the sparse storage. The routines of PETSc on real vectors and matrices (products, sums, transposes, columns) are their mathematical definitions; the loops of all processes over their rows are one loop over all rows. Division by zero gives zero in the model; the theorems exclude it.
* **Composite** (C296, C297, C298, C299).  Model of the composite load (CMLDBLU1) in the dynamic simulation: `DSFullBus::LoadExtendedCmplBus` (src/applications/modules/dynamic_simulation_full_y/dsf_components.cpp 1383-1777), `SetCmplXfmrBranch`, `SetCmplFeederBranch` (4064-4095), the expansion of the bus into a transformer, a low side bus, a feeder and a load bus (src/parser/parser_classes/cmldblu1.hpp 2904-3529, src/parser/base_pti_parser.hpp 151-287), and `LoadFactory::createLoadModel` (load_factory.cpp 48-77). The transformer runs from the bus of the load to the low side bus, the feeder from there to the load bus (cmldblu1.hpp 3523-3528). The matrix is made from the values that `setParam` (ymatrix_components.cpp 804-816) puts into the elements that `YMBranch::load` made from the expanded data (no shift, no charging, tap not 0, so that both elements count as transformers). Real arithmetic is exact; the equations of the motors are not part of the model, a motor enters with its active power and the reactive power it reports.
* **Configuration** (C36, C73, C74, C75).  Model of `Configuration` (src/configuration/configuration.cpp). A `boost::property_tree::ptree` is a node with data and an ordered list of named children. XML parsing (`read_xml`) and the conversion of text to a number are parameters.
* **Contingency** (C49, C90).  Model of `PFAppModule::setContingency` and `unSetContingency` (src/applications/modules/powerflow/pf_app_module.cpp 869-969) on one process. A bus (for generator outages) or a branch (for line outages) is a component with a key and a list of elements. `getLocalBusIndices` / `getLocalBranchIndices` return the local components with the given key, in order of their local index. The two copies of the line status, in `PFBranch` and in `YMBranch`, are one list here. The value `p_contingency_name` and printing are left out.
* **DAEEvent** (C41, C78).  Model of `DAEEventManagerT` (src/math/dae_event.hpp). An event source is given by its number of event values, directions, termination flags, its function from the local state to event values, and its handler. The caches `p_dirs`, `p_terms`, `p_values`, `p_trigger` are filled anew on every use, so only `p_size` is kept.
* **DaeBus** (used by the other modules).  Model of the buses and branches of the DAE form of the dynamic simulation (src/applications/modules/dynamic_simulation_dae/dsimnetwork.cpp, dsimfactory.cpp, dsim.hpp, dsim.cpp): placing the variables of the devices, pushing vectors onto the devices, residual, matrix blocks, initial values, fault events. Conventions as in `Verif/Model/DaeMachines.lean`. All processes are taken together: a bus is modelled where it is local, and the voltages of neighbours are those exchanged by `updateBuses`. `load` of a bus is modelled from the point where the devices have been created; a generator of unknown type (null pointer) does not occur. For each pair of buses there is at most one branch object holding all parallel lines; if there are more, the model uses the matrix block of the first. A branch between a bus and itself does not occur in the statements. An isolated bus never receives a voltage (`load` runs before the buffer exists, lines 214, 508-509, 684): the model has an arbitrary value there. Its matrix block is written through a pointer that was never set (lines 227, 346, 391); the model gives what the code intends.
* **DaeControls** (used by the other modules).  Model of the exciters EXDC1, ESST1A and the governor WSIEG1 of the DAE form of the dynamic simulation (src/applications/modules/dynamic_simulation_dae/model_classes/{exdc1,esst1a,wsieg1}.cpp): equations, derivatives, initial values, and the limiter flags with their events. Conventions as in `Verif/Model/DaeMachines.lean`. `iseq_diff[k]` is computed from the time constants where the code reads the stored flag (both are set in `load` and not changed afterwards). ESST1A is left by `exit(1)` if `|Klr| > 1e-6`; the model has no `Klr`: it is 0. `fmin`, `fmax` are `min`, `max` on real numbers. The event functions copy the state handed over by the integrator to the members of the device before use; the model takes that state as argument.
* **DaeMachines** (used by the other modules).  Model of the machines of the DAE form of the dynamic simulation (src/applications/modules/dynamic_simulation_dae/model_classes/{classical_gen_model,genrou,gensal}.cpp): their equations, injected currents, derivatives and initial values. Doubles are real numbers, `4 atan(1)` is `π`, `atan2(y, x)` is the argument of `x + iy`; a division by zero gives 0 here instead of an infinity or NaN. The entries of vectors and matrices are complex numbers in the code whose imaginary parts are never used; here they are real. A variable (or equation) at a bus is named by `Ix`: entry `i` of the bus itself, or entry `k` of the generator, its exciter or its governor. `Verif/Model/DaeBus.lean` turns these names into positions as `setBusOffset` does. A `setJacobian` is the list of its assignments `values[c][r] = v` and `values[c][r] += v` in their order. Members holding the state are read as functions of `Ix`: `X` the state, `Xd` its time derivative, `P` the state before a fault (`setValues` with the modes `XVECTOBUS`, `XDOTVECTOBUS`, `XVECPRETOBUS`). The matrix is assembled at the state at which the residual was evaluated last (dsim.hpp 81 leaves out pushing the vector again). The saturation functions return 0 (genrou.cpp 162, gensal.cpp 142).
* **DataCollection** (C04, C05, C06, C55).  Model of `gridpack::component::DataCollection`, /repo/src/component/data_collection.cpp, with `OLD_MAP` defined as in data_collection.hpp:9 (`std::map` containers). Simplifications: a `std::map` is an association list with unique keys (iteration order is never observed except by `dump`, which is not modelled). Values are of an arbitrary type `V t` for each of the seven value kinds `t`.
* **Dblock** (C70, C71, C72).  Model of the discontinuous control blocks (src/applications/modules/dynamic_simulation_full_y/dblock.cpp). Doubles are real numbers.
* **DeviceLoad** (C203, C204).  Model of how a bus of the dynamic simulation creates the devices of a generator and of how these devices load their parameters: the part of `DSFullBus::load` in src/applications/modules/dynamic_simulation_full_y/dsf_components.cpp 933-1107 about generators, exciters, governors, stabilisers, plant controllers and the parts of wind turbines, the functions of src/applications/modules/dynamic_simulation_full_y/generator_factory.cpp, and the functions `load` of the classes in src/applications/modules/dynamic_simulation_full_y/model_classes. Simplifications: a device is the function from its members to their values; what `load` computes from the members it read (blocks, saturation coefficients) is left out; real numbers for doubles; converting a name to upper case is `Char.toUpper`; calling a function of a missing device and leaving a vector is `none`.
* **DsEvents** (C105, C106, C107, C108, C109, C110, C111).  Model of events in the dynamic simulation (src/applications/modules/dynamic_simulation_full_y: dsf_events.cpp, dsf_app_module2.cpp, dsf_components.cpp). One process holds the whole network; no bus is isolated. A bus is named by its position in the list of buses. Times are exact real numbers. The contributions of a circuit to the matrix, which `getLineElements` and `getRvrsLineElements` compute from its parameters (model `YMatrix`), are stored in the circuit; the Norton admittance of a generator is a constant. Circuit and generator ids are in the form that `clean2Char` gives them.
* **DsLoad** (C152, C153, C154, C155, C164).  Model of `DSFullBus::load` (src/applications/modules/dynamic_simulation_full_y/dsf_components.cpp 844-1283): the vectors of generators and loads of a bus. `GENERATOR_NUMBER` and `LOAD_NUMBER` are the lengths of the lists of records. Values missing in the data are `none`: the local variable then keeps the value it has, which at first is arbitrary. Exciters, governors, relays and the parameters of the models are not part of this file; access beyond the end of a vector gives `none`. Buses that a composite load model has added, and shunts, are left out.
* **DsScaling** (C235, C236, C237, C238).  Model of the functions of the dynamic simulation that scale and reset power, of the totals they are based on and of the transfer of the power flow solution. * src/applications/modules/dynamic_simulation_full_y/dsf_components.cpp 844-961, 1144-1187 (`DSFullBus::load`), 2457-2505 (`setGeneratorRealPower`, `setGeneratorStatus`), 2725-2784 (`scaleGeneratorRealPower`, `scaleLoadPower`, `resetPower`), 2795-2840 (`getGeneratorMargins`, `getLoadPower`) * src/applications/modules/dynamic_simulation_full_y/dsf_factory.cpp 436-583 (`scaleGeneratorRealPower`, `scaleLoadPower`, `getTotalLoadRealPower`, `getGeneratorMargins`, `resetPower`) * src/applications/modules/dynamic_simulation_full_y/dsf_app_module.cpp 4835-4874 (`transferPFtoDS`) Numbers are real. All values of a generator or load are present in the network data; loads have no dynamic model; a bus has at least the entry `GENERATOR_NUMBER` (`p_ngen` is the number of generators read last).
* **DsStep** (C148, C149, C150, C151, C156, C157, C158, C159, C160, C161, C162, C163, C165, C176).  Model of one time step of the dynamic simulation (src/applications/modules/dynamic_simulation_full_y/dsf_app_module2.cpp 75-320 with the loops of dsf_components.cpp 461-475, 642-742, 789-801 and dsf_factory.cpp 168-262). The buses are the elements of a finite type `ι`, each with its generators (status, model) and its voltage. The linear solver is a function from the current vector to the voltage vector. Dynamic loads, load shedding, scattered injections, relays, events, bus frequencies and the wide-area signal are left out; they are the subject of other files or have no effect on the generators modelled here. The process distribution is left out.
* **Dyr** (C181, C182, C183, C184, C185, C186).  Model of reading a .dyr file (parameters of the devices of a dynamic simulation): src/parser/base_pti_parser.hpp `find_ds_par` (1520-1767; the parameters are put into the data collections at once, in the following "direct") and `find_ds_vector` (1769-1966) with `getDSExternal` (1016-1260; the parameters are put into structs on process 0, distributed and then put into the data collections, "external"). The functions `parse`, `store` and `extract` of the classes in src/parser/parser_classes are lists of steps of the same form; this file says what a step does, the lists are in DyrTables.lean. Simplifications: the steps start from the tokens of a record (`splitPSSELine` is modelled in BlockParser); `atoi`, `atof`, `clean2Char`, `trimQuotes` with `toUpper` and the conversion of a double to an int are functions; a struct is a function from member names to values, an uninitialised one an arbitrary such function; `char` arrays are strings of any length; an access outside a vector is `none`.
* **DyrFile** (used by the other modules).  Model of reading the records of a .dyr file into the data collections (src/parser/base_pti_parser.hpp 1016-1260, 1442-1488, 1520-1966): which records are for which device, and where their parameters go. See Dyr.lean for the simplifications; further ones: `p_busMap` finds the first bus of a list with the number; the loop over the generators or loads of a bus is `find?` (the indices are assumed to have at most seven digits).
* **DyrRecords** (C201).  Model of how the readers of .dyr files make records of the lines (src/parser/base_pti_parser.hpp: find_ds_par 1520-1539 for the reader working on its own data, find_ds_vector 1775-1797 for the reader on one process that hands the records out) and of `splitPSSELine` there (120-144), which is the same text as the one of base_block_parser.cpp modelled in `Verif/Model/BlockParser.lean`. A file is the list of its lines as `std::getline` delivers them. Inside a record the result of `std::getline` is not looked at; at the end of the file `line` keeps its contents or becomes empty (`eof`), as in `BlockParser.readBlock`. The positions are ints, `std::string::npos` is −1.
* **DyrTables** (used by the other modules).  The steps of `parse`, `store` and `extract` of the classes in src/parser/parser_classes, in their order. Each list was copied from the source; a name in capital letters is the string of the macro of this name (the macros are in src/parser/variable_defs). `RELAY_NUMBER`, which the relay classes count up first, is in DyrFile.lean.
* **ElecControl** (C324, C325, C326, C327).  Model of the electrical controller `REECA1` (src/applications/modules/dynamic_simulation_full_y/model_classes/reeca1.cpp) with `PFFLAG` 0 (the control of the power factor is not implemented there). Doubles are real numbers. What the constructors of the blocks leave unset is an argument of `load`. The filter of the electrical power is not modelled, nothing reads it.
* **Exchange** (used by the other modules).  Model of the all-to-all exchange idiom through Global Arrays that is used (copied) by `GlobalIndexHashMap` (src/parallel/index_hash.cpp:51-231, 424-779) and in `hash_distr.hpp`: sort items by destination into a linked list, reserve space at every destination by `read_inc`, compute global offsets, write, synchronise, read back.
* **ExchangeBuffers** (C17, C59).  Model of the exchange buffer bookkeeping of `BaseNetwork` (src/network/base_network.hpp:1713-1989): `allocXCBus`, `freeXCBus`, `allocXCBusPointers`, `setXCBusBuffer`, `getXCBusBuffer` and their branch counterparts, together with the index checks of the ordinary accessors (lines 518-1036). Memory is modelled explicitly: the pointer array is null, live or freed, and every entry of a live array is uninitialised, a buffer owned by the network, or a buffer supplied by the caller. Any access outside a live array, any use of a null or freed array, any read or deletion of an uninitialised entry and any deletion of a caller's buffer is the outcome `ub`.
* **Exciters** (C119, C120, C121, C122, C123, C124).  Model of the exciters SEXS, EXDC1, IEEET1 and ESST1A (src/applications/modules/dynamic_simulation_full_y/model_classes/{sexs,exdc1,ieeet1,esst1a}.cpp), built from the control blocks of `Cblock` and `Dblock`. Doubles are real numbers; division by zero gives 0 here instead of an infinity. Parameters are given as in `Governors`: `none` if the data collection has no value. A result `none` means that one of the blocks throws. Members that a constructor leaves uninitialised are arbitrary. A generator drives an exciter with `setVterminal`, `setVcomp`, `setFieldVoltage`, `setFieldCurrent`, `init` and then, in every time step, the setters for its inputs followed by `predictor`, the setters again, `corrector`, and reads `getFieldVoltage`.
* **Expand** (C300, C301).  Model of `BasePTIParser::expandBusModels` (src/parser/base_pti_parser.hpp 151-287) and `Cmldblu1Parser::expandModel` (src/parser/parser_classes/cmldblu1.hpp 3489-3529): composite loads become a transformer, a low side bus, a feeder and a load bus. Numbers are unbounded integers. The parameters copied to the new buses and branches are not part of this model (see Composite.lean); the renumbering at the end is the subject of GlobalIndices.lean, the lookup maps made by `setComponents` that of NetworkLookup.lean. `BUS_NUMBER` of the data of a bus is its original number.
* **Export** (C173, C174, C175).  Model of writing a network to a RAW file (version 33): src/export/base_export.hpp `writeDataBlock` (67-180), src/export/data_blocks/export_line33.hpp, export_xform33.hpp, export_load33.hpp and the loops of export_gen33.hpp, export_fxshnt33.hpp, export_bus33.hpp. Simplifications: a text is the record it spells (a text written with `sprintf` and read with the tokenizer, `atoi` and `atof` gives the integers back and the doubles rounded as `fmt` says; circuit names come back as they were); ratings, meters, owners, control data and the header of the file are left out; a value the data collection lacks where the code gives no default (`rval` keeps an older value) counts as 0; a write outside a global array is `none`; memory of a global array nobody wrote to is `none` at its place.
* **FactoryChecks** (C50, C51, C86, C87, C88, C89).  Model of the checks of `PFFactoryModule` (src/applications/modules/powerflow/pf_factory_module.cpp 129-594) for lone buses, voltage limits and line overloads. Each process has a list of buses and of branches; `checkTrue` is the model of `BaseFactory::checkTrue`. Printing is left out, and so is the list `p_violations`. Doubles are real numbers.
* **FaultSim** (C248, C249).  Model of a dynamic simulation with one fault, `DSFullApp::solve(fault)` (src/applications/modules/dynamic_simulation_full_y/dsf_app_module.cpp 420-1290): the matrix of the faulted network and the steps in which it is used. A process holds its own buses and ghosts of the neighbours; a bus is named by its original index, of which a process has one object. The values `p_ybusr`, `p_ybusi` of a bus are its data; the matrix `ybus` is a function of two bus numbers (numbering and assembly are the models `FullMatrixMap` and `DsEvents`). No bus is isolated. Times are exact real numbers; the conversion `(int)` truncates. Relays, which change the matrices during a run, and the integration itself (model `DsStep`) are left out.
* **FreqMonitor** (C239, C240, C241).  Model of the monitoring of generator frequencies in a dynamic simulation. * src/applications/modules/dynamic_simulation_full_y/dsf_components.cpp 933-940 (`DSFullBus::load`), 2649-2718 (the two functions `checkFrequency` of a bus) * src/applications/modules/dynamic_simulation_full_y/dsf_app_module.cpp 1494-1556 (`checkFrequency`, `setFrequencyMonitoring`, `frequencyOK`), 1259-1263 (use in `solve`) Times and frequencies are real; every generator of a bus has a model (see C153 for the others).
* **FullMatrixMap** (C22).  Model of `FullMatrixMap` (src/mapper/full_map.hpp). A component's answer to `matrixDiagSize`/`matrixForwardSize`/`matrixReverseSize` together with the corresponding `...Values` call is a `Block`: `none` = the size call returns false; `vals = none` = the values call returns false; otherwise `vals icnt` is `values[icnt]`. Simplifications: a component answers the same whenever asked and fills the whole block; sizes are natural numbers; timers, the preallocation counts (`p_maxcol`, `p_nz_per_row`, 555-624) and the `DBG_CHECK` code are left out; real and complex versions are one definition. Writes of different processes to a global array or to the matrix may take effect in any order.
* **GaShuffler** (C97).  Model of `gaShuffler::operator()` (src/parallel/ga_shuffler.hpp 74-188). All processes run the function together. Serialisation is a pair of functions: `enc` gives the integers of the archive of a list, padded to whole integers (114-126), `dec` reads a list back from such a buffer (170-177). A global array is a function; writes and reads of one round are separated by the two synchronisations (156, 179).
* **GenMap** (C23, C60).  Model of the index assignment of the generalised mappers: `GenMatrixMap` (src/mapper/gen_matrix_map.hpp), `GenVectorMap` (src/mapper/gen_vector_map.hpp) and `GenSlabMap` (src/mapper/gen_slab_map.hpp), and of the branch part of `GenMatrixMap::loadBranchData`. The three mappers (and rows and columns of the matrix mapper) run the same code with different size functions (`matrixNumRows`, `matrixNumCols`, `vectorNumElements`, `slabSize`), so there is one model with a size per component. Simplifications: sizes are natural numbers and the same whenever asked; the two work arrays of offsets are one function on components; allocation failures and timers are left out. Scatter writes of different processes may take effect in any order.
* **GenTransfer** (C270, C271).  Model of the transfer of values by `GenVectorMap` (src/mapper/gen_vector_map.hpp 76-188, 456-514) and `GenSlabMap` (src/mapper/gen_slab_map.hpp 76-231, 318-350, 573-640), and of the check of the number of columns of `GenSlabMap` (279-348). The indices are those of `Model/GenMap.lean`. The vector mapper moves one number per index and the slab mapper one row of `p_nColumns` numbers; the type `α` stands for either. A vector or matrix is a function of the index; `setElement` of different processes may take effect in any order, the values are there after `ready()`. The work arrays of a process are large enough by construction (`p_maxValues` is the largest size) and are left out.
* **GhostUpdate** (C16, C19, C20, C58).  Models of the ghost update (`BaseNetwork::initBusUpdate`, `updateBuses`, src/network/base_network.hpp:1995-2182; the branch versions at 2188-2375 have the same structure), of the component numbering in `BaseFactory::setComponents` (src/factory/base_factory.hpp:148-235), of the collective tests `checkTrue`, `checkTrueSomewhere` (src/factory/base_factory.hpp:409-451) and of the buffer set-up in `BaseFactory::setExchange` (src/factory/base_factory.hpp:291-327). A Global Array is a function from positions to cells. `NGA_Scatter` by all processes between two synchronisations is a list of single-element writes in an arbitrary order: the parameter `ws` of the models, which the theorems only assume to be *some* permutation of all the writes issued.
* **GlobalIndices** (C14).  Model of `BaseNetwork::resetGlobalIndices` (src/network/base_network.hpp:1452-1606). The bus half (lines 1461-1528, key = original bus number) and the branch half (lines 1530-1605, key = pair of original bus numbers) are the same up to the key type; they are modelled once, generic in the key type `K` and the hash used by `GlobalIndexHashMap`. C `int`s are unbounded integers here. `printf` diagnostics are left out.
* **GlobalStore** (C93).  Model of `GlobalStore` (src/parallel/global_store.hpp). All processes call `upload` together. A Global Array is a function from positions to values; writes of different processes take effect in any order (parameter `ws`). `NGA_Put` and `NGA_Get` need a range with at least one element; any other range is the outcome `badRegion`. Indices are unbounded integers.
* **GlobalVector** (C94, C95, C96).  Model of `GlobalVector` (src/parallel/global_vector.hpp). All processes call `upload` together. Between two synchronisations the actions of the processes are interleaved in any way (`Interleaved`). `GA_Zero`, `GA_Allocate` and `GA_Destroy` synchronise; `NGA_Scatter`, `NGA_Scatter_acc`, `NGA_Access` and `memset` do not. A scatter is a sequence of single-element writes; `own i` is the process that holds element `i` (`NGA_Distribution`), an arbitrary function here. `zero` is the value all bytes of which are 0.
* **Governors** (C112, C113, C114, C115, C116, C117, C118).  Model of the turbine governors TGOV1, GAST, HYGOV and WSIEG1 (src/applications/modules/dynamic_simulation_full_y/model_classes/{tgov1,gast,hygov,wsieg1}.cpp), built from the control blocks of `Cblock` and `Dblock`. Doubles are real numbers; division by zero gives 0 here instead of an infinity. The parameters come from a `DataCollection`; a parameter is given here as an `Option` that is `none` if the collection has no value for it. `load` gives `none` when one of the blocks throws. Members that a constructor leaves uninitialised are arbitrary. A governor is driven by the generator with `setMechanicalPower`, `setRotorSpeedDeviation`, `init` and then, in every time step, `setRotorSpeedDeviation`, `predictor`, `setRotorSpeedDeviation`, `corrector` and `getMechanicalPower`.
* **GridForming** (C157, C158, C319, C320).  Model of the grid-forming inverter `GDFORM` (src/applications/modules/dynamic_simulation_full_y/model_classes/gdform.cpp). Doubles are real numbers. The blocks are those of `Cblock` and `Dblock`; what their constructors leave unset is an argument of `load`. Output strings are not modelled.
* **HashDistr** (C10, C11).  Model of `HashDistribution::distributeBusValues` and `distributeBranchValues` (src/parser/hash_distr.hpp), the `SYSTOLIC` variant, which is the one compiled (line 25). The four functions (lines 115-231, 518-651, 983-1105, 1404-1540) have the same control flow and differ in the key type (bus number or ordered pair of bus numbers) and in the value type, so they are modelled once, generic in `K` and `V`. The two argument vectors are modelled as one list of pairs (unequal lengths throw before anything is done, lines 122-129).
* **IndexHash** (C09).  Model of `GlobalIndexHashMap` (src/parallel/index_hash.cpp, the build without `HASH_WITH_MPI`, which is the one compiled because line 24 is commented out). The integer-key and the pair-key members are textually the same except for the key type and the record length, so they are modelled once, generic in the key type `K` and the hash. A record of two, three or four C `int`s (strides `2*`, `3*`, `4*` in the code) is one cell in the model. 32-bit overflow in `pairHashValue` is not modelled.
* **InputStream** (C39).  Model of `InputStream` (src/stream/input_stream.cpp). A file is its sequence of characters. `std::getline` follows the C++ standard: on a stream that is not good nothing is read and the string keeps its contents; otherwise characters up to the newline are taken, and reaching the end of the file sets the eof state.
* **KalmanFilter** (C272, C273, C274, C275, C276).  Model of the ensemble Kalman filter of the dynamic state estimation (src/applications/modules/kalman_ds/kds_app_module.cpp 360-395, 420-800; src/applications/components/kds_matrix/kds_components.cpp 351-500, 832-890). Matrices have real entries: the slabs are complex, but `Perturbation`, `Measurements`, `HX` and `HA` put real numbers into them, and only the real part of the increment is used. `n` counts states, `m` measurements, `N` members of the ensemble. The solver of the library is a function `solve` with `Q * solve Q Z = Z` for an invertible `Q`. Numbers are real: rounding is left out.
* **KalmanMachine** (C277, C278, C279, C280, C281, C282).  Model of the machines and of the network of the dynamic state estimation (src/applications/components/kds_matrix/kds_components.cpp 168-230, 452-474, 511-624, 672-700, 893-1037, 1296-1313; src/applications/modules/kalman_ds/kds_factory_module.cpp 91-103, kds_app_module.cpp 216-262). Numbers are real. Generators have all their static data (`lgen` is true). A missing value of `BUS_PF_VMAG` or `BUS_PF_VANG` is left out. A network is the list of its buses and branches; that the parsers add what they read to the network they are given is taken from `createNetwork` (src/parser/base_parser.hpp 86-101).
* **LinSolve** (C250, C251, C252).  Model of the linear solver object (src/math/linear_solver_implementation.hpp, src/math/petsc/petsc_linear_solver_implementation.hpp): solving with one right hand side, solving again, solving for all the columns of a matrix, the serial mode (`ForceSerial`), and the tolerances. The Krylov solver of PETSc is a parameter (`ksp`: matrix, right hand side and, unless the guess is taken to be zero, initial guess; `none` is divergence, which the code reports by an exception). Every process of the serial mode does the same work on the same data, so one copy of the collected objects stands for all processes.
* **Machines** (used by the other modules).  Model of the synchronous machines of the dynamic simulation: classical model, GENROU and GENSAL (src/applications/modules/dynamic_simulation_full_y/model_classes/{classical,genrou,gensal}.cpp and base_classes/base_generator_model.cpp), each with its optional exciter and governor. Doubles are real numbers, `4 atan(1)` is `π`, `atan2(y, x)` is the argument of `x + iy`; division by zero gives 0 here instead of an infinity or NaN. Members that a constructor leaves uninitialised are arbitrary. Values missing in the `DataCollection` are `none`. The stabiliser (PSS) of GENSAL is left out: the model is that of a machine without one. Text output other than the values of `getWatchValues` is not modelled.
* **MatPower** (C292, C293, C294, C295).  Model of reading generators, branches and generator costs from a MATPOWER file: `MAT_parser` (src/parser/MAT_parser.hpp), functions `parse_generators` (281-374), `parse_branches` (376-488), `parse_gen_costs` (512-576) and `get_char_id` (737-752). The model starts from rows whose words have been converted to numbers; the values that are copied to the data collection under the index of the element are one value of an arbitrary type. The rows in front of the line with `];` are given as a list.
* **MotorW** (C302, C303, C304, C305).  # The motor of the dynamic simulation `MotorwLoad` of `/repo/src/applications/modules/dynamic_simulation_full_y/model_classes/motorw.cpp`: an induction motor with two rotor circuits, used for the loads `CIM6BL` and for the three motors of a composite load. Numbers are real (the code uses doubles). The reading of the parameters of a composite load is modelled by module `Composite`; here the parameters are the fields of `Data`. The messages for debugging are not modelled. The magnetising reactance of the rotor `lmr` is 0 in the code (no record sets it) and left out. The variable `C0` is assigned by `init` before any use, so that the value read from the record is not part of the data.
* **NetworkAnalytics** (C197, C198, C199).  Model of `NetworkAnalytics` (src/analysis/network_analytics.hpp), of the analytics interface of the components (src/component/base_analytics_intfc.cpp) and of the queries of `BaseNetwork` that they use (src/network/base_network.hpp). The ranks of the communicator are the positions of a list; a collective call is a function of the parts of the network held by all ranks. `Communicator::sum` and `any` are taken as the sum and the disjunction over the ranks, `boost::mpi::broadcast` as handing the value of the root to every rank. The 32 bit limit of `int` is not modelled. `none` as the result of a collective call: some rank throws an exception (the others then wait in the reduction), or the root of the broadcast is not a rank. The data collection is modelled in `Verif.Model.DataCollection`; here it is a function from name and optional index to the stored value. The global number of a component is the one set by `BaseFactory::setComponents` (src/factory/base_factory.hpp:120-146), i.e. that of the network.
* **NetworkClean** (C15).  Model of `BaseNetwork::clean` (src/network/base_network.hpp:1266-1385). The release of the exchange buffers at its start (lines 1272-1318) is modelled in `Verif.Model.ExchangeBuffers`.
* **NetworkClone** (C259, C260, C261).  Model of copying a network to one with other components (`BaseNetwork::clone`, src/network/base_network.hpp 1395-1444) with the functions it calls, of `clear` (1611-1708), of the reference bus (485-508) and of `getConnectedBuses` (985-1014). The values of a data collection are one value `δ`, copied by the assignment of src/component/data_collection.cpp 27-39; the components themselves are not copied. The release of the exchange buffers in `clear` is in `Verif.Model.ExchangeBuffers`. Exceptions are `none`.
* **NetworkLookup** (C18).  Model of the lookup maps of `BaseNetwork` (src/network/base_network.hpp:2477-2542): `setMap`, `getLocalBusIndices`, `getLocalBranchIndices`. A `std::multimap` is a list kept sorted by key; an insertion goes after all entries whose key is not greater (required by C++11). `find` is modelled as in the GNU library, where it returns the first entry with the key (the standard would allow any).
* **NewtonRaphson** (C42, C79).  Model of `NewtonRaphsonSolverImplementation::p_solve` (src/math/newton_raphson_solver_implementation.hpp 134-166). Vectors are elements of a type with addition and negation; function, linear solve with the Jacobian at the current point, and norm are parameters.
* **Observations** (C265, C266, C267, C268, C269).  Model of the observations of the dynamic simulation (`DSFullApp::setObservations`, `getObservationLists`, `getObservations_withBusFreq`, src/applications/modules/dynamic_simulation_full_y/dsf_app_module.cpp 1949-2800). The four kinds of observed elements (generators, loads, buses, buses for their frequency) are handled by four copies of the same code; the model has one version with the differences as parameters: whether the list of names and the list of marks are cleared at the beginning. The reading of the observation block of the configuration is not part of the model, it begins with the list of names. A global vector (`Model/GlobalVector.lean`) is its content after the synchronisation; since no two processes write the same element, the processes are taken one after the other. Reading or writing outside a vector of the program, and the exception for a global vector without elements, are `none`. `p_obs_lGenBus` and `p_obs_lVBusfreq` only matter by their lengths; the reading of `p_obs_vBus` at the position of a frequency observation (2245, 2263), which may be outside, is left out.
* **PFBusData** (C134, C135, C136, C137, C138, C139, C140, C141, C142, C143, C144, C145, C146, C147).  Model of the input data of `PFBus` (src/applications/components/pf_matrix/pf_components.cpp), of the functions that change generation and load, of the functions of `PFFactoryModule` (src/applications/modules/powerflow/pf_factory_module.cpp 688-931) that apply them to an area, and of the path rating driver (src/applications/rtpr/rtpr_driver.cpp 605-664, 1020-1159) that uses them. Doubles are real numbers. The parallel arrays `p_gid`, `p_gstatus`, `p_pg`, ... of a bus are one list of records; only `p_savePg`, `p_savePl`, `p_saveQl`, which `load` does not clear, are lists of their own. Exchange pointers, printing and the phase angle are left out (the angle goes the same way as the voltage magnitude). The keys for the system base, the voltage and the bus type are taken to be present in the data collection.
* **PFSolve** (C91, C92).  Model of the iteration in `PFAppModule::solve` (src/applications/modules/powerflow/pf_app_module.cpp 314-561). The network (all buses, on all processes) is an abstract state. Timers, printing and `clearViolations` are left out. Doubles are real numbers.
* **ParamEdit** (C288, C289, C290, C291).  Model of the functions that change and read input parameters of the network: `modifyDataCollectionGenParam`, `...LoadParam`, `...BusParam`, `...BranchParam` and `getDataCollection...Param` of `PFAppModule` (src/applications/modules/powerflow/pf_app_module.hpp 488-860, pf_app_module.cpp 1258-1421), on one process. The functions of `DSFullApp` (dsf_app_module.hpp 850-965, dsf_app_module.cpp 4611-4667) are the same except that the identifier is cleaned once, and those of `HADRECAppModule` (hadrec_app_module.cpp 680-843) pass on to these. `getLocalBusIndices(id)` gives the local buses with this original number in local order (C18). Indices of elements with more than seven digits, for which the data collection has undefined behaviour, count as missing.
* **ParmetisWrapper** (C283, C284, C285).  Model of `ParMETISGraphWrapper` (src/partition/parmetis/parmetis_graph_wrapper.cpp 64-376) and of the use of it in `ParMETISGraphPartitionerImpl::p_partition` (parmetis_graph_partitioner_impl.cpp 75-165). `ids` are the global indices of the nodes added on every process, `nbrs` their adjacency lists (`AdjacencyList`, see `Model/AdjacencyList.lean`). Global arrays are functions of the index; puts of different processes into different places are taken one after the other. A patch that is empty is refused by Global Arrays (`pnga_locate_region` fails, the program stops); this is `none`. ParMETIS itself is a parameter: the destinations it returns on every process.
* **Partition** (C12, C56, C57).  Model of `GraphPartitionerImplementation::partition` (src/partition/graph_partitioner_implementation.cpp:121-493) and of the data movement in `BaseNetwork::partition` (src/network/base_network.hpp:1046-1234).
* **PetscOptions** (C262, C263, C264).  Model of `PETScConfigurable` (src/math/petsc/petsc_configurable.cpp), the way in which the options of a solver object travel through the option table of PETSc, which is common to the whole process. The table is a map from option names (without the dash) to optional values; PETSc compares names without regard to case, so names are stored in small letters. `PetscOptionsInsertString` is modelled by its documented rule: a word that looks like an option is entered, with the next word as its value unless that looks like an option too; other words are skipped. Quotation marks in the option string, the special options `-options_file`, `-prefix_push`, `-prefix_pop`, and the words `-inf` and `-nan` (numbers for PETSc) are not modelled. `PetscOptionsClearValue` takes a name out of the table. An object that is built with a prefix reads the entry of the prefix followed by the name of the option. Prefix and option string come from the configuration (`Model/Configuration.lean`).
* **PlantControl** (C321, C322, C323, C328).  Model of the plant controller `REPCA1` (src/applications/modules/dynamic_simulation_full_y/model_classes/repca1.cpp). Doubles are real numbers. What the constructors of the blocks leave unset is an argument of `load`.
* **PowerFlow** (C46, C82, C83, C84).  Model of the power-flow components (src/applications/components/pf_matrix/pf_components.cpp): mismatch vector and Jacobian. Simplifications: doubles are real numbers; the small-matrix variant is modelled (`LARGE_MATRIX` is commented out in line 35); buses are numbered and all of them are on one process. The voltage magnitude used by a bus itself (`p_v`) and the one its neighbours read from the exchange buffer (`getVoltage`, 672) are one value, and so are the angles (the exchanged angle differs by whole turns, see C52). `p_theta` of a branch is recomputed by every `getPQ` (2213); the Jacobian is evaluated after the mismatch at the same state (src/applications/modules/powerflow/pf_app_module.cpp 378-396 and 479-489), so it sees the current value, and the current `p_Pinj`, `p_Qinj`.
* **QLimit** (C47, C48, C85).  Model of the reactive-limit handling of `PFBus` (src/applications/components/pf_matrix/pf_components.cpp) and of the factory functions that call it (src/applications/modules/powerflow/pf_factory_module.cpp). Doubles are real numbers. Printed warnings are left out. `p_gstatus` is kept apart from the other generator arrays because `clearQlim` changes its length.
* **Random** (C242, C243).  Model of `gridpack::random::Random` (src/parallel/random.cpp 34-116). The generator `boost::mt19937` with `uniform_real(0,1)` is a type `G` of states with a function from seeds and a step that gives a number; numbers are real. `seed(int)` takes the absolute value; the smallest integer, whose absolute value overflows, and seeds so large that adding the rank overflows are left out.
* **Raw23** (C215, C216, C217, C218, C219, C220, C221).  Model of reading a PSS/E RAW file of version 23: src/parser/PTI23_parser.hpp (`getCase` 102-188, `find_case` 190-229, `find_buses` 231-347, `find_generators` 349-496, `find_branches` 498-632, `find_transformer` 637-848, `find_area` 850-881, `find_shunt` 915-1098; `cleanComment` of src/parser/base_pti_parser.hpp 2061-2086 has the text modelled in BlockParser), and of the first line of a file of version 33 to 35 (src/parser/block_parsers/case_parser33.cpp 42-88, the same text in case_parser34.cpp). Simplifications: the model starts from the tokens of the lines of the blocks (`splitPSSELine`, comments and the end of a block are modelled in BlockParser and RawRecords); `atoi`, `atof` and `clean2Char` are functions on tokens; an access outside a vector is `none`; `p_check_v23` and what is printed are left out; of the values of a branch those kept as they are in the file (ratings) are left out; the values `TRANSFORMER_...` of an element are the tokens of the first transformer line for it (`addValue` keeps the first value of a key).
* **RawBranch** (C166, C167, C168, C169, C170, C171).  Model of reading the branch and transformer blocks of a PSS/E RAW file (version 33) and of loading the branches built from them: src/parser/block_parsers/branch_parser33.cpp, transformer_parser33.cpp, the parts of src/parser/PTI33_parser.hpp `getCase` (199-298) that concern branches, and `YMBranch::load` (src/applications/components/y_matrix/ymatrix_components.cpp 450-519). Simplifications: the model starts from records whose tokens have been converted to numbers (`atof`, `atoi` and the tokenizer are modelled elsewhere); ratings, meters, owners and the values with prefix `TRANSFORMER_` that only keep the input are left out; a `std::map` is a list of pairs in which a key occurs once; a division by zero, an access outside a vector and the use of an uninitialised index are all `none`.
* **RawBus** (C177, C178, C179, C180).  Model of reading the buses of a PSS/E RAW file (version 33) and the devices at them, and of loading the shunt of a bus: src/parser/block_parsers/bus_parser33.cpp, load_parser33.cpp, fixed_shunt_parser33.cpp, generator_parser33.cpp, switched_shunt_parser33.cpp, `getBusIndex` (base_block_parser.cpp 242-258), the parts of src/parser/PTI33_parser.hpp `getCase` (199-298) that call them, and `YMBus::load` (src/applications/components/y_matrix/ymatrix_components.cpp 143-166). Simplifications: the model starts from the tokens of the lines (`splitPSSELine` and comments are modelled in BlockParser and RawRecords); `atoi`, `atof` and `clean2Char` are functions on tokens; a `std::map` is a list of pairs whose first pair for a key counts; an access outside a vector and undefined behaviour are `none`; the values of one record are added in another order (they have different keys).
* **RawRecords** (C172).  Model of how the transformer block is cut into records of several lines (src/parser/block_parsers/transformer_parser33.cpp 67-349, 696-698) and of `check_comment` (base_block_parser.cpp 41-52). Simplifications: whether a first line belongs to two or three windings and whether a three-winding transformer is skipped are given by functions of the lines (`three`, `skip`); a record is the list of its lines; a three-winding record cut off by a comment is dropped, while the code leaves a bus and up to three branches without data behind; the end of the input is `none`.
* **Relay** (C100, C98, C99).  Model of the protection relays of the dynamic simulation (src/applications/modules/dynamic_simulation_full_y/model_classes/lvshbl.cpp, frqtpat.cpp, distr1.cpp). Real and complex numbers are exact. The simulation calls `updateRelay` of every relay with the same time step, so `dt` is a constant. `0`/`1` status integers are booleans. Only the first load shedding stage exists in the code.
* **RelayUpdate** (C101, C102, C103, C104).  Model of what buses and branches of the dynamic simulation do with their relays (src/applications/modules/dynamic_simulation_full_y/dsf_components.cpp, dsf_factory.cpp). The voltage, frequency and branch currents of the current time step are stored in the bus or branch. The Norton admittance of a generator is a constant. Generators with relays are on buses that compute their frequency (`bcomputefreq`).
* **RtprCases** (C244, C245, C246, C247).  Model of the lists from which the path rating works and of its verdict about a rating (src/applications/rtpr/rtpr_driver.cpp 156-604, 933-956, 1176-1535, 1606-1697): contingencies created for an area or zone, tie lines, watched generators, conversion of contingencies to faults of the dynamic simulation, evaluation of all contingencies. A process has the list of its buses and branches. Every bus has an area and a zone (all parsers store them), so that the variables `iarea`, `izone` never keep the value of the bus before. The lists of the processes are joined with `GlobalVector`, whose model is used; `zero` of the type `char2` is the empty string. A copy with `strncpy(...,2)` keeps two characters. The solution of the power flow and of the dynamic simulation are parameters: the outcome of a case does not depend on which process works on it. Printed output and statistics are left out.
* **SeqParser** (C211, C212, C213, C214).  Model of reading a file with the sequence data of a fault study: src/parser/PSSE_seq_parser.hpp. Process 0 reads the file (`getSeqData` 97-131) into structs of generators, buses and branches, one struct for all the rows of a component (the maps `p_genIDs`, `p_busIDs`, `p_branchIDs`); the structs are distributed to the processes holding the components and put into their data collections (`sortSeqData` 525-799). The steps are written in the form used for the .dyr files (`Verif/Model/Dyr.lean`): a struct is a function from members to values with arbitrary contents before, `atoi`, `atof` and `clean2Char` are functions, an access outside a vector or an exception is `none`. A file is the list of its lines up to the last newline (`InputStream`); the row of each line comes with the memory that a new struct for it would have. The array `gen_id` of three characters holds the result of `clean2Char`, which has at most two. Not modelled: `getExtension` (a file with another extension is not read) and a file that cannot be opened (nothing changes).
* **SerialIO** (C24).  Model of `SerialBusIO` / `SerialBranchIO` (src/serial_io/serial_io.hpp): `write` 515-630 and 1053-1150, `writeStrings` 399-500 and 941-1040, `gatherData` 264-380 and 821-930. The bus and branch versions are the same code, so there is one model on "items". Characters are natural numbers (bytes), 0 is the terminator. Simplifications: `serialWrite` gives the same answer both times it is called; a string that does not fit with its terminator is cut at the slot size (in the code the terminator lands in the next slot); GOSS output is left out.
* **Shuffler** (C08).  Model of `Shuffler::operator()` (src/parallel/shuffler.hpp:79-169). All processes run the function together. `inp p` is the list of (thing, destination) pairs of process `p` (the C++ code has two vectors of equal length, asserted at line 81). The result is the content of `locthings` of each process; `none` = some process indexes `tosend` outside its bounds (undefined behaviour).
* **StatBlock** (C32, C33, C66, C67).  Model of `StatBlock` (src/analysis/stat_block.cpp): `writeMeanAndRMS` 275-452, `writeMinAndMax` 460-657, `writeMaskValueCount` 666-776, `sumColumnValues` 785-878, and the division of the table into blocks. Doubles are modelled as real numbers (no rounding); formatting of the output is left out.
* **StateEst** (C125, C126, C127, C128, C129, C130, C131, C132, C133).  Model of state estimation: the components `SEBus`, `SEBranch` (src/applications/components/se_matrix/se_components.cpp) and the iteration of `SEAppModule::solve` (src/applications/modules/state_estimation/se_app_module.cpp 294-392). Simplifications: doubles are real numbers and the imaginary parts (always zero) are left out; all components are on one process and `p_v`, `p_a` of a bus and the values its neighbours read from the exchange buffer are one value. A matrix value is a triple (bus, local column number of that bus, value); the row is the measurement. Arrays handed over by the mappers are the lists of the values written: an entry of the array that the component does not write is not in the list. Products and solutions of the matrix library are exact. The admittances `p_ybusr` ... are inputs here (see YMatrix.lean). Output routines are not modelled.
* **StringUtils** (C25, C26, C27, C28, C61, C62).  Model of `StringUtils` (src/utilities/string_utils.hpp). Strings are lists of characters. Positions are integers as in the code, `-1` standing for `std::string::npos` converted to `int`. `boost::trim` removes the characters for which `isspace` holds in the classic locale. `boost::to_lower` is modelled on ASCII letters. Loops carry a fuel argument; the theorems show that a fuel of `length + 1` is never used up.
* **TaskLoop** (C54).  Model of the standard client loop `while (taskmgr.nextTask(&id)) { work }` (e.g. /repo/src/applications/contingency_analysis/ca_driver.cpp:455) on top of `TaskManager::nextTask`, /repo/src/parallel/task_manager.hpp:98-110, including the barrier `GA_Pgroup_sync(p_grp)` (line 107) that a process enters when it finds no more tasks. Simplification: the counter is an unbounded natural number (32-bit wrap-around is treated in `Verif.Model.TaskManager`).
* **TaskManager** (C01, C02, C03, C53).  Model of `gridpack::parallel::TaskManager`, /repo/src/parallel/task_manager.hpp. One shared Global Array cell of type `C_INT` is used as counter. `NGA_Read_inc` is atomic, so an execution of all processes is a list of operations in the order in which they reach the counter; every interleaving is such a list. Simplifications: `set` is collective (all processes pass the same value, and no request is outstanding while it runs), so `p_ntasks` is one value instead of one copy per process. The barrier inside a failing `nextTask` is left out here; it is modelled in `Verif.Model.TaskLoop`.
* **UnitCommit** (C202).  Model of reading a file with the parameters of a unit commitment: src/parser/base_pti_parser.hpp `uc_params` (1266-1285), `getUCExternal` (1292-1437) and `find_uc_vector` (1969-2040). One line is one generator, the first line is a header; the records are distributed to the processes holding the buses. The steps are written in the form used for the .dyr files (`Verif/Model/Dyr.lean`): a struct is a function from members to values with arbitrary contents before, `atoi`, `atof` and `clean2Char` are functions.
* **ValueTransfer** (C40, C77).  Model of the conversion between real and complex buffers (src/math/value_transfer.hpp) and of the way PETSc vectors and matrices of real numbers hold complex elements (src/math/petsc/petsc_vector_implementation.hpp, petsc_matrix_implementation.hpp; the case of a PETSc library built for real numbers, `elementSize` = 2).
* **WatchSeries** (C286, C287).  Model of the time series of watched generators of the dynamic simulation: `DSFullApp::setGeneratorWatch`, `saveTimeStep`, `getTimeSeriesMap`, `getListWatchedGenerators`, `getGeneratorTimeSeries` (src/applications/modules/dynamic_simulation_full_y/dsf_app_module.cpp 1413-1485, 1668-1780) and of `DSFullBus::setWatch`, `getWatchedGenerators`, `getWatchedValues` (dsf_components.cpp 2555-2622), on one process. The loop over `getLocalBusIndices(id)` is a pass over the local buses with this number (see C18 for the lookup). What the machine reports (`getWatchValues`) is a function of the step. Every generator has a model. Messages, the watch file and monitoring of frequencies are left out (for the latter see `Model/FreqMonitor.lean`).
* **Wind** (C313, C314, C315, C316, C317, C318).  Model of the converter `REGCA1` and of the mechanical part of a wind turbine: drive train `WTDTA1`, aerodynamics `WTARA1`, pitch controller `WTPTA1`, torque controller `WTTQA1` (src/applications/modules/dynamic_simulation_full_y/model_classes/regca1.cpp, wtdta1.cpp, wtara1.cpp, wtpta1.cpp, wttqa1.cpp). Doubles are real numbers. The electrical controller and the plant controller are not modelled: their outputs (`Ipcmd`, `Iqcmd`, `Pord`, plant reference) are inputs of each call. The coupling of the torque controller with the turbine is an input as well (`omegaRef`); the controller has its own model below. The blocks are those of `Cblock` and `Dblock`; what their constructors leave unset is an argument of `load`.
* **YMatrix** (C43, C44, C45, C80, C81).  Model of the admittance-matrix components (src/applications/components/y_matrix/ymatrix_components.cpp). Complex arithmetic is exact. Division by zero has no meaning in the code; theorems assume nonzero impedances and ratios where it matters. Loops that accumulate a sum are written as sums over the list of transmission elements.
* **Zones** (C231, C232, C233, C234).  Model of the reports of a dynamic simulation about zones and buses: `DSFullApp::getZoneList`, `getZoneLoads`, `getZoneGeneratorPower`, `getBusTotalLoadPower`, `getGeneratorPower` (src/applications/modules/dynamic_simulation_full_y/dsf_app_module.cpp 4335-4600) and the functions of `DSFullBus` they call (dsf_components.cpp 926-960, 1144-1237, 3104-3177), and of the transfer of generator powers from the power flow (dsf_app_module.cpp 4835-4874). Doubles are real numbers. Each process holds a list of buses, some of them active; `communicator().sum` adds vectors of equal length over all processes. A `std::map` filled with 0, 1, 2, ... in the order of insertion is the list of its keys in that order. All processes have a vector to pass (the address of the first element of an empty vector is not looked at). Optional keys of the data collection are present; printing is left out.

## What is not modelled

* Text files other than the ones cited: of the PTI formats the line helpers, version 23, the record blocks of
  versions 33 to 35 named above, sequence files, the .dyr records and the unit commitment files are modelled; the
  MATPOWER, GOSS and GridLAB parsers, the property dictionary, real-time input and output, the Python export and the build system are not.
* The linear, nonlinear, optimisation and DAE solvers of PETSc and the graph partitioner ParMETIS: external
  libraries.  Where an algorithm calls them they are parameters (linear solve, partition vector).
* Of the dynamic simulation (the full-Y and the DAE form): the devices not named above (wind and solar converters,
  composite loads, some exciters and governors) and the commands to generators of the co-simulation module.  The
  hydrogen and optimisation applications except the classes named above.
* Timing, logging, printing, memory consumption and the failure of an allocation.
* Behaviour of Global Arrays and MPI beyond the semantics listed under "Trusted base"; a process failing in the
  middle of a collective call.
* Floating-point rounding, NaN and infinities.

## Disagreements between the claims and the code

Each is a theorem; the text is its doc comment.

* `AcMotor.C306_composite_violated`: C306 is violated: restarting time and load factor that a composite load gives for its air conditioners are not used.
* `AcMotor.C306_power_violated`: C306 is violated: of the power that a composite load assigns to its air conditioners, only 43 per cent are taken by the motors.
* `AcMotor.C307_again_violated`: C307 is violated: a part that has restarted never stalls again, however low the voltage is and for however long.
* `AcMotor.C309_reconnect_violated`: C309 is violated: motors that have been disconnected are connected again as soon as the measured voltage is above the lower threshold for opening, though it is below both thresholds for closing.
* `AcMotor.C310_return_violated`: C310 is violated: motors that the thermal protection has disconnected are connected again, still stalled, when the temperature falls.
* `AcMotor.C310_cold_violated`: C310 is violated: in an undisturbed simulation part B, which starts with the same temperature and runs under the same conditions, cools down in the first step (if this is shorter than twice the thermal time constant).
* `AcMotor.C311_break_violated`: C311 is violated: at a voltage equal to the break point, part B (which restarts) takes the power of stalled motors from the first step on.
* `ActionLoads.C225_base_violated`: C225 fails on another system base: the change is divided by 100 whatever the base of the case is.
* `ActionLoads.C225_twice_violated`: C225 fails for two changes of the active power of one bus before a step: the second replaces the first.
* `ActionLoads.C226_current_violated`: C226 fails at every other voltage: the injection has the power the part of the load had at the start.
* `ActionLoads.C227_lists_violated`: C227 fails for the commands as they are given, with lists of buses and loads: they read one element too many of every list, whatever the lists.
* `ActionLoads.C227_plain_violated`: C227 fails for the simple form of the command (`scatterInjectionLoad`): the static load stays in the matrix and the given power comes on top of it.
* `ActionLoads.C227_twice_violated`: C227 fails when the load of a bus is replaced twice before a step: the second command takes back the removal of the static load, and later commands do not repeat it.
* `ActionLoads.C227_switch_violated`: C227 fails when the simple form and the compensating form are used for one bus one after the other: both stay in force, and the power given last is drawn twice.
* `ActionLoads.C228_reactive_violated`: C228 fails for every impedance with a reactive part: the reactance enters the matrix with the opposite sign.
* `ActionLoads.C229_others_violated`: C229 fails for the other loads of the bus: the id given in the command is ignored, every load of the bus that is online is changed.
* `ActionLoads.C229_restore_violated`: C229 fails for a load that was shed completely: no command brings any of it back.
* `ActionLoads.C230_size_violated`: C230 fails when the start of the fault is no multiple of the time step: all steps of the run get another size than the one given (and the one the output is labelled with).
* `ActionLoads.C230_early_violated`: C230 fails for a fault that starts within the first time step (for example at time 0): the size of the steps is a division by zero.
* `Actions.C222_same_branch_violated`: C222 fails when two commands before the same step name circuits of one branch (also when they name the same circuit twice): the branch is noted twice at its end buses, so that the diagonal entries lose every named circuit twice.
* `Actions.C222_end_shunt_violated`: C222 fails for a circuit with shunts at its ends: they stay in the matrix when it is tripped.
* `Actions.C222_phase_violated`: C222 fails for a phase-shifting transformer: its phase shift is read with the opposite sign for the command, so that the entries between its buses are not the ones that had been entered.
* `Actions.C222_fault_violated`: C222 fails for commands given during the fault: only the matrix of the unfaulted network is changed, so that as long as the fault lasts the network equations still contain the circuits.
* `Actions.C223_two_processes_violated`: C223 fails on two processes, whatever the lines: the owner of the bus trips its first line, the other process trips the first line it knows of, which is another one. The row of bus 0 loses the line to bus 1, that of bus 2 loses the line to bus 0, and the rest of both lines stays.
* `Actions.C224_relay_violated`: C224 fails at the bus itself: the bus keeps its own record of its diagonal entry, in which commands are not entered; when a relay at the bus trips and changes the record by `d`, the entry becomes the record, and what the command had removed is back. Here the record agreed with the matrix before the command.
* `BlockParser.C29_violated`: C29 fails for data lines such as `0123, …` or `0.95, …` starting in the first column (they end the block) and for ` 0/ END OF BUS DATA` and ` 0,` after a blank (they do not).
* `BlockParser.C30_one_character_violated`: C30 fails for every name of one character: the name is lost.
* `BlockParser.C30_blank_name_violated`: C30 fails for names made of blanks only (two or more): memory outside the string is read.
* `BlockParser.C31_comment_kept_violated`: C31 fails for every line with a slash inside its quoted section and a comment after it: the comment is kept whole.
* `BlockParser.C31_two_sections_violated`: C31 also fails with two quoted sections: text in the second one is cut off.
* `BlockParser.C63_violated`: C63 fails for commas inside quotes (`'A,B'` becomes three wrong pieces) and for a field holding only a tab (memory outside the string is read).
* `BlockParser.C65_truncated_input_violated`: C65 is violated when the input ends before the terminating line: for every such input the loop never stops, since the line left in the variable (the last one, or an empty one) does not end the block.
* `BusTable.C200_last_line_violated`: C200 is violated: a last line that is not ended by a newline is ignored.
* `BusTable.C200_inner_comment_violated`: C200 is violated: comment lines between the lines of data are counted as lines of data. When the lines in the last block of ten together with the comments are more than ten, memory behind the buffer is read.
* `BusTable.C200_blank_line_violated`: C200 is violated: an empty line behind the data, or a comment at the end of the file, makes the reader use a word that does not exist.
* `BusTable.C200_quoted_violated`: C200 is violated: a tag in quotes that contains a blank, as in `7 '1 ' 5`, is taken for two words; the second quote becomes the first value and the table has a column too many.
* `BusTable.C200_headers_violated`: The headers: rank 0 has them. On any other rank a header is what was sent only if the memory behind the receive array happens to begin with a zero.
* `CaDriver.C205_dropped_violated`: C205 violated: a block with an unknown type, or whose buses and names do not match in number, is dropped without a message, and the contingencies after it move up.
* `CaDriver.C205_missing_violated`: C205 violated: a line contingency without a list of buses makes the driver read a character of an empty string.
* `CaDriver.C206_summary_violated`: C206 violated: the vector of success flags is emptied between fetching and reading it, so for every list of contingencies that is not empty the driver reads outside the vector.
* `CaDriver.C206_second_solve_violated`: C206 violated: when reactive limits are checked, the second calculation may fail; the contingency is still counted as solved and its checks are made on the voltages of the failed calculation.
* `CaDriver.C207_lines_violated`: C207 violated: of five or more lines between two buses only the first four are in the statistics.
* `CaDriver.C207_generators_violated`: C207 violated: of ten or more generators on a bus only the first nine are in the statistics.
* `CaDriver.C208_out_of_service_violated`: C208 violated: a line out of service (for instance the one the contingency takes out) reports no flow, but its performance index is computed, and its overload counted, as if it were in service.
* `CaDriver.C209_outage_violated`: C209 violated: the generator a contingency takes out of service on a bus that is not the reference bus is still reported with its scheduled real power.
* `CaDriver.C209_reference_violated`: C209 violated: after the outage of a generator of the reference bus the shares of the others are not raised; the reported real powers add up to less than the injection plus the load by the share of the lost generator.
* `CaDriver.C210_qlimit_violated`: C210 violated: with reactive limit checks, after the base case every voltage-controlled bus whose limits are not exceeded loses the list of its generator statuses: in all contingencies it is treated as if it had no generation, whatever it had in the base case.
* `Cblock.C34_rate_arguments_ignored_violated`: C34: the rate limits passed to `updatestate` have no effect; the result is the same for all of them.
* `Cblock.C34_init_violated`: C34 fails right after initialisation: the state is set without looking at the limits. For every block with non-zero `A` and any state limits there is an input for which `init_given_u` leaves the state above its limit.
* `Cblock.C35_out_of_limits_violated`: C35 fails when the initial state lies outside the state limits: with any step size the first time step moves the state, for every block in equilibrium above its upper limit.
* `Cblock.C35_small_gain_violated`: C35 fails for a block with a very small but non-zero `B`: the state is set to 0 although this is not an equilibrium.
* `Cblock.C35_integrator_violated`: C35 fails for an integrator initialised from a non-zero input: the state is set to 0, which is not an equilibrium; the returned value is the feed-through.
* `CoarseTimer.C38_violated`: C38 fails whenever some process other than 0 has at least one category and the numbers differ: the calls do not match and the program hangs.
* `CoarseTimer.C76_order_violated`: C76 fails when two processes create the same two titles in different order: times of different categories are mixed.
* `ComplexOps.C256_after_identity_violated`: C256 fails after `identity()` on an assembled sparse matrix that lacks a diagonal element: the shift adds two single real positions instead of a block of four, the row has an odd number of entries, and every later scaling, conjugation or part reads past the end of the row.
* `ComplexOps.C257_transposeMultiply_violated`: C257 fails for complex matrices: `transposeMultiply` multiplies by the conjugate transpose, so for every matrix with an element that is not real there is a vector (the unit vector of its row) whose product is wrong.
* `Composite.C296_ieelbl_violated`: The load IEELBL is read from the file and never created.
* `Composite.C297_static_violated`: Otherwise the rest, which should be a static load, is missing.
* `Composite.C298_limit_violated`: The tap is rounded after the limits are checked: it can be above the maximum.
* `Composite.C299_tap_violated`: With any other tap the power taken from the bus is multiplied by the square of the tap: the reactance is on the other side of the ideal transformer than assumed by the initialisation.
* `Composite.C299_capacitor_violated`: The capacitor in the network is not the one of the data.
* `Configuration.C36_string_violated`: C36 fails for strings: whenever the key is missing and the caller's string starts with a blank, it is changed although `false` is returned.
* `Configuration.C36_vector_violated`: C36 fails for vectors: reading into a vector that is not empty never yields the stored three components.
* `Configuration.C74_second_file_hidden_violated`: C74 fails for two files with the same top element, which is the normal case ("Configuration"): every key that only the second file has cannot be found.
* `Configuration.C75_empty_vector_violated`: C75 fails for an empty vector: process 0 returns `false`, every other process stops in an assertion.
* `Contingency.C49_twice_violated`: C49 fails for a contingency naming an element twice: for every generator or line in service that is named twice in a row, the status stays off after undoing.
* `Contingency.C49_two_branches_violated`: C49 fails for two branches between the same buses: if the first has the named line in service and the last has it out of service (or has no such line), the first stays out of service after undoing.
* `Contingency.C49_out_of_service_violated`: C49 fails for values: a single generator that is out of service is loaded with participation factor 1 (pf_components.cpp 536); after setting and undoing its outage the factor is 0.
* `DAEEvent.C78_violated`: C78 fails in general: a source with two triggered events, the first not terminating and the second terminating, does not stop the solver.
* `DaeEvents.C191_esst1a_watched_violated`: C191: with both lead-lag blocks active there are states in which the input error of ESST1A is held at its upper limit (rightly) and the regulator output at its upper limit would come down, but the value watched for the latter says that it would go on rising: it is computed with the input error before its limits. The limiter does not let go.
* `DaeEvents.C191_esst1a_violated`: C191: once the lower limiter of the input error of ESST1A holds, no sequence of events makes it let go: as long as the upper one does not hold, the exciter works with the lower limit instead of its input, at every state.
* `DaeEvents.C191_wsieg1_violated`: C191: the same for the lower limiter of the gate speed of WSIEG1: as long as the gate is not at its end, it goes on closing at the limiting speed, whatever the speed deviation.
* `DaeEvents.C191_other_limiter_violated`: C191: the event of the lower limiter of ESST1A releases the upper one.
* `DaeEvents.C191_reset_violated`: C191: when a fault begins or ends, the lower limiter of the gate speed of WSIEG1 goes on holding although the gate speed is within its limits.
* `DaeEvents.C192_same_moment_violated`: C192: a fault that begins and ends at the same moment stays on.
* `DaeInit.C189_genrou_resistance_violated`: C189: GENROU with an armature resistance starts with a torque that does not cover its losses: the equation of its speed is not satisfied.
* `DaeInit.C189_several_generators_violated`: C189: with two or more generators in service at a bus the initial state is not filled in: the last two variables of the bus, which belong to its last generator, keep the content the vector had before.
* `DaeInit.C189_isolated_violated`: C189: the voltage buffer of an isolated bus is never filled in: unless it holds the voltage of the power flow by chance, the equations of the bus are not satisfied.
* `DaeJacobian.C187_exdc1_violated`: C187: with EXDC1, whenever it is not of the covered kind, some row of its bus is not the derivative: in every network, at every state.
* `DaeJacobian.C188_exdc1_violated`: C188: with EXDC1, whenever it is not of the kind covered at a fault, some row of its bus is not the derivative.
* `DaeJacobian.C187_esst1a_violated`: C187: with ESST1A, regulator output not at a limit, whenever it is not of the covered kind, some row of its bus is not the derivative: in every network, at every state.
* `DaeJacobian.C188_esst1a_violated`: C188: with ESST1A, whenever it is not of the kind covered at a fault, some row of its bus is not the derivative.
* `DaeJacobian.C187_wsieg1_violated`: C187: a governor WSIEG1 with a gain and a free gate on a classical machine has a row that is not the derivative: the entries for the speed deviation are written to the column of the voltage.
* `DaeJacobian.C188_wsieg1_violated`: C188: the same at a fault, if the lead-lag block of the governor is left out.
* `DaeJacobian.C188_gencls_violated`: C188: at a fault the rows of the currents lack the derivative with respect to the rotor angle of a classical machine.
* `DaeJacobian.C187_isolated_violated`: C187, C188: the rows of an isolated bus are not derivatives.
* `DaeJacobian.C187_field_limit_violated`: C187: with ESST1A on GENROU or GENSAL, field voltage strictly beyond a limit, the row of the machine's field equation is not the derivative.
* `DaePlaces.C196_esst1a_violated`: C196: the equation of the field of GENROU or GENSAL with an exciter ESST1A at its upper limit depends on the voltage at the evaluation before: after evaluations at two states with different voltages at the bus, two different values at the same state.
* `DaeSwing.C193_gencls_violated`: C193: along every motion, the rotor angle of a classical machine is accelerated by less than a hundred-thousandth of what the accelerating power demands (in whatever unit the speed deviation is understood); a governor is ignored.
* `DaeUnits.C194_genrou_resistance_violated`: C194: with armature resistance this fails for GENROU on every base other than that of the system: the resistance is not converted.
* `DaeUnits.C194_wsieg1_violated`: C194: a governor WSIEG1 in steady state changes the power by the same amount on the base of the system, however large the base of its machine is: not in proportion to it, although its limits are.
* `DaeUnits.C195_shunt_violated`: C195: a shunt at the near end of a line in service is left out.
* `DaeUnits.C195_shift_violated`: C195: a phase shift without a ratio is applied here and not in the power flow.
* `DaeUnits.C195_switched_violated`: C195: a transformer recorded from its other side is treated as if it were recorded from this one.
* `Dblock.C70_marker_violated`: C70 fails when the previous output is exactly 100000: the next output is not rate limited at all.
* `Dblock.C71_decreasing_violated`: C71 fails for decreasing points, which the code accepts as valid: for every input strictly between the last and the first point the returned variable has never been assigned.
* `Dblock.C71_segment_count_violated`: C71: the documentation calls the first argument of `setparams` the number of segments; called that way the last point is never used: beyond the point before it the output is constant.
* `DeviceLoad.C203_esst4b_violated`: C203 fails for every ESST4B exciter: its gain Kim, token 10, has the value of token 9 (the line that reads it has the name of Kpm).
* `DeviceLoad.C203_fixed_violated`: C203 fails for every ESST1A exciter and every WSHYGP governor: the switches UEL and VOS are 1 and the time constant Tt is 0, whatever the record has.
* `DeviceLoad.C203_unread_violated`: C203 fails for the parameters of `unread`, among them the switch of EXDC1 and IEEET1, the transient reactance of GENCLS, the controlled bus and branch of REPCA1 (read as real numbers, stored as integers), the gate table of WSHYGP and Iblock of WSIEG1: every device of the model is the same whatever the reader stored for the parameter.
* `DeviceLoad.C204_models_violated`: C204 fails for the exciter EXDC2 and the governor GGOV1: the reader accepts the records, but the simulation calls a function of a device that was never created, for every generator with such a record.
* `DsEvents.C107_off_grid_violated`: **C107, violated**: an event whose times lie between the steps is ignored.
* `DsEvents.C105_overlap_violated`: **C105, violated**: if a second fault begins at another bus before the first one has ended, the admittance of the first fault is subtracted twice; the end of either fault ends both, and afterwards the first fault is still in the matrix though no bus is faulted.
* `DsEvents.C106_never_ends_violated`: **C106, violated**: a fault whose end is not later than its beginning (both are 0 if they are not given) never ends: no step in which its event is handled removes a fault.
* `DsEvents.C105_inactive_violated`: **C105, violated**: closing a circuit of a branch that had no circuit in service when it was loaded changes the two diagonal elements but not the elements that connect the buses.
* `DsEvents.C108_no_branch_violated`: **C108, violated**: if there is no branch between the two buses, or the process does not hold it, the event reads the first element of an empty list.
* `DsEvents.C108_no_generator_violated`: **C108, violated**: an event for a generator that the bus does not have reads the element before the first.
* `DsEvents.C109_endless_violated`: **C109, violated**: if no multiple of the time step lies within 1e-6 of the end time, the run never stops.
* `DsEvents.C110_forgets_violated`: **C110, violated**: the stored admittance of a bus is the same after any line or generator event as before, so a relay that trips after the event puts back the diagonal element from before it.
* `DsEvents.C110_twice_violated`: **C110, violated**: a circuit that a relay has taken out is taken out again by a line event.
* `DsLoad.C153_negative_violated`: **C153 is violated**: if some generator of a bus has negative power and another one produces, then -- if loading is defined at all -- the vector of models is shorter than the list of generators, and when the last generator is in service the later loops access the vector beyond its end.
* `DsLoad.C152_negative_violated`: **C152 is violated** for negative generation: as soon as some generator has negative power, in service or not, and those without model are in service, the bus gets too much conductance: a motor in service counts twice, and one out of service counts once.
* `DsLoad.C152_off_violated`: **C152 is violated** for generators out of service: a producing generator without model injects its power although it is out of service.
* `DsLoad.C154_stale_violated`: **C154 is violated**: after a bus is loaded again the status of a generator is the one of the first time; a generator taken out of service in the data in between stays in service, and one put into service stays out.
* `DsLoad.C155_composite_violated`: **C155 is violated** with a composite load model: whatever other loads the bus has, before or after it, the static load and the dynamic loads of the bus together are zero: all other loads of the bus disappear.
* `DsLoad.C164_load_violated`: **C164 is violated** for the power of a load: a load whose constant power is missing in the data takes the whole power -- constant power, current and admittance -- of the load before it as its constant power.
* `DsLoad.C164_generator_violated`: **C164 is violated** for the power of a generator: a generator without power in the data has the power of the generator before it.
* `DsScaling.C235_reload_violated`: C235 violated when a bus is loaded again (as `DSFullApp::reload` does before every contingency): whatever data `ds` have been loaded since the first data `d`, and whatever has happened since, resetting a bus with as many generators as at first brings back the powers of the first load, in the bus and in the network data.
* `DsScaling.C236_units_violated`: C236 violated by the units: a generator that runs at its maximum `x` (in MW) has the power `x / sbase` after the power flow solution has been transferred, while the maximum stays `x`; raising the generation by any factor then raises this generator, and its power in MW is above its maximum.
* `DsScaling.C236_off_violated`: C236 violated for generators out of service: they are raised like the others.
* `DsScaling.C236_reload_violated`: C236 violated when a bus is loaded again: the limits of the first load are used (here: a generator whose maximum has been lowered from `hi` to `hi'` is raised to the old maximum).
* `DsScaling.C237_copies_violated`: C237 violated: the total load counts the copies of buses that belong to other processes: for every network it is the load of the area plus the load of the copies.
* `DsScaling.C237_processes_violated`: C237 violated with several processes: a process knows only its own buses; whatever they are, it gets the wrong generation and limits as soon as those of the other processes do not vanish.
* `DsScaling.C237_status_violated`: C237 violated for generators out of service: their power and limits are counted.
* `DsScaling.C237_current_violated`: C237 violated after scaling: the reported generation and load of a bus are those loaded, whatever has been done since.
* `DsScaling.C238_loads_violated`: C238 violated for loads: the loads that the simulation reads (`LOAD_PL`, `LOAD_QL` with index) are never changed by the transfer, whatever the loads of the power flow are.
* `DsScaling.C238_angle_violated`: C238 violated for buses without load: where the data of the simulation have an entry `LOAD_PL` of the bus and the power flow has no load, the voltage angle becomes the load.
* `DyrAlone.C184_esst4b_violated`: C184 fails for the exciter ESST4B: the record is accepted, but nothing is stored.
* `DyrAlone.C184_genrou_violated`: C184 fails for the machine GENROU: when a second file is read, the reactance Xq gets the value of Xd.
* `DyrAlone.C184_reeca1_violated`: C184 fails for the model REECA1: when a second file is read, the time constant Tiq gets the value of the next parameter, dPmax.
* `DyrAlone.C184_repca1_violated`: C184 fails for the model REPCA1: when a second file is read, the smallest frequency error gets the value of the next parameter, Pmax.
* `DyrAlone.C184_gdform_violated`: C184 fails for the model GDFORM: when a second file is read, the droop mp gets the value of Pmin.
* `DyrAlone.C184_wsieg1_violated`: C184 fails for the governor WSIEG1: the flag Iblock is not stored.
* `DyrAlone.C184_psssim_violated`: C184 fails for the stabilizer PSSSIM: the code of its input is not stored as an integer.
* `DyrAlone.C184_acmtblu1_violated`: C184 fails for the load model ACMTBLU1: the voltage Uvtr1 gets the value of Uvtr2.
* `DyrAlone.C184_distr1_violated`: C184 fails for relays of branches: a file whose first record is for a relay of a branch of the network uses a pointer that has no value (`none`: undefined behaviour), whatever follows.
* `DyrAlone.C184_distr1_bus_violated`: After a record for a bus, the relay of the branch is stored at that bus.
* `DyrRecords.C201_no_slash_violated`: C201 is violated when the slash of the last record is missing: neither reader ever comes to an end, whatever records (in the right form) the file has before.
* `DyrRecords.C201_comment_violated`: C201 is violated by comments in the reader working on its own data: a comment line is taken for a record whose only token is `0`, and looking for the name of its model reads outside the list of tokens, for every network.
* `DyrRecords.C201_empty_comment_violated`: C201 is violated by a comment of two slashes alone, in the other reader as well.
* `DyrRecords.C201_fused_violated`: C201 is violated when the lines of a record have neither blank nor comma between them: the last token of one line and the first token of the next become one, so that a token is missing. So it is for every such record of two lines, in both readers.
* `DyrRecords.C201_quotes_and_returns_violated`: C201 is violated by a slash in quotes, which ends the record, and by a comma at the end of a line of a file with the line ends of other systems, which makes the carriage return a token of its own.
* `DyrShared.C185_gdform_violated`: C185 fails for the data from the network file: a record of the model GDFORM replaces the largest real power of the generator, which the other parts of the program read under the same name.
* `DyrShared.C181_wsieg1_violated`: C181 fails for the governor WSIEG1: unless there is one already, the time constant T3 gets the value of T2.
* `DyrShared.C182_cim6bl_violated`: C182 fails for the model CIM6BL: the reactance X1 gets the value of R1, and E2 the one of S(E2).
* `DyrShared.C182_acmtblu1_violated`: C182 fails for the model ACMTBLU1: the exponents Nq1 and Nq2 get the values of Kq1 and Kq2.
* `DyrShared.C182_cmldblu1_violated`: C182 fails for the model CMLDBLU1: the time Ttr1 gets the value of Ttr2.
* `DyrShared.C183_distr1_violated`: C183 fails for the relay DISTR1: the time of zone 3 gets the value for zone 2.
* `DyrShared.C186_order_violated`: C186 fails when a file is read on several processes: of two records for the same generator process 0 keeps the second one and process 1 the first, although both hold the same bus.
* `ElecControl.C325_negative_violated`: **C325** is violated for negative holding times, which ask for the support during the dip to go on for that time: in the first step without dip the additional reactive current is the constant for positive holding times, then it is zero.
* `ElecControl.C325_again_violated`: **C325** is violated by a second dip: when the voltage falls again while the constant is injected, the constant stays for the whole dip, whatever the voltage.
* `ElecControl.C326_reactive_violated`: **C326** is violated for a controller without proportional gain (the default): its integrator never moves, so that the currents it asks for do not depend on the reactive power of the generator at all.
* `ElecControl.C324_total_violated`: **C324** is violated: with priority for the reactive current the room for the real current is computed from the reactive current before the call. A generator at its largest current and power factor 1 whose reference of the reactive power rises asks for more than its largest current after the first step.
* `ElecControl.C327_table_violated`: **C327** is violated: the tables are exchanged. At a voltage above the tables the table of the real current allows `ip 3`; a generator with a larger real current that the table of the reactive current would allow keeps it.
* `Esst1a.C119_esst1a_ceiling_violated`: C119 fails for ESST1A at a field voltage above `Vrmax` that the ceiling `VT Vrmax - Kc Ifd` still admits (terminal voltage above 1): the regulator is limited to `Vrmax`, and the exciter leaves the initial field voltage in the first time step.
* `Esst1a.C119_esst1a_lag_violated`: C119 fails for ESST1A without a regulator lag (`Ta` below four time steps): `init` still uses the regulator block, which has not been set up. If its memory happens to be zero, every exciter without field current limitation starts with field voltage 0 in the first time step, whatever positive field voltage it was initialised with.
* `Esst1a.C123_esst1a_violated`: C123 fails for ESST1A: the stabiliser signal has no effect. From every state, two histories of inputs that differ in the stabiliser signal only give the same field voltages.
* `Esst1a.C121_esst1a_violated`: C121 fails for ESST1A with a regulator lag: the second lead-lag block has no effect. Two exciters with the same parameters except its time constants, initialised in the same way, report the same field voltages for every history of inputs.
* `ExchangeBuffers.C17_boundary_violated`: C17 is violated at the boundary: for every number of buses, after allocating exchange buffers the call `getXCBusBuffer(count)` reads past the end of the pointer array.
* `ExchangeBuffers.C59_violated`: C59 without the rules is violated in several ways: a setter call after `free` writes through a dangling pointer; freeing after a bus was added deletes pointers past the end of the array; reading before any allocation uses a null pointer; assigning to an array allocated by the network makes `free` delete the caller's buffer; assigning for a bus added after the allocation writes past the end; allocating branch buffers twice, or after a call for no pointers, leaks.
* `ExciterSat.C122_zero_violated`: C122 fails if there is no saturation at the first point: with `SE1 = 0` the second point is ignored, and the regulator output for `E2` is `KE E2`.
* `Exciters.C119_sexs_violated`: C119 fails for SEXS without a lag (`|TE| < 1e-6`): the initialisation limits the *input* of the gain to the range of the field voltage. For every set of parameters with a positive lower limit above `E / K`, the first reported field voltage lies above the one the exciter was initialised with.
* `Exdc1.C119_exdc1_violated`: C119 fails for EXDC1 with a stabiliser signal other than 0 at initialisation, because it enters the reference with the wrong sign: without lags, lead-lag and saturation the field voltage has moved by `2 KA vs dt / TE` after the first time step.
* `Exdc1.C121_exdc1_violated`: C121 fails for EXDC1: the lead-lag block uses `TA` as lead time. The lead time constant `TC` has no effect: two exciters that differ in it (both values giving a lead-lag block at all) are loaded to the same state up to the stored copy of the parameter, so that all their runs are the same.
* `Exdc1.C121_exdc1_block_violated`: The lead-lag block of EXDC1 reacts to a step of its input with the factor `TA / TB`, not `TC / TB`: this is what `load` sets up.
* `Expand.C301_again_violated`: Reading a second .dyr file expands the composite loads again.
* `Export.C173_gap_violated`: C173: if a bus (branch) has a text but none for its device 0, because that device is not written, then a place of the block is never written to; the block is not the list of the texts.
* `Export.C173_parallel_violated`: C173: a transformer in parallel with a line spoils the block of transformers in every execution: some place of the block is never written to.
* `Export.C174_gap_violated`: C174: a load without constant power before another load of its bus spoils the block of loads.
* `Export.C174_current_violated`: C174: loads of constant current or constant admittance are left out: a bus whose loads all have no constant power does not occur in the block, whatever currents and admittances they have.
* `ExportTrip.C175_shift_violated`: C175: the phase shift of a winding of a three-winding transformer is lost, whatever its ratio.
* `ExportTrip.C175_magnetising_violated`: C175: the magnetising admittance of a three-winding transformer is lost when the ratio of its first winding is not 1.
* `ExportTrip.C175_digits_violated`: C175: a line with a small impedance is written as a line without impedance.
* `FactoryChecks.C50_no_lone_bus_violated`: C50 fails on every network without a lone bus: the value is false as if there were one.
* `FactoryChecks.C50_lone_bus_violated`: C50 fails on every network with a lone bus on each process: the value is true.
* `FactoryChecks.C51_still_reported_violated`: C51 fails: every owned bus that violates its limits and was not ignored before is still reported.
* `FactoryChecks.C51_new_violation_violated`: C51 fails: a bus that was within its limits is ignored from then on, so that a new violation on it is not reported: with any new voltages `w` the answer is the same as if that bus were fine.
* `FactoryChecks.C88_rate_b_violated`: C88 fails with rating B in use: a line loaded above rating A but below rating B is not in violation, yet it is ignored from then on.
* `FactoryChecks.C88_no_rate_a_violated`: C88 fails with rating B in use, the other way: with rating A missing, an overloaded line is not ignored.
* `FactoryChecks.C89_rate_b_violated`: C89 fails with rating B selected: a line loaded above rating A but below rating B is reported as violated, and one above rating B that has no rating A is not.
* `FactoryChecks.C89_out_of_range_violated`: C89 fails: if a requested line stands in its branch at a position not smaller than the number of requests, the list of requests is read past its end.
* `FactoryChecks.C89_wrong_line_violated`: C89 fails: if the tag requested at the line's position belongs to another line of the branch, that line's power is compared with this line's rating.
* `FaultSim.C248_order_violated`: C248 fails if the buses of the branch are given in the other order: there is no fault.
* `FaultSim.C248_busFault_violated`: C248 fails for faults at buses given in the input file: there is no fault.
* `FaultSim.C248_generator_violated`: C248 fails for the contingencies of generators in the path rating: their dynamic simulations are simulations of the undisturbed network.
* `FaultSim.C249_start_violated`: C249 fails for a fault that begins before the end of the first step: the length of the steps is the result of a division by zero.
* `FaultSim.C249_length_violated`: C249 fails for every other fault that does not begin at a multiple of the time step: all steps, before, during and after the fault, are longer than asked for.
* `FaultSim.C249_short_violated`: C249 fails for a fault shorter than the time step: no step is made with the faulted network.
* `FaultSim.C249_total_violated`: C249 fails: the fractions of a time step that are left over before, during and after the fault are lost each for itself, so that the simulation is shorter than asked for by one or two steps if they add up to that.
* `FaultSim.C249_step_violated`: C249 fails: the time step given for the fault is not used.
* `FlatStart.C148_resistance_violated`: **C148** fails for a generator with resistance: the current of the model and the admittance in the network matrix do not belong together, and the machine does not feed the current of the power flow into the network.
* `FlatStart.C148_subtransient_violated`: **C148** fails for a generator with a subtransient reactance (`dstr` not 0): the admittance entered into the network matrix is that of an uninitialised variable.
* `FreqMonitor.C239_restart_violated`: C239 violated: a sample that ends one rise is not taken as the start of the next: if the frequency is above 61 Hz, drops a little at sample 1 and rises from then on, the time is counted from sample 2, so that a rise from sample 1 to sample 2 is not found however long it takes.
* `FreqMonitor.C240_reload_violated`: C240 violated: loading a bus again, as before every simulation of a contingency, leaves the entries of its generators as the previous simulation left them.
* `FreqMonitor.C240_stale_violated`: C240 violated: if the previous simulation ended during a rise that began at time `s`, a rise above 61 Hz in the next one that starts above the last frequency is not found until half a second after `s`, however long it has lasted; with new entries it is found.
* `FreqMonitor.C241_maximum_violated`: C241 violated: a simulation in which the frequency of a generator stays at any value, however far above the maximum given to `setFrequencyMonitoring`, is reported to be all right.
* `FullMatrixMap.C22_process_without_bus_violated`: Without an active bus on some process the set-up fails: whenever the network has a bus at all, the arrays of that process are allocated with a length that is not positive (`new int[nRows]`), and line 857 writes their first element.
* `GenMap.C23_self_loop_violated`: C23 fails for a branch joining a bus to itself: it is counted twice, so the next bus gets an index outside the matrix.
* `GenMap.C60_remote_row_lost_violated`: C60 is violated for the other elements: whenever the row belongs to a process that does not own the branch, an element in the branch's own columns is entered by no process at all, for every choice of ranges.
* `GenTransfer.C271_empty_process_violated`: C271 fails: if one process has no component with rows (for instance, only load buses in a partition, when generators supply the rows), process 0 gets an exception although all columns agree, and the others do not.
* `GenTransfer.C271_other_processes_violated`: C271 fails in the other direction: columns that differ are reported on process 0 only.
* `GhostUpdate.C58_violated`: C58 is violated: three processes, one of which holds no bus.
* `GlobalStore.C93_empty_vector_violated`: C93 fails for empty vectors: whenever one vector is empty and another is not, `upload` passes an empty range to the global array.
* `GlobalStore.C93_gap_violated`: C93: an index below the largest one under which nothing was added is neither rejected nor answered with an empty vector: an empty range is passed to the global array.
* `GlobalStore.C93_second_upload_violated`: C93 fails across two uploads: a vector uploaded in the first round whose index is not used in the second (where other vectors are) is not found any more.
* `GlobalVector.C94_lost_violated`: C94 fails: there is no synchronisation between clearing and writing. Whatever the distribution, for every element added on a process that does not hold it there is an execution after which the element is zero.
* `GlobalVector.C95_missed_violated`: C95 fails: there is no synchronisation between counting and checking. If an index is used twice but the elements of all processes other than `p` have different indices, and `p` holds no index used twice, there is an execution in which no process notices.
* `GlobalVector.C95_only_holder_violated`: C95 fails also when a duplicate is noticed: if all indices used twice are held by one process, no other process throws; the others go on to a collective call.
* `GlobalVector.C96_negative_violated`: C96 fails for negative indices: they pass `resetElements`, and `reload` writes outside the vector.
* `GovernorFaults.C112_gast_violated`: C112 is violated by GAST when the data have no temperature limit: `AT` and `KT` become 0, the limiter closes the valve and the power falls although the speed is constant (third reported value).
* `GovernorFaults.C112_wsieg1_limits_violated`: C112 is violated by WSIEG1 started above its limit `Pmax`: `init` raises the limit that is applied after the integrator, but the integrator keeps the old one, so already the second report is `Pmax` instead of the initial power.
* `GovernorFaults.C112_wsieg1_second_violated`: C112 is violated by WSIEG1 whose power goes only to the second generator: the reported power is 0 after every call, whatever the start and the speed.
* `GovernorFaults.C116_hygov_violated`: C116 is violated by HYGOV: the reported powers do not depend on the gate velocity limit.
* `GovernorFaults.C116_wsieg1_violated`: C116 is violated by WSIEG1: when the initial gate position is above the opening velocity `Uo`, `init` replaces the velocity limit by the position plus 0.1, and the power then rises faster than `Uo`.
* `GovernorFaults.C117_hygov_violated`: C117 is violated by HYGOV: without a value for the temporary droop `r`, the value given for the permanent droop `R` has no effect (it becomes 0.05), and `r` keeps whatever the memory held.
* `GovernorFaults.C118_wsieg1_violated`: C118 is violated by WSIEG1: the reported powers do not depend on the width of the deadband `Db2` (the block gets `Db2` for both of its ends, which makes it the identity).
* `GovernorRun.C113_lead_violated`: Without the condition on the time constants the claim is false: with the lead time `T2 = 3` above the lag time `T3 = 1` a step of the speed drives the power above the valve limit.
* `GovernorRun.C115_gast_violated`: C115 is violated by GAST: `setRotorSpeedDeviation` has no effect, so all speed histories give the same powers.
* `GovernorRun.C115_hygov_violated`: C115 is violated by HYGOV in the same way.
* `GridForming.C320_limit_violated`: C320 is violated: whatever the limit, an inverter that starts below it exceeds it as soon as the solution of the network is a voltage that asks for more.
* `GridForming.C157_gridforming_violated`: C157 is violated: after every change of the voltage the report differs from the power fed in.
* `GridForming.C158_gridforming_violated`: C158 is violated: a tripped grid-forming inverter feeds the current it fed before, at every voltage and in every state; right after the start this is the power of the power flow.
* `IndexHash.C09_violated`: The full claim "exactly the values that some process added" fails in two ways. (1) A second `addPairs` replaces the map: values added earlier are no longer found. (2) When no process requests anything, stale `values` are kept although no key was requested.
* `InputStream.C39_last_line_lost_violated`: C39 fails for every file whose last line has no newline: that line is never delivered, whatever it contains.
* `InputStream.C39_vector_violated`: C39 for string vectors: after opening any vector on a fresh stream, reading the first line already uses an iterator that was never set.
* `KalmanFilter.C274_seed_violated`: The configured seed has no effect on the numbers drawn on a bus.
* `KalmanFilter.C274_noise_violated`: The noise added to the measurements of any two buses, in any two steps, is the same for every member of the ensemble.
* `KalmanFilter.C274_ensemble_violated`: The first generators of any two buses start with angles perturbed by the same factor, member by member, whatever numbers of generators the buses have.
* `KalmanFilter.C275_empty_violated`: A fault that ends when it begins is nevertheless on for half of a pass.
* `KalmanFilter.C275_other_step_violated`: When the step of the series is not the configured step the fault acts at the wrong time: with half the step, a fault over the steps `a` to `b` of the configured length is used at times from `a * dt / 2` to `b * dt / 2`, and so before it begins.
* `KalmanFilter.C275_fault_step_violated`: The step given with the fault is not that of the integration: with half of it the fault begins at the right time and stays for twice its length.
* `KalmanFilter.C276_offset_violated`: With an offset, a simulation over the whole length of the series reads beyond the end of the series.
* `KalmanMachine.C277_units_violated`: Where the load flow left nothing, the mechanical power is the power in MW taken as per unit: it is too large by the factor of the system base.
* `KalmanMachine.C277_subtransient_violated`: With a subtransient reactance in the data and no resistance the admittance of the machine is one over zero.
* `KalmanMachine.C277_set_voltage_violated`: The load is converted to an admittance with the set voltage of the last generator in service in place of the voltage of the bus.
* `KalmanMachine.C278_status_violated`: Generators out of service are among the machines: the service flag does not matter for which generators are kept.
* `KalmanMachine.C279_voltage_violated`: The second generator of a bus gets the voltage of the next bus of the process.
* `KalmanMachine.C279_last_violated`: On the last bus of a process the second generator gets what lies behind the rows.
* `KalmanMachine.C280_v23_violated`: Loads of files of version 23 are not seen.
* `KalmanMachine.C280_first_violated`: With several loads at a bus only the first counts, and its service flag does not.
* `KalmanMachine.C281_reversed_violated`: A fault on a branch given in the other order has no effect at all.
* `KalmanMachine.C282_twice_violated`: After `readNetwork` every bus of the file is in the network twice as often as in the file.
* `LinSolve.C250_serial_violated`: **C250** (violated). With the serial mode on several processes, from the second call on the last entry of the right hand side is not passed to the solver: whatever the matrix, a solution delivered for a right hand side whose last entry differs from that of the first call never solves the system of the call.
* `LinSolve.C251_serial_violated`: **C251** (violated). With the serial mode a new solver solves the first column, and of the others just those whose last entry is that of the first column: for every other column the result is not a solution.
* `LinSolve.C252_tolerances_violated`: **C252** (violated). A tolerance or a limit of iterations set after `configure` is reported by the solver but not used: whatever it is, the next solve uses the old one.
* `MachineData.C160_reversed_violated`: **C160** fails if the second value is the smaller one: the curve is 0 at both points.
* `MachineData.C161_overload_violated`: **C161** fails if the scheduled apparent power exceeds the machine base: the impedance is taken to be on the base `1.2` times that power.
* `MachineData.C163_base_violated`: **C163** fails for any other system base.
* `Machines.C156_genrou_violated`: **C156** fails for GENROU: after every time step the reported angle is the one predicted by the Euler step, not the corrected one from which the next step computes; they differ by `60 π a dt²` where `a` is the acceleration.
* `Machines.C157_reported_power_violated`: **C157** fails for GENROU and GENSAL: without network iterations the power reported after a time step does not depend on any voltage of that step; it is computed before the network is solved.
* `Machines.C158_lag_violated`: **C158** fails when the voltage changes: a tripped machine then feeds a current into the network.
* `Machines.C158_classical_violated`: **C158** fails for the classical model: the trip is reported as done, but the machine goes on feeding current from its internal voltage; the current is 0 only if the network has that very voltage.
* `Machines.C159_detailed_violated`: **C159** fails for GENROU and GENSAL: if the first generator in service at every generator bus is of these types, the check succeeds whatever the rotor angles are.
* `Machines.C159_empty_violated`: **C159** fails for a process without generators: the check fails.
* `MatPower.C292_unsorted_violated`: If a generator of a bus with a larger number stands between two generators of a bus, the second one gets index 2 instead of 1, the bus claims three generators, and there is none with index 1.
* `MatPower.C292_exception_violated`: With 99 generators at buses with larger numbers in between, the second generator of a bus stops the reader.
* `MatPower.C294_again_violated`: A second file cannot be read with the same parser: a branch that was in the first file is looked for in the emptied list.
* `MatPower.C295_endless_violated`: A row with an unknown cost model, or with less parameters than announced, is read again and again.
* `MatPower.C295_skipped_violated`: The costs of a generator at a bus that is not in the file are given to the next generator.
* `MotorW.C302_lower_violated`: **C302** violated: a motor whose power at the slip from the table exceeds the load by more than 0.0001 MW moves at once, whatever the length of the step, if its torque depends on the speed at all.
* `MotorW.C303_overload_violated`: **C303** violated: for a load above the power that the motor can draw, the slip is not determined.
* `MotorW.C303_negative_violated`: **C303** violated: for a negative load the slip is not determined.
* `MotorW.C304_x1_violated`: **C304** violated: the reactance of the first rotor circuit of a record is never used: motors that differ in it are the same, at 0.08.
* `NetworkAnalytics.C199_connected_violated`: C199 is violated: `getConnectedBranches` passes the number that the bus has in the input file to a function that expects a local position. Whenever that number is not below the number of buses of the rank holding the bus, the call fails.
* `NetworkAnalytics.C199_connected_wrong_violated`: C199 is violated: in a network on one rank whose buses have the numbers 1, 2, 3, … in the input file, `getConnectedBranches` gives the branches of the next bus.
* `NetworkAnalytics.C199_endpoints_violated`: C199 is violated: `getBranchEndpoints` uses the global number of the branch as a local position on every rank. As soon as one rank holds no more branches than that number, the call fails.
* `NetworkClean.C15_reference_bus_violated`: C15 is violated for the reference bus: a network whose reference bus is a ghost on this process ends up, after `clean()`, with a different bus as reference (and not "undefined"), and if no owned bus is left the reference index designates no bus at all.
* `NetworkClone.C261_illegal_violated`: C261 fails for an illegal index: it is reported as an error but then returned as the reference bus, although it is neither -1 nor the index of a bus.
* `NewtonRaphson.C42_no_convergence_report_violated`: Nothing tells the caller about failure: with one allowed iteration the same kind of result is returned although the step is longer than the tolerance.
* `Observations.C265_lists_violated`: C265 fails on several processes: an existing element whose position in the configuration is not below the number of processes is listed by its own process only.
* `Observations.C265_undefined_violated`: C265 fails if there are fewer observations of a kind than processes: `setObservations` reads and writes outside its vectors. It also fails (with an exception) if none of the observed elements exists.
* `Observations.C267_second_violated`: C267 fails: when the observations are set a second time, the `k`-th value of a process is read from the bus of its `k`-th observation of the first time, for as many observations as there were the first time.
* `Observations.C267_value_violated`: C267 fails, as seen by the caller: on one process first `a` and then `b` is observed; the list is `b`, but the value is what the bus of `a` says.
* `Observations.C267_loads_violated`: C267 fails for loads altogether: the names of the first time are still there, and if one of those old names that now come after the positions of the new block belongs to a process, memory outside a vector is written.
* `Observations.C268_lists_violated`: C268 fails for loads: the list given by the caller is not cleared, so a second call with the same vector gives every load twice.
* `PFBusData.C134_reload_violated`: C134 violated: after a second load (with no more generators than the first) resetting the power brings back the generation of the first load, and the generator margins report it.
* `PFBusData.C134_reactive_violated`: C134 violated: a generator switched off and on again with `setGeneratorStatus` has lost its reactive power, and resetting the power does not bring it back.
* `PFBusData.C135_overscale_violated`: C135 violated for larger factors: a factor above 1 drives a generator that has room left beyond its maximum.
* `PFBusData.C139_empty_violated`: C139 violated: data that announce generators none of which is complete make `load` write outside the array of participation factors.
* `PFBusData.C139_outage_violated`: C139 violated after an outage: when a generator of a bus with a held voltage is taken out of service, the factors of the others are not raised, and the saved reactive power falls short by the share of the lost generator.
* `PFBusData.C139_offline_violated`: C139 violated: the only generator of a reference bus gets the whole generation even when it is out of service.
* `PFBusData.C140_switch_on_violated`: C140 violated: a generator that is out of service in the data cannot be put into service: on a bus with several generators and capacity in service, it keeps zero power, zero reactive limits and zero participation, although its status is now 1.
* `PFBusEdit.C141_set_voltage_violated`: C141 violated: a bus whose last generator in service has a set voltage different from the voltage in the bus record does not get back the voltage it started from, neither by resetting the voltage nor by resetting the power nor by setting the flag of the held voltage.
* `PFBusEdit.C142_twice_violated`: C142 violated: after two changes the flag of the first change comes back, not the original one.
* `PFBusEdit.C142_status_violated`: C142 violated: after switching a generator the old flag is lost. Whatever the bus was, the flag now says whether some generator is in service, and resetting keeps it so; in particular a load bus with a generator becomes a bus with a held voltage.
* `PFBusEdit.C143_shifted_violated`: C143 violated: if the first generator record is incomplete (and the others complete), setting the real power of a generator of the bus changes the record before its own; its own record keeps the old power.
* `PFBusEdit.C143_load_violated`: C143 violated for loads: a load with a constant-current or constant-admittance part does not keep the real power that was set: a bus loaded from the data collection afterwards adds these parts to the new value.
* `PFBusEdit.C144_base_violated`: C144 violated: with another base than 100 MVA, a generator of the reference bus with a result different from zero gets a wrong power.
* `PFBusEdit.C144_schedule_violated`: C144 violated: on a bus that is not the reference bus the scheduled power of a generator is overwritten by its share of the total, also with a base of 100 MVA; the result is wrong for every generator whose schedule is not its share.
* `PFSolve.C91_last_iteration_violated`: C91, the other direction fails: if the mismatch falls below the tolerance just at the last allowed iteration, the result is false although the network has converged. Here with one allowed iteration.
* `PFSolve.C91_sticky_violated`: C91 fails in the same way when the reactive limits are checked: once one pass has failed to converge, the result is false, whatever the following passes do.
* `ParamEdit.C288_empty_violated`: An empty identifier is not reported as missing: the call ends with an exception.
* `ParmetisWrapper.C285_isolated_violated`: Partitioning is refused on a process whose block of numbers holds only nodes without branches.
* `ParmetisWrapper.C285_few_violated`: A network with fewer nodes than processes is never partitioned.
* `Partition.C56_duplicate_ghosts_violated`: C56 is violated: partitioning the star leaves some process with two records of one bus.
* `PathRating.C136_same_name_violated`: C136 violated: of two generators in service with the same name on a bus (names missing in the data are all "-1") the first is scaled twice and the second never.
* `PathRating.C138_ghost_load_violated`: C138 violated: the load of every copy of a bus held by another process is counted again.
* `PathRating.C138_margin_violated`: C138 violated: the margins are those of the process itself. For a rating above 1 and a positive load, a process without generators of the source reports failure while a process whose own generators have enough room reports success, so the processes of one search take different paths.
* `PathRating.C145_overlap_violated`: C145 violated: if process 0 and process 1 both have violations, both store one under index 0, and all indices together are fewer than the violations, so some are lost.
* `PathRating.C146_no_room_violated`: C146 violated: if the system is not secure as it is and the generators have no room to go down, the rating 1 is reported although it is not secure.
* `PathRating.C146_negative_violated`: C146 violated: if nothing is secure, a negative rating is reported.
* `PathRating.C146_no_end_violated`: C146 violated: the search upwards need not end: with no load at the destination every rating is accepted, whatever the margins, as long as the generation is within them; and if the contingencies are always secure no rating is ever reported.
* `PathRating.C147_lowered_violated`: C147 violated: a power flow rating that passes the dynamic simulation is lowered all the same.
* `PetscOptions.C263_longer_prefix_violated`: C263 fails for prefixes that begin with one another: an option `-Bname` in the configuration of the object with prefix `A` is the option `-name` of every object whose prefix is `AB`, whatever is written there.
* `PetscOptions.C264_capital_violated`: C264 fails for every prefix that begins with a capital letter: destroying the object leaves all its options in the table, where the next object with this prefix finds them.
* `PetscOptions.C264_twice_violated`: C264 fails for an object that is configured twice: the options of the first time that the second option string does not mention stay in force at the second time, and are still in the table when the object is gone.
* `PetscOptions.C264_earlier_entry_violated`: C264 fails for entries that were there before (from the command line, or of another object with the same prefix): if the object mentions the option, its destruction takes the earlier entry away too.
* `PlantControl.C321_reactive_violated`: **C321** is violated. A plant that controls the reactive power compares it with the reference it hands over. When that reference is above the reactive power of the generator, it rises in the first step although power, voltage and frequency are as at the start.
* `PlantControl.C322_over_violated`: **C322** is violated: the gains are swapped. With a gain for a frequency that is too high (`Ddn`, whatever its size) and none for a frequency that is too low (`Dup` zero, or negative as in the default values of `load`), the reference of the real power does not react to a frequency that is too high, however high it is and however long this lasts. It rises when the frequency is too low.
* `PlantControl.C323_limit_violated`: **C323** is violated: the limits bound the integrators only. A plant at its largest real power hands over a larger reference after the first step with a frequency below the dead band; a plant at its largest reactive power whose generator gives less hands over a larger reference after the first step.
* `PlantControl.C328_first_violated`: **C328** is violated: in the first step the corrector of a frozen integrator uses a state that nothing has set. A plant at rest that controls the reactive power hands over any reference after a first step in which only the voltage has fallen, depending on what was in memory.
* `PowerFlow.C46_inactive_violated`: C46 fails when the activity flag does not agree with the statuses (see C44_set_status_violated): the off-diagonal element is missing.
* `PowerFlow.C46_two_branches_violated`: C46 fails for two branch objects between the same buses: only the last one is in the matrix, both are in the mismatch.
* `PowerFlow.C84_converted_bus_violated`: C84 fails in `solve`: reactive limits are checked before the last correction is pushed (pf_app_module.cpp 537-549), and a bus that has just been converted takes the element after its block, which is the angle correction of the next bus, as its magnitude correction.
* `QLimit.C85_area_violated`: C85 fails for the version with an area: its answer is true exactly if *every* bus of the area was reported.
* `QLimit.C47_violated`: C47 fails for every other number of loads: the injection is lost without a load and multiplied with several.
* `QLimit.C47_no_buffer_violated`: A crash at the upper limit when no exchange buffer is set.
* `QLimit.C48_loads_violated`: C48 fails for loads: every load in service keeps the value the conversion gave it.
* `QLimit.C48_not_converted_violated`: C48 fails for voltage-controlled buses that were *not* converted: clearing empties the list of generator statuses, so that the bus has no generation any more.
* `QLimit.C48_load_bus_violated`: C48 fails for load buses: their save flag was never written, so clearing gives them an indeterminate bus type.
* `QLimit.C48_second_time_violated`: C48 fails the second time: the save area is not emptied, so after the second conversion and clearing there are twice as many statuses as generators.
* `Random.C242_leftover_violated`: C242 violated: after an odd number of normally distributed numbers, the first one after `seed` is left over from before, whatever the new seed is.
* `Random.C242_overlap_violated`: C242: the numbers of process `p` with seed `s` are those of process `q` with seed `t` if `|s| + p = |t| + q`; so seeds of opposite sign give the same numbers, and neighbouring seeds give the numbers of neighbouring processes.
* `Raw23.C215_v23_leading_violated`: C215 fails for version 23 when the line starts with a blank, as in the files PSS/E writes: the case number is taken for the system base.
* `Raw23.C215_v23_comma_violated`: C215 fails for version 23 when commas separate the values and there is no blank: what is read is undefined.
* `Raw23.C215_v33_blank_violated`: C215 fails for versions 33 to 35 when blanks separate the values: what is read is undefined.
* `Raw23.C217_quotes_violated`: C217 fails for every name written in quotes, as the format asks: the quotes are part of the name that is found, so that it is not the text between them.
* `Raw23.C218_shunts_violated`: C218 fails whenever a record in service has a record before it in the opposite direction and different shunts at its two ends: each shunt is counted at the other bus.
* `Raw23.C219_direction_violated`: C219 fails for every transformer line that names the buses of its branch in the opposite order: its values are lost without a message.
* `Raw23.C219_circuit_violated`: C219 fails for every file whose first transformer line names a circuit that no record between its buses has: reading never ends.
* `Raw23.C220_again_violated`: C220 fails: if the first line of the second file joins two buses that a line of the first file joins, such as when a file is read again, what the parser does is undefined.
* `RawBranch.C166_short_line_violated`: C166 fails for a line that ends before the shunts of its ends: its charging is dropped, although absent values stand for 0.
* `RawBranch.C167_base_violated`: C167 fails for every transformer whose impedance is given on the system base (CZ = 1) while its own base differs: the impedance is converted all the same.
* `RawBranch.C167_magnetising_violated`: C167 fails for every transformer with a magnetising susceptance: half of it ends up at the second bus, where it does not belong.
* `RawBranch.C167_conductance_violated`: C167 fails for every transformer with a magnetising conductance (and no susceptance): it is lost.
* `RawBranch.C167_kilovolts_violated`: C167 fails for every transformer given in kilovolts (CW = 2) with the nominal winding voltage left at 0, which stands for the bus voltage: the ratio is divided by 0.
* `RawBranch.C167_nominal_violated`: C167 fails for every transformer with ratios per unit of its nominal voltages (CW = 3) when the nominal voltage of the second winding is not that of the bus.
* `RawBranch.C166_end_shunt_violated`: C166 fails when a line with different shunts at its ends is given in the direction opposite to that of an earlier line between the same buses: the shunts are exchanged.
* `RawBranch.C169_reversed_violated`: C169 fails for every transformer that is given in the direction opposite to that of a line between the same buses, unless its two ratios are equal: the ratio is put at the wrong bus.
* `RawBranch.C168_base_violated`: C168 fails for every three-winding transformer whose impedances are given on a base of its own (CZ = 2): they are not converted.
* `RawBranch.C168_zero_base_violated`: C168 fails for every three-winding transformer with a base left at 0, which stands for the system base: the impedance is divided by 0.
* `RawBus.C178_voltage_violated`: C178 fails for two buses of the same name: whatever voltage the record of a load gives after the name, the load is stored at the first of them and not at the second.
* `RawBus.C178_earlier_violated`: C178 fails after another file was read: a name of the earlier file goes to the number it had there, not to the bus of this name in the file being read.
* `RawBus.C178_one_character_violated`: C178 fails for names of one character: of two buses `'A'` and `'B'`, a load with the name of the second is stored at the first.
* `RawBus.C179_second_fixed_violated`: C179 fails for a bus with several fixed shunts, whenever the others in service add up to something.
* `RawBus.C179_out_of_service_violated`: C179 fails for a fixed shunt out of service: it is counted.
* `RawBus.C179_switched_replaces_violated`: C179 fails for a bus with a fixed and a switched shunt: the susceptance of the fixed one is forgotten.
* `RawBus.C179_second_switched_violated`: C179 fails for a bus with several switched shunts: only the first counts.
* `RawBus.C180_owner_violated`: C180 fails for the owner: a generator line whose owner (field 19) is empty, all other fields being single tokens, gives the owner `atoi("0")`, whatever the owner of its bus is.
* `RawBus.C180_status_violated`: C180 fails for the status: an empty status (field 15 of a generator) is read as `atoi("0")`, out of service; the format has 1 as the default.
* `RawGroup.C171_reuse_violated`: C171 fails for every file with at least one line: a parser object that has read the file cannot read it again, because the branches of the first reading are still in its map (an access outside the list of branches).
* `RawRecords.C172_inside_violated`: C172 fails for every two-winding transformer with a comment after its first line: the transformer is lost, and its second line is taken for the first line of the next one.
* `Relay.C98_no_pickup_time_violated`: **C98, violated**: with pick-up time zero, which is also used when the time is missing from the input, the relay trips whatever the voltage is, as soon as the breaker time has passed.
* `Relay.C99_no_pickup_time_violated`: **C99, violated**: with pick-up time zero, which is also used when the time is missing from the input, the relay trips the generator whatever the frequency is, as soon as the breaker time has passed.
* `Relay.C100_intermittent_violated`: **C100, violated**: an impedance that is in zone 1 at every second step only, and outside both zones in between, trips the relay whatever the zone times are, although it never stays in a zone longer than one step.
* `RelayUpdate.C101_skipped_violated`: **C101, violated**: after the first bus that trips in a time step, the relays of all following buses do not process the readings of that step; their timers stand still.
* `RelayUpdate.C101_branches_skipped_violated`: **C101, violated** for line relays: the branches after the first one that trips are left as they are.
* `RelayUpdate.C102_two_relays_violated`: **C102, violated**: a generator with two relays that both give the trip signal, at the same time or at different times, has its admittance removed twice.
* `RelayUpdate.C103_stale_violated`: **C103, violated**: a branch that tripped in the step before and follows the branch that trips now is not updated, so it adds the admittances of its circuits to its off-diagonal elements a second time.
* `RelayUpdate.C103_two_relays_violated`: **C103, violated**: two relays of the same circuit that act in the same step remove it twice.
* `RelayUpdate.C103_tripped_again_violated`: **C103, violated**: a circuit already out of service is removed again when a second relay of it acts later.
* `RelayUpdate.C104_branch_violated`: **C104, violated**: for line relays, a process on which a branch trips and a process on which none does get different answers, and only the first calls the collective update of the matrix.
* `RtprCases.C244_lost_violated`: C244 fails on more than one process: `upload` does not synchronise. For every generator found on a process that does not hold its entry of the vector of names there is an execution, clean as far as the bus numbers are concerned, that ends with an exception of `clean2Char` instead of a list of contingencies.
* `RtprCases.C245_zone_violated`: C245 fails if a zone is given for one of the two regions only: no line that runs from the second region to the first is found.
* `RtprCases.C245_inactive_violated`: C245 fails for lines out of service: every line of a branch connecting the regions is listed as a tie line, whatever its status.
* `RtprCases.C246_divergent_violated`: C246 fails: a contingency for which the power flow diverges does not count against the rating; the verdict is the same whatever the number of such contingencies.
* `RtprCases.C246_base_violated`: C246 fails: that the base case has no solution is not taken into account either.
* `RtprCases.C246_empty_violated`: C246 fails without contingencies: an overloaded tie line in the base case does not count.
* `RtprCases.C247_exception_violated`: C247 fails: a dynamic simulation that ends with an exception does not count against the rating.
* `RtprCases.C247_several_violated`: C247 fails for a contingency with several elements: all but the first are forgotten.
* `SeqParser.C212_zero_violated`: Zero sequence shunts are lost: whatever the file says, no bus gets them.
* `SeqParser.C212_negative_violated`: A bus that has only a row for its zero sequence shunt gets a negative sequence shunt that nobody specified: whatever was in the memory of the new struct.
* `SeqParser.C213_reversed_violated`: The buses of a branch have no order in the format, but a row is lost if it names them in the other order than the network: if all rows do, the branch has no values.
* `SeqParser.C213_short_violated`: The row of a transformer with twelve to fourteen words - the eleven of two windings and some of the optional ones - is taken for one with three windings, and words after its end are used: the run is undefined.
* `SeqParser.C214_reuse_violated`: A parser remembers the places of the generators of the last file but not their structs. If process 0 holds none of the buses of a first file, and a second file starts with a row for a generator of the first, the struct sought is outside the vector: the run is undefined.
* `StatBlock.C32_masked_base_violated`: C32 fails when the base case is masked: its value is still reported, for every row in which it is below all others.
* `StatBlock.C66_masked_average_violated`: C66: with masked entries the average is divided by all rows: always wrong when the sum is not zero.
* `StateEst.C128_unhandled_type_violated`: C128 is violated by a measurement of an accepted but unhandled type: for every bus and state, the residual of the measurement after it is stored in its place, and nothing is stored for the last one.
* `StateEst.C128_isolated_neighbour_violated`: C128 is violated next to an isolated bus: the residual of an injection measurement then depends on what the uninitialised local variables contain.
* `StateEstBranch.C126_shunt_violated`: C126 is violated by a bus shunt: for every real-power measurement at the "from" end, if the bus there has a shunt conductance (and a voltage), the row is not the derivative: the change of the residual with the voltage magnitude of that bus is off by `2 gs v / t²`.
* `StateEstBranch.C126_charging_violated`: C126 is violated by line charging: for a line with series reactance 1 and total charging 2 the measured current is the voltage at the far end whatever the voltage at the near end, but the row contains a nonzero derivative with respect to the near-end voltage.
* `StateEstBranch.C127_out_of_service_violated`: C127 is violated by a line out of service: the residuals do not depend on the status of any line, so a measurement on an open line is compared with the flow the line would have in service.
* `StateEstBranch.C127_switched_violated`: C127 is violated by a switched transformer (ratio on the "to" side): with ratio 2 and impedance j, the residual of a reactive measurement at the "from" end is taken with a quarter of the self-admittance.
* `StateEstBranch.C128_current_to_end_violated`: C128 is violated by a current measurement at the "to" end: for every branch and state, the residual of the measurement after it is stored in its place.
* `StateEstBranch.C128_unknown_line_violated`: C128 is violated by a measurement naming no line of the branch: it is compared with the flow of the measurement before it.
* `StateEstSolve.C129_isolated_bus_violated`: C129 is violated by every measured isolated bus: it announces values for a voltage measurement and writes none, in the Jacobian and in the weight matrix.
* `StateEstSolve.C129_inactive_branch_violated`: C129 is violated by every branch out of service on which a line is measured.
* `StateEstSolve.C130_unobserved_violated`: C130 is violated by an unobserved bus: it has no column in the Jacobian, but takes elements out of the correction vector (so the elements after it go to the wrong buses, and the vector is too short).
* `StateEstSolve.C131_zero_tolerance_violated`: C131 is violated by a tolerance of zero ("iterate as long as allowed"): no pass at all is made, for every problem.
* `StateEstSolve.C132_exact_measurement_violated`: C132 is violated by an exact measurement (deviation 0): it weighs less than every other measurement — its row adds nothing to the right-hand side and nothing to the gain matrix, whatever its value.
* `StateEstSolve.C133_violated`: C133 is violated by every case: no generator result is ever stored, however many generators the bus has.
* `StringUtils.C25_inner_tab_violated`: C25 does not hold literally: a tab between words is changed into a blank, for all words.
* `StringUtils.C26_throws_violated`: C26 fails for exactly the other strings: those without any token (the empty string included) and those ending in two or more separators make the call throw.
* `StringUtils.C27_blank_line_violated`: C27 fails on every blank line (also the empty one): a character before the string is read.
* `StringUtils.C27_malformed_violated`: C27 outside its hypotheses: an unterminated quote at the start is returned twice (or with an empty token in front), and one character directly after a closing quote at the end of the line is dropped.
* `StringUtils.C28_violated`: … but kept after a two-character identifier, tabs are not treated as padding, and an empty or blank identifier makes the call throw, so C28 does not hold for those inputs.
* `StringUtils.C61_violated`: C61 fails when the other kind of quote occurs in the text, and on empty texts.
* `TaskManager.C02_cancel_violated_by_overflow`: C02 fails without the bound: with 2^30 tasks, two cancels wrap the 32-bit counter and the next request succeeds with a negative task index.
* `UnitCommit.C202_max_operating_violated`: C202 is violated for the maximum operating generation: for every such file and generator the value stored under its name is the maximum generation of the line, so it is wrong whenever the two columns differ.
* `UnitCommit.C202_blank_line_violated`: C202 is violated by a blank line, also one at the end of the file: it counts as a line for the bus and generator that happen to be in memory. For every bus of every process, every generator there and every number the memory can be such that reading a file of a header and a blank line makes this number the cost of this generator.
* `ValueTransfer.C40_odd_violated`: C40 fails for an odd number of reals: the last step reads past the end of the buffer, and one more value is written than the target was allocated for.
* `WatchSeries.C286_order_violated`: The series are stored in the order of the list of watched generators and the map is written in the order of the network: two generators listed in the other order get each other's label.
* `WatchSeries.C286_out_of_service_violated`: A watched generator that is out of service has series but no entries of the map.
* `WatchSeries.C287_again_violated`: Setting a shorter list leaves the generators of the former list watched: the map describes eight series and there are four.
* `Wind.C315_overvoltage_violated`: C315 fails at overvoltage: for every converter that withholds reactive current (`khv > 0`), at every voltage above the limit, less reactive power is reported than is fed in.
* `Wind.C315_base_violated`: C315: observations are the power in MW divided by the system base; and they are the same when the machine base is asked for, so that the power in MW computed from them is wrong whenever the bases differ and active power is fed in.
* `Wind.C316_turbine_violated`: C316 fails for the turbine: its speed stays at the initial value in every simulation, whatever torques act, for one and for two masses.
* `Wind.C316_gap_violated`: C316 fails: under a constant excess of torque the gap between the speeds of generator and turbine grows with every step, also when they are one mass.
* `Wind.C317_no_plant_violated`: C317 fails without a plant controller: the variable that should hold the reference of the plant is not set then. Whenever the value found there is below the power of the turbine, the blades are turned in the first step although nothing has changed.
* `Wind.C318_torque_violated`: C318 fails for every torque controller with proportional gain: the limits bound its integral part only, and there are power references for which the torque ordered in the first call exceeds the upper limit.
* `YMatrix.C80_incomplete_shunt_violated`: C80 fails for a line whose shunt data is incomplete (for example no `BRANCH_SHUNT_ADMTTNC_G1`): its charging is left out of the matrix although it is kept for transformers.
* `YMatrix.C44_isolated_neighbour_violated`: C44 fails next to an isolated bus: an in-service line to it stays in the diagonal entry of its neighbour.
* `YMatrix.C44_set_status_violated`: C44 fails after a line of a branch that was completely out of service is switched on through `setLineStatus`: `p_active` stays false, so the diagonal has the line but the off-diagonal entry is missing.
* `YMatrix.C44_load_status_violated`: Also `load` can make status and `p_active` disagree: a status of 2 counts as in service for the elements but not for the branch.
* `YMatrix.C45_same_tag_violated`: C45 fails for two lines with the same tag: the second one is reported as the first.
* `YMatrix.C81_end_shunt_violated`: C81 fails for end shunts: they are assigned to the buses of the branch without regard to the direction of the element.
* `Zones.C232_status_violated`: C232 fails for loads out of service: they are counted.
* `Zones.C233_composite_violated`: C232 and C233 fail at a bus with a composite load (which is moved to a bus of its own) and other loads: the other loads of the bus, before and after it, vanish from the report and from the simulation.

## Axioms of each theorem in MANIFEST.json

Output of `#print axioms`, grouped by set of axioms.

* none: CaDriver.C206_second_solve_violated, Configuration.C75_empty_vector_violated, GenMap.C60_remote_row_lost_violated, InputStream.C39_end_is_stable, LinSolve.C252_tolerances_partial, LinSolve.C252_tolerances_violated, NetworkClone.C261_illegal_violated, RtprCases.C245_zone_violated, SerialIO.C24_full_slot_runs_on, TaskManager.C02_cancel_violated_by_overflow, YMatrix.C44_load_status_violated.

* propext: AdjacencyList.C13_unknown_end_becomes_node_zero, Configuration.C73_cursor, Configuration.C73_value, ExchangeBuffers.C59_violated, GenMap.C23_self_loop_violated, InputStream.C39_vector_open, InputStream.C39_vector_violated, MatPower.C294_again_violated, MatPower.C295_endless_violated, NetworkClean.C15_reference_bus_violated, Observations.C268_lists_partial, Observations.C268_lists_violated, RtprCases.C246_empty_violated.

* Quot.sound, propext: BlockParser.C29_exact, BlockParser.C29_test_end_partial, BlockParser.C64_short_name, BlockParser.C65_truncated_input_violated, BusTable.C200_headers_violated, BusVectorMap.C21_mapToBus_uses_every_entry_once, CaDriver.C206_lines_partial, CaDriver.C206_summary_violated, Configuration.C36_scalar, Configuration.C36_string_partial, Configuration.C36_string_violated, Configuration.C36_vector_partial, Configuration.C74_second_file_hidden_violated, Configuration.C74_two_files_partial, Configuration.C75_open_partial, DAEEvent.C41_arrays, DataCollection.C05_plain_name_may_alias, DataCollection.C05_types_do_not_interfere, DataCollection.C06_stored_values_are_read_back, DataCollection.C55_assignment_copies_everything, ExchangeBuffers.C17_boundary_violated, ExchangeBuffers.C17_buffers_partial, ExchangeBuffers.C17_getters, FactoryChecks.C86_clear_restores, FullMatrixMap.C22_sizes, GaShuffler.C97_same_as_messages, GenMap.C23_ghost_copies_agree, GenTransfer.C270_slab, GenTransfer.C271_other_processes_violated, GhostUpdate.C19_branch_indices, GhostUpdate.C58_violated, GlobalVector.C96_negative_violated, GlobalVector.C96_reload_partial, HashDistr.C11_chunks_partition, InputStream.C39_every_file, InputStream.C39_vector_lines_partial, KalmanFilter.C276_all_passes, KalmanMachine.C279_last_violated, KalmanMachine.C279_voltage_partial, KalmanMachine.C279_voltage_violated, KalmanMachine.C281_fault_partial, KalmanMachine.C281_reversed_violated, KalmanMachine.C282_twice_violated, LinSolve.C250_parallel_partial, LinSolve.C251_parallel_partial, MatPower.C292_unsorted_violated, MatPower.C293_ids, MatPower.C295_costs_partial, MatPower.C295_skipped_violated, NetworkAnalytics.C197_totals, NetworkAnalytics.C198_info, NetworkAnalytics.C199_connected_partial, NetworkAnalytics.C199_connected_violated, NetworkAnalytics.C199_connected_wrong_violated, NetworkAnalytics.C199_endpoints_partial, NetworkAnalytics.C199_endpoints_violated, NetworkClone.C260_connected, Observations.C265_search, Observations.C265_undefined_violated, Observations.C267_lists_partial, Observations.C267_loads_violated, Observations.C267_second_violated, PetscOptions.C263_generated, RawRecords.C172_inside_violated, RtprCases.C245_inactive_violated, RtprCases.C246_base_violated, RtprCases.C246_divergent_violated, RtprCases.C246_secure_accepted, RtprCases.C246_verdict_partial, RtprCases.C247_exception_violated, RtprCases.C247_verdict_partial, StatBlock.C67_blocks_cover, TaskLoop.C54_all_tasks_executed_once, TaskLoop.C54_no_deadlock.

* Classical.choice, Quot.sound, propext: AcMotor.C306_composite_violated, AcMotor.C306_power_violated, AcMotor.C306_record_partial, AcMotor.C307_again_violated, AcMotor.C307_restart_partial, AcMotor.C307_stall, AcMotor.C308_relay, AcMotor.C309_limits_partial, AcMotor.C309_range, AcMotor.C309_reconnect_violated, AcMotor.C310_cold_violated, AcMotor.C310_range, AcMotor.C310_return_violated, AcMotor.C310_share_partial, AcMotor.C310_warm_partial, AcMotor.C311_break_violated, AcMotor.C311_start_partial, AcMotor.C312_drawn, AcMotor.C312_share, Actions.C222_end_shunt_violated, Actions.C222_fault_violated, Actions.C222_phase_violated, Actions.C222_same_branch_violated, Actions.C222_trips_partial, Actions.C223_one_process_partial, Actions.C223_two_processes_violated, Actions.C224_elsewhere_partial, Actions.C224_relay_violated, Actions.C225_base_violated, Actions.C225_changes_partial, Actions.C225_twice_violated, Actions.C226_current_partial, Actions.C226_current_violated, Actions.C226_share, Actions.C227_compensate_partial, Actions.C227_current_partial, Actions.C227_lists_violated, Actions.C227_plain_violated, Actions.C227_replace_partial, Actions.C227_switch_violated, Actions.C227_twice_violated, Actions.C228_reactive_violated, Actions.C228_resistive_partial, Actions.C229_others_violated, Actions.C229_restore_violated, Actions.C229_share_partial, Actions.C230_early_violated, Actions.C230_size_violated, Actions.C230_time_partial, AdjacencyList.C13_adjacency_counts_edges, AngleWrap.C52_normalised, AngleWrap.C52_same_direction, AngleWrap.C52_unchanged, BlockParser.C29_violated, BlockParser.C30_blank_name_violated, BlockParser.C30_check_string_partial, BlockParser.C30_one_character_violated, BlockParser.C31_comment_kept_violated, BlockParser.C31_no_quotes_partial, BlockParser.C31_one_section_partial, BlockParser.C31_two_sections_violated, BlockParser.C63_splitPSSELine_partial, BlockParser.C63_violated, BlockParser.C64_parseBusName, BlockParser.C65_block_partial, BusTable.C200_blank_line_violated, BusTable.C200_headers_partial, BusTable.C200_inner_comment_violated, BusTable.C200_last_line_violated, BusTable.C200_quoted_violated, BusTable.C200_table_partial, BusVectorMap.C21_local_offset, BusVectorMap.C21_round_trip, BusVectorMap.C21_vector_is_concatenation, CaDriver.C205_dropped_violated, CaDriver.C205_list_partial, CaDriver.C205_missing_violated, CaDriver.C206_gathered_partial, CaDriver.C207_generators_partial, CaDriver.C207_generators_violated, CaDriver.C207_lines_partial, CaDriver.C207_lines_violated, CaDriver.C207_rows, CaDriver.C208_in_service_partial, CaDriver.C208_out_of_service_violated, CaDriver.C209_balance_partial, CaDriver.C209_outage_violated, CaDriver.C209_reference_violated, CaDriver.C210_independent_partial, CaDriver.C210_qlimit_violated, Cblock.C34_after_call, Cblock.C34_init_violated, Cblock.C34_limits, Cblock.C34_rate, Cblock.C34_rate_arguments_ignored_violated, Cblock.C35_equilibrium_is_kept, Cblock.C35_init_given_u_partial, Cblock.C35_init_given_y_partial, Cblock.C35_integrator_violated, Cblock.C35_out_of_limits_violated, Cblock.C35_small_gain_violated, Cblock.C35_steady_state_partial, Cblock.C68_no_overshoot, Cblock.C68_no_overshoot_run, Cblock.C68_unlimited_step, Cblock.C69_default_limits, Cblock.C69_filter, Cblock.C69_filter_init, Cblock.C69_leadLag, Cblock.C69_output_only, Cblock.C69_outputs_in_a_step, Cblock.C69_pi_integrator, CoarseTimer.C37_accumulates, CoarseTimer.C37_counts, CoarseTimer.C37_handles, CoarseTimer.C37_independent, CoarseTimer.C38_dump_partial, CoarseTimer.C38_exact, CoarseTimer.C38_violated, CoarseTimer.C76_order_violated, CoarseTimer.C76_stats, CoarseTimer.C76_titles_partial, Communicator.C07_divide_blocks, Communicator.C07_divide_partition, ComplexOps.C253_binary, ComplexOps.C253_parts, ComplexOps.C253_quotients, ComplexOps.C253_unary, ComplexOps.C254_infinity, ComplexOps.C254_norms, ComplexOps.C255_diagonal, ComplexOps.C255_norm, ComplexOps.C255_products, ComplexOps.C256_after_identity_partial, ComplexOps.C256_after_identity_violated, ComplexOps.C256_elementwise_partial, ComplexOps.C256_transpose_partial, ComplexOps.C257_transposeMultiply_partial, ComplexOps.C257_transposeMultiply_violated, ComplexOps.C258_rowBlock, Composite.C296_ieelbl_violated, Composite.C296_models_partial, Composite.C297_motors_partial, Composite.C297_reactive, Composite.C297_static_violated, Composite.C298_ends_partial, Composite.C298_limit_violated, Composite.C298_voltage_partial, Composite.C299_capacitor_violated, Composite.C299_start_partial, Composite.C299_tap_violated, Configuration.C36_vector_violated, Contingency.C49_out_of_service_violated, Contingency.C49_round_trip_partial, Contingency.C49_twice_violated, Contingency.C49_two_branches_violated, Contingency.C90_effect, Contingency.C90_returned, DAEEvent.C41_dispatch, DAEEvent.C78_exact, DAEEvent.C78_terminates_partial, DAEEvent.C78_violated, Dae.C187_esst1a_violated, Dae.C187_exdc1_violated, Dae.C187_field_limit_violated, Dae.C187_isolated_violated, Dae.C187_matrix_is_derivative_partial, Dae.C187_wsieg1_violated, Dae.C188_esst1a_violated, Dae.C188_exdc1_violated, Dae.C188_fault_matrix_is_derivative_partial, Dae.C188_gencls_violated, Dae.C188_wsieg1_violated, Dae.C189_genrou_resistance_violated, Dae.C189_initial_equilibrium_partial, Dae.C189_isolated_violated, Dae.C189_several_generators_violated, Dae.C190_partition, Dae.C190_pushed, Dae.C190_written, Dae.C191_esst1a_partial, Dae.C191_esst1a_violated, Dae.C191_esst1a_watched_partial, Dae.C191_esst1a_watched_violated, Dae.C191_exdc1_partial, Dae.C191_exdc1_watched, Dae.C191_other_limiter_violated, Dae.C191_reset_violated, Dae.C191_wsieg1_partial, Dae.C191_wsieg1_violated, Dae.C191_wsieg1_watched, Dae.C192_during, Dae.C192_restored_partial, Dae.C192_same_moment_violated, Dae.C193_gencls_violated, Dae.C193_genrou_partial, Dae.C193_gensal_partial, Dae.C194_classical_partial, Dae.C194_genrou_partial, Dae.C194_genrou_resistance_violated, Dae.C194_gensal_partial, Dae.C194_wsieg1_limits_partial, Dae.C194_wsieg1_violated, Dae.C195_branch_partial, Dae.C195_shift_violated, Dae.C195_shunt_violated, Dae.C195_switched_violated, Dae.C196_esst1a_violated, Dae.C196_history_partial, DataCollection.C04_refines_abstract_store_partial, DataCollection.C05_indexed_entries_distinct, DataCollection.C05_long_index_is_undefined, DataCollection.C06_stored_values_stay, Dblock.C70_marker_violated, Dblock.C70_plain_output, Dblock.C70_previous, Dblock.C70_rate_partial, Dblock.C70_value_limits, Dblock.C71_decreasing_ends_partial, Dblock.C71_decreasing_violated, Dblock.C71_ends_partial, Dblock.C71_interpolates_partial, Dblock.C71_inverse_partial, Dblock.C71_segment_count_violated, Dblock.C72_deadband, Dblock.C72_gates, DeviceLoad.C203_esst4b_violated, DeviceLoad.C203_fixed_violated, DeviceLoad.C203_parameters_partial, DeviceLoad.C203_unread_violated, DeviceLoad.C204_devices_partial, DeviceLoad.C204_models_violated, DsEvents.C105_inactive_violated, DsEvents.C105_matrix_partial, DsEvents.C105_overlap_violated, DsEvents.C105_simulation_partial, DsEvents.C106_faults_partial, DsEvents.C106_never_ends_violated, DsEvents.C107_fault_partial, DsEvents.C107_gen_partial, DsEvents.C107_line_partial, DsEvents.C107_off_grid_violated, DsEvents.C108_generator_partial, DsEvents.C108_line_partial, DsEvents.C108_no_branch_violated, DsEvents.C108_no_generator_violated, DsEvents.C109_endless_violated, DsEvents.C109_run_partial, DsEvents.C110_forgets_violated, DsEvents.C110_relay_partial, DsEvents.C110_twice_violated, DsEvents.C111_diagonal, DsLoad.C152_account, DsLoad.C152_admittance_partial, DsLoad.C152_negative_violated, DsLoad.C152_off_violated, DsLoad.C153_load_iff, DsLoad.C153_negative_violated, DsLoad.C153_slots_partial, DsLoad.C154_stale_violated, DsLoad.C154_status_partial, DsLoad.C155_composite_violated, DsLoad.C155_load_partial, DsLoad.C164_generator_violated, DsLoad.C164_load_violated, DsLoad.C164_status_partial, DsScaling.C235_reload_violated, DsScaling.C235_reset_partial, DsScaling.C236_amount, DsScaling.C236_load, DsScaling.C236_off_violated, DsScaling.C236_reload_violated, DsScaling.C236_units_violated, DsScaling.C236_within_partial, DsScaling.C237_copies_violated, DsScaling.C237_current_violated, DsScaling.C237_load_partial, DsScaling.C237_margins_partial, DsScaling.C237_processes_violated, DsScaling.C237_status_violated, DsScaling.C238_angle_violated, DsScaling.C238_loads_violated, DsScaling.C238_solution_partial, DsStep.C148_classical_rest_partial, DsStep.C148_resistance_violated, DsStep.C148_subtransient_violated, DsStep.C149_genrou_controlled_partial, DsStep.C149_genrou_rest, DsStep.C150_gensal_rest, DsStep.C151_flat_run_partial, DsStep.C156_genrou_violated, DsStep.C156_reported_state_partial, DsStep.C157_classical_partial, DsStep.C157_reported_power_violated, DsStep.C158_classical_violated, DsStep.C158_lag_violated, DsStep.C158_remembered, DsStep.C158_trip_partial, DsStep.C159_check_partial, DsStep.C159_detailed_violated, DsStep.C159_empty_violated, DsStep.C160_curve, DsStep.C160_machines_partial, DsStep.C160_reversed_violated, DsStep.C161_base_partial, DsStep.C161_overload_violated, DsStep.C162_reference_angle, DsStep.C163_base_violated, DsStep.C163_classical_partial, DsStep.C165_classical_heun, DsStep.C165_classical_start, DsStep.C165_genrou_heun, DsStep.C165_gensal_heun, DsStep.C176_kept, DsStep.C176_matrix, DsStep.C176_no_influence, Dyr.C181_generators_partial, Dyr.C181_wsieg1_violated, Dyr.C182_acmtblu1_violated, Dyr.C182_cim6bl_violated, Dyr.C182_cmldblu1_violated, Dyr.C182_loads_partial, Dyr.C183_branch_relays_partial, Dyr.C183_bus_relays, Dyr.C183_distr1_violated, Dyr.C184_acmtblu1_violated, Dyr.C184_bus_relays, Dyr.C184_distr1_bus_violated, Dyr.C184_distr1_violated, Dyr.C184_esst4b_violated, Dyr.C184_gdform_violated, Dyr.C184_generators_partial, Dyr.C184_genrou_violated, Dyr.C184_loads_partial, Dyr.C184_psssim_violated, Dyr.C184_reeca1_violated, Dyr.C184_repca1_violated, Dyr.C184_wsieg1_violated, Dyr.C185_bus_data, Dyr.C185_direct_partial, Dyr.C185_gdform_violated, Dyr.C185_other_branches, Dyr.C185_other_buses, Dyr.C186_direct_partial, Dyr.C186_order_violated, DyrRecords.C201_comment_violated, DyrRecords.C201_direct_partial, DyrRecords.C201_empty_comment_violated, DyrRecords.C201_fused_violated, DyrRecords.C201_no_slash_violated, DyrRecords.C201_quotes_and_returns_violated, DyrRecords.C201_shared_partial, ElecControl.C324_each_partial, ElecControl.C324_total_violated, ElecControl.C325_again_violated, ElecControl.C325_hold_partial, ElecControl.C325_negative_violated, ElecControl.C326_reactive_violated, ElecControl.C327_equal_partial, ElecControl.C327_table_violated, ExchangeBuffers.C17_setters, ExchangeBuffers.C59_disciplined_histories_are_safe_partial, ExchangeBuffers.C59_paired_histories_leak_nothing_partial, Exciters.C119_esst1a_ceiling_violated, Exciters.C119_esst1a_lag_violated, Exciters.C119_esst1a_partial, Exciters.C119_exdc1_partial, Exciters.C119_exdc1_violated, Exciters.C119_ieeet1_partial, Exciters.C119_sexs_partial, Exciters.C119_sexs_violated, Exciters.C120_esst1a, Exciters.C120_sexs_partial, Exciters.C121_esst1a_violated, Exciters.C121_exdc1_block_violated, Exciters.C121_exdc1_violated, Exciters.C122_exdc1_partial, Exciters.C122_ieeet1_partial, Exciters.C122_reference_partial, Exciters.C122_zero_violated, Exciters.C123_esst1a_violated, Exciters.C124_sexs_partial, Expand.C300_chain, Expand.C300_count, Expand.C300_kept, Expand.C300_numbers, Expand.C301_again_violated, Expand.C301_none, Export.C173_block_partial, Export.C173_devices, Export.C173_gap_violated, Export.C173_lines_partial, Export.C173_parallel_violated, Export.C173_transformers_partial, Export.C174_current_violated, Export.C174_gap_violated, Export.C174_loads_partial, Export.C175_digits_partial, Export.C175_digits_violated, Export.C175_magnetising_violated, Export.C175_round_trip_partial, Export.C175_shift_violated, FactoryChecks.C50_lone_bus_violated, FactoryChecks.C50_marks_partial, FactoryChecks.C50_no_lone_bus_violated, FactoryChecks.C50_result_exact, FactoryChecks.C51_area_check_partial, FactoryChecks.C51_check_partial, FactoryChecks.C51_clear_partial, FactoryChecks.C51_ignore_exact, FactoryChecks.C51_new_violation_violated, FactoryChecks.C51_still_reported_violated, FactoryChecks.C87_check, FactoryChecks.C88_ignore_partial, FactoryChecks.C88_no_rate_a_violated, FactoryChecks.C88_rate_b_violated, FactoryChecks.C89_out_of_range_violated, FactoryChecks.C89_partial, FactoryChecks.C89_rate_b_partial, FactoryChecks.C89_rate_b_violated, FactoryChecks.C89_wrong_line_violated, FaultSim.C248_busFault_violated, FaultSim.C248_bus_partial, FaultSim.C248_generator_violated, FaultSim.C248_line_partial, FaultSim.C248_order_violated, FaultSim.C249_length_violated, FaultSim.C249_short_violated, FaultSim.C249_start_violated, FaultSim.C249_step_violated, FaultSim.C249_steps_partial, FaultSim.C249_total_violated, FreqMonitor.C239_bus_partial, FreqMonitor.C239_bus_sound, FreqMonitor.C239_found_partial, FreqMonitor.C239_network, FreqMonitor.C239_no_false_alarm, FreqMonitor.C239_restart_violated, FreqMonitor.C240_next_partial, FreqMonitor.C240_reload_violated, FreqMonitor.C240_stale_violated, FreqMonitor.C241_limit_partial, FreqMonitor.C241_maximum_violated, FullMatrixMap.C22_add_mode_partial, FullMatrixMap.C22_blocks_cover, FullMatrixMap.C22_offsets, FullMatrixMap.C22_process_without_bus_violated, FullMatrixMap.C22_set_mode_partial, FullMatrixMap.C22_work_array_large_enough, GenMap.C23_indices_bijection_partial, GenMap.C60_entered_by_row_owner_partial, GenTransfer.C270_load, GenTransfer.C270_roundtrip, GenTransfer.C270_vector_roundtrip, GenTransfer.C271_accepted, GenTransfer.C271_empty_process_violated, GenTransfer.C271_uniform_partial, GhostUpdate.C16_reset_then_update, GhostUpdate.C16_update, GhostUpdate.C19_bus_numbering, GhostUpdate.C20_checkTrue, GhostUpdate.C20_checkTrueSomewhere, GhostUpdate.C58_matching_collectives_iff_partial, GlobalIndices.C14_branch_numbering, GlobalIndices.C14_bus_numbering, GlobalIndices.C14_ghosts_only, GlobalStore.C93_duplicates, GlobalStore.C93_empty_vector_violated, GlobalStore.C93_gap_violated, GlobalStore.C93_out_of_range, GlobalStore.C93_second_upload_violated, GlobalStore.C93_stored_partial, GlobalVector.C94_exact, GlobalVector.C94_getData, GlobalVector.C94_lost_violated, GlobalVector.C94_stored_partial, GlobalVector.C95_detected_partial, GlobalVector.C95_missed_violated, GlobalVector.C95_no_false_alarm, GlobalVector.C95_only_holder_violated, Governors.C112_gast_partial, Governors.C112_gast_violated, Governors.C112_hygov_partial, Governors.C112_tgov1_partial, Governors.C112_wsieg1_limits_violated, Governors.C112_wsieg1_partial, Governors.C112_wsieg1_second_violated, Governors.C113_lead_violated, Governors.C113_tgov1_partial, Governors.C114_tgov1_droop_partial, Governors.C115_gast_violated, Governors.C115_hygov_violated, Governors.C115_tgov1_partial, Governors.C116_hygov_violated, Governors.C116_wsieg1_violated, Governors.C117_hygov_partial, Governors.C117_hygov_violated, Governors.C118_wsieg1_violated, GridForming.C157_gridforming_partial, GridForming.C157_gridforming_violated, GridForming.C158_gridforming_violated, GridForming.C319_flat, GridForming.C319_start, GridForming.C320_limit_partial, GridForming.C320_limit_violated, HashDistr.C10_distribute_exact, HashDistr.C11_every_chunk_visited_once, IndexHash.C09_empty_add_keeps, IndexHash.C09_lookup_exact_pairs_partial, IndexHash.C09_lookup_exact_partial, IndexHash.C09_no_request_unchanged, IndexHash.C09_violated, InputStream.C39_exact, InputStream.C39_file_partial, InputStream.C39_last_line_lost_violated, KalmanFilter.C272_update, KalmanFilter.C273_mean, KalmanFilter.C273_no_change, KalmanFilter.C274_ensemble_violated, KalmanFilter.C274_noise_violated, KalmanFilter.C274_seed_violated, KalmanFilter.C275_empty_violated, KalmanFilter.C275_fault_step_violated, KalmanFilter.C275_other_step_violated, KalmanFilter.C275_switching_partial, KalmanFilter.C275_times_partial, KalmanFilter.C276_inside_partial, KalmanFilter.C276_offset_violated, KalmanFilter.C276_same_time, KalmanMachine.C277_network_partial, KalmanMachine.C277_set_voltage_violated, KalmanMachine.C277_steady_partial, KalmanMachine.C277_subtransient_violated, KalmanMachine.C277_units_violated, KalmanMachine.C278_status_violated, KalmanMachine.C280_first_violated, KalmanMachine.C280_load_partial, KalmanMachine.C280_v23_violated, LinSolve.C250_serial_partial, LinSolve.C250_serial_violated, LinSolve.C251_serial_violated, MatPower.C292_exception_violated, MatPower.C292_sorted_partial, MatPower.C294_branches_partial, MotorW.C302_lower_violated, MotorW.C302_rest_partial, MotorW.C303_negative_violated, MotorW.C303_overload_violated, MotorW.C303_power_partial, MotorW.C304_parameters_partial, MotorW.C304_x1_violated, MotorW.C305_share, MotorW.C305_static, NetworkAnalytics.C197_generators, NetworkAnalytics.C197_lines, NetworkAnalytics.C197_loads, NetworkAnalytics.C198_counts, NetworkClean.C15_clean_partial, NetworkClean.C15_ghost_reference_becomes_zero, NetworkClone.C259_clone, NetworkClone.C261_reference_partial, NetworkLookup.C18_branch_lookup, NetworkLookup.C18_bus_lookup, NetworkLookup.C18_opposite_orientation_hidden, NetworkLookup.C18_stale_branch_map, NetworkLookup.C18_stale_map, NewtonRaphson.C42_first, NewtonRaphson.C42_newton, NewtonRaphson.C42_no_convergence_report_violated, NewtonRaphson.C79_linear, Observations.C265_defined, Observations.C265_lists_exact, Observations.C265_lists_partial, Observations.C265_lists_violated, Observations.C266_values, Observations.C267_value_violated, Observations.C269_polar, PFBusData.C134_reactive_violated, PFBusData.C134_reload_violated, PFBusData.C134_restored_partial, PFBusData.C135_direction, PFBusData.C135_overscale_violated, PFBusData.C135_within, PFBusData.C136_generators_partial, PFBusData.C136_loads_partial, PFBusData.C136_same_name_violated, PFBusData.C136_total_partial, PFBusData.C137_balance_partial, PFBusData.C138_ghost_load_violated, PFBusData.C138_margin_violated, PFBusData.C138_total_partial, PFBusData.C139_empty_violated, PFBusData.C139_offline_violated, PFBusData.C139_outage_violated, PFBusData.C139_records, PFBusData.C139_saved, PFBusData.C139_shares, PFBusData.C139_single, PFBusData.C140_return_partial, PFBusData.C140_switch_on_violated, PFBusData.C141_reset_partial, PFBusData.C141_set_voltage_violated, PFBusData.C141_start, PFBusData.C142_reset_partial, PFBusData.C142_status_violated, PFBusData.C142_twice_violated, PFBusData.C143_generator_partial, PFBusData.C143_load_violated, PFBusData.C143_shifted_violated, PFBusData.C144_base_violated, PFBusData.C144_reference_partial, PFBusData.C144_schedule_violated, PFBusData.C145_order_partial, PFBusData.C145_overlap_violated, PFBusData.C146_down_ends, PFBusData.C146_down_largest, PFBusData.C146_down_partial, PFBusData.C146_negative_violated, PFBusData.C146_no_end_violated, PFBusData.C146_no_room_violated, PFBusData.C146_up, PFBusData.C147_lowered_violated, PFBusData.C147_tested_partial, PFSolve.C91_last_iteration_violated, PFSolve.C91_sticky_violated, PFSolve.C91_true_means_converged, PFSolve.C92_conversion_lowers, PFSolve.C92_terminates, ParamEdit.C288_empty_violated, ParamEdit.C288_identifiers, ParamEdit.C288_others, ParamEdit.C288_readback_partial, ParamEdit.C289_bus, ParamEdit.C290_copies, ParamEdit.C291_branch, ParmetisWrapper.C283_distribution, ParmetisWrapper.C283_graph_partial, ParmetisWrapper.C284_destinations_partial, ParmetisWrapper.C285_complete_partial, ParmetisWrapper.C285_few_violated, ParmetisWrapper.C285_isolated_violated, Partition.C12_partition_complete, Partition.C56_duplicate_ghosts_violated, Partition.C56_no_duplicate_copies_iff_partial, Partition.C57_local_ends_correct, PetscOptions.C262_configure, PetscOptions.C263_history_partial, PetscOptions.C263_longer_prefix_violated, PetscOptions.C264_capital_violated, PetscOptions.C264_destroy_partial, PetscOptions.C264_earlier_entry_violated, PetscOptions.C264_twice_violated, PlantControl.C321_reactive_violated, PlantControl.C321_rest_partial, PlantControl.C322_direction_partial, PlantControl.C322_over_violated, PlantControl.C323_distance_partial, PlantControl.C323_limit_violated, PlantControl.C328_first_violated, PlantControl.C328_state_partial, PowerFlow.C46_inactive_violated, PowerFlow.C46_jacobian_partial, PowerFlow.C46_two_branches_violated, PowerFlow.C82_power_balance, PowerFlow.C83_block_sizes, PowerFlow.C84_converted_bus_violated, PowerFlow.C84_corrections_partial, QLimit.C47_exact, QLimit.C47_no_buffer_violated, QLimit.C47_one_load_partial, QLimit.C47_violated, QLimit.C48_converted_partial, QLimit.C48_load_bus_violated, QLimit.C48_loads_violated, QLimit.C48_not_converted_violated, QLimit.C48_second_time_violated, QLimit.C85_area_violated, QLimit.C85_bus, QLimit.C85_network, Random.C242_leftover_violated, Random.C242_overlap_violated, Random.C242_seed_partial, Random.C243_polar, Raw23.C215_v23_comma_violated, Raw23.C215_v23_leading_violated, Raw23.C215_v23_partial, Raw23.C215_v33_blank_violated, Raw23.C215_v33_partial, Raw23.C216_buses, Raw23.C217_names_partial, Raw23.C217_quotes_violated, Raw23.C218_network_partial, Raw23.C218_shunts_violated, Raw23.C219_circuit_violated, Raw23.C219_direction_violated, Raw23.C219_transformers_partial, Raw23.C220_again_partial, Raw23.C220_again_violated, Raw23.C221_areas, RawBranch.C166_end_shunt_violated, RawBranch.C166_network_partial, RawBranch.C166_short_line_violated, RawBranch.C167_base_violated, RawBranch.C167_conductance_violated, RawBranch.C167_kilovolts_violated, RawBranch.C167_magnetising_violated, RawBranch.C167_nominal_violated, RawBranch.C167_transformer_partial, RawBranch.C168_base_violated, RawBranch.C168_measured, RawBranch.C168_star_number, RawBranch.C168_star_partial, RawBranch.C168_sum, RawBranch.C168_zero_base_violated, RawBranch.C169_reversed_partial, RawBranch.C169_reversed_violated, RawBranch.C170_one_branch, RawBranch.C171_reuse_partial, RawBranch.C171_reuse_violated, RawBus.C177_case, RawBus.C178_earlier_violated, RawBus.C178_names_partial, RawBus.C178_one_character_violated, RawBus.C178_voltage_violated, RawBus.C179_out_of_service_violated, RawBus.C179_second_fixed_violated, RawBus.C179_second_switched_violated, RawBus.C179_shunt_partial, RawBus.C179_switched_replaces_violated, RawBus.C180_owner_violated, RawBus.C180_status_violated, RawRecords.C172_comments_partial, Relay.C100_every_trip_partial, Relay.C100_intermittent_violated, Relay.C100_no_missed_trip, Relay.C100_previous, Relay.C100_trips_partial, Relay.C98_every_trip_partial, Relay.C98_no_pickup_time_violated, Relay.C98_previous, Relay.C98_trips_partial, Relay.C99_every_trip_partial, Relay.C99_no_pickup_time_violated, Relay.C99_previous, Relay.C99_trips_partial, RelayUpdate.C101_branches_partial, RelayUpdate.C101_branches_skipped_violated, RelayUpdate.C101_buses_partial, RelayUpdate.C101_skipped_violated, RelayUpdate.C102_admittance_partial, RelayUpdate.C102_generators, RelayUpdate.C102_shed_once, RelayUpdate.C102_two_relays_violated, RelayUpdate.C103_none, RelayUpdate.C103_one_branch_partial, RelayUpdate.C103_stale_violated, RelayUpdate.C103_tripped_again_violated, RelayUpdate.C103_two_relays_violated, RelayUpdate.C104_branch_violated, RelayUpdate.C104_bus, RtprCases.C244_generators_partial, RtprCases.C244_lines_partial, RtprCases.C244_lost_violated, RtprCases.C244_one_process, RtprCases.C244_watched_partial, RtprCases.C245_ties_partial, RtprCases.C247_fault_partial, RtprCases.C247_several_violated, SeqParser.C211_generators, SeqParser.C211_others, SeqParser.C212_negative_partial, SeqParser.C212_negative_violated, SeqParser.C212_zero_violated, SeqParser.C213_lines_partial, SeqParser.C213_others, SeqParser.C213_reversed_violated, SeqParser.C213_short_violated, SeqParser.C213_transformers_partial, SeqParser.C214_reuse_violated, SerialIO.C24_distribution_independent, SerialIO.C24_gatherData, SerialIO.C24_strings_complete_and_ordered, SerialIO.C24_write_stream, Shuffler.C08_shuffle_conserves, Shuffler.C08_shuffle_delivers, StatBlock.C32_exact, StatBlock.C32_masked_base_violated, StatBlock.C32_min_max_partial, StatBlock.C33_deviation_from_base, StatBlock.C33_mean_and_deviation, StatBlock.C33_no_entries, StatBlock.C66_column_sum_partial, StatBlock.C66_masked_average_violated, StatBlock.C67_mask_count, StateEst.C125_bus_jacobian_partial, StateEst.C126_charging_violated, StateEst.C126_current_jacobian_partial, StateEst.C126_power_jacobian_partial, StateEst.C126_shunt_violated, StateEst.C127_branch_residuals_partial, StateEst.C127_out_of_service_violated, StateEst.C127_switched_violated, StateEst.C128_bus_residuals_partial, StateEst.C128_current_to_end_violated, StateEst.C128_isolated_neighbour_violated, StateEst.C128_unhandled_type_violated, StateEst.C128_unknown_line_violated, StateEst.C129_branch_partial, StateEst.C129_bus_partial, StateEst.C129_inactive_branch_violated, StateEst.C129_isolated_bus_violated, StateEst.C130_branch_columns, StateEst.C130_bus_columns_partial, StateEst.C130_order, StateEst.C130_sizes_partial, StateEst.C130_unobserved_violated, StateEst.C131_descent_partial, StateEst.C131_fixed_point_partial, StateEst.C131_gradient_partial, StateEst.C131_passes, StateEst.C131_zero_tolerance_violated, StateEst.C132_exact_measurement_violated, StateEst.C132_weight_partial, StateEst.C133_violated, StringUtils.C25_idempotent, StringUtils.C25_inner_tab_violated, StringUtils.C25_trim_partial, StringUtils.C25_trim_plain_partial, StringUtils.C26_charTokenizer_partial, StringUtils.C26_every_string_has_tokens, StringUtils.C26_throws_violated, StringUtils.C27_blankTokenizer_partial, StringUtils.C27_blank_line_violated, StringUtils.C27_malformed_violated, StringUtils.C28_carriage_return_one_char, StringUtils.C28_clean2Char_partial, StringUtils.C28_idempotent, StringUtils.C28_violated, StringUtils.C61_trimQuotes_plain_partial, StringUtils.C61_trimQuotes_quoted_partial, StringUtils.C61_violated, StringUtils.C62_getBool, TaskLoop.C54_terminates, TaskManager.C01_each_task_exactly_once, TaskManager.C02_cancel_stops_distribution_partial, TaskManager.C03_group_requests_agree_and_are_disjoint, TaskManager.C03_no_task_shared, TaskManager.C53_statistics_count_successes, UnitCommit.C202_blank_line_violated, UnitCommit.C202_max_operating_violated, UnitCommit.C202_others, UnitCommit.C202_parameters_partial, ValueTransfer.C40_complex_round_trip, ValueTransfer.C40_matrix_round_trip, ValueTransfer.C40_odd_violated, ValueTransfer.C40_real_on_complex_library, ValueTransfer.C40_real_round_trip_partial, ValueTransfer.C77_matrix, ValueTransfer.C77_product, ValueTransfer.C77_vector, WatchSeries.C286_labels_partial, WatchSeries.C286_order_violated, WatchSeries.C286_out_of_service_violated, WatchSeries.C287_again_violated, Wind.C313_flat, Wind.C313_start, Wind.C314_low, Wind.C314_ramp, Wind.C315_base_violated, Wind.C315_overvoltage_violated, Wind.C315_report_partial, Wind.C316_gap_violated, Wind.C316_speed_partial, Wind.C316_turbine_violated, Wind.C317_no_plant_violated, Wind.C317_rest_partial, Wind.C318_pitch, Wind.C318_torque_partial, Wind.C318_torque_violated, YMatrix.C43_conjugate, YMatrix.C43_symmetric, YMatrix.C44_isolated_neighbour_violated, YMatrix.C44_kirchhoff_partial, YMatrix.C44_row_sum_partial, YMatrix.C44_set_status_violated, YMatrix.C45_line_elements_partial, YMatrix.C45_same_tag_violated, YMatrix.C80_diag_partial, YMatrix.C80_incomplete_shunt_violated, YMatrix.C80_offdiag, YMatrix.C80_set_line_status, YMatrix.C81_direction_partial, YMatrix.C81_end_shunt_violated, Zones.C231_zones, Zones.C232_bus_partial, Zones.C232_status_violated, Zones.C232_zone_sums, Zones.C233_composite_violated, Zones.C233_load_partial, Zones.C234_ask, Zones.C234_bus, Zones.C234_reference.
