{"id": "C01", "title": "Every task is handed out exactly once", "statement": "After the task pool is set to n tasks, the successful nextTask calls made by all processes together return exactly the indices 0,1,...,min(calls,n)-1, each to exactly one caller and in increasing order of the calls; a call fails (returns false and index -1) exactly when all n indices are already gone.", "quantifier": "every n >= 0, every number of processes, every interleaving of their nextTask calls, every number of calls", "why_tests_cant": "Tests run a few schedules on a few processes; a lost or doubled task depends on the interleaving of remote counter updates.", "anchors": ["src/parallel/task_manager.hpp: TaskManager::set, TaskManager::nextTask(int*)"]}
{"id": "C02", "title": "Cancel stops task distribution", "statement": "Once cancel() has taken effect on any process, every later nextTask call on any process returns false, until the pool is set again.", "quantifier": "every n, every schedule of nextTask and cancel calls by any processes, cancel issued at any point and any number of times", "why_tests_cant": "Cancellation races with outstanding requests; tests only see a handful of orders.", "anchors": ["src/parallel/task_manager.hpp: TaskManager::cancel, TaskManager::nextTask"]}
{"id": "C03", "title": "Group task requests agree inside the group and are disjoint between groups", "statement": "When the processes of a sub-communicator request a task together, all members receive the same index and the same success flag, and no index is given to two group requests.", "quantifier": "every partition of processes into groups, every interleaving of the group requests", "why_tests_cant": "Depends on the order in which group leaders reach the shared counter.", "anchors": ["src/parallel/task_manager.hpp: TaskManager::nextTask(Communicator&, int*)"]}
{"id": "C04", "title": "Data collection behaves as a first-write-wins, explicit-update store", "statement": "For every history of addValue/setValue/getValue on one type: addValue defines a key only if the key is absent and otherwise leaves the stored value alone; setValue changes exactly an existing key and reports whether it existed; getValue reports presence and returns the current value, leaving the caller's variable untouched when absent.", "quantifier": "every finite history of operations, every key and value", "why_tests_cant": "The claim is about all histories, including repeated adds and sets of missing keys.", "anchors": ["src/component/data_collection.cpp: DataCollection::addValue, setValue, getValue"]}
{"id": "C05", "title": "Entries of different type or index do not interfere", "statement": "Writing a value of one type never changes what is read for another type, and writing entry (name, i) never changes what is read for entry (name2, j) unless both name and index coincide.", "quantifier": "every pair of typed operations, every pair of (name, index) keys", "why_tests_cant": "Key composition is a string encoding; only an injectivity argument covers every name and index.", "anchors": ["src/component/data_collection.cpp: indexed addValue/setValue/getValue (key composition name + ':' + index)"]}
{"id": "C06", "title": "Indexed values that were stored can be read back", "statement": "A value stored with addValue(name, v, idx) is returned by getValue(name, &v, idx), for every supported type.", "quantifier": "every type, name, value and index", "why_tests_cant": "A per-type copy/paste accessor can be wrong for one type only; tests exercise some types.", "anchors": ["src/component/data_collection.cpp: getValue(const char*, bool*, int)"]}
{"id": "C07", "title": "Dividing a communicator partitions the processes", "statement": "divide(n) puts every process in exactly one group, groups consist of consecutive ranks, every group except possibly the last has exactly n members, and rank order is kept inside a group.", "quantifier": "every number of processes and every n >= 1", "why_tests_cant": "Tests run on a few process counts.", "anchors": ["src/parallel/communicator.cpp: Communicator::divide"]}
{"id": "C08", "title": "Shuffling delivers every item exactly once to its destination", "statement": "After a shuffle every item is held by exactly the process named as its destination; nothing is lost or duplicated and items from the same source keep their relative order.", "quantifier": "every number of processes, every list of items and destinations on every process", "why_tests_cant": "Communication patterns are exponentially many; tests use one or two.", "anchors": ["src/parallel/shuffler.hpp: Shuffler::operator()"]}
{"id": "C09", "title": "Distributed key/value lookup returns all and only the stored values", "statement": "getValues returns, for every requested key, exactly the values that some process added under this key, and drops keys that nobody added.", "quantifier": "every number of processes, every placement of pairs and requests, every non-negative key", "why_tests_cant": "Correctness must hold for any data placement and hash collision.", "anchors": ["src/parallel/index_hash.cpp: GlobalIndexHashMap::addPairs, getValues"]}
{"id": "C10", "title": "Keyed data reaches every bus with that key", "statement": "distributeBusValues delivers each (bus number, value) pair given on any process to every local copy, owned or ghost, of a bus with that original number on every process, and to nothing else.", "quantifier": "every number of processes, every network distribution, every list of pairs", "why_tests_cant": "Depends on how pairs and buses are spread over processes.", "anchors": ["src/parser/hash_distr.hpp: HashDistribution::distributeBusValues"]}
{"id": "C11", "title": "Chunked transfer covers the data exactly once", "statement": "The index ranges a global list is cut into for the systolic transfer are disjoint and cover every position exactly once, and every process visits every chunk exactly once.", "quantifier": "every list length and every number of processes", "why_tests_cant": "Boundary arithmetic must be right for all length / process-count combinations.", "anchors": ["src/parser/hash_distr.hpp: HashDistribution::distributeBusValues, distributeBranchValues (lo, hi, delta)"]}
{"id": "C12", "title": "Branch ownership follows an endpoint and ghosts are complete", "statement": "After partitioning, every node and every edge has exactly one owner; an edge's owner is the owner of one of its end nodes; and every process that owns a node holds (as owned or ghost) every edge incident to that node and both end nodes of every edge it holds.", "quantifier": "every graph, every assignment of nodes to processes by the underlying partitioner", "why_tests_cant": "Requires all graphs and all partitions.", "anchors": ["src/partition/graph_partitioner_implementation.cpp: GraphPartitionerImplementation::partition"]}
{"id": "C13", "title": "Adjacency lists are the symmetric closure of the edges", "statement": "After ready(), node v is listed as neighbour of u (with multiplicity) exactly as often as there are edges joining u and v, wherever nodes and edges were added.", "quantifier": "every node set, edge list and distribution over processes", "why_tests_cant": "Distribution of edges relative to nodes is arbitrary.", "anchors": ["src/partition/adjacency_list.cpp: AdjacencyList::ready, node_neighbors"]}
{"id": "C14", "title": "Global indices of owned components are a gap-free numbering", "statement": "resetGlobalIndices gives owned buses of all processes distinct indices that exactly fill 0..N-1 (same for branches), and every ghost copy receives the index of the owner's copy of the same original bus.", "quantifier": "every number of processes and every distribution of owned and ghost buses with unique original numbers", "why_tests_cant": "Relies on prefix sums over arbitrary process counts.", "anchors": ["src/network/base_network.hpp: BaseNetwork::resetGlobalIndices"]}
{"id": "C15", "title": "clean() removes exactly the ghosts and keeps the network consistent", "statement": "After clean(), exactly the owned buses and branches remain, in their original order with their data, every branch end point refers to the same bus as before, and the reference bus is the same bus as before or undefined.", "quantifier": "every network state with every pattern of active flags", "why_tests_cant": "Index compaction must be right for every flag pattern.", "anchors": ["src/network/base_network.hpp: BaseNetwork::clean"]}
{"id": "C16", "title": "Ghost update copies the owner's data", "statement": "After updateBuses every ghost bus's exchange buffer equals the buffer of the owner of that global index and owned buffers are unchanged.", "quantifier": "every distribution of owned/ghost buses, every buffer content", "why_tests_cant": "All distributions and contents.", "anchors": ["src/network/base_network.hpp: BaseNetwork::initBusUpdate, updateBuses"]}
{"id": "C17", "title": "Out-of-range component indices are rejected", "statement": "Every accessor taking a local bus or branch index raises an error (or returns false) for every index outside 0..count-1 and never touches memory outside its arrays.", "quantifier": "every index value, every network size", "why_tests_cant": "Needs all indices, including the first one past the end.", "anchors": ["src/network/base_network.hpp: getXCBusBuffer, getXCBranchBuffer, setters/getters"]}
{"id": "C18", "title": "Lookup by original number finds exactly the local copies", "statement": "getLocalBusIndices(n) returns exactly the local indices of buses whose original number is n; getLocalBranchIndices(i,j) returns the branches stored as (i,j), or if there are none those stored as (j,i).", "quantifier": "every network and every number", "why_tests_cant": "All networks, incl. multiple copies.", "anchors": ["src/network/base_network.hpp: setMap, getLocalBusIndices, getLocalBranchIndices"]}
{"id": "C19", "title": "Matrix-vector indices are a consistent global numbering", "statement": "setComponents gives owned buses of all processes distinct matrix-vector indices exactly filling 0..N-1, ghost copies get the owner's index, and each branch reports the indices of its two end buses.", "quantifier": "every distributed network with valid global indices", "why_tests_cant": "All distributions.", "anchors": ["src/factory/base_factory.hpp: BaseFactory::setComponents"]}
{"id": "C20", "title": "Collective truth tests", "statement": "checkTrue(flag) returns true on every process exactly when every process passed true; checkTrueSomewhere exactly when at least one did.", "quantifier": "every number of processes and every combination of flags", "why_tests_cant": "2^p flag combinations for every p.", "anchors": ["src/factory/base_factory.hpp: BaseFactory::checkTrue, checkTrueSomewhere"]}
{"id": "C21", "title": "Bus vector mapping round trip", "statement": "Positions assigned to contributing buses are disjoint blocks exactly covering the vector, and mapping bus values to the vector then back to the buses gives every contributing bus its own values.", "quantifier": "every network distribution, every block size per bus, every value", "why_tests_cant": "Sizes and distributions are arbitrary.", "anchors": ["src/mapper/bus_vector_map.hpp: BusVectorMap::mapToVector, mapToBus"]}
{"id": "C22", "title": "Full matrix assembly puts every block in its place", "statement": "The matrix built from the network has, at the rows of bus i and columns of bus j, exactly the value block supplied by the component joining i and j (or the sum over components in accumulate mode), and zero elsewhere.", "quantifier": "every network, every block size and every value, provided block sizes are consistent", "why_tests_cant": "All networks and sizes.", "anchors": ["src/mapper/full_map.hpp: FullMatrixMap::mapToMatrix, incrementMatrix"]}
{"id": "C23", "title": "Generalised mapper index assignment is a bijection", "statement": "The row (column, element) indices handed to all buses and branches by the generalised mappers are pairwise distinct and exactly fill 0..N-1, where N is the dimension of the created matrix or vector.", "quantifier": "every network distribution in which each owned branch touches an owned bus, every block size", "why_tests_cant": "Interleaved offset arithmetic over arbitrary networks.", "anchors": ["src/mapper/gen_matrix_map.hpp: GenMatrixMap setOffsets/getDimensions", "src/mapper/gen_vector_map.hpp: GenVectorMap setOffsets"]}
{"id": "C24", "title": "Serial output is complete and ordered", "statement": "write() on buses produces exactly the strings contributed by owned buses, each once, ordered by global index, independent of how the network is distributed.", "quantifier": "every number of processes and every distribution", "why_tests_cant": "Order independence must hold for all distributions.", "anchors": ["src/serial_io/serial_io.hpp: SerialBusIO::write"]}
{"id": "C25", "title": "trim removes exactly surrounding blanks", "statement": "trim leaves a string that neither starts nor ends with blank space, is a contiguous piece of the input obtained by deleting only blanks at both ends, and is idempotent.", "quantifier": "every string", "why_tests_cant": "All strings.", "anchors": ["src/utilities/string_utils.hpp: StringUtils::trim"]}
{"id": "C26", "title": "Separator tokenizer equals splitting at the separator", "statement": "charTokenizer returns exactly the non-empty maximal separator-free pieces of the input in order.", "quantifier": "every string and separator character", "why_tests_cant": "All strings, including leading, trailing and repeated separators.", "anchors": ["src/utilities/string_utils.hpp: StringUtils::charTokenizer"]}
{"id": "C27", "title": "Blank tokenizer respects quoting", "statement": "blankTokenizer returns the blank-separated words in order, with each quoted section kept as one token.", "quantifier": "every string with balanced quotes surrounded by blanks", "why_tests_cant": "All strings.", "anchors": ["src/utilities/string_utils.hpp: StringUtils::blankTokenizer"]}
{"id": "C28", "title": "Two-character identifiers are normalised", "statement": "clean2Char maps every identifier of one or two non-blank characters, however quoted or padded, to one two-character form, and applying it twice changes nothing.", "quantifier": "every string of at most two significant characters", "why_tests_cant": "All paddings/quotings.", "anchors": ["src/utilities/string_utils.hpp: StringUtils::clean2Char"]}
{"id": "C29", "title": "End-of-block detection", "statement": "A PSS/E data line ends a block exactly when its first non-blank character is '0' standing alone as a field (followed by nothing, a blank, a comma or a comment mark).", "quantifier": "every line", "why_tests_cant": "All lines.", "anchors": ["src/parser/block_parsers/base_block_parser.cpp: BaseBlockParser::test_end"]}
{"id": "C30", "title": "Quoted names are unquoted without loss", "statement": "check_string applied to a quoted name returns the characters between the quotes with surrounding blanks removed.", "quantifier": "every name without quote characters", "why_tests_cant": "All names incl. length one.", "anchors": ["src/parser/block_parsers/base_block_parser.cpp: BaseBlockParser::check_string"]}
{"id": "C31", "title": "Comment stripping respects quoted text", "statement": "cleanComment removes exactly the text from the first '/' that is not inside quotes, and changes nothing else.", "quantifier": "every line", "why_tests_cant": "All placements of quotes and slashes.", "anchors": ["src/parser/block_parsers/base_block_parser.cpp: BaseBlockParser::cleanComment"]}
{"id": "C32", "title": "Minimum and maximum over contingencies", "statement": "The reported minimum (maximum) of each row is attained at the reported column, and no unmasked column has a smaller (larger) value.", "quantifier": "every table of values and masks", "why_tests_cant": "All tables.", "anchors": ["src/analysis/stat_block.cpp: StatBlock::writeMinAndMax"]}
{"id": "C33", "title": "Mean and RMS are those of the unmasked entries", "statement": "The reported average and deviation of a row are the mean and the sample standard deviation of exactly the entries whose mask reaches the threshold.", "quantifier": "every table of values and masks", "why_tests_cant": "All tables.", "anchors": ["src/analysis/stat_block.cpp: StatBlock::writeMeanAndRMS, sumColumnValues"]}
{"id": "C34", "title": "Control block states stay inside their limits", "statement": "After any sequence of predictor and corrector steps the state of a limited control block lies between xmin and xmax, its rate is limited by dxmin/dxmax, and its output lies between ymin and ymax.", "quantifier": "every block with ordered limits, every input history and step size", "why_tests_cant": "All input histories.", "anchors": ["src/applications/modules/dynamic_simulation_full_y/cblock.cpp: Cblock::updatestate, getoutput"]}
{"id": "C35", "title": "Initialisation yields a steady state", "statement": "After initialising a control block from a given input or output, holding the input constant leaves state and output unchanged forever, and the output equals the given one.", "quantifier": "every non-degenerate first-order transfer function and value, every number of steps", "why_tests_cant": "All parameters and step counts.", "anchors": ["src/applications/modules/dynamic_simulation_full_y/cblock.cpp: Cblock::init_given_u, init_given_y, updatestate"]}
{"id": "C36", "title": "Configuration lookup leaves outputs alone when the key is missing", "statement": "get(key, &x) returns false and leaves x unchanged when the key does not exist, and returns the stored value otherwise.", "quantifier": "every configuration tree, key and prior value", "why_tests_cant": "All trees.", "anchors": ["src/configuration/configuration.cpp: Configuration::get"]}
{"id": "C37", "title": "Timer categories", "statement": "createCategory returns the same handle for equal titles and different handles for different titles; starting and stopping one category never changes the accumulated time of another.", "quantifier": "every sequence of calls", "why_tests_cant": "All call histories.", "anchors": ["src/timer/coarse_timer.cpp: CoarseTimer::createCategory, start, stop"]}
{"id": "C38", "title": "All processes take part in the same collective calls when dumping timers", "statement": "If any process executes a collective operation in dump(), all processes execute the same sequence of collective operations, so dump() never hangs.", "quantifier": "every assignment of categories to processes", "why_tests_cant": "Requires all combinations of local category tables.", "anchors": ["src/timer/coarse_timer.cpp: CoarseTimer::dump"]}
{"id": "C39", "title": "Line-oriented input yields every line", "statement": "Reading a file or string vector line by line yields exactly its lines in order and then reports the end.", "quantifier": "every file content and vector", "why_tests_cant": "All contents including a last line without newline.", "anchors": ["src/stream/input_stream.cpp: InputStream::nextLine"]}
{"id": "C40", "title": "Real/complex value transfer round trip", "statement": "Copying a complex array to real pairs and back yields the original array; sizes are doubled/halved exactly.", "quantifier": "every array", "why_tests_cant": "All arrays and lengths.", "anchors": ["src/math/value_transfer.hpp: ValueTransfer"]}
{"id": "C41", "title": "Event bookkeeping", "statement": "When several event sources are registered with a DAE event manager, each source sees exactly its own slice of values, directions, terminate flags and triggers, slices do not overlap and cover everything.", "quantifier": "every list of event sources with any number of values", "why_tests_cant": "All source lists.", "anchors": ["src/math/dae_event.hpp: DAEEventManagerT"]}
{"id": "C42", "title": "Newton iteration result is converged or stopped by the limit", "statement": "The Newton-Raphson solver performs at most the configured number of iterations and returns either with residual/step below tolerance or after exactly that number of iterations.", "quantifier": "every problem, tolerance and limit", "why_tests_cant": "All residual sequences.", "anchors": ["src/math/newton_raphson_solver_implementation.hpp: p_solve"]}
{"id": "C43", "title": "Admittance matrix is symmetric without phase shifters", "statement": "With no phase shift on any element the contribution of a branch to row i column j equals its contribution to row j column i; with phase shift the contributions differ only by conjugating the ratio.", "quantifier": "every branch with any number of parallel elements and any impedance, tap, status", "why_tests_cant": "Real-valued parameters.", "anchors": ["src/applications/components/y_matrix/ymatrix_components.cpp: YMBranch::setYBus"]}
{"id": "C44", "title": "Kirchhoff's current law for pure series networks", "statement": "In a network of in-service lines without charging, shunts or taps, every row of the admittance matrix sums to zero.", "quantifier": "every network and every line impedance", "why_tests_cant": "All networks.", "anchors": ["src/applications/components/y_matrix/ymatrix_components.cpp: YMBus::setYBus, YMBranch::setYBus, getAdmittance"]}
{"id": "C45", "title": "Line quantities add up to the matrix", "statement": "The per-line elements reported for a branch, summed over its in-service lines, equal the off-diagonal entry of the admittance matrix and the branch's contribution to the diagonal.", "quantifier": "every branch", "why_tests_cant": "All parameters, element lists and switched/transformer combinations.", "anchors": ["src/applications/components/y_matrix/ymatrix_components.cpp: YMBranch::getLineElements, getRvrsLineElements, YMBus::setYBus"]}
{"id": "C46", "title": "Jacobian is the derivative of the mismatch", "statement": "Every entry of the power-flow Jacobian assembled from buses and branches is the partial derivative of the corresponding power mismatch with respect to the corresponding voltage angle or magnitude.", "quantifier": "every bus with any list of neighbours, every voltage and admittance value", "why_tests_cant": "A statement about derivatives over the reals.", "anchors": ["src/applications/components/pf_matrix/pf_components.cpp: PFBus::diagonalJacobianValues, rhsValues, PFBranch::forwardJacobianValues, reverseJacobianValues, getPQ"]}
{"id": "C47", "title": "Q-limit conversion keeps the bus injection", "statement": "When a voltage-controlled bus is converted to a load bus because a reactive limit is hit, its scheduled real injection stays the same and its reactive injection equals the violated limit minus the load.", "quantifier": "every list of generators and loads on the bus", "why_tests_cant": "All generator/load lists including none and several loads.", "anchors": ["src/applications/components/pf_matrix/pf_components.cpp: PFBus::chkQlim, setSBus"]}
{"id": "C48", "title": "Clearing Q-limit changes restores the bus", "statement": "clearQlim after chkQlim restores generator status, loads and bus type to what they were before.", "quantifier": "every bus state", "why_tests_cant": "All states incl. buses that were never converted.", "anchors": ["src/applications/components/pf_matrix/pf_components.cpp: PFBus::chkQlim, clearQlim"]}
{"id": "C49", "title": "Contingency apply/undo round trip", "statement": "unSetContingency after setContingency restores the status of every generator, line and bus.", "quantifier": "every network and contingency", "why_tests_cant": "All contingencies, incl. duplicates and multi-line branches.", "anchors": ["src/applications/modules/powerflow/pf_app_module.cpp: PFAppModule::setContingency, unSetContingency"]}
{"id": "C50", "title": "Lone-bus check result", "statement": "checkLoneBus marks exactly the owned buses with no in-service line as isolated and returns false exactly when there is such a bus.", "quantifier": "every network and line status", "why_tests_cant": "All networks.", "anchors": ["src/applications/modules/powerflow/pf_factory_module.cpp: PFFactoryModule::checkLoneBus"]}
{"id": "C51", "title": "Ignoring existing violations", "statement": "After ignoreVoltageViolations, exactly buses that violated their limits at that time are ignored by later checks; a new violation on any other bus is still reported.", "quantifier": "every set of buses, limits and voltages", "why_tests_cant": "All states.", "anchors": ["src/applications/modules/powerflow/pf_factory_module.cpp: ignoreVoltageViolations, checkVoltageViolations"]}
{"id": "C52", "title": "Exchanged phase angles are equivalent and normalised", "statement": "The angle stored for exchange is in [-pi, pi] and differs from the internal angle by a whole number of turns.", "quantifier": "every real angle", "why_tests_cant": "All reals.", "anchors": ["src/applications/components/pf_matrix/pf_components.cpp: PFBus::setValues, setXCBuf"]}
{"id": "C53", "title": "Task statistics", "statement": "The per-process task count printed by the manager equals the number of successful task requests answered to that process since the last set, under every schedule.", "quantifier": "every execution of set/nextTask/cancel by any processes", "why_tests_cant": "All interleavings.", "anchors": ["src/parallel/task_manager.hpp: nextTask, printStats, p_task_count"]}
{"id": "C54", "title": "The task loop terminates with every task done once", "statement": "If every process runs `while (nextTask(&i)) work(i)`, then no execution deadlocks in the final barrier, every execution terminates, and at the end each task 0..n-1 has been executed exactly once.", "quantifier": "every number of tasks and processes (at least one), every schedule", "why_tests_cant": "Deadlock and termination concern all schedules.", "anchors": ["src/parallel/task_manager.hpp: nextTask (GA_Pgroup_sync)", "src/applications/contingency_analysis/ca_driver.cpp: execute task loop"]}
{"id": "C55", "title": "Assignment of data collections is complete", "statement": "After a = b every read on a returns what the same read on b returns.", "quantifier": "every collection, type and key", "why_tests_cant": "A forgotten map would only show for one type.", "anchors": ["src/component/data_collection.cpp: DataCollection::operator="]}
{"id": "C56", "title": "No process holds two copies of one bus after partitioning", "statement": "After partition() every process has at most one record (owned or ghost) of any bus.", "quantifier": "every network, initial placement, number of processes and assignment of buses to processes", "why_tests_cant": "Duplicates appear only for particular combinations of mesh structure and partitioner output.", "anchors": ["src/partition/graph_partitioner_implementation.cpp: partition (ghost node destinations, stable_sort/unique)", "src/network/base_network.hpp: partition"]}
{"id": "C57", "title": "Local branch ends designate the right buses", "statement": "After partition(), on every process the two local bus indices of every branch designate local buses whose global indices are the ends of that branch.", "quantifier": "every network, placement and partition", "why_tests_cant": "A missing ghost silently maps to local index 0 and only shows for particular partitions.", "anchors": ["src/network/base_network.hpp: partition (busindexes)"]}
{"id": "C58", "title": "Exchange set-up: all processes make the same collective calls", "statement": "For every network distribution, every process makes the same sequence of collective calls while ghost updates are set up, so the set-up cannot hang.", "quantifier": "every distribution, including processes holding no bus or branch", "why_tests_cant": "A process without components appears only for particular partitions; a hang is not an assertion failure.", "anchors": ["src/factory/base_factory.hpp: setExchange", "src/network/base_network.hpp: allocXCBus, initBusUpdate"]}
{"id": "C59", "title": "Exchange buffer calls never misuse memory", "statement": "No sequence of the calls that add components, allocate, assign, read and free exchange buffers reads or writes outside an allocated array, uses a freed or null array, deletes anything twice or loses an allocated buffer.", "quantifier": "every sequence of calls of any length", "why_tests_cant": "Memory misuse depends on the order of calls; all histories must be covered.", "anchors": ["src/network/base_network.hpp: allocXCBus, freeXCBus, allocXCBusPointers, setXCBusBuffer, getXCBusBuffer and branch versions"]}
{"id": "C60", "title": "Generalised matrix assembly enters every branch element once", "statement": "When a branch supplies a matrix element through the generalised matrix interface, the assembled matrix contains that element exactly once, whichever process owns the row.", "quantifier": "every element position, index range of the branch, and distribution of rows and branches", "why_tests_cant": "The rule that decides which copy enters an element depends on row ownership, branch ownership and index ranges at the same time; losses show only for particular partitions.", "anchors": ["src/mapper/gen_matrix_map.hpp: loadBranchData"]}
{"id": "C61", "title": "Quoted parser text is unquoted without loss", "statement": "trimQuotes applied to a quoted or unquoted text returns the text without the quotes and without surrounding white space, and nothing else is lost.", "quantifier": "every text", "why_tests_cant": "All placements of quotes and blanks.", "anchors": ["src/utilities/string_utils.hpp: StringUtils::trimQuotes"]}
{"id": "C62", "title": "Boolean words are recognised exactly", "statement": "getBool is true exactly for true, yes, t, y and 1, in any letter case and with any surrounding white space.", "quantifier": "every string", "why_tests_cant": "All strings.", "anchors": ["src/utilities/string_utils.hpp: StringUtils::getBool"]}
{"id": "C63", "title": "A PSS/E line is split into its fields", "statement": "splitPSSELine returns the fields of a line in order: commas and blanks outside quotes separate fields, and an empty field between commas becomes 0.", "quantifier": "every line", "why_tests_cant": "All lines.", "anchors": ["src/parser/block_parsers/base_block_parser.cpp: BaseBlockParser::splitPSSELine, isBlank"]}
{"id": "C64", "title": "Bus name and voltage are separated correctly", "statement": "A bus string consisting of a name, at least three blanks and a voltage is split into exactly that name and that voltage; a short string is a name.", "quantifier": "every name, number of blanks and voltage text", "why_tests_cant": "All strings.", "anchors": ["src/parser/block_parsers/base_block_parser.cpp: BaseBlockParser::parseBusName"]}
{"id": "C65", "title": "Reading a block always ends", "statement": "Reading a block of a RAW file processes exactly the lines before the line that ends the block and stops, for every file, also one that is cut short.", "quantifier": "every sequence of lines", "why_tests_cant": "Termination for all inputs cannot be tested.", "anchors": ["src/parser/block_parsers/bus_parser33.cpp: BusParser33::parse (and the other block parsers)"]}
{"id": "C66", "title": "Column sums and averages", "statement": "The reported sum and average of a column are the sum and the mean of exactly the entries whose mask reaches the threshold.", "quantifier": "every table of values and masks", "why_tests_cant": "All tables and all patterns of masked entries.", "anchors": ["src/analysis/stat_block.cpp: StatBlock::sumColumnValues"]}
{"id": "C67", "title": "Block-wise statistics cover every row exactly once", "statement": "The tasks handed out by the shared counter together process every row of the table exactly once, whatever the table size, and the mask count of a row is the number of entries with that mask.", "quantifier": "every number of rows and every block size", "why_tests_cant": "Table sizes around multiples of the block size; any assignment of tasks to processes.", "anchors": ["src/analysis/stat_block.cpp: StatBlock::writeMeanAndRMS, writeMinAndMax, writeMaskValueCount"]}
{"id": "C68", "title": "Integration of control blocks is stable and of second order", "statement": "With constant input a control block's distance from its equilibrium is multiplied by exactly 1+z+z^2/2 (z = A dt) per time step when no limit acts; for a stable block and a step of at most two time constants it never moves away from the equilibrium nor past it, whatever limiters act.", "quantifier": "every block, state, input, step size and number of steps", "why_tests_cant": "A statement about all reals and unbounded step counts.", "anchors": ["src/applications/modules/dynamic_simulation_full_y/cblock.cpp: Cblock::updatestate"]}
{"id": "C69", "title": "Standard control blocks realise their transfer functions", "statement": "PI controller, filter, lead-lag and integrator obey the differential equation of their transfer function for every state and input, and initialising a filter from an output yields the input output/gain.", "quantifier": "all parameter values", "why_tests_cant": "All real parameters.", "anchors": ["src/applications/modules/dynamic_simulation_full_y/cblock.cpp: PIControl::setparams, Filter::setparams, LeadLag::setparams, Integrator::setparams, Cblock::setcoeffs"]}
{"id": "C70", "title": "Gain limiter respects value and rate limits", "statement": "Every output of the gain limiter lies between ymin and ymax, and successive outputs differ by at most the rate limits times the time step.", "quantifier": "every history of inputs, time steps and update flags", "why_tests_cant": "All histories, in particular special values of the previous output.", "anchors": ["src/applications/modules/dynamic_simulation_full_y/dblock.cpp: GainLimiter::getoutput"]}
{"id": "C71", "title": "Piecewise slope interpolates its points", "statement": "The output of a piecewise slope block is the linear interpolation of its points (up to 1e-5 times the slope), constant beyond the ends; the inverse lookup returns an input that reproduces the output.", "quantifier": "every list of points and every input", "why_tests_cant": "All points, increasing and decreasing, and all real inputs.", "anchors": ["src/applications/modules/dynamic_simulation_full_y/dblock.cpp: PiecewiseSlope::setparams, getoutput, init_given_y, Slope::getoutput"]}
{"id": "C72", "title": "Deadband and gates", "statement": "The deadband passes the input unchanged outside its interval and returns zero inside (up to 1e-6); low-value and high-value gates return the minimum and maximum of limit and input.", "quantifier": "all real inputs and limits", "why_tests_cant": "All reals.", "anchors": ["src/applications/modules/dynamic_simulation_full_y/dblock.cpp: Deadband::getoutput, LVGate::getoutput, HVGate::getoutput"]}
{"id": "C73", "title": "A cursor is a key prefix", "statement": "Looking up key b relative to the cursor for key a gives the same result as looking up a.b, for values and for further cursors.", "quantifier": "every configuration tree and all keys a (not empty, not ending with the separator) and b", "why_tests_cant": "All trees and keys.", "anchors": ["src/configuration/configuration.cpp: Configuration::getCursor, Configuration::get", "src/configuration/configuration.hpp: Configuration"]}
{"id": "C74", "title": "Opening several configuration files", "statement": "After opening a second configuration file every key of either file can be looked up, the first file taking precedence.", "quantifier": "all pairs of files and all keys", "why_tests_cant": "All trees.", "anchors": ["src/configuration/configuration.cpp: ConfigInternals::initialize, merge_trees"]}
{"id": "C75", "title": "Opening a configuration is collective and gives every process the same result", "statement": "When a configuration is opened on a communicator all processes perform matching collective calls, return the same result and hold the same tree.", "quantifier": "every content, including empty", "why_tests_cant": "All contents on all processes.", "anchors": ["src/configuration/configuration.cpp: Configuration::openStringFile, Configuration::initialize_internal"]}
{"id": "C76", "title": "Timer statistics", "statement": "dump() prints for each category title the average, maximum, minimum and standard deviation of the times accumulated under that title on all processes, and reports unpaired starts and stops.", "quantifier": "every set of processes and times", "why_tests_cant": "All reals, all creation orders.", "anchors": ["src/timer/coarse_timer.cpp: CoarseTimer::dump"]}
{"id": "C77", "title": "Complex vectors and matrices on a real-valued solver library", "statement": "With a PETSc library built for real numbers, setting, adding and reading complex elements behaves as on a complex vector or matrix, and the library's real matrix-vector product is the complex product.", "quantifier": "every sequence of element operations, all indices (repeated ones included), all sizes", "why_tests_cant": "All matrices and operation sequences.", "anchors": ["src/math/petsc/petsc_vector_implementation.hpp: p_setOrAddElements, p_getElements", "src/math/petsc/petsc_matrix_implementation.hpp: p_setElement, p_getElement", "src/math/value_transfer.hpp: MatrixValueTransferToLibrary"]}
{"id": "C78", "title": "A terminating event stops the DAE solver", "statement": "After handling the reported events the manager is terminated exactly if one of the reported events has its termination flag set.", "quantifier": "every list of sources and every set of reported events", "why_tests_cant": "All combinations of simultaneous events.", "anchors": ["src/math/dae_event.hpp: DAEEventManagerT::p_handle"]}
{"id": "C79", "title": "Newton solver on linear systems", "statement": "For a linear system with an exact linear solver the Newton-Raphson solver returns the exact solution after at most two iterations.", "quantifier": "every invertible linear system, starting point and tolerance", "why_tests_cant": "All systems.", "anchors": ["src/math/newton_raphson_solver_implementation.hpp: p_solve"]}
{"id": "C80", "title": "Admittance matrix is the sum of the elements' two-port models", "statement": "The entries a branch contributes to the admittance matrix (off-diagonal in both directions and to the diagonals of its two buses) are the sums of the pi two-port models of its in-service lines and transformers, plus the shunts given for the ends.", "quantifier": "every branch with any list of elements and any impedance, charging, tap, phase shift, direction and status", "why_tests_cant": "Real-valued parameters, any number of parallel elements.", "anchors": ["src/applications/components/y_matrix/ymatrix_components.cpp: YMBranch::setYBus, getAdmittance, getTransformer, getShunt, YMBus::setYBus"]}
{"id": "C81", "title": "Direction in which an element is entered", "statement": "Entering an element of a branch with its from and to bus exchanged gives the same network: only the roles of the two buses are exchanged in the matrix.", "quantifier": "every branch and every list of elements", "why_tests_cant": "Real-valued parameters.", "anchors": ["src/applications/components/y_matrix/ymatrix_components.cpp: YMBranch::setYBus, getTransformer, getShunt"]}
{"id": "C82", "title": "Mismatch is the complex power balance", "statement": "The right-hand side a bus contributes to the power-flow equations is the difference between the power flowing from the bus into the network, computed from the complex voltages and the admittance matrix, and the scheduled power of the bus.", "quantifier": "every bus with any list of neighbours, every voltage, angle and admittance value", "why_tests_cant": "Real-valued voltages and admittances, any number of neighbours.", "anchors": ["src/applications/components/pf_matrix/pf_components.cpp: PFBus::rhsValues, PFBranch::getPQ"]}
{"id": "C83", "title": "Jacobian blocks fit the equations", "statement": "The block sizes buses and branches report for the Jacobian agree with the numbers of equations and unknowns of the two buses, and exactly that many values are written for each block.", "quantifier": "every bus type (reference, voltage-controlled, load, isolated) at both ends", "why_tests_cant": "All combinations of bus types and of types changed at run time.", "anchors": ["src/applications/components/pf_matrix/pf_components.cpp: matrixDiagSize, matrixForwardSize, matrixReverseSize, vectorSize, matrixDiagValues"]}
{"id": "C84", "title": "Newton corrections reach the right variables", "statement": "The correction computed for the angle or magnitude of a bus by the linear solver is subtracted from exactly that angle or magnitude.", "quantifier": "every list of buses of any types, every correction vector, every iteration of the solve loop", "why_tests_cant": "All networks and all sequences of bus type changes during the iterations.", "anchors": ["src/applications/components/pf_matrix/pf_components.cpp: PFBus::setValues", "src/mapper/bus_vector_map.hpp: BusVectorMap::mapToBus", "src/applications/modules/powerflow/pf_app_module.cpp: PFAppModule::solve"]}
{"id": "C85", "title": "Reactive-limit check result", "statement": "A bus is reported by the reactive-limit check exactly if it is voltage-controlled and the reactive power needed is outside the limits of its generators in service; the network-wide checks return true exactly if no bus (of the area) is reported.", "quantifier": "every list of generators and loads, every distribution of buses on processes", "why_tests_cant": "Real-valued limits, any number of generators, all processes.", "anchors": ["src/applications/components/pf_matrix/pf_components.cpp: PFBus::chkQlim", "src/applications/modules/powerflow/pf_factory_module.cpp: checkQlimViolations"]}
{"id": "C86", "title": "Clearing lone buses restores their status", "statement": "clearLoneBus directly after checkLoneBus gives every bus the isolated status it had before, and never reads past the saved statuses.", "quantifier": "every list of buses with any line statuses", "why_tests_cant": "All networks, all sets of buses isolated beforehand.", "anchors": ["src/applications/modules/powerflow/pf_factory_module.cpp: PFFactoryModule::checkLoneBus, clearLoneBus"]}
{"id": "C87", "title": "Line-overload check result", "statement": "checkLineOverloadViolations returns true exactly if no owned line that is not ignored carries more apparent power than the rating in use (rating B if selected and present, else rating A; ratings that are not positive never count).", "quantifier": "every set of branches, lines, ratings and powers, every distribution on processes", "why_tests_cant": "Real-valued powers, any number of lines and processes.", "anchors": ["src/applications/modules/powerflow/pf_factory_module.cpp: checkLineOverloadViolations"]}
{"id": "C88", "title": "Ignoring existing line overloads", "statement": "After ignoreLineOverloadViolations the lines ignored by later checks are those ignored before and those that were overloaded at that time, and no others.", "quantifier": "every branch, any number of lines, any ratings", "why_tests_cant": "Real-valued powers, all combinations of ratings.", "anchors": ["src/applications/modules/powerflow/pf_factory_module.cpp: ignoreLineOverloadViolations, checkLineOverloadViolations"]}
{"id": "C89", "title": "Overload check on given lines", "statement": "The version of checkLineOverloadViolations for given lines reports each given line as violated exactly if it is not ignored and is overloaded.", "quantifier": "every list of requested lines and every order of lines on the branches", "why_tests_cant": "All lists of requests.", "anchors": ["src/applications/modules/powerflow/pf_factory_module.cpp: checkLineOverloadViolations(bus1,bus2,tags,violations)"]}
{"id": "C90", "title": "Effect of a line contingency", "statement": "After setContingency every line named in the contingency is out of service, all other lines have the status they had, and exactly the owned buses left without a line in service are newly isolated. The call reports success exactly if every branch (for a generator contingency, every bus) named is present.", "quantifier": "every network and every list of named lines", "why_tests_cant": "All contingencies and topologies.", "anchors": ["src/applications/modules/powerflow/pf_app_module.cpp: PFAppModule::setContingency", "src/applications/components/pf_matrix/pf_components.cpp: PFBranch::setBranchStatus"]}
{"id": "C91", "title": "Meaning of the result of solve", "statement": "PFAppModule::solve returns true exactly if the mismatch fell below the tolerance within the allowed iterations (and no reactive limit is violated when these are checked).", "quantifier": "every network, linear solver result, tolerance and iteration limit", "why_tests_cant": "All iteration histories.", "anchors": ["src/applications/modules/powerflow/pf_app_module.cpp: PFAppModule::solve"]}
{"id": "C92", "title": "solve terminates", "statement": "PFAppModule::solve always ends: it repeats the iteration at most once more than there are voltage-controlled buses.", "quantifier": "every network and every sequence of reactive-limit violations", "why_tests_cant": "Termination over all executions.", "anchors": ["src/applications/modules/powerflow/pf_app_module.cpp: PFAppModule::solve", "src/applications/components/pf_matrix/pf_components.cpp: PFBus::chkQlim"]}
{"id": "C93", "title": "Global store of vectors", "statement": "After vectors are added to a GlobalStore on any processes and uploaded, getVector(i) on every process returns exactly the vector added under index i; upload throws exactly if an index was used twice; later uploads keep what was uploaded before; an index out of range gives an exception.", "quantifier": "every number of processes, every set of vectors and indices, every order in which the writes take effect", "why_tests_cant": "Any number of processes, vectors and lengths and every order of remote writes.", "anchors": ["src/parallel/global_store.hpp: addVector, upload, getVector"]}
{"id": "C94", "title": "Global vector contents", "statement": "After elements are added to a GlobalVector under different indices on any processes and uploaded, getData returns for each index the value added under it, zero for an index nobody used, and throws exactly if an index lies outside the vector.", "quantifier": "every number of processes, every distribution of the array, every interleaving of the processes", "why_tests_cant": "The result depends on the interleaving of processes.", "anchors": ["src/parallel/global_vector.hpp: addElements, upload, getData"]}
{"id": "C95", "title": "Global vector rejects repeated indices", "statement": "GlobalVector::upload throws on every process if some index was added twice, and on none otherwise.", "quantifier": "every number of processes, every distribution of the array, every interleaving of the processes", "why_tests_cant": "The result depends on the interleaving of processes.", "anchors": ["src/parallel/global_vector.hpp: upload"]}
{"id": "C96", "title": "Reloading a global vector", "statement": "resetElements followed by reload replaces exactly the elements given whose index lies inside the vector and keeps all others.", "quantifier": "every number of processes, every list of indices and values, every order of the writes", "why_tests_cant": "Any indices and every order of remote writes.", "anchors": ["src/parallel/global_vector.hpp: resetElements, reload"]}
{"id": "C97", "title": "Global-array shuffler delivers like the message-passing shuffler", "statement": "gaShuffler leaves on every process the same things in the same order as Shuffler does for the same input.", "quantifier": "every number of processes, every list of things and destinations, every serialisation that can be read back", "why_tests_cant": "Any number of processes and things.", "anchors": ["src/parallel/ga_shuffler.hpp: gaShuffler::operator()", "src/parallel/shuffler.hpp: Shuffler::operator()"]}
{"id": "C98", "title": "Under-voltage load shedding relay timing", "statement": "An LVSHBL relay signals a trip at an update exactly if the bus voltage magnitude was below its threshold at all updates of some period at least as long as the pick-up time, and at least the breaker time has passed from the end of that period; every further trip signal needs a new such period after the earlier ones.", "quantifier": "every sequence of voltages of any length, every time step and setting", "why_tests_cant": "The trip depends on the whole history of readings; all histories cannot be enumerated.", "anchors": ["src/applications/modules/dynamic_simulation_full_y/model_classes/lvshbl.cpp: updateRelay, ResetRelay, getTripStatus"]}
{"id": "C99", "title": "Generator frequency relay timing", "statement": "A FRQTPAT relay signals a trip exactly if the bus frequency was below its lower limit, or above its upper limit, at all updates of some period at least as long as the pick-up time, and more than the breaker time has passed from the end of that period; every further trip signal needs a new such period.", "quantifier": "every sequence of frequencies of any length, every time step and setting", "why_tests_cant": "The trip depends on the whole history of readings.", "anchors": ["src/applications/modules/dynamic_simulation_full_y/model_classes/frqtpat.cpp: updateRelay, ResetRelay, getTripStatus"]}
{"id": "C100", "title": "Distance relay timing", "statement": "A DISTR1 relay signals a trip exactly if the measured impedance stayed inside a zone's circle at all updates of a period longer than that zone's time and more than the breaker time has passed from the end of that period.", "quantifier": "every sequence of voltages and currents of any length, every time step and setting", "why_tests_cant": "The trip depends on the whole history of readings.", "anchors": ["src/applications/modules/dynamic_simulation_full_y/model_classes/distr1.cpp: updateRelay, ResetRelay, getTripStatus"]}
{"id": "C101", "title": "All relays see every time step", "statement": "In each time step of the dynamic simulation every relay of every bus and branch (except those of generators out of service) processes the readings of that step, whatever other relays do.", "quantifier": "every network, every state of the relays, every reading", "why_tests_cant": "Depends on which relays trip in the same step; all combinations cannot be enumerated.", "anchors": ["src/applications/modules/dynamic_simulation_full_y/dsf_factory.cpp: updateBusRelay, updateBranchRelay", "src/applications/modules/dynamic_simulation_full_y/dsf_components.cpp: DSFullBus::updateRelay, DSFullBranch::updateRelay"]}
{"id": "C102", "title": "Shed load and tripped generators leave the network once", "statement": "At any time of a simulation the admittance of a bus is the original one less the load share of every load relay that has signalled a trip so far and less the admittance of every generator that one of its relays has tripped, each counted once.", "quantifier": "every sequence of voltages and frequencies, every number of relays and generators", "why_tests_cant": "A statement about whole histories of readings.", "anchors": ["src/applications/modules/dynamic_simulation_full_y/dsf_components.cpp: DSFullBus::updateRelay"]}
{"id": "C103", "title": "Tripped circuits leave the network matrix once", "statement": "When line relays trip circuits, the diagonal elements of the end buses lose the series admittance of exactly these circuits and the off-diagonal elements gain it; nothing else changes, and no circuit is removed twice.", "quantifier": "every network, every state of the relays, every reading", "why_tests_cant": "Depends on the order of branches and the history of earlier trips.", "anchors": ["src/applications/modules/dynamic_simulation_full_y/dsf_components.cpp: DSFullBranch::updateRelay, getBranchRelayTripUpdateFactor, DSFullBus::matrixDiagValues, DSFullBranch::matrixForwardValues, matrixReverseValues", "src/applications/modules/dynamic_simulation_full_y/dsf_factory.cpp: updateBranchRelay"]}
{"id": "C104", "title": "Processes agree on relay trips", "statement": "In each time step all processes get the same answer to whether a relay has tripped: true exactly if one has tripped on some process.", "quantifier": "every number of processes, every distribution of buses and branches, every state", "why_tests_cant": "Depends on how the network is distributed over processes.", "anchors": ["src/applications/modules/dynamic_simulation_full_y/dsf_factory.cpp: updateBusRelay, updateBranchRelay, checkTrueSomewhere"]}
{"id": "C105", "title": "The network matrix follows the events", "statement": "At every time of a dynamic simulation the admittance matrix is a fixed part plus the contributions of exactly the circuits and generators then in service, less the admittances of the faults then in force, whatever sequence of fault, line and generator events was handled.", "quantifier": "every network, every sequence of events, every number of steps", "why_tests_cant": "A statement about all histories of events; a test runs one history.", "anchors": ["src/applications/modules/dynamic_simulation_full_y/dsf_events.cpp: handleEvents", "src/applications/modules/dynamic_simulation_full_y/dsf_app_module2.cpp: setLineStatus, setGenStatus", "src/applications/modules/dynamic_simulation_full_y/dsf_components.cpp: matrixDiagValues, matrixForwardValues, matrixReverseValues, setLineStatus, setGenStatus, setFault", "src/mapper/full_map.hpp: incrementMatrix"]}
{"id": "C106", "title": "Faults last from their beginning to their end", "statement": "After every step a bus is faulted, with a certain admittance, exactly if a configured fault at that bus with that admittance has begun and has not ended.", "quantifier": "every list of fault events, every number of steps", "why_tests_cant": "All combinations of fault times cannot be tried.", "anchors": ["src/applications/modules/dynamic_simulation_full_y/dsf_events.cpp: handleEvents, setEvent", "src/applications/modules/dynamic_simulation_full_y/dsf_components.cpp: setFault, matrixDiagValues"]}
{"id": "C107", "title": "Events take effect once, at their time", "statement": "Every configured event takes effect in exactly one time step, the one at its time.", "quantifier": "every event time, every time step, every number of steps", "why_tests_cant": "The time step and the event times are arbitrary real numbers.", "anchors": ["src/applications/modules/dynamic_simulation_full_y/dsf_events.cpp: handleEvents", "src/applications/modules/dynamic_simulation_full_y/dsf_app_module2.cpp: run, runonestep"]}
{"id": "C108", "title": "Line and generator events change the named element only", "statement": "A line event sets the status of the named circuit of the branch between the two named buses, in either order; a generator event that of the named generator; no other status changes; an event that names no existing element changes nothing.", "quantifier": "every network, every event", "why_tests_cant": "All networks and names cannot be tried.", "anchors": ["src/applications/modules/dynamic_simulation_full_y/dsf_app_module2.cpp: setLineStatus, setGenStatus", "src/applications/modules/dynamic_simulation_full_y/dsf_components.cpp: setLineStatus, setGenStatus", "src/network/base_network.hpp: getLocalBranchIndices"]}
{"id": "C109", "title": "A run stops at its end time", "statement": "run(tend) returns after the step at which the current time reaches tend.", "quantifier": "every end time and every time step", "why_tests_cant": "The end time and the time step are arbitrary real numbers; failure is an endless loop.", "anchors": ["src/applications/modules/dynamic_simulation_full_y/dsf_app_module2.cpp: run(double)"]}
{"id": "C110", "title": "Relays and events act on the same network", "statement": "When a bus relay trips, the matrix keeps the changes made by earlier events; a circuit taken out by a relay is not taken out again by an event.", "quantifier": "every sequence of events and relay trips", "why_tests_cant": "Depends on the order of events and trips.", "anchors": ["src/applications/modules/dynamic_simulation_full_y/dsf_app_module2.cpp: runonestep, setup", "src/applications/modules/dynamic_simulation_full_y/dsf_components.cpp: matrixDiagValues modes bus_relay, branch_relay; updateRelay; setLineStatus"]}
{"id": "C111", "title": "Diagonal of the matrix before the simulation", "statement": "Before the first step the diagonal element of each bus is that of the network matrix plus its load as admittance, less the generation without dynamic model and negative generation as admittances, plus the Norton admittances of the generators in service and of the dynamic loads; the admittance stored in the bus equals it.", "quantifier": "every bus with any number of generators and loads", "why_tests_cant": "All combinations of equipment cannot be tried.", "anchors": ["src/applications/modules/dynamic_simulation_full_y/dsf_components.cpp: matrixDiagValues modes YBUS, YL, PG, jxd, YDYNLOAD", "src/applications/modules/dynamic_simulation_full_y/dsf_app_module2.cpp: setup"]}
{"id": "C112", "title": "Governors start flat", "statement": "A governor that is loaded, initialised with a mechanical power and then run at the speed of the initialisation reports exactly that power after every predictor and corrector call.", "quantifier": "every parameter set with the initial point inside the limits, every number and length of time steps", "why_tests_cant": "A slow drift from a wrong initial state shows only after many steps and for particular parameters.", "anchors": ["src/applications/modules/dynamic_simulation_full_y/model_classes/tgov1.cpp: load, init, computeModel", "src/applications/modules/dynamic_simulation_full_y/model_classes/gast.cpp: load, init, predictor, corrector", "src/applications/modules/dynamic_simulation_full_y/model_classes/hygov.cpp: load, init, predictor, corrector", "src/applications/modules/dynamic_simulation_full_y/model_classes/wsieg1.cpp: load, init, computeModel"]}
{"id": "C113", "title": "TGOV1 keeps its valve limits", "statement": "The mechanical power reported by TGOV1, plus the damping term, stays between Vmin and Vmax.", "quantifier": "every history of rotor speeds and every number of time steps", "why_tests_cant": "Limit violations need particular sequences of speeds.", "anchors": ["src/applications/modules/dynamic_simulation_full_y/model_classes/tgov1.cpp: computeModel", "src/applications/modules/dynamic_simulation_full_y/cblock.cpp: getoutput"]}
{"id": "C114", "title": "TGOV1 has the droop R", "statement": "After a permanent change of the speed deviation from w0 to w the mechanical power tends to P + (w0 - w)/R + Dt (w0 - w), as long as this is inside the limits.", "quantifier": "every parameter set, initial power and speed change", "why_tests_cant": "A limit for time going to infinity cannot be observed in a finite run.", "anchors": ["src/applications/modules/dynamic_simulation_full_y/model_classes/tgov1.cpp: init, computeModel"]}
{"id": "C115", "title": "Governors respond to the rotor speed", "statement": "A higher speed leads to a lower mechanical power: the speed deviation given to the governor enters the reported power.", "quantifier": "every two speed histories", "why_tests_cant": "Independence of all speed histories is a statement about all pairs of runs.", "anchors": ["src/applications/modules/dynamic_simulation_full_y/model_classes/gast.cpp: setRotorSpeedDeviation", "src/applications/modules/dynamic_simulation_full_y/model_classes/hygov.cpp: setRotorSpeedDeviation", "src/applications/modules/dynamic_simulation_full_y/model_classes/tgov1.cpp: setRotorSpeedDeviation"]}
{"id": "C116", "title": "Gate velocity limits are kept", "statement": "The gate of HYGOV and the valve of WSIEG1 never move faster than their velocity limits.", "quantifier": "every parameter set and speed history", "why_tests_cant": "All parameter sets and histories cannot be run.", "anchors": ["src/applications/modules/dynamic_simulation_full_y/model_classes/hygov.cpp: load, predictor, corrector", "src/applications/modules/dynamic_simulation_full_y/model_classes/wsieg1.cpp: init, computeModel"]}
{"id": "C117", "title": "A missing governor parameter does not change another one", "statement": "If a parameter of HYGOV is missing from the data it gets a default value, and all parameters that are present have the given values.", "quantifier": "every data collection", "why_tests_cant": "All combinations of missing parameters would have to be tried.", "anchors": ["src/applications/modules/dynamic_simulation_full_y/model_classes/hygov.cpp: load"]}
{"id": "C118", "title": "WSIEG1 uses its backlash parameter", "statement": "The width of the backlash between the valve and the turbine of WSIEG1 enters the reported power.", "quantifier": "every width and speed history", "why_tests_cant": "Independence of a parameter is a statement about all pairs of runs.", "anchors": ["src/applications/modules/dynamic_simulation_full_y/model_classes/wsieg1.cpp: load, computeModel", "src/applications/modules/dynamic_simulation_full_y/dblock.cpp: Deadband::getoutput"]}
{"id": "C119", "title": "Exciters hold a steady state", "statement": "An exciter initialised with a terminal voltage, a stabiliser signal and a field voltage within its limits, and then run with these inputs, reports exactly this field voltage after every predictor and corrector call.", "quantifier": "every parameter set, initial values, number of calls and time steps", "why_tests_cant": "A drift can be smaller than any tolerance of a test; all parameter sets and initial values are covered.", "anchors": ["src/applications/modules/dynamic_simulation_full_y/model_classes/sexs.cpp: load, init, predictor, corrector", "src/applications/modules/dynamic_simulation_full_y/model_classes/exdc1.cpp: load, init, computeModel", "src/applications/modules/dynamic_simulation_full_y/model_classes/ieeet1.cpp", "src/applications/modules/dynamic_simulation_full_y/model_classes/esst1a.cpp: load, init, computeModel"]}
{"id": "C120", "title": "Exciters keep their field voltage limits", "statement": "Started within its limits, an exciter reports only field voltages within its limits (EMIN to EMAX for SEXS; VT Vrmin to VT Vrmax - Kc Ifd for ESST1A).", "quantifier": "every history of terminal voltages, stabiliser signals and field currents, every time step", "why_tests_cant": "The limits must hold along every trajectory.", "anchors": ["src/applications/modules/dynamic_simulation_full_y/model_classes/sexs.cpp: predictor, corrector", "src/applications/modules/dynamic_simulation_full_y/model_classes/esst1a.cpp: computeModel", "src/applications/modules/dynamic_simulation_full_y/cblock.cpp: getoutput"]}
{"id": "C121", "title": "The lead time constants of exciters have an effect", "statement": "The lead-lag blocks of EXDC1 and ESST1A use the lead time constants of their data (TC; TC1 and TB1).", "quantifier": "every pair of values of these parameters and every history of inputs", "why_tests_cant": "Independence of a parameter is a statement about all pairs of runs.", "anchors": ["src/applications/modules/dynamic_simulation_full_y/model_classes/exdc1.cpp: load", "src/applications/modules/dynamic_simulation_full_y/model_classes/esst1a.cpp: computeModel"]}
{"id": "C122", "title": "Exciter saturation goes through the given points", "statement": "The saturation function of EXDC1 and IEEET1 takes the given values SE1 and SE2 at the given field voltages E1 and E2: the regulator output needed to hold E1 is (KE + SE1) E1, and likewise for E2.", "quantifier": "every pair of points", "why_tests_cant": "The coefficients come from a quadratic equation with two solutions; which one is right depends on the data.", "anchors": ["src/applications/modules/dynamic_simulation_full_y/model_classes/exdc1.cpp: load, Sat", "src/applications/modules/dynamic_simulation_full_y/model_classes/ieeet1.cpp: load, Sat"]}
{"id": "C123", "title": "Exciters use the stabiliser signal", "statement": "The stabiliser signal given to ESST1A enters the field voltage.", "quantifier": "every two histories of the stabiliser signal", "why_tests_cant": "Independence of all signal histories is a statement about all pairs of runs.", "anchors": ["src/applications/modules/dynamic_simulation_full_y/model_classes/esst1a.cpp: setVstab, computeModel"]}
{"id": "C124", "title": "SEXS regulates with its gain", "statement": "If the terminal voltage and the stabiliser signal of a SEXS exciter started with field voltage E change by dV and dvs and then stay constant, and E + K (dvs - dV) lies within the limits, the field voltage tends to this value.", "quantifier": "every parameter set, step of the inputs and time step up to the time constants", "why_tests_cant": "A limit over unboundedly many steps, for all parameters.", "anchors": ["src/applications/modules/dynamic_simulation_full_y/model_classes/sexs.cpp: load, init, predictor, corrector", "src/applications/modules/dynamic_simulation_full_y/cblock.cpp: getoutput"]}
{"id": "C125", "title": "Jacobian rows of bus measurements", "statement": "For every voltage magnitude, voltage angle, real and reactive injection measurement, the Jacobian row assembled by state estimation is the derivative of the measured quantity: changing the voltages in any direction changes the residual, to first order, by minus the row times the direction.", "quantifier": "every network, state, measurement and direction", "why_tests_cant": "Derivatives are limits; a finite-difference test checks one state and one direction up to an error.", "anchors": ["src/applications/components/se_matrix/se_components.cpp: SEBus::matrixGetValues, SEBus::vectorGetElementValues, SEBranch::getVTheta", "src/applications/modules/state_estimation/se_app_module.cpp: solve"]}
{"id": "C126", "title": "Jacobian rows of branch measurements", "statement": "The same for flow measurements (real, reactive, current) at either end of a line.", "quantifier": "every branch, state, measurement and direction", "why_tests_cant": "Derivatives are limits; a finite-difference test checks one state and one direction up to an error.", "anchors": ["src/applications/components/se_matrix/se_components.cpp: SEBranch::matrixGetValues, SEBranch::vectorGetElementValues"]}
{"id": "C127", "title": "Predicted flows agree with the admittance model", "statement": "The flow with which a branch measurement is compared is the flow through the measured line computed from the admittances and the voltages, the one also reported in the results.", "quantifier": "every branch, line, state and type of measurement", "why_tests_cant": "The two computations use different formulas; agreement has to hold for all parameters.", "anchors": ["src/applications/components/se_matrix/se_components.cpp: SEBranch::vectorGetElementValues, SEBranch::load, SEBranch::getComplexPower, SEBranch::getRvrsComplexPower"]}
{"id": "C128", "title": "Every residual belongs to its measurement", "statement": "The residual stored for a measurement is its value minus the measured quantity computed from the present voltages, in the position of this measurement.", "quantifier": "every set of measurements, network and state", "why_tests_cant": "One misplaced residual shifts all later ones; only some combinations of types do this.", "anchors": ["src/applications/components/se_matrix/se_components.cpp: SEBus::vectorGetElementValues, SEBranch::vectorGetElementValues"]}
{"id": "C129", "title": "State estimation announces as many Jacobian values as it writes", "statement": "The number of matrix values a component announces is the number it writes.", "quantifier": "every network and set of measurements", "why_tests_cant": "Values that are announced but not written are uninitialised memory: a test sees zeros.", "anchors": ["src/applications/components/se_matrix/se_components.cpp: SEBus::matrixNumValues, SEBus::matrixGetValues, SEBranch::matrixNumValues, SEBranch::matrixGetValues"]}
{"id": "C130", "title": "Corrections reach the bus they were computed for", "statement": "The elements of the solution vector handed back to a bus are those in the Jacobian columns of that bus, on every process, and every Jacobian value lies in an existing column.", "quantifier": "every distribution of the network over processes, order of messages and set of measurements", "why_tests_cant": "The two numberings are computed by different mappers; they have to agree for every distribution.", "anchors": ["src/applications/components/se_matrix/se_components.cpp: SEBus::matrixNumCols, SEBus::vectorSize, SEBus::setValues", "src/mapper/gen_matrix_map.hpp: setOffsets", "src/mapper/bus_vector_map.hpp: mapToBus", "src/applications/modules/state_estimation/se_app_module.cpp: solve"]}
{"id": "C131", "title": "State estimation minimises the weighted squares of the residuals", "statement": "A correction is computed from the gradient of the sum of squared residuals weighted with 1/deviation^2: it is a direction of descent, it is zero only at a stationary point; passes are made until the correction is at most the tolerance or the allowed number is reached.", "quantifier": "every network, state, set of measurements, tolerance and number of passes", "why_tests_cant": "Stationarity and descent concern all directions; the pass count concerns all sequences of corrections.", "anchors": ["src/applications/modules/state_estimation/se_app_module.cpp: solve"]}
{"id": "C132", "title": "More accurate measurements weigh more", "statement": "Of two measurements the one with the smaller deviation has the larger weight.", "quantifier": "all deviations", "why_tests_cant": "The order has to hold for all pairs, including the limit deviation 0.", "anchors": ["src/applications/components/se_matrix/se_components.cpp: SEBus::matrixGetValues, SEBranch::matrixGetValues"]}
{"id": "C133", "title": "Generator results of state estimation are saved", "statement": "After saving, every generator has an estimated real and reactive power in the data collection.", "quantifier": "every bus and number of generators", "why_tests_cant": "A loop that never runs leaves nothing a test of existing keys would notice.", "anchors": ["src/applications/components/se_matrix/se_components.cpp: SEBus::load, SEBus::saveData"]}
{"id": "C134", "title": "Resetting the power of a bus", "statement": "After any history of changes of generation and load, resetting the power gives every generator and load of a bus the power that was loaded from the network data.", "quantifier": "every network data, number of loads and history of calls", "why_tests_cant": "A history can mix scaling, outages, edits and repeated loading; tests try one change and one reset.", "anchors": ["src/applications/components/pf_matrix/pf_components.cpp: PFBus::load, PFBus::resetPower, PFBus::scaleGeneratorRealPower, PFBus::setGeneratorStatus"]}
{"id": "C135", "title": "Scaling a generator stays within its limits", "statement": "Scaling the power of a generator never takes it outside its real power limits, moves it in the direction asked for and leaves generators out of service alone.", "quantifier": "every bus, sequence of calls and factor", "why_tests_cant": "The limits have to hold after arbitrarily many calls with arbitrary factors.", "anchors": ["src/applications/components/pf_matrix/pf_components.cpp: PFBus::scaleGeneratorRealPower"]}
{"id": "C136", "title": "Scaling an area", "statement": "Scaling generation or load of an area (and zone) changes every generator or load in service there exactly once and by the amount asked for, nothing elsewhere; the totals change accordingly.", "quantifier": "every network, area, zone and factor", "why_tests_cant": "Names of generators may coincide; which buses are in an area depends on the data.", "anchors": ["src/applications/modules/powerflow/pf_factory_module.cpp: scaleGeneratorRealPower, scaleLoadPower", "src/applications/components/pf_matrix/pf_components.cpp: PFBus::scaleGeneratorRealPower, PFBus::scaleLoadPower"]}
{"id": "C137", "title": "Path rating keeps generation and load in balance", "statement": "Adjusting a path rating raises load of the destination and generation of the source by the same amount: the one asked for, or, if the generators have no room for it, as much as they have, reporting failure.", "quantifier": "every network, path and rating", "why_tests_cant": "Balance is an equation between sums over arbitrary sets of buses.", "anchors": ["src/applications/rtpr/rtpr_driver.cpp: adjustRating", "src/applications/modules/powerflow/pf_factory_module.cpp: getGeneratorMargins, getTotalLoadRealPower"]}
{"id": "C138", "title": "Path rating does not depend on the number of processes", "statement": "The total load of an area and the decision whether the generators have room are the same on all processes and for all distributions.", "quantifier": "every distribution of the network, with copies of buses at the borders", "why_tests_cant": "Unit tests run one process or one distribution.", "anchors": ["src/applications/modules/powerflow/pf_factory_module.cpp: getTotalLoadRealPower, getGeneratorMargins", "src/applications/rtpr/rtpr_driver.cpp: adjustRating"]}
{"id": "C139", "title": "Participation factors and saved generation", "statement": "The participation factors of the generators in service of a bus are their shares of the capacity and add up to 1; the saved generation of a reference bus (and the reactive generation of every bus with a held voltage) adds up to injection plus load; generators out of service get nothing.", "quantifier": "every network data and every outage", "why_tests_cant": "The sums have to be right for all numbers and statuses of generators.", "anchors": ["src/applications/components/pf_matrix/pf_components.cpp: PFBus::load, PFBus::saveData, PFBus::setGenStatus"]}
{"id": "C140", "title": "Generators can be taken out and put back", "statement": "Taking generators of a bus out of service and putting them back, in any order and any number of times, restores the bus when every generator has its old status; a generator put into service takes part.", "quantifier": "every bus and sequence of status changes", "why_tests_cant": "Order and number of changes are unbounded.", "anchors": ["src/applications/components/pf_matrix/pf_components.cpp: PFBus::setGenStatus, PFBus::getGenStatus"]}
{"id": "C141", "title": "Resetting the voltage of a bus", "statement": "Resetting the voltage gives the voltage the bus had after loading.", "quantifier": "every network data and history of calls", "why_tests_cant": "Only some combinations of generator and bus data distinguish the two voltages.", "anchors": ["src/applications/components/pf_matrix/pf_components.cpp: PFBus::load, PFBus::resetVoltage"]}
{"id": "C142", "title": "Resetting the flag of a held voltage", "statement": "Resetting the flag that says whether the voltage of a bus is held gives the flag that was loaded, after any changes.", "quantifier": "every bus and history of changes", "why_tests_cant": "Histories are unbounded; the second change is where it fails.", "anchors": ["src/applications/components/pf_matrix/pf_components.cpp: PFBus::setIsPV, PFBus::resetIsPV, PFBus::setGeneratorStatus"]}
{"id": "C143", "title": "Changes of generation and load reach the network data", "statement": "After setting the real power of a generator or load, the network data hold the value for the same generator or load, and a bus loaded from them agrees with the bus that was changed.", "quantifier": "every network data and change", "why_tests_cant": "Incomplete records shift the numbering only for some data.", "anchors": ["src/applications/components/pf_matrix/pf_components.cpp: PFBus::setGeneratorRealPower, PFBus::setLoadRealPower, PFBus::load"]}
{"id": "C144", "title": "Results written over the input", "statement": "When results are written over the network data, the power of each generator is its result in MW.", "quantifier": "every bus, base power and state", "why_tests_cant": "Test cases use a base of 100 MVA and one generator per bus.", "anchors": ["src/applications/components/pf_matrix/pf_components.cpp: PFBus::saveDataAlsotoOrg, PFBus::saveData"]}
{"id": "C145", "title": "The list of violations is complete", "statement": "The list of violations assembled from all processes contains each violation once.", "quantifier": "every distribution of violations over processes", "why_tests_cant": "With one process, or none on the first, nothing is lost.", "anchors": ["src/applications/modules/powerflow/pf_factory_module.cpp: getViolations"]}
{"id": "C146", "title": "Search for the power flow rating", "statement": "The search ends, and the rating reported is the largest tested one that is secure and for which the generators have room, the next hundredth not being so.", "quantifier": "every network, described by which ratings are secure and which have room", "why_tests_cant": "Security is an arbitrary predicate of the rating; the loop has no bound of its own.", "anchors": ["src/applications/rtpr/rtpr_driver.cpp: execute, adjustRating, runContingencies"]}
{"id": "C147", "title": "Search for the dynamic simulation rating", "statement": "The dynamic simulation rating is secure and is not below the power flow rating if that is secure in the dynamic simulation.", "quantifier": "every network, described by which ratings are secure and which have room", "why_tests_cant": "Security is an arbitrary predicate of the rating.", "anchors": ["src/applications/rtpr/rtpr_driver.cpp: execute, runDSContingencies"]}
{"id": "C148", "title": "Classical generator at rest", "statement": "A generator of the classical model, initialised from a power flow solution and kept at the power flow voltage, keeps its rotor angle, nominal speed and the scheduled power for ever, and feeds the scheduled current into the network.", "quantifier": "every set of parameters, every voltage and power, every sequence of time steps of any lengths, with any numbers of network iterations", "why_tests_cant": "A run covers one operating point and a finite time; a drift smaller than the tolerance of a test goes unnoticed.", "anchors": ["src/applications/modules/dynamic_simulation_full_y/model_classes/classical.cpp: init, NortonImpedence, predictor_currentInjection, predictor, corrector_currentInjection, corrector"]}
{"id": "C149", "title": "GENROU generator at rest", "statement": "The same for a GENROU machine with or without exciter and governor: the rotor angle reported is that of V + (Ra + jXq) I.", "quantifier": "every set of parameters, every voltage and power, every sequence of time steps", "why_tests_cant": "As for C148; six differential equations and the controllers must all be initialised consistently.", "anchors": ["src/applications/modules/dynamic_simulation_full_y/model_classes/genrou.cpp: init, NortonImpedence, predictor_currentInjection, predictor, corrector_currentInjection, corrector"]}
{"id": "C150", "title": "GENSAL generator at rest", "statement": "The same for a GENSAL machine.", "quantifier": "every set of parameters, every voltage and power, every sequence of time steps", "why_tests_cant": "As for C149.", "anchors": ["src/applications/modules/dynamic_simulation_full_y/model_classes/gensal.cpp: init, NortonImpedence, predictor_currentInjection, predictor, corrector_currentInjection, corrector"]}
{"id": "C151", "title": "A simulation without disturbance does not move", "statement": "If the dynamic simulation starts from a solution of the power flow and nothing happens, all bus voltages and all reported generator values stay as they were at the start.", "quantifier": "every network, every number of generators and loads per bus, every power flow solution, every number of steps, with and without iterative network solution", "why_tests_cant": "Depends on the consistency of the admittance matrix, the loads, the Norton equivalents and the initial states at all buses.", "anchors": ["src/applications/modules/dynamic_simulation_full_y/dsf_app_module2.cpp: runonestep", "src/applications/modules/dynamic_simulation_full_y/dsf_components.cpp: matrixDiagValues, vectorValues"]}
{"id": "C152", "title": "Generators without dynamic model as admittances", "statement": "When the simulation adds the generation of a bus to the network matrix, every generator in service that has no dynamic model or that takes power is represented by the constant admittance that takes its power at the initial voltage, exactly once; generators out of service add nothing.", "quantifier": "every list of generators of a bus, every status, power, model and voltage", "why_tests_cant": "The test cases have one generator with a model per bus; motors and generators without model out of service do not occur.", "anchors": ["src/applications/modules/dynamic_simulation_full_y/dsf_components.cpp: DSFullBus::load, matrixDiagValues (PG)"]}
{"id": "C153", "title": "A model for every generator", "statement": "After loading a bus, generator number i of the data has its own model at position i, read from its own data, and no later loop over the generators accesses a model that does not exist.", "quantifier": "every list of generators, in every order, with every power and every model name", "why_tests_cant": "Access beyond the end of a vector may go unnoticed; needs buses with motors, or with unknown model names.", "anchors": ["src/applications/modules/dynamic_simulation_full_y/dsf_components.cpp: DSFullBus::load, matrixDiagValues, initDSVect"]}
{"id": "C154", "title": "Loading a bus again", "statement": "After a bus is loaded again from changed data, the status it reports for each generator is the one in the data.", "quantifier": "every two lists of generators", "why_tests_cant": "Tests load every bus once.", "anchors": ["src/applications/modules/dynamic_simulation_full_y/dsf_components.cpp: DSFullBus::load, getGenStatus"]}
{"id": "C155", "title": "Static and dynamic load together are the load of the data", "statement": "The static load admittance of a bus and its dynamic loads together take, at the start, the power of the loads in service in the data, in per unit.", "quantifier": "every list of loads with every combination of models and status", "why_tests_cant": "Mixed composite, dynamic and static loads at one bus do not occur in the tests.", "anchors": ["src/applications/modules/dynamic_simulation_full_y/dsf_components.cpp: DSFullBus::load", "src/applications/modules/dynamic_simulation_full_y/load_factory.cpp: createLoadModel"]}
{"id": "C156", "title": "Reported rotor state", "statement": "The rotor angle and speed that a generator reports after a time step are those from which the next time step computes.", "quantifier": "every generator model and state, every history of calls", "why_tests_cant": "The difference is of second order in the time step and looks like integration error.", "anchors": ["src/applications/modules/dynamic_simulation_full_y/model_classes/genrou.cpp: getWatchValues, corrector", "src/applications/modules/dynamic_simulation_full_y/model_classes/gensal.cpp: getWatchValues", "src/applications/modules/dynamic_simulation_full_y/model_classes/classical.cpp: getWatchValues"]}
{"id": "C157", "title": "Reported power", "statement": "The power that a generator reports after a time step is the power it feeds into the network with the bus voltage of that step.", "quantifier": "every generator model and state, every voltage", "why_tests_cant": "At rest the values agree; they differ by one step during transients.", "anchors": ["src/applications/modules/dynamic_simulation_full_y/model_classes/genrou.cpp: predictor_currentInjection, getWatchValues", "src/applications/modules/dynamic_simulation_full_y/model_classes/gensal.cpp: predictor_currentInjection, getWatchValues", "src/applications/modules/dynamic_simulation_full_y/model_classes/classical.cpp: corrector, getWatchValues"]}
{"id": "C158", "title": "Tripped generator feeds no current", "statement": "After a successful trip a generator feeds no current into the network.", "quantifier": "every generator model and state, every voltage after the trip", "why_tests_cant": "Residual currents depend on the change of voltage after the trip.", "anchors": ["src/applications/modules/dynamic_simulation_full_y/model_classes/genrou.cpp: tripGenerator, predictor_currentInjection", "src/applications/modules/dynamic_simulation_full_y/model_classes/gensal.cpp: tripGenerator", "src/applications/modules/dynamic_simulation_full_y/base_classes/base_generator_model.cpp: tripGenerator"]}
{"id": "C159", "title": "Security check", "statement": "The security check of the dynamic simulation fails exactly if two generator buses have rotor angles more than a full turn apart.", "quantifier": "every set of buses and rotor angles", "why_tests_cant": "Loss of synchronism needs particular disturbances; the check must fail for each.", "anchors": ["src/applications/modules/dynamic_simulation_full_y/dsf_factory.cpp: securityCheck", "src/applications/modules/dynamic_simulation_full_y/dsf_components.cpp: getAngle"]}
{"id": "C160", "title": "Saturation curve through the data points", "statement": "The saturation of a machine at flux 1.0 and 1.2 is S(1.0) and S(1.2) of the data; it is nowhere negative or decreasing.", "quantifier": "every pair of saturation values", "why_tests_cant": "Two free real parameters; a wrong root of the quadratic equation shows for some pairs only.", "anchors": ["src/applications/modules/dynamic_simulation_full_y/model_classes/genrou.cpp: Sat", "src/applications/modules/dynamic_simulation_full_y/model_classes/gensal.cpp: Sat"]}
{"id": "C161", "title": "Machine base", "statement": "The network sees the source impedance of the data, converted from the machine base of the data to the system base.", "quantifier": "every machine base, system base, impedance and scheduled power", "why_tests_cant": "Overloaded machines are rare in test cases.", "anchors": ["src/applications/modules/dynamic_simulation_full_y/model_classes/genrou.cpp: load, NortonImpedence"]}
{"id": "C162", "title": "Reference angle", "statement": "If all voltage angles of the power flow solution are advanced by the same angle, the dynamic simulation gives voltages rotated and rotor angles advanced by this angle, and the same speeds and powers.", "quantifier": "every network, every distribution of classical, GENROU and GENSAL machines with controllers, every angle, every sequence of time steps, with and without iterative network solution", "why_tests_cant": "Relates two runs; needs all machines, voltages and angles at once.", "anchors": ["src/applications/modules/dynamic_simulation_full_y/dsf_app_module2.cpp: runonestep", "src/applications/modules/dynamic_simulation_full_y/model_classes/genrou.cpp: init, predictor, corrector", "src/applications/modules/dynamic_simulation_full_y/model_classes/gensal.cpp: init, predictor, corrector", "src/applications/modules/dynamic_simulation_full_y/model_classes/classical.cpp: init, predictor, corrector"]}
{"id": "C163", "title": "System base of the classical model", "statement": "The network sees the transient reactance of a classical generator, converted from its machine base to the system base of the case.", "quantifier": "every machine base, system base and reactance", "why_tests_cant": "All test cases have the base 100 MVA.", "anchors": ["src/applications/modules/dynamic_simulation_full_y/model_classes/classical.cpp: load, NortonImpedence"]}
{"id": "C164", "title": "Values missing in the data of loads and generators", "statement": "A power of a load or generator that the data does not contain counts as zero, and a load without status is in service, whatever the other loads and generators of the bus are.", "quantifier": "every list of records with missing values", "why_tests_cant": "Depends on values of records read before; parsers usually set all values.", "anchors": ["src/applications/modules/dynamic_simulation_full_y/dsf_components.cpp: DSFullBus::load"]}
{"id": "C165", "title": "A time step integrates the equations of the machine", "statement": "One time step changes the state of a classical, GENROU or GENSAL machine in service by exactly one step of Heun's rule (second order) for the textbook equations of that machine, with the terminal voltages of the two network solutions of the step and the field voltage and mechanical power its controllers report at the two stages.", "quantifier": "every state, parameter set, voltage and step size", "why_tests_cant": "Tests compare trajectories of a few cases with stored output; a wrong time constant or stage shows only in some transients.", "anchors": ["src/applications/modules/dynamic_simulation_full_y/model_classes/classical.cpp: predictor, corrector", "src/applications/modules/dynamic_simulation_full_y/model_classes/genrou.cpp: predictor, corrector", "src/applications/modules/dynamic_simulation_full_y/model_classes/gensal.cpp: predictor, corrector"]}
{"id": "C166", "title": "The network of a RAW file is the network of its records", "statement": "The admittance matrix built from the lines and transformers of a PSS/E file is that of the two-ports of its records: every record counts exactly once, at its own buses and in its own direction, whatever the order of the records and however many elements run in parallel.", "quantifier": "every file: every list of line and transformer records", "why_tests_cant": "Files have any number of records in any order and direction; tests read a few files and compare totals.", "anchors": ["src/parser/block_parsers/branch_parser33.cpp: BranchParser33::parse", "src/parser/block_parsers/transformer_parser33.cpp: TransformerParser33::parse", "src/applications/components/y_matrix/ymatrix_components.cpp: YMBranch::load, setYBus, getTransformer, getShunt"]}
{"id": "C167", "title": "A two-winding transformer is entered as its record says", "statement": "A two-winding transformer record enters the matrix as an ideal transformer with the two ratios of the record around its impedance, with the magnetising admittance at the first bus, whatever codes (CW, CZ, CM) say how the values are given.", "quantifier": "every two-winding record", "why_tests_cant": "Real-valued parameters and several codes; sample files use one combination of codes.", "anchors": ["src/parser/block_parsers/transformer_parser33.cpp: TransformerParser33::parse", "src/applications/components/y_matrix/ymatrix_components.cpp: YMBranch::load, setYBus, getTransformer, getShunt"]}
{"id": "C168", "title": "A three-winding transformer is entered as a star", "statement": "A three-winding transformer in service becomes a new bus, with a number no other bus has, and three branches to it; two of them in series have the impedance the record gives between these windings; the status code takes the right winding out.", "quantifier": "every three-winding record and every file containing such records", "why_tests_cant": "Real-valued parameters; status codes and bases that do not occur in sample files.", "anchors": ["src/parser/block_parsers/transformer_parser33.cpp: TransformerParser33::parse", "src/parser/block_parsers/transformer_parser33.hpp: parse3WindXForm", "src/parser/block_parsers/bus_parser33.cpp: BusParser33::parse"]}
{"id": "C169", "title": "A transformer in the opposite direction of an existing branch", "statement": "A transformer record from J to I has its ratio and phase shift at bus J even when an earlier record has already created the branch from I to J.", "quantifier": "every line and every transformer between the same buses", "why_tests_cant": "Depends on the order and direction of other records in the file.", "anchors": ["src/parser/block_parsers/transformer_parser33.cpp: TransformerParser33::parse (switched)", "src/applications/components/y_matrix/ymatrix_components.cpp: YMBranch::load, setYBus, getTransformer, getShunt"]}
{"id": "C170", "title": "Parallel elements share one branch", "statement": "After reading a file no two branches connect the same two buses, in either direction, and the branches together have exactly one element per line and two-winding transformer and three per three-winding transformer in service.", "quantifier": "every file whose records name buses of the file", "why_tests_cant": "Holds by an invariant over all records read so far, including added star buses.", "anchors": ["src/parser/block_parsers/branch_parser33.cpp: BranchParser33::parse", "src/parser/block_parsers/transformer_parser33.cpp: TransformerParser33::parse"]}
{"id": "C171", "title": "A parser object can read several files", "statement": "Reading a file with a parser object that has read a file before gives the same network as reading it with a new parser object.", "quantifier": "every pair of files", "why_tests_cant": "Depends on the history of the object; tests use a new object for each file.", "anchors": ["src/parser/PTI33_parser.hpp: getCase", "src/parser/block_parsers/branch_parser33.cpp: BranchParser33::parse"]}
{"id": "C172", "title": "Comment lines do not change what is read", "statement": "The transformer block gives the same transformers with and without comment lines, wherever these stand.", "quantifier": "every block and every position of comment lines", "why_tests_cant": "Arbitrary positions in records of four or five lines.", "anchors": ["src/parser/block_parsers/transformer_parser33.cpp: TransformerParser33::parse", "src/parser/block_parsers/base_block_parser.cpp: check_comment, test_end"]}
{"id": "C173", "title": "Every device is written to the exported file once", "statement": "In each block of an exported RAW file every record that is to be written appears exactly once, ordered by bus (branch) and device, whatever the number of processes, the distribution of the network and the order in which the processes write.", "quantifier": "every network, distribution over processes, distribution of the global arrays and order of writes", "why_tests_cant": "Distributions and interleavings are not controllable in a test; the failing case needs a mix of devices on one branch.", "anchors": ["src/export/base_export.hpp: writeDataBlock", "src/export/data_blocks/export_line33.hpp: writeLineBlock", "src/export/data_blocks/export_xform33.hpp: writeXformBlock", "src/export/data_blocks/export_gen33.hpp: writeGenBlock", "src/export/data_blocks/export_fxshnt33.hpp: writeFxShntBlock", "src/export/data_blocks/export_bus33.hpp: writeBusBlock"]}
{"id": "C174", "title": "All loads are exported", "statement": "The exported load block has every load of the network with its power, current and admittance components.", "quantifier": "every network with any loads", "why_tests_cant": "Needs loads without constant power beside other loads.", "anchors": ["src/export/data_blocks/export_load33.hpp: writeLoadBlock", "src/export/base_export.hpp: writeDataBlock"]}
{"id": "C175", "title": "An exported network is the same network when it is read again", "statement": "Writing a network to a RAW file and reading this file gives a network with the same admittance matrix.", "quantifier": "every network of lines and transformers, on any number of processes", "why_tests_cant": "Relates two programs on all networks; real-valued parameters.", "anchors": ["src/export/data_blocks/export_line33.hpp: writeLineBlock", "src/export/data_blocks/export_xform33.hpp: writeXformBlock", "src/parser/block_parsers/branch_parser33.cpp: BranchParser33::parse", "src/parser/block_parsers/transformer_parser33.cpp: TransformerParser33::parse"]}
{"id": "C176", "title": "Generators out of service take no part in a simulation", "statement": "A generator out of service keeps its state during every time step, and its model, parameters and power influence neither the network matrix nor any voltage, current or other generator.", "quantifier": "every network, generators of every model, any time steps, iterative or direct network solution", "why_tests_cant": "Compares pairs of runs of arbitrary length with arbitrary models of the generators out of service.", "anchors": ["src/applications/modules/dynamic_simulation_full_y/dsf_app_module2.cpp: runonestep, solveNetwork, getCurrent", "src/applications/modules/dynamic_simulation_full_y/dsf_components.cpp: predictor, corrector, predictor_currentInjection, corrector_currentInjection, vectorValues, matrixDiagValues"]}
{"id": "C177", "title": "Devices of a RAW file are stored at their buses", "statement": "After a RAW file was read, the data of each bus give the values of its record and exactly the loads, fixed shunts and generators whose records refer to it, in the order of the file, each with the values of its own record.", "quantifier": "every file with distinct bus numbers, any number of devices per bus, buses referred to by number or by name", "why_tests_cant": "Needs files with arbitrarily many devices interleaved over arbitrary buses, and records of any length.", "anchors": ["src/parser/block_parsers/bus_parser33.cpp: parse", "src/parser/block_parsers/load_parser33.cpp: parse", "src/parser/block_parsers/fixed_shunt_parser33.cpp: parse", "src/parser/block_parsers/generator_parser33.cpp: parse", "src/parser/block_parsers/base_block_parser.cpp: getBusIndex", "src/parser/PTI33_parser.hpp: getCase"]}
{"id": "C178", "title": "Devices given by the name of a bus are stored at the bus with this name", "statement": "A record that refers to a bus by its quoted name, with the voltage if the name is not unique, belongs to that bus of the file being read.", "quantifier": "every file, every name and voltage, any files read before", "why_tests_cant": "Needs buses of equal names, names of unusual length and several files read by one parser.", "anchors": ["src/parser/block_parsers/base_block_parser.cpp: getBusIndex, parseBusName, check_string", "src/parser/block_parsers/bus_parser33.cpp: parse"]}
{"id": "C179", "title": "The network matrix contains all shunts in service", "statement": "The shunt admittance of a bus used in the network matrix is the sum of its fixed and switched shunts in service, in units of the base power.", "quantifier": "every file, any number of fixed and switched shunts at a bus, in service or not", "why_tests_cant": "Unit tests use buses with at most one shunt, in service.", "anchors": ["src/components/y_matrix/ymatrix_components.cpp: YMBus::load", "src/parser/block_parsers/fixed_shunt_parser33.cpp: parse", "src/parser/block_parsers/switched_shunt_parser33.cpp: parse"]}
{"id": "C180", "title": "Empty fields of a RAW file take the defaults of the format", "statement": "A generator record with an empty owner belongs to the owner of its bus, and one with an empty status is in service.", "quantifier": "every generator record and file", "why_tests_cant": "The handling of empty fields depends on the combination of splitting and parsing.", "anchors": ["src/parser/block_parsers/generator_parser33.cpp: parse", "src/parser/block_parsers/base_block_parser.cpp: splitPSSELine, isBlank"]}
{"id": "C181", "title": "Records of generators in a .dyr file on all processes", "statement": "After a file with dynamic parameters was read by externalParse (one process reads, all get their share), each process that holds a bus gives, for each generator with a record, every parameter of the record under its name and with the index of the generator, unless another record gives the same parameter.", "quantifier": "every file of complete records, 27 models, any number of processes, any distribution of buses, any order of arrival", "why_tests_cant": "The formats have hundreds of parameters, each with its own line of code in three places; the records travel through a hash distribution.", "anchors": ["src/parser/base_pti_parser.hpp: externalParse, getDSExternal, find_ds_vector", "src/parser/parser_classes/*.hpp: store, extract", "src/parser/hash_distr.hpp: distributeBusValues"]}
{"id": "C182", "title": "Records of loads in a .dyr file on all processes", "statement": "The same for the records of loads, including user defined load models.", "quantifier": "every file of complete records, all load models, any number of processes, any distribution of buses", "why_tests_cant": "As C181.", "anchors": ["src/parser/base_pti_parser.hpp: getDSExternal, find_ds_vector", "src/parser/parser_classes/cim6bl.hpp, acmtblu1.hpp, cmldblu1.hpp, ieelbl.hpp"]}
{"id": "C183", "title": "Records of relays in a .dyr file on all processes", "statement": "Each relay record becomes one new relay of its bus or branch with exactly the parameters of the record, and relays that were there before keep theirs.", "quantifier": "every file of complete records, any number of relays per bus or branch, any number of processes", "why_tests_cant": "Any number of relays, any interleaving of records.", "anchors": ["src/parser/base_pti_parser.hpp: getDSExternal, find_ds_vector", "src/parser/parser_classes/lvshbl.hpp, frqtpat.hpp, distr1.hpp: store, extract"]}
{"id": "C184", "title": "Direct reading of a .dyr file", "statement": "A .dyr file read on a process that holds all buses gives each bus and branch the parameters of its records, also when parameters of an earlier file are there.", "quantifier": "every file of complete records, all models, any contents of the network", "why_tests_cant": "As C181; which of two lines of code stores a value depends on what was there before.", "anchors": ["src/parser/base_pti_parser.hpp: getDS, find_ds_par", "src/parser/parser_classes/*.hpp: parse"]}
{"id": "C185", "title": "Reading a .dyr file leaves other data alone", "statement": "Values of a bus or branch that no record of the .dyr file gives (in particular those of the network file) stay as they are.", "quantifier": "every file of complete records, every data collection, every name, index and type", "why_tests_cant": "Quantifies over everything that is not mentioned.", "anchors": ["src/parser/base_pti_parser.hpp: getDSExternal, find_ds_par, find_ds_vector", "src/parser/parser_classes/gdform.hpp: store, extract"]}
{"id": "C186", "title": "The later of two records counts", "statement": "If two records of a .dyr file give the same parameter of the same device, the value of the later one is used, however many processes there are.", "quantifier": "every file, every pair of records, any number of processes", "why_tests_cant": "The order in which records arrive at a process depends on the distribution.", "anchors": ["src/parser/base_pti_parser.hpp: getDSExternal, find_ds_par, find_ds_vector", "src/parser/hash_distr.hpp: distributeBusValues"]}
{"id": "C187", "title": "Matrix of the DAE form", "statement": "The matrix that the DAE form of the dynamic simulation gives to the integrator is the derivative of its residual with respect to the variables plus shift times the derivative with respect to their time derivatives.", "quantifier": "every network, every state, every shift, every set of machines, exciters and governors with their parameters and limiter states", "why_tests_cant": "Every entry of a matrix that depends on all parameters and on the state; a wrong entry slows the integration down or makes it fail but is not seen in its result.", "anchors": ["src/applications/modules/dynamic_simulation_dae/dsimnetwork.cpp: vectorValues, matrixDiagValues", "src/applications/modules/dynamic_simulation_dae/model_classes/{genrou,gensal,classical_gen_model,exdc1,esst1a,wsieg1}.cpp: vectorValues, setJacobian"]}
{"id": "C188", "title": "Matrix of the problem solved when a fault begins or ends", "statement": "When a fault begins or ends the voltages are solved anew with the state variables kept; the matrix of that problem is the derivative of its residual.", "quantifier": "every network, state and set of devices", "why_tests_cant": "As C187.", "anchors": ["src/applications/modules/dynamic_simulation_dae/dsimnetwork.cpp: vectorValues, matrixDiagValues", "src/applications/modules/dynamic_simulation_dae/model_classes/*.cpp: vectorValues, setJacobian with FAULT_EVAL"]}
{"id": "C189", "title": "The DAE form starts from an equilibrium", "statement": "The initial state computed from a solved power flow is an equilibrium: with all time derivatives 0 the residual vanishes.", "quantifier": "every network and solved power flow, every set of devices with parameters for which a start is possible", "why_tests_cant": "The initial state is computed from the other end of the block diagrams than the residual, for all parameters and combinations of devices.", "anchors": ["src/applications/modules/dynamic_simulation_dae/dsimnetwork.cpp: vectorValues with INIT_X and RESIDUAL_EVAL", "src/applications/modules/dynamic_simulation_dae/model_classes/*.cpp: init, vectorValues"]}
{"id": "C190", "title": "Each device finds its own variables", "statement": "In the vectors of the DAE form, machine, exciter and governor of every generator in service read their variables from the places at which their equations are written; the places of different devices are disjoint and fill the part of the bus.", "quantifier": "every bus with any number of generators, in service or not, with any devices; every vector", "why_tests_cant": "A wrong offset shows only for particular combinations of devices and statuses at one bus.", "anchors": ["src/applications/modules/dynamic_simulation_dae/dsimnetwork.cpp: getNvar, vectorValues, setValues", "src/applications/modules/dynamic_simulation_dae/model_classes/*.cpp: vectorValues, setValues"]}
{"id": "C191", "title": "Limiters hold and let go", "statement": "A limiter of the DAE form begins to hold when its event says that the limit is reached while the variable moves outward, lets go at its next event, and after a fault begins or ends holds exactly where the variable would leave the limits.", "quantifier": "every state, every set of parameters, every sequence of events, several at the same moment", "why_tests_cant": "Which events occur together and in which order depends on the trajectory.", "anchors": ["src/applications/modules/dynamic_simulation_dae/model_classes/{exdc1,esst1a,wsieg1}.cpp: eventHandlerFunction, resetEventFlags"]}
{"id": "C192", "title": "Faults are removed completely", "statement": "While a fault is on, exactly its current is taken out of its bus; when all faults are removed the network is as before.", "quantifier": "every network, any number of faults at the same or different buses, every order of begins and ends", "why_tests_cant": "Histories with overlapping faults are unbounded in number.", "anchors": ["src/applications/modules/dynamic_simulation_dae/dsimevent.cpp: p_handle, p_update", "src/applications/modules/dynamic_simulation_dae/dsimnetwork.cpp: setFault, addBusShunt, vectorValues"]}
{"id": "C193", "title": "Swing equation", "statement": "Along every solution of the DAE form, inertia times acceleration of each machine is the power brought in mechanically less damping less the electrical power, which is the power delivered at the terminals plus that lost in the armature.", "quantifier": "every network, every solution, every machine with its parameters", "why_tests_cant": "Concerns solutions of differential equations, not their approximation at some points.", "anchors": ["src/applications/modules/dynamic_simulation_dae/model_classes/{genrou,gensal,classical_gen_model}.cpp: vectorValues, getCurrent"]}
{"id": "C194", "title": "Base of a device", "statement": "A machine with the same record on a base m times as large delivers m times the current and power and moves in the same way; a governor answers the same speed deviation with m times the power.", "quantifier": "every set of parameters, every base, every state", "why_tests_cant": "Each parameter has to be converted with the right power of the base; test cases mostly have machines on the base of the system.", "anchors": ["src/applications/modules/dynamic_simulation_dae/model_classes/{genrou,gensal,classical_gen_model,wsieg1}.cpp: load"]}
{"id": "C195", "title": "Lines are those of the power flow", "statement": "The DAE form gives each branch the two-port that the admittance matrix of the power flow has for the same data: lines, transformers with ratio and phase shift, charging, end shunts, lines out of service, parallel lines.", "quantifier": "every list of parallel lines with any data, every pair of voltages", "why_tests_cant": "Two independent computations from the same data, to be compared for all values.", "anchors": ["src/applications/modules/dynamic_simulation_dae/dsimnetwork.cpp: DSimBranch::load, getForwardSelfAdmittance", "src/applications/components/y_matrix/ymatrix_components.cpp: setYBus, getTransformer, getShunt"]}
{"id": "C196", "title": "The residual depends on the state alone", "statement": "The residual that the DAE form gives to the integrator for a state does not depend on the states at which it was evaluated before.", "quantifier": "every network, every sequence of earlier evaluations, every state", "why_tests_cant": "The integrator evaluates in an order of its own; dependence on the last evaluation shows only in special conditions.", "anchors": ["src/applications/modules/dynamic_simulation_dae/dsimnetwork.cpp: vectorValues", "src/applications/modules/dynamic_simulation_dae/model_classes/esst1a.cpp: vectorValues, getFieldVoltage"]}
{"id": "C197", "title": "Global counts do not depend on the distribution", "statement": "The numbers of generators, loads and lines in service and of buses and branches that the network analytics report are those of the network: every unit whose status is positive or not recorded counts once, however the network is spread over the processes and whatever ghost copies exist.", "quantifier": "every network, every distribution of its buses and branches over any number of processes", "why_tests_cant": "Tests run one or two partitions of a few networks; a unit counted twice through a ghost copy appears only for particular partitions.", "anchors": ["src/analysis/network_analytics.hpp: numGenerators, numLoads, numLines, totalBuses", "src/component/base_analytics_intfc.cpp: numGenerators, numLoads, numLines", "src/network/base_network.hpp: totalBuses, totalBranches"]}
{"id": "C198", "title": "Queries about one bus or branch", "statement": "The counts for a bus or branch with a given global number, and the values that getBusInfo and getBranchInfo give, are those stored with that bus or branch, on every process and for every distribution; for a number or an entry that does not exist the count is zero, the query returns false and the caller's variable keeps its value.", "quantifier": "every network, every distribution, every global number, entry name and device index", "why_tests_cant": "The process that owns the component varies with the partition; the root of the broadcast is computed by a sum that is right only if exactly one process contributes.", "anchors": ["src/analysis/network_analytics.hpp: getBusInfo, getBranchInfo, numGenerators(int), numLines(int), p_localFromGlobalBusIndex"]}
{"id": "C199", "title": "Neighbourhood queries of the network analytics", "statement": "getConnectedBranches gives the global numbers of exactly the branches that end at the bus with the given global number; getBranchEndpoints gives the buses at the ends of the branch with the given global number.", "quantifier": "every network, every distribution, every global number", "why_tests_cant": "With buses numbered from one the answers are plausible numbers; comparing them needs the whole network for every partition.", "anchors": ["src/analysis/network_analytics.hpp: getConnectedBranches, getBranchEndpoints", "src/network/base_network.hpp: getConnectedBranches, getOriginalBranchIndex, getOriginalBranchEndpoints"]}
{"id": "C200", "title": "Tables of bus data reach the buses", "statement": "After a table file has been read, every process has, for every line of the file and every local bus (owned or ghost) with the number on the line, exactly one entry with the position of the bus and the tag, and the values of a column given by getValues are those on the lines; the headers are the comment lines, on every process.", "quantifier": "every file, every distribution of buses, every number of processes, every order of the writes to the shared array", "why_tests_cant": "Lengths that are not a multiple of the block of ten lines, comments and missing newlines at the end combine with the distribution; files used in tests are regular.", "anchors": ["src/parser/bus_table.hpp: readTable, getValues, getTags, getLocalIndices, getHeaders", "src/parser/hash_distr.hpp: distributeBusValues"]}
{"id": "C201", "title": "Records of a .dyr file are found with their tokens", "statement": "Reading a .dyr file gives its records in their order, each with exactly its tokens: blank and comment lines (beginning with //) are passed over, a record reaches over any number of lines up to a slash, what is behind the slash does not matter, and the end of the file ends the reading.", "quantifier": "every sequence of blank lines, comments and records, every division of records into lines, both ways of reading (own data, data handed out)", "why_tests_cant": "Line ends, comments and missing slashes combine freely; the files used in tests have one layout.", "anchors": ["src/parser/base_pti_parser.hpp: find_ds_par, find_ds_vector, splitPSSELine"]}
{"id": "C202", "title": "Parameters of a unit commitment reach their generators", "statement": "After reading a file with unit commitment parameters every parameter on a line is found, with its value, in the data of the generator named on the line on every process holding its bus, and nothing else is changed.", "quantifier": "every file with a header and complete lines, every number of processes, distribution of buses and order of writes to the shared array", "why_tests_cant": "Names with wrong values are seen only if each column is compared; blank lines at the end read memory that is usually zero.", "anchors": ["src/parser/base_pti_parser.hpp: getUCExternal, find_uc_vector, uc_params"]}
{"id": "C203", "title": "Devices work with the parameters of their records", "statement": "After a .dyr file has been read, on any number of processes, every device that the dynamic simulation creates for a generator (machine, exciter, governor, stabiliser, plant controller, parts of a wind turbine) is of the model named in its record, and each of its quantities has the value given in the record at the place the file format assigns to it.", "quantifier": "every file of complete records, every model, every distribution over processes, every generator with one record for the kind of device", "why_tests_cant": "There are several hundred quantities in some twenty-five models; a quantity under a wrong name or of a wrong type silently gets a default that looks plausible.", "anchors": ["src/applications/modules/dynamic_simulation_full_y/model_classes//*.cpp: load", "src/applications/modules/dynamic_simulation_full_y//generator_factory.cpp", "src/applications/modules/dynamic_simulation_full_y//dsf_components.cpp: load", "src/parser/parser_classes/*.hpp: store, extract"]}
{"id": "C204", "title": "Accepted devices can be simulated", "statement": "Every generator whose records the reader accepts is loaded by the dynamic simulation with exactly the devices its records name.", "quantifier": "every file of complete records, every combination of models at a generator", "why_tests_cant": "Combinations of models are many; a model known to the reader but not to the factory ends in a null pointer only when a case uses it.", "anchors": ["src/applications/modules/dynamic_simulation_full_y//generator_factory.cpp: createGeneratorModel, createExciterModel, createGovernorModel", "src/applications/modules/dynamic_simulation_full_y//dsf_components.cpp: load", "src/parser/parser_classes/*.hpp"]}
{"id": "C205", "title": "All contingencies of the list are evaluated", "statement": "The contingencies evaluated are exactly those of the contingency file, in the order of the file, each with the lines (two bus numbers and a two-character name) or generators listed, however the lists are spaced and quoted; a block that cannot be evaluated is reported.", "quantifier": "every contingency file", "why_tests_cant": "A dropped block only shows in a count; the spacing and quoting of lists varies from file to file.", "anchors": ["src/applications/contingency_analysis/ca_driver.cpp: getContingencies"]}
{"id": "C206", "title": "The summary gives the outcome of every contingency", "statement": "For every contingency, whichever group of processes evaluated it, success.txt has one line that says whether the power flow calculation finally succeeded and, if so, which of the two checks (bus voltages, line loads) found violations.", "quantifier": "every number of contingencies, processes and groups, every distribution of tasks, every interleaving of the gathering, every combination of outcomes", "why_tests_cant": "The distribution of tasks is not deterministic; reading an emptied vector usually still finds the old memory.", "anchors": ["src/applications/contingency_analysis/ca_driver.cpp: execute", "src/parallel/global_vector.hpp", "src/parallel/task_manager.hpp"]}
{"id": "C207", "title": "Rows of the statistics", "statement": "In the statistics files every generator and every line of an active branch has a row, and the value of each contingency, solved or failed, is entered in the row of the element it belongs to.", "quantifier": "every network, every state of the network in a contingency", "why_tests_cant": "The values pass through a text of limited length per bus or branch; only components with many elements exceed it.", "anchors": ["src/applications/contingency_analysis/ca_driver.cpp: execute", "src/applications/modules/powerflow/pf_factory_module.cpp: : PFBus::serialWrite, PFBranch::serialWrite"]}
{"id": "C208", "title": "Overloads and performance index", "statement": "A contingency is counted as overloading a line, and the line contributes to the performance index, according to the apparent power that flows in the line; a line that is out of service contributes nothing.", "quantifier": "every branch, every line, every pair of bus voltages and every status", "why_tests_cant": "The reported flow of a line out of service is zero, so the output looks right except for the counts.", "anchors": ["src/applications/modules/powerflow/pf_factory_module.cpp: : PFBranch::serialWrite, PFBranch::getComplexPower", "src/applications/contingency_analysis/ca_driver.cpp: execute"]}
{"id": "C209", "title": "Reported generation", "statement": "In every solved contingency the reported powers of the generators of a bus add up to the power injected into the network plus the load of the bus, and a generator that is out of service is reported with zero.", "quantifier": "every bus, every set of generators and loads, every injection", "why_tests_cant": "Deviations are shares of a total that depend on the case; only the sum over a bus shows them.", "anchors": ["src/applications/modules/powerflow/pf_factory_module.cpp: : PFBus::serialWrite, PFBus::setGenStatus"]}
{"id": "C210", "title": "Contingencies are independent of each other", "statement": "Each contingency is solved on the base case network with only this contingency applied and from the original voltages, so that its result is the same whatever contingencies the same group of processes evaluated before.", "quantifier": "every list of contingencies, every distribution over groups, every solver", "why_tests_cant": "Which contingencies precede which depends on timing.", "anchors": ["src/applications/contingency_analysis/ca_driver.cpp: execute", "src/applications/modules/powerflow/pf_app_module.cpp: setContingency, unSetContingency, resetVoltages, clearQlimViolations"]}
{"id": "C211", "title": "Sequence impedances of generators", "statement": "After parsing a sequence file on any number of processes, every generator of a local bus has for each of the positive, negative and zero sequence the resistance and reactance of its last row in that section of the file, under its own index; no entry of the bus changes other than those of generators and shunts with a row in the file.", "quantifier": "every file in the format, every number of processes and distribution of the buses, every content of the data collections", "why_tests_cant": "Rows reach the buses by a hash distribution whose order and destination depend on the number of processes, and the index depends on the other generators of the bus.", "anchors": ["src/parser/PSSE_seq_parser.hpp: PSSE_seq_parser::parse, getSeqData, findPosSeqImpData, findNegSeqImpData, findZeroSeqImpData, sortSeqData"]}
{"id": "C212", "title": "Sequence shunts of buses", "statement": "After parsing a sequence file every bus with rows for shunt admittances has the conductance and susceptance of its last row in the negative and in the zero sequence section, and a bus without a row in a section gets nothing for it.", "quantifier": "every file in the format, every number of processes, every content of uninitialised memory", "why_tests_cant": "Wrong values come from uninitialised memory, and missing values look like zero shunts, which are the usual case.", "anchors": ["src/parser/PSSE_seq_parser.hpp: findNegSeqShuntData, findZeroSeqShuntData, sortSeqData"]}
{"id": "C213", "title": "Sequence data of lines and transformers", "statement": "After parsing a sequence file every line and transformer of a local branch has the values of its last row, whatever the order in which the row names the two buses and however many optional words the row has; other entries of the branch remain.", "quantifier": "every file in the format, every number of processes, every content of the data collections", "why_tests_cant": "Rows with optional words and rows with the buses in the other order are rare in test files.", "anchors": ["src/parser/PSSE_seq_parser.hpp: findZeroSeqNonTransformerData, findZeroSeqTransformerData, sortSeqData"]}
{"id": "C214", "title": "A sequence parser can be used for another file", "statement": "Parsing a second file with the same parser works as with a new parser.", "quantifier": "every pair of files, every distribution of the buses", "why_tests_cant": "Fails only on processes whose buses differ from those of the first file.", "anchors": ["src/parser/PSSE_seq_parser.hpp: PSSE_seq_parser::parse, sortSeqData"]}
{"id": "C215", "title": "The system base read from the first line of a RAW file is the second value of that line", "statement": "For every first line of a RAW file, written as the format allows (values separated by commas or blanks, blanks before the first value, a comment after a slash), the power base stored for the case is the number written as second value.", "quantifier": "Every first line: any case number, base, separators, blanks, further values and comment; parsers of versions 23 and 33 to 35.", "why_tests_cant": "The free format admits unboundedly many spellings; example files of a test use one spelling per parser.", "anchors": ["src/parser/PTI23_parser.hpp: find_case", "src/parser/block_parsers/case_parser33.cpp: CaseParser33::parse", "src/parser/block_parsers/case_parser34.cpp: CaseParser34::parse"]}
{"id": "C216", "title": "Buses, loads, shunts, generators and switched shunts of a version 23 file are found at their buses", "statement": "For every version 23 file with complete lines and distinct bus numbers, reading ends, and at every bus a user finds the values of its line, one load and one shunt exactly if the line gives one, all generators whose records name the bus in the order of the file, and the values of the switched shunt of the bus.", "quantifier": "All files: any number and order of buses, generators, switched shunts, records for unknown buses, any columns present.", "why_tests_cant": "Correctness depends on the interplay of all records of a file through shared maps and counters; tests look at single files.", "anchors": ["src/parser/PTI23_parser.hpp: PTI23_parser::getCase, find_buses, find_generators, find_shunt"]}
{"id": "C217", "title": "The name of a bus is the text between its quotes", "statement": "For every bus line of a version 23 file the stored bus name is the name of the bus: the text between the quotes without surrounding blanks, or the token itself if it is not quoted.", "quantifier": "All bus lines and names.", "why_tests_cant": "Names are arbitrary texts; a test compares a few.", "anchors": ["src/parser/PTI23_parser.hpp: find_buses"]}
{"id": "C218", "title": "The branches of a version 23 file form the network of its records", "statement": "For every version 23 file the admittance matrix built from the branches that are read equals the sum of the two-ports of the branch records: each record counts once, at its own buses, in its own direction, with its ratio, charging and shunts, whatever the order of the file and the number of parallel circuits.", "quantifier": "All lists of branch records, including parallel circuits, records in opposite directions and negative bus numbers.", "why_tests_cant": "The grouping of parallel records into branches depends on the whole history of records read before.", "anchors": ["src/parser/PTI23_parser.hpp: find_branches", "src/applications/components/y_matrix/ymatrix_components.cpp: YMBranch::load"]}
{"id": "C219", "title": "Transformer adjustment lines are stored with the circuit they name", "statement": "For every version 23 file and every line of its transformer adjustment block that names a circuit of the file, the values of the line are found at that circuit, no other circuit gets them, and reading ends.", "quantifier": "All transformer blocks and branch blocks; lines in either direction, unknown circuits, several lines for a circuit.", "why_tests_cant": "Termination and the absence of misplaced values concern every combination of lines of two blocks.", "anchors": ["src/parser/PTI23_parser.hpp: find_transformer"]}
{"id": "C220", "title": "A version 23 parser can read another file", "statement": "Reading a file with a parser that has read another file before gives the same case as reading it with a new parser.", "quantifier": "All pairs of files.", "why_tests_cant": "State left behind by the first file matters only for particular pairs of files.", "anchors": ["src/parser/PTI23_parser.hpp: PTI23_parser::getCase, find_branches"]}
{"id": "C221", "title": "The areas of a version 23 file are found in the network data", "statement": "For every version 23 file a user finds in the data collection of the network the number of areas and, under the indices 0, 1, ..., the number, slack bus, interchange, tolerance and name of each area in the order of the file.", "quantifier": "All lists of area records.", "why_tests_cant": "Any number of records; a test has one list.", "anchors": ["src/parser/PTI23_parser.hpp: find_area"]}
{"id": "C222", "title": "Tripping named lines removes exactly their contributions", "statement": "Commands that trip circuits named by their buses and id, given in any order between the steps of a dynamic simulation, take effect at the next step: the network equations used from then on lack exactly the contributions of the circuits that were named and in service; commands naming unknown circuits or circuits already out change nothing; the result does not depend on the number of processes or the distribution of the network.", "quantifier": "All networks, distributions over processes, and histories of commands and steps.", "why_tests_cant": "The marks left by commands on copies of buses and branches on several processes interact over the history; a test trips one line.", "anchors": ["src/applications/modules/dynamic_simulation_full_y/dsf_app_module.cpp: setLineTripAction, executeOneSimuStep", "src/applications/modules/dynamic_simulation_full_y/dsf_components.cpp: DSFullBus::matrixDiagValues, applyBranchTripAction, DSFullBranch::setBranchTripAction, getBranchTripActionForBus", "src/applications/modules/hadrec/hadrec_app_module.cpp: applyAction"]}
{"id": "C223", "title": "Tripping some line at a bus trips one line", "statement": "The command to trip a line connected to a bus, without naming it, takes exactly one line in service at that bus out of service, and nothing if there is none, on any number of processes.", "quantifier": "All networks, distributions and states of lines.", "why_tests_cant": "The choice is made by each process from its own list of neighbours.", "anchors": ["src/applications/modules/dynamic_simulation_full_y/dsf_app_module.cpp: setLineTripAction(int bus)", "src/applications/modules/dynamic_simulation_full_y/dsf_components.cpp: DSFullBranch::setBranchTripAction"]}
{"id": "C224", "title": "Line trips survive the tripping of relays", "statement": "When a relay at a bus trips and changes the diagonal entry of its bus, the effect of line trips commanded before is kept.", "quantifier": "All histories of commands before the relay trips.", "why_tests_cant": "Needs a command and a relay event at neighbouring places in one run.", "anchors": ["src/applications/modules/dynamic_simulation_full_y/dsf_app_module.cpp: executeOneSimuStep", "src/applications/modules/dynamic_simulation_full_y/dsf_components.cpp: DSFullBus::updateRelay, matrixDiagValues"]}
{"id": "C225", "title": "Load changes in MW and MVar add up", "statement": "After commands that change the static loads of buses by given MW and MVar, the next step changes the network equations by just the admittances that draw these powers at the initial voltages, on the power base of the case, for any number of commands at any buses; nothing is left pending.", "quantifier": "All lists of commands, buses, amounts, voltages and bases.", "why_tests_cant": "Several commands for one bus between two steps, and bases other than 100 MVA, are combinations that example runs do not contain.", "anchors": ["src/applications/modules/dynamic_simulation_full_y/dsf_app_module.cpp: applyConstYLoad_Change_P, applyConstYLoad_Change_Q, clearConstYLoad_Change_P, executeOneSimuStep", "src/applications/modules/dynamic_simulation_full_y/dsf_components.cpp: DSFullBus::applyConstYLoad_Change_P, applyConstYLoad_Change_Q"]}
{"id": "C226", "title": "A static load sheds the share commanded", "statement": "After commands that shed parts of the constant admittance load of a bus the bus draws the share of its load current that remains: one less the parts shed, but at least nothing, at every voltage.", "quantifier": "All lists of shares, loads and voltages.", "why_tests_cant": "The voltage at which the claim is checked is that of the transient, not that of the initial state.", "anchors": ["src/applications/modules/dynamic_simulation_full_y/dsf_components.cpp: DSFullBus::applyConstYLoadShedding, vectorGetElementValues/vectorValues (INorton right-hand side)", "src/applications/modules/dynamic_simulation_full_y/dsf_app_module.cpp: applyConstYLoadShedding"]}
{"id": "C227", "title": "A load given as an injection replaces the static load", "statement": "After commands that give the loads of a list of buses as powers or currents, each of these buses draws just the power or the current given last, at every voltage.", "quantifier": "All lists of buses and values, voltages, repetitions and mixtures of the commands.", "why_tests_cant": "The commands interact through flags of the bus; the lists have any length.", "anchors": ["src/applications/modules/dynamic_simulation_full_y/dsf_app_module.cpp: scatterInjectionLoad, scatterInjectionLoadNew, scatterInjectionLoadNew_compensateY, scatterInjectionLoadNewConstCur", "src/applications/modules/dynamic_simulation_full_y/dsf_components.cpp: DSFullBus::scatterInjectionLoad..., setConstYLoadtoZero_P, setConstYLoadtoZero_Q"]}
{"id": "C228", "title": "A load given as an impedance enters with its admittance", "statement": "After a command that gives the static load of a bus as an impedance, the admittance of this impedance takes the place of the load in the network equations.", "quantifier": "All impedances, loads and voltages.", "why_tests_cant": "Signs of reactive parts cancel in resistive examples.", "anchors": ["src/applications/modules/dynamic_simulation_full_y/dsf_app_module.cpp: setConstYLoadImpedance", "src/applications/modules/dynamic_simulation_full_y/dsf_components.cpp: DSFullBus::setConstYLoadtoValue"]}
{"id": "C229", "title": "Shedding a dynamic load changes the load named", "statement": "A command that sheds or restores a part of the dynamic load with a given id at a bus changes the share of this load by the part, but to no less than nothing, and no other load.", "quantifier": "All lists of loads, ids, shares and parts.", "why_tests_cant": "Buses with several loads and histories with complete shedding.", "anchors": ["src/applications/modules/dynamic_simulation_full_y/dsf_components.cpp: DSFullBus::applyLoadShedding", "src/applications/modules/dynamic_simulation_full_y/base_classes/base_load_model.cpp: changeLoad"]}
{"id": "C230", "title": "The simulation advances with the time step given and the fault acts in its interval", "statement": "For every time step, simulated time and fault interval, all integration steps have the size given, they cover the simulated time, and the faulted network is used just for the steps in the fault interval.", "quantifier": "All start and end times of faults, time steps and simulated times.", "why_tests_cant": "Particular times are multiples of the step in the examples.", "anchors": ["src/applications/modules/dynamic_simulation_full_y/dsf_app_module.cpp: solvePreInitialize, solve, executeOneSimuStep"]}
{"id": "C231", "title": "The list of zones is complete, sorted and the same on all processes", "statement": "For every network and every distribution over processes, the list of zones reported by the dynamic simulation has exactly the zones of the buses, each once, in ascending order.", "quantifier": "All networks, zone numbers (also negative) and distributions.", "why_tests_cant": "The list is assembled from contributions of all processes; tests use few processes and zones.", "anchors": ["src/applications/modules/dynamic_simulation_full_y/dsf_app_module.cpp: DSFullApp::getZoneList"]}
{"id": "C232", "title": "Reported loads of zones and buses are those in service", "statement": "The active and reactive load reported for a zone is the sum over its buses, and that for a bus the sum of its loads in service, for every distribution over processes.", "quantifier": "All networks, distributions, lists of loads with any status.", "why_tests_cant": "Sums over all distributions and combinations of load records.", "anchors": ["src/applications/modules/dynamic_simulation_full_y/dsf_app_module.cpp: getZoneLoads, getBusTotalLoadPower", "src/applications/modules/dynamic_simulation_full_y/dsf_components.cpp: DSFullBus::getTotalLoadPower, load"]}
{"id": "C233", "title": "The simulated load of a bus is the sum of its loads in service", "statement": "The load of a bus that enters the dynamic simulation is the sum of its loads in service, whatever models these have.", "quantifier": "All lists of loads of a bus.", "why_tests_cant": "Needs buses with several loads of different models.", "anchors": ["src/applications/modules/dynamic_simulation_full_y/dsf_components.cpp: DSFullBus::load"]}
{"id": "C234", "title": "Reported generation is that of the power flow", "statement": "After a power flow solution is transferred to a dynamic simulation, the generation reported for a bus, a zone or a single generator is, in MW and MVar, that of the solution: at the reference bus the injected power plus the load, elsewhere the power of the generators in service.", "quantifier": "All solutions, buses with any generators, bases and distributions.", "why_tests_cant": "The values pass through two applications with different units.", "anchors": ["src/applications/modules/dynamic_simulation_full_y/dsf_app_module.cpp: transferPFtoDS, getZoneGeneratorPower, getGeneratorPower", "src/applications/modules/dynamic_simulation_full_y/dsf_components.cpp: DSFullBus::getTotalGeneratorPower, getGeneratorPower", "src/applications/components/pf_matrix/pf_components.cpp: PFBus::saveData"]}
{"id": "C235", "title": "Resetting power in a dynamic simulation", "statement": "After any history of scaling and setting powers and statuses, resetting the power gives every generator and load of a bus the power with which the bus was loaded, and writes it to the network data.", "quantifier": "All buses, data, histories of calls, and any number of loadings of the bus.", "why_tests_cant": "Histories mix several kinds of calls and repeated loading before every contingency.", "anchors": ["src/applications/modules/dynamic_simulation_full_y/dsf_components.cpp: DSFullBus::load, resetPower, scaleGeneratorRealPower, scaleLoadPower, setGeneratorRealPower, setGeneratorStatus", "src/applications/modules/dynamic_simulation_full_y/dsf_factory.cpp: resetPower"]}
{"id": "C236", "title": "Scaling generators in a dynamic simulation stays within their limits", "statement": "Scaling by factors between -1 and 1 moves a generator by that part of its room in the direction asked for, never takes it outside its limits, keeps bus and network data in agreement and leaves generators out of service alone; scaling a load multiplies its active and reactive power and changes nothing else.", "quantifier": "All buses, limits, sequences of calls and factors, before and after the transfer of a power flow solution.", "why_tests_cant": "Limits, units and statuses come from different sources; the limits have to hold after arbitrarily many calls.", "anchors": ["src/applications/modules/dynamic_simulation_full_y/dsf_components.cpp: DSFullBus::scaleGeneratorRealPower, load", "src/applications/modules/dynamic_simulation_full_y/dsf_factory.cpp: scaleGeneratorRealPower", "src/applications/modules/dynamic_simulation_full_y/dsf_app_module.cpp: transferPFtoDS"]}
{"id": "C237", "title": "Load and generator margins of an area in a dynamic simulation", "statement": "The total load of an area (and zone) and the generation and limits of its generators in service are those of the whole network at present, on every process.", "quantifier": "All networks, distributions with copies of buses, areas and zones, histories.", "why_tests_cant": "Depends on the distribution over processes; unit tests run one.", "anchors": ["src/applications/modules/dynamic_simulation_full_y/dsf_factory.cpp: getTotalLoadRealPower, getGeneratorMargins", "src/applications/modules/dynamic_simulation_full_y/dsf_components.cpp: DSFullBus::getLoadPower, getGeneratorMargins"]}
{"id": "C238", "title": "Transfer of the power flow solution to the dynamic simulation", "statement": "After the transfer every bus of the simulation takes the voltage magnitude and angle of the power flow, and its generators and loads have the powers of the power flow.", "quantifier": "All networks, data present or missing on either side.", "why_tests_cant": "Missing entries leave values of other quantities in the variable; tests use complete data with unchanged loads.", "anchors": ["src/applications/modules/dynamic_simulation_full_y/dsf_app_module.cpp: DSFullApp::transferPFtoDS", "src/applications/modules/dynamic_simulation_full_y/dsf_components.cpp: DSFullBus::load"]}
{"id": "C239", "title": "Frequency monitoring finds exactly the drifts", "statement": "The monitor reports a watched generator exactly when its frequency has been above 61 Hz and rising, or below 59 Hz and falling, for at least half a second; the verdict is the same on all processes and each process lists its buses concerned.", "quantifier": "All sequences of samples, times and distributions of buses.", "why_tests_cant": "Runs can start, break off and start again at any sample.", "anchors": ["src/applications/modules/dynamic_simulation_full_y/dsf_components.cpp: DSFullBus::checkFrequency", "src/applications/modules/dynamic_simulation_full_y/dsf_app_module.cpp: DSFullApp::checkFrequency, solve"]}
{"id": "C240", "title": "Frequency monitoring of one simulation does not affect the next", "statement": "The verdicts of a simulation depend on its own samples only, not on simulations run before with the same network.", "quantifier": "All previous simulations and all samples.", "why_tests_cant": "Needs consecutive simulations whose drifts interact.", "anchors": ["src/applications/modules/dynamic_simulation_full_y/dsf_components.cpp: DSFullBus::load, checkFrequency", "src/applications/modules/dynamic_simulation_full_y/dsf_app_module.cpp: DSFullApp::reload"]}
{"id": "C241", "title": "The maximum frequency asked for is monitored", "statement": "With monitoring on, a watched generator whose frequency exceeds the maximum given by the user makes the simulation report a failure.", "quantifier": "All maxima and sequences of samples.", "why_tests_cant": "A statement about all frequencies above all maxima.", "anchors": ["src/applications/modules/dynamic_simulation_full_y/dsf_app_module.cpp: DSFullApp::setFrequencyMonitoring, frequencyOK, solve", "src/applications/modules/dynamic_simulation_full_y/dsf_components.cpp: DSFullBus::checkFrequency"]}
{"id": "C242", "title": "Seeding determines the random numbers", "statement": "After seeding, the numbers returned depend on the seed and the process only, whatever has been drawn before; different seeds and processes give different sequences.", "quantifier": "All histories of calls, seeds and processes.", "why_tests_cant": "State hidden in the object shows only for some histories.", "anchors": ["src/parallel/random.cpp: Random::seed, drand, grand"]}
{"id": "C243", "title": "Normally distributed numbers come from the polar method", "statement": "Consecutive normally distributed numbers are the polar transform of a point of the unit disc made of two consecutive uniform numbers.", "quantifier": "All generators and states.", "why_tests_cant": "An identity between real functions for all points; statistical tests only bound the deviation.", "anchors": ["src/parallel/random.cpp: Random::grand"]}
{"id": "C244", "title": "Contingencies of the path rating are the elements in service of the region", "statement": "The contingencies created for an area (or a zone of it) are the generators of the area in service, and the lines in service with both ends in it, each exactly once; the watched generators are the generators in service.", "quantifier": "All networks, distributions over processes, areas and zones, and executions of the parallel writes.", "why_tests_cant": "The lists depend on the distribution and on the timing of one-sided writes.", "anchors": ["src/applications/rtpr/rtpr_driver.cpp: RTPRDriver::createGeneratorContingencies, createBranchContingencies, findWatchedGenerators", "src/parallel/global_vector.hpp: upload"]}
{"id": "C245", "title": "Tie lines are the active lines between the two regions", "statement": "The tie lines found are the lines in service that connect the source region and the destination region, in either direction.", "quantifier": "All networks, distributions, pairs of areas and zones.", "why_tests_cant": "Depends on combinations of area, zone and direction of each branch; a sample misses some.", "anchors": ["src/applications/rtpr/rtpr_driver.cpp: RTPRDriver::getTieLines"]}
{"id": "C246", "title": "A rating is accepted exactly if it is secure", "statement": "The evaluation of a rating is positive if and only if the power flow of the base case and of every contingency has a solution in which no tie line is overloaded, whatever the number of processes and the sharing of the contingencies.", "quantifier": "All networks, contingency lists, numbers of processes and ways of sharing out the work.", "why_tests_cant": "The sharing is decided at run time and the sets of solvable cases are unlimited.", "anchors": ["src/applications/rtpr/rtpr_driver.cpp: RTPRDriver::runContingencies"]}
{"id": "C247", "title": "The dynamic simulations of the path rating cover the contingencies", "statement": "Every contingency is converted to a fault of the same elements; the evaluation is positive if and only if all simulations end without a frequency violation.", "quantifier": "All contingencies, numbers of processes and outcomes.", "why_tests_cant": "Outcomes include exceptions at any point of a simulation.", "anchors": ["src/applications/rtpr/rtpr_driver.cpp: RTPRDriver::runDSContingencies, execute"]}
{"id": "C248", "title": "During a fault the network has a short circuit at the faulted bus and nowhere else", "statement": "A simulation started with a fault event uses, during the fault, the matrix of the network with a very large admittance at the bus of the event (first bus of a branch event), and the matrix of the undisturbed network otherwise; every event given has this effect, whatever event the network was used for before.", "quantifier": "All networks, distributions over processes, events and preceding events.", "why_tests_cant": "The mark of a bus is set through the branches known to the process that owns it; depends on distribution and order of the buses.", "anchors": ["src/applications/modules/dynamic_simulation_full_y/dsf_app_module.cpp: DSFullApp::solve", "src/applications/modules/dynamic_simulation_full_y/dsf_factory.cpp: DSFullFactory::setEvent", "src/applications/modules/dynamic_simulation_full_y/dsf_components.cpp: DSFullBus::setEvent, DSFullBranch::setEvent, matrixDiagValues"]}
{"id": "C249", "title": "The fault is applied in the steps of its interval", "statement": "A simulation of T seconds with step dt makes T/dt steps of length dt; the faulted network is used in exactly the steps between the beginning and the end of the fault, with the step given for the fault.", "quantifier": "All times and time steps.", "why_tests_cant": "Rounding of quotients for all real times.", "anchors": ["src/applications/modules/dynamic_simulation_full_y/dsf_app_module.cpp: DSFullApp::solve"]}
{"id": "C250", "title": "Solutions of a linear solver solve the system of the call", "statement": "Whatever was solved before with the same solver object, a solution delivered by solve or resolve satisfies the system formed by the matrix (present content, or the content at the last solve in the serial mode) and the right hand side of the call; the number of processes and the serial mode make no difference.", "quantifier": "All histories of calls with changing matrices and right hand sides, all settings and distributions over processes.", "why_tests_cant": "The solver object keeps copies from earlier calls; errors depend on the history and appear only on several processes.", "anchors": ["src/math/linear_solver_implementation.hpp: p_configure, p_serialSolvePrep, p_serialSolutionDist, p_solve, p_resolve", "src/math/petsc/petsc_linear_solver_implementation.hpp: p_solveImpl, p_resolveImpl", "src/math/vector_implementation.hpp: p_setElementRange"]}
{"id": "C251", "title": "Solving for a matrix of right hand sides solves for every column", "statement": "Each column of the delivered matrix is a solution for the corresponding column of the given matrix.", "quantifier": "All matrices of right hand sides, settings and earlier calls.", "why_tests_cant": "The columns interact through the state of the solver object.", "anchors": ["src/math/linear_solver_implementation.hpp: p_solve(const MatrixType&)"]}
{"id": "C252", "title": "Tolerances set on a linear solver are used", "statement": "The tolerance and the limit of iterations last set, by the input or by a call, are the ones of the next solve.", "quantifier": "All sequences of calls.", "why_tests_cant": "The value kept by the object and that kept by the library can differ after some orders of calls.", "anchors": ["src/math/linear_solver_implementation.hpp: p_tolerance, p_maximumIterations, p_configure", "src/math/petsc/petsc_linear_solver_implementation.hpp: p_build"]}
{"id": "C253", "title": "Operations on complex vectors work element by element", "statement": "With a numerical library built for real numbers, filling, scaling, shifting, absolute values, conjugates, exponentials, reciprocals, real and imaginary parts, sums, products and quotients of complex vectors change every element on every process as for complex numbers, and nothing else.", "quantifier": "All numbers of processes, distributions, sizes and complex values, with a library of real numbers.", "why_tests_cant": "Each element is two real numbers in arrays spread over processes; tests use a few short vectors in one build.", "anchors": ["src/math/complex_operators.hpp: unary_operation, binary_operation", "src/math/petsc/petsc_vector.cpp: add, elementMultiply, elementDivide", "src/math/petsc/petsc_vector_implementation.hpp: p_fill, p_scale, p_abs, p_conjugate, p_exp, p_reciprocal", "src/math/vector_implementation.cpp: p_real, p_imaginary"]}
{"id": "C254", "title": "Norms of complex vectors", "statement": "The 1-, 2- and infinity norm of a complex vector are those of the whole vector, however it is distributed.", "quantifier": "All numbers of processes, distributions, sizes and complex values, with a library of real numbers.", "why_tests_cant": "The norms are computed from real pairs and reduced over the processes; all distributions matter.", "anchors": ["src/math/complex_operators.hpp: accumulator_operation, l1_norm, l2_norm, infinity_norm", "src/math/petsc/petsc_vector_implementation.hpp: p_norm1, p_norm2, p_normInfinity"]}
{"id": "C255", "title": "Products, sums, columns, diagonals and norms of complex matrices", "statement": "With a library of real numbers the products with vectors and matrices, sums, columns, operations on the diagonal, the identity and the norm of a complex matrix are those of the complex numbers.", "quantifier": "All numbers of processes, distributions, sizes and complex values, with a library of real numbers.", "why_tests_cant": "The identities between real blocks and complex numbers have to hold for every size and value.", "anchors": ["src/math/petsc/petsc_matrix_operations.cpp: multiply, column, diagonal", "src/math/fallback_matrix_operations.hpp: diagonal, multiplyDiagonal, addDiagonal", "src/math/fallback_matrix_methods.hpp: norm2", "src/math/petsc/petsc_matrix_implementation.hpp: p_identity, p_addDiagonal"]}
{"id": "C256", "title": "Scaling, conjugates, parts and transposes of complex matrices", "statement": "Scaling a complex matrix, taking conjugates, real or imaginary parts, and transposing it change every stored element and nothing else, also after the matrix was made the identity.", "quantifier": "All sparsity patterns, sizes and values, with a library of real numbers.", "why_tests_cant": "The rows of the real storage are read two by two; whether each row holds whole pairs depends on the history of the matrix.", "anchors": ["src/math/petsc/petsc_matrix_implementation.hpp: p_applyOperation, p_scale, p_conjugate, p_real, p_imaginary, p_identity", "src/math/petsc/petsc_matrix_operations.cpp: transpose"]}
{"id": "C257", "title": "Product of the transpose with a vector", "statement": "transposeMultiply(A, x) is the product of the transpose of A with x, for real and complex matrices and both builds of the library.", "quantifier": "All matrices and vectors.", "why_tests_cant": "The tests of the product use one matrix; the error shows only for elements that are not real in one of the builds.", "anchors": ["src/math/petsc/petsc_matrix_operations.cpp: transposeMultiply"]}
{"id": "C258", "title": "Blocks of rows of a complex matrix", "statement": "Getting a block of rows returns the rows asked for, in the order asked for, for every list of rows.", "quantifier": "All lists of rows, also unordered ones.", "why_tests_cant": "Rows are sorted, extracted and put back by an inverse permutation; all orders matter.", "anchors": ["src/math/petsc/petsc_matrix_implementation.hpp: p_getRowBlock"]}
{"id": "C259", "title": "Copy of a network", "statement": "Cloning a partitioned network to one with other component types gives a network with the same buses, branches, numbers, active flags, neighbours, data, reference bus and lookups, whatever the target held before.", "quantifier": "All networks and distributions, and all previous contents of the target.", "why_tests_cant": "The copy is made by a sequence of insertions and settings per index; every field and every lookup must agree for all networks.", "anchors": ["src/network/base_network.hpp: clone, clear, setMap, addBus, addBranch"]}
{"id": "C260", "title": "Buses connected to a bus", "statement": "getConnectedBuses returns, for each branch at the bus, the bus at the other end.", "quantifier": "All networks with right lists of neighbours, including parallel branches and loops.", "why_tests_cant": "All topologies and orientations of branches matter.", "anchors": ["src/network/base_network.hpp: getConnectedBuses"]}
{"id": "C261", "title": "Reference bus of a network", "statement": "getReferenceBus returns the local index of the reference bus that was set, or -1; never an index that is not one of a bus.", "quantifier": "All indices given.", "why_tests_cant": "The claim is about every argument, also illegal ones.", "anchors": ["src/network/base_network.hpp: setReferenceBus, getReferenceBus"]}
{"id": "C262", "title": "A solver finds its own options", "statement": "After configure, a solver object finds under every option name the value that its own option string gives last for that name, and otherwise what the option table of the process held before; entries that do not begin with the prefix of the object are not touched.", "quantifier": "All option strings, prefixes and contents of the option table.", "why_tests_cant": "The option table is common to the whole process; tests configure a few objects with fixed strings.", "anchors": ["src/math/petsc/petsc_configurable.cpp: PETScConfigurable::p_processOptions, prefixOptionMaybe, build"]}
{"id": "C263", "title": "Solvers do not see the options of other solvers", "statement": "Whatever solver objects are configured and destroyed, in whatever order, each living object with its own prefix finds exactly the options of its own configuration.", "quantifier": "All histories of configuration and destruction of any number of objects.", "why_tests_cant": "It is a claim about all histories and all pairs of prefixes.", "anchors": ["src/math/petsc/petsc_configurable.cpp: PETScConfigurable::p_processOptions, p_unprocessOptions, p_generatePrefix"]}
{"id": "C264", "title": "Options go away with their solver", "statement": "When a solver object is destroyed, the option table is as if the object had never been configured: its options are gone and all other entries, for instance those of the command line, are still there.", "quantifier": "All option strings, prefixes, contents of the table and histories.", "why_tests_cant": "What is left in a table common to the process shows only in later objects, in histories that no test goes through.", "anchors": ["src/math/petsc/petsc_configurable.cpp: PETScConfigurable::p_unprocessOptions, ~PETScConfigurable, p_processOptions"]}
{"id": "C265", "title": "Every process lists the observed elements", "statement": "After the observations of a dynamic simulation have been set, getObservationLists gives on every process, in the order of the configuration, the observed generators, loads and buses that exist in the network, wherever they are; with the option to report non-existing elements it gives all of them.", "quantifier": "All networks, distributions over any number of processes, and lists of observations.", "why_tests_cant": "The result depends on the number of processes, the number of observations and where each element lies.", "anchors": ["src/applications/modules/dynamic_simulation_full_y/dsf_app_module.cpp: DSFullApp::setObservations, getObservationLists"]}
{"id": "C266", "title": "Observed values belong to the listed elements", "statement": "On every process getObservations returns, one by one, the present values of the elements that getObservationLists gives on this process, and the documented values for elements that do not exist.", "quantifier": "All networks, distributions, lists of observations and states of the devices.", "why_tests_cant": "Values travel through global vectors by position; a mismatch shows only for particular distributions.", "anchors": ["src/applications/modules/dynamic_simulation_full_y/dsf_app_module.cpp: DSFullApp::setObservations, getObservations, getObservationLists"]}
{"id": "C267", "title": "Observations can be set again", "statement": "If the observations are set a second time, lists and values are those of the second configuration alone.", "quantifier": "All pairs of configurations.", "why_tests_cant": "State left from the first configuration shows only in histories of calls.", "anchors": ["src/applications/modules/dynamic_simulation_full_y/dsf_app_module.cpp: DSFullApp::setObservations, getObservations"]}
{"id": "C268", "title": "Lists of observations are replaced", "statement": "getObservationLists replaces the content of the vectors given by the caller, so that calling it again with the same vectors gives the same lists.", "quantifier": "All configurations and previous contents of the vectors.", "why_tests_cant": "The claim is about all previous contents.", "anchors": ["src/applications/modules/dynamic_simulation_full_y/dsf_app_module.cpp: DSFullApp::getObservationLists"]}
{"id": "C269", "title": "Observed voltage in polar form", "statement": "The observed voltage magnitude and angle of a bus are the absolute value and the argument of its complex voltage.", "quantifier": "All nonzero complex voltages.", "why_tests_cant": "A real identity in all four quadrants and on the axes.", "anchors": ["src/applications/modules/dynamic_simulation_full_y/dsf_app_module.cpp: DSFullApp::getObservations"]}
{"id": "C270", "title": "Values of the generalised vector and slab mappers", "statement": "mapToVector (mapToMatrix of the slab mapper) puts the values of every own bus and branch at its indices; mapToNetwork hands every component the values at its indices; the two are inverse to each other.", "quantifier": "All networks, distributions, numbers of values per component and orders in which processes set elements.", "why_tests_cant": "All distributions and sizes, including branches whose ends lie on different processes.", "anchors": ["src/mapper/gen_vector_map.hpp: mapToVector, mapToNetwork, loadBusData, loadBranchData", "src/mapper/gen_slab_map.hpp: mapToMatrix, mapToNetwork"]}
{"id": "C271", "title": "Number of columns of a slab", "statement": "A slab mapper is created on all processes if all components that supply rows have the same number of columns, and refused on all processes otherwise.", "quantifier": "All networks and distributions.", "why_tests_cant": "It depends on how the components with rows are distributed.", "anchors": ["src/mapper/gen_slab_map.hpp: GenSlabMap, getDimensions"]}
{"id": "C272", "title": "Analysis step of the dynamic state estimation", "statement": "Each analysis moves every member of the ensemble by the Kalman gain times the difference of its measurements and its forecast of them, the gain being the covariance of states and forecast measurements times the inverse of the covariance of the forecast measurements plus the squared noise scale; the matrices to be inverted are regular.", "quantifier": "All numbers of states, measurements and members (at least two), all ensembles, measurements and noise scales other than zero.", "why_tests_cant": "A matrix identity for all sizes and values; the code computes it through a system of another size.", "anchors": ["src/applications/modules/kalman_ds/kds_app_module.cpp: KalmanApp::solve, initialize", "src/applications/components/kds_matrix/kds_components.cpp: KalmanBus::slabGetValues, slabSetValues, evaluateX3"]}
{"id": "C273", "title": "Reported state of the dynamic state estimation", "statement": "The reported state, the mean of the ensemble, moves by the gain times the difference of the mean measurements and the mean forecast; it does not move if measurements and forecasts agree, and an ensemble of one is never changed.", "quantifier": "All ensembles and measurements.", "why_tests_cant": "A matrix identity for all sizes and values.", "anchors": ["src/applications/modules/kalman_ds/kds_app_module.cpp: KalmanApp::solve", "src/applications/components/kds_matrix/kds_components.cpp: KalmanBus::serialWrite, slabSetValues"]}
{"id": "C274", "title": "Random perturbations of the dynamic state estimation", "statement": "The configured randomSeed determines the perturbations of ensemble and measurements, and different buses and time steps get different random numbers.", "quantifier": "All seeds, buses and steps.", "why_tests_cant": "Every single run looks random; the relation is between buses, steps and runs.", "anchors": ["src/applications/modules/kalman_ds/kds_app_module.cpp: KalmanApp::initialize", "src/applications/components/kds_matrix/kds_components.cpp: KalmanBus::createEnsemble, slabGetValues", "src/parallel/random.cpp: Random"]}
{"id": "C275", "title": "Time of the fault in the dynamic state estimation", "statement": "An evaluation of the equations uses the network with the fault exactly if the fault is known and its time is from the beginning of the fault to before its end.", "quantifier": "All fault times, time steps and passes.", "why_tests_cant": "All combinations of steps, including very short faults and time series with another step.", "anchors": ["src/applications/modules/kalman_ds/kds_app_module.cpp: KalmanApp::solve"]}
{"id": "C276", "title": "Measurements used in the dynamic state estimation", "statement": "Each analysis uses the measurements of the time of its forecast (counted from TimeOffset), and the time series are read only inside their length.", "quantifier": "All offsets, lengths and numbers of steps.", "why_tests_cant": "All combinations of offset and length.", "anchors": ["src/applications/modules/kalman_ds/kds_app_module.cpp: KalmanApp::solve", "src/applications/components/kds_matrix/kds_components.cpp: KalmanBus::slabGetValues"]}
{"id": "C277", "title": "Initial state of the dynamic state estimation", "statement": "With a balanced initial load flow the initial angles, speeds and voltages are an equilibrium: a step without perturbation changes nothing, and the network equations with the machines give back the voltages of the load flow.", "quantifier": "All buses, loads, numbers of generators and machine data.", "why_tests_cant": "A nonlinear identity over all load flow solutions and machine data.", "anchors": ["src/applications/components/kds_matrix/kds_components.cpp: KalmanBus::load, evaluateX2, evaluateX3, matrixDiagValues"]}
{"id": "C278", "title": "Generators out of service in the dynamic state estimation", "statement": "Only generators in service take part in the dynamic state estimation.", "quantifier": "All lists of generators.", "why_tests_cant": "All combinations of status flags.", "anchors": ["src/applications/components/kds_matrix/kds_components.cpp: KalmanBus::load"]}
{"id": "C279", "title": "Voltages of the generators in the dynamic state estimation", "statement": "Every generator is integrated with the voltage of its bus.", "quantifier": "All distributions of buses and numbers of generators per bus.", "why_tests_cant": "Depends on the order of buses on the processes.", "anchors": ["src/applications/components/kds_matrix/kds_components.cpp: KalmanBus::slabSize, slabSetValues"]}
{"id": "C280", "title": "Loads in the dynamic state estimation", "statement": "The load of a bus is the sum of its loads in service.", "quantifier": "All lists of loads and versions of the input file.", "why_tests_cant": "All combinations of loads.", "anchors": ["src/applications/components/kds_matrix/kds_components.cpp: KalmanBus::load", "src/parser/PTI23_parser.hpp", "src/parser/block_parsers/load_parser33.cpp"]}
{"id": "C281", "title": "Place of the fault in the dynamic state estimation", "statement": "A fault on a branch, given by its two buses in either order, short-circuits the first bus given and no other.", "quantifier": "All networks and orders.", "why_tests_cant": "All networks, including several branches between the same buses.", "anchors": ["src/applications/components/kds_matrix/kds_components.cpp: KalmanBranch::setEvent, KalmanBus::setEvent, matrixDiagValues", "src/applications/modules/kalman_ds/kds_factory_module.cpp: KalmanFactory::setEvent"]}
{"id": "C282", "title": "Reading the network of the dynamic state estimation", "statement": "After readNetwork every bus of the file is in the network once.", "quantifier": "All files.", "why_tests_cant": "The claim is about all files.", "anchors": ["src/applications/modules/kalman_ds/kds_app_module.cpp: KalmanApp::readNetwork", "src/parser/base_parser.hpp"]}
{"id": "C283", "title": "Graph given to the partitioning library", "statement": "When a network is partitioned with ParMETIS, the library sees exactly the network: every node belongs to the block of exactly one process, the blocks are consecutive and their sizes differ by at most one, and the neighbours given for a node are its neighbours in the network, one entry per branch, under the same numbering, however the nodes were distributed when they were added.", "quantifier": "All numbers of processes, all initial distributions of nodes including processes without nodes, all adjacency lists, all orders of the indices.", "why_tests_cant": "Tests use a few small networks and process counts; the numbering depends on the initial distribution.", "anchors": ["src/partition/parmetis/parmetis_graph_wrapper.cpp: ParMETISGraphWrapper::p_initialize_gbl, get_csr_local"]}
{"id": "C284", "title": "Destinations belong to the right nodes", "statement": "After partitioning with ParMETIS the destination of every node is the part the library chose for this very node, whatever the library returns and wherever the node was before.", "quantifier": "All results of the library, all initial distributions, all networks that can be given to it.", "why_tests_cant": "A test cannot distinguish a permuted result from a valid partition unless it knows the choice of the library.", "anchors": ["src/partition/parmetis/parmetis_graph_wrapper.cpp: ParMETISGraphWrapper::set_partition, get_partition", "src/partition/parmetis/parmetis_graph_partitioner_impl.cpp: ParMETISGraphPartitionerImpl::p_partition"]}
{"id": "C285", "title": "Partitioning completes", "statement": "Partitioning a network with at least one branch completes on any number of processes.", "quantifier": "All networks and numbers of processes.", "why_tests_cant": "Needs networks with isolated buses at particular places or more processes than buses.", "anchors": ["src/partition/parmetis/parmetis_graph_wrapper.cpp: ParMETISGraphWrapper::get_csr_local", "src/partition/parmetis/parmetis_graph_partitioner_impl.cpp: ParMETISGraphPartitionerImpl::p_partition"]}
{"id": "C286", "title": "Labels of the generator time series", "statement": "After a dynamic simulation with saved time series, the time series map labels the series: entry k of the map is 4i+q exactly if series k holds quantity q of the i-th generator of the list of watched generators, at every saved step, and there are as many entries as series.", "quantifier": "All networks, all lists of watched generators (any order, generators of other processes, generators out of service), all outputs of the machines, all numbers of steps.", "why_tests_cant": "Tests list one or two generators in the order of the file on one process; exchanged labels give plausible curves.", "anchors": ["src/applications/modules/dynamic_simulation_full_y/dsf_app_module.cpp: DSFullApp::setGeneratorWatch, saveTimeStep, getTimeSeriesMap, getListWatchedGenerators, getGeneratorTimeSeries", "src/applications/modules/dynamic_simulation_full_y/dsf_components.cpp: DSFullBus::setWatch, getWatchedGenerators, getWatchedValues", "src/applications/development/wind_dsa/wind_driver.cpp"]}
{"id": "C287", "title": "Watched generators can be set again", "statement": "Calling setGeneratorWatch again replaces the list: afterwards the map and the series are those of the new list.", "quantifier": "All networks, all pairs of lists.", "why_tests_cant": "Tests set the list once.", "anchors": ["src/applications/modules/dynamic_simulation_full_y/dsf_app_module.cpp: DSFullApp::setGeneratorWatch, getTimeSeriesMap"]}
{"id": "C288", "title": "Parameters of generators and loads can be changed and read", "statement": "modifyDataCollectionGenParam and modifyDataCollectionLoadParam return true exactly if the bus has an element with this identifier and the element has a parameter of this name and type; getDataCollection...Param on the process owning the bus then returns the new value. If false is returned nothing is changed. No other parameter, element or bus changes. Identifiers may be given with or without quotes and blanks.", "quantifier": "All networks, buses, identifiers, parameter names, values and types.", "why_tests_cant": "Tests change a few parameters of a few generators; that nothing else changes and that every spelling works is a statement about all entries.", "anchors": ["src/applications/modules/powerflow/pf_app_module.hpp: p_modifyDataCollectionGenParam, p_modifyDataCollectionLoadParam, p_getDataCollectionGenParam, p_getDataCollectionLoadParam", "src/applications/modules/powerflow/pf_app_module.cpp: modifyDataCollectionGenParam, getDataCollectionGenParam", "src/applications/modules/dynamic_simulation_full_y/dsf_app_module.hpp: p_modifyDataCollectionGenParam", "src/applications/modules/hadrec/hadrec_app_module.cpp"]}
{"id": "C289", "title": "Parameters of buses can be changed and read", "statement": "modifyDataCollectionBusParam returns true exactly if the bus has a parameter of this name and type, the new value is then read by getDataCollectionBusParam on the owning process, and nothing else changes.", "quantifier": "All networks, buses, parameter names, values and types.", "why_tests_cant": "As for C288.", "anchors": ["src/applications/modules/powerflow/pf_app_module.hpp: p_modifyDataCollectionBusParam, p_getDataCollectionBusParam"]}
{"id": "C290", "title": "Copies of a bus stay equal when parameters are changed", "statement": "If all processes make the same call that changes a parameter, the copies of every bus on all processes remain equal, and all processes that hold a copy of the bus report the same result.", "quantifier": "All distributions of the network, all calls.", "why_tests_cant": "Needs runs on several processes with all distributions.", "anchors": ["src/applications/modules/powerflow/pf_app_module.hpp: p_modifyDataCollectionGenParam, p_modifyDataCollectionLoadParam"]}
{"id": "C291", "title": "Parameters of branches can be changed and read in either direction", "statement": "modifyDataCollectionBranchParam and getDataCollectionBranchParam accept the end buses in either order, for changing and for reading independently: true is returned exactly if the circuit exists and has the parameter, the new value is read afterwards, and no other circuit, branch or parameter changes.", "quantifier": "All networks with one branch object per pair of buses, all circuits, parameters, values.", "why_tests_cant": "Tests use the order of the file.", "anchors": ["src/applications/modules/powerflow/pf_app_module.hpp: p_modifyDataCollectionBranchParam, p_getDataCollectionBranchParam", "src/network/base_network.hpp: getLocalBranchIndices"]}
{"id": "C292", "title": "Generators of a MATPOWER file are numbered per bus", "statement": "After reading a MATPOWER file the generators at a bus have the indices 0, 1, ... in the order of the file, the identifiers made for the numbers 1, 2, ... (C293), and GENERATOR_NUMBER of the bus is their count, wherever the rows of the bus stand in the generator block.", "quantifier": "All generator blocks with less than hundred generators per bus.", "why_tests_cant": "The test files list generators in the order of the buses.", "anchors": ["src/parser/MAT_parser.hpp: parse_generators, get_char_id"]}
{"id": "C293", "title": "Identifiers made for devices without identifier", "statement": "For a device number from 1 to 99 an identifier of two characters is made, different numbers get different identifiers, and numbers below ten are their digit.", "quantifier": "All numbers.", "why_tests_cant": "Tests use few devices per bus.", "anchors": ["src/parser/MAT_parser.hpp: get_char_id"]}
{"id": "C294", "title": "Branches of a MATPOWER file", "statement": "For each pair of buses with rows in the branch block there is exactly one branch with the direction of its first row; its elements are the rows of the pair in the order of the file, with the identifiers made for 1, 2, ... (C293), marked as switched exactly if the row has the other direction. This holds for each file read with the parser.", "quantifier": "All branch blocks with less than hundred rows per pair, all sequences of files read with one parser.", "why_tests_cant": "Tests read one file with few parallel lines.", "anchors": ["src/parser/MAT_parser.hpp: parse_branches, parse"]}
{"id": "C295", "title": "Costs of a MATPOWER file", "statement": "Row k of the cost block gives the cost of generator row k, rows from the number of generators on give the cost of reactive power; rows with unknown cost model or missing parameters are skipped or reported.", "quantifier": "All generator and cost blocks.", "why_tests_cant": "Tests use complete cost blocks.", "anchors": ["src/parser/MAT_parser.hpp: parse_gen_costs"]}
{"id": "C296", "title": "Load and relay models of .dyr files", "statement": "Every load or relay model that the reader of .dyr files accepts is part of the dynamic simulation: a load or relay with this model is simulated by it.", "quantifier": "All models of loads and relays that can be read.", "why_tests_cant": "Tests use files with the supported models only.", "anchors": ["src/applications/modules/dynamic_simulation_full_y/load_factory.cpp: createLoadModel", "src/applications/modules/dynamic_simulation_full_y/relay_factory.cpp: createRelayModel", "src/applications/modules/dynamic_simulation_full_y/dsf_components.cpp: DSFullBus::load", "src/parser/base_pti_parser.hpp"]}
{"id": "C297", "title": "Parts of a composite load", "statement": "The motors and the static part of a composite load together take the active and reactive power that arrives at the load bus.", "quantifier": "All fractions of motors, all powers, all reactive powers reported by the motors.", "why_tests_cant": "Tests have no composite load with a static part whose power is summed up.", "anchors": ["src/applications/modules/dynamic_simulation_full_y/dsf_components.cpp: LoadExtendedCmplBus", "src/applications/modules/dynamic_simulation_full_y/load_factory.cpp: createLoadModel"]}
{"id": "C298", "title": "Tap of a composite load", "statement": "The tap of the transformer of a composite load brings the voltage of the low side bus to the middle of the given range, as near as the steps allow, and is within its limits.", "quantifier": "All voltages, powers, reactances, limits and steps.", "why_tests_cant": "Tests use single sets of parameters.", "anchors": ["src/applications/modules/dynamic_simulation_full_y/dsf_components.cpp: LoadExtendedCmplBus"]}
{"id": "C299", "title": "Initial state of a composite load", "statement": "At the start of a simulation the voltages of the buses added for a composite load solve the equations of the network: the bus of the load gives the power of the data, currents balance at the low side bus, and the loads take what arrives.", "quantifier": "All powers, voltages, taps, impedances, capacitors and fractions.", "why_tests_cant": "Tests do not check the start of a simulation with composite loads against the power flow.", "anchors": ["src/applications/modules/dynamic_simulation_full_y/dsf_components.cpp: LoadExtendedCmplBus, SetCmplXfmrBranch, SetCmplFeederBranch", "src/parser/parser_classes/cmldblu1.hpp: setLowSideBus, setTransformer, setFeeder", "src/components/y_matrix/ymatrix_components.cpp: setParam"]}
{"id": "C300", "title": "Expansion of composite loads", "statement": "Reading a .dyr file with composite loads adds two buses and two branches for each of them, on the process that owns the bus: a transformer from the bus to the first new bus and a feeder from there to the second.  The new buses have numbers that no other bus has on any process; all other buses and branches stay as they are.", "quantifier": "All networks, distributions over processes, numbers of composite loads per bus.", "why_tests_cant": "Tests have at most one composite load on one process; numbers of new buses depend on all processes.", "anchors": ["src/parser/base_pti_parser.hpp: expandBusModels", "src/parser/parser_classes/cmldblu1.hpp: expandModel"]}
{"id": "C301", "title": "Composite loads when several .dyr files are read", "statement": "If several .dyr files are read one after the other, each composite load is expanded once; without composite loads the network is not changed.", "quantifier": "All networks and distributions over processes.", "why_tests_cant": "Tests read one file.", "anchors": ["src/parser/base_pti_parser.hpp: externalParse, expandBusModels"]}
{"id": "C302", "title": "A motor load starts at rest", "statement": "A motor load initialised for the voltage and power of the power flow does not change its speed or internal voltages as long as voltage and frequency at its bus stay the same.", "quantifier": "All motors given by an equivalent circuit, voltages, loads, numbers and lengths of time steps.", "why_tests_cant": "The start depends on a table search and two loops with separate copies of the same formulas.", "anchors": ["src/applications/modules/dynamic_simulation_full_y/model_classes/motorw.cpp: MotorwLoad::init", "src/applications/modules/dynamic_simulation_full_y/model_classes/motorw.cpp: MotorwLoad::predictor", "src/applications/modules/dynamic_simulation_full_y/model_classes/motorw.cpp: MotorwLoad::corrector"]}
{"id": "C303", "title": "A motor load starts with the power of the power flow", "statement": "After the initialisation a motor load draws the active power that the power flow assigned to it to within 0.0001 MW, or the initialisation reports an error.", "quantifier": "All motors, voltages and loads, also loads that the motor cannot carry and negative ones.", "why_tests_cant": "The cases in which no slip is found leave a variable without value, which looks correct in most runs.", "anchors": ["src/applications/modules/dynamic_simulation_full_y/model_classes/motorw.cpp: MotorwLoad::init"]}
{"id": "C304", "title": "A motor load has the parameters of its record", "statement": "The motor of a CIM6BL record has the resistances, reactances, base, inertia and torque coefficients of the record.", "quantifier": "All records.", "why_tests_cant": "A parameter that is overwritten shows only if the record differs from the constant.", "anchors": ["src/applications/modules/dynamic_simulation_full_y/model_classes/motorw.cpp: MotorwLoad::load"]}
{"id": "C305", "title": "A share of a motor load draws this share of the power", "statement": "When a share of a motor load is in service, the network supplies this share of the power of the motor, and the static load at the bus is lower by the share out of service.", "quantifier": "All motors, states, voltages, shares and static loads.", "why_tests_cant": "The current is put together from a source, an admittance in the network matrix and two corrections.", "anchors": ["src/applications/modules/dynamic_simulation_full_y/model_classes/motorw.cpp: MotorwLoad::predictor_currentInjection", "src/applications/modules/dynamic_simulation_full_y/model_classes/motorw.cpp: MotorwLoad::NortonImpedence", "src/applications/modules/dynamic_simulation_full_y/model_classes/motorw.cpp: MotorwLoad::setSameBusStaticLoadPQ"]}
{"id": "C306", "title": "Air conditioners have the parameters and the power given for them", "statement": "The motors of air conditioners have the restarting time, load factor and share of the load given in their record or in the record of the composite load of which they are a part, and those of a composite load take the power assigned to them.", "quantifier": "All records of motors and of composite loads, all powers.", "why_tests_cant": "A parameter that is read and then overwritten by a default shows only if the record differs from the default.", "anchors": ["src/applications/modules/dynamic_simulation_full_y/model_classes/acmotor.cpp: AcmotorLoad::load, AcmotorLoad::init", "src/parser/parser_classes/cmldblu1.hpp: expandModel"]}
{"id": "C307", "title": "Stalling and restarting of air conditioners", "statement": "Motors of air conditioners that run stall exactly when the voltage has been below the stalling voltage for longer than the stalling time without a break; the part that restarts runs again exactly when the voltage then has been above the restarting voltage for longer than the restarting time, and can stall again.", "quantifier": "All parameters, all histories of voltages and lengths of steps.", "why_tests_cant": "Depends on the whole history of the voltage.", "anchors": ["src/applications/modules/dynamic_simulation_full_y/model_classes/acmotor.cpp: AcmotorLoad::dynamicload_post_process"]}
{"id": "C308", "title": "Undervoltage relays of air conditioners", "statement": "The part of the air conditioners with undervoltage relays is disconnected for good exactly when the measured voltage has been below one of two levels for longer than the time of this level without a break.", "quantifier": "All parameters, all histories of voltages and lengths of steps.", "why_tests_cant": "Depends on the whole history of the voltage; two timers run at the same time.", "anchors": ["src/applications/modules/dynamic_simulation_full_y/model_classes/acmotor.cpp: AcmotorLoad::dynamicload_post_process"]}
{"id": "C309", "title": "Contactors of air conditioners", "statement": "The share of air conditioners that contactors leave connected is between nothing and all; it is nothing with a measured voltage below the lower thresholds, all above the upper threshold for closing or if the voltage never fell below the upper one for opening; motors that are disconnected are not connected below the thresholds for closing.", "quantifier": "All parameters, all histories.", "why_tests_cant": "Depends on the order of falls and rises of the voltage.", "anchors": ["src/applications/modules/dynamic_simulation_full_y/model_classes/acmotor.cpp: AcmotorLoad::dynamicload_post_process"]}
{"id": "C310", "title": "Thermal protection of air conditioners", "statement": "The shares of air conditioners left by the thermal protection are between nothing and all and fall linearly with the temperature of stalled motors; motors once disconnected stay so; the temperature follows the losses of the motors and stays the same in an undisturbed simulation.", "quantifier": "All parameters, all histories, both parts of the motors.", "why_tests_cant": "Temperatures change over many seconds; the wrong one acts only when motors stall later.", "anchors": ["src/applications/modules/dynamic_simulation_full_y/model_classes/acmotor.cpp: AcmotorLoad::predictor, AcmotorLoad::corrector, AcmotorLoad::dynamicload_post_process"]}
{"id": "C311", "title": "Air conditioners start with the power of the power flow", "statement": "In an undisturbed simulation the motors of air conditioners take in every step the active power of the power flow and the reactive power of their power factor.", "quantifier": "All parameters, powers, voltages at which no protection acts, numbers and lengths of steps.", "why_tests_cant": "A difference at a boundary of the curves of power shows only for voltages at the boundary.", "anchors": ["src/applications/modules/dynamic_simulation_full_y/model_classes/acmotor.cpp: AcmotorLoad::init, AcmotorLoad::dynamicload_post_process"]}
{"id": "C312", "title": "What air conditioners draw from the network", "statement": "Together with their admittance the injected current of air conditioners makes the network supply the power computed for the motors, less the part of the static load of the bus that is shed with them; the power of a share of the motors is this share of the power of all.", "quantifier": "All motors, states, voltages, shares and static loads.", "why_tests_cant": "The admittance of the network matrix and the current must fit for all states and shares.", "anchors": ["src/applications/modules/dynamic_simulation_full_y/model_classes/acmotor.cpp: AcmotorLoad::predictor_currentInjection, AcmotorLoad::corrector_currentInjection, AcmotorLoad::NortonImpedence"]}
{"id": "C313", "title": "A converter starts with the power of the power flow", "statement": "At a voltage and with currents inside its limits a converter generator feeds in exactly the active and reactive power of the power flow at the start, and goes on doing so as long as the bus voltage and the commands of its controller stay the same.", "quantifier": "All records, voltages of the power flow, numbers and lengths of steps.", "why_tests_cant": "Bases, signs and rotations cancel for common values such as equal bases or an angle of zero.", "anchors": ["src/applications/modules/dynamic_simulation_full_y/model_classes/regca1.cpp: load, init, computeModel, INorton"]}
{"id": "C314", "title": "Limits of the current of a converter", "statement": "In every simulation the active power of a converter is at most that of the initial active current raised with the ramp rate of the record, it is nothing below the lower voltage limit, and the reactive current is never below its limit.", "quantifier": "All histories of voltages and commands, all voltages, lengths of steps.", "why_tests_cant": "Limits must hold after every history.", "anchors": ["src/applications/modules/dynamic_simulation_full_y/model_classes/regca1.cpp: computeModel, INorton"]}
{"id": "C315", "title": "Reported power of a converter", "statement": "The power that is written or observed for a converter is the power it feeds into its bus, on the base that was asked for.", "quantifier": "All states and voltages, both bases.", "why_tests_cant": "The reports repeat the computation of the current; a different sign shows only at overvoltage, the base only if the machine base differs from the system base.", "anchors": ["src/applications/modules/dynamic_simulation_full_y/model_classes/regca1.cpp: serialWrite, getWatchValues, INorton"]}
{"id": "C316", "title": "Speeds of a wind turbine", "statement": "A steady excess of driving torque speeds up the generator and the turbine of a wind turbine as their inertia says; as one mass they have the same speed.", "quantifier": "All inertias, torques, numbers and lengths of steps.", "why_tests_cant": "A speed that never changes cannot be told from rest in a test that starts from a steady state.", "anchors": ["src/applications/modules/dynamic_simulation_full_y/model_classes/wtdta1.cpp: load, init, computeModel, getTurbineSpeedDeviation"]}
{"id": "C317", "title": "A wind turbine starts at rest", "statement": "While the electrical power and the references of a wind turbine stay as at the start, speed, rotor angle and pitch angle do not change, with and without a plant controller.", "quantifier": "All records of drive train, aerodynamics and pitch controller, powers, speeds, numbers and lengths of steps.", "why_tests_cant": "Without a plant controller the behaviour depends on the content of an unset variable, which may look right by chance.", "anchors": ["src/applications/modules/dynamic_simulation_full_y/model_classes/regca1.cpp: init, computeModel", "src/applications/modules/dynamic_simulation_full_y/model_classes/wtpta1.cpp: init, computeModel", "src/applications/modules/dynamic_simulation_full_y/model_classes/wtara1.cpp: init, predictor, corrector", "src/applications/modules/dynamic_simulation_full_y/model_classes/wtdta1.cpp: init, computeModel"]}
{"id": "C318", "title": "Limits of the controllers of a wind turbine", "statement": "In every simulation the pitch angle and the torque ordered by the torque controller are between the limits of their records.", "quantifier": "All histories of powers, speeds, references and voltage dips.", "why_tests_cant": "Limits must hold after every history.", "anchors": ["src/applications/modules/dynamic_simulation_full_y/model_classes/wtpta1.cpp: load, computeModel", "src/applications/modules/dynamic_simulation_full_y/model_classes/wttqa1.cpp: load, init, computeModel"]}
{"id": "C319", "title": "Start of a grid-forming inverter", "statement": "A grid-forming inverter starts with the active and reactive power of the power flow, and as long as the bus voltage does not change it keeps feeding and reporting that power at nominal frequency.", "quantifier": "every set of parameters with an operating point inside the limits, with and without voltage controller, filters used or not, every number of time steps", "why_tests_cant": "The limit controllers have integrators whose inputs are not zero at rest; that they stay at zero depends on the clamping in every step.", "anchors": ["src/applications/modules/dynamic_simulation_full_y/model_classes/gdform.cpp: load, init, INorton, CurrentLimitLogic, NortonImpedence, computeModel"]}
{"id": "C320", "title": "Current limit of a grid-forming inverter", "statement": "The current that a grid-forming inverter feeds into the network never exceeds its current limit; a current below the limit is not changed.", "quantifier": "every state of the inverter, every voltage of the network", "why_tests_cant": "The limit matters during faults only, and whether it is kept depends on the order of injection and network solution.", "anchors": ["src/applications/modules/dynamic_simulation_full_y/model_classes/gdform.cpp: CurrentLimitLogic, INorton, NortonImpedence", "src/applications/modules/dynamic_simulation_full_y/dsf_app_module.cpp: solve"]}
{"id": "C321", "title": "A plant controller keeps its references", "statement": "While power and voltage of the generator stay as at the start and the frequency stays nominal, the references that a plant controller hands to the electrical controller stay at the values it started with.", "quantifier": "every set of parameters, every operating point, every number and length of steps", "why_tests_cant": "A test looks at one operating point; that no path of the controller drifts from a point of rest is a statement about all of them.", "anchors": ["src/applications/modules/dynamic_simulation_full_y/model_classes/repca1.cpp: init, computeModel, predictor, corrector, setPrefQext, getPref, getQext"]}
{"id": "C322", "title": "A plant controller reacts to the frequency", "statement": "A plant controller with control of the real power lowers its reference of the real power when the frequency is above the dead band, in proportion to the gain for high frequencies, and raises it when the frequency is below the dead band, in proportion to the gain for low frequencies.", "quantifier": "every set of gains and dead bands, every frequency", "why_tests_cant": "Tests with equal gains in both directions cannot tell the two gains apart; the claim is about all gains and frequencies.", "anchors": ["src/applications/modules/dynamic_simulation_full_y/model_classes/repca1.cpp: computeModel (dP), load (Ddn, Dup, fdbd1, fdbd2)"]}
{"id": "C323", "title": "References of a plant controller stay within its limits", "statement": "The references of real and reactive power that a plant controller hands over stay between its limits for real power and for reactive power.", "quantifier": "every history of power, voltage and frequency", "why_tests_cant": "The limits only bind at the edge of the range, in combination with a deviation; tests start in the middle.", "anchors": ["src/applications/modules/dynamic_simulation_full_y/model_classes/repca1.cpp: load (Pref_PI_blk, Qref_PI_blk), computeModel, getPref, getQext"]}
{"id": "C324", "title": "Largest current of a converter", "statement": "The real and the reactive current that an electrical controller asks for are each within the largest current of the converter, and so is the total current.", "quantifier": "every state of the controller, every voltage and every reference", "why_tests_cant": "The limit matters at full current and while references change; a test sees single operating points.", "anchors": ["src/applications/modules/dynamic_simulation_full_y/model_classes/reeca1.cpp: computeModel, CurrentLimitLogic"]}
{"id": "C325", "title": "Reactive current after a voltage dip", "statement": "After a voltage dip the additional reactive current of an electrical controller is a given constant for the holding time if that is positive, goes on to support the voltage for that time if it is negative, and is zero otherwise; during every dip it depends on the voltage.", "quantifier": "every sequence of dips, every holding time and step", "why_tests_cant": "The behaviour depends on the history of the voltage; tests go through a single dip.", "anchors": ["src/applications/modules/dynamic_simulation_full_y/model_classes/reeca1.cpp: predictor, corrector, computeModel (Iqinj_sw)"]}
{"id": "C326", "title": "Control of the reactive power by the electrical controller", "statement": "An electrical controller with control of the reactive power changes the reactive current it asks for when the reactive power of the generator stays away from its reference.", "quantifier": "every history of the reactive power, every set of gains", "why_tests_cant": "That a controller never reacts is a statement about all histories.", "anchors": ["src/applications/modules/dynamic_simulation_full_y/model_classes/reeca1.cpp: computeModel (Q_PI_blk.getoutput), load"]}
{"id": "C327", "title": "Voltage dependent limits of the currents", "statement": "The real current that an electrical controller asks for is not larger than the value of the table for the real current at the measured voltage, and the reactive current not larger than the value of the table for the reactive current.", "quantifier": "every pair of tables, every voltage", "why_tests_cant": "With equal tables, as in the default values, an exchange of the tables cannot be seen.", "anchors": ["src/applications/modules/dynamic_simulation_full_y/model_classes/reeca1.cpp: load (VDL1, VDL2), CurrentLimitLogic"]}
{"id": "C328", "title": "Frozen integrator of a plant controller", "statement": "While the voltage is below the freezing voltage the integrator for the reactive power of a plant controller holds its value, and a plant at rest goes on to hand over the same reference of reactive power.", "quantifier": "every history with a low voltage, including one that starts in the first step", "why_tests_cant": "In the first step the result depends on memory that has not been set; a test sees what happens to be there.", "anchors": ["src/applications/modules/dynamic_simulation_full_y/model_classes/repca1.cpp: predictor, corrector, computeModel (Qref_PI_blk.getoutput)", "src/applications/modules/dynamic_simulation_full_y/cblock.cpp: Cblock, getoutput, updatestate"]}
