{
 "claims": [
  {
   "property": "C01",
   "status": "proved",
   "theorems": [
    "GridPACK.TaskManager.C01_each_task_exactly_once"
   ],
   "note": "All interleavings of nextTask; 32-bit counter modelled, at most 2^31 calls between two set() calls."
  },
  {
   "property": "C02",
   "status": "partial",
   "theorems": [
    "GridPACK.TaskManager.C02_cancel_stops_distribution_partial",
    "GridPACK.TaskManager.C02_cancel_violated_by_overflow"
   ],
   "note": "Holds while requests + n*cancels < 2^31; beyond that the 32-bit counter wraps and the claim is false (witness proved)."
  },
  {
   "property": "C03",
   "status": "proved",
   "theorems": [
    "GridPACK.TaskManager.C03_group_requests_agree_and_are_disjoint",
    "GridPACK.TaskManager.C03_no_task_shared"
   ],
   "note": "Mixed single and group requests, at most 2^31 requests."
  },
  {
   "property": "C04",
   "status": "partial",
   "theorems": [
    "GridPACK.DataCollection.C04_refines_abstract_store_partial"
   ],
   "note": "All histories; excluded: names containing ':' and indices longer than 7 characters (buffer overrun)."
  },
  {
   "property": "C05",
   "status": "partial",
   "theorems": [
    "GridPACK.DataCollection.C05_indexed_entries_distinct",
    "GridPACK.DataCollection.C05_types_do_not_interfere",
    "GridPACK.DataCollection.C05_long_index_is_undefined",
    "GridPACK.DataCollection.C05_plain_name_may_alias"
   ],
   "note": "Indexed/indexed and type separation proved for all inputs; plain name 'A:1' aliases ('A',1) (witness); indices over 7 characters overrun a buffer (exact range proved)."
  },
  {
   "property": "C06",
   "status": "proved",
   "theorems": [
    "GridPACK.DataCollection.C06_stored_values_are_read_back",
    "GridPACK.DataCollection.C06_stored_values_stay"
   ],
   "note": "All types, indexed or not, right after the call and after any later calls concerning other addresses."
  },
  {
   "property": "C07",
   "status": "proved",
   "theorems": [
    "GridPACK.Communicator.C07_divide_blocks",
    "GridPACK.Communicator.C07_divide_partition"
   ],
   "note": "All process counts and all nsize >= 1 (nsize = 0 is a division by zero)."
  },
  {
   "property": "C08",
   "status": "proved",
   "theorems": [
    "GridPACK.Shuffler.C08_shuffle_delivers",
    "GridPACK.Shuffler.C08_shuffle_conserves"
   ],
   "note": "Destinations must name existing processes (otherwise undefined behaviour, reported by the model)."
  },
  {
   "property": "C09",
   "status": "partial",
   "theorems": [
    "GridPACK.IndexHash.C09_lookup_exact_partial",
    "GridPACK.IndexHash.C09_lookup_exact_pairs_partial",
    "GridPACK.IndexHash.C09_no_request_unchanged",
    "GridPACK.IndexHash.C09_empty_add_keeps",
    "GridPACK.IndexHash.C09_violated"
   ],
   "note": "Proved for every interleaving of reservations and writes, relative to the last addPairs call that had data. The unrestricted claim is false: a later addPairs replaces the map, and stale values survive when nobody requests anything (witness)."
  },
  {
   "property": "C10",
   "status": "proved",
   "theorems": [
    "GridPACK.HashDistr.C10_distribute_exact"
   ],
   "note": "Buses and branches, any value type, any order of the writes."
  },
  {
   "property": "C11",
   "status": "proved",
   "theorems": [
    "GridPACK.HashDistr.C11_chunks_partition",
    "GridPACK.HashDistr.C11_every_chunk_visited_once"
   ],
   "note": "For every monotone rounding of the double arithmetic; exact arithmetic shown to be an instance (exactBound_ok)."
  },
  {
   "property": "C12",
   "status": "proved",
   "theorems": [
    "GridPACK.Partition.C12_partition_complete"
   ],
   "note": "Every graph, placement and node assignment; capacity = largest number of neighbours."
  },
  {
   "property": "C13",
   "status": "proved",
   "theorems": [
    "GridPACK.AdjacencyList.C13_adjacency_counts_edges",
    "GridPACK.AdjacencyList.C13_unknown_end_becomes_node_zero"
   ],
   "note": "Every edge end must be a node id (otherwise it silently becomes node 0, witness)."
  },
  {
   "property": "C14",
   "status": "proved",
   "theorems": [
    "GridPACK.GlobalIndices.C14_bus_numbering",
    "GridPACK.GlobalIndices.C14_branch_numbering",
    "GridPACK.GlobalIndices.C14_ghosts_only"
   ],
   "note": "Every distribution, incl. processes without components."
  },
  {
   "property": "C15",
   "status": "partial",
   "theorems": [
    "GridPACK.NetworkClean.C15_clean_partial",
    "GridPACK.NetworkClean.C15_reference_bus_violated",
    "GridPACK.NetworkClean.C15_ghost_reference_becomes_zero"
   ],
   "note": "Everything but the reference bus: when the reference bus was a ghost copy, the recorded index becomes local bus 0 (witness and general theorem)."
  },
  {
   "property": "C16",
   "status": "proved",
   "theorems": [
    "GridPACK.GhostUpdate.C16_update",
    "GridPACK.GhostUpdate.C16_reset_then_update"
   ],
   "note": "Every distribution whose owned copies carry distinct global indices."
  },
  {
   "property": "C17",
   "status": "partial",
   "theorems": [
    "GridPACK.ExchangeBuffers.C17_getters",
    "GridPACK.ExchangeBuffers.C17_setters",
    "GridPACK.ExchangeBuffers.C17_buffers_partial",
    "GridPACK.ExchangeBuffers.C17_boundary_violated"
   ],
   "note": "Ordinary accessors: full. Exchange buffer getter: every index except index = count, which is accepted and read past the end (violated for every network size)."
  },
  {
   "property": "C18",
   "status": "proved",
   "theorems": [
    "GridPACK.NetworkLookup.C18_bus_lookup",
    "GridPACK.NetworkLookup.C18_branch_lookup",
    "GridPACK.NetworkLookup.C18_opposite_orientation_hidden",
    "GridPACK.NetworkLookup.C18_stale_map",
    "GridPACK.NetworkLookup.C18_stale_branch_map"
   ],
   "note": "For the state after setMap(); additional theorems show that the maps go stale and that mixed orientations hide branches."
  },
  {
   "property": "C19",
   "status": "proved",
   "theorems": [
    "GridPACK.GhostUpdate.C19_bus_numbering",
    "GridPACK.GhostUpdate.C19_branch_indices"
   ],
   "note": ""
  },
  {
   "property": "C20",
   "status": "proved",
   "theorems": [
    "GridPACK.GhostUpdate.C20_checkTrue",
    "GridPACK.GhostUpdate.C20_checkTrueSomewhere"
   ],
   "note": ""
  },
  {
   "property": "C21",
   "status": "proved",
   "theorems": [
    "GridPACK.BusVectorMap.C21_vector_is_concatenation",
    "GridPACK.BusVectorMap.C21_mapToBus_uses_every_entry_once",
    "GridPACK.BusVectorMap.C21_round_trip",
    "GridPACK.BusVectorMap.C21_local_offset"
   ],
   "note": ""
  },
  {
   "property": "C22",
   "status": "partial",
   "theorems": [
    "GridPACK.FullMatrixMap.C22_offsets",
    "GridPACK.FullMatrixMap.C22_sizes",
    "GridPACK.FullMatrixMap.C22_set_mode_partial",
    "GridPACK.FullMatrixMap.C22_add_mode_partial",
    "GridPACK.FullMatrixMap.C22_blocks_cover",
    "GridPACK.FullMatrixMap.C22_work_array_large_enough",
    "GridPACK.FullMatrixMap.C22_process_without_bus_violated"
   ],
   "note": "Needs every process to own at least one bus (the witness shows a non-positive array length otherwise); in set mode the result is determined when all components supplying a block agree."
  },
  {
   "property": "C23",
   "status": "partial",
   "theorems": [
    "GridPACK.GenMap.C23_indices_bijection_partial",
    "GridPACK.GenMap.C23_ghost_copies_agree",
    "GridPACK.GenMap.C23_self_loop_violated"
   ],
   "note": "Every distribution, size function and scatter order, for networks without a branch joining a bus to itself; the witness shows that such a branch is numbered twice."
  },
  {
   "property": "C24",
   "status": "proved",
   "theorems": [
    "GridPACK.SerialIO.C24_strings_complete_and_ordered",
    "GridPACK.SerialIO.C24_write_stream",
    "GridPACK.SerialIO.C24_distribution_independent",
    "GridPACK.SerialIO.C24_gatherData",
    "GridPACK.SerialIO.C24_full_slot_runs_on"
   ],
   "note": "For strings that fit their slot with the terminator; C24_full_slot_runs_on shows that this limit is sharp."
  },
  {
   "property": "C25",
   "status": "partial",
   "theorems": [
    "GridPACK.StringUtils.C25_trim_partial",
    "GridPACK.StringUtils.C25_trim_plain_partial",
    "GridPACK.StringUtils.C25_idempotent",
    "GridPACK.StringUtils.C25_inner_tab_violated"
   ],
   "note": "trim also changes tabs and line ends inside the string into blanks, so the result is a contiguous piece only up to that change."
  },
  {
   "property": "C26",
   "status": "partial",
   "theorems": [
    "GridPACK.StringUtils.C26_every_string_has_tokens",
    "GridPACK.StringUtils.C26_charTokenizer_partial",
    "GridPACK.StringUtils.C26_throws_violated"
   ],
   "note": "Exact characterisation: correct on every string with a token and at most one separator at the end, throws on every other string."
  },
  {
   "property": "C27",
   "status": "partial",
   "theorems": [
    "GridPACK.StringUtils.C27_blankTokenizer_partial",
    "GridPACK.StringUtils.C27_blank_line_violated",
    "GridPACK.StringUtils.C27_malformed_violated"
   ],
   "note": "Correct for every well-formed string with at least one token; every blank string reads outside the string."
  },
  {
   "property": "C28",
   "status": "partial",
   "theorems": [
    "GridPACK.StringUtils.C28_clean2Char_partial",
    "GridPACK.StringUtils.C28_idempotent",
    "GridPACK.StringUtils.C28_carriage_return_one_char",
    "GridPACK.StringUtils.C28_violated"
   ],
   "note": "Any number of blanks and either kind of quote; fails for tab padding and for a carriage return after two characters."
  },
  {
   "property": "C29",
   "status": "partial",
   "theorems": [
    "GridPACK.BlockParser.C29_exact",
    "GridPACK.BlockParser.C29_test_end_partial",
    "GridPACK.BlockParser.C29_violated"
   ],
   "note": "Exact characterisation of the code, agreement with the claim outside the two families of lines shown as violations."
  },
  {
   "property": "C30",
   "status": "partial",
   "theorems": [
    "GridPACK.BlockParser.C30_check_string_partial",
    "GridPACK.BlockParser.C30_one_character_violated",
    "GridPACK.BlockParser.C30_blank_name_violated"
   ],
   "note": "Names of two or more characters that are not all blank; every one-character name is lost."
  },
  {
   "property": "C31",
   "status": "partial",
   "theorems": [
    "GridPACK.BlockParser.C31_no_quotes_partial",
    "GridPACK.BlockParser.C31_one_section_partial",
    "GridPACK.BlockParser.C31_comment_kept_violated",
    "GridPACK.BlockParser.C31_two_sections_violated"
   ],
   "note": "Lines with at most one quoted section, unless a slash occurs both inside the section and after it."
  },
  {
   "property": "C32",
   "status": "partial",
   "theorems": [
    "GridPACK.StatBlock.C32_exact",
    "GridPACK.StatBlock.C32_min_max_partial",
    "GridPACK.StatBlock.C32_masked_base_violated"
   ],
   "note": "Rows whose column 0 is unmasked; a masked column 0 takes part in the extremes."
  },
  {
   "property": "C33",
   "status": "proved",
   "theorems": [
    "GridPACK.StatBlock.C33_mean_and_deviation",
    "GridPACK.StatBlock.C33_no_entries",
    "GridPACK.StatBlock.C33_deviation_from_base"
   ],
   "note": "Doubles are modelled as real numbers."
  },
  {
   "property": "C34",
   "status": "partial",
   "theorems": [
    "GridPACK.Cblock.C34_after_call",
    "GridPACK.Cblock.C34_limits",
    "GridPACK.Cblock.C34_rate",
    "GridPACK.Cblock.C34_rate_arguments_ignored_violated",
    "GridPACK.Cblock.C34_init_violated"
   ],
   "note": "Limits hold along every history that starts inside them and after every updating call; the initialisation functions ignore the limits, and updatestate ignores the rate limits passed to it."
  },
  {
   "property": "C35",
   "status": "partial",
   "theorems": [
    "GridPACK.Cblock.C35_equilibrium_is_kept",
    "GridPACK.Cblock.C35_init_given_u_partial",
    "GridPACK.Cblock.C35_init_given_y_partial",
    "GridPACK.Cblock.C35_steady_state_partial",
    "GridPACK.Cblock.C35_out_of_limits_violated",
    "GridPACK.Cblock.C35_small_gain_violated",
    "GridPACK.Cblock.C35_integrator_violated"
   ],
   "note": "Needs the initial state and output inside the limits and coefficients above the 1e-10 threshold (or exactly zero)."
  },
  {
   "property": "C36",
   "status": "partial",
   "theorems": [
    "GridPACK.Configuration.C36_scalar",
    "GridPACK.Configuration.C36_string_partial",
    "GridPACK.Configuration.C36_string_violated",
    "GridPACK.Configuration.C36_vector_partial",
    "GridPACK.Configuration.C36_vector_violated"
   ],
   "note": "Holds for bool, int and double; a string output is trimmed even when the key is missing; vectors are appended to."
  },
  {
   "property": "C37",
   "status": "proved",
   "theorems": [
    "GridPACK.CoarseTimer.C37_handles",
    "GridPACK.CoarseTimer.C37_independent",
    "GridPACK.CoarseTimer.C37_accumulates",
    "GridPACK.CoarseTimer.C37_counts"
   ],
   "note": ""
  },
  {
   "property": "C38",
   "status": "partial",
   "theorems": [
    "GridPACK.CoarseTimer.C38_exact",
    "GridPACK.CoarseTimer.C38_dump_partial",
    "GridPACK.CoarseTimer.C38_violated"
   ],
   "note": "Exact condition proved; fails whenever the numbers of categories differ and a process other than 0 has one."
  },
  {
   "property": "C39",
   "status": "partial",
   "theorems": [
    "GridPACK.InputStream.C39_every_file",
    "GridPACK.InputStream.C39_exact",
    "GridPACK.InputStream.C39_file_partial",
    "GridPACK.InputStream.C39_last_line_lost_violated",
    "GridPACK.InputStream.C39_end_is_stable",
    "GridPACK.InputStream.C39_vector_violated",
    "GridPACK.InputStream.C39_vector_open",
    "GridPACK.InputStream.C39_vector_lines_partial"
   ],
   "note": "Files whose last line ends with a newline; an unterminated last line is always lost, and a string vector source uses an iterator that is never set."
  },
  {
   "property": "C40",
   "status": "partial",
   "theorems": [
    "GridPACK.ValueTransfer.C40_complex_round_trip",
    "GridPACK.ValueTransfer.C40_real_round_trip_partial",
    "GridPACK.ValueTransfer.C40_odd_violated",
    "GridPACK.ValueTransfer.C40_real_on_complex_library",
    "GridPACK.ValueTransfer.C40_matrix_round_trip"
   ],
   "note": "Complex to real and back always holds; an odd number of reals is read and written past the end."
  },
  {
   "property": "C41",
   "status": "proved",
   "theorems": [
    "GridPACK.DAEEvent.C41_arrays",
    "GridPACK.DAEEvent.C41_dispatch"
   ],
   "note": "For sources whose flag lists have the declared size."
  },
  {
   "property": "C42",
   "status": "proved",
   "theorems": [
    "GridPACK.NewtonRaphson.C42_newton",
    "GridPACK.NewtonRaphson.C42_first",
    "GridPACK.NewtonRaphson.C42_no_convergence_report_violated"
   ],
   "note": "Tolerance below 1e30. The last theorem records that a caller cannot see which of the two cases occurred. The function tolerance is never tested by the code."
  },
  {
   "property": "C43",
   "status": "proved",
   "theorems": [
    "GridPACK.YMatrix.C43_symmetric",
    "GridPACK.YMatrix.C43_conjugate"
   ],
   "note": "Real arithmetic. The conjugate part is stated by reversing all phase shifts."
  },
  {
   "property": "C44",
   "status": "partial",
   "theorems": [
    "GridPACK.YMatrix.C44_row_sum_partial",
    "GridPACK.YMatrix.C44_kirchhoff_partial",
    "GridPACK.YMatrix.C44_isolated_neighbour_violated",
    "GridPACK.YMatrix.C44_set_status_violated",
    "GridPACK.YMatrix.C44_load_status_violated"
   ],
   "note": "Holds when no neighbour is isolated and the branch's active flag agrees with the statuses; fails next to an isolated bus and after setLineStatus on a branch that was out of service."
  },
  {
   "property": "C45",
   "status": "partial",
   "theorems": [
    "GridPACK.YMatrix.C45_line_elements_partial",
    "GridPACK.YMatrix.C45_same_tag_violated"
   ],
   "note": "Needs different tags, nonzero impedances and complete shunt data; end shunts are not part of the line elements."
  },
  {
   "property": "C46",
   "status": "partial",
   "theorems": [
    "GridPACK.PowerFlow.C46_jacobian_partial",
    "GridPACK.PowerFlow.C46_inactive_violated",
    "GridPACK.PowerFlow.C46_two_branches_violated"
   ],
   "note": "Needs no self-loops, at most one branch object per bus pair, activity flags agreeing with the admittances and nonzero voltage."
  },
  {
   "property": "C47",
   "status": "partial",
   "theorems": [
    "GridPACK.QLimit.C47_exact",
    "GridPACK.QLimit.C47_one_load_partial",
    "GridPACK.QLimit.C47_violated",
    "GridPACK.QLimit.C47_no_buffer_violated"
   ],
   "note": "Holds with exactly one load in service; with m loads the injection is multiplied by m."
  },
  {
   "property": "C48",
   "status": "partial",
   "theorems": [
    "GridPACK.QLimit.C48_converted_partial",
    "GridPACK.QLimit.C48_loads_violated",
    "GridPACK.QLimit.C48_not_converted_violated",
    "GridPACK.QLimit.C48_load_bus_violated",
    "GridPACK.QLimit.C48_second_time_violated"
   ],
   "note": "Holds for generator status and type of a bus converted once since loading."
  },
  {
   "property": "C49",
   "status": "partial",
   "theorems": [
    "GridPACK.Contingency.C49_round_trip_partial",
    "GridPACK.Contingency.C49_twice_violated",
    "GridPACK.Contingency.C49_two_branches_violated",
    "GridPACK.Contingency.C49_out_of_service_violated"
   ],
   "note": "Needs elements named once, agreeing statuses of all local branches between the two buses, and elements as loaded."
  },
  {
   "property": "C50",
   "status": "partial",
   "theorems": [
    "GridPACK.FactoryChecks.C50_marks_partial",
    "GridPACK.FactoryChecks.C50_result_exact",
    "GridPACK.FactoryChecks.C50_no_lone_bus_violated",
    "GridPACK.FactoryChecks.C50_lone_bus_violated"
   ],
   "note": "The marking holds; the returned value is the opposite, and true only if every process has a lone bus."
  },
  {
   "property": "C51",
   "status": "partial",
   "theorems": [
    "GridPACK.FactoryChecks.C51_check_partial",
    "GridPACK.FactoryChecks.C51_area_check_partial",
    "GridPACK.FactoryChecks.C51_clear_partial",
    "GridPACK.FactoryChecks.C51_ignore_exact",
    "GridPACK.FactoryChecks.C51_still_reported_violated",
    "GridPACK.FactoryChecks.C51_new_violation_violated"
   ],
   "note": "ignoreVoltageViolations ignores the buses within limits instead of those violating them."
  },
  {
   "property": "C52",
   "status": "proved",
   "theorems": [
    "GridPACK.AngleWrap.C52_normalised",
    "GridPACK.AngleWrap.C52_same_direction",
    "GridPACK.AngleWrap.C52_unchanged"
   ],
   "note": ""
  },
  {
   "property": "C53",
   "status": "proved",
   "theorems": [
    "GridPACK.TaskManager.C53_statistics_count_successes"
   ],
   "note": "All executions incl. cancels and counter overflow."
  },
  {
   "property": "C54",
   "status": "proved",
   "theorems": [
    "GridPACK.TaskLoop.C54_no_deadlock",
    "GridPACK.TaskLoop.C54_terminates",
    "GridPACK.TaskLoop.C54_all_tasks_executed_once"
   ],
   "note": "Transition system of any number of processes with the barrier."
  },
  {
   "property": "C55",
   "status": "proved",
   "theorems": [
    "GridPACK.DataCollection.C55_assignment_copies_everything"
   ],
   "note": "All collections, types, keys."
  },
  {
   "property": "C56",
   "status": "partial",
   "theorems": [
    "GridPACK.Partition.C56_no_duplicate_copies_iff_partial",
    "GridPACK.Partition.C56_duplicate_ghosts_violated"
   ],
   "note": "Exact characterisation proved: duplicates appear iff some bus has two branches into one other process, because std::unique is not followed by erase."
  },
  {
   "property": "C57",
   "status": "proved",
   "theorems": [
    "GridPACK.Partition.C57_local_ends_correct"
   ],
   "note": ""
  },
  {
   "property": "C58",
   "status": "partial",
   "theorems": [
    "GridPACK.GhostUpdate.C58_matching_collectives_iff_partial",
    "GridPACK.GhostUpdate.C58_violated"
   ],
   "note": "Exact condition proved: the calls match iff all processes hold a bus (branch) or none does, or the exchange size is zero."
  },
  {
   "property": "C59",
   "status": "partial",
   "theorems": [
    "GridPACK.ExchangeBuffers.C59_disciplined_histories_are_safe_partial",
    "GridPACK.ExchangeBuffers.C59_paired_histories_leak_nothing_partial",
    "GridPACK.ExchangeBuffers.C59_violated"
   ],
   "note": "Safe for all histories that follow four stated rules; four witnesses show each rule is needed (dangling pointer after free, adding between alloc and free, read before alloc, leak on second branch allocation)."
  },
  {
   "property": "C60",
   "status": "partial",
   "theorems": [
    "GridPACK.GenMap.C60_entered_by_row_owner_partial",
    "GridPACK.GenMap.C60_remote_row_lost_violated"
   ],
   "note": "Holds for columns outside the branch's own index range; inside it, elements whose row belongs to a process where the branch is a ghost are entered by nobody."
  },
  {
   "property": "C61",
   "status": "partial",
   "theorems": [
    "GridPACK.StringUtils.C61_trimQuotes_quoted_partial",
    "GridPACK.StringUtils.C61_trimQuotes_plain_partial",
    "GridPACK.StringUtils.C61_violated"
   ],
   "note": "Texts containing the other kind of quote and empty texts fail."
  },
  {
   "property": "C62",
   "status": "proved",
   "theorems": [
    "GridPACK.StringUtils.C62_getBool"
   ],
   "note": ""
  },
  {
   "property": "C63",
   "status": "partial",
   "theorems": [
    "GridPACK.BlockParser.C63_splitPSSELine_partial",
    "GridPACK.BlockParser.C63_violated"
   ],
   "note": "Commas inside quotes split the field; a tab-only field reads outside the string."
  },
  {
   "property": "C64",
   "status": "proved",
   "theorems": [
    "GridPACK.BlockParser.C64_parseBusName",
    "GridPACK.BlockParser.C64_short_name"
   ],
   "note": "The conversion of the voltage text to a number (atof) is not modelled."
  },
  {
   "property": "C65",
   "status": "partial",
   "theorems": [
    "GridPACK.BlockParser.C65_block_partial",
    "GridPACK.BlockParser.C65_truncated_input_violated"
   ],
   "note": "Files that contain the terminating line; on every file without it the loop never stops."
  },
  {
   "property": "C66",
   "status": "partial",
   "theorems": [
    "GridPACK.StatBlock.C66_column_sum_partial",
    "GridPACK.StatBlock.C66_masked_average_violated"
   ],
   "note": "The sum is right; the average divides by the number of all rows."
  },
  {
   "property": "C67",
   "status": "proved",
   "theorems": [
    "GridPACK.StatBlock.C67_blocks_cover",
    "GridPACK.StatBlock.C67_mask_count"
   ],
   "note": ""
  },
  {
   "property": "C68",
   "status": "proved",
   "theorems": [
    "GridPACK.Cblock.C68_unlimited_step",
    "GridPACK.Cblock.C68_no_overshoot",
    "GridPACK.Cblock.C68_no_overshoot_run"
   ],
   "note": "Real arithmetic."
  },
  {
   "property": "C69",
   "status": "proved",
   "theorems": [
    "GridPACK.Cblock.C69_filter",
    "GridPACK.Cblock.C69_leadLag",
    "GridPACK.Cblock.C69_pi_integrator",
    "GridPACK.Cblock.C69_outputs_in_a_step",
    "GridPACK.Cblock.C69_filter_init",
    "GridPACK.Cblock.C69_default_limits",
    "GridPACK.Cblock.C69_output_only"
   ],
   "note": "Real arithmetic."
  },
  {
   "property": "C70",
   "status": "partial",
   "theorems": [
    "GridPACK.Dblock.C70_value_limits",
    "GridPACK.Dblock.C70_plain_output",
    "GridPACK.Dblock.C70_rate_partial",
    "GridPACK.Dblock.C70_previous",
    "GridPACK.Dblock.C70_marker_violated"
   ],
   "note": "The rate limit is lost when the previous output equals the marker value 100000."
  },
  {
   "property": "C71",
   "status": "partial",
   "theorems": [
    "GridPACK.Dblock.C71_interpolates_partial",
    "GridPACK.Dblock.C71_ends_partial",
    "GridPACK.Dblock.C71_inverse_partial",
    "GridPACK.Dblock.C71_decreasing_violated",
    "GridPACK.Dblock.C71_segment_count_violated",
    "GridPACK.Dblock.C71_decreasing_ends_partial"
   ],
   "note": "Holds for increasing points; for decreasing points an unassigned variable is returned. Array bounds (5 points) are not modelled."
  },
  {
   "property": "C72",
   "status": "proved",
   "theorems": [
    "GridPACK.Dblock.C72_deadband",
    "GridPACK.Dblock.C72_gates"
   ],
   "note": ""
  },
  {
   "property": "C73",
   "status": "proved",
   "theorems": [
    "GridPACK.Configuration.C73_cursor",
    "GridPACK.Configuration.C73_value"
   ],
   "note": ""
  },
  {
   "property": "C74",
   "status": "partial",
   "theorems": [
    "GridPACK.Configuration.C74_two_files_partial",
    "GridPACK.Configuration.C74_second_file_hidden_violated"
   ],
   "note": "Keys of the second file are hidden when both files have the same top element."
  },
  {
   "property": "C75",
   "status": "partial",
   "theorems": [
    "GridPACK.Configuration.C75_open_partial",
    "GridPACK.Configuration.C75_empty_vector_violated"
   ],
   "note": "Fails for an empty vector of strings: all processes except 0 stop in an assertion."
  },
  {
   "property": "C76",
   "status": "partial",
   "theorems": [
    "GridPACK.CoarseTimer.C76_stats",
    "GridPACK.CoarseTimer.C76_titles_partial",
    "GridPACK.CoarseTimer.C76_order_violated"
   ],
   "note": "Statistics are right; categories are matched by position, so titles must be created in the same order on all processes."
  },
  {
   "property": "C77",
   "status": "proved",
   "theorems": [
    "GridPACK.ValueTransfer.C77_vector",
    "GridPACK.ValueTransfer.C77_matrix",
    "GridPACK.ValueTransfer.C77_product"
   ],
   "note": "Exact real arithmetic; VecSetValues/MatSetValues are modelled by their documented effect."
  },
  {
   "property": "C78",
   "status": "partial",
   "theorems": [
    "GridPACK.DAEEvent.C78_exact",
    "GridPACK.DAEEvent.C78_terminates_partial",
    "GridPACK.DAEEvent.C78_violated"
   ],
   "note": "Only the first triggered event of each source is looked at."
  },
  {
   "property": "C79",
   "status": "proved",
   "theorems": [
    "GridPACK.NewtonRaphson.C79_linear"
   ],
   "note": ""
  },
  {
   "property": "C80",
   "status": "partial",
   "theorems": [
    "GridPACK.YMatrix.C80_offdiag",
    "GridPACK.YMatrix.C80_diag_partial",
    "GridPACK.YMatrix.C80_set_line_status",
    "GridPACK.YMatrix.C80_incomplete_shunt_violated"
   ],
   "note": "Off-diagonal entries always; the diagonal loses the charging of a line with incomplete shunt data."
  },
  {
   "property": "C81",
   "status": "partial",
   "theorems": [
    "GridPACK.YMatrix.C81_direction_partial",
    "GridPACK.YMatrix.C81_end_shunt_violated"
   ],
   "note": "All entries except the end shunts."
  },
  {
   "property": "C82",
   "status": "proved",
   "theorems": [
    "GridPACK.PowerFlow.C82_power_balance"
   ],
   "note": ""
  },
  {
   "property": "C83",
   "status": "proved",
   "theorems": [
    "GridPACK.PowerFlow.C83_block_sizes"
   ],
   "note": ""
  },
  {
   "property": "C84",
   "status": "partial",
   "theorems": [
    "GridPACK.PowerFlow.C84_corrections_partial",
    "GridPACK.PowerFlow.C84_converted_bus_violated"
   ],
   "note": "Fails when the reactive-limit check converts a bus before the last correction is pushed to the buses."
  },
  {
   "property": "C85",
   "status": "partial",
   "theorems": [
    "GridPACK.QLimit.C85_bus",
    "GridPACK.QLimit.C85_network",
    "GridPACK.QLimit.C85_area_violated"
   ],
   "note": "The version for an area returns the opposite."
  },
  {
   "property": "C86",
   "status": "proved",
   "theorems": [
    "GridPACK.FactoryChecks.C86_clear_restores"
   ],
   "note": ""
  },
  {
   "property": "C87",
   "status": "proved",
   "theorems": [
    "GridPACK.FactoryChecks.C87_check"
   ],
   "note": "For branches whose lines have different tags."
  },
  {
   "property": "C88",
   "status": "partial",
   "theorems": [
    "GridPACK.FactoryChecks.C88_ignore_partial",
    "GridPACK.FactoryChecks.C88_rate_b_violated",
    "GridPACK.FactoryChecks.C88_no_rate_a_violated"
   ],
   "note": "Holds for rating A; with rating B selected the wrong lines are ignored."
  },
  {
   "property": "C89",
   "status": "partial",
   "theorems": [
    "GridPACK.FactoryChecks.C89_partial",
    "GridPACK.FactoryChecks.C89_out_of_range_violated",
    "GridPACK.FactoryChecks.C89_wrong_line_violated",
    "GridPACK.FactoryChecks.C89_rate_b_partial",
    "GridPACK.FactoryChecks.C89_rate_b_violated"
   ],
   "note": "The tag is looked up by the position of the line in its branch instead of by the request, and rating A is used also if rating B is selected."
  },
  {
   "property": "C90",
   "status": "proved",
   "theorems": [
    "GridPACK.Contingency.C90_effect",
    "GridPACK.Contingency.C90_returned"
   ],
   "note": "On one process; the status of an element is that of the first with its tag."
  },
  {
   "property": "C91",
   "status": "partial",
   "theorems": [
    "GridPACK.PFSolve.C91_true_means_converged",
    "GridPACK.PFSolve.C91_last_iteration_violated",
    "GridPACK.PFSolve.C91_sticky_violated"
   ],
   "note": "True implies convergence; false is also returned when the last allowed iteration converges or an earlier pass did not."
  },
  {
   "property": "C92",
   "status": "proved",
   "theorems": [
    "GridPACK.PFSolve.C92_terminates",
    "GridPACK.PFSolve.C92_conversion_lowers"
   ],
   "note": "The linear solver, an external library, is assumed to return or throw."
  },
  {
   "property": "C93",
   "status": "partial",
   "theorems": [
    "GridPACK.GlobalStore.C93_stored_partial",
    "GridPACK.GlobalStore.C93_duplicates",
    "GridPACK.GlobalStore.C93_out_of_range",
    "GridPACK.GlobalStore.C93_empty_vector_violated",
    "GridPACK.GlobalStore.C93_gap_violated",
    "GridPACK.GlobalStore.C93_second_upload_violated"
   ],
   "note": "Holds for vectors that are not empty in one upload; empty vectors and unused indices pass an empty range to the global array, and a second upload forgets the first."
  },
  {
   "property": "C94",
   "status": "partial",
   "theorems": [
    "GridPACK.GlobalVector.C94_exact",
    "GridPACK.GlobalVector.C94_getData",
    "GridPACK.GlobalVector.C94_stored_partial",
    "GridPACK.GlobalVector.C94_lost_violated"
   ],
   "note": "Missing synchronisation: holds for elements added on the process holding them and for executions in which clearing comes before writing; for every other element there is an execution that loses it."
  },
  {
   "property": "C95",
   "status": "partial",
   "theorems": [
    "GridPACK.GlobalVector.C95_no_false_alarm",
    "GridPACK.GlobalVector.C95_detected_partial",
    "GridPACK.GlobalVector.C95_missed_violated",
    "GridPACK.GlobalVector.C95_only_holder_violated"
   ],
   "note": "No false alarm; a repeated index can be missed and is noticed by its holder only."
  },
  {
   "property": "C96",
   "status": "partial",
   "theorems": [
    "GridPACK.GlobalVector.C96_reload_partial",
    "GridPACK.GlobalVector.C96_negative_violated"
   ],
   "note": "Negative indices are not rejected."
  },
  {
   "property": "C97",
   "status": "proved",
   "theorems": [
    "GridPACK.GaShuffler.C97_same_as_messages"
   ],
   "note": "Serialisation is a parameter with the property that it can be read back."
  },
  {
   "property": "C98",
   "status": "partial",
   "theorems": [
    "GridPACK.Relay.C98_trips_partial",
    "GridPACK.Relay.C98_every_trip_partial",
    "GridPACK.Relay.C98_previous",
    "GridPACK.Relay.C98_no_pickup_time_violated"
   ],
   "note": "Needs a positive pick-up time; with pick-up time zero (the default) the relay trips at any voltage."
  },
  {
   "property": "C99",
   "status": "partial",
   "theorems": [
    "GridPACK.Relay.C99_trips_partial",
    "GridPACK.Relay.C99_every_trip_partial",
    "GridPACK.Relay.C99_previous",
    "GridPACK.Relay.C99_no_pickup_time_violated"
   ],
   "note": "Needs a positive pick-up time; with pick-up time zero (the default) the relay trips at any frequency."
  },
  {
   "property": "C100",
   "status": "partial",
   "theorems": [
    "GridPACK.Relay.C100_no_missed_trip",
    "GridPACK.Relay.C100_trips_partial",
    "GridPACK.Relay.C100_every_trip_partial",
    "GridPACK.Relay.C100_previous",
    "GridPACK.Relay.C100_intermittent_violated"
   ],
   "note": "No trip is missed; false trips occur when the impedance jumps from zone 1 out of zone 2, because the zone 1 timer is not reset."
  },
  {
   "property": "C101",
   "status": "partial",
   "theorems": [
    "GridPACK.RelayUpdate.C101_buses_partial",
    "GridPACK.RelayUpdate.C101_skipped_violated",
    "GridPACK.RelayUpdate.C101_branches_partial",
    "GridPACK.RelayUpdate.C101_branches_skipped_violated"
   ],
   "note": "Buses and branches after the first one that trips are skipped in that step."
  },
  {
   "property": "C102",
   "status": "partial",
   "theorems": [
    "GridPACK.RelayUpdate.C102_admittance_partial",
    "GridPACK.RelayUpdate.C102_shed_once",
    "GridPACK.RelayUpdate.C102_generators",
    "GridPACK.RelayUpdate.C102_two_relays_violated"
   ],
   "note": "Holds for load relays and generators with one relay; a generator with two relays can be removed twice."
  },
  {
   "property": "C103",
   "status": "partial",
   "theorems": [
    "GridPACK.RelayUpdate.C103_one_branch_partial",
    "GridPACK.RelayUpdate.C103_none",
    "GridPACK.RelayUpdate.C103_stale_violated",
    "GridPACK.RelayUpdate.C103_two_relays_violated",
    "GridPACK.RelayUpdate.C103_tripped_again_violated"
   ],
   "note": "Holds for one relay per circuit and one tripping branch after a step without trips."
  },
  {
   "property": "C104",
   "status": "partial",
   "theorems": [
    "GridPACK.RelayUpdate.C104_bus",
    "GridPACK.RelayUpdate.C104_branch_violated"
   ],
   "note": "Holds for bus relays; the answer about line relays is local to each process."
  },
  {
   "property": "C105",
   "status": "partial",
   "theorems": [
    "GridPACK.DsEvents.C105_matrix_partial",
    "GridPACK.DsEvents.C105_simulation_partial",
    "GridPACK.DsEvents.C105_overlap_violated",
    "GridPACK.DsEvents.C105_inactive_violated"
   ],
   "note": "On one process. Needs faults that do not overlap and branches with a circuit in service when loaded."
  },
  {
   "property": "C106",
   "status": "partial",
   "theorems": [
    "GridPACK.DsEvents.C106_faults_partial",
    "GridPACK.DsEvents.C106_never_ends_violated"
   ],
   "note": "Needs faults on the time grid that do not overlap or meet (see C105_overlap_violated)."
  },
  {
   "property": "C107",
   "status": "partial",
   "theorems": [
    "GridPACK.DsEvents.C107_line_partial",
    "GridPACK.DsEvents.C107_gen_partial",
    "GridPACK.DsEvents.C107_fault_partial",
    "GridPACK.DsEvents.C107_off_grid_violated"
   ],
   "note": "Events between time steps are ignored."
  },
  {
   "property": "C108",
   "status": "partial",
   "theorems": [
    "GridPACK.DsEvents.C108_line_partial",
    "GridPACK.DsEvents.C108_generator_partial",
    "GridPACK.DsEvents.C108_no_branch_violated",
    "GridPACK.DsEvents.C108_no_generator_violated"
   ],
   "note": "Events naming elements that do not exist (on the process) have undefined behaviour."
  },
  {
   "property": "C109",
   "status": "partial",
   "theorems": [
    "GridPACK.DsEvents.C109_run_partial",
    "GridPACK.DsEvents.C109_endless_violated"
   ],
   "note": "Endless unless the end time is a multiple of the time step within 1e-6."
  },
  {
   "property": "C110",
   "status": "partial",
   "theorems": [
    "GridPACK.DsEvents.C110_relay_partial",
    "GridPACK.DsEvents.C110_forgets_violated",
    "GridPACK.DsEvents.C110_twice_violated"
   ],
   "note": "Bus relays overwrite the diagonal with a stored value that does not follow events; line relays and events keep separate statuses."
  },
  {
   "property": "C111",
   "status": "proved",
   "theorems": [
    "GridPACK.DsEvents.C111_diagonal"
   ],
   "note": "For generators with dynamic models."
  },
  {
   "property": "C112",
   "status": "partial",
   "theorems": [
    "GridPACK.Governors.C112_tgov1_partial",
    "GridPACK.Governors.C112_gast_partial",
    "GridPACK.Governors.C112_hygov_partial",
    "GridPACK.Governors.C112_wsieg1_partial",
    "GridPACK.Governors.C112_gast_violated",
    "GridPACK.Governors.C112_wsieg1_limits_violated",
    "GridPACK.Governors.C112_wsieg1_second_violated"
   ],
   "note": "Fails for GAST without temperature limit data, for WSIEG1 started above Pmax and for WSIEG1 with second-generator gains only."
  },
  {
   "property": "C113",
   "status": "partial",
   "theorems": [
    "GridPACK.Governors.C113_tgov1_partial",
    "GridPACK.Governors.C113_lead_violated"
   ],
   "note": "Needs T2 <= T3, time steps up to T3 and values within the built-in limits of the blocks; false for T2 > T3."
  },
  {
   "property": "C114",
   "status": "partial",
   "theorems": [
    "GridPACK.Governors.C114_tgov1_droop_partial"
   ],
   "note": "Constant time steps not above T1 and T3, values within the built-in limits of the blocks."
  },
  {
   "property": "C115",
   "status": "partial",
   "theorems": [
    "GridPACK.Governors.C115_tgov1_partial",
    "GridPACK.Governors.C115_gast_violated",
    "GridPACK.Governors.C115_hygov_violated"
   ],
   "note": "GAST and HYGOV ignore the speed."
  },
  {
   "property": "C116",
   "status": "partial",
   "theorems": [
    "GridPACK.Governors.C116_hygov_violated",
    "GridPACK.Governors.C116_wsieg1_violated"
   ],
   "note": "HYGOV never uses the limit; WSIEG1 replaces it during initialisation."
  },
  {
   "property": "C117",
   "status": "partial",
   "theorems": [
    "GridPACK.Governors.C117_hygov_partial",
    "GridPACK.Governors.C117_hygov_violated"
   ],
   "note": "A missing r overwrites R and leaves r uninitialised."
  },
  {
   "property": "C118",
   "status": "partial",
   "theorems": [
    "GridPACK.Governors.C118_wsieg1_violated"
   ],
   "note": "The parameter has no effect."
  },
  {
   "property": "C119",
   "status": "partial",
   "theorems": [
    "GridPACK.Exciters.C119_sexs_partial",
    "GridPACK.Exciters.C119_exdc1_partial",
    "GridPACK.Exciters.C119_ieeet1_partial",
    "GridPACK.Exciters.C119_esst1a_partial",
    "GridPACK.Exciters.C119_sexs_violated",
    "GridPACK.Exciters.C119_exdc1_violated",
    "GridPACK.Exciters.C119_esst1a_ceiling_violated",
    "GridPACK.Exciters.C119_esst1a_lag_violated"
   ],
   "note": "Fails for SEXS without lag below EMIN K, EXDC1 with a stabiliser signal, ESST1A above Vrmax or without regulator lag; the built-in limits of the blocks appear as hypotheses."
  },
  {
   "property": "C120",
   "status": "partial",
   "theorems": [
    "GridPACK.Exciters.C120_sexs_partial",
    "GridPACK.Exciters.C120_esst1a"
   ],
   "note": "SEXS for limits within +-1000, the built-in limits of the blocks."
  },
  {
   "property": "C121",
   "status": "partial",
   "theorems": [
    "GridPACK.Exciters.C121_exdc1_violated",
    "GridPACK.Exciters.C121_exdc1_block_violated",
    "GridPACK.Exciters.C121_esst1a_violated"
   ],
   "note": "EXDC1 uses TA in place of TC; the second lead-lag block of ESST1A has no effect."
  },
  {
   "property": "C122",
   "status": "partial",
   "theorems": [
    "GridPACK.Exciters.C122_exdc1_partial",
    "GridPACK.Exciters.C122_ieeet1_partial",
    "GridPACK.Exciters.C122_reference_partial",
    "GridPACK.Exciters.C122_zero_violated"
   ],
   "note": "With SE1 = 0 the second point is ignored."
  },
  {
   "property": "C123",
   "status": "partial",
   "theorems": [
    "GridPACK.Exciters.C123_esst1a_violated"
   ],
   "note": "The stabiliser signal has no effect."
  },
  {
   "property": "C124",
   "status": "partial",
   "theorems": [
    "GridPACK.Exciters.C124_sexs_partial"
   ],
   "note": "With a lag TE, 0 <= TA/TB <= 1, constant time steps not above TB and TE, values within the built-in limits of the blocks."
  },
  {
   "property": "C125",
   "status": "partial",
   "theorems": [
    "GridPACK.StateEst.C125_bus_jacobian_partial"
   ],
   "note": "At most one branch between two buses, no self-loops; no isolated bus next to the measured one and only handled measurement types."
  },
  {
   "property": "C126",
   "status": "partial",
   "theorems": [
    "GridPACK.StateEst.C126_power_jacobian_partial",
    "GridPACK.StateEst.C126_current_jacobian_partial",
    "GridPACK.StateEst.C126_shunt_violated",
    "GridPACK.StateEst.C126_charging_violated"
   ],
   "note": "The rows of real power contain the shunt of the bus, which the flow does not; rows of current measurements are right only without tap and charging."
  },
  {
   "property": "C127",
   "status": "partial",
   "theorems": [
    "GridPACK.StateEst.C127_branch_residuals_partial",
    "GridPACK.StateEst.C127_out_of_service_violated",
    "GridPACK.StateEst.C127_switched_violated"
   ],
   "note": "Fails for lines out of service and switched transformers; |x| >= 1e-5."
  },
  {
   "property": "C128",
   "status": "partial",
   "theorems": [
    "GridPACK.StateEst.C128_bus_residuals_partial",
    "GridPACK.StateEst.C127_branch_residuals_partial",
    "GridPACK.StateEst.C128_unhandled_type_violated",
    "GridPACK.StateEst.C128_isolated_neighbour_violated",
    "GridPACK.StateEst.C128_current_to_end_violated",
    "GridPACK.StateEst.C128_unknown_line_violated"
   ],
   "note": "Unhandled types shift the residuals after them; next to isolated buses uninitialised values enter; a measurement of an unknown line is compared with the preceding flow."
  },
  {
   "property": "C129",
   "status": "partial",
   "theorems": [
    "GridPACK.StateEst.C129_bus_partial",
    "GridPACK.StateEst.C129_branch_partial",
    "GridPACK.StateEst.C129_isolated_bus_violated",
    "GridPACK.StateEst.C129_inactive_branch_violated"
   ],
   "note": "Isolated buses and branches out of service announce values they do not write."
  },
  {
   "property": "C130",
   "status": "partial",
   "theorems": [
    "GridPACK.StateEst.C130_order",
    "GridPACK.StateEst.C130_sizes_partial",
    "GridPACK.StateEst.C130_bus_columns_partial",
    "GridPACK.StateEst.C130_branch_columns",
    "GridPACK.StateEst.C130_unobserved_violated"
   ],
   "note": "A bus without measurement on it or next to it has no columns but takes elements of the solution."
  },
  {
   "property": "C131",
   "status": "partial",
   "theorems": [
    "GridPACK.StateEst.C131_gradient_partial",
    "GridPACK.StateEst.C131_fixed_point_partial",
    "GridPACK.StateEst.C131_descent_partial",
    "GridPACK.StateEst.C131_passes",
    "GridPACK.StateEst.C131_zero_tolerance_violated"
   ],
   "note": "For measurements whose Jacobian rows are right (C125, C126); with tolerance 0 no pass is made."
  },
  {
   "property": "C132",
   "status": "partial",
   "theorems": [
    "GridPACK.StateEst.C132_weight_partial",
    "GridPACK.StateEst.C132_exact_measurement_violated"
   ],
   "note": "An exact measurement (deviation 0) is ignored."
  },
  {
   "property": "C133",
   "status": "partial",
   "theorems": [
    "GridPACK.StateEst.C133_violated"
   ],
   "note": "No generator result is ever saved: the vector of lower limits stays empty and gives the number of generators."
  },
  {
   "property": "C134",
   "status": "partial",
   "theorems": [
    "GridPACK.PFBusData.C134_restored_partial",
    "GridPACK.PFBusData.C134_reload_violated",
    "GridPACK.PFBusData.C134_reactive_violated"
   ],
   "note": "Holds for real power of generators and loads of a bus loaded once; a second load restores the first generation, and reactive generation is not restored."
  },
  {
   "property": "C135",
   "status": "partial",
   "theorems": [
    "GridPACK.PFBusData.C135_within",
    "GridPACK.PFBusData.C135_direction",
    "GridPACK.PFBusData.C135_overscale_violated"
   ],
   "note": "Factors between -1 and 1 keep the limits; larger ones do not."
  },
  {
   "property": "C136",
   "status": "partial",
   "theorems": [
    "GridPACK.PFBusData.C136_generators_partial",
    "GridPACK.PFBusData.C136_loads_partial",
    "GridPACK.PFBusData.C136_total_partial",
    "GridPACK.PFBusData.C136_same_name_violated"
   ],
   "note": "Names must be different on one bus."
  },
  {
   "property": "C137",
   "status": "partial",
   "theorems": [
    "GridPACK.PFBusData.C137_balance_partial"
   ],
   "note": "One process, different names, a load at the destination, generation strictly between its limits."
  },
  {
   "property": "C138",
   "status": "partial",
   "theorems": [
    "GridPACK.PFBusData.C138_total_partial",
    "GridPACK.PFBusData.C138_ghost_load_violated",
    "GridPACK.PFBusData.C138_margin_violated"
   ],
   "note": "Copies of buses are counted again, and every process uses its own margins."
  },
  {
   "property": "C139",
   "status": "partial",
   "theorems": [
    "GridPACK.PFBusData.C139_shares",
    "GridPACK.PFBusData.C139_records",
    "GridPACK.PFBusData.C139_single",
    "GridPACK.PFBusData.C139_saved",
    "GridPACK.PFBusData.C139_empty_violated",
    "GridPACK.PFBusData.C139_outage_violated",
    "GridPACK.PFBusData.C139_offline_violated"
   ],
   "note": "Holds after loading; factors are not renormalised after an outage, and a single generator out of service gets everything."
  },
  {
   "property": "C140",
   "status": "partial",
   "theorems": [
    "GridPACK.PFBusData.C140_return_partial",
    "GridPACK.PFBusData.C140_switch_on_violated"
   ],
   "note": "A generator out of service in the data cannot be put into service."
  },
  {
   "property": "C141",
   "status": "partial",
   "theorems": [
    "GridPACK.PFBusData.C141_start",
    "GridPACK.PFBusData.C141_reset_partial",
    "GridPACK.PFBusData.C141_set_voltage_violated"
   ],
   "note": "The reset uses the voltage of the bus record, not the set voltage of the generator."
  },
  {
   "property": "C142",
   "status": "partial",
   "theorems": [
    "GridPACK.PFBusData.C142_reset_partial",
    "GridPACK.PFBusData.C142_twice_violated",
    "GridPACK.PFBusData.C142_status_violated"
   ],
   "note": "Holds for a single change of the flag."
  },
  {
   "property": "C143",
   "status": "partial",
   "theorems": [
    "GridPACK.PFBusData.C143_generator_partial",
    "GridPACK.PFBusData.C143_shifted_violated",
    "GridPACK.PFBusData.C143_load_violated"
   ],
   "note": "Incomplete generator records shift the numbering; loads with current or admittance parts change."
  },
  {
   "property": "C144",
   "status": "partial",
   "theorems": [
    "GridPACK.PFBusData.C144_reference_partial",
    "GridPACK.PFBusData.C144_base_violated",
    "GridPACK.PFBusData.C144_schedule_violated"
   ],
   "note": "Right on the reference bus with base 100 MVA only."
  },
  {
   "property": "C145",
   "status": "partial",
   "theorems": [
    "GridPACK.PFBusData.C145_order_partial",
    "GridPACK.PFBusData.C145_overlap_violated"
   ],
   "note": "Violations are lost if processes 0 and 1 both have some."
  },
  {
   "property": "C146",
   "status": "partial",
   "theorems": [
    "GridPACK.PFBusData.C146_up",
    "GridPACK.PFBusData.C146_down_partial",
    "GridPACK.PFBusData.C146_down_largest",
    "GridPACK.PFBusData.C146_down_ends",
    "GridPACK.PFBusData.C146_no_room_violated",
    "GridPACK.PFBusData.C146_negative_violated",
    "GridPACK.PFBusData.C146_no_end_violated"
   ],
   "note": "Upwards correct when it ends; downwards an insecure or negative rating can be reported."
  },
  {
   "property": "C147",
   "status": "partial",
   "theorems": [
    "GridPACK.PFBusData.C147_tested_partial",
    "GridPACK.PFBusData.C147_lowered_violated"
   ],
   "note": "A secure rating is lowered by one hundredth all the same."
  },
  {
   "property": "C148",
   "status": "partial",
   "theorems": [
    "GridPACK.DsStep.C148_classical_rest_partial",
    "GridPACK.DsStep.C148_resistance_violated",
    "GridPACK.DsStep.C148_subtransient_violated"
   ],
   "note": "Holds without resistance and with subtransient reactance 0; with resistance the current is wrong, with a subtransient reactance the admittance is uninitialised."
  },
  {
   "property": "C149",
   "status": "partial",
   "theorems": [
    "GridPACK.DsStep.C149_genrou_rest",
    "GridPACK.DsStep.C149_genrou_controlled_partial"
   ],
   "note": "Any controllers that keep their output at rest; SEXS and TGOV1 proved to be such, within the built-in bounds of C112 and C119."
  },
  {
   "property": "C150",
   "status": "partial",
   "theorems": [
    "GridPACK.DsStep.C150_gensal_rest"
   ],
   "note": "Any controllers that keep their output at rest; without a stabiliser."
  },
  {
   "property": "C151",
   "status": "partial",
   "theorems": [
    "GridPACK.DsStep.C151_flat_run_partial"
   ],
   "note": "Networks with classical, GENROU and GENSAL machines and constant-admittance loads; dynamic loads, relays and events are left out."
  },
  {
   "property": "C152",
   "status": "partial",
   "theorems": [
    "GridPACK.DsLoad.C152_account",
    "GridPACK.DsLoad.C152_admittance_partial",
    "GridPACK.DsLoad.C152_negative_violated",
    "GridPACK.DsLoad.C152_off_violated"
   ],
   "note": "Exact account for every loaded bus; generators with negative power count twice, those out of service once."
  },
  {
   "property": "C153",
   "status": "partial",
   "theorems": [
    "GridPACK.DsLoad.C153_load_iff",
    "GridPACK.DsLoad.C153_slots_partial",
    "GridPACK.DsLoad.C153_negative_violated"
   ],
   "note": "Holds without negative generation and with known models; exact condition under which loading is defined."
  },
  {
   "property": "C154",
   "status": "partial",
   "theorems": [
    "GridPACK.DsLoad.C154_status_partial",
    "GridPACK.DsLoad.C154_stale_violated"
   ],
   "note": "Status of the first load is reported for ever."
  },
  {
   "property": "C155",
   "status": "partial",
   "theorems": [
    "GridPACK.DsLoad.C155_load_partial",
    "GridPACK.DsLoad.C155_composite_violated"
   ],
   "note": "Holds without composite loads; with one, all other loads of the bus are lost."
  },
  {
   "property": "C156",
   "status": "partial",
   "theorems": [
    "GridPACK.DsStep.C156_reported_state_partial",
    "GridPACK.DsStep.C156_genrou_violated"
   ],
   "note": "Holds for the classical model and GENSAL; GENROU reports the predicted state."
  },
  {
   "property": "C157",
   "status": "partial",
   "theorems": [
    "GridPACK.DsStep.C157_classical_partial",
    "GridPACK.DsStep.C157_reported_power_violated",
    "GridPACK.GridForming.C157_gridforming_partial",
    "GridPACK.GridForming.C157_gridforming_violated"
   ],
   "note": "Holds for the classical model without resistance; GENROU and GENSAL report the power of the step before; the grid-forming inverter reports with the current of the old voltage."
  },
  {
   "property": "C158",
   "status": "partial",
   "theorems": [
    "GridPACK.DsStep.C158_trip_partial",
    "GridPACK.DsStep.C158_remembered",
    "GridPACK.DsStep.C158_lag_violated",
    "GridPACK.DsStep.C158_classical_violated",
    "GridPACK.GridForming.C158_gridforming_violated"
   ],
   "note": "GENROU and GENSAL feed no current at constant voltage only; the classical model and the grid-forming inverter (which answers that the trip was successful) ignore it."
  },
  {
   "property": "C159",
   "status": "partial",
   "theorems": [
    "GridPACK.DsStep.C159_check_partial",
    "GridPACK.DsStep.C159_detailed_violated",
    "GridPACK.DsStep.C159_empty_violated"
   ],
   "note": "Exact for the reported angles on one process; GENROU and GENSAL always report 0. The program does not call the check in a run."
  },
  {
   "property": "C160",
   "status": "partial",
   "theorems": [
    "GridPACK.DsStep.C160_curve",
    "GridPACK.DsStep.C160_machines_partial",
    "GridPACK.DsStep.C160_reversed_violated"
   ],
   "note": "Holds for S(1.2) > S(1.0) > 0; otherwise the curve is 0 at both points."
  },
  {
   "property": "C161",
   "status": "partial",
   "theorems": [
    "GridPACK.DsStep.C161_base_partial",
    "GridPACK.DsStep.C161_overload_violated"
   ],
   "note": "Holds unless the scheduled apparent power exceeds the machine base; then the base is replaced."
  },
  {
   "property": "C162",
   "status": "proved",
   "theorems": [
    "GridPACK.DsStep.C162_reference_angle"
   ],
   "note": "Machines in service with an internal voltage different from 0 at the start; solver that commutes with rotations."
  },
  {
   "property": "C163",
   "status": "partial",
   "theorems": [
    "GridPACK.DsStep.C163_classical_partial",
    "GridPACK.DsStep.C163_base_violated"
   ],
   "note": "Holds for the system base 100 MVA only."
  },
  {
   "property": "C164",
   "status": "partial",
   "theorems": [
    "GridPACK.DsLoad.C164_status_partial",
    "GridPACK.DsLoad.C164_load_violated",
    "GridPACK.DsLoad.C164_generator_violated"
   ],
   "note": "Missing powers are taken from the previous record."
  },
  {
   "property": "C165",
   "status": "proved",
   "theorems": [
    "GridPACK.DsStep.C165_classical_heun",
    "GridPACK.DsStep.C165_classical_start",
    "GridPACK.DsStep.C165_genrou_heun",
    "GridPACK.DsStep.C165_gensal_heun"
   ],
   "note": "Without network iterations; the controllers are those of the model."
  },
  {
   "property": "C166",
   "status": "partial",
   "theorems": [
    "GridPACK.RawBranch.C166_network_partial",
    "GridPACK.RawBranch.C166_short_line_violated",
    "GridPACK.RawBranch.C166_end_shunt_violated"
   ],
   "note": "Holds for complete lines and plain transformers without asymmetric records in opposite directions."
  },
  {
   "property": "C167",
   "status": "partial",
   "theorems": [
    "GridPACK.RawBranch.C167_transformer_partial",
    "GridPACK.RawBranch.C167_base_violated",
    "GridPACK.RawBranch.C167_magnetising_violated",
    "GridPACK.RawBranch.C167_conductance_violated",
    "GridPACK.RawBranch.C167_kilovolts_violated",
    "GridPACK.RawBranch.C167_nominal_violated"
   ],
   "note": "CZ, CM and CW = 3 are ignored, NOMV = 0 is divided by."
  },
  {
   "property": "C168",
   "status": "partial",
   "theorems": [
    "GridPACK.RawBranch.C168_star_partial",
    "GridPACK.RawBranch.C168_measured",
    "GridPACK.RawBranch.C168_sum",
    "GridPACK.RawBranch.C168_star_number",
    "GridPACK.RawBranch.C168_base_violated",
    "GridPACK.RawBranch.C168_zero_base_violated"
   ],
   "note": "Star and numbering hold on the system base; the conversion from other bases has an inverted condition."
  },
  {
   "property": "C169",
   "status": "partial",
   "theorems": [
    "GridPACK.RawBranch.C169_reversed_partial",
    "GridPACK.RawBranch.C169_reversed_violated"
   ],
   "note": "The direction is computed but not stored."
  },
  {
   "property": "C170",
   "status": "proved",
   "theorems": [
    "GridPACK.RawBranch.C170_one_branch"
   ],
   "note": ""
  },
  {
   "property": "C171",
   "status": "partial",
   "theorems": [
    "GridPACK.RawBranch.C171_reuse_partial",
    "GridPACK.RawBranch.C171_reuse_violated"
   ],
   "note": "The branch map of the first file is kept."
  },
  {
   "property": "C172",
   "status": "partial",
   "theorems": [
    "GridPACK.RawRecords.C172_comments_partial",
    "GridPACK.RawRecords.C172_inside_violated"
   ],
   "note": "Holds for comments between transformers."
  },
  {
   "property": "C173",
   "status": "partial",
   "theorems": [
    "GridPACK.Export.C173_block_partial",
    "GridPACK.Export.C173_devices",
    "GridPACK.Export.C173_lines_partial",
    "GridPACK.Export.C173_transformers_partial",
    "GridPACK.Export.C173_gap_violated",
    "GridPACK.Export.C173_parallel_violated"
   ],
   "note": "Holds for buses, shunts, generators and lines; a transformer in parallel with a line spoils the transformer block."
  },
  {
   "property": "C174",
   "status": "partial",
   "theorems": [
    "GridPACK.Export.C174_loads_partial",
    "GridPACK.Export.C174_gap_violated",
    "GridPACK.Export.C174_current_violated"
   ],
   "note": "Loads without constant power are left out and shift the others."
  },
  {
   "property": "C175",
   "status": "partial",
   "theorems": [
    "GridPACK.Export.C175_round_trip_partial",
    "GridPACK.Export.C175_shift_violated",
    "GridPACK.Export.C175_magnetising_violated",
    "GridPACK.Export.C175_digits_partial",
    "GridPACK.Export.C175_digits_violated"
   ],
   "note": "Phase shifts and magnetising admittances of three-winding transformers and small numbers are lost."
  },
  {
   "property": "C176",
   "status": "proved",
   "theorems": [
    "GridPACK.DsStep.C176_kept",
    "GridPACK.DsStep.C176_no_influence",
    "GridPACK.DsStep.C176_matrix"
   ],
   "note": "two runs that differ in generators out of service only are compared step by step"
  },
  {
   "property": "C177",
   "status": "proved",
   "theorems": [
    "GridPACK.RawBus.C177_case"
   ],
   "note": "owners of generators and switched shunts are not part of the statement"
  },
  {
   "property": "C178",
   "status": "partial",
   "theorems": [
    "GridPACK.RawBus.C178_names_partial",
    "GridPACK.RawBus.C178_voltage_violated",
    "GridPACK.RawBus.C178_earlier_violated",
    "GridPACK.RawBus.C178_one_character_violated"
   ],
   "note": "The voltage is ignored, names of one character become empty, and names of earlier files are kept."
  },
  {
   "property": "C179",
   "status": "partial",
   "theorems": [
    "GridPACK.RawBus.C179_shunt_partial",
    "GridPACK.RawBus.C179_second_fixed_violated",
    "GridPACK.RawBus.C179_out_of_service_violated",
    "GridPACK.RawBus.C179_switched_replaces_violated",
    "GridPACK.RawBus.C179_second_switched_violated"
   ],
   "note": "Only the first fixed and the first switched shunt count, the latter replacing the susceptance of the former; the status is ignored."
  },
  {
   "property": "C180",
   "status": "partial",
   "theorems": [
    "GridPACK.RawBus.C180_owner_violated",
    "GridPACK.RawBus.C180_status_violated"
   ],
   "note": "Empty fields are replaced by 0 before the test for empty fields."
  },
  {
   "property": "C181",
   "status": "partial",
   "theorems": [
    "GridPACK.Dyr.C181_generators_partial",
    "GridPACK.Dyr.C181_wsieg1_violated"
   ],
   "note": "Holds for all models and parameters except T3 of WSIEG1, which gets the value of another one."
  },
  {
   "property": "C182",
   "status": "partial",
   "theorems": [
    "GridPACK.Dyr.C182_loads_partial",
    "GridPACK.Dyr.C182_cim6bl_violated",
    "GridPACK.Dyr.C182_acmtblu1_violated",
    "GridPACK.Dyr.C182_cmldblu1_violated"
   ],
   "note": "Holds apart from some parameters of CIM6BL, ACMTBLU1 and CMLDBLU1."
  },
  {
   "property": "C183",
   "status": "partial",
   "theorems": [
    "GridPACK.Dyr.C183_bus_relays",
    "GridPACK.Dyr.C183_branch_relays_partial",
    "GridPACK.Dyr.C183_distr1_violated"
   ],
   "note": "Holds for buses; for branches the time of zone 3 is wrong."
  },
  {
   "property": "C184",
   "status": "partial",
   "theorems": [
    "GridPACK.Dyr.C184_generators_partial",
    "GridPACK.Dyr.C184_loads_partial",
    "GridPACK.Dyr.C184_bus_relays",
    "GridPACK.Dyr.C184_esst4b_violated",
    "GridPACK.Dyr.C184_genrou_violated",
    "GridPACK.Dyr.C184_reeca1_violated",
    "GridPACK.Dyr.C184_repca1_violated",
    "GridPACK.Dyr.C184_gdform_violated",
    "GridPACK.Dyr.C184_wsieg1_violated",
    "GridPACK.Dyr.C184_psssim_violated",
    "GridPACK.Dyr.C184_acmtblu1_violated",
    "GridPACK.Dyr.C184_distr1_violated",
    "GridPACK.Dyr.C184_distr1_bus_violated"
   ],
   "note": "Holds apart from ESST4B, relays of branches and the listed parameters."
  },
  {
   "property": "C185",
   "status": "partial",
   "theorems": [
    "GridPACK.Dyr.C185_bus_data",
    "GridPACK.Dyr.C185_other_buses",
    "GridPACK.Dyr.C185_other_branches",
    "GridPACK.Dyr.C185_direct_partial",
    "GridPACK.Dyr.C185_gdform_violated"
   ],
   "note": "A record GDFORM replaces the power limit of the network file; direct reading stores loads without match under index -1."
  },
  {
   "property": "C186",
   "status": "partial",
   "theorems": [
    "GridPACK.Dyr.C186_direct_partial",
    "GridPACK.Dyr.C186_order_violated"
   ],
   "note": "Holds for direct reading; with several processes the order depends on the distribution."
  },
  {
   "property": "C187",
   "status": "partial",
   "theorems": [
    "GridPACK.Dae.C187_matrix_is_derivative_partial",
    "GridPACK.Dae.C187_exdc1_violated",
    "GridPACK.Dae.C187_esst1a_violated",
    "GridPACK.Dae.C187_wsieg1_violated",
    "GridPACK.Dae.C187_isolated_violated",
    "GridPACK.Dae.C187_field_limit_violated"
   ],
   "note": "Holds for the parameters and states listed in the specification; the matrices of EXDC1, ESST1A and WSIEG1 have wrong entries otherwise, and the row of an isolated bus has the wrong sign."
  },
  {
   "property": "C188",
   "status": "partial",
   "theorems": [
    "GridPACK.Dae.C188_fault_matrix_is_derivative_partial",
    "GridPACK.Dae.C188_exdc1_violated",
    "GridPACK.Dae.C188_esst1a_violated",
    "GridPACK.Dae.C188_wsieg1_violated",
    "GridPACK.Dae.C188_gencls_violated"
   ],
   "note": "As C187; the classical machine has no entries for its current."
  },
  {
   "property": "C189",
   "status": "partial",
   "theorems": [
    "GridPACK.Dae.C189_initial_equilibrium_partial",
    "GridPACK.Dae.C189_genrou_resistance_violated",
    "GridPACK.Dae.C189_several_generators_violated",
    "GridPACK.Dae.C189_isolated_violated"
   ],
   "note": "Holds for buses with at most one generator in service that are not isolated, without armature resistance of GENROU."
  },
  {
   "property": "C190",
   "status": "proved",
   "theorems": [
    "GridPACK.Dae.C190_pushed",
    "GridPACK.Dae.C190_written",
    "GridPACK.Dae.C190_partition"
   ],
   "note": ""
  },
  {
   "property": "C191",
   "status": "partial",
   "theorems": [
    "GridPACK.Dae.C191_exdc1_partial",
    "GridPACK.Dae.C191_esst1a_partial",
    "GridPACK.Dae.C191_wsieg1_partial",
    "GridPACK.Dae.C191_exdc1_watched",
    "GridPACK.Dae.C191_esst1a_watched_partial",
    "GridPACK.Dae.C191_wsieg1_watched",
    "GridPACK.Dae.C191_esst1a_watched_violated",
    "GridPACK.Dae.C191_esst1a_violated",
    "GridPACK.Dae.C191_wsieg1_violated",
    "GridPACK.Dae.C191_other_limiter_violated",
    "GridPACK.Dae.C191_reset_violated"
   ],
   "note": "Holds for EXDC1 and the output limiters of ESST1A and WSIEG1; the lower input limiters of the latter two never let go."
  },
  {
   "property": "C192",
   "status": "partial",
   "theorems": [
    "GridPACK.Dae.C192_restored_partial",
    "GridPACK.Dae.C192_during",
    "GridPACK.Dae.C192_same_moment_violated"
   ],
   "note": "Holds unless a fault begins and ends at the same moment."
  },
  {
   "property": "C193",
   "status": "partial",
   "theorems": [
    "GridPACK.Dae.C193_genrou_partial",
    "GridPACK.Dae.C193_gensal_partial",
    "GridPACK.Dae.C193_gencls_violated"
   ],
   "note": "Holds for GENROU and GENSAL; the classical machine has a factor of the synchronous speed in the wrong place."
  },
  {
   "property": "C194",
   "status": "partial",
   "theorems": [
    "GridPACK.Dae.C194_classical_partial",
    "GridPACK.Dae.C194_gensal_partial",
    "GridPACK.Dae.C194_genrou_partial",
    "GridPACK.Dae.C194_genrou_resistance_violated",
    "GridPACK.Dae.C194_wsieg1_violated",
    "GridPACK.Dae.C194_wsieg1_limits_partial"
   ],
   "note": "Holds for machines apart from the armature resistance of GENROU; the gain of WSIEG1 is not converted."
  },
  {
   "property": "C195",
   "status": "partial",
   "theorems": [
    "GridPACK.Dae.C195_branch_partial",
    "GridPACK.Dae.C195_shunt_violated",
    "GridPACK.Dae.C195_shift_violated",
    "GridPACK.Dae.C195_switched_violated"
   ],
   "note": "Holds for records without end shunts, not switched, with a phase shift only beside a ratio."
  },
  {
   "property": "C196",
   "status": "partial",
   "theorems": [
    "GridPACK.Dae.C196_history_partial",
    "GridPACK.Dae.C196_esst1a_violated"
   ],
   "note": "Holds without ESST1A, which keeps the voltage of the evaluation before."
  },
  {
   "property": "C197",
   "status": "proved",
   "theorems": [
    "GridPACK.NetworkAnalytics.C197_generators",
    "GridPACK.NetworkAnalytics.C197_loads",
    "GridPACK.NetworkAnalytics.C197_lines",
    "GridPACK.NetworkAnalytics.C197_totals"
   ],
   "note": "For every distribution in which each component is active on exactly one process."
  },
  {
   "property": "C198",
   "status": "proved",
   "theorems": [
    "GridPACK.NetworkAnalytics.C198_counts",
    "GridPACK.NetworkAnalytics.C198_info"
   ],
   "note": "For every distribution in which each component is active on exactly one process and global numbers are unique."
  },
  {
   "property": "C199",
   "status": "partial",
   "theorems": [
    "GridPACK.NetworkAnalytics.C199_connected_partial",
    "GridPACK.NetworkAnalytics.C199_connected_violated",
    "GridPACK.NetworkAnalytics.C199_connected_wrong_violated",
    "GridPACK.NetworkAnalytics.C199_endpoints_partial",
    "GridPACK.NetworkAnalytics.C199_endpoints_violated"
   ],
   "note": "Original, local and global numbers are mixed up: right only when they coincide."
  },
  {
   "property": "C200",
   "status": "partial",
   "theorems": [
    "GridPACK.BusTable.C200_table_partial",
    "GridPACK.BusTable.C200_headers_partial",
    "GridPACK.BusTable.C200_last_line_violated",
    "GridPACK.BusTable.C200_inner_comment_violated",
    "GridPACK.BusTable.C200_blank_line_violated",
    "GridPACK.BusTable.C200_quoted_violated",
    "GridPACK.BusTable.C200_headers_violated"
   ],
   "note": "Holds for comment lines followed by proper lines ended by newlines."
  },
  {
   "property": "C201",
   "status": "partial",
   "theorems": [
    "GridPACK.DyrRecords.C201_shared_partial",
    "GridPACK.DyrRecords.C201_direct_partial",
    "GridPACK.DyrRecords.C201_no_slash_violated",
    "GridPACK.DyrRecords.C201_comment_violated",
    "GridPACK.DyrRecords.C201_empty_comment_violated",
    "GridPACK.DyrRecords.C201_fused_violated",
    "GridPACK.DyrRecords.C201_quotes_and_returns_violated"
   ],
   "note": "Holds for records with their slash and with a blank or comma between lines, without slashes in quotes; the reader working on its own data knows no comments."
  },
  {
   "property": "C202",
   "status": "partial",
   "theorems": [
    "GridPACK.UnitCommit.C202_parameters_partial",
    "GridPACK.UnitCommit.C202_others",
    "GridPACK.UnitCommit.C202_max_operating_violated",
    "GridPACK.UnitCommit.C202_blank_line_violated"
   ],
   "note": "Holds except for the maximum operating generation and blank lines."
  },
  {
   "property": "C203",
   "status": "partial",
   "theorems": [
    "GridPACK.DeviceLoad.C203_parameters_partial",
    "GridPACK.DeviceLoad.C203_esst4b_violated",
    "GridPACK.DeviceLoad.C203_fixed_violated",
    "GridPACK.DeviceLoad.C203_unread_violated"
   ],
   "note": "Holds for every quantity of every model outside the list deviceErrors in Spec/DeviceLoad.lean. T3 of WSIEG1 is lost by the reader (C181), Trate of WTTQA1 is replaced when tiny."
  },
  {
   "property": "C204",
   "status": "partial",
   "theorems": [
    "GridPACK.DeviceLoad.C204_devices_partial",
    "GridPACK.DeviceLoad.C204_models_violated"
   ],
   "note": "Holds for generators with power that is not negative and one record per kind of device; EXDC2 and GGOV1 are accepted by the reader and dereference a null pointer in the simulation."
  },
  {
   "property": "C205",
   "status": "partial",
   "theorems": [
    "GridPACK.CaDriver.C205_list_partial",
    "GridPACK.CaDriver.C205_dropped_violated",
    "GridPACK.CaDriver.C205_missing_violated"
   ],
   "note": "Holds for files in which every block describes a contingency; others are dropped silently or read an empty string."
  },
  {
   "property": "C206",
   "status": "partial",
   "theorems": [
    "GridPACK.CaDriver.C206_lines_partial",
    "GridPACK.CaDriver.C206_gathered_partial",
    "GridPACK.CaDriver.C206_summary_violated",
    "GridPACK.CaDriver.C206_second_solve_violated"
   ],
   "note": "The vectors are gathered correctly (up to C94) and would give the right lines; the driver empties the vector of success flags before it reads it, and ignores the result of the second solution."
  },
  {
   "property": "C207",
   "status": "partial",
   "theorems": [
    "GridPACK.CaDriver.C207_rows",
    "GridPACK.CaDriver.C207_lines_partial",
    "GridPACK.CaDriver.C207_lines_violated",
    "GridPACK.CaDriver.C207_generators_partial",
    "GridPACK.CaDriver.C207_generators_violated"
   ],
   "note": "Rows agree for every network; complete up to 4 lines per branch and 9 generators per bus."
  },
  {
   "property": "C208",
   "status": "partial",
   "theorems": [
    "GridPACK.CaDriver.C208_in_service_partial",
    "GridPACK.CaDriver.C208_out_of_service_violated"
   ],
   "note": "Holds for lines in service; lines out of service are counted with the flow they would have."
  },
  {
   "property": "C209",
   "status": "partial",
   "theorems": [
    "GridPACK.CaDriver.C209_balance_partial",
    "GridPACK.CaDriver.C209_outage_violated",
    "GridPACK.CaDriver.C209_reference_violated"
   ],
   "note": "Holds before the outage of a generator."
  },
  {
   "property": "C210",
   "status": "partial",
   "theorems": [
    "GridPACK.CaDriver.C210_independent_partial",
    "GridPACK.CaDriver.C210_qlimit_violated"
   ],
   "note": "Holds without reactive limit checks for contingencies that can be undone (C49)."
  },
  {
   "property": "C211",
   "status": "proved",
   "theorems": [
    "GridPACK.SeqParser.C211_generators",
    "GridPACK.SeqParser.C211_others"
   ],
   "note": "For generators that do not exist the values are stored under index -1, which C211_others allows."
  },
  {
   "property": "C212",
   "status": "partial",
   "theorems": [
    "GridPACK.SeqParser.C212_negative_partial",
    "GridPACK.SeqParser.C212_zero_violated",
    "GridPACK.SeqParser.C212_negative_violated"
   ],
   "note": "Holds for the negative sequence of buses with a row for it; zero sequence shunts are never stored, and a bus with only a zero sequence row gets uninitialised memory as negative sequence shunt."
  },
  {
   "property": "C213",
   "status": "partial",
   "theorems": [
    "GridPACK.SeqParser.C213_lines_partial",
    "GridPACK.SeqParser.C213_transformers_partial",
    "GridPACK.SeqParser.C213_others",
    "GridPACK.SeqParser.C213_reversed_violated",
    "GridPACK.SeqParser.C213_short_violated"
   ],
   "note": "Holds for rows with the buses in the order of the network and 10, 11 or at least 15 words."
  },
  {
   "property": "C214",
   "status": "partial",
   "theorems": [
    "GridPACK.SeqParser.C214_reuse_violated"
   ],
   "note": "Violated: the map of places is kept while the structs are replaced."
  },
  {
   "property": "C215",
   "status": "partial",
   "theorems": [
    "GridPACK.Raw23.C215_v23_partial",
    "GridPACK.Raw23.C215_v33_partial",
    "GridPACK.Raw23.C215_v23_leading_violated",
    "GridPACK.Raw23.C215_v23_comma_violated",
    "GridPACK.Raw23.C215_v33_blank_violated"
   ],
   "note": "Version 23 splits at blanks only, 33 to 35 at commas only: each holds for its own spelling (version 23 only without a blank at the start) and is violated for the other."
  },
  {
   "property": "C216",
   "status": "proved",
   "theorems": [
    "GridPACK.Raw23.C216_buses"
   ],
   "note": "For files whose lines have the tokens the parser uses without a check; a generator line of exactly 10 or 12 tokens is excluded (undefined), as are transformer lines that stop the reading (C219)."
  },
  {
   "property": "C217",
   "status": "partial",
   "theorems": [
    "GridPACK.Raw23.C217_names_partial",
    "GridPACK.Raw23.C217_quotes_violated"
   ],
   "note": "Names in quotes keep their quotes."
  },
  {
   "property": "C218",
   "status": "partial",
   "theorems": [
    "GridPACK.Raw23.C218_network_partial",
    "GridPACK.Raw23.C218_shunts_violated"
   ],
   "note": "Fails for a record in the opposite direction of an earlier one whose shunts at the two ends differ."
  },
  {
   "property": "C219",
   "status": "partial",
   "theorems": [
    "GridPACK.Raw23.C219_transformers_partial",
    "GridPACK.Raw23.C219_direction_violated",
    "GridPACK.Raw23.C219_circuit_violated"
   ],
   "note": "Holds for lines in the direction of a record with that circuit; a line in the opposite direction is lost, an unknown circuit makes reading endless."
  },
  {
   "property": "C220",
   "status": "partial",
   "theorems": [
    "GridPACK.Raw23.C220_again_partial",
    "GridPACK.Raw23.C220_again_violated"
   ],
   "note": "Violated whenever the first line of the second file joins buses joined in the first; holds if no such line exists."
  },
  {
   "property": "C221",
   "status": "proved",
   "theorems": [
    "GridPACK.Raw23.C221_areas"
   ],
   "note": "For area lines of at least five tokens and a network without areas before."
  },
  {
   "property": "C222",
   "status": "partial",
   "theorems": [
    "GridPACK.Actions.C222_trips_partial",
    "GridPACK.Actions.C222_same_branch_violated",
    "GridPACK.Actions.C222_end_shunt_violated",
    "GridPACK.Actions.C222_phase_violated",
    "GridPACK.Actions.C222_fault_violated"
   ],
   "note": "Holds for all histories in which each interval names circuits of different branches, without end shunts and phase shifts, outside the fault."
  },
  {
   "property": "C223",
   "status": "partial",
   "theorems": [
    "GridPACK.Actions.C223_one_process_partial",
    "GridPACK.Actions.C223_two_processes_violated"
   ],
   "note": "Holds on one process; on two, different lines are tripped by the processes."
  },
  {
   "property": "C224",
   "status": "partial",
   "theorems": [
    "GridPACK.Actions.C224_elsewhere_partial",
    "GridPACK.Actions.C224_relay_violated"
   ],
   "note": "Violated at the bus of the relay."
  },
  {
   "property": "C225",
   "status": "partial",
   "theorems": [
    "GridPACK.Actions.C225_changes_partial",
    "GridPACK.Actions.C225_base_violated",
    "GridPACK.Actions.C225_twice_violated"
   ],
   "note": "Holds on a base of 100 MVA with at most one change of each kind per bus between two steps."
  },
  {
   "property": "C226",
   "status": "partial",
   "theorems": [
    "GridPACK.Actions.C226_share",
    "GridPACK.Actions.C226_current_partial",
    "GridPACK.Actions.C226_current_violated"
   ],
   "note": "The share is right; the current only at the initial voltage."
  },
  {
   "property": "C227",
   "status": "partial",
   "theorems": [
    "GridPACK.Actions.C227_compensate_partial",
    "GridPACK.Actions.C227_replace_partial",
    "GridPACK.Actions.C227_current_partial",
    "GridPACK.Actions.C227_lists_violated",
    "GridPACK.Actions.C227_plain_violated",
    "GridPACK.Actions.C227_twice_violated",
    "GridPACK.Actions.C227_switch_violated"
   ],
   "note": "Holds for one command per bus; the commands with lists read past the end of every list, and repeated or mixed commands interfere."
  },
  {
   "property": "C228",
   "status": "partial",
   "theorems": [
    "GridPACK.Actions.C228_resistive_partial",
    "GridPACK.Actions.C228_reactive_violated"
   ],
   "note": "Holds for resistances; reactances enter with the opposite sign."
  },
  {
   "property": "C229",
   "status": "partial",
   "theorems": [
    "GridPACK.Actions.C229_share_partial",
    "GridPACK.Actions.C229_others_violated",
    "GridPACK.Actions.C229_restore_violated"
   ],
   "note": "The id is ignored, and a load shed completely cannot be restored."
  },
  {
   "property": "C230",
   "status": "partial",
   "theorems": [
    "GridPACK.Actions.C230_time_partial",
    "GridPACK.Actions.C230_size_violated",
    "GridPACK.Actions.C230_early_violated"
   ],
   "note": "Holds for times that are multiples of the step with the fault not before the first step; exact arithmetic (the quotient is truncated, so that rounding may lose a step)."
  },
  {
   "property": "C231",
   "status": "proved",
   "theorems": [
    "GridPACK.Zones.C231_zones"
   ],
   "note": ""
  },
  {
   "property": "C232",
   "status": "partial",
   "theorems": [
    "GridPACK.Zones.C232_zone_sums",
    "GridPACK.Zones.C232_bus_partial",
    "GridPACK.Zones.C232_status_violated",
    "GridPACK.Zones.C233_composite_violated"
   ],
   "note": "Sums over zones are right; the load of a bus includes loads out of service."
  },
  {
   "property": "C233",
   "status": "partial",
   "theorems": [
    "GridPACK.Zones.C233_load_partial",
    "GridPACK.Zones.C233_composite_violated"
   ],
   "note": "Violated at buses with a composite load (CMLDBLU1) and other loads."
  },
  {
   "property": "C234",
   "status": "proved",
   "theorems": [
    "GridPACK.Zones.C234_bus",
    "GridPACK.Zones.C234_reference",
    "GridPACK.Zones.C234_ask",
    "GridPACK.Zones.C232_zone_sums"
   ],
   "note": "Participation factors that sum to 1 are the subject of C139; the values are those at the start of the simulation."
  },
  {
   "property": "C235",
   "status": "partial",
   "theorems": [
    "GridPACK.DsScaling.C235_reset_partial",
    "GridPACK.DsScaling.C235_reload_violated"
   ],
   "note": "Violated when a bus is loaded again: the saved powers of the first load are kept."
  },
  {
   "property": "C236",
   "status": "partial",
   "theorems": [
    "GridPACK.DsScaling.C236_within_partial",
    "GridPACK.DsScaling.C236_amount",
    "GridPACK.DsScaling.C236_load",
    "GridPACK.DsScaling.C236_units_violated",
    "GridPACK.DsScaling.C236_off_violated",
    "GridPACK.DsScaling.C236_reload_violated"
   ],
   "note": "Holds for a bus loaded once with powers and limits in the same unit; after a transfer the powers are per unit and the limits in MW."
  },
  {
   "property": "C237",
   "status": "partial",
   "theorems": [
    "GridPACK.DsScaling.C237_load_partial",
    "GridPACK.DsScaling.C237_margins_partial",
    "GridPACK.DsScaling.C237_copies_violated",
    "GridPACK.DsScaling.C237_processes_violated",
    "GridPACK.DsScaling.C237_status_violated",
    "GridPACK.DsScaling.C237_current_violated"
   ],
   "note": "Holds on one process for generators in service, for the values at loading."
  },
  {
   "property": "C238",
   "status": "partial",
   "theorems": [
    "GridPACK.DsScaling.C238_solution_partial",
    "GridPACK.DsScaling.C238_loads_violated",
    "GridPACK.DsScaling.C238_angle_violated"
   ],
   "note": "Holds for voltages and generators."
  },
  {
   "property": "C239",
   "status": "partial",
   "theorems": [
    "GridPACK.FreqMonitor.C239_no_false_alarm",
    "GridPACK.FreqMonitor.C239_found_partial",
    "GridPACK.FreqMonitor.C239_restart_violated",
    "GridPACK.FreqMonitor.C239_network",
    "GridPACK.FreqMonitor.C239_bus_partial",
    "GridPACK.FreqMonitor.C239_bus_sound"
   ],
   "note": "Every report is right and every drift is reported, at the latest one sample late."
  },
  {
   "property": "C240",
   "status": "partial",
   "theorems": [
    "GridPACK.FreqMonitor.C240_next_partial",
    "GridPACK.FreqMonitor.C240_reload_violated",
    "GridPACK.FreqMonitor.C240_stale_violated"
   ],
   "note": "Holds if the previous simulation did not end in a drift."
  },
  {
   "property": "C241",
   "status": "partial",
   "theorems": [
    "GridPACK.FreqMonitor.C241_limit_partial",
    "GridPACK.FreqMonitor.C241_maximum_violated"
   ],
   "note": "The check against the maximum exists and is right, but the simulation never makes it."
  },
  {
   "property": "C242",
   "status": "partial",
   "theorems": [
    "GridPACK.Random.C242_seed_partial",
    "GridPACK.Random.C242_leftover_violated",
    "GridPACK.Random.C242_overlap_violated"
   ],
   "note": "Holds after an even number of normally distributed numbers; seeds with equal absolute value, and seed and rank with equal sum, give equal sequences."
  },
  {
   "property": "C243",
   "status": "proved",
   "theorems": [
    "GridPACK.Random.C243_polar"
   ],
   "note": "The distribution of the library generator is outside the model."
  },
  {
   "property": "C244",
   "status": "partial",
   "theorems": [
    "GridPACK.RtprCases.C244_generators_partial",
    "GridPACK.RtprCases.C244_lines_partial",
    "GridPACK.RtprCases.C244_watched_partial",
    "GridPACK.RtprCases.C244_one_process",
    "GridPACK.RtprCases.C244_lost_violated"
   ],
   "note": "Holds on one process and in all executions in which no process clears its part of the vector late; otherwise the program ends with an exception."
  },
  {
   "property": "C245",
   "status": "partial",
   "theorems": [
    "GridPACK.RtprCases.C245_ties_partial",
    "GridPACK.RtprCases.C245_zone_violated",
    "GridPACK.RtprCases.C245_inactive_violated"
   ],
   "note": "Holds if zones are given for both regions or for none, except that lines out of service are listed too."
  },
  {
   "property": "C246",
   "status": "partial",
   "theorems": [
    "GridPACK.RtprCases.C246_verdict_partial",
    "GridPACK.RtprCases.C246_secure_accepted",
    "GridPACK.RtprCases.C246_divergent_violated",
    "GridPACK.RtprCases.C246_base_violated",
    "GridPACK.RtprCases.C246_empty_violated"
   ],
   "note": "Holds if all power flows have solutions and there is a contingency."
  },
  {
   "property": "C247",
   "status": "partial",
   "theorems": [
    "GridPACK.RtprCases.C247_verdict_partial",
    "GridPACK.RtprCases.C247_fault_partial",
    "GridPACK.RtprCases.C247_exception_violated",
    "GridPACK.RtprCases.C247_several_violated"
   ],
   "note": "Holds for contingencies of one element and simulations that end without exception."
  },
  {
   "property": "C248",
   "status": "partial",
   "theorems": [
    "GridPACK.FaultSim.C248_line_partial",
    "GridPACK.FaultSim.C248_bus_partial",
    "GridPACK.FaultSim.C248_order_violated",
    "GridPACK.FaultSim.C248_busFault_violated",
    "GridPACK.FaultSim.C248_generator_violated"
   ],
   "note": "Holds for branches given in the order of the network file and for the flag isBus; other events have no effect."
  },
  {
   "property": "C249",
   "status": "partial",
   "theorems": [
    "GridPACK.FaultSim.C249_steps_partial",
    "GridPACK.FaultSim.C249_start_violated",
    "GridPACK.FaultSim.C249_length_violated",
    "GridPACK.FaultSim.C249_short_violated",
    "GridPACK.FaultSim.C249_total_violated",
    "GridPACK.FaultSim.C249_step_violated"
   ],
   "note": "Holds if all times are multiples of the step and the fault does not begin in the first step."
  },
  {
   "property": "C250",
   "status": "partial",
   "theorems": [
    "GridPACK.LinSolve.C250_parallel_partial",
    "GridPACK.LinSolve.C250_serial_partial",
    "GridPACK.LinSolve.C250_serial_violated"
   ],
   "note": "Holds without the serial mode; with it (ForceSerial on several processes) the last entry of the right hand side is that of the first call for ever."
  },
  {
   "property": "C251",
   "status": "partial",
   "theorems": [
    "GridPACK.LinSolve.C251_parallel_partial",
    "GridPACK.LinSolve.C251_serial_violated"
   ],
   "note": "Holds without the serial mode; with it only for columns with the last entry of the first one."
  },
  {
   "property": "C252",
   "status": "partial",
   "theorems": [
    "GridPACK.LinSolve.C252_tolerances_partial",
    "GridPACK.LinSolve.C252_tolerances_violated"
   ],
   "note": "Values set after configure are not used."
  },
  {
   "property": "C253",
   "status": "proved",
   "theorems": [
    "GridPACK.ComplexOps.C253_unary",
    "GridPACK.ComplexOps.C253_parts",
    "GridPACK.ComplexOps.C253_binary",
    "GridPACK.ComplexOps.C253_quotients"
   ],
   "note": "For a PETSc library of real numbers; reciprocals and quotients where no divisor is zero."
  },
  {
   "property": "C254",
   "status": "proved",
   "theorems": [
    "GridPACK.ComplexOps.C254_norms",
    "GridPACK.ComplexOps.C254_infinity"
   ],
   "note": "For a PETSc library of real numbers."
  },
  {
   "property": "C255",
   "status": "proved",
   "theorems": [
    "GridPACK.ComplexOps.C255_products",
    "GridPACK.ComplexOps.C255_diagonal",
    "GridPACK.ComplexOps.C255_norm"
   ],
   "note": "For a PETSc library of real numbers; the real products themselves are PETSc routines taken by their definition."
  },
  {
   "property": "C256",
   "status": "partial",
   "theorems": [
    "GridPACK.ComplexOps.C256_elementwise_partial",
    "GridPACK.ComplexOps.C256_transpose_partial",
    "GridPACK.ComplexOps.C256_after_identity_partial",
    "GridPACK.ComplexOps.C256_after_identity_violated"
   ],
   "note": "Holds if the storage consists of whole blocks; identity() on an assembled matrix without a diagonal element breaks this and later operations read past a row."
  },
  {
   "property": "C257",
   "status": "partial",
   "theorems": [
    "GridPACK.ComplexOps.C257_transposeMultiply_partial",
    "GridPACK.ComplexOps.C257_transposeMultiply_violated"
   ],
   "note": "Holds for matrices of real elements; otherwise the conjugate transpose is used."
  },
  {
   "property": "C258",
   "status": "proved",
   "theorems": [
    "GridPACK.ComplexOps.C258_rowBlock"
   ],
   "note": "The sorting permutation and its inverse are PETSc routines taken as given."
  },
  {
   "property": "C259",
   "status": "proved",
   "theorems": [
    "GridPACK.NetworkClone.C259_clone"
   ],
   "note": "For networks whose branches have both ends on the process, as after partitioning."
  },
  {
   "property": "C260",
   "status": "proved",
   "theorems": [
    "GridPACK.NetworkClone.C260_connected"
   ],
   "note": ""
  },
  {
   "property": "C261",
   "status": "partial",
   "theorems": [
    "GridPACK.NetworkClone.C261_reference_partial",
    "GridPACK.NetworkClone.C261_illegal_violated"
   ],
   "note": "An illegal index is reported but kept."
  },
  {
   "property": "C262",
   "status": "proved",
   "theorems": [
    "GridPACK.PetscOptions.C262_configure"
   ],
   "note": "For prefixes that begin with a letter and options whose names begin with a small letter; the rule by which PETSc enters a string of options is taken as documented."
  },
  {
   "property": "C263",
   "status": "partial",
   "theorems": [
    "GridPACK.PetscOptions.C263_history_partial",
    "GridPACK.PetscOptions.C263_generated",
    "GridPACK.PetscOptions.C263_longer_prefix_violated"
   ],
   "note": "Holds for prefixes of which none begins with another, in particular for the generated ones; fails otherwise."
  },
  {
   "property": "C264",
   "status": "partial",
   "theorems": [
    "GridPACK.PetscOptions.C264_destroy_partial",
    "GridPACK.PetscOptions.C263_history_partial",
    "GridPACK.PetscOptions.C264_capital_violated",
    "GridPACK.PetscOptions.C264_twice_violated",
    "GridPACK.PetscOptions.C264_earlier_entry_violated"
   ],
   "note": "Fails for prefixes beginning with a capital letter, for objects configured twice and for entries that were in the table before."
  },
  {
   "property": "C265",
   "status": "partial",
   "theorems": [
    "GridPACK.Observations.C265_lists_exact",
    "GridPACK.Observations.C265_lists_partial",
    "GridPACK.Observations.C265_search",
    "GridPACK.Observations.C265_defined",
    "GridPACK.Observations.C265_lists_violated",
    "GridPACK.Observations.C265_undefined_violated"
   ],
   "note": "Holds on one process, with as many observations as processes, or if non-existing elements are reported. Otherwise the marks are summed over the wrong number of entries: later elements are listed by their own process only, and with fewer observations than processes memory outside a vector is used."
  },
  {
   "property": "C266",
   "status": "proved",
   "theorems": [
    "GridPACK.Observations.C266_values"
   ],
   "note": "For the first configuration of the object; lists and values agree on each process although the lists may differ between processes (C265)."
  },
  {
   "property": "C267",
   "status": "partial",
   "theorems": [
    "GridPACK.Observations.C267_lists_partial",
    "GridPACK.Observations.C267_second_violated",
    "GridPACK.Observations.C267_value_violated",
    "GridPACK.Observations.C267_loads_violated"
   ],
   "note": "Lists, positions and marks of generators and buses are those of the new configuration; local bus indices of the first configuration are never cleared, so values are wrong, and neither are the names of loads."
  },
  {
   "property": "C268",
   "status": "partial",
   "theorems": [
    "GridPACK.Observations.C268_lists_partial",
    "GridPACK.Observations.C268_lists_violated"
   ],
   "note": "Holds for generators and buses; fails for loads."
  },
  {
   "property": "C269",
   "status": "proved",
   "theorems": [
    "GridPACK.Observations.C269_polar"
   ],
   "note": "Over the real numbers."
  },
  {
   "property": "C270",
   "status": "proved",
   "theorems": [
    "GridPACK.GenTransfer.C270_load",
    "GridPACK.GenTransfer.C270_roundtrip",
    "GridPACK.GenTransfer.C270_vector_roundtrip",
    "GridPACK.GenTransfer.C270_slab"
   ],
   "note": "For networks without a branch that joins a bus to itself (see C23)."
  },
  {
   "property": "C271",
   "status": "partial",
   "theorems": [
    "GridPACK.GenTransfer.C271_accepted",
    "GridPACK.GenTransfer.C271_uniform_partial",
    "GridPACK.GenTransfer.C271_empty_process_violated",
    "GridPACK.GenTransfer.C271_other_processes_violated"
   ],
   "note": "Fails if a process has no component with rows; the exception is thrown on process 0 only."
  },
  {
   "property": "C272",
   "status": "proved",
   "theorems": [
    "GridPACK.KalmanFilter.C272_update"
   ],
   "note": "Over the real numbers, with a solver that solves regular systems."
  },
  {
   "property": "C273",
   "status": "proved",
   "theorems": [
    "GridPACK.KalmanFilter.C273_mean",
    "GridPACK.KalmanFilter.C273_no_change"
   ],
   "note": ""
  },
  {
   "property": "C274",
   "status": "partial",
   "theorems": [
    "GridPACK.KalmanFilter.C274_seed_violated",
    "GridPACK.KalmanFilter.C274_noise_violated",
    "GridPACK.KalmanFilter.C274_ensemble_violated"
   ],
   "note": "Fails: every call constructs a generator with the fixed seed, so the configured seed has no effect and all buses and steps get the same numbers."
  },
  {
   "property": "C275",
   "status": "partial",
   "theorems": [
    "GridPACK.KalmanFilter.C275_switching_partial",
    "GridPACK.KalmanFilter.C275_times_partial",
    "GridPACK.KalmanFilter.C275_empty_violated",
    "GridPACK.KalmanFilter.C275_other_step_violated",
    "GridPACK.KalmanFilter.C275_fault_step_violated"
   ],
   "note": "Holds for faults of at least one step if all steps agree; the integration uses the step of the time series, the fault that of the configuration."
  },
  {
   "property": "C276",
   "status": "partial",
   "theorems": [
    "GridPACK.KalmanFilter.C276_same_time",
    "GridPACK.KalmanFilter.C276_all_passes",
    "GridPACK.KalmanFilter.C276_inside_partial",
    "GridPACK.KalmanFilter.C276_offset_violated"
   ],
   "note": "The time is right; with an offset and a simulation as long as the series, reads go beyond the end."
  },
  {
   "property": "C277",
   "status": "partial",
   "theorems": [
    "GridPACK.KalmanMachine.C277_steady_partial",
    "GridPACK.KalmanMachine.C277_network_partial",
    "GridPACK.KalmanMachine.C277_units_violated",
    "GridPACK.KalmanMachine.C277_subtransient_violated",
    "GridPACK.KalmanMachine.C277_set_voltage_violated"
   ],
   "note": "Holds with results of the load flow, set voltages equal to the voltage of the bus and machines without resistance and subtransient reactance."
  },
  {
   "property": "C278",
   "status": "partial",
   "theorems": [
    "GridPACK.KalmanMachine.C278_status_violated"
   ],
   "note": "Fails: the status is read but not used."
  },
  {
   "property": "C279",
   "status": "partial",
   "theorems": [
    "GridPACK.KalmanMachine.C279_voltage_partial",
    "GridPACK.KalmanMachine.C279_voltage_violated",
    "GridPACK.KalmanMachine.C279_last_violated"
   ],
   "note": "Holds for at most one generator per bus."
  },
  {
   "property": "C280",
   "status": "partial",
   "theorems": [
    "GridPACK.KalmanMachine.C280_load_partial",
    "GridPACK.KalmanMachine.C280_v23_violated",
    "GridPACK.KalmanMachine.C280_first_violated"
   ],
   "note": "Holds for one load in service from a file of version 33 or later."
  },
  {
   "property": "C281",
   "status": "partial",
   "theorems": [
    "GridPACK.KalmanMachine.C281_fault_partial",
    "GridPACK.KalmanMachine.C281_reversed_violated"
   ],
   "note": "Holds if the buses are given in the order of the branch."
  },
  {
   "property": "C282",
   "status": "partial",
   "theorems": [
    "GridPACK.KalmanMachine.C282_twice_violated"
   ],
   "note": "Fails: the file is parsed twice."
  },
  {
   "property": "C283",
   "status": "partial",
   "theorems": [
    "GridPACK.ParmetisWrapper.C283_distribution",
    "GridPACK.ParmetisWrapper.C283_graph_partial"
   ],
   "note": "Holds on every process that can extract its part (see C285)."
  },
  {
   "property": "C284",
   "status": "partial",
   "theorems": [
    "GridPACK.ParmetisWrapper.C284_destinations_partial"
   ],
   "note": "Holds whenever partitioning completes (see C285)."
  },
  {
   "property": "C285",
   "status": "partial",
   "theorems": [
    "GridPACK.ParmetisWrapper.C285_complete_partial",
    "GridPACK.ParmetisWrapper.C285_isolated_violated",
    "GridPACK.ParmetisWrapper.C285_few_violated"
   ],
   "note": "Completes exactly if the block of each process contains a node with a branch; stops in Global Arrays otherwise, in particular with fewer nodes than processes."
  },
  {
   "property": "C286",
   "status": "partial",
   "theorems": [
    "GridPACK.WatchSeries.C286_labels_partial",
    "GridPACK.WatchSeries.C286_order_violated",
    "GridPACK.WatchSeries.C286_out_of_service_violated"
   ],
   "note": "Holds for lists without repetition of generators in service, in the order of the network; series are stored in the order of the list and the map is in the order of the network."
  },
  {
   "property": "C287",
   "status": "partial",
   "theorems": [
    "GridPACK.WatchSeries.C287_again_violated"
   ],
   "note": "Fails: the watch flags and the table of indices of the former list stay."
  },
  {
   "property": "C288",
   "status": "partial",
   "theorems": [
    "GridPACK.ParamEdit.C288_readback_partial",
    "GridPACK.ParamEdit.C288_identifiers",
    "GridPACK.ParamEdit.C288_others",
    "GridPACK.ParamEdit.C288_empty_violated"
   ],
   "note": "Holds for identifiers that clean2Char accepts; an empty identifier ends with an exception instead of false."
  },
  {
   "property": "C289",
   "status": "proved",
   "theorems": [
    "GridPACK.ParamEdit.C289_bus"
   ],
   "note": ""
  },
  {
   "property": "C290",
   "status": "proved",
   "theorems": [
    "GridPACK.ParamEdit.C290_copies"
   ],
   "note": ""
  },
  {
   "property": "C291",
   "status": "proved",
   "theorems": [
    "GridPACK.ParamEdit.C291_branch"
   ],
   "note": "Under the hypothesis that the network has no branch objects in both directions between two buses."
  },
  {
   "property": "C292",
   "status": "partial",
   "theorems": [
    "GridPACK.MatPower.C292_sorted_partial",
    "GridPACK.MatPower.C292_unsorted_violated",
    "GridPACK.MatPower.C292_exception_violated"
   ],
   "note": "Holds if the rows are ordered by the number of the bus; otherwise the generators of all buses with larger number are counted too, leaving gaps in the numbering, or ending in an exception."
  },
  {
   "property": "C293",
   "status": "proved",
   "theorems": [
    "GridPACK.MatPower.C293_ids"
   ],
   "note": ""
  },
  {
   "property": "C294",
   "status": "partial",
   "theorems": [
    "GridPACK.MatPower.C294_branches_partial",
    "GridPACK.MatPower.C294_again_violated"
   ],
   "note": "Holds for the first file; the table of branches is not cleared, so a second file sharing a branch is read out of bounds."
  },
  {
   "property": "C295",
   "status": "partial",
   "theorems": [
    "GridPACK.MatPower.C295_costs_partial",
    "GridPACK.MatPower.C295_endless_violated",
    "GridPACK.MatPower.C295_skipped_violated"
   ],
   "note": "Holds if all generators are at buses of the file and all rows are well formed; a malformed row is read for ever, and costs shift after a generator at an unknown bus."
  },
  {
   "property": "C296",
   "status": "partial",
   "theorems": [
    "GridPACK.Composite.C296_models_partial",
    "GridPACK.Composite.C296_ieelbl_violated"
   ],
   "note": "Holds for all models but IEELBL (CMLDBLU1 is expanded instead); a load IEELBL stays a static load."
  },
  {
   "property": "C297",
   "status": "partial",
   "theorems": [
    "GridPACK.Composite.C297_motors_partial",
    "GridPACK.Composite.C297_static_violated",
    "GridPACK.Composite.C297_reactive"
   ],
   "note": "The static part is never created, its active power is missing; reactive power is complete."
  },
  {
   "property": "C298",
   "status": "partial",
   "theorems": [
    "GridPACK.Composite.C298_voltage_partial",
    "GridPACK.Composite.C298_ends_partial",
    "GridPACK.Composite.C298_limit_violated"
   ],
   "note": "Proved without fixed taps; where the limits bind, the tap is the nearest one within them. Rounding after the limits can exceed them."
  },
  {
   "property": "C299",
   "status": "partial",
   "theorems": [
    "GridPACK.Composite.C299_start_partial",
    "GridPACK.Composite.C299_tap_violated",
    "GridPACK.Composite.C299_capacitor_violated"
   ],
   "note": "Holds for neutral taps, motors only and the built-in size of the capacitor; at another tap the power is multiplied by its square, and the capacitor of the data is not used."
  },
  {
   "property": "C300",
   "status": "proved",
   "theorems": [
    "GridPACK.Expand.C300_numbers",
    "GridPACK.Expand.C300_count",
    "GridPACK.Expand.C300_kept",
    "GridPACK.Expand.C300_chain"
   ],
   "note": ""
  },
  {
   "property": "C301",
   "status": "partial",
   "theorems": [
    "GridPACK.Expand.C301_none",
    "GridPACK.Expand.C301_again_violated"
   ],
   "note": "Every reading of a .dyr file expands all composite loads again."
  },
  {
   "property": "C302",
   "status": "partial",
   "theorems": [
    "GridPACK.MotorW.C302_rest_partial",
    "GridPACK.MotorW.C302_lower_violated"
   ],
   "note": "Proved for all motors given by a circuit whose slip is not lowered at the start. When the slip is lowered, the constant of the torque is assigned by 'C0 = 1,0 - ...' (comma operator) and the motor moves at once."
  },
  {
   "property": "C303",
   "status": "partial",
   "theorems": [
    "GridPACK.MotorW.C303_power_partial",
    "GridPACK.MotorW.C303_overload_violated",
    "GridPACK.MotorW.C303_negative_violated"
   ],
   "note": "The adjustment is exact on one side only. For loads above the capability of the motor and for negative loads no slip is found and an uninitialised value is used."
  },
  {
   "property": "C304",
   "status": "partial",
   "theorems": [
    "GridPACK.MotorW.C304_parameters_partial",
    "GridPACK.MotorW.C304_x1_violated"
   ],
   "note": "All parameters but the reactance of the first rotor circuit, which is overwritten by 0.08."
  },
  {
   "property": "C305",
   "status": "proved",
   "theorems": [
    "GridPACK.MotorW.C305_share",
    "GridPACK.MotorW.C305_static"
   ],
   "note": "Currents are those of both injection functions, which are equal."
  },
  {
   "property": "C306",
   "status": "partial",
   "theorems": [
    "GridPACK.AcMotor.C306_record_partial",
    "GridPACK.AcMotor.C306_composite_violated",
    "GridPACK.AcMotor.C306_power_violated"
   ],
   "note": "Holds for records of their own. For the air conditioners of a composite load, restarting time and load factor are read and then overwritten by defaults, and the motors take 43 per cent of the power assigned to them."
  },
  {
   "property": "C307",
   "status": "partial",
   "theorems": [
    "GridPACK.AcMotor.C307_stall",
    "GridPACK.AcMotor.C307_restart_partial",
    "GridPACK.AcMotor.C307_again_violated"
   ],
   "note": "First stalling and restarting are proved for all histories; a part that has restarted never stalls again."
  },
  {
   "property": "C308",
   "status": "proved",
   "theorems": [
    "GridPACK.AcMotor.C308_relay"
   ],
   "note": "For a positive part with relays and times that are not negative."
  },
  {
   "property": "C309",
   "status": "partial",
   "theorems": [
    "GridPACK.AcMotor.C309_range",
    "GridPACK.AcMotor.C309_limits_partial",
    "GridPACK.AcMotor.C309_reconnect_violated"
   ],
   "note": "Below the thresholds for closing, motors are connected again as soon as the voltage is above the lower threshold for opening."
  },
  {
   "property": "C310",
   "status": "partial",
   "theorems": [
    "GridPACK.AcMotor.C310_range",
    "GridPACK.AcMotor.C310_share_partial",
    "GridPACK.AcMotor.C310_warm_partial",
    "GridPACK.AcMotor.C310_return_violated",
    "GridPACK.AcMotor.C310_cold_violated"
   ],
   "note": "Disconnected motors come back when the temperature falls; the losses of the running part B are assigned to the wrong variable, so that it cools down while running."
  },
  {
   "property": "C311",
   "status": "partial",
   "theorems": [
    "GridPACK.AcMotor.C311_start_partial",
    "GridPACK.AcMotor.C311_break_violated"
   ],
   "note": "Proved above the break point of the curves. At the break point the part that restarts takes the power of stalled motors (comparison > instead of >=)."
  },
  {
   "property": "C312",
   "status": "proved",
   "theorems": [
    "GridPACK.AcMotor.C312_drawn",
    "GridPACK.AcMotor.C312_share"
   ],
   "note": ""
  },
  {
   "property": "C313",
   "status": "proved",
   "theorems": [
    "GridPACK.Wind.C313_start",
    "GridPACK.Wind.C313_flat"
   ],
   "note": "The electrical controller is not modelled: its commands are inputs."
  },
  {
   "property": "C314",
   "status": "proved",
   "theorems": [
    "GridPACK.Wind.C314_ramp",
    "GridPACK.Wind.C314_low"
   ],
   "note": "The ramp is counted from the start."
  },
  {
   "property": "C315",
   "status": "partial",
   "theorems": [
    "GridPACK.Wind.C315_report_partial",
    "GridPACK.Wind.C315_overvoltage_violated",
    "GridPACK.Wind.C315_base_violated"
   ],
   "note": "The reactive current withheld at overvoltage is added instead of subtracted in the reports; values on the machine base are those on the system base."
  },
  {
   "property": "C316",
   "status": "partial",
   "theorems": [
    "GridPACK.Wind.C316_speed_partial",
    "GridPACK.Wind.C316_turbine_violated",
    "GridPACK.Wind.C316_gap_violated"
   ],
   "note": "The speed of the generator is proved for one mass without damping; the speed of the turbine never changes."
  },
  {
   "property": "C317",
   "status": "partial",
   "theorems": [
    "GridPACK.Wind.C317_rest_partial",
    "GridPACK.Wind.C317_no_plant_violated"
   ],
   "note": "Proved with a plant controller. Without one the pitch controller compares the power with an uninitialised variable."
  },
  {
   "property": "C318",
   "status": "partial",
   "theorems": [
    "GridPACK.Wind.C318_pitch",
    "GridPACK.Wind.C318_torque_partial",
    "GridPACK.Wind.C318_torque_violated"
   ],
   "note": "The pitch angle is always within its limits. The limits of the torque apply to the integral part only, so the torque exceeds them if there is a proportional gain."
  },
  {
   "property": "C319",
   "status": "proved",
   "theorems": [
    "GridPACK.GridForming.C319_start",
    "GridPACK.GridForming.C319_flat"
   ],
   "note": "Currents below the limit; for the rest also an operating point inside the limits of power, reactive power and internal voltage, gains not negative, time constants unused or in (0, 1000]."
  },
  {
   "property": "C320",
   "status": "partial",
   "theorems": [
    "GridPACK.GridForming.C320_limit_partial",
    "GridPACK.GridForming.C320_limit_violated"
   ],
   "note": "The limit is applied with the voltage before the solution of the network; with the voltage of the solution the current is not limited."
  },
  {
   "property": "C321",
   "status": "partial",
   "theorems": [
    "GridPACK.PlantControl.C321_rest_partial",
    "GridPACK.PlantControl.C321_reactive_violated"
   ],
   "note": "Proved when the references are the power of the generator; a plant that controls the reactive power takes its own output as setpoint and drifts when the reference handed over at the start is something else."
  },
  {
   "property": "C322",
   "status": "partial",
   "theorems": [
    "GridPACK.PlantControl.C322_direction_partial",
    "GridPACK.PlantControl.C322_over_violated"
   ],
   "note": "The two gains are swapped: the gain for high frequencies acts on low ones. The direction is right when both gains are positive."
  },
  {
   "property": "C323",
   "status": "partial",
   "theorems": [
    "GridPACK.PlantControl.C323_distance_partial",
    "GridPACK.PlantControl.C323_limit_violated"
   ],
   "note": "The limits bound the integrators, not the references; the reference of real power misses them by at most the proportional gain times the largest error. The distance for the reactive power is missing."
  },
  {
   "property": "C324",
   "status": "partial",
   "theorems": [
    "GridPACK.ElecControl.C324_each_partial",
    "GridPACK.ElecControl.C324_total_violated"
   ],
   "note": "Each of the two currents is limited; the total is not, since the room for one current is computed from the other one before the call."
  },
  {
   "property": "C325",
   "status": "partial",
   "theorems": [
    "GridPACK.ElecControl.C325_hold_partial",
    "GridPACK.ElecControl.C325_negative_violated",
    "GridPACK.ElecControl.C325_again_violated"
   ],
   "note": "Proved for positive holding times and zero. Negative times are treated like positive ones that are over after one step; in a second dip during the holding time the constant stays."
  },
  {
   "property": "C326",
   "status": "partial",
   "theorems": [
    "GridPACK.ElecControl.C326_reactive_violated"
   ],
   "note": "The integrator of the reactive power is never advanced; without proportional gain (the default) the reactive power has no influence."
  },
  {
   "property": "C327",
   "status": "partial",
   "theorems": [
    "GridPACK.ElecControl.C327_equal_partial",
    "GridPACK.ElecControl.C327_table_violated"
   ],
   "note": "The two tables are exchanged; with equal tables, as in the default values, both currents stay within the table after every call. Tables that differ are missing."
  },
  {
   "property": "C328",
   "status": "partial",
   "theorems": [
    "GridPACK.PlantControl.C328_state_partial",
    "GridPACK.PlantControl.C328_first_violated"
   ],
   "note": "The integrator does not change. In a first step with a low voltage the corrector uses a state that has not been set, so the reference handed over can have any value."
  }
 ]
}