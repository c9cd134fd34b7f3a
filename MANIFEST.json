{
 "claims": [
  {
   "property": "C01",
   "status": "proved",
   "theorems": [
    "Bob.C01_mtime_decision_exact",
    "Bob.C01_same_second_edit_missed"
   ],
   "note": ""
  },
  {
   "property": "C02",
   "status": "proved",
   "theorems": [
    "Bob.C02_flag_change_noticed",
    "Bob.C02_record_is_updated",
    "Bob.C02_unwritable_record",
    "Bob.C02_newline_flags_false",
    "Bob.C02_nul_flags_false"
   ],
   "note": "For flags without newline and NUL; the claim is refuted for flags with either (C02_newline_flags_false, C02_nul_flags_false)."
  },
  {
   "property": "C03",
   "status": "proved",
   "theorems": [
    "Bob.C03_rebuild_does_nothing"
   ],
   "note": "For every directory reached by any history of edits and builds."
  },
  {
   "property": "C04",
   "status": "proved",
   "theorems": [
    "Bob.C04_incremental_build_up_to_date",
    "Bob.C04_same_as_clean_build",
    "Bob.C04_link_reorder_false"
   ],
   "note": "For projects in which the path of a product determines its inputs; reordering link inputs is refuted (C04_link_reorder_false). Edits are stamped later than earlier builds."
  },
  {
   "property": "C05",
   "status": "partial",
   "theorems": [
    "Bob.C05_stopped_builds_partial",
    "Bob.C05_suspects_partial",
    "Bob.C05_same_flags_partial",
    "Bob.C05_flag_change_false"
   ],
   "note": "Refuted when flags change (C05_flag_change_false); proved for products whose flags were not changed by a stopped build, in particular for constant flags."
  },
  {
   "property": "C06",
   "status": "proved",
   "theorems": [
    "Bob.C06_include_deps_roundtrip",
    "Bob.C06_names_with_blanks_false"
   ],
   "note": "For names without blanks, newlines, NUL and not starting with ':' or '\\'; refuted for names with blanks."
  },
  {
   "property": "C07",
   "status": "proved",
   "theorems": [
    "Bob.C07_edit_recompiles_exactly_includers"
   ],
   "note": "For compilations, in a directory left by a successful build after any history."
  },
  {
   "property": "C08",
   "status": "proved",
   "theorems": [
    "Bob.C08_steps_succeed_iff",
    "Bob.C08_steps_fail_iff",
    "Bob.C08_order",
    "Bob.C08_cancelled_pool_runs_nothing",
    "Bob.C08_failed_step_ends_build",
    "Bob.C08_success_means_all_steps",
    "Bob.C08_failure_is_final"
   ],
   "note": "Order of steps (Props/Replay) and that no later phase happens after a failure, for every command line (C08_order)."
  },
  {
   "property": "C09",
   "status": "proved",
   "theorems": [
    "Bob.C09_outcome_independent_of_schedule"
   ],
   "note": "From every directory after an edit, for installed copies without time stamps of the future."
  },
  {
   "property": "C10",
   "status": "proved",
   "theorems": [
    "Bob.C10_object_inside_output",
    "Bob.C10_link_inside_output"
   ],
   "note": ""
  },
  {
   "property": "C11",
   "status": "partial",
   "theorems": [
    "Bob.C11_object_shared_iff",
    "Bob.C11_distinct_sources_partial",
    "Bob.C11_distinct_sources_no_underscore_partial",
    "Bob.C11_distinct_sources_false"
   ],
   "note": "Exact condition for sharing an object file proved; the unconditional claim is refuted by an explicit hash collision."
  },
  {
   "property": "C12",
   "status": "proved",
   "theorems": [
    "Bob.C12_link_order_irrelevant"
   ],
   "note": ""
  },
  {
   "property": "C13",
   "status": "partial",
   "theorems": [
    "Bob.C13_duplicate_inputs_cancel",
    "Bob.C13_distinct_inputs_false",
    "Bob.C13_replace_one_input_partial",
    "Bob.C13_drop_one_input_partial"
   ],
   "note": "Refuted in general (duplicates cancel); proved for replacing or dropping one input."
  },
  {
   "property": "C14",
   "status": "partial",
   "theorems": [
    "Bob.C14_kinds_never_clash",
    "Bob.C14_two_flag_lists_share_object_false"
   ],
   "note": "The claim is refuted for every compiler, source and pair of flag lists (C14_two_flag_lists_share_object_false); files of different kinds never clash."
  },
  {
   "property": "C15",
   "status": "proved",
   "theorems": [
    "Bob.C15_requests_served_once_in_order",
    "Bob.C15_grouping_unique",
    "Bob.C15_incoherent_aborts"
   ],
   "note": ""
  },
  {
   "property": "C16",
   "status": "proved",
   "theorems": [
    "Bob.C16_no_task_runs_twice"
   ],
   "note": ""
  },
  {
   "property": "C17",
   "status": "proved",
   "theorems": [
    "Bob.C17_wait_success_all_done",
    "Bob.C17_zero_workers_false",
    "Bob.C17_late_task_false"
   ],
   "note": "For a pool with at least one worker and no task added after the last worker left; both exceptions are refuted by executions."
  },
  {
   "property": "C18",
   "status": "proved",
   "theorems": [
    "Bob.C18_failure_reported",
    "Bob.C18_failure_only_if_task_failed",
    "Bob.C18_stops_soon"
   ],
   "note": ""
  },
  {
   "property": "C19",
   "status": "proved",
   "theorems": [
    "Bob.C19_bounded_work",
    "Bob.C19_no_deadlock",
    "Bob.C19_wait_returns",
    "Bob.C19_build_bounded",
    "Bob.C19_build_returns"
   ],
   "note": ""
  },
  {
   "property": "C20",
   "status": "proved",
   "theorems": [
    "Bob.C20_at_most_n_running",
    "Bob.C20_job_limit",
    "Bob.C20_default_jobs"
   ],
   "note": ""
  },
  {
   "property": "C21",
   "status": "proved",
   "theorems": [
    "Bob.C21_argv_exact"
   ],
   "note": "Any sequence of cmd_create/cmd_add/cmd_addf/cmd_add_argv; memory slots modelled, so no unwritten slot is read."
  },
  {
   "property": "C22",
   "status": "proved",
   "theorems": [
    "Bob.C22_find_bin",
    "Bob.C22_spawn_runs_another_file_false",
    "Bob.C22_spawn_runs_found"
   ],
   "note": "find_bin in full. Also proved: posix_spawnp runs a different file when a bare name is executable in the working directory (witness), and the found file in all other cases."
  },
  {
   "property": "C23",
   "status": "proved",
   "theorems": [
    "Bob.C23_fate_reported",
    "Bob.C23_wait_error_false",
    "Bob.C23_exec_result"
   ],
   "note": "For every fate of the process. A failing first waitpid is reported as success (C23_wait_error_false)."
  },
  {
   "property": "C24",
   "status": "proved",
   "theorems": [
    "Bob.C24_output_complete",
    "Bob.C24_chunking_irrelevant",
    "Bob.C24_log_is_text"
   ],
   "note": "For every chunking; read errors end the loop like end of file. The log text refines the build model's writeLog."
  },
  {
   "property": "C25",
   "status": "partial",
   "theorems": [
    "Bob.C25_large_output_blocks_false",
    "Bob.C25_small_output_terminates_partial"
   ],
   "note": "Full statement is false and refuted for every pipe capacity; the terminating case (output fits into the pipe) is proved."
  },
  {
   "property": "C26",
   "status": "partial",
   "theorems": [
    "Bob.C26_spawn_error_false",
    "Bob.C26_noticed_failures_partial"
   ],
   "note": "Full statement is false and refuted for every spawn error; failing lookup and failing pipe are reported."
  },
  {
   "property": "C27",
   "status": "proved",
   "theorems": [
    "Bob.C27_diagnostics_replayed",
    "Bob.C27_killed_build_false"
   ],
   "note": "For histories of edits and successful builds in which logs are not deleted alone; refuted after a killed build (C27_killed_build_false)."
  },
  {
   "property": "C28",
   "status": "proved",
   "theorems": [
    "Bob.C28_nothing_copied",
    "Bob.C28_install_map",
    "Bob.C28_nothing_installed",
    "Bob.C28_no_prefix",
    "Bob.C28_installed"
   ],
   "note": "The result of reading the map for every value of 'install'; that nothing is copied after a rejection is C28_nothing_copied (Props/Cli)."
  },
  {
   "property": "C29",
   "status": "proved",
   "theorems": [
    "Bob.C29_install_copies",
    "Bob.C29_install_changes_nothing_else",
    "Bob.C29_into_directory_false"
   ],
   "note": "For entries which do not overlap and where no file is installed onto an existing directory; without the latter refuted (C29_into_directory_false)."
  },
  {
   "property": "C30",
   "status": "partial",
   "theorems": [
    "Bob.C30_product_copied_partial",
    "Bob.C30_products_installed_partial",
    "Bob.C30_second_entry_false"
   ],
   "note": "For the first entry of a product in the install map, for every history; refuted for further entries (C30_second_entry_false). C30_product_copied_partial: the copy itself, on the file system with directories."
  },
  {
   "property": "C31",
   "status": "proved",
   "theorems": [
    "Bob.C31_parents_created",
    "Bob.C31_dotdot_outside_false"
   ],
   "note": "For destinations without '..'; with '..' the destination can lie outside the prefix (C31_dotdot_outside_false)."
  },
  {
   "property": "C32",
   "status": "proved",
   "theorems": [
    "Bob.C32_install_twice",
    "Bob.C32_into_directory_false"
   ],
   "note": "Same condition as C29; refuted without it (C32_into_directory_false)."
  },
  {
   "property": "C33",
   "status": "partial",
   "theorems": [
    "Bob.C33_sibling_false",
    "Bob.C33_product_iff_partial",
    "Bob.C33_inside_is_product_partial"
   ],
   "note": "False as stated: siblings of the output directory whose name begins alike count as products (C33_sibling_false); the exact set is proved."
  },
  {
   "property": "C34",
   "status": "proved",
   "theorems": [
    "Bob.C34_ownership"
   ],
   "note": "The owner is the owner of the project directory; files made before the absolute output path is known are only those of the output directory itself."
  },
  {
   "property": "C35",
   "status": "proved",
   "theorems": [
    "Bob.C35_prefix",
    "Bob.C35_exit_success_iff"
   ],
   "note": "Both directions; run and sh which become another program have that program's status."
  },
  {
   "property": "C36",
   "status": "proved",
   "theorems": [
    "Bob.C36_environment",
    "Bob.C36_entries",
    "Bob.C36_colon_false",
    "Bob.C36_fresh_found",
    "Bob.C36_shadowed_false",
    "Bob.C36_exec_env"
   ],
   "note": "Environment and, for output paths without a colon, lists of directories; refuted with a colon; a program of that name in the project directory shadows the fresh one (C36_shadowed_false)."
  },
  {
   "property": "C37",
   "status": "proved",
   "theorems": [
    "Bob.C37_run_command",
    "Bob.C37_process"
   ],
   "note": ""
  },
  {
   "property": "C38",
   "status": "proved",
   "theorems": [
    "Bob.C38_first_match",
    "Bob.C38_no_match"
   ],
   "note": ""
  },
  {
   "property": "C39",
   "status": "proved",
   "theorems": [
    "Bob.Fl.C39_lookup_innermost",
    "Bob.Fl.C39_lookup_only_innermost",
    "Bob.Fl.C39_lookup_none",
    "Bob.Fl.C39_unknown_identifier",
    "Bob.Fl.C39_identifier_value"
   ],
   "note": "For every state and stack of live scopes: lookup gives the first declaration from the innermost scope outwards, none if there is none, and an unknown identifier is refused."
  },
  {
   "property": "C40",
   "status": "proved",
   "theorems": [
    "Bob.Fl.C40_redeclared_variable",
    "Bob.Fl.C40_redeclared_function",
    "Bob.Fl.C40_declares",
    "Bob.Fl.C40_function_declared",
    "Bob.Fl.C40_variable_declared",
    "Bob.Fl.C40_variable_none"
   ],
   "note": "Redeclaration is refused for variables, functions and classes; otherwise exactly one name is added, to the innermost scope. What the initialiser itself does is not constrained (it is an arbitrary expression)."
  },
  {
   "property": "C41",
   "status": "proved",
   "theorems": [
    "Bob.Fl.C41_statement_keeps_stack",
    "Bob.Fl.C41_statements_keep_stack",
    "Bob.Fl.C41_block_adds_no_name",
    "Bob.Fl.C41_script_keeps_stack"
   ],
   "note": "By induction over the recursion depth, for every script, state and file system."
  },
  {
   "property": "C42",
   "status": "proved",
   "theorems": [
    "Bob.Fl.C42_expression_adds_no_name",
    "Bob.Fl.C42_call_adds_no_name"
   ],
   "note": "By induction over the recursion depth, for every expression and call."
  },
  {
   "property": "C43",
   "status": "partial",
   "theorems": [
    "Bob.Fl.C43_function_not_assignable",
    "Bob.Fl.C43_member_not_assignable",
    "Bob.Fl.C43_through_vector_false"
   ],
   "note": "Proved for assignment to names and to members. False through a vector element: assigning to an element overwrites the shared value in place, so a function put into a vector is replaced under its name as well (C43_through_vector_false)."
  },
  {
   "property": "C44",
   "status": "partial",
   "theorems": [
    "Bob.Fl.C44_variable_false",
    "Bob.Fl.C44_through_none_false",
    "Bob.Fl.C44_element_partial",
    "Bob.Fl.C44_variable_takes_any_kind"
   ],
   "note": "False for variables (C44_variable_false: the check compares the old value with itself) and, through none, for elements (C44_through_none_false). Proved: an element of a vector or map refuses a value of another kind, and a variable takes any."
  },
  {
   "property": "C45",
   "status": "partial",
   "theorems": [
    "Bob.Fl.C45_lines_skipped",
    "Bob.Fl.C45_return_sets",
    "Bob.Fl.C45_return_partial",
    "Bob.Fl.C45_call_aborts_false",
    "Bob.Fl.C45_value_lost_false",
    "Bob.Fl.C45_declarations_false"
   ],
   "note": "Proved for 'return e' at the end of a run of lines when e itself returns normally into the result slot (C45_return_partial), and that lines after it are skipped. False if e is a call (C45_call_aborts_false, C45_value_lost_false) and for nested declarations after it (C45_declarations_false)."
  },
  {
   "property": "C46",
   "status": "partial",
   "theorems": [
    "Bob.Fl.C46_top_level_partial",
    "Bob.Fl.C46_block_false"
   ],
   "note": "Proved for a return in the outermost scope of the file; false inside a block there (C46_block_false)."
  },
  {
   "property": "C47",
   "status": "partial",
   "theorems": [
    "Bob.Fl.C47_definition",
    "Bob.Fl.C47_own_variables_partial",
    "Bob.Fl.C47_recursion_false"
   ],
   "note": "Proved: a function remembers the scopes of its definition, and a call not made while the function is running gets them and a new scope of its own. False for recursion (C47_recursion_false)."
  },
  {
   "property": "C48",
   "status": "proved",
   "theorems": [
    "Bob.Fl.C48_structure",
    "Bob.Fl.C48_reflexive",
    "Bob.Fl.C48_symmetric",
    "Bob.Fl.C48_transitive",
    "Bob.Fl.C48_operator",
    "Bob.Fl.C48_repeated_keys_false"
   ],
   "note": "Total: on values without function or instance parts the comparison returns and says whether the trees are the same up to map order. C48_repeated_keys_false shows why maps with repeated keys are excluded."
  },
  {
   "property": "C49",
   "status": "partial",
   "theorems": [
    "Bob.Fl.C49_distinct_partial",
    "Bob.Fl.C49_duplicate",
    "Bob.Fl.C49_lookup",
    "Bob.Fl.C49_late_false"
   ],
   "note": "Keys are distinct at the moment each is compared; a later value expression can change an earlier key (C49_late_false), so the literal can end with equal keys. Lookup is complete."
  },
  {
   "property": "C50",
   "status": "proved",
   "theorems": [
    "Bob.Fl.C50_from_front",
    "Bob.Fl.C50_from_back",
    "Bob.Fl.C50_out_of_bounds",
    "Bob.Fl.C50_smallest_index",
    "Bob.Fl.C50_kinds"
   ],
   "note": "For every vector, index and state; the index -2^63 is undefined behaviour, as stated."
  },
  {
   "property": "C51",
   "status": "proved",
   "theorems": [
    "Bob.Fl.C51_arithmetic",
    "Bob.Fl.C51_exact_when_fits",
    "Bob.Fl.C51_comparison",
    "Bob.Fl.C51_negation"
   ],
   "note": "All operators and operands of 64 bits; truncation stated by remainder bounds rather than by Lean's division."
  },
  {
   "property": "C52",
   "status": "partial",
   "theorems": [
    "Bob.Fl.C52_different_kinds",
    "Bob.Fl.C52_unsupported",
    "Bob.Fl.C52_none",
    "Bob.Fl.C52_discarded_false"
   ],
   "note": "Proved whenever somebody wants the result. If the value of the expression is thrown away the operator is not looked at (C52_discarded_false)."
  },
  {
   "property": "C53",
   "status": "proved",
   "theorems": [
    "Bob.Fl.C53_both_operands",
    "Bob.Fl.C53_left_fails",
    "Bob.Fl.C53_right_fails",
    "Bob.Fl.C53_boolean_operators"
   ],
   "note": "Both operands are evaluated, left first, for every operator; a failure of either is the outcome."
  },
  {
   "property": "C54",
   "status": "partial",
   "theorems": [
    "Bob.Fl.C54_len",
    "Bob.Fl.C54_vec_len",
    "Bob.Fl.C54_startswith",
    "Bob.Fl.C54_endswith",
    "Bob.Fl.C54_overwritten_false"
   ],
   "note": "Assumes the member functions of the engine have not been overwritten by the script; C54_overwritten_false is a script that does so and then aborts."
  },
  {
   "property": "C55",
   "status": "partial",
   "theorems": [
    "Bob.Fl.C55_map_partial",
    "Bob.Fl.C55_where_partial",
    "Bob.Fl.C55_shrinking_false"
   ],
   "note": "Full for runs in which the members of vectors are not overwritten; elements are looked up before each call. C55_shrinking_false: a callback which shortens the vector makes map read beyond its end."
  },
  {
   "property": "C56",
   "status": "partial",
   "theorems": [
    "Bob.Fl.C56_vectors_partial",
    "Bob.Fl.C56_maps_partial",
    "Bob.Fl.C56_strings",
    "Bob.Fl.C56_assignment",
    "Bob.Fl.C56_assignment_after",
    "Bob.Fl.C56_nul_false",
    "Bob.Fl.C56_nested_false",
    "Bob.Fl.C56_name_false"
   ],
   "note": "Full except for elements that are strings with a NUL byte (C56_nul_false) or are named after a variable of a released instance (C56_name_false). C56_nested_false shows that elements of elements are shared."
  },
  {
   "property": "C57",
   "status": "proved",
   "theorems": [
    "Bob.Fl.C57_digits",
    "Bob.Fl.C57_literal",
    "Bob.Fl.C57_bad_character"
   ],
   "note": "The value is Nat.ofDigits of the digits; anything else is refused at the first such character."
  },
  {
   "property": "C58",
   "status": "proved",
   "theorems": [
    "Bob.Fl.C58_stops",
    "Bob.Fl.C58_script_fails",
    "Bob.Fl.C58_first_failure",
    "Bob.Fl.C58_block",
    "Bob.Fl.C58_import",
    "Bob.Fl.C58_nothing_built"
   ],
   "note": "An error at any statement stops the script there: what follows does not run, blocks and imports pass it on, the script fails and bob builds nothing and exits with failure (via the CLI model)."
  },
  {
   "property": "C59",
   "status": "partial",
   "theorems": [
    "Bob.Fl.C59_unknown_name",
    "Bob.Fl.C59_long_message_false",
    "Bob.Fl.C59_own_initialiser_false",
    "Bob.Fl.C59_overflow_false"
   ],
   "note": "Refuted: long messages abort (C59_long_message_false), a variable in its own initialiser (C59_own_initialiser_false) and overflow are undefined. Exact outcome for unknown names of every length (C59_unknown_name); errors stop the script by C58. Disciplined scripts crash only for the reasons listed in C69_no_memory_errors."
  },
  {
   "property": "C60",
   "status": "proved",
   "theorems": [
    "Bob.Fl.C60_left_to_right",
    "Bob.Fl.C60_only_left_to_right",
    "Bob.Fl.C60_argument_fails",
    "Bob.Fl.C60_not_callable",
    "Bob.Fl.C60_arity",
    "Bob.Fl.C60_expression_body",
    "Bob.Fl.C60_block_body",
    "Bob.Fl.C60_parameter",
    "Bob.Fl.C60_parameter_in_block"
   ],
   "note": "For every callable and argument list; what goes wrong in an argument, in the count or in the callee is the outcome of the call."
  },
  {
   "property": "C61",
   "status": "proved",
   "theorems": [
    "Bob.Fl.C61_instance",
    "Bob.Fl.C61_own_scope",
    "Bob.Fl.C61_instances_have_scopes",
    "Bob.Fl.C61_through_instance",
    "Bob.Fl.C61_through_class",
    "Bob.Fl.C61_static_scope",
    "Bob.Fl.C61_assignment_is_local"
   ],
   "note": "Calling a class gives a new instance whose scope is new, belongs to it and (for bodies that neither return nor import) has exactly the declared names; no existing instance has that scope, in any state a script reaches. The class's own scope has exactly the static names. Access through instances and classes is decided by these scopes, and assigning to a member changes the instance's scope only. A class that was overwritten through a vector element while its own body ran is excluded by hypothesis; copies of an instance value denote the same instance."
  },
  {
   "property": "C62",
   "status": "partial",
   "theorems": [
    "Bob.Fl.C62_requests",
    "Bob.Fl.C62_result",
    "Bob.Fl.C62_links_apart",
    "Bob.Fl.C62_kinds",
    "Bob.Fl.C62_foreign",
    "Bob.Fl.C62_built_partial",
    "Bob.Fl.C62_discarded_false"
   ],
   "note": "The registered steps are exactly the requests of the compile, link and archive calls evaluated, in order, and each call returns the value its request names; what bob then builds is their concatenation whenever the requests can still be read. They can for every script with a meaning (C72_script_means). Missing: in general the requests do not keep their values alive, so a request whose result is discarded is read after being freed (C62_discarded_false)."
  },
  {
   "property": "C63",
   "status": "proved",
   "theorems": [
    "Bob.Fl.C63_import_runs_file",
    "Bob.Fl.C63_names",
    "Bob.Fl.C63_clash",
    "Bob.Fl.C63_error",
    "Bob.Fl.C63_clash_message",
    "Bob.Fl.C63_missing",
    "Bob.Fl.C63_cycle",
    "Bob.Fl.C63_cycle_script",
    "Bob.Fl.C63_self_import_diverges"
   ],
   "note": "For files without top-level returns; imports inside them included (Declares). A clash never succeeds (C63_clash) and gives the stated message for variables (C63_clash_message); every import cycle is shown not to end normally (C63_cycle)."
  },
  {
   "property": "C64",
   "status": "proved",
   "theorems": [
    "Bob.Fl.C64_deeper",
    "Bob.Fl.C64_unique",
    "Bob.Fl.C64_any_depth",
    "Bob.Fl.C64_eventually",
    "Bob.Fl.C64_expression"
   ],
   "note": "A script's outcome does not depend on the depth allowed for it: any two depths that do not run out agree, for whole scripts and for single expressions."
  },
  {
   "property": "C65",
   "status": "partial",
   "theorems": [
    "Bob.Fl.C65_map_false",
    "Bob.Fl.C65_twice_false",
    "Bob.Fl.C65_element_false",
    "Bob.Fl.C65_closure_false",
    "Bob.Fl.C65_name_false"
   ],
   "note": "Refuted in four ways (map callback, assignment whose right side assigns too, element assignment, closures over instances); names of values are lost in the last way too. Holds for every disciplined script (C69_values_kept)."
  },
  {
   "property": "C66",
   "status": "partial",
   "theorems": [
    "Bob.C66_changed_file_in_directory_false",
    "Bob.C66_newer_source_installed_partial"
   ],
   "note": "Refuted for a file changed inside an installed directory; proved for sources whose modification time is not before that of the destination."
  },
  {
   "property": "C67",
   "status": "partial",
   "theorems": [
    "Bob.C67_jobs_partial",
    "Bob.C67_every_number_partial",
    "Bob.C67_wraps_false",
    "Bob.C67_jobs_in_range"
   ],
   "note": "False for numbers that do not fit an int (C67_wraps_false). Proved for all numbers what becomes of them (C67_every_number_partial), that those which fit are used or refused as stated, and that the number used is always from 1 to 1024."
  },
  {
   "property": "C68",
   "status": "partial",
   "theorems": [
    "Bob.C68_operands_partial",
    "Bob.C68_after_dashes_partial",
    "Bob.C68_posix_partial",
    "Bob.C68_option_taken_false"
   ],
   "note": "False with glibc's getopt (C68_option_taken_false); proved for operands, after -- and for a getopt that does not permute."
  },
  {
   "property": "C69",
   "status": "proved",
   "theorems": [
    "Bob.Fl.C69_no_memory_errors",
    "Bob.Fl.C69_values_kept",
    "Bob.Fl.C69_project_scripts",
    "Bob.Fl.C69_crashes_left"
   ],
   "note": "For all disciplined scripts, worlds and lengths of runs. C69_crashes_left: the other reasons for crashes do occur (except whereInst, for which no script is known)."
  },
  {
   "property": "C70",
   "status": "proved",
   "theorems": [
    "Bob.Fl.C70_passed",
    "Bob.Fl.C70_true",
    "Bob.Fl.C70_false",
    "Bob.Fl.C70_other"
   ],
   "note": "Both directions (C70_passed, C70_true, C70_false, C70_other), for every state that is not already returning."
  },
  {
   "property": "C71",
   "status": "proved",
   "theorems": [
    "Bob.Fl.C71_line",
    "Bob.Fl.C71_ambiguous",
    "Bob.Fl.C71_kept",
    "Bob.Fl.C71_in_order"
   ],
   "note": "For every value that consists of none, booleans, integers, strings, vectors and maps (functions and instances are not trees). Different values can be printed alike because nothing is escaped (C71_ambiguous)."
  },
  {
   "property": "C72",
   "status": "proved",
   "theorems": [
    "Bob.Fl.C72_script_means",
    "Bob.Fl.C72_setup",
    "Bob.Fl.C72_one_meaning",
    "Bob.Fl.C72_own_build",
    "Bob.Fl.C72_skeleton_build",
    "Bob.Fl.C72_frugality_build"
   ],
   "note": "For every script the description gives a meaning to (C72_script_means); accepted by setup (C72_setup); unique (C72_one_meaning); the project's scripts for every listing of src."
  },
  {
   "property": "C73",
   "status": "proved",
   "theorems": [
    "Bob.C73_compile_command",
    "Bob.C73_link_command",
    "Bob.C73_archive_command",
    "Bob.C73_compile_unambiguous",
    "Bob.C73_link_ambiguous_false"
   ],
   "note": "C73_link_ambiguous_false shows that inputs and flags of a link are not told apart; lengths of flags are assumed to fit an int."
  },
  {
   "property": "C74",
   "status": "partial",
   "theorems": [
    "Bob.C74_tools_not_noticed",
    "Bob.C74_tools_noticed_false"
   ],
   "note": "Refuted as stated (C74_tools_noticed_false). C74_tools_not_noticed proves what happens instead: such a build runs no command at all and keeps every file but the installed ones."
  },
  {
   "property": "C75",
   "status": "proved",
   "theorems": [
    "Bob.Fl.C75_described_build",
    "Bob.Fl.C75_program_right",
    "Bob.Fl.C75_skeleton",
    "Bob.Fl.C75_own"
   ],
   "note": "Names of products are assumed not to collide (C11, C13): Plan.Ok."
  },
  {
   "property": "C76",
   "status": "partial",
   "theorems": [
    "Bob.Fl.C76_installed_right_partial",
    "Bob.Fl.C76_installed_right_false"
   ],
   "note": "Refuted as stated (C76_installed_right_false): after a source is added and deleted again the program with the deleted source stays installed. C76_installed_right_partial proves it for histories in which no list of sources comes back."
  },
  {
   "property": "C77",
   "status": "partial",
   "theorems": [
    "Bob.Fl.C77_scope_twice",
    "Bob.Fl.C77_failed_method",
    "Bob.Fl.C77_teardown_safe_partial",
    "Bob.Fl.C77_teardown_safe_false",
    "Bob.Fl.C77_badMethod_ub",
    "Bob.Fl.C77_copies_false"
   ],
   "note": "False as stated (C77_teardown_safe_false, with the crash in C77_badMethod_ub): a failing method of an instance is torn down with a double free, for all such calls (C77_failed_method, C77_scope_twice); so is a failure in nested callbacks over functions that share a body (C77_copies_false). Positive part: teardown ends well from every state whose references are in order. Missing: that every disciplined script that fails elsewhere leaves such a state (shown for a list of scripts only)."
  },
  {
   "property": "C78",
   "status": "proved",
   "theorems": [
    "Bob.C78_colours_when_wanted",
    "Bob.C78_redirected"
   ],
   "note": "Exact characterisation over all environments and streams; strstr is specified by the existence of a split."
  },
  {
   "property": "C79",
   "status": "partial",
   "theorems": [
    "Bob.C79_terminal_restored_partial",
    "Bob.C79_signal_leaves_red",
    "Bob.C79_terminal_restored_false"
   ],
   "note": "Refuted in general (C79_terminal_restored_false; C79_signal_leaves_red for every command ended by a signal). Proved for every sequence of messages and reports without one."
  },
  {
   "property": "C80",
   "status": "partial",
   "theorems": [
    "Bob.C80_no_escapes_partial",
    "Bob.C80_marked_escapes",
    "Bob.C80_report_escapes",
    "Bob.C80_no_escapes_false"
   ],
   "note": "Refuted (C80_no_escapes_false; C80_marked_escapes and C80_report_escapes for every such message). Proved for messages without CLEAR in their format."
  },
  {
   "property": "C81",
   "status": "proved",
   "theorems": [
    "Bob.C81_log_shown_again"
   ],
   "note": "For every output, also with zero bytes; writing the log is assumed to succeed."
  },
  {
   "property": "C82",
   "status": "partial",
   "theorems": [
    "Bob.C82_report_agrees_partial",
    "Bob.C82_unstarted",
    "Bob.C82_report_agrees_false"
   ],
   "note": "Refuted for commands that cannot be started (C82_report_agrees_false, C82_unstarted). Proved for every command that was started."
  },
  {
   "property": "C83",
   "status": "partial",
   "theorems": [
    "Bob.C83_reason_given_partial",
    "Bob.C83_signal_given_partial",
    "Bob.C83_no_reason_iff",
    "Bob.C83_reason_given_false",
    "Bob.C83_unended_false"
   ],
   "note": "False as stated (C83_reason_given_false): when rm fails, or the source cannot be examined, the reason is never set and NULL is printed (C83_no_reason_iff says exactly when). Proved: failures of cp are reported with what cp printed, also when it is killed. A reason without a newline at its end loses its last byte (C83_unended_false)."
  },
  {
   "property": "C84",
   "status": "partial",
   "theorems": [
    "Bob.Fl.C84_still_there_partial",
    "Bob.Fl.C84_compile_there",
    "Bob.Fl.C84_outer",
    "Bob.Fl.C84_still_there_false",
    "Bob.Fl.C84_flags_gone_false"
   ],
   "note": "False as stated (C84_still_there_false): a step for linking does not hold the path of its result. Proved for all disciplined scripts whose link results are still held when the script ends, and for compile steps without that condition; that every instance asked had been set up is a hypothesis. C84_flags_gone_false: outside the discipline flags can be released too."
  },
  {
   "property": "C85",
   "status": "partial",
   "theorems": [
    "Bob.C85_nothing_lost_partial",
    "Bob.C85_in_order_partial",
    "Bob.C85_said_in_order_partial",
    "Bob.C85_redirected",
    "Bob.C85_lost_false",
    "Bob.C85_in_order_false"
   ],
   "note": "False as stated (C85_lost_false, C85_in_order_false, C85_redirected). Proved for all behaviours of the buffers: nothing is lost when bob exits; on a terminal everything is seen in order if what is printed to standard output are whole lines."
  },
  {
   "property": "C86",
   "status": "partial",
   "theorems": [
    "Bob.C86_all_end_partial",
    "Bob.C86_alone_false",
    "Bob.C86_stuck_false",
    "Bob.C86_one_worker"
   ],
   "note": "False as stated (C86_alone_false, C86_stuck_false): a child started between pipe and close of another worker keeps that worker's pipe open. Proved: if outputs fit into pipes every execution ends, and only with all commands run and all output read; with one worker reading never waits."
  },
  {
   "property": "C87",
   "status": "proved",
   "theorems": [
    "Bob.C87_proper",
    "Bob.C87_nothing_left",
    "Bob.C87_child",
    "Bob.C87_inherits_only",
    "Bob.C87_inherits"
   ],
   "note": "C87_proper: only own open descriptors are closed and read; C87_nothing_left: none is left after a command; C87_child, C87_inherits_only, C87_inherits: what a child has open. That other parts of bob close only files of their own is part of the model."
  },
  {
   "property": "C88",
   "status": "partial",
   "theorems": [
    "Bob.C88_together_partial",
    "Bob.C88_one_request_partial",
    "Bob.C88_goes_on",
    "Bob.C88_together_false",
    "Bob.C88_installing_false"
   ],
   "note": "False as stated (C88_together_false: merged requests have different locks; C88_installing_false: installing is reported without a lock). Proved for all that is printed for one request under its lock, and in full for a step with one request whose tasks print nothing else; C88_goes_on: no deadlock."
  },
  {
   "property": "C89",
   "status": "partial",
   "theorems": [
    "Bob.Mem.C89_paths",
    "Bob.Mem.C89_cookie_partial",
    "Bob.Mem.C89_cookie_nul_false",
    "Bob.Mem.C89_flags_partial",
    "Bob.Mem.C89_flags_long_false",
    "Bob.Mem.C89_file_partial",
    "Bob.Mem.C89_file_read_partial",
    "Bob.Mem.C89_unsized_false",
    "Bob.Mem.C89_shrunk_false",
    "Bob.Mem.C89_output",
    "Bob.Mem.C89_shorten",
    "Bob.Mem.C89_deps",
    "Bob.Mem.C89_headers",
    "Bob.Mem.C89_deps_roundtrip_partial",
    "Bob.Mem.C89_link_partial",
    "Bob.Mem.C89_empty_link_false",
    "Bob.Mem.C89_progname_partial",
    "Bob.Mem.C89_progname_false",
    "Bob.Mem.C89_missing_source_false"
   ],
   "note": "For each function, all inputs: the arrays for paths have room, flags, outputs of commands, dependency files and cookies come out as the rest of the model has them, and no byte outside of a buffer is touched. Hypotheses, each shown to be needed by a _false theorem: paths without zero bytes, flags below two gigabytes, files whose size is told and does not change, at least one file to link, a short program name or a working prctl. False for the message about a missing source file. Allocations are assumed to succeed."
  },
  {
   "property": "C90",
   "status": "partial",
   "theorems": [
    "Bob.Threads.C90_handles_partial",
    "Bob.Threads.C90_freed",
    "Bob.Threads.C90_goes_on",
    "Bob.Threads.C90_create_false"
   ],
   "note": "For all numbers of workers, sequences of calls and interleavings: no thread is joined twice, no unset handle is joined, all workers have been joined once and have ended when the pool is freed, and some thread can always go on. Missing, and shown false: the case that pthread_create fails, whose result is ignored."
  },
  {
   "property": "C91",
   "status": "partial",
   "theorems": [
    "Bob.Threads.C91_tasks",
    "Bob.Threads.C91_succeeding_partial",
    "Bob.Threads.C91_one_worker_partial",
    "Bob.Threads.C91_failing_false",
    "Bob.Threads.C91_started_false"
   ],
   "note": "No data race on the tasks, for all sequences of calls and interleavings; none at all when no task fails or there is one worker, for callers that do not call pool_start themselves. Missing, and shown false: pool->error when a task fails."
  },
  {
   "property": "C92",
   "status": "partial",
   "theorems": [
    "Bob.C92_looks",
    "Bob.C92_marked_looks",
    "Bob.C92_distinct",
    "Bob.C92_pictures",
    "Bob.C92_plain",
    "Bob.C92_streams",
    "Bob.C92_streams_partial",
    "Bob.C92_reasons_out",
    "Bob.C92_reason_false"
   ],
   "note": "False in full (C92_reason_false): the output of a failing command goes to standard output. Proved: the looks, the pictures, and the stream of every line that bob itself writes."
  },
  {
   "property": "C93",
   "status": "proved",
   "theorems": [
    "Bob.Parse.C93_accepted_texts_follow_the_grammar",
    "Bob.Parse.C93_nothing_else_is_left_out",
    "Bob.Parse.C93_mark_changes_nothing",
    "Bob.Parse.C93_sample",
    "Bob.Parse.C93_sample_doc"
   ],
   "note": ""
  },
  {
   "property": "C94",
   "status": "proved",
   "theorems": [
    "Bob.Parse.C94_parsing_ends",
    "Bob.Parse.C94_sample"
   ],
   "note": "Recovery from syntax errors is not modelled: an error is where it begins."
  },
  {
   "property": "C95",
   "status": "partial",
   "theorems": [
    "Bob.Parse.C95_binary_operators_bind_partial",
    "Bob.Parse.C95_unary_operators_bind_last",
    "Bob.Parse.C95_postfix_binds_first",
    "Bob.Parse.C95_sample_binary",
    "Bob.Parse.C95_sample_unary",
    "Bob.Parse.C95_unary_operators_bind_first_false",
    "Bob.Parse.C95_sample_postfix"
   ],
   "note": "False for unary operators (C95_unary_operators_bind_first_false, and C95_unary_operators_bind_last for all texts). Proved for binary operators, access, calls, indices and slices."
  },
  {
   "property": "C96",
   "status": "proved",
   "theorems": [
    "Bob.Parse.C96_written_scripts_are_read_back",
    "Bob.Parse.C96_texts_tell_scripts_apart",
    "Bob.Parse.C96_sample"
   ],
   "note": ""
  },
  {
   "property": "C97",
   "status": "partial",
   "theorems": [
    "Bob.Parse.C97_tokens_are_spelled_partial",
    "Bob.Parse.C97_tokens_are_spelled_false",
    "Bob.Parse.C97_comments",
    "Bob.Parse.C97_sample"
   ],
   "note": "False for comments (C97_tokens_are_spelled_false): a bare # takes the next line with it. Proved for all else, and for comments up to that (C97_comments)."
  },
  {
   "property": "C98",
   "status": "partial",
   "theorems": [
    "Bob.Parse.C98_names_are_whole_partial",
    "Bob.Parse.C98_words_are_whole_false",
    "Bob.Parse.C98_keywords_are_no_names_false"
   ],
   "note": "False in full (C98_words_are_whole_false, C98_keywords_are_no_names_false). Proved: names are not cut short, and names of types are not used as names."
  },
  {
   "property": "C99",
   "status": "partial",
   "theorems": [
    "Bob.Parse.C99_no_assertion_fails_partial",
    "Bob.Parse.C99_accepted_scripts_make_sense_partial",
    "Bob.Parse.C99_accepted_scripts_make_sense_false",
    "Bob.Parse.C99_static_type",
    "Bob.Parse.C99_comment",
    "Bob.Parse.C99_slice",
    "Bob.Parse.C99_operator",
    "Bob.Parse.C99_list_comment",
    "Bob.Parse.C99_sample"
   ],
   "note": "Proved for all accepted scripts without the constructs that are shown to fail (comments where children are counted, names of types as expressions, static variables with type and value; slices, operator functions, comments in lists)."
  },
  {
   "property": "C100",
   "status": "proved",
   "theorems": [
    "Bob.Fl.C100_layout_has_no_effect",
    "Bob.Fl.C100_shows_one_thing",
    "Bob.Fl.C100_may_be_left_out",
    "Bob.Fl.C100_sample_bare",
    "Bob.Fl.C100_sample_shows"
   ],
   "note": "Proved for all scripts alike up to empty statements, at every depth, and worlds whose imported scripts are alike. Comments inside of a statement are C99's."
  },
  {
   "property": "C101",
   "status": "proved",
   "theorems": [
    "Bob.Fl.C101_texts_run_as_scripts",
    "Bob.Fl.C101_project_scripts",
    "Bob.Fl.C101_build_from_text",
    "Bob.Fl.C101_skeleton",
    "Bob.Fl.C101_own",
    "Bob.Fl.C101_sample"
   ],
   "note": "The texts are copies of the files; what they are parsed to is evaluated in the kernel. From C96, C100 and C75."
  },
  {
   "property": "C102",
   "status": "proved",
   "theorems": [
    "Bob.C102_exactly_what_is_stale",
    "Bob.C102_copies_from_the_future_false"
   ],
   "note": "exactly what is stale is remade and reinstalled; fails for installed copies from the future (witness)"
  },
  {
   "property": "C103",
   "status": "proved",
   "theorems": [
    "Bob.Fl.FrugalityTest.C103_frugality_test_passes",
    "Bob.Fl.FrugalityTest.C103_sample",
    "Bob.Fl.FrugalityTest.C103_needs_the_sleep"
   ],
   "note": "the test of the project, formalised line by line; needs the sleep in it (witness)"
  },
  {
   "property": "C104",
   "status": "proved",
   "theorems": [
    "Bob.C104_run_becomes",
    "Bob.C104_sh_becomes",
    "Bob.C104_sh_test",
    "Bob.Fl.C104_order_test",
    "Bob.Fl.C104_order_sample"
   ],
   "note": "The tests' own commands (the two scripts called test_command, echo, sh, uname) are programs that do what they say; whether execv starts a file that can be run is up to the system."
  },
  {
   "property": "C105",
   "status": "partial",
   "theorems": [
    "Bob.C105_erases",
    "Bob.C105_covers",
    "Bob.C105_build_partial",
    "Bob.C105_any_time_partial",
    "Bob.C105_build",
    "Bob.C105_elsewhere",
    "Bob.C105_directories",
    "Bob.OwnerDemo.C105_prefix_false",
    "Bob.OwnerDemo.C105_run_later_false",
    "Bob.Fl.C105_chown_test",
    "Bob.Fl.C105_chown_sample"
   ],
   "note": "Files installed in the output directory (those of bob run and bob sh) are excepted: for them the claim is false. Paths that are different strings are different files, and chown by root is taken to succeed."
  },
  {
   "property": "C106",
   "status": "partial",
   "theorems": [
    "Bob.Fts.C106_lists",
    "Bob.Fts.C106_acyclic",
    "Bob.Fts.C106_everything",
    "Bob.Fts.C106_directories_first",
    "Bob.Fts.C106_order_of_reading",
    "Bob.Fts.C106_missing",
    "Bob.Fts.C106_failures_noticed_false",
    "Bob.Fl.C106_shown",
    "Bob.Fl.C106_skeleton",
    "Bob.Fl.C106_no_sources"
   ],
   "note": "Everything but that failures make the call fail, which is refuted (C106_failures_noticed_false, C106_missing). fts(3) is modelled after its manual."
  },
  {
   "property": "C107",
   "status": "partial",
   "theorems": [
    "Bob.Fl.C107_run_self",
    "Bob.Fl.C107_self_test_posix",
    "Bob.Fl.C107_self_test_glibc",
    "Bob.Fl.C107_first_directory_false",
    "Bob.Fl.C107_sample"
   ],
   "note": "Everything but the meant order of directories with glibc, which is false (C107_first_directory_false).  That the installed bob behaves as the model does is the hypothesis that what is installed is bob."
  },
  {
   "property": "C108",
   "status": "partial",
   "theorems": [
    "Bob.C108_ar_same",
    "Bob.C108_ar_new",
    "Bob.C108_ar_members",
    "Bob.C108_archives_present",
    "Bob.C108_as_if_anew",
    "Bob.C108_same_as_clean",
    "Bob.C108_sample",
    "Bob.C108_flags_false",
    "Bob.C108_given_twice_false"
   ],
   "note": "Proved for archives asked for without flags; false with flags (C108_flags_false), and for lists of files with the same archive (C108_given_twice_false; see C13).  The archive belonging to a list of files is that of the layout."
  },
  {
   "property": "C109",
   "status": "proved",
   "theorems": [
    "Bob.C109_refines",
    "Bob.C109_succeeds",
    "Bob.C109_frame",
    "Bob.C109_complete",
    "Bob.C109_in_the_way_false",
    "Bob.C109_dirs_stay",
    "Bob.C109_blocked"
   ],
   "note": "Both directions of the simulation, the frame, and the witness that the exception is needed; the conditions on names are in Placed, those on the tree in Ready, and a sample meets both."
  },
  {
   "property": "C110",
   "status": "partial",
   "theorems": [
    "Bob.C110_copies_there",
    "Bob.C110_install",
    "Bob.C110_exact_copies",
    "Bob.Fl.C110_install_test_partial",
    "Bob.Fl.C110_install_test_false"
   ],
   "note": "Proved, except the last sentence about the test for a prefix in which there is a file at share/bob/skeletons: then it is refuted (C110_install_test_false). Without one it is proved."
  },
  {
   "property": "C111",
   "status": "partial",
   "theorems": [
    "Bob.C111_crowd_fresh_partial",
    "Bob.C111_same_as_alone_partial",
    "Bob.C111_all_succeed_false"
   ],
   "note": "Proved when every product is always asked for with the same flags. Refuted when flags change: both bobs succeed and the program is made from old objects (C111_all_succeed_false)."
  },
  {
   "property": "C112",
   "status": "partial",
   "theorems": [
    "Bob.C112_edits_noticed_partial",
    "Bob.C112_edits_noticed_crowd_partial",
    "Bob.C112_same_second_false",
    "Bob.C112_includes_false"
   ],
   "note": "False in full: an edit within the second in which an object was made, after it, is not noticed (C112_same_second_false), and a header that a source gets to include between asking the compiler and compiling is never written down (C112_includes_false). Proved for all other edits during builds."
  },
  {
   "property": "C113",
   "status": "partial",
   "theorems": [
    "Bob.C113_removed_partial",
    "Bob.C113_removed_crowd_partial",
    "Bob.C113_product_false",
    "Bob.C113_includes_false",
    "Bob.C113_installed_false"
   ],
   "note": "Full statement refuted three ways (C113_product_false, C113_includes_false, C113_installed_false). Proved for all histories with kills in the middle of writing if the products that were half written, and those whose record of includes was, are removed before the next build; flags records, logs and installed files may be damaged."
  },
  {
   "property": "C114",
   "status": "proved",
   "theorems": [
    "Bob.Fl.C114_program_right",
    "Bob.Fl.C114_skeleton",
    "Bob.Fl.C114_own"
   ],
   "note": "Proved for any script that is read as a script for one program (C114_program_right), with the C skeleton and bob's own script as instances. The conditions on times of changed files, on edits during builds and on removing damaged products are part of the statement; C112, C113 and C115 show that they are needed."
  },
  {
   "property": "C115",
   "status": "partial",
   "theorems": [
    "Bob.C115_any_times_partial",
    "Bob.C115_one_partial",
    "Bob.C115_unnoticed",
    "Bob.C115_older_false",
    "Bob.C115_clock_false"
   ],
   "note": "Full statement refuted (C115_older_false, C115_clock_false; C115_unnoticed is the general form: after a success no change that makes no file newer is noticed). Proved for all histories with kills, several bobs and edits during builds if changed files are newer than the products there are, with any times in the past or future, and the clock goes forward."
  },
  {
   "property": "C116",
   "status": "partial",
   "theorems": [
    "Bob.Boot.C116_same_sources_partial",
    "Bob.Boot.C116_own_partial",
    "Bob.Boot.C116_linked_partial",
    "Bob.Boot.C116_bootstrapped_partial",
    "Bob.Boot.C116_prefix_false",
    "Bob.Boot.C116_blanks_false",
    "Bob.Boot.C116_links_false",
    "Bob.Boot.C116_unreadable_false",
    "Bob.Boot.C116_failures_noticed_false"
   ],
   "note": "For tidy trees in which every source compiles; witnesses show that each of these is needed."
  },
  {
   "property": "C117",
   "status": "proved",
   "theorems": [
    "Bob.Parse.C117_decodes",
    "Bob.Parse.C117_tokens",
    "Bob.Parse.C117_parses",
    "Bob.Parse.C117_whole",
    "Bob.Parse.C117_tree"
   ],
   "note": "Decoder, tokens, whole parses, and tokens of texts in UTF-8."
  },
  {
   "property": "C118",
   "status": "partial",
   "theorems": [
    "Bob.Fl.C118_runs_the_present_partial",
    "Bob.Fl.C118_skeleton_partial",
    "Bob.Fl.C118_own_partial",
    "Bob.Fl.C118_sample",
    "Bob.Fl.C118_stale_false",
    "Bob.Fl.C118_shadowed_false"
   ],
   "note": "Refuted for the C skeleton (C118_stale_false: after a source was added and removed, the old program is run; C118_shadowed_false: a program of that name in the project's directory is run instead). Proved for all projects of that kind if no list of sources comes back after another and no such program is there."
  },
  {
   "property": "C119",
   "status": "partial",
   "theorems": [
    "Bob.Parse.C119_mended_trees_follow_the_grammar_partial",
    "Bob.Parse.C119_no_assertion_fails_partial",
    "Bob.Parse.C119_runs_as_if_mended_partial",
    "Bob.Parse.C119_sample",
    "Bob.Parse.C119_sample_end",
    "Bob.Parse.C119_sample_block",
    "Bob.Parse.C119_sample_nameless",
    "Bob.Parse.C119_syntax_errors_are_refused_false"
   ],
   "note": "Refuted: scripts that lack tokens are run (C119_syntax_errors_are_refused_false, with cases). Proved for every version the parser can reach by supplying tokens: the tree follows the grammar, consists of the text, keeps the interpreter's assertions under the conditions of C99, and is run as the script with the tokens. Missing: ERROR nodes, and which version the runtime keeps."
  },
  {
   "property": "C120",
   "status": "partial",
   "theorems": [
    "Bob.C120_new_library_identified_partial",
    "Bob.C120_left_alone",
    "Bob.C120_lost_for_good",
    "Bob.C120_others",
    "Bob.C120_identified_partial",
    "Bob.C120_reason_given",
    "Bob.C120_retried_false",
    "Bob.C120_only_libraries_false"
   ],
   "note": "Refuted: an id that could not be set is never set later (C120_retried_false, C120_lost_for_good), and other files are given to the tool (C120_only_libraries_false). Proved for every history of linking and installing in which the tool works: the installed library is that of now with its id; other entries are installed as elsewhere; the warning gives the reason."
  },
  {
   "property": "C121",
   "status": "proved",
   "theorems": [
    "Bob.Parse.C121_blanks_do_not_matter",
    "Bob.Parse.C121_runs_the_same",
    "Bob.Parse.C121_sample",
    "Bob.Parse.C121_shown_texts_false",
    "Bob.Parse.C121_sample_left_out",
    "Bob.Parse.C121_sample_line_ended",
    "Bob.Parse.C121_any_blanks_false"
   ],
   "note": "Parsing: C121_blanks_do_not_matter. Interpretation: C121_runs_the_same, under the condition that texts shown by messages are unchanged, which C121_shown_texts_false shows to be needed. C121_any_blanks_false shows that other changes of blanks do matter. Not covered: blanks between the parts of a ## comment, and changing the first blank after a comment."
  },
  {
   "property": "C122",
   "status": "partial",
   "theorems": [
    "Bob.Boot.C122_all_tests_count_partial",
    "Bob.Boot.C122_success_partial",
    "Bob.Boot.C122_old_bob_partial",
    "Bob.Boot.C122_new_bob_partial",
    "Bob.Boot.C122_sample",
    "Bob.Boot.C122_present_bob_false",
    "Bob.Boot.C122_all_tests_run_false"
   ],
   "note": "All tests count and each starts tidied: C122_all_tests_count_partial, C122_success_partial. Which bob is tested: C122_new_bob_partial after a bootstrap that succeeded, C122_old_bob_partial after one that failed. The full statement is false: C122_present_bob_false, C122_all_tests_run_false."
  },
  {
   "property": "C123",
   "status": "partial",
   "theorems": [
    "Bob.C123_project_directory",
    "Bob.C123_no_directory",
    "Bob.C123_last_counts",
    "Bob.C123_on_tree",
    "Bob.C123_seen_from_there",
    "Bob.PlaceDemo.C123_twice_false"
   ],
   "note": "Proved for command lines with one -C (C123_project_directory, C123_no_directory). False with several (C123_twice_false): the last one counts, taken from where bob was started (C123_last_counts). C123_seen_from_there carries over what is known of bob from the model without directories."
  },
  {
   "property": "C124",
   "status": "partial",
   "theorems": [
    "Bob.C124_environment",
    "Bob.C124_absolute_partial",
    "Bob.C124_staying_partial",
    "Bob.C124_elsewhere",
    "Bob.PlaceDemo.C124_anywhere_false"
   ],
   "note": "False (C124_anywhere_false): the entries put into $PATH and $LD_LIBRARY_PATH are relative unless -o is absolute. Proved if it is absolute, or if one stays in the project's directory; C124_elsewhere says what is found otherwise."
  },
  {
   "property": "C125",
   "status": "partial",
   "theorems": [
    "Bob.C125_file_partial",
    "Bob.C125_into_directory",
    "Bob.C125_mkdir",
    "Bob.C125_link",
    "Bob.C125_same_target",
    "Bob.C125_absolute_partial",
    "Bob.C125_directory",
    "Bob.C125_already",
    "Bob.C125_product",
    "Bob.C125_nowhere",
    "Bob.LinksDemo.C125_link_false",
    "Bob.LinksDemo.C125_outside_false",
    "Bob.C125_no_links"
   ],
   "note": "False for keys that are relative links (C125_link_false) and for files outside the prefix (C125_outside_false). Proved for keys that are files, with links anywhere on the way and destinations that may be links (C125_file_partial), for links with absolute targets that can still be read (C125_absolute_partial), and node by node for directories (C125_directory); equal to the model without links where there are none (C125_no_links)."
  },
  {
   "property": "C126",
   "status": "partial",
   "theorems": [
    "Bob.C126_link_after",
    "Bob.C126_link_before",
    "Bob.LinksDemo.C126_retarget_false"
   ],
   "note": "C126_retarget_false: a changed link is not installed again if what it leads to is not newer than what the installed one leads to. Reading the installed link gives the library in both orders (C126_link_after, C126_link_before), if there are not too many links on the way."
  },
  {
   "property": "C127",
   "status": "partial",
   "theorems": [
    "Bob.C127_file_partial",
    "Bob.C127_link",
    "Bob.C127_directory_partial",
    "Bob.LinksDemo.C127_again_false",
    "Bob.C127_all_partial",
    "Bob.LinksDemo.C127_all_false"
   ],
   "note": "C127_again_false: a link that leads nowhere once it is installed is copied again every time; C127_all_false: one installation is not enough if a destination is the key of an earlier entry. Files are not copied again, whatever links lead to the destination, if it is no directory (C127_file_partial); directories are not, if there was nothing at the destination (C127_directory_partial); for links, exactly when the second installation does nothing (C127_link). Whole maps of files come to rest if no destination leads to a key (C127_all_partial)."
  },
  {
   "property": "C128",
   "status": "partial",
   "theorems": [
    "Bob.C128_below_entry",
    "Bob.C128_below_partial",
    "Bob.C128_entry",
    "Bob.C128_written",
    "Bob.LinksDemo.C128_below_false",
    "Bob.C128_no_links",
    "Bob.C128_every"
   ],
   "note": "C128_written: which files may be changed, for all maps and trees; C128_every: each entry has its turn. The second half is false (C128_below_false: an entry is a link and a later one is written through it); proved for maps whose keys are files (C128_below_partial) and for single entries of every kind (C128_below_entry)."
  },
  {
   "property": "C129",
   "status": "partial",
   "theorems": [
    "Bob.C129_copies_partial",
    "Bob.LinksDemo.C129_copies_false"
   ],
   "note": "The full statement is false (C129_copies_false: destinations that differ as strings lead to one file through links). C129_copies_partial: proved for all trees and maps of files if no destination is a directory and in the end no later destination leads to the same file, and none to the key."
  }
 ]
}
