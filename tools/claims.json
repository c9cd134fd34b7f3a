{
"C01": {"status": "proved", "note": ""},
"C02": {"status": "proved", "note": "For flags without newline and NUL; the claim is refuted for flags with either (C02_newline_flags_false, C02_nul_flags_false)."},
"C03": {"status": "proved", "note": "For every directory reached by any history of edits and builds."},
"C04": {"status": "proved", "note": "For projects in which the path of a product determines its inputs; reordering link inputs is refuted (C04_link_reorder_false). Edits are stamped later than earlier builds."},
"C05": {"status": "partial", "note": "Refuted when flags change (C05_flag_change_false); proved for products whose flags were not changed by a stopped build, in particular for constant flags."},
"C06": {"status": "proved", "note": "For names without blanks, newlines, NUL and not starting with ':' or '\\'; refuted for names with blanks."},
"C07": {"status": "proved", "note": "For compilations, in a directory left by a successful build after any history."},
"C08": {"status": "proved", "note": "Order of steps (Props/Replay) and that no later phase happens after a failure, for every command line (C08_order)."},
"C09": {"status": "proved", "note": "From every directory after an edit, for installed copies without time stamps of the future."},
"C10": {"status": "proved", "note": ""},
"C100": {"status": "proved", "note": "Proved for all scripts alike up to empty statements, at every depth, and worlds whose imported scripts are alike. Comments inside of a statement are C99's."},
"C101": {"status": "proved", "note": "The texts are copies of the files; what they are parsed to is evaluated in the kernel. From C96, C100 and C75."},
"C102": {"status": "proved", "note": "exactly what is stale is remade and reinstalled; fails for installed copies from the future (witness)"},
"C103": {"status": "proved", "note": "the test of the project, formalised line by line; needs the sleep in it (witness)"},
"C104": {"status": "proved", "note": "The tests' own commands (the two scripts called test_command, echo, sh, uname) are programs that do what they say; whether execv starts a file that can be run is up to the system."},
"C105": {"status": "partial", "note": "Files installed in the output directory (those of bob run and bob sh) are excepted: for them the claim is false. Paths that are different strings are different files, and chown by root is taken to succeed."},
"C106": {"status": "partial", "note": "Everything but that failures make the call fail, which is refuted (C106_failures_noticed_false, C106_missing). fts(3) is modelled after its manual."},
"C107": {"status": "partial", "note": "Everything but the meant order of directories with glibc, which is false (C107_first_directory_false).  That the installed bob behaves as the model does is the hypothesis that what is installed is bob."},
"C108": {"status": "partial", "note": "Proved for archives asked for without flags; false with flags (C108_flags_false), and for lists of files with the same archive (C108_given_twice_false; see C13).  The archive belonging to a list of files is that of the layout."},
"C109": {"status": "proved", "note": "Both directions of the simulation, the frame, and the witness that the exception is needed; the conditions on names are in Placed, those on the tree in Ready, and a sample meets both."},
"C11": {"status": "partial", "note": "Exact condition for sharing an object file proved; the unconditional claim is refuted by an explicit hash collision."},
"C110": {"status": "partial", "note": "Proved, except the last sentence about the test for a prefix in which there is a file at share/bob/skeletons: then it is refuted (C110_install_test_false). Without one it is proved."},
"C111": {"status": "partial", "note": "Proved when every product is always asked for with the same flags. Refuted when flags change: both bobs succeed and the program is made from old objects (C111_all_succeed_false)."},
"C112": {"status": "partial", "note": "False in full: an edit within the second in which an object was made, after it, is not noticed (C112_same_second_false), and a header that a source gets to include between asking the compiler and compiling is never written down (C112_includes_false). Proved for all other edits during builds."},
"C113": {"status": "partial", "note": "Full statement refuted three ways (C113_product_false, C113_includes_false, C113_installed_false). Proved for all histories with kills in the middle of writing if the products that were half written, and those whose record of includes was, are removed before the next build; flags records, logs and installed files may be damaged."},
"C114": {"status": "proved", "note": "Proved for any script that is read as a script for one program (C114_program_right), with the C skeleton and bob's own script as instances. The conditions on times of changed files, on edits during builds and on removing damaged products are part of the statement; C112, C113 and C115 show that they are needed."},
"C115": {"status": "partial", "note": "Full statement refuted (C115_older_false, C115_clock_false; C115_unnoticed is the general form: after a success no change that makes no file newer is noticed). Proved for all histories with kills, several bobs and edits during builds if changed files are newer than the products there are, with any times in the past or future, and the clock goes forward."},
"C116": {"status": "partial", "note": "For tidy trees in which every source compiles; witnesses show that each of these is needed."},
"C117": {"status": "proved", "note": "Decoder, tokens, whole parses, and tokens of texts in UTF-8."},
"C118": {"status": "partial", "note": "Refuted for the C skeleton (C118_stale_false: after a source was added and removed, the old program is run; C118_shadowed_false: a program of that name in the project's directory is run instead). Proved for all projects of that kind if no list of sources comes back after another and no such program is there."},
"C119": {"status": "partial", "note": "Refuted: scripts that lack tokens are run (C119_syntax_errors_are_refused_false, with cases). Proved for every version the parser can reach by supplying tokens: the tree follows the grammar, consists of the text, keeps the interpreter's assertions under the conditions of C99, and is run as the script with the tokens. Missing: ERROR nodes, and which version the runtime keeps."},
"C12": {"status": "proved", "note": ""},
"C120": {"status": "partial", "note": "Refuted: an id that could not be set is never set later (C120_retried_false, C120_lost_for_good), and other files are given to the tool (C120_only_libraries_false). Proved for every history of linking and installing in which the tool works: the installed library is that of now with its id; other entries are installed as elsewhere; the warning gives the reason."},
"C121": {"status": "proved", "note": "Parsing: C121_blanks_do_not_matter. Interpretation: C121_runs_the_same, under the condition that texts shown by messages are unchanged, which C121_shown_texts_false shows to be needed. C121_any_blanks_false shows that other changes of blanks do matter. Not covered: blanks between the parts of a ## comment, and changing the first blank after a comment."},
"C122": {"status": "partial", "note": "All tests count and each starts tidied: C122_all_tests_count_partial, C122_success_partial. Which bob is tested: C122_new_bob_partial after a bootstrap that succeeded, C122_old_bob_partial after one that failed. The full statement is false: C122_present_bob_false, C122_all_tests_run_false."},
"C123": {"status": "partial", "note": "Proved for command lines with one -C (C123_project_directory, C123_no_directory). False with several (C123_twice_false): the last one counts, taken from where bob was started (C123_last_counts). C123_seen_from_there carries over what is known of bob from the model without directories."},
"C124": {"status": "partial", "note": "False (C124_anywhere_false): the entries put into $PATH and $LD_LIBRARY_PATH are relative unless -o is absolute. Proved if it is absolute, or if one stays in the project's directory; C124_elsewhere says what is found otherwise."},
"C125": {"status": "partial", "note": "False for keys that are relative links (C125_link_false) and for files outside the prefix (C125_outside_false). Proved for keys that are files, with links anywhere on the way and destinations that may be links (C125_file_partial), for links with absolute targets that can still be read (C125_absolute_partial), and node by node for directories (C125_directory); equal to the model without links where there are none (C125_no_links)."},
"C126": {"status": "partial", "note": "C126_retarget_false: a changed link is not installed again if what it leads to is not newer than what the installed one leads to. Reading the installed link gives the library in both orders (C126_link_after, C126_link_before), if there are not too many links on the way."},
"C127": {"status": "partial", "note": "C127_again_false: a link that leads nowhere once it is installed is copied again every time; C127_all_false: one installation is not enough if a destination is the key of an earlier entry. Files are not copied again, whatever links lead to the destination, if it is no directory (C127_file_partial); directories are not, if there was nothing at the destination (C127_directory_partial); for links, exactly when the second installation does nothing (C127_link). Whole maps of files come to rest if no destination leads to a key (C127_all_partial)."},
"C128": {"status": "partial", "note": "C128_written: which files may be changed, for all maps and trees; C128_every: each entry has its turn. The second half is false (C128_below_false: an entry is a link and a later one is written through it); proved for maps whose keys are files (C128_below_partial) and for single entries of every kind (C128_below_entry)."},
"C129": {"status": "partial", "note": "The full statement is false (C129_copies_false: destinations that differ as strings lead to one file through links). C129_copies_partial: proved for all trees and maps of files if no destination is a directory and in the end no later destination leads to the same file, and none to the key."},
"C13": {"status": "partial", "note": "Refuted in general (duplicates cancel); proved for replacing or dropping one input."},
"C14": {"status": "partial", "note": "The claim is refuted for every compiler, source and pair of flag lists (C14_two_flag_lists_share_object_false); files of different kinds never clash."},
"C15": {"status": "proved", "note": ""},
"C16": {"status": "proved", "note": ""},
"C17": {"status": "proved", "note": "For a pool with at least one worker and no task added after the last worker left; both exceptions are refuted by executions."},
"C18": {"status": "proved", "note": ""},
"C19": {"status": "proved", "note": ""},
"C20": {"status": "proved", "note": ""},
"C21": {"status": "proved", "note": "Any sequence of cmd_create/cmd_add/cmd_addf/cmd_add_argv; memory slots modelled, so no unwritten slot is read."},
"C22": {"status": "proved", "note": "find_bin in full. Also proved: posix_spawnp runs a different file when a bare name is executable in the working directory (witness), and the found file in all other cases."},
"C23": {"status": "proved", "note": "For every fate of the process. A failing first waitpid is reported as success (C23_wait_error_false)."},
"C24": {"status": "proved", "note": "For every chunking; read errors end the loop like end of file. The log text refines the build model's writeLog."},
"C25": {"status": "partial", "note": "Full statement is false and refuted for every pipe capacity; the terminating case (output fits into the pipe) is proved."},
"C26": {"status": "partial", "note": "Full statement is false and refuted for every spawn error; failing lookup and failing pipe are reported."},
"C27": {"status": "proved", "note": "For histories of edits and successful builds in which logs are not deleted alone; refuted after a killed build (C27_killed_build_false)."},
"C28": {"status": "proved", "note": "The result of reading the map for every value of 'install'; that nothing is copied after a rejection is C28_nothing_copied (Props/Cli)."},
"C29": {"status": "proved", "note": "For entries which do not overlap and where no file is installed onto an existing directory; without the latter refuted (C29_into_directory_false)."},
"C30": {"status": "partial", "note": "For the first entry of a product in the install map, for every history; refuted for further entries (C30_second_entry_false). C30_product_copied_partial: the copy itself, on the file system with directories."},
"C31": {"status": "proved", "note": "For destinations without '..'; with '..' the destination can lie outside the prefix (C31_dotdot_outside_false)."},
"C32": {"status": "proved", "note": "Same condition as C29; refuted without it (C32_into_directory_false)."},
"C33": {"status": "partial", "note": "False as stated: siblings of the output directory whose name begins alike count as products (C33_sibling_false); the exact set is proved."},
"C34": {"status": "proved", "note": "The owner is the owner of the project directory; files made before the absolute output path is known are only those of the output directory itself."},
"C35": {"status": "proved", "note": "Both directions; run and sh which become another program have that program's status."},
"C36": {"status": "proved", "note": "Environment and, for output paths without a colon, lists of directories; refuted with a colon; a program of that name in the project directory shadows the fresh one (C36_shadowed_false)."},
"C37": {"status": "proved", "note": ""},
"C38": {"status": "proved", "note": ""},
"C39": {"status": "proved", "note": "For every state and stack of live scopes: lookup gives the first declaration from the innermost scope outwards, none if there is none, and an unknown identifier is refused."},
"C40": {"status": "proved", "note": "Redeclaration is refused for variables, functions and classes; otherwise exactly one name is added, to the innermost scope. What the initialiser itself does is not constrained (it is an arbitrary expression)."},
"C41": {"status": "proved", "note": "By induction over the recursion depth, for every script, state and file system."},
"C42": {"status": "proved", "note": "By induction over the recursion depth, for every expression and call."},
"C43": {"status": "partial", "note": "Proved for assignment to names and to members. False through a vector element: assigning to an element overwrites the shared value in place, so a function put into a vector is replaced under its name as well (C43_through_vector_false)."},
"C44": {"status": "partial", "note": "False for variables (C44_variable_false: the check compares the old value with itself) and, through none, for elements (C44_through_none_false). Proved: an element of a vector or map refuses a value of another kind, and a variable takes any."},
"C45": {"status": "partial", "note": "Proved for 'return e' at the end of a run of lines when e itself returns normally into the result slot (C45_return_partial), and that lines after it are skipped. False if e is a call (C45_call_aborts_false, C45_value_lost_false) and for nested declarations after it (C45_declarations_false)."},
"C46": {"status": "partial", "note": "Proved for a return in the outermost scope of the file; false inside a block there (C46_block_false)."},
"C47": {"status": "partial", "note": "Proved: a function remembers the scopes of its definition, and a call not made while the function is running gets them and a new scope of its own. False for recursion (C47_recursion_false)."},
"C48": {"status": "proved", "note": "Total: on values without function or instance parts the comparison returns and says whether the trees are the same up to map order. C48_repeated_keys_false shows why maps with repeated keys are excluded."},
"C49": {"status": "partial", "note": "Keys are distinct at the moment each is compared; a later value expression can change an earlier key (C49_late_false), so the literal can end with equal keys. Lookup is complete."},
"C50": {"status": "proved", "note": "For every vector, index and state; the index -2^63 is undefined behaviour, as stated."},
"C51": {"status": "proved", "note": "All operators and operands of 64 bits; truncation stated by remainder bounds rather than by Lean's division."},
"C52": {"status": "partial", "note": "Proved whenever somebody wants the result. If the value of the expression is thrown away the operator is not looked at (C52_discarded_false)."},
"C53": {"status": "proved", "note": "Both operands are evaluated, left first, for every operator; a failure of either is the outcome."},
"C54": {"status": "partial", "note": "Assumes the member functions of the engine have not been overwritten by the script; C54_overwritten_false is a script that does so and then aborts."},
"C55": {"status": "partial", "note": "Full for runs in which the members of vectors are not overwritten; elements are looked up before each call. C55_shrinking_false: a callback which shortens the vector makes map read beyond its end."},
"C56": {"status": "partial", "note": "Full except for elements that are strings with a NUL byte (C56_nul_false) or are named after a variable of a released instance (C56_name_false). C56_nested_false shows that elements of elements are shared."},
"C57": {"status": "proved", "note": "The value is Nat.ofDigits of the digits; anything else is refused at the first such character."},
"C58": {"status": "proved", "note": "An error at any statement stops the script there: what follows does not run, blocks and imports pass it on, the script fails and bob builds nothing and exits with failure (via the CLI model)."},
"C59": {"status": "partial", "note": "Refuted: long messages abort (C59_long_message_false), a variable in its own initialiser (C59_own_initialiser_false) and overflow are undefined. Exact outcome for unknown names of every length (C59_unknown_name); errors stop the script by C58. Disciplined scripts crash only for the reasons listed in C69_no_memory_errors."},
"C60": {"status": "proved", "note": "For every callable and argument list; what goes wrong in an argument, in the count or in the callee is the outcome of the call."},
"C61": {"status": "proved", "note": "Calling a class gives a new instance whose scope is new, belongs to it and (for bodies that neither return nor import) has exactly the declared names; no existing instance has that scope, in any state a script reaches. The class's own scope has exactly the static names. Access through instances and classes is decided by these scopes, and assigning to a member changes the instance's scope only. A class that was overwritten through a vector element while its own body ran is excluded by hypothesis; copies of an instance value denote the same instance."},
"C62": {"status": "partial", "note": "The registered steps are exactly the requests of the compile, link and archive calls evaluated, in order, and each call returns the value its request names; what bob then builds is their concatenation whenever the requests can still be read. They can for every script with a meaning (C72_script_means). Missing: in general the requests do not keep their values alive, so a request whose result is discarded is read after being freed (C62_discarded_false)."},
"C63": {"status": "proved", "note": "For files without top-level returns; imports inside them included (Declares). A clash never succeeds (C63_clash) and gives the stated message for variables (C63_clash_message); every import cycle is shown not to end normally (C63_cycle)."},
"C64": {"status": "proved", "note": "A script's outcome does not depend on the depth allowed for it: any two depths that do not run out agree, for whole scripts and for single expressions."},
"C65": {"status": "partial", "note": "Refuted in four ways (map callback, assignment whose right side assigns too, element assignment, closures over instances); names of values are lost in the last way too. Holds for every disciplined script (C69_values_kept)."},
"C66": {"status": "partial", "note": "Refuted for a file changed inside an installed directory; proved for sources whose modification time is not before that of the destination."},
"C67": {"status": "partial", "note": "False for numbers that do not fit an int (C67_wraps_false). Proved for all numbers what becomes of them (C67_every_number_partial), that those which fit are used or refused as stated, and that the number used is always from 1 to 1024."},
"C68": {"status": "partial", "note": "False with glibc's getopt (C68_option_taken_false); proved for operands, after -- and for a getopt that does not permute."},
"C69": {"status": "proved", "note": "For all disciplined scripts, worlds and lengths of runs. C69_crashes_left: the other reasons for crashes do occur (except whereInst, for which no script is known)."},
"C70": {"status": "proved", "note": "Both directions (C70_passed, C70_true, C70_false, C70_other), for every state that is not already returning."},
"C71": {"status": "proved", "note": "For every value that consists of none, booleans, integers, strings, vectors and maps (functions and instances are not trees). Different values can be printed alike because nothing is escaped (C71_ambiguous)."},
"C72": {"status": "proved", "note": "For every script the description gives a meaning to (C72_script_means); accepted by setup (C72_setup); unique (C72_one_meaning); the project's scripts for every listing of src."},
"C73": {"status": "proved", "note": "C73_link_ambiguous_false shows that inputs and flags of a link are not told apart; lengths of flags are assumed to fit an int."},
"C74": {"status": "partial", "note": "Refuted as stated (C74_tools_noticed_false). C74_tools_not_noticed proves what happens instead: such a build runs no command at all and keeps every file but the installed ones."},
"C75": {"status": "proved", "note": "Names of products are assumed not to collide (C11, C13): Plan.Ok."},
"C76": {"status": "partial", "note": "Refuted as stated (C76_installed_right_false): after a source is added and deleted again the program with the deleted source stays installed. C76_installed_right_partial proves it for histories in which no list of sources comes back."},
"C77": {"status": "partial", "note": "False as stated (C77_teardown_safe_false, with the crash in C77_badMethod_ub): a failing method of an instance is torn down with a double free, for all such calls (C77_failed_method, C77_scope_twice); so is a failure in nested callbacks over functions that share a body (C77_copies_false). Positive part: teardown ends well from every state whose references are in order. Missing: that every disciplined script that fails elsewhere leaves such a state (shown for a list of scripts only)."},
"C78": {"status": "proved", "note": "Exact characterisation over all environments and streams; strstr is specified by the existence of a split."},
"C79": {"status": "partial", "note": "Refuted in general (C79_terminal_restored_false; C79_signal_leaves_red for every command ended by a signal). Proved for every sequence of messages and reports without one."},
"C80": {"status": "partial", "note": "Refuted (C80_no_escapes_false; C80_marked_escapes and C80_report_escapes for every such message). Proved for messages without CLEAR in their format."},
"C81": {"status": "proved", "note": "For every output, also with zero bytes; writing the log is assumed to succeed."},
"C82": {"status": "partial", "note": "Refuted for commands that cannot be started (C82_report_agrees_false, C82_unstarted). Proved for every command that was started."},
"C83": {"status": "partial", "note": "False as stated (C83_reason_given_false): when rm fails, or the source cannot be examined, the reason is never set and NULL is printed (C83_no_reason_iff says exactly when). Proved: failures of cp are reported with what cp printed, also when it is killed. A reason without a newline at its end loses its last byte (C83_unended_false)."},
"C84": {"status": "partial", "note": "False as stated (C84_still_there_false): a step for linking does not hold the path of its result. Proved for all disciplined scripts whose link results are still held when the script ends, and for compile steps without that condition; that every instance asked had been set up is a hypothesis. C84_flags_gone_false: outside the discipline flags can be released too."},
"C85": {"status": "partial", "note": "False as stated (C85_lost_false, C85_in_order_false, C85_redirected). Proved for all behaviours of the buffers: nothing is lost when bob exits; on a terminal everything is seen in order if what is printed to standard output are whole lines."},
"C86": {"status": "partial", "note": "False as stated (C86_alone_false, C86_stuck_false): a child started between pipe and close of another worker keeps that worker's pipe open. Proved: if outputs fit into pipes every execution ends, and only with all commands run and all output read; with one worker reading never waits."},
"C87": {"status": "proved", "note": "C87_proper: only own open descriptors are closed and read; C87_nothing_left: none is left after a command; C87_child, C87_inherits_only, C87_inherits: what a child has open. That other parts of bob close only files of their own is part of the model."},
"C88": {"status": "partial", "note": "False as stated (C88_together_false: merged requests have different locks; C88_installing_false: installing is reported without a lock). Proved for all that is printed for one request under its lock, and in full for a step with one request whose tasks print nothing else; C88_goes_on: no deadlock."},
"C89": {"status": "partial", "note": "For each function, all inputs: the arrays for paths have room, flags, outputs of commands, dependency files and cookies come out as the rest of the model has them, and no byte outside of a buffer is touched. Hypotheses, each shown to be needed by a _false theorem: paths without zero bytes, flags below two gigabytes, files whose size is told and does not change, at least one file to link, a short program name or a working prctl. False for the message about a missing source file. Allocations are assumed to succeed."},
"C90": {"status": "partial", "note": "For all numbers of workers, sequences of calls and interleavings: no thread is joined twice, no unset handle is joined, all workers have been joined once and have ended when the pool is freed, and some thread can always go on. Missing, and shown false: the case that pthread_create fails, whose result is ignored."},
"C91": {"status": "partial", "note": "No data race on the tasks, for all sequences of calls and interleavings; none at all when no task fails or there is one worker, for callers that do not call pool_start themselves. Missing, and shown false: pool->error when a task fails."},
"C92": {"status": "partial", "note": "False in full (C92_reason_false): the output of a failing command goes to standard output. Proved: the looks, the pictures, and the stream of every line that bob itself writes."},
"C93": {"status": "proved", "note": ""},
"C94": {"status": "proved", "note": "Recovery from syntax errors is not modelled: an error is where it begins."},
"C95": {"status": "partial", "note": "False for unary operators (C95_unary_operators_bind_first_false, and C95_unary_operators_bind_last for all texts). Proved for binary operators, access, calls, indices and slices."},
"C96": {"status": "proved", "note": ""},
"C97": {"status": "partial", "note": "False for comments (C97_tokens_are_spelled_false): a bare # takes the next line with it. Proved for all else, and for comments up to that (C97_comments)."},
"C98": {"status": "partial", "note": "False in full (C98_words_are_whole_false, C98_keywords_are_no_names_false). Proved: names are not cut short, and names of types are not used as names."},
"C99": {"status": "partial", "note": "Proved for all accepted scripts without the constructs that are shown to fail (comments where children are counted, names of types as expressions, static variables with type and value; slices, operator functions, comments in lists)."}
}
