{"id": "C01", "title": "Rebuild decision by timestamps is exact", "statement": "For a target and an ordered dependency list, bob redoes the work if the target does not exist, or if all dependencies up to the first strictly newer one can be examined and there is such a newer one; it does not redo the work if the target exists and every dependency can be examined and none is strictly newer; in every other case it reports an error.", "quantifier": "every target, every dependency list of any length, every assignment of timestamps and stat failures to paths", "why_tests_cant": "The decision depends on an unbounded list and on the position of failures within it; tests fix a handful of lists and never inject stat failures.", "anchors": ["src/frugal.c:frugal_mtime", "src/class/cc.c:validate_requirements", "src/class/linker.c:link_step", "src/install.c:install_single"]}
{"id": "C02", "title": "A change of flags is always noticed, and only a change", "statement": "After bob has recorded a flag list for an output, checking a second flag list against the record says 'changed' exactly when the two lists differ (as lists: order, number and content), for flags that contain neither newline nor NUL; in either case the record afterwards describes the second list. For flags containing newlines the claim is false.", "quantifier": "every pair of flag lists, every previous content of the record", "why_tests_cant": "Quantifies over all pairs of flag vectors; the ambiguous pairs (flags containing a newline) are exactly the ones a test author does not think of.", "anchors": ["src/frugal.c:frugal_flags"]}
{"id": "C03", "title": "Rebuilding without edits does nothing", "statement": "Immediately after a successful build, running the build again without touching any source, header or flag succeeds, runs no compiler and no linker, installs nothing and leaves the contents and timestamps of every object, executable and source file unchanged.", "quantifier": "every project (any sources, includes, flags, number of steps) and every file-system state from which a build succeeds", "why_tests_cant": "Tests show this for one project; the claim is about the fixpoint of an unbounded family of builds.", "anchors": ["src/class/cc.c:compile_step", "src/class/cc.c:validate_requirements", "src/class/linker.c:link_step", "src/frugal.c:frugal_mtime", "src/frugal.c:frugal_flags"]}
{"id": "C04", "title": "Incremental builds produce what a clean build would produce", "statement": "After any history of source and header edits, deletions, changes of flags and builds (each edit being stamped later than the objects made by earlier builds), a build that reports success leaves every object equal to what the compiler yields now for that source with the current flags.", "quantifier": "every finite history of edits, deletions, flag changes, successful and failed builds; every deterministic compiler whose output depends only on the files it reports as dependencies", "why_tests_cant": "Quantifies over all histories; a test can replay only a few.", "anchors": ["src/class/cc.c:compile_step", "src/class/cc.c:compile_task", "src/class/cc.c:get_include_deps", "src/frugal.c"]}
{"id": "C05", "title": "An interrupted or failed build never makes a stale object look fresh", "statement": "If a build is killed at any point, or stops because some compilation failed, the next successful build still leaves every object equal to what a clean build would produce. (False in bob when flags changed: the flag record is updated before the compiler runs. True when the flags of the object are the ones recorded when it was last compiled.)", "quantifier": "every crash point within a build and every subset of compile tasks that ran before a failure", "why_tests_cant": "Crash points and scheduling of failures cannot be enumerated by unit tests.", "anchors": ["src/frugal.c:frugal_flags", "src/class/cc.c:compile_step", "src/class/cc.c:validate_requirements", "src/class/cc.c:compile_task"]}
{"id": "C06", "title": "Recorded include dependencies are exactly those the compiler reports", "statement": "For the text of a make rule printed by the compiler, the dependency list read back by the next build is exactly the list of prerequisite names of the rule, in order, for names without spaces, newlines, and not beginning with ':' or a backslash.", "quantifier": "every list of file names of that form, every line-wrapping of the rule", "why_tests_cant": "A text-format round trip over unboundedly many inputs.", "anchors": ["src/class/cc.c:get_include_deps", "src/class/cc.c:validate_requirements"]}
{"id": "C07", "title": "Editing a header recompiles its includers and nothing else", "statement": "In an up-to-date tree, editing one file makes the next build recompile exactly those sources whose recorded dependencies include the file.", "quantifier": "every up-to-date project state and every edited file", "why_tests_cant": "Both directions (no missed and no superfluous recompilation) range over all include graphs.", "anchors": ["src/class/cc.c:validate_requirements", "src/class/cc.c:compile_step", "src/frugal.c:frugal_mtime"]}
{"id": "C08", "title": "A failed step stops the build and is reported", "statement": "Build steps run in order; the first step that fails ends the build, no later step has any effect, and bob's build, install, run and sh commands exit unsuccessfully without installing, running or entering the shell.", "quantifier": "every list of steps and every outcome of each step", "why_tests_cant": "All positions of the failing step and all instruction kinds are covered at once.", "anchors": ["src/build_step.c:run_build_steps", "src/bsys.c", "src/main.c:main"]}
{"id": "C09", "title": "The result of a parallel build does not depend on the schedule", "statement": "If all compile tasks of a step succeed, the contents of all files afterwards are the same for every interleaving of workers and every number of workers.", "quantifier": "every task list with pairwise different outputs, every schedule, every worker count >= 1", "why_tests_cant": "Schedules cannot be enumerated by tests.", "anchors": ["src/class/cc.c:compile_step", "src/class/cc.c:compile_task", "src/pool.c"]}
{"id": "C10", "title": "Intermediate files stay inside the output directory", "statement": "The path bob assigns to an object or link product has the form '<out>/bob/<name>' where <name> is not empty, contains no '/', and is neither '.' nor '..', whatever the source path looks like.", "quantifier": "every source path (including absolute paths and paths with '..') and every output directory", "why_tests_cant": "Path-escape arguments range over all strings.", "anchors": ["src/cookie.h:gen_cookie", "src/class/cc.c:add_build_step", "src/class/linker.c"]}
{"id": "C11", "title": "Different source files get different object files", "statement": "Two different source paths are given different object paths. (Holds unless the paths differ only in '/' versus '_' and their 64-bit hashes collide; in general false.)", "quantifier": "every pair of source paths", "why_tests_cant": "Injectivity over all pairs of strings.", "anchors": ["src/cookie.h:gen_cookie", "src/str.c:str_hash"]}
{"id": "C12", "title": "A link product's path does not depend on the order of its inputs", "statement": "Permuting the inputs of a link or archive call does not change the path of its product.", "quantifier": "every list of inputs and every permutation of it", "why_tests_cant": "Ranges over all permutations of all lists.", "anchors": ["src/class/linker.c:prep_link"]}
{"id": "C13", "title": "Different link inputs get different products", "statement": "Two link calls whose input collections differ have different product paths. (False: inputs occurring twice cancel out.)", "quantifier": "every pair of input lists", "why_tests_cant": "Quantifies over pairs of lists; the failing pairs are never in a test-suite.", "anchors": ["src/class/linker.c:prep_link"]}
{"id": "C14", "title": "Two compile calls never overwrite each other's object", "statement": "Objects requested by different compile calls with different flags are stored separately. (False: the object path depends on the source path only, so compiling one source with two flag lists makes both calls share one object holding the flags of the later step, and no two consecutive builds reach a fixpoint.)", "quantifier": "every pair of compile calls", "why_tests_cant": "Interaction of two instances over arbitrary sources and flags.", "anchors": ["src/class/cc.c:prep_compile", "src/cookie.h:gen_cookie"]}
{"id": "C15", "title": "Every requested compilation or link is run exactly once, in request order", "statement": "The concatenation of the work lists of all steps equals the list of requests in the order they were made; requests are merged into one step only if they are adjacent and belong to the same compiler object.", "quantifier": "every sequence of requests", "why_tests_cant": "An invariant over all sequences of API calls.", "anchors": ["src/build_step.c:add_build_step", "src/build_step.c:run_build_steps"]}
{"id": "C16", "title": "No task of the worker pool runs twice", "statement": "In every interleaving of any number of workers each task is started at most once.", "quantifier": "every schedule, every number of workers and tasks, at every moment", "why_tests_cant": "Interleavings of threads.", "anchors": ["src/pool.c:worker", "src/pool.c:pool_wait"]}
{"id": "C17", "title": "Waiting for the pool means everything was done", "statement": "If waiting for a pool with at least one worker reports success then every task added before the wait was run to completion exactly once and none reported failure.", "quantifier": "every terminated schedule, every number of workers >= 1", "why_tests_cant": "Interleavings of threads.", "anchors": ["src/pool.c:pool_wait", "src/pool.c:worker"]}
{"id": "C18", "title": "A failing task is always reported", "statement": "If any task that was run reports failure then waiting for the pool reports failure; and after the failure was recorded each worker starts at most one further task.", "quantifier": "every schedule", "why_tests_cant": "Interleavings of threads.", "anchors": ["src/pool.c:worker", "src/pool.c:pool_wait"]}
{"id": "C19", "title": "The pool neither deadlocks nor runs forever", "statement": "As long as some worker has not finished, some worker can take a step; and every execution in which tasks terminate has at most a fixed number of worker steps, linear in the number of tasks and workers.", "quantifier": "every reachable state and every schedule", "why_tests_cant": "Liveness and boundedness over all schedules.", "anchors": ["src/pool.c:worker"]}
{"id": "C20", "title": "At most the requested number of jobs runs at once", "statement": "At no time are more tasks running than the pool has workers, and -j only accepts 1 to 1024.", "quantifier": "every schedule at every moment; every argument string of -j", "why_tests_cant": "Interleavings; all integers.", "anchors": ["src/pool.c", "src/ncpu.c:set_max_jobs", "src/main.c:main"]}
{"id": "C21", "title": "Commands receive exactly the arguments given, in order, NULL-terminated", "statement": "However a command is assembled (any sequence of appended arguments and formatted arguments), the argument vector handed to the OS is the sequence of appended arguments followed by a single terminator; appending a whole argv drops precisely the elements equal to '--'.", "quantifier": "every sequence of append operations with any strings", "why_tests_cant": "Invariant over all operation sequences.", "anchors": ["src/cmd.c:cmd_create", "src/cmd.c:cmd_add", "src/cmd.c:cmd_add_argv"]}
{"id": "C22", "title": "Executable lookup follows PATH order", "statement": "A command name is resolved to itself if it names an executable non-directory from the working directory, otherwise to '<dir>/<name>' for the first directory of PATH containing such a file, otherwise it is reported missing.", "quantifier": "every name, every PATH value, every file system", "why_tests_cant": "Ranges over all PATH strings.", "anchors": ["src/cmd.c:find_bin"]}
{"id": "C23", "title": "A command's fate is reported correctly", "statement": "Waiting for a command reports success exactly when it exits with status 0; any other exit status or death by signal is failure.", "quantifier": "every wait status", "why_tests_cant": "All statuses; tests use true/false only.", "anchors": ["src/cmd.c:wait_for_process", "src/cmd.c:cmd_exec"]}
{"id": "C24", "title": "A command's output is captured completely", "statement": "The captured output of a command is the concatenation of everything it wrote, independent of how the pipe delivered it in chunks; a signal death appends one line naming the signal.", "quantifier": "every output and every chunking of it", "why_tests_cant": "Chunk boundaries are chosen by the kernel.", "anchors": ["src/cmd.c:cmd_read_out"]}
{"id": "C25", "title": "Synchronous commands terminate whatever they print", "statement": "Running a command that terminates when its output is drained terminates. (False: bob waits for exit before reading the pipe, so output larger than the pipe capacity blocks both sides.)", "quantifier": "every amount of output and every pipe capacity", "why_tests_cant": "Deadlock depends on capacity and schedule.", "anchors": ["src/cmd.c:cmd_exec", "src/cmd.c:cmd_read_out"]}
{"id": "C26", "title": "Failure to start a command is reported as failure", "statement": "If the operating system refuses to start a process then bob reports failure. (False: the error convention of posix_spawn is positive numbers while bob tests for negative ones.)", "quantifier": "every error number", "why_tests_cant": "Requires fault injection for every error value.", "anchors": ["src/cmd.c:cmd_exec_async"]}
{"id": "C27", "title": "Diagnostics of the last compilation are replayed", "statement": "When a compilation is skipped because it is up to date, exactly the output recorded at the last time its command ran is shown again, and nothing is shown if that run was silent.", "quantifier": "every history of runs of a command for one output, every output text without NUL", "why_tests_cant": "A history property.", "anchors": ["src/cmd.c:cmd_log", "src/class/cc.c:log_already_done", "src/logging.c"]}
{"id": "C28", "title": "Malformed install maps are rejected before anything is installed", "statement": "A build script whose 'install' is not a map, or whose map has a key or value which is not a string, makes every bob command that reads it fail before a file is copied; a script without 'install' or with an empty one is accepted and installs nothing.", "quantifier": "every value of 'install'", "why_tests_cant": "All shapes of values.", "anchors": ["src/install.c:setup_install_map"]}
{"id": "C29", "title": "Install copies every listed file outside the output directory", "statement": "If installing succeeds then for every entry of the map whose source is not a build product the destination under the prefix exists and has the source's content, unless it already was at least as new.", "quantifier": "every install map and file-system state", "why_tests_cant": "Unbounded maps and states; ordering of entries.", "anchors": ["src/install.c:install_all", "src/install.c:install_single", "src/fsutil.c:copy"]}
{"id": "C30", "title": "Build products are installed when they are built", "statement": "When building for a prefix, each successful compile or link whose product is listed in the install map (under any of its entries) is copied to its destination. (Only the first entry for a product is used, so the general claim is false.)", "quantifier": "every map, including maps listing a product several times", "why_tests_cant": "Unbounded maps.", "anchors": ["src/install.c:install_cookie", "src/install.c:cookie_to_output"]}
{"id": "C31", "title": "Installing creates the missing parent directories and only those", "statement": "Installing to 'a/b/c' creates exactly the missing ones among '<prefix>/a' and '<prefix>/a/b', each under its parent, and creates no directory outside the prefix when the destination has no '..' component.", "quantifier": "every destination path and every set of existing directories", "why_tests_cant": "All path shapes (repeated slashes, deep nesting).", "anchors": ["src/install.c:install_single", "src/fsutil.c:mkdir_wrapped"]}
{"id": "C32", "title": "Installing twice copies nothing the second time", "statement": "After a successful install, installing again without changes copies nothing.", "quantifier": "every map with pairwise different destinations and every state after success", "why_tests_cant": "Fixpoint over all maps.", "anchors": ["src/install.c:install_single", "src/frugal.c:frugal_mtime"]}
{"id": "C33", "title": "Whether a file counts as a build product is decided by its directory", "statement": "A file is treated as a build product exactly when it lies in the output directory. (False: a sibling whose name merely starts with the output directory's name, such as '.bobx/file', is treated as a product and silently not installed.)", "quantifier": "every pair of absolute paths", "why_tests_cant": "All string pairs.", "anchors": ["src/install.c:install_single", "src/fsutil.c:set_owner"]}
{"id": "C34", "title": "bob never changes ownership except as root and inside the output directory", "statement": "Ownership changes are requested only when bob runs as root and only for paths that have the output directory's path as a string prefix, and always to the owner of the output directory's parent as recorded at start-up.", "quantifier": "every path and every uid", "why_tests_cant": "All paths; requires root for tests.", "anchors": ["src/fsutil.c:set_owner", "src/main.c:main"]}
{"id": "C35", "title": "Exit status tells whether the instruction succeeded", "statement": "bob exits successfully exactly when the instruction is known, the set-up checks pass and the instruction's work succeeded; otherwise it exits unsuccessfully.", "quantifier": "every option list, instruction and outcome of each phase", "why_tests_cant": "All combinations of phases.", "anchors": ["src/main.c:main", "src/bsys.c"]}
{"id": "C36", "title": "run and sh see the freshly built files first", "statement": "The environment for 'run' and 'sh' has '<out>/prefix/bin' before all previous PATH entries and '<out>/prefix/lib' before all previous LD_LIBRARY_PATH entries; the previous entries follow unchanged; other variables are unchanged.", "quantifier": "every previous environment and output path", "why_tests_cant": "All environments.", "anchors": ["src/bsys.c:setup_environment", "src/bsys.c:bsys_run", "src/bsys.c:bsys_sh"]}
{"id": "C37", "title": "run executes the configured command followed by the user's arguments", "statement": "With a 'run' vector of strings the process executed is its first element with the remaining elements followed by the command-line arguments in order (without '--'); a vector with a non-string element or a non-vector 'run' is rejected.", "quantifier": "every run vector and argument list", "why_tests_cant": "All vectors.", "anchors": ["src/bsys/bob/main.c:run"]}
{"id": "C38", "title": "The first matching build system is used", "statement": "The build system chosen for a directory is the first in the fixed list that recognises it, and none if none does.", "quantifier": "every recogniser outcome", "why_tests_cant": "All combinations of outcomes.", "anchors": ["src/bsys.c:bsys_identify"]}
{"id": "C39", "title": "Variables resolve to the innermost declaration", "statement": "Looking up a name yields the first declaration found when going from the innermost to the outermost scope, and an error if there is none.", "quantifier": "every scope stack", "why_tests_cant": "All stacks of scopes.", "anchors": ["src/flamingo/env.h:env_find_var", "src/flamingo/scope.h:scope_shallow_find_var", "src/flamingo/grammar/identifier.h"]}
{"id": "C40", "title": "Declaring a name twice in one scope is rejected; shadowing an outer one is allowed", "statement": "A variable, function or class declaration fails exactly when the innermost scope already has that name, and otherwise changes only that scope, by adding the name.", "quantifier": "every environment and every name", "why_tests_cant": "All environments.", "anchors": ["src/flamingo/grammar/var_decl.h", "src/flamingo/grammar/function_declaration.h", "src/flamingo/scope.h"]}
{"id": "C41", "title": "Running code leaves the scope stack as it found it", "statement": "Whenever evaluation of any expression, statement or call finishes normally the stack of scopes is the one there was before, and no declared name has disappeared or moved to another scope.", "quantifier": "every program and every starting state", "why_tests_cant": "Induction over all programs.", "anchors": ["src/flamingo/call.h:call", "src/flamingo/env.h", "src/flamingo/grammar/block.h"]}
{"id": "C42", "title": "Evaluating an expression never adds a variable to an existing scope", "statement": "Evaluation of an expression leaves the set of declared names of every scope that existed before unchanged, so variable storage the interpreter holds on to is never moved.", "quantifier": "every expression, every program state, including calls, classes and lambdas inside it", "why_tests_cant": "Memory-safety over all programs.", "anchors": ["src/flamingo/scope.h:scope_add_var", "src/flamingo/grammar/var_decl.h", "src/flamingo/call.h"]}
{"id": "C43", "title": "A function or class name cannot be reassigned", "statement": "Assigning to a name that holds a function or class is always rejected and leaves the binding unchanged.", "quantifier": "every environment and right-hand side", "why_tests_cant": "All programs.", "anchors": ["src/flamingo/grammar/assignment.h"]}
{"id": "C44", "title": "A variable keeps the type of its first value", "statement": "Assigning a value of a different type to a variable is rejected. (False for plain variables: the check compares the variable with itself.)", "quantifier": "every variable and value", "why_tests_cant": "All values.", "anchors": ["src/flamingo/grammar/assignment.h"]}
{"id": "C45", "title": "return ends a function and yields its value", "statement": "A call of a function whose body executes 'return e' yields the value of e, and no later statement of that body has an effect. (False when e is itself a call: bob aborts or loses the value; later nested declarations still run.)", "quantifier": "every function body and every expression e", "why_tests_cant": "All programs.", "anchors": ["src/flamingo/grammar/return.h", "src/flamingo/grammar/statement.h", "src/flamingo/call.h"]}
{"id": "C46", "title": "return outside a function is rejected", "statement": "A 'return' that is not inside a function body is an error. (False: inside a block at top level it is accepted and makes the next called function return its value without running.)", "quantifier": "every program position", "why_tests_cant": "All programs.", "anchors": ["src/flamingo/grammar/return.h", "src/flamingo/grammar/statement.h"]}
{"id": "C47", "title": "A recursive call has its own variables", "statement": "Calls of a function see the variables of the place of definition and their own, never those of another running call of the same function. (False: the environment object of the function is shared between running calls.)", "quantifier": "every program", "why_tests_cant": "All programs and call depths.", "anchors": ["src/flamingo/call.h:call", "src/flamingo/env.h"]}
{"id": "C48", "title": "Equality on values is an equivalence and agrees with structure", "statement": "'==' is reflexive, symmetric and transitive on values without function or instance parts and maps without repeated keys, and two such values are equal exactly when they have the same printed structure up to map order. (With repeated keys, which map '+' can create, it is neither reflexive nor symmetric.)", "quantifier": "every pair/triple of values", "why_tests_cant": "All nested values.", "anchors": ["src/flamingo/val.h:val_eq", "src/flamingo/grammar/map.h", "src/flamingo/grammar/binary_expr.h"]}
{"id": "C49", "title": "Map literals have distinct keys and lookup finds them", "statement": "A map literal with two equal keys is rejected; otherwise indexing with a key equal to one of its keys yields the associated value and any other key yields none.", "quantifier": "every literal and every key", "why_tests_cant": "All maps.", "anchors": ["src/flamingo/grammar/map.h", "src/flamingo/grammar/index.h"]}
{"id": "C50", "title": "Vector indexing is bounds-checked", "statement": "v[i] yields element i for 0 <= i < n, element n+i for -n <= i < 0, and an error otherwise; memory outside the vector is never read. (Undefined behaviour for i = -2^63.)", "quantifier": "every vector and 64-bit index", "why_tests_cant": "All 2^64 indices.", "anchors": ["src/flamingo/grammar/index.h"]}
{"id": "C51", "title": "Integer arithmetic is exact or flagged", "statement": "For operands whose exact result fits in 64 bits, +, -, * / % and unary - yield the mathematical result (division truncating towards zero); division and modulo by zero are errors; all other cases are undefined behaviour of the implementation.", "quantifier": "every pair of 64-bit integers and every operator", "why_tests_cant": "2^128 cases per operator.", "anchors": ["src/flamingo/grammar/binary_expr.h", "src/flamingo/grammar/unary_expr.h"]}
{"id": "C52", "title": "Operands of different kinds are never combined", "statement": "A binary operator applied to values of different kinds, or of a kind not supporting it, is an error except comparison with none by == and !=.", "quantifier": "every operator and pair of values", "why_tests_cant": "All kinds and operators.", "anchors": ["src/flamingo/grammar/binary_expr.h"]}
{"id": "C53", "title": "Both operands of && and || are always evaluated", "statement": "Effects of both operands happen, left first, before the operator is applied.", "quantifier": "every pair of expressions and state", "why_tests_cant": "All programs.", "anchors": ["src/flamingo/grammar/binary_expr.h"]}
{"id": "C54", "title": "String methods mean what they say", "statement": "s.len() is the number of bytes; s.startswith(t) / s.endswith(t) hold exactly when t is a prefix / suffix of s.", "quantifier": "every pair of strings", "why_tests_cant": "All strings, including empty and longer-than-receiver arguments.", "anchors": ["src/flamingo/ptm/str.h"]}
{"id": "C55", "title": "map and where on vectors are pointwise and order-preserving", "statement": "v.map(f) calls f on every element once in order and yields the results in order; v.where(f) yields, in order, copies of the elements on which f gave true; both fail as soon as a call fails.", "quantifier": "every vector and callable", "why_tests_cant": "All vectors and functions with effects.", "anchors": ["src/flamingo/ptm/vec.h"]}
{"id": "C56", "title": "Concatenation builds a new container", "statement": "a + b on vectors (maps, strings) yields the elements of a followed by those of b, and later assignment to elements of the result does not change a or b.", "quantifier": "every pair of containers", "why_tests_cant": "Aliasing over all programs.", "anchors": ["src/flamingo/grammar/binary_expr.h", "src/flamingo/val.h:val_copy"]}
{"id": "C57", "title": "Integer literals denote their digits", "statement": "A literal made of digits and underscores denotes the decimal number of its digits if that is below 2^63; larger literals are undefined behaviour.", "quantifier": "every literal", "why_tests_cant": "All literals.", "anchors": ["src/flamingo/grammar/literal.h"]}
{"id": "C58", "title": "An error anywhere stops the script, and nothing is built", "statement": "If any statement fails, no later statement of the script is executed, the script as a whole fails, and bob runs no build step.", "quantifier": "every program and every failing position, including inside functions, classes and imported files", "why_tests_cant": "All programs.", "anchors": ["src/flamingo/flamingo.c:flamingo_run", "src/flamingo/common.h", "src/bsys/bob/main.c:setup"]}
{"id": "C59", "title": "Script errors are reported, never crashes", "statement": "A failing script makes bob print a message and exit. (False: messages of 235 bytes or more abort, as do uses of a variable in its own initialiser.)", "quantifier": "every failing script", "why_tests_cant": "Message length depends on user-chosen names.", "anchors": ["src/flamingo/common.h:error", "src/flamingo/grammar/var_decl.h"]}
{"id": "C60", "title": "Function calls are checked for arity and bind arguments by position", "statement": "A call fails if the number of arguments differs from the number of parameters, and otherwise inside the body the i-th parameter is the i-th argument; arguments are evaluated left to right.", "quantifier": "every callable and argument list", "why_tests_cant": "All programs.", "anchors": ["src/flamingo/call.h:setup_args", "src/flamingo/grammar/call.h"]}
{"id": "C61", "title": "Every instance has its own members; static members belong to the class", "statement": "Instantiating a class gives an instance whose members are those declared non-static by the class body, separate from all other instances'; static members are reachable through the class only.", "quantifier": "every class and any number of instances", "why_tests_cant": "All programs.", "anchors": ["src/flamingo/call.h", "src/flamingo/grammar/class_decl.h", "src/flamingo/grammar/access.h", "src/flamingo/grammar/static.h"]}
{"id": "C62", "title": "Only compile and link requests of a successful script are built", "statement": "The steps executed by bob are those registered by Cc.compile / Linker.link / Linker.archive calls evaluated by the script, in evaluation order, and each call's result names the files its step will produce.", "quantifier": "every script", "why_tests_cant": "All programs.", "anchors": ["src/class/cc.c", "src/class/linker.c", "src/bsys/bob/main.c:external_fn_cb"]}
{"id": "C63", "title": "Imports make the imported names available in the importing scope", "statement": "After a successful import the importing scope has the imported file's top-level declarations; importing a file whose names clash is an error; a file importing itself never terminates normally.", "quantifier": "every set of files", "why_tests_cant": "All import graphs.", "anchors": ["src/flamingo/grammar/import.h", "src/flamingo/flamingo.c:flamingo_inherit_env"]}
{"id": "C64", "title": "Evaluation is deterministic and does not depend on resource limits of the model", "statement": "A script that evaluates to an outcome evaluates to that outcome only.", "quantifier": "every program", "why_tests_cant": "All programs.", "anchors": ["src/flamingo/flamingo.c"]}
{"id": "C65", "title": "Memory of live values is never released", "statement": "A value reachable from a variable is not freed. (False: assigning to the parameter of a callback of vec.map or vec.where frees the vector's element.)", "quantifier": "every program", "why_tests_cant": "All programs.", "anchors": ["src/flamingo/val.h", "src/flamingo/ptm/vec.h", "src/flamingo/call.h"]}
{"id": "C66", "title": "Reinstalling picks up changes of the sources", "statement": "After a source of the install map has changed, installing again makes the destination equal to it. (False for a file changed inside an installed directory whose own modification time does not change.)", "quantifier": "every project tree and every change", "why_tests_cant": "All trees and all changes.", "anchors": ["src/install.c:install_single"]}
{"id": "C67", "title": "-j accepts exactly the numbers 1 to 1024", "statement": "Option -j n sets the number of jobs to n if n is between 1 and 1024 and makes bob exit otherwise. (False for numbers that do not fit an int, which wrap around.)", "quantifier": "every argument", "why_tests_cant": "All numbers.", "anchors": ["src/main.c:main", "src/ncpu.c:set_max_jobs"]}
{"id": "C68", "title": "Arguments after the instruction reach the program unchanged", "statement": "What follows the instruction on the command line is passed on. (False with a getopt that permutes its arguments: options of the program are taken as bob's.)", "quantifier": "every command line", "why_tests_cant": "All command lines.", "anchors": ["src/main.c:main"]}
{"id": "C69", "title": "Disciplined scripts are memory safe", "statement": "A script which follows a discipline that can be checked on its text (names assigned to are not parameters, variables assigned to inside functions only take values computed without calling functions, elements are not assigned to, classes and members of strings and vectors are only used directly; Spec/FlSafe.lean), and whose imports do so, never makes the interpreter use released or missing memory or fail an assertion, except for the reasons listed (message too long, overflow, variable without a value, return of a call, bob's functions on wrong arguments, vec.where with a function returning an instance). When it ends, every part of every variable's value is still there. All build.fl files of the project follow the discipline.", "quantifier": "every disciplined script, every file system, every length of run", "why_tests_cant": "All programs and all states of the reference-counted heap.", "anchors": ["src/flamingo/val.h", "src/flamingo/scope.h", "src/flamingo/call.h", "src/flamingo/grammar", "src/flamingo/ptm/vec.h", "src/bsys/bob/main.c", "import/bob.fl", "build.fl", "skeletons/c/build.fl"]}
{"id": "C70", "title": "assert stops the script exactly if its condition does not hold", "statement": "An assert statement goes through exactly if its expression evaluates to true, and then changes nothing but giving up that value. If the expression is false, or no boolean at all, the script stops with a message saying so, which quotes the condition.", "quantifier": "every state, expression and world", "why_tests_cant": "All expressions and all states in which the statement can be reached.", "anchors": ["src/flamingo/grammar/assert.h:parse_assert"]}
{"id": "C71", "title": "print writes the text of the value, once, and nothing is taken back", "statement": "print of an expression adds exactly one line to the output, the textual form of its value: nested containers in brackets with their elements in order, strings bare outside and quoted inside. Lines printed earlier stay and stay in order, whatever is executed afterwards.", "quantifier": "every value of any nesting depth, every state, every script", "why_tests_cant": "Values can be nested arbitrarily deep and the statement is about all executions.", "anchors": ["src/flamingo/grammar/print.h:repr", "src/flamingo/grammar/print.h:parse_print"]}
{"id": "C72", "title": "Build scripts mean what they say", "statement": "There is a description of build scripts without memory (Spec/FlMean.lean): names stand for values, expressions have values and ask for things to be built. Whenever a disciplined script that imports bob has a meaning by it, running the script ends without an error, bob is left with exactly the compile, link and archive requests described, in that order, with the described sources, flags and product paths, exactly the described lines have been printed, and the variables bob looks at (install, run) have the described values. The meaning is unique. For the project's own build.fl, the C skeleton and the frugality test this gives their requests for every content of the source directory.", "quantifier": "every disciplined script in the described part of the language, every file system, every output directory", "why_tests_cant": "All programs of a language with closures, filters and reference-counted values, and all directory contents.", "anchors": ["src/flamingo", "src/bsys/bob/main.c", "src/class/fs.c", "src/class/cc.c", "src/class/linker.c", "import/bob.fl", "build.fl", "skeletons/c/build.fl", "tests/frugality/build.fl"]}
{"id": "C73", "title": "Compilers, linkers and archivers are given exactly what was asked for", "statement": "The argument vector the operating system receives for a compile job is the compiler named by $CC (or cc), the diagnostics option, -c, the source, -o, the object, and then exactly the flags in order; dependencies are asked for with the same source and flags; a link job gives the product, the -L of the prefix if there is one, the inputs in order and then the flags; an archive job gives $AR (or ar), -rcs, the product, the inputs, the flags. A compiler command line determines its job.", "quantifier": "every source, product, list of inputs and flags (of any length, without NUL), every environment", "why_tests_cant": "Lists of arbitrary length and arbitrary bytes, through a reallocating vector.", "anchors": ["src/class/cc.c:add_flags", "src/class/cc.c:get_include_deps", "src/class/cc.c:compile_task", "src/class/linker.c:link_step", "src/cmd.c:cmd_create", "src/cmd.c:cmd_addf"]}
{"id": "C74", "title": "Builds with other tools leave what those tools make", "statement": "If a project was built and is then built again successfully with another compiler, archiver or library search directory, every product is what the new tools make of the present files.", "quantifier": "every project, history, pair of tools, prefix, number of workers and schedule", "why_tests_cant": "Quantifies over tools and over all histories and schedules.", "anchors": ["src/class/cc.c:compile_task", "src/class/linker.c:link_step", "src/frugal.c:frugal_flags", "src/frugal.c:frugal_mtime"]}
{"id": "C75", "title": "What bob leaves behind is the program of the present sources", "statement": "In a project whose script is bob's own or that of the C skeleton, whatever edits and uses of bob came before (including failed builds and builds killed at any point, with any number of workers), whenever bob succeeds the program in the output directory is linked from the objects of exactly the sources the script selects among the files present now, each compiled as it is now, with the flags of the script; files of the user are untouched. For any other script with a meaning (C72), every product it describes is what the tools make of the present files.", "quantifier": "every project directory, history of edits and (partial) builds, contents of src, schedule, tool behaviour; assuming product names do not collide (C11, C13)", "why_tests_cant": "Composes the interpreter, the naming of products, incremental builds and concurrency over unbounded histories.", "anchors": ["build.fl", "skeletons/c/build.fl", "src/bsys/bob/main.c:setup", "src/bsys/bob/main.c:build", "src/class/cc.c", "src/class/linker.c", "src/frugal.c"]}
{"id": "C76", "title": "What bob installs is the program of the present sources", "statement": "In a project with one program (bob's own, or made from the C skeleton), whatever edits and uses of bob for this prefix came before, whenever bob succeeds for a prefix the program installed below it is linked from the objects of exactly the present sources, each compiled as it is now.", "quantifier": "every project directory, history of edits and (partial) builds with or without the prefix, contents of src, schedule, tool behaviour", "why_tests_cant": "Depends on the order in which lists of sources were built over an unbounded history; each single build looks right.", "anchors": ["src/install.c:install_single", "src/install.c:install_cookie", "src/frugal.c:frugal_mtime", "src/class/linker.c:link_step", "src/cookie.c"]}
{"id": "C77", "title": "Failed scripts are torn down without memory errors", "statement": "When a build script that keeps to the rules of C69 fails, or does not import bob.fl, setup tears the interpreter down (flamingo_destroy) without using or freeing released memory: every scope of the environment in force at the error, every value whose last reference goes with it, and every part of these is freed exactly once.", "quantifier": "every script, imported file, directory contents, place and reason of the failure, recursion depth", "why_tests_cant": "Double frees depend on which environment is in force where the error happens and on all reference counts at that moment; they often go unnoticed because bob exits with an error anyway.", "anchors": ["src/flamingo/flamingo.c:flamingo_destroy", "src/flamingo/scope.h:scope_free", "src/flamingo/val.h:val_decref", "src/flamingo/call.h:call", "src/bsys/bob/main.c:setup"]}
{"id": "C78", "title": "Colours are used only where they are wanted", "statement": "bob prints colours if and only if CLICOLOR_FORCE is set, or both standard output and standard error are terminals and either COLORTERM is not empty or TERM contains 'color'. In particular redirecting either stream turns colours off unless they are forced.", "quantifier": "every environment and every kind of the two streams", "why_tests_cant": "The decision depends on four variables of arbitrary text and two streams.", "anchors": ["src/logging.c:supports_colour"]}
{"id": "C79", "title": "The terminal is left as it was found", "statement": "If the output of the commands that bob runs leaves a terminal with normal text, so does everything that bob prints, whatever it reports and in whatever order.", "quantifier": "every sequence of messages and reports about commands, every text in them, with and without colours", "why_tests_cant": "Needs a terminal that understands control sequences, and every sequence of messages.", "anchors": ["src/logging.c:vlog", "src/logging.c:log_already_done", "src/cmd.c:cmd_log", "src/cmd.c:cmd_read_out"]}
{"id": "C80", "title": "No control sequences without colours", "statement": "When colours are not used, bob prints no control sequences of its own, so that its output can be kept in a file.", "quantifier": "every environment without colours, every message", "why_tests_cant": "Every format of every message has to be considered with every argument.", "anchors": ["src/logging.c:vlog", "src/logging.h:CLEAR", "src/class/cc.c:compile_task", "src/install.c"]}
{"id": "C81", "title": "The log is shown again byte by byte", "statement": "What is printed below the message that something is already done is, byte by byte, what was printed below the report when its command ran, and the message announces it with a colon exactly if there is something.", "quantifier": "every output of a command, including zero bytes, every result, with and without prefix and colours", "why_tests_cant": "All outputs, including empty ones, ones that begin with a zero byte and ones that contain one.", "anchors": ["src/cmd.c:cmd_log", "src/logging.c:log_already_done"]}
{"id": "C82", "title": "Reports agree with results", "statement": "After a command was run, the report says 'Failed' if and only if cmd_exec has reported failure to its caller.", "quantifier": "every behaviour of the system when starting and waiting, every previous content of memory", "why_tests_cant": "Depends on what the stack holds where the structure of the command happens to be.", "anchors": ["src/cmd.c:cmd_create", "src/cmd.c:cmd_exec", "src/cmd.c:cmd_log", "src/class/cc.c:compile_task", "src/class/linker.c:link_step"]}
{"id": "C83", "title": "A failed copy is reported with its reason", "statement": "When installing fails because something cannot be copied, the message bob prints ends with what the command that failed has printed, without its final newline.", "quantifier": "every world in which copying fails, every output and result of rm and cp", "why_tests_cant": "Every way in which rm and cp can fail, with every output, would have to be provoked.", "anchors": ["src/fsutil.c:rm", "src/fsutil.c:copy", "src/install.c:install_all", "src/cmd.c:cmd_read_out"]}
{"id": "C84", "title": "Requests outlive their script", "statement": "When a script has ended well, everything its build steps refer to (sources, outputs, flags) is still in memory, there is an output for each source, and the steps can be run.", "quantifier": "every script that follows the discipline of C69, every world, every depth of recursion", "why_tests_cant": "Reference counts of all values after all scripts; a released path usually still reads as it was.", "anchors": ["src/class/cc.c:prep_compile", "src/class/cc.c:compile_step", "src/class/linker.c:prep_link", "src/class/linker.c:link_step", "src/flamingo/val.h:val_free"]}
{"id": "C85", "title": "Everything bob prints is seen, in order", "statement": "What bob prints to its two output streams comes out of them completely and, where both go to the same place, in the order in which it was printed, however bob ends.", "quantifier": "every sequence of messages and outputs of commands, every behaviour of the buffers that the C standard allows, exiting as well as becoming the program to run", "why_tests_cant": "What is buffered depends on the C library, on where the output goes and on all that was printed before.", "anchors": ["src/logging.c:vlog", "src/cmd.c:cmd_log", "src/cmd.c:cmd_exec_inplace", "src/bsys/bob/main.c:run"]}
{"id": "C86", "title": "Commands do not wait for commands of other workers", "statement": "Reading the output of a command ends when that command has ended and its output was read, whatever other workers run meanwhile; and all commands are eventually run.", "quantifier": "every number of workers, every list of commands for each, every use of locks, every interleaving, every capacity of pipes", "why_tests_cant": "It depends on the order in which threads make pipes and start processes, in windows of a few instructions.", "anchors": ["src/cmd.c:cmd_exec_async", "src/cmd.c:wait_for_process", "src/cmd.c:cmd_read_out", "src/class/cc.c:compile_task"]}
{"id": "C87", "title": "Pipes are closed exactly once and by who has made them", "statement": "Whatever commands workers run at once and however these go, a worker closes and reads only descriptors it has opened and not closed yet, has none left open after cmd_free, and a child's standard output and standard error are the pipe its worker reads.", "quantifier": "every number of workers, every sequence of commands and of outcomes of find_bin, pipe and posix_spawnp, every interleaving, every choice of descriptor numbers, debugging or not", "why_tests_cant": "Closing a number twice only does harm if another thread has got the number in between.", "anchors": ["src/cmd.c:cmd_create", "src/cmd.c:cmd_exec_async", "src/cmd.c:cmd_read_out", "src/cmd.c:cmd_free"]}
{"id": "C88", "title": "A report and the output it announces are printed together", "statement": "When several workers compile at once, the report about a compilation is directly followed by the output of that compilation, with nothing of other compilations in between, and the locks that are to ensure this never block for ever.", "quantifier": "every step, every number of requests and tasks, every distribution of tasks over workers, every interleaving, every output", "why_tests_cant": "Two messages are torn apart only if a thread is suspended between two calls of printf.", "anchors": ["src/class/cc.c:compile_task", "src/class/cc.c:prep_compile", "src/cmd.c:cmd_log", "src/build_step.c:add_build_step", "src/install.c:install_single"]}
{"id": "C89", "title": "Buffers are read and written inside their bounds", "statement": "Every byte that bob's own code reads from or writes to a buffer lies inside of the buffer and was written before it is read; the paths, flags, cookies, outputs, names of dependencies and messages put together in buffers are complete.", "quantifier": "every path, every list of flags, every file, every sequence of pieces read from a pipe, every output of the compiler", "why_tests_cant": "An access past the end of a buffer rarely has a visible effect, and depends on lengths that no finite set of inputs covers.", "anchors": ["src/frugal.c:frugal_flags", "src/cookie.h:gen_cookie", "src/cmd.c:cmd_read_out", "src/class/cc.c:get_include_deps", "src/class/cc.c:validate_requirements", "src/class/linker.c:link_step", "src/logging.c:log_already_done", "src/install.c:install_single", "src/main.c:usage"]}
{"id": "C90", "title": "Every worker thread is joined exactly once", "statement": "Whatever calls are made on a pool, pthread_join is only given handles of threads that were created, each exactly once; when the memory of the pool is given back all workers have ended; and nothing blocks for ever.", "quantifier": "every number of workers, every sequence of calls, every interleaving", "why_tests_cant": "Joining a thread twice and joining an arbitrary handle are undefined behaviour, which shows only with unlucky memory contents or when thread creation fails.", "anchors": ["src/pool.c:pool_init", "src/pool.c:pool_start", "src/pool.c:pool_wait", "src/pool.c:pool_free"]}
{"id": "C91", "title": "Threads access the variables of a pool one at a time", "statement": "Two threads are never about to access the same variable of a pool at the same time, one of them writing, without being ordered by the lock, by the creation of a thread or by joining it.", "quantifier": "every number of workers, every sequence of calls, every outcome of tasks, every interleaving", "why_tests_cant": "A data race is undefined behaviour that no test can show; it depends on the compiler and the machine.", "anchors": ["src/pool.c:businessman", "src/pool.c:pool_add_task", "src/pool.c:pool_free", "src/pool.c:pool_wait", "src/class/cc.c:compile_step"]}
{"id": "C92", "title": "Bad news goes to standard error and looks like it", "statement": "With colours, the text of every message of bob is seen in a look that belongs to its level alone, bold exactly for errors, with a picture of its own; without colours the same text is seen without either. Everything that tells of a problem goes to standard error, everything else to standard output.", "quantifier": "every level, every text without control characters, every kind of message and report, every output of commands", "why_tests_cant": "Whether a text is seen in its look depends on all bytes printed before and inside it; tests look at the texts of a few messages and merge the two streams.", "anchors": ["src/logging.h:LOG_FATAL", "src/logging.c:vlog", "src/cmd.c:cmd_log", "src/logging.c:log_already_done"]}
{"id": "C93", "title": "Accepted scripts follow the grammar", "statement": "When the parser accepts a script, its tree follows the grammar of the language node by node, and its tokens, blanks and comments are together the text, in order and without gaps. The parser never faces two actions at once and never trips an assertion.", "quantifier": "every text", "why_tests_cant": "The automaton has 336 states and two sets of tables; a wrong entry shows only for the texts that reach it.", "anchors": ["src/flamingo/parser.c:ts_parse_table", "src/flamingo/parser.c:ts_parse_actions", "src/flamingo/runtime/parser.c:ts_parser__advance", "src/flamingo/runtime/parser.c:ts_parser__reduce", "src/flamingo/runtime/parser.c:ts_parser__accept", "src/flamingo/runtime/parser.c:ts_parser__lex"]}
{"id": "C94", "title": "Parsing ends", "statement": "The parser ends for every text, after a number of rounds proportional to the length of the text, with one outcome: a tree or the report of a syntax error.", "quantifier": "every text", "why_tests_cant": "Tokens without text and cycles of reductions would make it run forever on particular inputs only.", "anchors": ["src/flamingo/runtime/parser.c:ts_parser__advance", "src/flamingo/parser.c:ts_lex"]}
{"id": "C95", "title": "Operators bind as usual", "statement": "Binary operators bind in the usual order and to the left, what is accessed, called or indexed binds tighter than operators, and unary operators bind tighter than binary ones.", "quantifier": "every accepted text, every pair of adjacent operators in it", "why_tests_cant": "Precedence is a property of every combination of two operators in every context; tests try a few.", "anchors": ["src/flamingo/parser.c:ts_parse_table", "src/flamingo/parser.c:ts_small_parse_table", "src/flamingo/grammar/unary_expr.h:parse_unary_expr", "src/flamingo/grammar/binary_expr.h:parse_binary_expr"]}
{"id": "C96", "title": "Scripts that are written down are read back", "statement": "Every syntax tree of a script, written down with a blank before each word and its operands in parentheses, is accepted by the parser, and what the interpreter takes out of the nodes of the tree is the same syntax tree again. So different scripts have different texts.", "quantifier": "every script (names that are not reserved, numbers, strings without quotes; no empty blocks, static classes, or statements and lambda bodies that begin with a map)", "why_tests_cant": "It is about all scripts of all sizes and nestings, across the lexer, the tables, the node functions and the grammar functions of the interpreter.", "anchors": ["src/flamingo/parser.c:ts_lex", "src/flamingo/parser.c:ts_parse_table", "src/flamingo/runtime/node.c:ts_node_child", "src/flamingo/runtime/node.c:ts_node_child_by_field_name", "src/flamingo/grammar/expr.h:parse_expr", "src/flamingo/grammar/statement.h:parse_statement"]}
{"id": "C97", "title": "Tokens are spelled as they should be", "statement": "In the tree of an accepted script, keywords, operators and punctuation are spelled as themselves; names are letters, digits and underscores; numbers are digits; strings are quoted; a comment goes from # to the end of its line. Between tokens there are only blanks.", "quantifier": "every text that the parser accepts, every token of its tree", "why_tests_cant": "It is about every path through the 186 states of the generated lexer, from each of its start states.", "anchors": ["src/flamingo/parser.c:ts_lex", "src/flamingo/parser.c:ts_lex_modes", "src/flamingo/runtime/parser.c:ts_parser__lex"]}
{"id": "C98", "title": "Words are whole", "statement": "In an accepted script a keyword or name ends where the letters and digits end, and keywords are not used as names.", "quantifier": "every text that the parser accepts", "why_tests_cant": "It is about every text; that words are split depends on the state of the parser.", "anchors": ["src/flamingo/parser.c:ts_lex", "src/flamingo/parser.c:ts_lex_modes", "src/flamingo/runtime/parser.c:ts_parser__lex"]}
{"id": "C99", "title": "Accepted scripts make sense to the interpreter", "statement": "For every script without syntax errors, the nodes have the shape that the functions of src/flamingo/grammar assume: the assertions on types and counts of children hold, fields that are used without a check are there, and no node is of an unknown kind.", "quantifier": "every text that the parser accepts, every node of its tree", "why_tests_cant": "It is about every tree the grammar allows, where comments can be anywhere, and the many ways a node can be made.", "anchors": ["src/flamingo/grammar/statement.h:parse_statement", "src/flamingo/grammar/expr.h:parse_expr", "src/flamingo/grammar/call.h:parse_call", "src/flamingo/grammar/var_decl.h:parse_var_decl", "src/flamingo/grammar/identifier.h:parse_identifier"]}
{"id": "C100", "title": "Ends of lines, `;` and comments have no effect", "statement": "Two scripts whose statements differ only in where there is an empty statement, a comment between statements or an end of line, in any block, function, class or lambda and in every imported script, do the same: they print the same, report the same error, make the same calls of the host and leave the same values.", "quantifier": "every two scripts alike in this way, all worlds, every imported file", "why_tests_cant": "It compares all pairs of runs of a script with infinitely many layouts of it; values hold bodies of functions, so even the values of the two runs are not equal.", "anchors": ["src/flamingo/grammar/statement.h:parse_statement", "src/flamingo/grammar/block.h:parse_block", "src/flamingo/flamingo.c:flamingo_run", "src/flamingo/grammar/import.h:parse_import"]}
{"id": "C101", "title": "Scripts are run from their texts", "statement": "Running a text is running the statements it is parsed to.  For the texts of `bob.fl`, of the script of bob itself, of the C skeleton and of the tests, as they are in their files, these are the statements the claims about builds are about, so those claims hold for the texts: if `bob build` succeeds, then the program is linked from the objects of the sources that are there now, each compiled as it is now.", "quantifier": "every text, and every history of edits and uses of bob with the texts of the project", "why_tests_cant": "It joins the parser, the interpreter and the build; a test runs only some histories with some compiler.", "anchors": ["src/flamingo/flamingo.c:flamingo_run", "import/bob.fl", "build.fl", "skeletons/c/build.fl"]}
{"id": "C102", "title": "A build makes again exactly what has to be made again", "statement": "Let a project be built successfully, then some files of the user be edited and perhaps the flags in its script be changed, and let it be built successfully again.  The objects of sources that are made from an edited file, what is made with other flags, and whatever is linked from something edited or made again, are made again, and installed anew if they are to be installed; and of all other products neither the file nor its installed copy is touched.", "quantifier": "every project, history of edits and builds, set of edited files, change of flags, compiler, number of workers and schedule; copies at the places of installation are not stamped with a time to come", "why_tests_cant": "Tests change a few files of one project and compare time stamps; this is about all sets of edits and all dependency graphs, and both directions.", "anchors": ["src/class/cc.c:validate_requirements", "src/class/linker.c:link_step", "src/install.c:install_cookie", "src/frugal.c:frugal_mtime", "src/frugal.c:frugal_flags", "tests/frugality.sh"]}
{"id": "C103", "title": "The project's own test of what is made again passes, whatever the compiler and the schedule", "statement": "Run `tests/frugality.sh` with its script and its sources as they are in `tests/frugality`.  Unless a use of `bob` fails, the test ends with status 0: after each of its five rounds (touching `src2.c`; touching both sources; nothing; touching `src2.h`; changing the flags in the script) the time stamps of the cookies, whose names the test has written out, and of the installed files pass all comparisons, and what was updated is what the test asks for.", "quantifier": "every compiler and linker that are functions of the files they read and find the one header, every number of workers, every schedule, every duration of the steps, signed and unsigned `char`", "why_tests_cant": "The test itself runs once, with one compiler, one schedule and one clock; this is about all of them.", "anchors": ["tests/frugality.sh", "tests/frugality/build.fl", "src/class/cc.c:validate_requirements", "src/class/linker.c:link_step", "src/install.c:install_cookie", "src/frugal.c", "src/cookie.c:gen_cookie"]}
{"id": "C104", "title": "`bob run` and `bob sh` become the program their command stands for, and the project's tests of them pass", "statement": "Where the build can be installed, the last thing `bob run` and `bob sh` do is to become the file the command stands for: the one of that name, or the one in the first directory of `$PATH` that has a program of that name, `.bob/prefix/bin` coming first; its arguments are exactly the command's, and its environment differs just in the two lists of directories.  If the command stands for nothing, bob fails and becomes nothing.  Therefore `tests/run_path_traversal_order.sh` and `tests/sh.sh` get what they ask for, with the script of the former as it is in the repository.", "quantifier": "every build system, state of the file system, environment, way of reading options (POSIX or permuting), directories of the test and contents of `$PATH`", "why_tests_cant": "The tests try three values of `$PATH` on one machine; what comes first depends on what is installed on it.", "anchors": ["src/bsys.c:bsys_run", "src/bsys.c:bsys_sh", "src/bsys.c:setup_environment", "src/cmd.c:cmd_exec_inplace", "src/cmd.c:find_bin", "src/bsys/bob/main.c:run", "tests/run_path_traversal_order.sh", "tests/run_path_traversal_order/build.fl", "tests/sh.sh"]}
{"id": "C105", "title": "What bob makes in the output directory as root belongs to the owner of the project", "statement": "If all in the output directory belongs to the owner of the project and bob is run as root, then when it has ended, successfully or not, all in the output directory still belongs to them, and at any time before, what does not is about to be given to them by the thread that made it.  Elsewhere bob gives nothing away.  `tests/chown.sh` passes with its script as it is.  (False of `bob run` and `bob sh`: files installed in `.bob/prefix` stay root's, and then the owner's next `bob run` fails as soon as there is something new to install.)", "quantifier": "every build, toolchain, number of workers and interleaving of making files and giving them away; compilers that replace their output and ones that write to it", "why_tests_cant": "The test has a script that builds nothing; the calls of `set_owner` are in seven places and made by different threads.", "anchors": ["src/fsutil.c:set_owner", "src/fsutil.c:mkdir_wrapped", "src/class/cc.c:get_include_deps", "src/class/cc.c:compile_task", "src/class/linker.c:link_step", "src/cmd.c:cmd_log", "src/frugal.c:frugal_flags", "src/bsys.c:bsys_build", "src/install.c:install_single", "tests/chown.sh"]}
{"id": "C106", "title": "`Fs.list` lists what is there", "statement": "`Fs.list` of a path gives the path itself and everything below it, links being followed: each name once, directories before what is in them, nothing else.  It ends whatever links there are; if a directory is below itself, each file that can be reached is still listed by one of its names.  If the system gives directories in another order, the same is listed and linked programs go to the same place.  What cannot be listed makes the call fail.  (The last is false: a path that is not there gives an empty listing, a directory that cannot be read is listed without what is in it, and an error of `fts_read` cuts the listing short without a word.)", "quantifier": "every disk: directories in any number and depth, links to anything, back links, links to nothing, directories that cannot be read, names of any bytes", "why_tests_cant": "Tests run on one small source tree without links, where `Fs.list` has nothing to trip over.", "anchors": ["src/class/fs.c:list"]}
{"id": "C107", "title": "bob builds bob", "statement": "In bob's own project `bob run` becomes the bob it has just built and installed in the prefix of the project, whatever `$PATH` said, with the arguments that follow, but for `--`.  So the two commands of `tests/bob.sh` succeed whenever building and installing do, and as meant: the first bob builds a bob in `.bob`, that one builds itself in the first directory, and (second command) that one builds itself in the second directory.  (As meant is false with glibc, whose `getopt` takes both `-o` for the first process: the second command of the test then does not touch the first directory, and the bobs that are built build themselves in `.bob`.)", "quantifier": "all systems with the own script of bob, any sources in `src`, all output directories without colon and NUL, all environments, both ways `getopt` goes about operands", "why_tests_cant": "The test passes either way, so it cannot show that it does not do what it says.", "anchors": ["tests/bob.sh", "src/main.c:main", "src/bsys.c:bsys_run", "src/bsys/bob/main.c:run", "build.fl"]}
{"id": "C108", "title": "Archives hold the present objects", "statement": "`ar -rcs` adds to the archive that is there and replaces members by name.  All the same, whatever was edited, built, stopped or deleted before, a successful build leaves every archive with exactly the files it is asked for as members, in that order, with their present contents; so archives are those of a build of a fresh checkout.  Files of the same name in different directories are both kept.  (False for archives asked for with flags, and for lists in which a file is given twice: what is taken out of them stays in the archive.)", "quantifier": "all histories of edits and builds, all lists of files, members of equal names, all formats of archives, all compilers, schedules and numbers of workers", "why_tests_cant": "The test suite has no static library that is built twice.", "anchors": ["src/class/linker.c:link_step", "src/class/linker.c:prep_link"]}
{"id": "C109", "title": "Builds on a file system with directories", "statement": "On a file system with directories, where a file can be written only if there is a directory for it, `stat` follows paths, and products are installed by making the missing directories and copying, a build does to the files exactly what it does without directories, so that everything known of builds without directories holds of it, and in the same number of ways.  It changes nothing on the file system but its records and products, the destinations of the products, and the directories on the way to them.  If something stands in the way of installing (a file where a directory has to be made, no prefix, no permission), the build may differ, but then it is certain to fail.  (It needs names that are different files, none in another, and directories for the products, which `bob` makes before.)", "quantifier": "all trees, compilers, requests, prefixes, install maps, refusals by the system, schedules and numbers of workers", "why_tests_cant": "Tests run on one tree, in one order; what has not changed is not looked at.", "anchors": ["src/install.c:install_single", "src/install.c:install_cookie", "src/class/cc.c:compile_task", "src/class/linker.c:link_step", "src/fsutil.c:copy", "src/frugal.c:frugal_mtime"]}
{"id": "C110", "title": "What is there after installing", "statement": "After a successful build for a prefix there is a file at the destination of every product, whatever was there before and whatever happened before.  If the build and then installing the rest succeed on a file system with directories, every product's destination is a file, and after any history of edits and builds a file equal to the product; every other entry has at its destination what was at its source before the build, at every depth, unless the destination was there and at least as new.  So the project's test of `bob install` passes for every prefix whenever its two commands succeed.", "quantifier": "all trees, prefixes, install maps, compilers, schedules, numbers of workers and lists of sources", "why_tests_cant": "The test looks at two paths in one prefix, which in its container is empty before; neither contents nor an older installation is looked at.", "anchors": ["src/install.c:install_all", "src/install.c:install_single", "src/install.c:install_cookie", "src/bsys/bob/main.c:install", "tests/install.sh"]}
{"id": "C111", "title": "Several bobs building in one directory", "statement": "Any number of bobs may build the same project in one directory at once, in any order of their actions, with any numbers of workers and install maps, any of them failing or being killed at any point: once they have reported success, every product is what the compiler or linker yields for the present files, and the same as a single bob makes in a fresh checkout.", "quantifier": "all toolchains, projects, numbers of bobs and of their workers, interleavings, histories of edits and of earlier such times", "why_tests_cant": "Every test runs one bob at a time; what two do to each other depends on the order in which they get to act.", "anchors": ["src/main.c:main", "src/class/cc.c:validate_requirements", "src/class/cc.c:compile_task", "src/class/linker.c:link_step", "src/frugal.c:frugal_flags", "src/frugal.c:frugal_mtime"]}
{"id": "C112", "title": "Editing while bob builds", "statement": "The user may edit their files while bob builds, any number of times, in any number of builds, whichever of them succeed, fail or are killed: a later build without edits that succeeds leaves products that are what the compiler or linker yields for the present files.", "quantifier": "all toolchains, projects, schedules of the workers, points at which files are edited, and histories of edits and builds", "why_tests_cant": "No test edits a file during a build; whether an edit is noticed depends on the action of bob it falls between and on the second it falls in.", "anchors": ["src/class/cc.c:get_include_deps", "src/class/cc.c:compile_task", "src/class/cc.c:validate_requirements", "src/class/linker.c:link_step", "src/frugal.c:frugal_mtime"]}
{"id": "C113", "title": "Killed while files are being written", "statement": "If everything is killed at any point of a build, with bob, compilers and linkers in the middle of writing files, any number of times, then a later build that succeeds leaves products that are what the compiler or linker yields for the present files, and installed files that are copies of them.", "quantifier": "all toolchains, projects, schedules of the workers, points at which everything is killed, contents of the files that were being written, and histories of edits and builds", "why_tests_cant": "No test kills bob; the files that are damaged depend on the action during which it is killed, and whether that is noticed depends on the times and records of all of them.", "anchors": ["src/class/cc.c:get_include_deps", "src/class/cc.c:compile_task", "src/class/cc.c:validate_requirements", "src/class/linker.c:link_step", "src/frugal.c:frugal_flags", "src/frugal.c:frugal_mtime", "src/install.c:install_single", "src/fsutil.c:copy"]}
{"id": "C114", "title": "From the text of the script to the program, whatever happened before", "statement": "Take a project whose build script compiles files in src and links one program, such as the C skeleton or bob itself. Let its directory have been edited (with files newer than all products) and built any number of times, by one bob or several at once, with edits while bob was building that are later than all products and leave the includes of what is just being compiled alone, and with everything being killed while files were being written if damaged products were then removed. If a bob now succeeds, perhaps while others are at work, then the program is linked from the objects of just the sources that are there, each compiled as it is, and no file of the user's was changed.", "quantifier": "all toolchains, sets of sources, install prefixes, numbers of bobs and workers, schedules, edits, points at which everything is killed, and contents of damaged files", "why_tests_cant": "It joins the reading of the script, its execution, the requests, the builds and everything that can go on in the directory; no test covers more than one of these.", "anchors": ["src/bsys/bob/main.c:setup", "src/bsys.c:bsys_build", "src/class/cc.c:compile_task", "src/class/linker.c:link_step", "src/install.c:setup_install_map", "skeletons/c/build.fl", "build.fl"]}
{"id": "C115", "title": "Times of files", "statement": "Whatever times files have when they are put into the project (from other machines, from archives and backups, or as the clock is set), a build that succeeds leaves products that are what the compiler or linker yields for the present files.", "quantifier": "all toolchains, projects, schedules, numbers of bobs, times and contents of files, and histories of changes, builds and kills", "why_tests_cant": "Tests write files one after the other on one machine; that a file is older than the one it replaces, or from the future, or that the clock was set, does not happen in them.", "anchors": ["src/frugal.c:frugal_mtime", "src/class/cc.c:validate_requirements", "src/class/linker.c:link_step"]}
{"id": "C116", "title": "Bootstrapping", "statement": "If bootstrap.sh succeeds, the bob it leaves in .bootstrap is linked from the objects of just the sources that bob's own build script selects, each compiled from the present file, and from nothing that was left by an earlier run.", "quantifier": "all disks (directory trees, with links), toolchains, files there were before, orders in which directories are read", "why_tests_cant": "The bootstrap is run on the one tree of the repository, in which no name contains a blank or begins like the directory that is left out, every source compiles and nothing is a link.", "anchors": ["bootstrap.sh:1-37", "build.fl:6", "src/class/fs.c:list"]}
{"id": "C117", "title": "Characters beyond ASCII", "statement": "Scripts are read as UTF-8: what the lexer takes for a character is one of UTF-8, bytes that are none count as characters of their own, a byte order mark at the beginning is skipped; no token begins or ends inside a character, and the tokens and trees are those that reading byte by byte gives.", "quantifier": "all texts (any bytes), all states of the lexer and the parser", "why_tests_cant": "The scripts of the tests are in ASCII; overlong forms, surrogates, characters cut off at the end of the text, and multi-byte characters next to every kind of token are too many to try.", "anchors": ["src/flamingo/runtime/lexer.c:ts_lexer__get_lookahead", "src/flamingo/runtime/lexer.c:ts_lexer_start", "src/flamingo/runtime/unicode/utf8.h:U8_NEXT", "src/flamingo/parser.c:ts_lex"]}
{"id": "C118", "title": "`bob run` runs the present sources", "statement": "In a project whose script builds one program and runs it, such as the C skeleton or bob itself: however it was edited and built before, whatever `bob run` becomes is a program linked from the objects of exactly the sources there are now, each compiled as it is now, and it gets the arguments that were given.", "quantifier": "all toolchains, projects of that kind, histories of edits and (failed, killed, complete) uses of bob, command lines, environments, schedules", "why_tests_cant": "The test of `bob run` runs a shell script that is not built. That an old program is run needs a certain sequence of adding and removing files, or a file of a certain name.", "anchors": ["src/bsys.c:bsys_run", "src/bsys.c:install", "src/bsys/bob/main.c:run", "src/cmd.c:cmd_exec_inplace", "src/class/linker.c:link_step", "skeletons/c/build.fl"]}
{"id": "C119", "title": "Scripts with syntax errors", "statement": "A script that does not follow the grammar is refused with a message. In particular no script is run as if it were a different one.", "quantifier": "all texts, and all versions the parser can go on with after a syntax error by supplying missing tokens", "why_tests_cant": "The tests have no script with a syntax error. What the parser does after one depends on the tables for each state and token.", "anchors": ["src/flamingo/flamingo.c:flamingo_create", "src/flamingo/runtime/parser.c:ts_parser__handle_error", "src/flamingo/runtime/parser.c:ts_parser__do_all_potential_reductions", "src/flamingo/runtime/language.c:ts_language_next_state"]}
{"id": "C120", "title": "Install ids on macOS", "statement": "On macOS, after every installation that succeeds, an installed library is the one the linker made last, with the id `@rpath/` followed by the place below the prefix at which it is installed. Nothing but libraries gets an id, and if one cannot be set a later installation makes up for it.", "quantifier": "all trees of files, entries of the install map, tools, times, histories of linking and installing", "why_tests_cant": "The code is compiled on macOS only. A tool that fails once needs a certain sequence of runs.", "anchors": ["src/apple.c:apple_set_install_id", "src/install.c:install_single", "src/install.c:install_cookie"]}
{"id": "C121", "title": "Blanks between tokens do not matter", "statement": "If blanks are put between the tokens of a script, or the blanks there are replaced by others, then the script is parsed into the same tokens and the same tree but for the blanks, and the interpreter makes the same of it unless messages show the blanks. New blanks end a line only where one was ended before.", "quantifier": "all texts that are accepted, all changes of blanks between any number of their tokens", "why_tests_cant": "The lexer has 186 states and is entered in one that depends on the state of the parser, and it starts again in another one if nothing is found. Every token can be followed by every blank in every state of the parser.", "anchors": ["src/flamingo/parser.c:ts_lex", "src/flamingo/parser.c:ts_lex_modes", "src/flamingo/runtime/parser.c:ts_parser__lex"]}
{"id": "C122", "title": "What it means that all tests passed", "statement": "If `tests.sh` succeeds, then bob was made of the present sources, that bob was installed, and every file in `tests` but `common.sh` was run with it and passed, each without what earlier tests have left in `.bob` and `.test-out`. If one does not pass, `tests.sh` fails.", "quantifier": "all contents of `tests`, trees of sources, compilers, files, installations and tests, each any function of the files", "why_tests_cant": "It is about the tests themselves: a test that is not run does not fail.", "anchors": ["tests.sh", "tests/common.sh", "bootstrap.sh"]}
{"id": "C123", "title": "`-C` is like going there", "statement": "`bob -C dir …` does what `bob …` does when it is started in `dir`, and ends in the same way: names given for the output directory and the prefix, the build script, its sources and the commands are all looked for from there. If there is no such directory, bob fails and does nothing.", "quantifier": "all machines (answers of the system for each directory), directories, command lines, both kinds of getopt", "why_tests_cant": "Every name bob uses could be looked up before or after it changes the directory; a test has one layout of directories.", "anchors": ["src/main.c:main", "src/bsys.c:bsys_identify", "src/bsys.c:setup_environment"]}
{"id": "C124", "title": "In `bob sh` and `bob run` the project's programs are found wherever one goes", "statement": "In what `bob sh` and `bob run` start, a command that was just built is the first to be found under its name, in whatever directory it is called.", "quantifier": "all trees, output directories, environments, directories, names", "why_tests_cant": "The test of `bob sh` looks at `$PATH` only, and does not leave the directory; which program is found depends on everything else on the machine.", "anchors": ["src/bsys.c:setup_environment", "src/bsys.c:prepend_env", "src/bsys.c:bsys_sh", "src/main.c:main"]}
{"id": "C125", "title": "Installing where there are symbolic links", "statement": "When an entry of the install map was copied, reading the destination gives what reading the source gave, also if the source, the destination or directories on the way to them are symbolic links, and no file that is not below the prefix is changed. Without links installing does what it did.", "quantifier": "all trees with files, directories and symbolic links, keys, destinations, prefixes, working directories, refusals of the system", "why_tests_cant": "No test of the project has a symbolic link in it; which names are links, and what they lead to, depends on the machine.", "anchors": ["src/install.c:install_single", "src/fsutil.c:copy", "src/fsutil.c:mkdir_wrapped", "src/frugal.c:frugal_mtime"]}
{"id": "C126", "title": "A library and the link to it are installed together", "statement": "When a library was installed in a directory below the prefix under its name, and a link to that name was installed beside it, in either order, reading the installed link gives the library; and if the link is later made to lead to something else, installing again brings the installed link up to date.", "quantifier": "all trees with symbolic links in which everything is in a directory, directories, names, prefixes, both orders", "why_tests_cant": "The tests install no links; whether the link or the library comes first is up to the script.", "anchors": ["src/install.c:install_single", "src/install.c:install_all", "src/fsutil.c:copy", "src/frugal.c:frugal_mtime"]}
{"id": "C127", "title": "Installing again comes to rest, with symbolic links", "statement": "After an entry of the install map was copied, installing it again copies nothing and changes nothing, also when the entry, its destination or their directories are symbolic links.", "quantifier": "all trees with symbolic links, entries, prefixes, times", "why_tests_cant": "The tests install no links, and an entry that is copied again and again leaves the same files.", "anchors": ["src/install.c:install_single", "src/frugal.c:frugal_mtime", "src/fsutil.c:copy", "src/fsutil.c:mkdir_wrapped"]}
{"id": "C128", "title": "Where installing writes, with symbolic links", "statement": "If a file is not what it was after bob install has succeeded, then the destination of an entry of the install map led to it when that entry was installed. In particular nothing is made or changed outside of the directory the prefix leads to, if there are no symbolic links in it and no destination has '..' in it.", "quantifier": "all trees with symbolic links, install maps, prefixes (also prefixes that are links), files", "why_tests_cant": "The tests look at what was installed, not at all that was not to be changed, and have no links.", "anchors": ["src/install.c:install_all", "src/install.c:install_single", "src/fsutil.c:copy"]}
{"id": "C129", "title": "What was copied is there in the end, with symbolic links", "statement": "If bob install has succeeded, and the destinations of the install map are different and none is a key, then each file that was copied reads, at its destination, as its key did before installing.", "quantifier": "all trees with symbolic links, install maps whose keys are files, prefixes", "why_tests_cant": "Whether one entry undoes another depends on where links of the machine lead; the tests install few files to an empty prefix.", "anchors": ["src/install.c:install_all", "src/install.c:install_single", "src/fsutil.c:copy"]}
