# Formal model of `bob` (inobulles/bob) in Lean 4 — design

Source under study: `/repo` (read as text; never built or run). Language C. The model is written in
Lean 4.33 (core library, occasionally a single Mathlib tactic module), under `lean/Verif/`.

## 1. Trusted base

* The Lean kernel, and the three standard axioms `propext`, `Classical.choice`, `Quot.sound`. No theorem
  depends on any other axiom: `Verif/Audit.lean`, built with the rest, fails to compile if a property theorem
  depends on anything else. No `sorry`, `native_decide`, `bv_decide`, `implemented_by`, or own `axiom`.
  Concrete scripts and executions are evaluated with `decide +kernel`, that is by the kernel.
* The hand translation from C to Lean. Every definition of the model cites file and lines in `/repo`.
* The meaning given to the operating system: a file system without symbolic links (but for `Model/Links`), POSIX
  `stat`/`mkdir`/`open`/`posix_spawn`/`waitpid` conventions, and sequentially consistent shared memory for
  the pool's `error` flag (the C code reads it without synchronisation, which is formally a data race).
* Memory allocation never fails and never reuses an address.

## 2. What is modelled and what is not

| part of the code | treatment | module |
|---|---|---|
| `src/str.c`, `src/cookie.h` | exactly (64-bit wrap-around, sign extension of `char` as a parameter) | `Model/Cookie` |
| `src/build_step.c` | exactly | `Model/BuildStep` |
| `src/pool.c`, `src/ncpu.c` | small-step interleaving semantics, one step per lock/read/write of shared state | `Model/Pool` |
| `src/frugal.c`, dependency files of `src/class/cc.c` | over an arbitrary `stat` and the text of the record files | `Model/Frugal` |
| `src/class/cc.c`, `src/class/linker.c` (step side) | transition system on a flat file system with a clock; compiler, linker and archiver are arbitrary functions of the files | `Model/Build` |
| `src/cmd.c` | argument assembly, PATH search, spawn convention, wait status, pipe reading, log file | `Model/Cmd` |
| command lines in `src/class/cc.c`, `src/class/linker.c` | exactly (other than on macOS) | `Model/Tools` |
| `src/install.c`, `src/fsutil.c` | on a file system with directories; `rm -rf` and `cp -RP` as file-system operations that may also fail arbitrarily | `Model/Install` |
| `src/main.c`, `src/bsys.c`, entry points of `src/bsys/bob/main.c` | options, phases, exit codes, environment, `run` vector | `Model/Cli` |
| `src/flamingo/*.h`, `flamingo.c`, `grammar/*.h`, `ptm/*.h` | interpreter with explicit heap of values, string buffers, scopes, environments and reference counts | `Model/Flamingo/{Syntax,Heap,Interp}` |
| `src/class/*.c` (request side), `external_fn_cb`, `class_decl_cb`, `class_inst_cb` | as the interpreter calls them | `Model/Flamingo/Host` |
| `setup` of `src/bsys/bob/main.c`, `import/bob.fl` | from the final state of a script to build steps, `install` and `run` | `Model/Flamingo/Setup` |
| `flamingo_destroy`, end of `setup` | freeing the scopes in force | `Model/Flamingo/Destroy` |
| generated `src/flamingo/parser.c`, `src/flamingo/runtime/parser.c`, `stack.c`, `lexer.c`, `subtree.c` | tables transcribed by `tools/gen_tables.py`; lexer and main loop of the parser up to the first syntax error; the node functions of `runtime/node.c` and what the functions of `grammar/*.h` take from the nodes | `Model/Parser` |
| other `src/bsys/*` back ends | only their constant `identify` results | `Model/Cli` |
| `src/logging.c`, printing part of `cmd_log` | exactly, as bytes in program order; a terminal is specified separately (`Spec/Terminal`) | `Model/Logging` |
| `rm`, `copy` of `src/fsutil.c` (the reason they give), message of `install_all` | exactly, over arbitrary behaviour of the commands | `Model/CopyErr` |
| the buffers of the C library between bob and where its output goes, `cmd_exec_inplace` | any behaviour the C standard allows for a stream that is unbuffered, line buffered or fully buffered | `Model/Stdio` |
| pipes of `cmd_exec_async` and `cmd_read_out` with several workers, locks of `compile_task` | as a transition system with all interleavings; children inherit what is open | `Model/Parallel` |
| descriptors of `src/cmd.c` | table of open files shared by all workers, calls as events, any free number for a new descriptor | `Model/Fds` |
| printing and `logging_lock` of `compile_task` | calls in order for each worker, all interleavings, a lock for each request | `Model/LogLock` |
| arrays and allocations of `frugal.c`, `cookie.h`, `cmd.c`, `cc.c`, `linker.c`, `logging.c`, `usage` | blocks of bytes that may be unwritten, every index checked | `Model/Buffers` |
| threads of `pool.c`: creating, joining, and each access to a shared variable | all interleavings of the main thread and the workers | `Model/Threads` |
| owners of files: `set_owner`, `mkdir_wrapped` and their callers | the builds of `Model/Build` with an owner for every file and a pending call for every thread | `Model/Owner` |
| the walk of `Fs.list` in `src/class/fs.c` | the loop exactly; `fts_open` and `fts_read` after `fts(3)`, over directories, files and links numbered as `stat` does | `Model/Fts` |
| `bootstrap.sh` | the whole script; of `find`, the shell and `wait` what it uses; compilers and linker as in builds | `Model/Bootstrap` |
| `tests.sh` | the whole script; of `ls`, `grep` and the shell what it uses; installation and tests as functions of the files | `Model/Tests` |
| `ts_lexer__get_lookahead`, `ts_lexer_start` in `src/flamingo/runtime/lexer.c`, `U8_NEXT` in `unicode/utf8.h` | exactly, with one chunk | `Model/Parser/Utf8` |
| `ts_parser__handle_error`, `ts_parser__do_all_potential_reductions` in `src/flamingo/runtime/parser.c` | all versions of the stack with supplied tokens; nothing says which is kept; no `ERROR` nodes | `Model/Parser/Mend` |
| `ar -rcs` in `src/class/linker.c` on archives that exist | replacing and adding members one file after the other, in any format; names without directories; flags are files | `Model/Archive` |
| the same build steps, and installing products, on a file system with directories | the program of `Model/Build` action by action on the tree of `Model/Install`; tools use one name for each file | `Model/TreeBuild` |
| several bobs in one directory: no lock in `src/main.c` | any number of builds of `Model/Build` on shared files and a shared clock, each with its own threads and pipes | `Model/Crowd` |
| the user editing files while a build runs | further transitions of `Model/Build` that change the user's files | `Spec/MidEdit` |
| `src/apple.c`, and `install_single` on macOS | after copying, the tool is run on the copy | `Model/Apple` |
| the working directory in `src/main.c` | the checks before and after `chdir` each from their directory; the rest as in `Model/Cli` | `Model/Place` |
| symbolic links in `src/install.c`, `src/fsutil.c` | trees with links: `stat` and `realpath` follow up to 40, `mkdir` and `rm` not the last; `cp -RP` as GNU's (a link is copied as a link, and a destination that is one is written through) | `Model/Links` |
| progress bar (unused) | not modelled | |

Undefined behaviour and failed assertions of the C code are separate outcomes (`ub`, `abort`) of the
model, never silently totalised. The interpreter's state has a field `cause` that only crashes set (`Model/Flamingo/Heap`,
`Cause`); nothing reads it, it lets statements say which crashes remain possible.

Simplifications, by part:

* **Build.** Files have a content and a time in seconds; there are no directories, permissions or links.
  Writing a file and running the compiler or the linker is one atomic action (what a kill in the middle of writing files leaves is in `Spec/Torn`, C113), while a build can be killed between any two actions. Edits are stamped later than earlier builds. `-L<prefix>/lib` is part of
  the arbitrary linker (see C74). Directories come in with `Model/TreeBuild` (C109), which relates the two. That `ar` keeps members of an existing archive is left out here and put
  in by `Model/Archive` (C108).
* **Several bobs.** Each action of `Model/Build` stays atomic when other bobs act in between, so compilers of two bobs writing the same object in turns, and a record of flags read while it is
  being written, are not considered. The user edits nothing while bobs are at work. Bobs that are started later are bobs that wait.
* **Editing during a build.** An edit happens between two actions of `Model/Build`, never while the compiler reads a file; an edit during compiling is one before or after it.
* **Pool.** Shared variables are accessed atomically in program order (C91 shows where C guarantees this). Tasks are sequences of atomic actions on a shared store.
* **Install.** `cp` and `rm` do what POSIX says or fail leaving anything. A destination with a trailing slash that does not exist is an
  error. Whether a path is a file or a directory is looked up where the C code does.
* **Links when installing.** `cp` is that of GNU where POSIX leaves it open: it does not write through a link that leads nowhere, and replaces what is at the destination by a link. At most 40 links are followed. Only installing
  has links; builds, commands and the working directory do not.
* **Install ids.** `install_name_tool` writes the file or fails and leaves it as it was.
* **Listing.** Nothing on the disk changes while it is walked. Trailing slashes of the path are kept, as glibc does. `World.list` of the interpreter stays a parameter; `OnDisk`
  (C106) says that it is this walk.
* **Bootstrapping.** Words are not expanded as patterns, `rm` and `mkdir` do not fail, and the compilers that run beside each other read nothing in `.bootstrap`.
* **Tests.** As for bootstrapping; a file that is there can be run, and directories without files are not represented. What `bob install` and each test do is any function of the files.
* **Commands.** Signal numbers and wait statuses are those of Linux.
* **Printing.** Writing never fails. In `Model/Logging` there is no buffering; `Model/Stdio` has it. The terminal of the specification knows bold and colours,
  no other attributes or control strings. Structures on the stack that are not initialised hold arbitrary numbers.
* **CLI.** `getopt` in both the POSIX and the permuting variant. The environment is a list of pairs.
* **Interpreter.** A recursion depth (`interp n`) ties the knot; `timeout` is the outcome of too small a depth, and C64 shows that it does not
  matter otherwise. The C stack does not overflow. Value structures (`flamingo_val_t`), environments and block scopes are never freed by the C
  code and so are not by the model; what `val_free` frees (string buffers, function bodies, instance scopes, host states) is, and using it
  afterwards is `ub`. Reference counts of scopes are never read and left out. `malloc(0)` does not return NULL. The source text outlives its
  interpreter, so pointers into it are the text. While the static members of a class are initialised its `fn.src` is still NULL, which the model does not
  have: a function imported from another file that is given the class by such a member and calls it then runs its body over the wrong text. The class sentinel taken for a value (`src/flamingo/call.h:252`) is `ub` at once. After an error the
  environment is the one in force where it happened, as in the C code (an importing engine keeps its own); `flamingo_destroy` reads it. Of `flamingo_destroy`
  only the freeing of scopes is modelled, the rest is held by nothing else. `pow` is a parameter.
* **Parser.** `Model/Parser/Lexer` reads bytes; `Model/Parser/Utf8` decodes characters as the runtime does, and C117 shows that this is the same. After a syntax error `Model/Parser/Mend` has the versions in which missing tokens are supplied, but not the costs by which one of them is chosen. `ERROR` nodes, incremental parsing, timeouts, several
  versions of the stack (the tables never need a second one, C93) and the balancing of repeated subtrees, which changes no list of visible children, are left out. The
  interpreter's model takes syntax trees as in `Model/Flamingo/Syntax`; `Model/Parser/Lower` gets them from the nodes all at once, while the C code looks at a node
  when it runs it, so a fault there stands for a fault if that node is reached.
* **From scripts to builds.** The requests are read all at once after the script. In `install` and `run` a string whose memory was released
  counts as something that is not a string.

## 3. Style of the statements

Property theorems live in `lean/Verif/Props/*.lean`, separate from model (`Verif/Model/*.lean`) and
helper lemmas (`Verif/Lemmas/*.lean`). The specification vocabulary used by the statements is defined
in `Verif/Spec/*.lean` or in the property file, independent of the model's helper functions. Every theorem is accompanied by an `example` showing a
concrete non-trivial instance of its hypotheses. When the English property is false of the code there is
a theorem proving the negation with a witness, and a `_partial` theorem with the precondition under which
it holds.

## 4. Properties

| id | property | modelling and proof (status and theorems: `MANIFEST.json`) |
|---|---|---|
| C01 | Rebuild decision by timestamps is exact | Model `frugal_mtime` over an arbitrary `stat` oracle; refinement to a declarative spec, both directions. |
| C02 | A change of flags is always noticed, and only a change | Model the record file text; prove `changed <-> lists differ` for newline/NUL-free flags (serialisation is injective), negation witness `["a\nb"]` vs `["a","b"]`. |
| C03 | Rebuilding without edits does nothing | Build model over file system; run a second build on the result of a successful one. |
| C04 | Incremental builds produce what a clean build would produce | Transition system of edits/ticks/builds; invariant relating each object to the snapshot it was compiled from. |
| C05 | An interrupted or failed build never makes a stale object look fresh | Same transition system with crash points and failing compilers; negation witness for changed flags, `_partial` for unchanged flags. |
| C06 | Recorded include dependencies are exactly those the compiler reports | Model the token splitter of `get_include_deps` and the line splitter of `validate_requirements`; round-trip theorem. |
| C07 | Editing a header recompiles its includers and nothing else | Consequence of the exact decision in the build model. |
| C08 | A failed step stops the build and is reported | Model `run_build_steps` and the phases of `bsys.c`. |
| C09 | The result of a parallel build does not depend on the schedule | Compile tasks as state transformers writing disjoint files; commutation, hence permutation invariance; combined with the pool model. |
| C10 | Intermediate files stay inside the output directory | String lemma on `gen_cookie`. |
| C11 | Different source files get different object files | `gen_cookie` injective up to (slash-folded text, hash); collision impossible for short differing windows; existence of collisions by pigeonhole. |
| C12 | A link product's path does not depend on the order of its inputs | XOR fold is invariant under permutation. |
| C13 | Different link inputs get different products | Negation witness; `_partial`. |
| C14 | Two compile calls never overwrite each other's object | Negation witness in the build model. |
| C15 | Every requested compilation or link is run exactly once, in request order | Invariant over all sequences of `add_build_step`. |
| C16 | No task of the worker pool runs twice | Invariant of the interleaving semantics. |
| C17 | Waiting for the pool means everything was done | Invariant of the interleaving semantics. |
| C18 | A failing task is always reported | Invariant of the interleaving semantics. |
| C19 | The pool neither deadlocks nor runs forever | Progress lemma and strictly decreasing measure. |
| C20 | At most the requested number of jobs runs at once | Invariant; arithmetic on `atoi` results. |
| C21 | Commands receive exactly the arguments given, in order, NULL-terminated | Invariant on the argument array with terminator. |
| C22 | Executable lookup follows PATH order | Refinement to first-match spec. |
| C23 | A command's fate is reported correctly | Case analysis on wait status. |
| C24 | A command's output is captured completely | Induction over chunk lists. |
| C25 | Synchronous commands terminate whatever they print | Two-process pipe transition system; negation: reachable deadlock; `_partial` when output fits. |
| C26 | Failure to start a command is reported as failure | Negation witness over error numbers. |
| C27 | Diagnostics of the last compilation are replayed | History induction on the log file. |
| C28 | Malformed install maps are rejected before anything is installed | Model `setup_install_map` on interpreter values. |
| C29 | Install copies every listed file outside the output directory | Induction over the map. |
| C30 | Build products are installed when they are built | First-match lemma; negation for duplicates; `_partial`. |
| C31 | Installing creates the missing parent directories and only those | Induction over path components in the file-system model. |
| C32 | Installing twice copies nothing the second time | Fixpoint lemma. |
| C33 | Whether a file counts as a build product is decided by its directory | Negation witness; `_partial` for separator-terminated prefix. |
| C34 | bob never changes ownership except as root and inside the output directory | Case analysis. |
| C35 | Exit status tells whether the instruction succeeded | Phase model of `main`. |
| C36 | run and sh see the freshly built files first | Environment list model. |
| C37 | run executes the configured command followed by the user's arguments | Model of `run`. |
| C38 | The first matching build system is used | First-match lemma. |
| C39 | Variables resolve to the innermost declaration | Refinement of `env_find_var`. |
| C40 | Declaring a name twice in one scope is rejected; shadowing an outer one is allowed | Model of declarations. |
| C41 | Running code leaves the scope stack as it found it | Mutual induction over the interpreter. |
| C42 | Evaluating an expression never adds a variable to an existing scope | Mutual induction over the interpreter. |
| C43 | A function or class name cannot be reassigned | Model of assignment. |
| C44 | A variable keeps the type of its first value | Negation witness program. |
| C45 | return ends a function and yields its value | Theorem for non-call expressions (`_partial`), negation programs. |
| C46 | return outside a function is rejected | Negation program. |
| C47 | A recursive call has its own variables | Negation program. |
| C48 | Equality on values is an equivalence and agrees with structure | Induction on value depth; negation witness. |
| C49 | Map literals have distinct keys and lookup finds them | Induction on literal items. |
| C50 | Vector indexing is bounds-checked | Case analysis on index arithmetic. |
| C51 | Integer arithmetic is exact or flagged | Case analysis on 64-bit arithmetic. |
| C52 | Operands of different kinds are never combined | Case analysis. |
| C53 | Both operands of && and || are always evaluated | Unfolding of evaluation order. |
| C54 | String methods mean what they say | List lemma. |
| C55 | map and where on vectors are pointwise and order-preserving | Induction on elements. |
| C56 | Concatenation builds a new container | Heap lemma. |
| C57 | Integer literals denote their digits | Digit fold lemma. |
| C58 | An error anywhere stops the script, and nothing is built | Error propagation lemmas. |
| C59 | Script errors are reported, never crashes | Negation witness; `_partial` bound on message size. |
| C60 | Function calls are checked for arity and bind arguments by position | Model of `call`. |
| C61 | Every instance has its own members; static members belong to the class | Heap lemma. |
| C62 | Only compile and link requests of a successful script are built | Invariant: steps are appended only by the three host functions. |
| C63 | Imports make the imported names available in the importing scope | Model of import; divergence of self import by induction on fuel. |
| C64 | Evaluation is deterministic and does not depend on resource limits of the model | Fuel monotonicity by mutual induction. |
| C65 | Memory of live values is never released | Negation programs; holds for disciplined scripts, see C69. |
| C66 | Reinstalling picks up changes of the sources | Negation witness; theorem for sources not older than the destination. |
| C67 | -j accepts exactly the numbers 1 to 1024 | `atoi` as glibc computes it; negation for numbers that wrap. |
| C68 | Arguments after the instruction reach the program unchanged | Both `getopt` variants; negation for the permuting one. |
| C69 | Disciplined scripts are memory safe | Invariant of the heap (`Lemmas/FlWf`), by induction on fuel over the whole interpreter. |
| C70 | assert stops the script exactly if its condition does not hold | Unfolding, both directions. |
| C71 | print writes the text of the value, once | Induction on the depth of the value against `Val.text`; invariant over the whole interpreter for lines staying. |
| C72 | Build scripts mean what they say | Relation between the interpreter's states and memoryless meanings, on top of the invariant of C69. |
| C73 | Tools are given exactly what was asked for | The argument vector of each command, from the lemmas of C21. |
| C74 | Builds with other tools leave what those tools make | False; instead: invariant over whole builds with a second, arbitrary toolchain and install map. |
| C75 | What bob leaves behind is the program of the present sources | C72 composed with C05 (histories with killed builds and fixed flags), for a layout derived from the names of products. |
| C76 | What bob installs is the program of the present sources | False: a list of sources that comes back brings its old program back, which is older than the installed one. Proved for histories in which no list comes back, by an invariant on top of C30 and C75. |
| C77 | Failed scripts are torn down without memory errors | False: a method that fails leaves the scope of its instance in the environment twice. Proved for all failing calls of bob's methods that teardown then cannot end well; and, by an invariant about references over the recursion of `scope_free` and `val_decref`, that it ends well from every state whose references are in order, which the final states of a list of failing scripts are shown to be. |
| C78 | Colours are used only where they are wanted | Proved, with `strstr` specified as the existence of a split. Any value of `CLICOLOR_FORCE` forces, also `0`. |
| C79 | The terminal is left as it was found | False for every command ended by a signal. Proved for all sequences of messages without one, over a specified terminal; with colours for arbitrary texts. |
| C80 | No control sequences without colours | False for every message with `CLEAR` in its format, which includes all reports about commands. Proved for the others. |
| C81 | The log is shown again byte by byte | Proved. Writing the log succeeds, as in the rest of the file system of `Model/Build`. |
| C82 | Reports agree with results | False for commands that cannot be started, for which the report is about whatever was in memory. Proved for all that are. |
| C83 | A failed copy is reported with its reason | False whenever `rm` is what failed. Proved for failures of `cp`, and that `NULL` is printed exactly in the cases named. |
| C84 | Requests outlive their script | False for links whose result nobody keeps. Proved, with the invariant of C69 extended by what steps refer to, for all disciplined scripts that keep these results, and for compilation without that condition. That each instance asked was set up is assumed. |
| C85 | Everything bob prints is seen, in order | False for what is buffered when bob becomes the program to run, and for output without a newline before a report of a failure. Proved, for all behaviours of the buffers, that nothing is lost when bob exits, and the order on terminals for whole lines. |
| C86 | Commands do not wait for commands of other workers | False: children inherit the pipes of other workers. Proved that with outputs which fit into pipes every execution ends, and ends with everything run and read, by a measure and an invariant; and the stated property for one worker. |
| C87 | Pipes are closed exactly once and by who has made them | Proved by an invariant that relates the table, the numbers in each `cmd_t` and the events, for any number of workers and other users of the table. Also that a child has exactly the pipes open which `Model/Parallel` says. |
| C88 | A report and the output it announces are printed together | False for merged requests and where products are installed. Proved for what one request prints under its lock, for all interleavings; that somebody can always go on; the full statement for one request that prints nothing else. |
| C89 | Buffers are read and written inside their bounds | False for the cases in section 5. Otherwise proved function by function: no undefined behaviour, and the bytes in the buffers are the strings that the rest of the model works with. |
| C90 | Every worker thread is joined exactly once | False if `pthread_create` can fail. Otherwise proved for all sequences of calls and interleavings by an invariant on handles and threads; when memory is freed all have ended (in all cases); somebody can always go on. |
| C91 | Threads access the variables of a pool one at a time | False for `pool->error` when a compilation fails. Proved for the tasks in all cases, and for everything as long as no compilation fails or there is one worker. This is what justifies the atomic accesses of `Model/Pool`. |
| C92 | Bad news goes to standard error and looks like it | False for what a failing command wrote. Proved for everything else: what a terminal shows of every message, byte by byte, and which stream each line goes to. |
| C93 | Accepted scripts follow the grammar | Invariant of the stack: each subtree was made up from the state below it. The tables are checked against the rules in progress in each state (certificate in `Lemmas/ParTable`, evaluated by the kernel over all states and symbols). |
| C94 | Parsing ends | Measure made of the text left, the symbols on the stack and how often a symbol can be reduced alone. Recovery from errors is not modelled, so a syntax error is where it begins. |
| C95 | Operators bind as usual | False for unary operators, which bind weaker than all binary ones, in every accepted text. Proved for binary operators and for access, calls, indices and slices. |
| C96 | Scripts that are written down are read back | A small grammar of written scripts with, for each kind of tree, the states and next tokens where it may come up; one check that these are closed under the tables, one induction that such trees are built; the lexer on blank-separated words; then induction over scripts through the node functions and the grammar functions. |
| C97 | Tokens are spelled as they should be | What was read in each state of the lexer, checked for all states and characters by the kernel; invariant that the tokens of the trees on the stack are those read. False for a bare `#`, which takes the next line with it. |
| C98 | Words are whole | Names are never cut short, and names of types are no names: checked for all states of the lexer. False for keywords: where no name can come next the lexer does not look for names, and where a keyword cannot it does not look for it. |
| C99 | Accepted scripts make sense to the interpreter | Table checks on all rules of the grammar (fields, counts, kinds of children), then induction over the tree. False as it stands; true without the nodes that `safeNode` and `knownNode` exclude. |
| C100 | Ends of lines, `;` and comments have no effect | A simulation: a relation of states with bodies alike; every function of the interpreter keeps it; induction over fuel. |
| C101 | Scripts are run from their texts | The texts are parsed in Lean by evaluation; what they are parsed to is alike to the statements (C96, C100), and then C75. |
| C102 | A build makes again exactly what has to be made again | What is stale is an inductive relation over the requests; induction over the place of the request, with the final state of every product after the build (BuildRes) for the two builds. |
| C103 | The project's own test of what is made again passes, whatever the compiler and the schedule | The text of the script is parsed in Lean and its meaning is that of C72 for any flag; the names of the cookies by evaluation; then C102 for each round, with an invariant between the rounds. |
| C104 | `bob run` and `bob sh` become the program their command stands for, and the project's tests of them pass | The file a command stands for is a relation on the list of directories; `find_bin` is shown to find it; then the trace of `main` up to the last event.  The script of the test is parsed in Lean, its meaning is that of C72. |
| C105 | What bob makes in the output directory as root belongs to the owner of the project | The builds of the model extended by the owner of every file and the pending call of each thread, with the proof that this excludes no build; invariant: a file inside that is not the owner's is due.  Negation for the prefix of `run` and `sh`. |
| C106 | `Fs.list` lists what is there | The loop line by line over a model of `fts_read` (a walk that terminates because the directories not yet on the way get fewer); the listing is compared with the paths of the disk as a graph.  With C75/C101: scripts that run on such a disk see what these need.  Negation for failures. |
| C107 | bob builds bob | From C104 (what `bob run` becomes), C72 (what the own script means) and C35 (when bob succeeds), a chain of processes each becoming the next; with both orders of `getopt`.  Negation for the meant order with glibc. |
| C108 | Archives hold the present objects | `ar` as a function on lists of members; with the same names it leaves what it is given (by induction).  An invariant of all transitions of builds: where there is an archive, it has the names of what it is made from.  So every build with `ar` is one of the model with an archiver that makes archives anew, and C04 applies.  Negations for flags and for files given twice. |
| C109 | Builds on a file system with directories | The build program written again on the tree of C29, action by action.  A simulation of its transitions by those of the build without directories, with an invariant of the tree (every write is one file, and directories on the way to it), in both directions.  After a failed installation a second invariant: the failure cannot be forgotten.  Negation without the exception. |
| C110 | What is there after installing | An invariant of products in a build (there is a copy from the moment it is done), the simulation of C109, and the theorem about installing (C29) after it; the install map of bob's own script from what the script means (C72).  For the test: the second build changes nothing in the prefix (C109).  Negation: a newer file where `skeletons` is to be installed. |
| C111 | Several bobs building in one directory | Each bob is a build on shared files. A rely-guarantee argument: what one bob knows about its products (a product that is right, with all it is made from; a record of prerequisites that is right) is not undone by any action of another, and an old link product is older than everything made since. Partial: every product is always asked for with the same flags. Negation: the flags change, the second bob sees the new flags written down by the first, and links the old objects. |
| C112 | Editing while bob builds | The build with edits as further transitions. An invariant of products through a build (what an existing product was made from is there unless newer than it; a link product that is still to be checked is older than the build), which edits keep; then the theorem of C111. Partial: edited files are newer than the products there are, and no source that is just being compiled gets to include other files. Negations: an edit within the second in which the object was made; an edit of what a source includes between asking the compiler for it and compiling. |
| C113 | Killed while files are being written | For each point of a build the files that may be open for writing; after a kill these have any content. What is open belongs to a product that is asked for or is a place products are installed at; the invariant of C111 and C112 says nothing of products that are not there, nor of flags, logs and installed files. Partial: products that were damaged or whose record of includes was are removed. Negations: a link product, a record of includes, an installed file left empty. |
| C114 | From the text of the script to the program, whatever happened before | What a bob builds is determined by the text of the script and the files in src (C72, C101), with flags that are always the same, so that each bob satisfies what C113 asks; then C113 gives the claim. This also drops the condition of C75 that records of flags are not deleted alone. |
| C115 | Times of files | The invariants of C111 to C113 need only that no product is from the future; so files of the user may have any times as long as those changed are newer than the products there are. Partial: that, and the clock goes forward. Negations: for all projects, after a success a change that makes no file newer leaves the next build with nothing to do (C115_unnoticed); a clock set back, by which an object made again is older than the program. |
| C116 | Bootstrapping | Model of the parts of `find`, of word splitting and of `wait` the script uses, over the disks of C106; by induction on the walk, what `find` prints is what bob's script selects from what `fts` returns. Partial: the tree is tidy (`Tidy`), and every source compiles. Negations with witnesses for each: a name that begins with `flamingo`, a blank, a link to a directory, a directory that cannot be read, a source that does not compile. |
| C117 | Characters beyond ASCII | Model of `U8_NEXT` with its tables; by arithmetic it accepts just what the encoder of the specification yields. From the table of `ts_lex`: characters from 128 on are never skipped and lead to a state they do not lead away from; so reading by characters and by bytes give the same token (induction on the text), and so the same tree. Tokens of texts in UTF-8 are made of whole characters. This removes the simplification that texts are bytes. |
| C118 | `bob run` runs the present sources | One process from the command line to the program it becomes: bob becomes something only after checks, build and installation succeeded (C35, C36), the build is that of the text of the script (C101), what is installed is the program of the sources (C76), and the prefix of the project comes first in the search (C104). Refuted twice for the C skeleton: adding and removing a source, and a program of that name in the project's directory. |
| C119 | Scripts with syntax errors | False: nothing looks for errors in the tree. Shown instead, by an invariant over the stacks of all versions: a tree with supplied tokens follows the grammar and its text is that of the script (C98 goes on to hold); the interpreter's assertions hold as for trees without errors (C99); and two trees that differ only in brackets, commas, ends of lines and keywords being there are run alike. Trees with `ERROR` nodes, and which version is kept, are not modelled. |
| C120 | Install ids on macOS | Installing one entry as in C30, followed by the tool. Induction over histories of linking and installing in which the tool works. If it fails: the copy is as new as it can be, so it is skipped from then on (the rule of C32). The warning is read as in C83. |
| C121 | Blanks between tokens do not matter | For one token: the states of the lexer that skip blanks, and the states it can be in at once from two starts (tables checked by computation), then induction over the text. For the parser: a step does the same with trees that differ in blanks only, induction over the steps. For the interpreter: induction over derivations, with the nodes of which the text is used consisting of one token, or shown. |
| C122 | What it means that all tests passed | Model of `ls -p`, `grep -v`, command substitution and the loop, on top of the model of `bootstrap.sh`. Induction over the listing for the words of the loop, and over the loop. Partial: names are plain words, no directory beside `tests.sh` has the name of a test. Negative: a bootstrap that fails, a test with the name of a directory. |
| C123 | `-C` is like going there | `main` with a working directory: answers of the system are a function of the directory they are asked in. By induction over the command line, an option `-C` in front changes the project directory only, unless another one follows. Every run has a world of `Model/Cli` in which bob does the same (C35 to C37, C104 apply). Partial: one `-C`. |
| C124 | In `bob sh` and `bob run` the project's programs are found wherever one goes | Specification of how a shell looks for a command, on the trees of C31; the list it looks in is the one bob sets (C36). Partial: the output directory is given by an absolute name, or the shell stays. Negation: two projects side by side. |
| C125 | Installing where there are symbolic links | A second model of `install_single`, on trees with links; `C125_no_links` shows that it is the one of `Model/Install` where there are none. What is found stays found when directories are made, or a file is written where there is no directory or link; a link reads as its target from where it is, by induction over the links that are followed. Partial: keys that are not links themselves, and destinations that are not directories; for a link, its target is kept, so it reads the same if that is absolute. Negations: a relative link; a destination that is a link. |
| C126 | A library and the link to it are installed together | On the trees of C125. The directory a last name is looked for in does not depend on that name, so link and library are beside each other; the link then reads as the library, unless more than 40 links are on the way. That everything stays in a directory is shown, not assumed. Partial: the first half. Negation: a link that was changed. |
| C127 | Installing again comes to rest, with symbolic links | On the trees of C125. The directories that were made resolve to themselves in the tree after the copy, so nothing is made again; then the two times are compared. Partial: files, wherever the destination leads, if it is not a directory; directories, if there was nothing at the destination. For links: exactly when the second installation does nothing. Whole maps of files: any entries again, in any order and at any times, if in the end no destination leads to a key (`C127_all_partial`). Negations: a link that leads nowhere once it is installed; a destination that is the key of an earlier entry. |
| C128 | Where installing writes, with symbolic links | `install_all` on the trees of C125. `Written` says what a destination leads to; that other files stay is shown for an entry and then by induction over the map. For the second half: what is found through a directory without links, without `..`, is in that directory. Partial: the second half if the keys are files. Negation: an entry that is a link, and a later one written through it. |
| C129 | What was copied is there in the end, with symbolic links | From C125 (what was copied reads as its key) and C128 (which files change later). Files installed make no links, so that where a destination leads stays the same. Partial: if no destination is a directory, and no two lead, in the end, to the same file. Negation: two destinations that are written differently and lead to one file. |

### C69 in more detail

`Spec/FlSafe.lean` says which scripts are disciplined, looking at their text only. The invariant `Wf L C P T s` (`Lemmas/FlWf.lean`) relates the
reference count of each value to what holds it. A count is at least the number of variables holding it whose name is assigned to somewhere, plus
the references in hand (`T`), plus one if something holds it that never lets go: a container, a variable whose name is never assigned to, or
somebody up the call stack (`P`). `C` are copies on their way into a container. `Safe m s Q` says that `m`, started in `s`, does not crash with cause `other`, and
ends in `Q` if it ends normally. `Lemmas/FlSafe*.lean` prove it for each function of the interpreter, assuming it for the recursive calls, and `safeX` ties
the knot by induction on fuel. The theorem says nothing about leaks; many values are never released.

The causes of crashes that disciplined scripts can still have are those of `Cause` other than `other`. `C69_crashes_left` shows that all but one do occur.

### C72 in more detail

`Spec/FlMean.lean` gives build scripts a meaning without memory, as inductive relations: `Means w ρ e v r` (with names `ρ`, expression `e` has the tree `v` as its
value and asks for `r`), `Held` for places in which the result of a link is kept, and `Runs` for statements. What it leaves out has no meaning: functions
other than `|x| e` given to `map` and `where`, classes of the script's own, loops, overflow, and results of links that are not kept (C62). The proof relates states to names: `s.Was v c` says cell `c` is or
was the tree `v`, `Scene` that each name is found with its value, that bob's classes are in place, and that the registered steps match the requests so
far. `Conv m s Q` says that `m`, with enough fuel, ends normally in `Q`. Because of the invariant of C69 every value a step or variable refers to is still there when the
script has ended, so bob reads what was described (`Lemmas/FlMeanBob.lean`).

## 5. Where the code disagrees with the properties as first written

Each of these is a theorem named `..._false` with a concrete execution, next to the theorem which holds.

| id | what happens |
|---|---|
| C02 | flags containing a newline or a NUL are not told apart |
| C04 | reordering the inputs of a link does not relink |
| C05 | a build killed after the flag record was written leaves stale objects that look fresh |
| C06 | names with blanks |
| C11, C13, C14 | hash collisions; inputs occurring twice cancel; one source compiled with two flag lists |
| C17 | a pool without workers, and tasks added after the last worker left |
| C23 | a failing `waitpid` counts as success |
| C25 | output larger than the pipe blocks both processes |
| C26 | errors of `posix_spawnp` are positive and not noticed |
| C27 | a killed build replays an older log |
| C29, C32 | installing a file onto an existing directory |
| C30 | only the first entry of a product is installed |
| C31 | destinations with `..` leave the prefix |
| C33 | siblings of the output directory whose name begins alike count as products |
| C36 | output paths with a colon; a program of the same name in the project directory |
| C43 | a function put into a vector is replaced under its name too |
| C44 | variables take values of any kind; elements do through `none` |
| C45 | `return f()` aborts or loses the value; declarations after `return` still run |
| C46 | `return` in a block at top level |
| C47 | recursion shares the environment |
| C48 | maps with repeated keys |
| C49 | a later value can change an earlier key |
| C52 | operators are not looked at if the result is thrown away |
| C54 | the members of strings can be overwritten through a vector |
| C55 | a callback that shortens the vector makes `map` read beyond its end |
| C56 | elements of elements are shared; copies lose what follows a NUL; copying a value named after a variable of a released instance reads the released name |
| C59 | long messages abort; a variable in its own initialiser; overflow |
| C62 | a request whose result is thrown away is read after it was freed |
| C65 | four ways of releasing values that are still used, and one of using a released name |
| C66 | a file changed inside an installed directory |
| C67 | numbers that do not fit an `int` |
| C68 | options of the program are taken as bob's |
| C73 | inputs and flags of a link are not told apart by its command line |
| C74 | another `$CC`, `$AR`, or other libraries under the prefix rebuild nothing |
| C76 | add a source, build for a prefix, delete the source again, build for the prefix: the program of the old list is still there, up to date and older than the installed one, so the program with the deleted source stays installed |
| C77 | `cc.compile(1)`, or any other method of an instance that fails: the environment in force contains the scope of the instance twice (it was closed over, and is attached again for the call), so `flamingo_destroy` frees it twice; nested callbacks of `map` over a vector of functions and a copy of it: the bodies are shared, the elements not held, and the bodies freed twice |
| C79 | a compiler that crashes: `BOLD RED "Terminated by signal: …"` (`src/cmd.c:274`) is never cleared, and is printed without colours as well |
| C80 | `bob build > file`: `a.c`, then `ESC [ 0 m`, then `: Compiling...` |
| C82 | `$CC` does not exist: `cmd_exec` fails before it sets `rv` and `sig`, which `cmd_create` leaves unset, and `cmd_log` reads them; with a zero in that place bob prints `Successfully compiled.` (the build fails all the same), with a number other than zero in place of the signal that signal is reported |
| C83 | a directory is to be installed where there is one that cannot be removed: `rm` tests `*err != NULL` although the caller has set it to `NULL`, so the reason is lost and `NULL` is passed for `%s`; the same if the source does not exist; a reason that does not end with a newline loses its last byte |
| C84 | `Linker([]).link(obj)` as a statement: the path of the program is released with the result of the call, and read when bob builds; with the discipline broken, a compiler released while it is being replaced takes its flags with it |
| C85 | `bob run \| cat` with nothing to compile: what bob has printed is in the buffer of `stdout` and lost in `execv`, as nothing calls `fflush`; a compiler that prints `note` without a newline, then one that fails: on a terminal the failure is seen before `note` |
| C86 | worker 1 starts its child while worker 0 is between `pipe` and `close(cmd->in)`: the child has the pipe of worker 0 open (no `O_CLOEXEC`), and worker 0 reads until that child ends, holding the lock of the request while it does; if that child prints more than a pipe holds, neither ever ends |
| C88 | `cc.compile(["a.c"])` and `cc.compile(["b.c"])`: one step, but each request has a lock of its own, so both reports can be printed before both outputs; a worker that installs what it has made prints without any lock |
| C89 | `install: {"missing": …}`: the message about the missing file prints the bytes of a string value with `%s`, and they have no zero byte behind them. Also: a source path with a zero byte (`gen_cookie` writes past the string), flags of two gigabytes or more, a `.flags`, `.deps` or `.log` that cannot be sought in or gets shorter while it is read, `usage` under a name of 16 bytes or more when `prctl` fails, and `link([])` (an array of size 0) |
| C90 | `pthread_create` fails: its result is not looked at, the element of `businessmen` stays as `malloc` left it, and `pool_wait` joins whatever it says |
| C91 | one of two compilations fails: `pool->error` is written by one worker while another may read it, neither has the lock, and it is a plain `bool` |
| C92 | a compilation fails: `Failed to compile` goes to standard error but what the compiler wrote about it to standard output (`printf`), so `bob build > /dev/null` gives no reason |
| C95 | `print -a + b` prints `-(a + b)` and `!a && b` is `!(a && b)`: the operand of a unary operator goes on over all binary operators after it |
| C97 | A `#` directly followed by the end of the line makes the next line part of the comment (state 11 of `ts_lex` goes to 46 for every character), so that statement is not run (`C97_tokens_are_spelled_false`). |
| C98 | `static leta = 1fn f {}` is a declaration of `a` and of a function `f`; `let true = let` declares a variable `true` (`C98_words_are_whole_false`, `C98_keywords_are_no_names_false`). |
| C99 | `print str`, `static let x: int = 1` and a comment inside of e.g. `print # why` are accepted by the parser, but fail an assertion of the interpreter; slices and `fn ++` are accepted and unknown to it (`C99_accepted_scripts_make_sense_false`, `C99_static_type`, `C99_comment`, `C99_slice`, `C99_operator`, `C99_list_comment`). |
| C105 | `bob run` and `bob sh` as root leave files of root in `.bob/prefix`: `install_single` does not call `set_owner` after copying; the owner's next run cannot overwrite them |
| C106 | `Fs.list` of a path that does not exist, or of a directory that cannot be read, does not fail: a misspelt directory gives an empty list of sources and the build goes on; and the loop does not tell an error of `fts_read` from the end (`src/class/fs.c:42`) |
| C107 | With glibc the second line of `tests/bob.sh` does not test that a bob built by bob builds bob elsewhere: `getopt` takes the `-o` of the inner command too, so the first directory is never used and the inner bobs build in `.bob` (`src/main.c:72`) |
| C108 | Flags of `Linker` are given to `ar` after the objects, where they are files: a file once given as a flag stays in the archive after it is taken out, although the change of flags is noticed and `ar` is run (`src/class/linker.c:97-130`) |
| C110 | The test of `bob install` passes because `skeletons` is installed. If there is a newer file at `share/bob/skeletons`, `bob install` says it is installed already and succeeds, and the test fails; it passes if there is no file there. |
| C111 | There is no lock on the output directory. After a change of flags two bobs started at once may both report success and leave a program made from old objects: the first writes down the new flags of the objects, the second therefore takes the old objects to be right and links them, the first compiles within the same second and finds the program up to date. Later builds do not notice. |
| C112 | An edit within the second in which an object was made, and after it, is never noticed: only whole seconds are compared (`src/frugal.c:122`). And `compile_task` (`src/class/cc.c:127-135`) runs the compiler twice, first for what a source includes and then for the object; if the source gets to include another header in between, the object is right but the header is not written down, and from then on edits of the header are not noticed. |
| C113 | A half-written output is newer than what it is made from, and so is taken to be complete by `frugal_mtime`: programs, objects and installed files stay as they are until something they are made from changes. The record of includes is emptied before it is written (`src/class/cc.c:80`); if bob is killed then, the object that was to be replaced is taken to be up to date, since the edited header is no longer in the record. Writing to another file and renaming it would avoid all of these. |
| C115 | A file that is replaced by an older one (`mv`, `cp -p`, `tar`, `rsync -t`) is never noticed: `frugal_mtime` (`src/frugal.c:89-132`) asks whether a file is newer than the product, not whether its time has changed; this is what the TODO about moved files there wonders about. If the clock was set back, an object that is made again gets a time before that of the program, and the program is not linked again. |
| C116 | `bootstrap.sh` takes no notice of compilers that fail (`wait` in `bootstrap.sh:32` succeeds whatever became of the jobs): if nothing needs the missing object, it links a bob without it and succeeds. It and `build.fl` do not select the same files: `build.fl:6` leaves out all that begins with `src/flamingo` (`src/flamingoes.c`), `bootstrap.sh` does not follow links and splits names at blanks. |
| C118 | After a source has been added and removed again (with `bob run` in between) `bob run` runs the program that still contains the removed source: the program linked first is older than the installed copy, so it is not installed again (`C118_stale_false`). And a program of that name in the project's directory is run instead of the one just built (`C118_shadowed_false`), since `find_bin` tries the name itself first. |
| C119 | A script with a syntax error is run: nothing looks for `MISSING` or `ERROR` nodes (there is a TODO at `src/flamingo/flamingo.c:117`). `Cc(["-g")` can be taken for `Cc(["-g"])`, `print 1 print 2` for two lines, and `let = 1` declares a variable whose name is empty (`C119_syntax_errors_are_refused_false`, `C119_sample_nameless`). |
| C120 | If `install_name_tool` fails, bob warns and succeeds, and since the copy is newer than the library, no later run sets the id (`C120_retried_false`, for all trees and tools `C120_lost_for_good`). Everything whose name ends in `.l` is taken for a library: programs, and files of the user such as scanners for `lex`, which the tool then changes or complains about (`C120_only_libraries_false`). |
| C121 | The texts of the test of an `assert` and of what a value is assigned to are kept with their blanks, for messages (`C121_shown_texts_false`). Blanks cannot be left out and lines cannot be ended at will (`C121_any_blanks_false`). |
| C122 | `tests.sh` goes on after a bootstrap that failed (there is no `set -e`, `tests.sh:6-9`). `.bootstrap/bob` is gone then, nothing is installed, the tests are run with the bob that was installed before, and if they pass all tests are said to have passed (`C122_present_bob_false`, in general `C122_old_bob_partial`). `[ -d $test ]` (`tests.sh:20`) looks beside `tests.sh` instead of in `tests`, so a test with the name of a directory there is left out (`C122_all_tests_run_false`). |
| C123 | `bob -C a -C b` is not `b` in `a`, as with `make` and `git`: `src/main.c:74-76` overwrites the first; it need not even exist. |
| C124 | `setup_environment` (`src/bsys.c:123-134`) uses `out_path` and not `abs_out_path`, so `$PATH` begins with `.bob/prefix/bin`. After `cd` in `bob sh` the project's programs are not found any more; in the directory of another project those of that project are. The same holds for shared libraries. |
| C125 | `copy` (`src/fsutil.c:65`) runs `cp -RP`, so of a key that is a link only the link is installed: a relative one (`libx.so` to `libx.so.1`) leads nowhere at the destination, and bob reports success. As `frugal_mtime` follows links, such an entry is installed again each time. A link to a directory, on the other hand, is installed as a directory. |
| C125 | A destination that is a link to a file is written through, so `bob install` may change files that are not below the prefix. A key that is a link into the output directory counts as a product, and is passed over without a word. |
| C126 | `frugal_mtime` (`src/frugal.c:89-132`) compares what the two links lead to, not the links: when `libx.so` is made to lead to another library that is not newer than the installed one, bob says "already installed" and the installed link leads to the old library for good. |
| C127 | A relative link installed without what it leads to is copied again by every `bob install`, since `stat` of the destination gives `ENOENT` (`src/frugal.c:95-101`). If the entry is later replaced by a file, installing it fails (`C125_nowhere`). If a destination is the key of an earlier entry, one installation is not enough: the next one copies it (`C127_all_false`). |
| C128 | Two entries with one destination, the first with a link as key: the second is written through the link, so that installing may overwrite the project's own sources (`src/fsutil.c:65`, `src/install.c:192-199`). |
| C129 | Two destinations that are written differently may lead to one file through links in the prefix (such as `bin` and `sbin` on systems where one is a link to the other); the last one copied wins, and nothing is reported (`src/install.c:192-199`). |

## 6. Mutation tests

`seeded/LOG.jsonl` records wrong versions of the model (one edit each, made in a copy), the claim each should break, and the declarations which
no longer compiled. Where a wrong version survived, the theorems named in `tightened` were added or strengthened.

## 7. Corrections of the model

Places where an earlier version of the model differed from the code, found by reading the code again. The samples beside the definitions had been
written from the model and so did not show them.

* `sigLine` had `ESC [1m ESC [31m` for `BOLD RED`; the code has `ESC [1;31m`.
* `cmdExec` gave signal 0 for a command that was not started, where the C code leaves the field as it was. Its comment now says so, and
  `cmdExecRes` has the fields as they are (C82).
* Names of values were texts; in the code they point to the key of a variable and are released with its scope. `Cell.keyIn` is that scope,
  and `readName` is undefined behaviour once it was released. C56 and C62 needed a hypothesis for this (C69's scripts fulfil it), and
  `C56_name_false` and `C65_name_false` are scripts which read a released name.
* `prepCompile` read all sources before it made the first object path; the code reads one, makes its path, and goes on to the next.
* `fsList` passed the whole text of its argument on; the code stops at the first NUL.
* `instantiate` read the flags; the code looks at their kinds only.
* `classInst` compared names without regard to their lengths being compared first, so that it read some names the code does not read.
