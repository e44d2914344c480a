# Design

Machine-checked model of oclint (static analysis tool for C, C++ and Objective-C) in Lean 4.
`properties.jsonl` lists what is claimed, `MANIFEST.json` which theorems prove it, and
`AXIOMS.md` which axioms each of those theorems depends on.

## Method

The C++ sources are read as text and modelled function by function as total, computable Lean
functions. Every definition under `Model/` cites the file and lines it models, and says where it is
simplified. The properties are stated with definitions of their own (`Spec/`), mostly inductive
relations, and proved for all inputs, states and executions.

Layout under `lean/Verif/`:

* `Model/*`   definitions that mirror the C++ code
* `Spec/*`    small independent specifications
* `Lemmas/*`  helper lemmas
* `Props/*`   the property theorems `Oclint.Cnn_...`, with concrete examples next to them

Names: `Cnn_..._partial` proves part of property Cnn and says what is missing; `Cnn_..._witness` is a
concrete case in which the full claim is false of the code, so the claim cannot be proved in full.

Conventions of the model:

* `std::string` is `List Char`, one `Char` per byte.
* Pointers to rules are numbers; a pointer that may be null is an `Option`.
* `Outcome` has three cases: a result, a thrown exception, undefined behaviour (signed overflow,
  null dereference, out of bounds access). No theorem holds merely because Lean functions are total:
  where the code has undefined behaviour, the model says so.
* `std::map` and `std::set` are association lists without duplicate keys. For unordered containers
  the hash function or the order of iteration is a parameter.
* A rule is modelled by what its `Visit...` methods report for one node of the syntax tree
  (`...Visit : Stmt → List Stmt`); `reportOver` applies it to all nodes in traversal order.
* Syntax trees (`Model/Ast.lean`) keep what the modelled rules ask Clang for.

## Trusted base

* Lean's kernel.
* The axioms `propext`, `Classical.choice` and `Quot.sound`; no others. See `AXIOMS.md` for each
  theorem. No `sorry`, no own axioms, no `native_decide`, no `bv_decide`.
* The correspondence between the C++ text and the Lean definitions, which is by reading.
* That the specifications say what is meant.

Inputs of the model, about which nothing or only what is named is assumed:

* Clang: parsing, syntax trees, source positions, the recursive traversal order, constant evaluation
  (C48 assumes that it is right where it gives a value), comparison of expressions by profile (C66).
* The file system, `dlopen`, the environment, the time of day, YAML parsing, the standard streams.
* The semantics of C used for the advice of the rules (`Spec/Semantics.lean`): a big step semantics of
  statements with `break`, `continue`, `return`, `goto`, labels, `switch`, exceptions, and of
  expressions with short circuit evaluation. What it leaves open (other expressions and statements,
  values, states) is a parameter (`World`), so the theorems hold for every choice of it. Destructors
  and the scope of declarations are not modelled.

## What is modelled

By source file; `tools/lines.py` lists the code lines of these files that no definition cites. A
citation says which lines a definition was read from. It is not evidence that it was read
correctly. `tools/citations.py` checks that cited ranges exist and contain the function they name.

* `oclint-core/lib`: violations, violation sets, result collector, raw and unique results, rule set,
  rule configuration, rule base, `RuleCarrier::addViolation` (`Model/Results`, `Registry`,
  `RuleBase`).
* `oclint-driver`: option processing, configuration files after YAML parsing, rule filter, plugin
  loading, compile commands and jobs, diagnostics, running the analyzer, `main` and its exit codes
  (`Model/Options`, `RulesetFilter`, `Loader`, `Driver`, `Main`); finding the program (`Install`);
  what `main`, the loaders and the driver write (`Console`, `Verbose`), also with the shipped reporters (`ReportRun`) and when there is no room for it (`WriteFailure`); runs of the long line rule (`LongLineRun`) and of any rules of the tree (`TreeRun`), among them those with limits (`MetricRun`); the lives of the compilers (`Lifecycle`); the keys of configuration files (`ConfigYaml`) and the memory
  their texts are in (`ConfigLifetime`); the documentation generator (`DocGen`).
* `oclint-metrics/lib`: cyclomatic complexity, NPath, NCSS, statement depth (`Model/Metrics`).
* `oclint-reporters`: HTML, JSON, PMD, text, XML and Xcode (`Model/Reporters`) and the sorting script
  of the HTML report (`SortTable`). The text of the script in `Reporters` is read and run by the rules for
  the part of JavaScript it uses in `Spec/Script` (C115): statements, numbers as natural numbers, `rows` as
  the live list of the rows of the table, `innerHTML`, `insertBefore`. Not in it: how a browser builds the
  table from the page beyond reading the tags of the rows, semicolons that are left out, other types.
* `oclint-rules/lib`: `AbstractASTRuleBase`, `AbstractSourceCodeReaderRule`, attributes and suppression
  (`Model/RuleBase`, `SourceLines`, `Suppress`), `StdUtil` (`Text`), `ASTUtil`.
* Declarations that share a definition (`Redeclarations`).
* All rules: `size`, `naming`, `basic`, `empty`, `redundant`, `convention`, `design` (`Thresholds`,
  `ShortNames`, `SourceLines`, `RulesControl`, `RulesExpr`, `RulesSwitch`, `RulesNull`, `FeatureEnvy`,
  `RulesLocal`, `RulesCxx`), `cuda` (`RulesCxx`), `unused` (`RulesUnused`), `cocoa` (`RulesCocoa`) and
  `migration` (`RulesMigration`). What the rules answer about themselves is in `Catalogue`; of the
  documentation texts (`DOCGEN`) only those about thresholds are modelled.
* `oclint-scripts/scaffoldRule`, `scaffoldReporter`, `path.py:86-88`, `version.py:20-21` (`Scaffold`)
  and the templates they read (`ScaffoldTemplates`); of `bundle` and `path.py` the places of programs, rules
  and reporters (`Install`), the version texts (`Version`).
* `oclint-rules/rules/CMakeLists.txt`, the `CMakeLists.txt` of the categories and
  `oclint-reporters/reporters/CMakeLists.txt`: the texts, and the part of CMake's language that they and the
  scaffolding scripts use, from its documented behaviour (`CMake`).
* `oclint-rules/test/CMakeLists.txt`, the `CMakeLists.txt` of the categories of tests and
  the lists of tests of the other projects, in the same way (`TestLists`, `CMake`).
* the `CMakeLists.txt` of the five parts and of their directories `lib`, in the same way: targets, sources, what
  is linked and where libraries are looked for, but not where headers are (`ProjectLists`).
* `oclint-scripts/bundle` as a whole, on a disk of directories, files and links (`Bundle`).
* `oclint-scripts/clang` after `argparse` has read the command line; the download, `tar`, `ar` and `llc` are
  parameters (`LlvmSetup`).
* `oclint-scripts/build`, `test`, `dogFooding`, `ci` after `argparse` has read the command line, with
  `process.py`, `cmake.py` and the functions of `path.py` they use (`BuildScripts`).
* what CMake remembers of the options these scripts give it (`CMakeCache.txt`, from CMake's documented
  behaviour), and what `OCLintConfig.cmake:18-36` and `123-125` make of them (`CmakeCache`). The generator is
  not remembered.
* `oclint-scripts/googleTest`, the shell scripts `docGen`, `make`, `makeWithSystemLLVM` and `gh-actions`, and
  the jobs of `.github/workflows/tests.yaml` (`CiScripts`). Names of files are not expanded.
* the command lines of all nine scripts that use `argparse`, from the words to the attributes, with the part
  of `argparse` of Python 3.11 that they use (`Argparse`). `argparse` is not part of the project; its model
  was compared with the library on 14400 random command lines (`tools/argparse_diff.py`), which is a test of
  the trusted base and no proof.
* `environment.py:9-31` but `linux_distribution`, and the steps of `.github/workflows/build.yaml`, `docgen.yaml`
  and `release.yaml` that upload archives, with the filters of `aws s3 cp` from their documentation (`Uploads`).

## What is not modelled

Whole files:

* `oclint-driver`: of `CompilerInstance.cpp` the choice of the front end action (57-62) and the set up of the target (64-81), `GenericException.cpp`; of `Logger.cpp` the debug stream.
* `oclint-rules/lib/AbstractASTMatcherRule.cpp`: what a matcher rule reports is modelled, how
  Clang's matchers find it is not.
* `oclint-scripts/upload`, which only says that it is not implemented and ends, the other steps of the other workflows, the rest of `OCLintConfig.cmake`, the other files of `oclint-core/cmake`, and the headers except where a definition cites them.

Parts of files that are otherwise modelled:

* `Driver.cpp:82-98`, `205-261`: construction of Clang's driver, invocation and compiler instance
  (an input of the model), debug output.
* How LLVM's `cl` library and Clang's `CommonOptionsParser` read the words of the command line is modelled
  from their documented behaviour (`CommandLine`); response files and the compilation database are
  parameters. LLVM's libraries declare more options of their own, which count as unknown in the model.
* Clang's argument adjusters, which `Driver.cpp:265-273` combines, are modelled from their documented behaviour
  (`Adjusters`); in the model of a run (`Driver`) they are a parameter.
* LLVM's YAML reader, which `ConfigFile.cpp` drives: the text to tree part is a parameter, how a tree
  is read is modelled from its documented behaviour (`ConfigYaml`).
* Accessors, constructors and one-line forwarding functions.

Simplifications are named at the definitions; search `Model/` for "Simplification".

## Known dependencies between properties

* C13, C14, C16, C17 and C89 use `processOptions`, which takes the texts of configuration files to stay
  readable. C68 proves that they are not, so these properties hold of the code only if no consulted
  configuration file has a text entry that is not empty (`C68_options_defined`); otherwise the run has
  undefined behaviour (`C68_options_undefined`). C114 puts both together for the whole program.

## How the model was compared with the repository's own tests

`tools/repotests.py write` reads the tests in `oclint-rules/test` and `oclint-metrics/test` as text,
has Clang parse the snippets in them, translates Clang's trees into terms of the model and writes one
`example` per expectation into `lean/Verif/Tests`.  The expected places and messages are those of the
tests.  1086 expectations are replayed; 19 are not, `tools/repotests.txt` says which and why.  The
tests of the reporters, of the core and of the driver are translated by hand in
`Verif/Tests/Reporters.lean`.  All of them hold.

These are tests, not proofs: no theorem uses them.  They check that the model of the rules agrees
with what the authors of the code expect of the code.  Two things are trusted in them.  The parser is
Clang 22 of the Lean toolchain and not the Clang 21 the project is built with.  The translation of its
trees is a script.  Nothing of the project was built or run.

## What the seeded edits show

`seeded/LOG.jsonl` is made by `tools/mutate.py` (edits the model in a scratch copy and rebuilds) and
`tools/mutlog.py`. Read it with these limits:

* A failing proof means that the proof does not go through for the edited model. It does not mean
  that the theorem is false of it. The field `evidence` says whether a property theorem failed or only
  lemmas did; the latter is the case for most lines, because the build is stopped soon after the
  first error, and then the field `claim` is inferred by a script from what uses the lemma.
* Edits that make the model itself fail to compile are left out. Everything else is in the log,
  including edits that survive.
* Edits written by hand were collected by a script that set survivors aside to be looked at. A few
  had no line in the log and were added later. Only edits whose lists were still at hand could be
  checked for this, so some early ones may be missing.
* Theorems renamed after an attempt appear under their present names.

## Properties

* **C01 Raw results lose and invent nothing** (proved). The list of violations a reporter receives when duplicate removal is off is exactly the concatenation, in order of analysis and then order of reporting, of every violation added during the run; the same holds for compiler errors, compiler warnings and checker bugs; the reported counts are the lengths of those lists.
  Theorems: `C01_raw_results_complete`, `C01_raw_counts`.
* **C02 Duplicate removal keeps exactly the first copy of each violation** (proved). With duplicate removal on, the reported violations contain each distinct collected violation exactly once, at the position of its first occurrence, and nothing else; two violations are merged only if all seven of their fields agree, whatever their hash values are. Applying it to an already duplicate free run changes nothing.
  Theorems: `C02_dedup_firsts`, `C02_dedup_properties`, `C02_dedup_idempotent`, `C02_equality_is_all_fields`, `C02_dedup_code_hash`.
* **C03 Query order and repetition never change de-duplicated answers** (proved). Between two additions, asking a de-duplicating result object any of its questions, in any order and any number of times, always gives the same answers; but once a non-empty answer was given, later additions are not reflected (the object is a snapshot), while an empty answer is always recomputed.
  Theorems: `C03_questions_are_pure`, `C03_fresh_answer`, `C03_frozen_answer`, `C03_stale_witness`.
* **C04 Per-priority counts partition the total** (proved). For every run, the per-priority counts over all priorities add up to the number of violations, each count equals the number of reported violations whose rule has that priority, and the only way a count can fail is a violation that carries no rule.
  Theorems: `C04_priority_count`, `C04_priority_count_ub_iff`, `C04_priorities_partition`.
* **C05 File statistics are consistent** (proved). The number of files in the summary is the number of analysed translation units; the number of files with violations is the number of distinct files of the first violation of each unit, never exceeds it, is zero exactly when no violation was collected, and equals the number of distinct file paths whenever every analysed unit only produced violations in one file; it is not the number of distinct violating paths in general. *The general equality with distinct paths is refuted by C05_undercount_witness, as the statement says.*
  Theorems: `C05_number_of_files`, `C05_files_with_violations_are`, `C05_files_with_violations_le`, `C05_files_with_violations_zero_iff`, `C05_files_with_violations_exact`, `C05_undercount_witness`.
* **C06 Rule registry indexing** (proved). After any sequence of registrations, asking for index i returns the i-th registered rule when 0 <= i < n, returns no rule for i >= n, and a negative index never yields a rule.
  Theorems: `C06_nonnegative_index`, `C06_negative_index`.
* **C07 Rule configuration behaves as a last-write-wins map** (proved). After any sequence of set / clear operations a key is configured exactly if it was set since the last clear, its value is the last one set, the typed getters return the default exactly for unconfigured keys, and getters with defaults never change the configuration. Reading a key directly without a default makes an unconfigured key configured with the empty string, or is undefined behaviour if nothing was ever configured.
  Theorems: `C07_configuration_is_a_map`, `C07_writes_succeed`, `C07_undefined`, `C07_getters_are_pure`, `C07_raw_read`.
* **C08 Integer thresholds round trip through configuration text** (proved). Configuring a threshold with the decimal text of any 32-bit integer yields exactly that integer; leading blanks and any non-digit tail are ignored; text with no leading number yields 0; text whose number does not fit in an int is undefined behaviour. *C08_every_text is the whole statement: what atoi does on every text.*
  Theorems: `C08_every_text`, `C08_atoi_reads_decimal`, `C08_int_round_trip`, `C08_garbage_is_zero`.
* **C09 Rule identifiers are letter-only camel case** (proved). The identifier that a rule has on the command line, unless it defines its own, consists of ASCII letters only, is the concatenation of the maximal letter runs of the rule name with each run's first letter upper-cased, and deriving the identifier of an identifier gives the same identifier.
  Theorems: `C09_identifier_is_camel_case`, `C09_identifier_letters`, `C09_identifier_idempotent`.
* **C10 Violations without a source file are never recorded** (proved). Reporting a violation records it, with the given position, message and rule unchanged and after all earlier ones, exactly when its file path is non-empty; otherwise nothing changes.
  Theorems: `C10_carrier_records`.
* **C11 The last enable/disable for a rule wins** (proved). After any sequence of enable and disable requests, a loaded rule runs exactly when its identifier is not disabled by the last request for it and, if any rule name's last request is an enable, its own last request is an enable.
  Theorems: `C11_last_request_wins`.
* **C12 Filtering keeps load order and never adds rules** (proved). The rules that run are a sub-list, in load order, of the loaded rules, with as many copies of a rule as were loaded; with no enable/disable requests all loaded rules run; disabling every explicitly enabled rule turns all other rules back on.
  Theorems: `C12_multiplicity`, `C12_default_all`, `C12_disabling_all_enabled`, `C12_names`.
* **C13 Configuration precedence: command line, then working directory, home, system** (partial). Each scalar option takes the command line value if given, otherwise the value of the last of the system, home and working directory configuration files that sets it, otherwise the built-in default; the home file is consulted only when HOME is set. *Proved for configuration files whose texts stay readable. The code frees them first: C68_options_undefined refutes the property for every consulted file with a text entry, C68_options_defined links this model to the code otherwise.*
  Theorems: `C13_precedence_partial`, `C13_processing_succeeds_partial`.
* **C14 Rule paths and rule configuration accumulate across sources** (partial). Rule load paths are the command line paths followed by the paths of the system, home and working directory files in that order (or the default path if there are none); each rule configuration key gets the value of the last source setting it, command line last. *Proved for configuration files whose texts stay readable. The code frees them first: C68_options_undefined refutes the property for every consulted file with a text entry, C68_options_defined links this model to the code otherwise.*
  Theorems: `C14_rule_paths_partial`, `C14_rule_configuration_partial`, `C14_rule_selection_partial`.
* **C15 A -rc argument splits at its last equals sign** (proved). For `-rc X`: if X contains '=', key and value are the parts before and after the last '='; the value never contains '=', and key=value reassembles X; if X contains no '=', both key and value are X. If the last '=' is behind the first 2^31 - 1 characters, its position is cut to 32 bits, with undefined behaviour, an uncaught exception or a wrong split, depending on the position.
  Theorems: `C15_rc_split_any`, `C15_rc_split`, `C15_far_witness`.
* **C16 Report destination is absolute** (partial). The report file path is the -o argument itself if it starts with '/', otherwise the working directory, a slash and the argument; an empty argument raises an error (reported as a reporting failure), never an out of bounds access. *Resolution against the real working directory is proved for directories shorter than 300 bytes; C16_long_cwd_witness refutes it for longer ones (fixed getcwd buffer). Like C13 it presupposes that option processing is defined (C68).*
  Theorems: `C16_output_path`, `C16_relative_to_cwd_partial`, `C16_long_cwd_witness`.
* **C17 The exit code is determined by a fixed precedence** (partial). The process exits 0 exactly when options parse, rules and reporter load, analysis and reporting raise nothing, there are no compiler errors and every priority count is at most its threshold; each failing stage has its own code and an earlier failing stage always wins. *Exit codes are characterised exactly whenever option processing is defined. That the program always exits holds only if no consulted configuration file has a text entry (C68).*
  Theorems: `C17_exit_code_unique`, `C17_exit_code`, `C17_bad_command_line`, `C17_always_exits_partial`, `C17_success_iff`.
* **C18 Threshold gate is monotone and exact at the boundary** (proved). Counts equal to the thresholds pass and one more fails; raising a threshold never turns a passing run into a failing one; removing violations or removing duplicates never does either; violations of rules with a priority outside 1..3 never affect the exit code.
  Theorems: `C18_gate`, `C18_gate_monotone`, `C18_dedup_never_hurts`, `C18_other_priorities`.
* **C19 Every requested source with compile commands is analysed once per command, in order** (proved). The list of compile jobs is the concatenation, in request order, of the compile commands of every requested source; sources without a command contribute nothing.
  Theorems: `C19_compile_jobs`.
* **C20 Global analysis and per-file analysis see the same contexts** (proved). For every list of compile jobs where no job fails fatally, analysing all jobs together or one by one hands the same successfully compiled units in the same order to the analyzer, and the plain rule analyzer therefore produces identical results in both modes.
  Theorems: `C20_global_equals_per_file`, `C20_no_checker_no_bugs`, `C20_same_outcome`, `C20_message_witness`.
* **C21 Compiler diagnostics go to exactly one channel** (proved). In the normal pass each warning ends up in warnings, each error or fatal error in errors, everything else nowhere; in the checker pass every diagnostic ends up in checker bugs; order is preserved; positions and text are kept and no rule is attached.
  Theorems: `C21_normal_pass`, `C21_checker_pass`.
* **C22 Compiler command line handed to the front end** (proved). The command line starts with the tool path, never contains -gmodules, ends with -D__OCLINT__, otherwise keeps the arguments in order; the checker pass adds --analyze first and drops the database command's first and last arguments; a one element database command in checker pass reads out of bounds.
  Theorems: `C22_normal_command_line`, `C22_checker_command_line`, `C22_out_of_bounds`, `C22_flags`, `C22_front_end_job`.
* **C23 Escaped blanks in compile directories are unescaped left to right** (proved). Every occurrence of backslash-blank found scanning left to right without overlap is replaced by a blank, everything else is kept; the replacement terminates for every non-empty pattern; a backslash-blank can remain only if it was produced by a preceding backslash.
  Theorems: `C23_replacement`, `C23_termination`, `C23_no_escape_left`.
* **C24 Plugin loading** (proved). Loading a rule directory opens every entry not starting with a dot, in directory order, stopping with an error at the first that cannot be opened; a missing directory loads nothing; the reporter chosen is the first entry in directory order whose name is the requested one, and a later broken plugin does not matter.
  Theorems: `C24_rules_loaded`, `C24_first_broken_rule`, `C24_reporter_selected`, `C24_reporter_error`.
* **C25 Each analysed unit yields exactly one result set with its rules' violations in order** (proved). After analysing n units the collector has n more sets; the i-th is the concatenation over running rules, in order, of the violations each reported for unit i.
  Theorems: `C25_one_set_per_unit`, `C25_set_count`.
* **C26 `//!OCLINT` suppresses exactly the violations that begin on its line** (proved). A violation whose begin line carries the marker in a comment of the main file is dropped, one whose begin line does not is kept as far as line markers are concerned, and repeated queries about the same file are consistent, for any order of queries; the lookup is by line only, so a marker in the main file also drops violations located on the same line number of a header. *C26_header_witness and C26_stale_witness show the header and stale-path behaviour.*
  Theorems: `C26_line_marker`, `C26_consistent`, `C26_recorded`, `C26_header_witness`, `C26_stale_witness`.
* **C27 An annotation suppresses a rule for the whole annotated declaration** (proved). A rule's violation on a node is suppressed exactly when the node or one of its ancestors in the first-parent chain is a declaration carrying `oclint:suppress` or the rule specific annotation; suppression of an ancestor always suppresses the descendants; without a rule nothing is suppressed this way.
  Theorems: `C27_suppressed_iff`, `C27_inherited`, `C27_no_rule`, `C27_recorded`, `C27_chain_cut_witness`.
* **C28 Rule-specific annotations match exactly that rule** (proved). `oclint:suppress[name]` matches the rule called name only, never a rule whose name merely is a prefix, suffix or superstring (for names without brackets); an optional trailing bracketed comment is returned verbatim.
  Theorems: `C28_comment_of`, `C28_requested`, `C28_enforce`, `C28_one_rule`, `C28_exact_rule`, `C28_unqualified`, `C28_comment`, `C28_no_comment`.
* **C29 Range based suppression does not leak between rules** (partial). Whether a line of a unit is suppressed for one rule is independent of which other rules were asked before. *The maps live in the library of the rule (static helper library), so rules of different libraries do not disturb each other: C29_libraries, and C29_one_rule_per_library for the shipped layout. For rules of the same library independence is proved when all calls for a path name the same rule; the general claim is refuted by C29_leak_witness (the range map is keyed by path only). C29_answer_exact states the answer in every history.*
  Theorems: `C29_answer_exact`, `C29_independent_partial`, `C29_leak_witness`, `C29_libraries`, `C29_one_rule_per_library`.
* **C30 Language gating** (proved). Outside CUDA, a rule is run on a unit exactly when it declares support for the unit's language and for host code, where Objective-C takes precedence over C++ over C; a unit in none of these is run by no AST visitor rule. In a CUDA unit the language does not matter: every rule is run, on exactly those declarations (kernels or others) it declares to be for.
  Theorems: `C30_language_supported`, `C30_defaults`, `C30_plain_unit`, `C30_cuda_unit`, `C30_no_language`.
* **C31 Line rules see every line of the main file exactly once** (proved). A source line rule is called once per line of the main file with consecutive numbers from 1; joining the lines with newlines gives back the buffer up to one final newline; no line contains a newline; an empty file has no lines.
  Theorems: `C31_each_line`, `C31_lines_unique`, `C31_apply`.
* **C32 Long line rule is exact** (proved). The long line rule reports line i exactly when the line has more bytes than the configured threshold and is not suppressed, at line i from column 1 to its length, and the message states the actual length and limit.
  Theorems: `C32_long_line`, `C32_exact`.
* **C33 Cyclomatic complexity counts decision points** (proved). The complexity of a body is one plus the number of decision points (if, for, for-in, while, do, case, catch, ?:, &&, ||) anywhere in it, so it is at least 1, grows by one per added decision point and is additive over sequencing and nesting.
  Theorems: `C33_complexity`, `C33_counted`, `C33_at_least_one`, `C33_additive`, `C33_nesting`.
* **C34 NPath complexity counts acyclic paths** (proved). NPath of a body follows Nejmeh's recurrences: products over sequences, sums over branches plus the complexity of conditions; it equals the number of acyclic paths of the body as enumerated by an independent path semantics; redundant parentheses and casts do not change it.
  Theorems: `C34_walks`, `C34_no_overflow`, `C34_condition`, `C34_parens`.
* **C35 NPath is at least one and never hides complexity** (partial). Every statement has NPath at least 1 and embedding a statement in a bigger body never lowers the reported value; the computation stays within int. *Proved when every switch body starts with a label and for the control structures the metric knows; C35_hides_witness, C35_try_witness, C35_overflow_witness and C35_hidden_overflow_witness refute it otherwise.*
  Theorems: `C35_positive_partial`, `C35_monotone_partial`, `C35_hides_witness`, `C35_try_witness`, `C35_overflow_witness`, `C35_hidden_overflow_witness`.
* **C36 NCSS counts statements compositionally** (proved). The non-commenting statement count of a body is additive over sequences, unaffected by redundant braces and empty statements, and at least the number of leaf statements reachable through the supported control structures.
  Theorems: `C36_count`, `C36_counted`, `C36_additive`, `C36_braces`, `C36_empty_statement`, `C36_leaves`.
* **C37 Block depth is the maximum brace nesting** (proved). The depth of a body is the maximum number of compound statements on any root-to-leaf chain of supported control structures; adding statements never lowers it; wrapping in braces adds exactly one.
  Theorems: `C37_depth`, `C37_braces`, `C37_monotone`.
* **C38 Threshold rules report exactly above the threshold** (partial). Every metric rule (complexity, NPath, NCSS, depth, method length, class length, parameter count, field count, method count, name length) reports a construct exactly when its metric exceeds (or, for minimum rules, falls below) the configured threshold, and the description states the metric and the limit; raising the threshold only removes reports. *C38_exact_partial, C38_total_partial and C38_raise_partial hold for all limits of eight rules, and for limits that are not negative for parameter counts and name lengths. For negative limits the statement is false: the parameter rule is then silent (C38_negative_parameters_witness) and the name rule can throw (C38_negative_name_witness); C38_names describes the name rule for every limit.*
  Theorems: `C38_exact_partial`, `C38_total_partial`, `C38_raise_partial`, `C38_negative_parameters_witness`, `C38_names`, `C38_negative_name_witness`.
* **C39 Dead code reports are about statements that cannot execute** (partial). A statement reported as dead code is never executed, in any execution, when the enclosing block has no labels that can be jumped to; removing the code after an unconditional exit does not change behaviour. *Proved when neither the reported statement nor the one before it can be jumped into (leading case/default labels are allowed). C39_label_witness refutes it otherwise: a label inside the reported block makes it reachable.*
  Theorems: `C39_exits_never_end`, `C39_dead_code_partial`, `C39_label_witness`.
* **C40 Dead code is reported for every unconditional exit** (proved). A block is reported exactly when some statement of it that always exits (by return, throw, break, continue, or an if/else both of whose branches do) is immediately followed by a statement that has no label. *AlwaysExits is the syntactic notion.*
  Theorems: `C40_exit_iff`, `C40_reports_exactly`, `C40_reported_iff`.
* **C41 Collapsible-if advice preserves behaviour** (partial). Whenever the collapsible-if rule reports a pair of nested ifs, replacing it by a single if with the conjunction of the two conditions behaves identically in every state. *Proved when the inner if has no declaration or init statement in its condition; C41_inner_init_witness refutes it otherwise.*
  Theorems: `C41_reports_exactly`, `C41_reports_once`, `C41_collapse_same_partial`, `C41_inner_init_witness`.
* **C42 For-loop-should-be-while advice preserves behaviour** (proved). Every loop reported by the rule is `for(;c;) body` and behaves identically to `while (c) body`.
  Theorems: `C42_reports_exactly`, `C42_for_while_same`.
* **C43 Unnecessary-else advice preserves behaviour** (partial). For every reported if, dropping the `else` keyword and running the else branch after the if behaves identically. *What is reported is characterised exactly (C43_reports_exactly). The advice is proved when the then branches contain no labels; C43_label_witness refutes it otherwise.*
  Theorems: `C43_reports_exactly`, `C43_drop_else_same_partial`, `C43_label_witness`.
* **C44 Redundant-if and redundant-conditional advice preserves behaviour** (partial). Whenever reported, the construct can be replaced by the condition, its negation or the common value with the same result. *Reports are characterised exactly. The advice is proved for opposite returned constants, for assignments to one variable, and for conditional operators; casts keep only the truth value. C44_operator_witness, C44_variable_witness and C44_cast_witness refute the general claim.*
  Theorems: `C44_if_reports_exactly`, `C44_conditional_reports_exactly`, `C44_if_return_same`, `C44_if_assign_same_partial`, `C44_conditional_opposite`, `C44_conditional_twice_partial`, `C44_operator_witness`, `C44_variable_witness`, `C44_cast_witness`.
* **C45 Inverted-logic advice preserves behaviour** (proved). Every reported if/else or ?: has a negated condition with both branches, and swapping branches while dropping the negation behaves identically. *No label may be in both branches, which C guarantees.*
  Theorems: `C45_reports_exactly`, `C45_if_same`, `C45_conditional_same`.
* **C46 Broken oddness check is really broken** (proved). The rule flags exactly `x % 2 == 1` and `1 == x % 2`; such a comparison gives the wrong answer to the question whether x is odd for every negative odd x, and the right one for all others. *Values are 32 bit two's complement integers with C's remainder; the operand must have a value (no overflow, no division by zero in it).*
  Theorems: `C46_reports_exactly`, `C46_wrong_exactly_for_negative_odd`.
* **C47 Double negation and multiple unary advice** (proved). A flagged `!!e` has the truth value of e, a flagged `~~e` equals e for every bit pattern, and the multiple-unary rule flags exactly directly nested (through parentheses) unary +,-,~,! operators.
  Theorems: `C47_double_reports_exactly`, `C47_multiple_reports_exactly`, `C47_double_is_multiple`, `C47_not_not_truth`, `C47_not_not_condition`, `C47_complement_twice`, `C47_signs_twice`.
* **C48 Constant conditions** (proved). Conditions flagged as constant evaluate to the same value in every state, given that the compiler's constant evaluator is right about the expressions it evaluates; the rules flag exactly the conditions it evaluates. *Clang's EvaluateAsBooleanCondition is a parameter; its soundness (Evaluator) is a hypothesis, shown satisfiable by foldLogic_evaluator.*
  Theorems: `C48_reports_exactly`, `C48_constant`.
* **C49 Switch rules are exact** (partial). Default-label-not-last reports exactly switches whose default is followed by a case; covered-switch and missing-default exactly (non-)exhaustive switches with(out) default; too-few-branches exactly those with fewer `case` labels than the threshold, labels of nested switches included; missing-break exactly those in which, between a label and the next or the end, no statement is or contains a break, return, throw or continue. *False as stated for default labels: Clang adds a default label to the list the rule walks only after the statement behind it, so `default: case 1: f();` is not reported (C49_default_not_last_witness). C49_default_not_last_partial: in a switch with one default label, it is reported exactly if there is a label behind its statement; C49_default_only, C49_default_once: nothing else is. The other clauses are proved in full. C49_missing_break_witness shows that the syntactic notion of a break is neither sound nor complete for falling through. A section that runs into the next label is reported twice.*
  Theorems: `C49_labels`, `C49_covered`, `C49_missing_default`, `C49_default_not_last_partial`, `C49_default_only`, `C49_default_not_last_witness`, `C49_default_once`, `C49_too_few`, `C49_missing_break`, `C49_missing_break_only`, `C49_missing_break_witness`.
* **C50 Empty block rules are exact** (proved). Each empty-block rule reports exactly the statements of its kind whose block is empty or is a lone semicolon.
  Theorems: `C50_catch`, `C50_do`, `C50_else`, `C50_finally`, `C50_for`, `C50_if`, `C50_switch`, `C50_try`, `C50_while`, `C50_once`.
* **C51 Jumbled incrementer** (proved). Reported exactly for a for loop that is the body of another, or the only statement of its block, whose increment applies a unary operator to the variable the outer loop declares. An outer variable declared before the loop and an increment such as `i += 1` are not covered. *C51_misses shows the cases not covered.*
  Theorems: `C51_reports_exactly`, `C51_misses`.
* **C52 Null check rules are exact** (partial). Broken, misplaced and redundant null check rules report exactly the conjunctions/disjunctions combining a null comparison of a variable with a dereference of the same variable in the wrong position; a reported broken null check dereferences null whenever the variable is null. *Reports are characterised exactly for all five rules. That a broken check dereferences null is proved for uses not guarded by a further condition; C52_guarded_witness refutes it otherwise. Variables are identified by name, as in the code (C52_name_witness).*
  Theorems: `C52_broken`, `C52_broken_nil`, `C52_misplaced`, `C52_misplaced_nil`, `C52_redundant_nil`, `C52_broken_dereferences_partial`, `C52_misplaced_dereferences_partial`, `C52_proper_check`, `C52_guarded_witness`, `C52_name_witness`.
* **C53 Feature envy metric** (proved). A method is reported exactly when some other class receives more calls from it than its own class does, and the class named in the report is one that does. *For every iteration order of the unordered_map. 'Calls' are messages, instance variable uses and property uses of Objective-C methods. The rule is in the source tree and has unit tests, but is not built (C118).*
  Theorems: `C53_reports_exactly`, `C53_once`, `C53_not_self`.
* **C54 XML escaping is faithful** (proved). The PMD reporter's message escaping never emits a raw <, >, " or ' and every & it emits starts an entity; decoding the entities gives back the original message, so distinct messages stay distinct.
  Theorems: `C54_decode_escape`, `C54_no_specials`, `C54_injective`, `C54_plain`.
* **C55 Every violation is reported exactly once, in order, with its fields** (partial). Each report format's body contains one record per violation, error, warning and checker bug, in order, from which path, line, column, rule, priority and message can be read back. *Every format reads back for texts without the characters that are special in it, and for every format this is the exact condition: C55_json_exact, C55_xml_exact, C55_pmd_exact, C55_html_exact, C55_text_exact and C55_xcode_exact say that a report reads back as what it is about if and only if its texts are free of those characters (JsonClean, XmlClean, PmdClean, HtmlClean, LineClean, DiagClean). The unrestricted claim is refuted: C55_json_ambiguous_witness and C55_xcode_ambiguous_witness give different results with the same report. C55_html_head reads the style sheet and the script in the head of the HTML page.*
  Theorems: `C55_html_head`, `C55_json_exact`, `C55_xcode_exact`, `C55_text_exact`, `C55_json_reads_back_partial`, `C55_json_ambiguous_witness`, `C55_xcode_ambiguous_witness`, `C55_xcode_ub_iff`, `C55_pmd_priority_ub`, `C55_pmd_reads_back_partial`, `C55_html_reads_back_partial`, `C55_xcode_reads_back_partial`, `C55_text_reads_back_partial`, `C55_xml_reads_back_partial`, `C55_xml_exact`, `C55_pmd_exact`, `C55_html_exact`.
* **C56 Machine readable reports are well formed** (partial). The JSON and XML style reports are syntactically well formed for every result. *Well formed for texts without special characters (PMD: whatever the messages are). Refuted otherwise by C56_json_witness, C56_xml_witness and C56_pmd_witness: JSON and XML texts and PMD paths are written unescaped.*
  Theorems: `C56_json_wellformed_partial`, `C56_xml_wellformed_partial`, `C56_pmd_wellformed_partial`, `C56_json_witness`, `C56_xml_witness`, `C56_pmd_witness`.
* **C57 Report timestamp is the calendar date** (partial). The datetime attribute of the XML and HTML reports is the current calendar date and time. *Refuted for XML: C57_datetime_partial shows the date is right except that the month is one too small for every moment in years 0-9999, C57_never_calendar that it is never right. The JSON time stamp is right exactly for 32-bit times. HTML prints ctime text as given.*
  Theorems: `C57_datetime_partial`, `C57_any_year_partial`, `C57_never_calendar`, `C57_january_witness`, `C57_datetime_ub`, `C57_json_timestamp_iff`.
* **C58 Report summary totals agree with the body** (partial). The totals printed in the summary equal the number of records printed. *Proved for the text, JSON, XML and HTML reports as read back, when all priorities are 1, 2 or 3 and the texts have no characters that are special in the format: C58_text_totals_partial, C58_json_totals_partial, C58_xml_totals_partial, C58_html_totals_partial (for HTML also the totals of errors, warnings and checker findings). C58_other_priority_witness refutes it otherwise. PMD and Xcode reports state no totals. C58_no_rule_ub: violations without rule.*
  Theorems: `C58_no_rule_ub`, `C58_text_totals_partial`, `C58_other_priority_witness`, `C58_json_totals_partial`, `C58_xml_totals_partial`, `C58_html_totals_partial`.
* **C59 Sorting the HTML report table** (proved). Clicking a column header terminates, leaves the table a permutation of its rows, sorted ascending on the column, or descending if it was already ascending. *For every strict weak order of texts; C59_location_witness shows that places are sorted as texts, not as numbers.*
  Theorems: `C59_sort_table`, `C59_second_click`, `C59_missing_cell`, `C59_location_witness`.
* **C60 Short variable names** (proved). The short variable name rule reports, once and in order, only variables whose non-empty name is shorter than the threshold; it reports all of those that are not declared in a loop header or catch clause; variables of a header in which every name is short are exempt. Exactly, after a header the k-th short variable is exempt if and only if it is the k-th variable of the header. Exemption of every loop variable is not true: a short name after a long one in the same header is reported, and a stack entry left over from an earlier translation unit can hide a variable. *Witness theorems refute the exemption of every loop variable, as the statement says. C60_exact: which variables are reported, both directions, for every leftover state.*
  Theorems: `C60_sound`, `C60_complete`, `C60_exact`, `C60_exempt`, `C60_loop_variable_witness`, `C60_stale_stack_witness`.
* **C61 Bitwise operator in conditional** (proved). The conditions of if, while, do and ?: that contain &, | or ^ anywhere are reported, each once, and nothing else is; for and switch conditions are not covered.
  Theorems: `C61_reports_exactly`.
* **C62 Goto statements** (proved). Every goto to a label is reported exactly once, wherever it is; nothing else is, in particular no computed goto.
  Theorems: `C62_goto`, `C62_goto_count`.
* **C63 Leaving a finally block** (proved). Every return, @throw and raise of an NSException anywhere inside a @finally block is reported, once for each @finally block around it, and nothing else is.
  Theorems: `C63_return`, `C63_throw`, `C63_counts`, `C63_order`.
* **C64 Branching statement as last in loop** (proved). A break, continue or return is reported exactly when it is the last statement of the body of a for, while, do or Objective-C for-in loop.
  Theorems: `C64_reports_exactly`.
* **C65 Non-case label in switch** (proved). Every label inside the body of a switch that is not a case or default label is reported, once for each switch around it, and nothing else is.
  Theorems: `C65_reports_exactly`, `C65_count`, `C65_order`.
* **C66 Null check before delete** (partial). The rule reports exactly the ifs without else that ask whether a pointer is not null and then only delete it, possibly setting it to null afterwards; dropping the check of a reported if does not change behaviour. *Reports are characterised exactly, for whatever comparison of expressions. The advice is proved when asking has no effect and there is no init statement; C66_effect_witness refutes it otherwise.*
  Theorems: `C66_reports_exactly`, `C66_advice_partial`, `C66_effect_witness`.
* **C67 Redundant nil check advice** (partial). Dropping a nil check reported as redundant does not change the truth value of the condition. *Proved when the other operand is the message itself, without arguments; C67_witness refutes it otherwise.*
  Theorems: `C67_advice_partial`, `C67_reported`, `C67_witness`.
* **C68 Configuration texts and the memory they are in** (proved). Processing a configuration file has undefined behaviour exactly if the file is readable, not blank and has a text entry that is not empty, because the constructor frees the memory its text members point to before they are read. A file with only numbers and switches is processed as described by the precedence property, and so would every file be if the memory were kept. *Exact condition for undefined behaviour. From LLVM it is taken that a StringRef filled by the YAML reader points into the file buffer or the reader's allocator.*
  Theorems: `C68_kept_alive`, `C68_freed`, `C68_nothing_alive`, `C68_undefined_iff`, `C68_numbers_only`, `C68_options_defined`, `C68_options_undefined`, `C68_witness`.
* **C69 Useless parentheses** (proved). Exactly the parenthesised conditions of if, returned values and initial values are reported, at most one per statement; dropping the reported parentheses does not change what the program does.
  Theorems: `C69_node`, `C69_exact`, `C69_once`, `C69_advice`.
* **C70 Redundant local variable** (proved). A variable is reported exactly if its declaration is alone in the next to last statement of a block and the last statement returns the value of a variable of that name; returning its initial value instead gives the same result and the same observable state. *The advice is proved for variables whose stored value is what reading returns and for observations that do not depend on the variable.*
  Theorems: `C70_node`, `C70_exact`, `C70_once`, `C70_advice`.
* **C71 Prefer early exit** (proved). An if without else is reported exactly if it has more lines than the limit and is followed by the last statement of its block, which is a jump, or ends the body of a for, while or do loop; inverting the condition and leaving early does not change behaviour. Range-based for and Objective-C for-in loops are not covered. *Trees have no positions; the lines of a statement are a function of it. The rewriting is proved for the semantics in Model/Semantics; an indirect goto must not end normally.*
  Theorems: `C71_node`, `C71_exact`, `C71_block`, `C71_leaves`, `C71_loop`, `C71_bare`.
* **C72 Parameter reassignment** (partial). Exactly the plain assignments to parameters of the function are reported. This is only true if no other variable has the name of a parameter: an assignment to a local variable that shadows a parameter is reported as well. Compound assignment, increment and assignment through parentheses are not reported. *C72_no_shadowing_partial proves the statement if no other variable has the name of a parameter; C72_shadowing refutes it otherwise. What is reported is characterised exactly in C72_by_name.*
  Theorems: `C72_by_name`, `C72_count`, `C72_no_shadowing_partial`, `C72_only_plain`, `C72_shadowing`.
* **C73 Destructors of base classes** (proved). For each polymorphic class exactly the ancestors are reported that are reached by public inheritance through classes that are not polymorphic and whose destructor is neither virtual nor protected, once per path. If nothing is reported for a class and its ancestors, all its public ancestors have a virtual or protected destructor. *Classes are trees of what the rule reads of clang's records.*
  Theorems: `C73_exact`, `C73_count`, `C73_complete`.
* **C74 Destructors of polymorphic classes** (proved). Exactly the polymorphic classes without virtual destructor are reported, once; together with the rule on base classes, silence means that deleting through a pointer to the class or a public ancestor is safe.
  Theorems: `C74_exact`, `C74_once`, `C74_hierarchy`.
* **C75 Members that matchers find** (proved). Virtual methods with a default argument, and private static variables and methods, are reported, in order and each once, and nothing else is. *Clang's matchers are modelled by predicates.*
  Theorems: `C75_default_arguments`, `C75_private_static`.
* **C76 Branch divergence in CUDA kernels** (proved). An if with else is reported exactly if it is in the main file of a CUDA source, in a kernel or in a top level declaration that is not a function, so host code in classes and namespaces is reported as well; in other sources nothing is.
  Theorems: `C76_exact`, `C76_only_cuda`.
* **C77 Unused local variable** (proved). The unused local variables that have a name and are in no template are reported, in order and each once, unless what their type is called is listed under RAII_DEFAULT_CLASSES or RAII_CUSTOM_CLASSES. The listed names are the longest pieces without separators of the last configured values. What a type is called is the text before the first template argument, without qualifiers; it need not be the class. *C77_called_witness: a class inside a class template is called by the template, a pointer to a guard like the guard. Whether a variable is used is an input (clang's isUsed, isReferenced).*
  Theorems: `C77_names`, `C77_called`, `C77_exact`, `C77_configured`, `C77_called_witness`.
* **C78 Unused parameter** (partial). An unused named parameter is reported, once, exactly if it is not marked, not of a template, and nothing around it requires it: no missing body, virtual method, block, method declaration, method of a superclass or protocol, or action. This is only true outside of classes and of class methods: inside a class nothing is reported, and class methods the superclass requires are reported. *Reports are characterised exactly (C78_exact). The intended statement is proved outside of classes and class methods (C78_proper_partial) and refuted otherwise (C78_witness).*
  Theorems: `C78_exact`, `C78_once`, `C78_proper_partial`, `C78_class`, `C78_witness`.
* **C79 isEqual and hash** (proved). An implementation is reported exactly if it has isEqual: and not hash, and then once, whatever the order of its methods.
  Theorems: `C79_exact`.
* **C80 Missing call of base method** (partial). A definition of a method is reported, once, exactly if a method it overrides is annotated to require a call of the base method and the body does not send the method's own message to super. This is only true of instance methods; class methods and redeclarations are always reported. *Reports are characterised exactly (C80_exact). The intended statement is proved for definitions of instance methods and refuted otherwise (C80_witness).*
  Theorems: `C80_exact`, `C80_once`, `C80_instance_partial`, `C80_witness`.
* **C81 Calling prohibited methods** (proved). Exactly the calls of functions and methods annotated as prohibited are reported, once, with the annotation's comment as advice.
  Theorems: `C81_comment`, `C81_exact`, `C81_once`.
* **C82 Calling protected methods** (partial). A message for a protected method is reported exactly if it is sent from outside of the method's class and its subclasses. No such message is missed; but a message to an object of a subclass is reported even if it is sent from inside the method's class, and for a protected method of a protocol the behaviour is undefined. *Proved when the receiver's class is the method's class (C82_same_class_partial) and in one direction always (C82_complete); refuted otherwise (C82_witness, C82_undefined).*
  Theorems: `C82_in_child`, `C82_exact`, `C82_undefined`, `C82_no_interface`, `C82_complete`, `C82_same_class_partial`, `C82_witness`.
* **C83 Missing abstract method implementation** (proved). For each method that the direct superclass declares abstract and the implementation lacks there is a report, in order, and there are no others; silence means that all of these are implemented. Abstract methods of classes further up and those that a category declares are not looked at; but if nothing is reported for any class of a chain, each abstract method of an @interface in it is implemented below. *The annotation is looked for as in C28. C83_witness shows the limits to the direct superclass and to its @interface; C83_chain what silence about a whole chain of classes means.*
  Theorems: `C83_exact`, `C83_root`, `C83_silent`, `C83_superclass`, `C83_chain`, `C83_witness`.
* **C84 Instance variables assigned outside of accessors** (partial). In a method that is not an initializer, the instance variables assigned to are reported unless the method is an accessor of the variable. This is only true if no other instance variable occurs in the left hand side: one that is only read there is reported too. Increments are not reported. *Reports are characterised exactly (C84_exact). Proved when left hand sides have no other instance variable; refuted otherwise (C84_witness). Which node refers to which instance variable is a parameter.*
  Theorems: `C84_exact`, `C84_targets_partial`, `C84_witness`.
* **C85 Number literals** (proved). A message is reported exactly if it applies a factory method of NSNumber to one literal of the type the method is for; the literal written with @ instead sends the same message.
  Theorems: `C85_exact`, `C85_order`, `C85_advice`.
* **C86 Boxed expressions** (partial). A message is reported exactly if it makes an NSNumber from a parenthesised expression of the type the method is for, from a parenthesised expression converted to BOOL, or from an enumeration constant, or an NSString from a call or parenthesised expression of type char *. The boxed expression sends the same message, except that numberWithBool: may become numberWithInt:. *Reports are characterised exactly (C86_exact). That boxing sends the same message is proved except for numberWithBool:, where C86_bool_witness refutes it.*
  Theorems: `C86_exact`, `C86_order`, `C86_advice_partial`, `C86_bool_witness`.
* **C87 Container literals** (proved). Exactly the messages to NSArray and NSDictionary with one of their listed factory methods are reported, in order and each once; mutable containers never are.
  Theorems: `C87_exact`, `C87_order`, `C87_mutable`.
* **C88 Object subscripting** (proved). Exactly the messages are reported that subscripts stand for and whose receiver is an implicitly converted expression of the type that has the method, in order and each once; reading from a variable of mutable array type is not. *The visitor does not look at other receivers, e.g. calls.*
  Theorems: `C88_exact`, `C88_order`, `C88_mutable_reads`.
* **C89 What the program writes** (proved). For every run with processed options, standard output, standard error and the written file are determined: the list of enabled rules comes first on standard output if asked for, the report goes to standard output or to the one output file and nowhere else, standard error has, after what LLVM says about the configuration files, the reason a plugin did not open or the sources that are skipped, one 'oclint: error:' line for exit codes 1 to 5 and none for 0 and 6, and the counts shown with exit code 5 are those of the violations of each priority with their limits. Nothing is written to the log without -verbose. *C89_console: output, errors, log and files exactly as specified, both directions. C89_exit: same exit code as the model of C17. C89_complaint, C89_report and C89_quiet: consequences by exit code. C89_rejected: a command line Clang does not accept. The texts of a reporter, of dlerror(), of LLVM about configuration files and of a command line error are parameters; a reporter that throws is taken to have written its text before. How the log (llvm::outs) mixes with standard output is not modelled, nor what rules and Clang's front end write themselves. Depends on C68 as C17 does: configuration texts are taken to stay readable.*
  Theorems: `C89_console`, `C89_rejected`, `C89_exit`, `C89_complaint`, `C89_report`, `C89_quiet`.
* **C90 Keys of configuration files** (proved). Each of the twelve keys of a configuration file sets its own member and no other: a list of texts, a list of key/value pairs, a text, a number that fits an int, or true/false. Keys are read in a fixed order; the first entry of the wrong shape stops the reading without failing the program, what was read before it stays, of a broken list the items before the broken one stay, and the members of all later keys stay unset. Unknown keys change nothing. A text that is not YAML sets nothing. *C90_exactly: a document is read as a configuration iff it is the one described, for all shapes including broken ones. C90_unknown: unknown keys. C90_stops_reading: a mistake in the first key loses all others. Parsing of YAML text and of numbers (getAsSignedInteger) are parameters; the behaviour of llvm::yaml::Input is an assumption listed at Model/ConfigYaml. What llvm::yaml::Input writes to standard error about a mistake is not modelled.*
  Theorems: `C90_members`, `C90_exactly`, `C90_garbage`, `C90_unknown`, `C90_stops_reading`.
* **C91 Generated documentation** (proved). The documentation generator either complains on standard error and exits with 1 without writing a file, if a plugin does not open or there is no rule, or exits with 0 and writes an index that names the number of rules and every category exactly once in order, and for every category one file with exactly the loaded rules of that category, ordered by identifier, each with title, underline of the same length, since, name, description, source, example, thresholds, suppression and additional text. Together the files have every loaded rule exactly as often as it is loaded, whatever rules are enabled or disabled. *C91_docs: exit code, messages and all file contents; C91_cases: its cases exclude each other. C91_complete: no rule is lost or doubled. C91_unparsed: a command line that cannot be parsed is undefined behaviour (the code takes the value of a failed Expected). std::sort is any function that keeps its promise; clock and rule texts are parameters. Files are listed as they are opened: a category called index would name the index file a second time.*
  Theorems: `C91_docs`, `C91_cases`, `C91_complete`, `C91_unparsed`.
* **C92 A whole run of the driver** (proved). A run over the sources compiles every compile command of every source in order, each in its own directory, and sends every compiled unit to the rules; with the Clang checker every command is compiled once more after all have been analysed. It ends exactly if the directory of every command can be entered and Clang plans a single front end job for it (or offloads); then the collected results are, in order, the error and warning diagnostics of all compilations, the violations the rules found in every unit that compiled without error, and all diagnostics of the checker's compilations. It stops exactly if some command does not satisfy this or a rule throws, with the message about the first of these in the order of the mode. Whether all units are compiled before the first is analysed changes nothing about the results of a run that ends, and decides only the order of what -verbose writes and, if a rule throws, which message is the first. What is written is determined: one line for each source without compile command on standard error, and with -verbose the progress lines, without it nothing. *C92_completes and C92_stops: what a run writes and collects, both directions. C92_collects and C92_error: the same of the model without output, used by C17; C92_error_of_calm_rules: the case that no rule throws. C92_result: the two models agree. C92_unique: one result. C20_same_outcome: without a throwing rule both modes end alike, also when they stop; C20_message_witness: with one the messages may differ. Command lines too short for the code (no argument; with the checker fewer than two) are undefined behaviour in the model and excluded. Release build without the debug lines; the rules and Clang itself write nothing.*
  Theorems: `C92_completes`, `C92_stops`, `C92_result`, `C92_collects`, `C92_error`, `C92_error_of_calm_rules`, `C92_unique`.
* **C93 Lives of the compilers** (proved). In every run of the driver, ended or stopped, each compiler is created once, works on its inputs in order, is shown to the rules only between that and its end, has exactly those inputs ended that were begun successfully and each of them once, and is deleted at most once, after all rules have seen it and its diagnostics are finished; nothing happens to it afterwards. If files are compiled one by one, every compiler that yielded a unit is deleted before the next one is created; if they are compiled together none is deleted before all are created, and none at all if a compile command or a rule stops the run. A run that is stopped by a rule ends with this rule seeing a unit, and up to there does what it would do if the rule did not stop it. A compiler whose compile fails and all compilers of the Clang checker are never deleted. *C93_trace (all rules return), C93_interrupted (one does not) and C93_exists: the events of every run, also of one that stops. C93_cut: an interrupted run is the beginning of an uninterrupted one. C93_same: they are the events of the run of C92. C93_life: the events of each compiler. C93_order, C93_created, C93_alive, C93_ended, C93_deleted: their order. C93_leaks, C93_interrupted_leaks: exactly which compilers are deleted. C93_one_at_a_time, C93_one_at_a_time_interrupted, C93_all_at_once: how long compilers live. The whole sequence of events of a compile (which inputs can be begun, whether there is a target) is a parameter of the toolchain; what Clang does inside BeginSourceFile, Execute, EndSourceFile and the destructor is not modelled. An action whose BeginSourceFile fails is leaked by the code; actions are not separate objects of the model.*
  Theorems: `C93_trace`, `C93_interrupted`, `C93_exists`, `C93_cut`, `C93_same`, `C93_life`, `C93_order`, `C93_created`, `C93_alive`, `C93_ended`, `C93_deleted`, `C93_leaks`, `C93_interrupted_leaks`, `C93_one_at_a_time`, `C93_all_at_once`, `C93_one_at_a_time_interrupted`.
* **C94 The shipped rules** (partial). The rules whose sources are in the repository have distinct names, identifiers and attribute names; identifiers are words of letters, names and categories plain text that disturbs no report format. Hence, whichever of them are loaded in whatever order: enabling or disabling some by identifier affects exactly these; an annotation against some silences exactly these; whether a violation can be read back from a report depends on its path and message only; every violation counts against exactly one of the three limits. Each rule is shown the declarations of a file exactly if it is meant for its language, kernels only to two rules. The default stated in the documentation of a threshold is the one used, and the documented source file is the one the rule is in. Names, priorities and categories are the ones the unit tests demand. *C94_distinct, C94_plain, C94_source, C94_select, C94_one, C94_suppress, C94_reports, C94_languages, C94_cuda, C94_useful, C94_defaults, C94_documented, C94_tested, C94_kinds: as stated. C94_identifiers, C94_attributes: the rules whose identifier is not the name of their source file, and those whose attribute name is not their name. That every violation counts against a limit is false: branch divergence has priority 10, so no number of its violations exceeds a limit (C94_unlimited_witness); C94_counted_partial is the statement for the other rules. The catalogue was copied from the sources by a script; that it was copied correctly is part of the trusted base. The thresholds MAXIMUM_IF_LENGTH, RAII_DEFAULT_CLASSES and RAII_CUSTOM_CLASSES have no documented default. One of the rules, feature envy, is not built (C118); the theorems are about any of the rules being loaded.*
  Theorems: `C94_distinct`, `C94_plain`, `C94_source`, `C94_kinds`, `C94_tested`, `C94_identifiers`, `C94_attributes`, `C94_select`, `C94_one`, `C94_suppress`, `C94_counted_partial`, `C94_unlimited_witness`, `C94_reports`, `C94_languages`, `C94_cuda`, `C94_useful`, `C94_defaults`, `C94_documented`.
* **C95 Names of scaffolded rules** (proved). scaffoldRule without --name makes up a name whose identifier is the class name exactly if the class name is a capital letter followed by letters only (or empty). Then the rule is enabled and disabled by its class name, and the documentation links to the file that was written. A class name of capitalised words gives the words with small first letters, separated by spaces, for rules and for reporters; a name that is given is kept. *C95_witness: a class name with a small first letter loses it in the name.*
  Theorems: `C95_identifier_iff`, `C95_selected`, `C95_link`, `C95_words`, `C95_given`, `C95_witness`.
* **C96 Filling in templates** (proved). For values without braces, the source and the test of a scaffolded rule are the templates with exactly the wildcards replaced by their values, though replaced one after the other and line by line. The block of nodes has, for each line of the two lists of nodes in order that matches def (.+) :, the code for the node that the leftmost, greedy match captures (with Decl appended for declarations), and nothing for other lines. *C96_witness shows why braces are excluded: a value with a wildcard in it is expanded again.*
  Theorems: `C96_rule`, `C96_visits`, `C96_visits_unique`, `C96_captures`, `C96_witness`.
* **C97 Files of scaffolded rules** (proved). In a checkout in which no directory is in the place of a file or vice versa, any sequence of calls of scaffoldRule succeeds. Afterwards every class has the source its last request asks for, and the test of its last request with tests; the list of every category has all build steps in order behind what it had; every category that had no list is added to the list of categories exactly once, in order; all other files are as before and only the directories of the categories are new. On any disk, and even if it fails, the script overwrites nothing but the sources of the class it is asked for. *C97_again: asking twice lists the rule twice and overwrites its source without a warning (scaffoldReporter refuses to, see C98).*
  Theorems: `C97_run`, `C97_sequence`, `C97_kept`, `C97_again`.
* **C98 Files of scaffolded reporters** (proved). scaffoldReporter writes a reporter and (unless --no-tests) its test from the templates and appends one build step for each to the two lists, if neither file is there. Otherwise it prints one line for each that is there and changes nothing. On any disk, for any class name and even if it fails, no file that was there loses anything, and only the two lists can get more.
  Theorems: `C98_run`, `C98_refused`, `C98_kept`.
* **C99 Where the program looks for its parts** (partial). The directory that oclint takes for its own is an absolute path to the directory of the program that the system started, whether the command has a slash or is looked for in PATH and whatever the working directory is; if no directory of PATH has it, it is the working directory. Without -R, rules are looked for in lib/oclint/rules beside the directory of the program, reporters in lib/oclint/reporters, and the first configuration file is etc/oclint. The bundle script puts the program and its links, rules and reporters in these places, so a program of a bundle finds the rules and reporters of its bundle, also after the bundle was moved. *C99_directory_partial and C99_bundle_partial exclude empty entries in PATH, which mean the working directory to the system but are skipped by LLVM's search; C99_empty_entry_witness: the program can then take the directory of another one for its own. C99_not_found, C99_absolute, C99_parts, C99_layout, C99_programs, C99_where: as stated, no such exclusion. C99_link_witness: the place is that of the name the program was started by; started through a link from another directory it does not find the rules of the installation that the link leads to. LLVM's path functions are modelled from their documented behaviour; a directory that is itself a link is excluded by the meaning of `place`.*
  Theorems: `C99_directory_partial`, `C99_not_found`, `C99_absolute`, `C99_parts`, `C99_layout`, `C99_programs`, `C99_where`, `C99_bundle_partial`, `C99_link_witness`, `C99_empty_entry_witness`.
* **C100 From long lines to the exit code** (proved). oclint -rule LongLine -rc LONG_LINE=t, with nothing about rules in the configuration files, on different files that compile without errors and with reporting succeeding, exits with the code for exceeded thresholds if the files together have more lines longer than t characters than -max-priority-3 allows, not counting lines silenced by a comment or by the range of a declaration, and with 0 otherwise. The violations are, in the order of the files and of the lines, one per such line with its number and length; it does not matter whether files are analysed together and whether duplicates are allowed. The last -rc argument for a key decides its value against earlier ones and all configuration files. *C100_command_line is the whole statement. C100_findings (the violations), C100_exit (the exit code), C100_threshold (the last -rc argument decides, for any key and number), C100_selected (enabling one rule runs it alone) are its parts and are more general. The priority of the rule (3) is a hypothesis here and a theorem for the shipped rule in C94. Negative thresholds for priorities 1 and 2 are excluded; see C18 for those.*
  Theorems: `C100_findings`, `C100_exit`, `C100_threshold`, `C100_selected`, `C100_command_line`.
* **C101 Declarations repeated in a file** (partial). The size rules report a function at most once, and at its definition. (False for the NPath, NCSS, long method and too many parameters rules: they look at a value that all declarations of a function share, so that in a file each declaration of a function above the limit is reported with the same text, prototypes included, except that the long method rule leaves out declarations of C++ methods inside their class. Every @class of a class with too many instance variables is reported likewise. True for the cyclomatic complexity, with a limit of at least one and default arguments that do not branch, and for long C++ methods declared in their class. A function with no body is not reported.) *At most once, at the definition: proved for cyclomatic complexity and for C++ methods declared in their class (C101_once_partial), refuted in general by C101_once_witness. C101_every_declaration says which declarations are reported.*
  Theorems: `C101_every_declaration`, `C101_prototype_only`, `C101_cyclomatic`, `C101_once_partial`, `C101_once_witness`, `C101_forward_classes`, `C101_forward_class_length`.
* **C102 From the run to the report** (proved). If the rules load, the reporter is found, the analysis ends and the destination can be opened, then a run with any of the six shipped reporters ends with exit code 0, 5 or 6, and the report, on standard output or in the file of -o, reads back as exactly the results of the analysis, provided that paths, messages and rule names have no characters that are special in the chosen format. Conversely, exit code 0, 5 or 6 means that the report of the chosen format was handed to that destination. For oclint -rule LongLine the report lists exactly the too long lines of the files; then only the paths of the files (and, where diagnostics are reported, their texts) need to be free of special characters. *C102_delivered and C102_only are the two directions, C102_json/xml/pmd/xcode/text/html say how each report reads back, under the conditions of C55 on the texts (they cannot be dropped, see the C55 witnesses). C102_long_lines and C102_long_lines_json … _html are the runs of the long line rule with the shipped catalogue. Writing is taken to succeed here; C103 says what happens if not.*
  Theorems: `C102_delivered`, `C102_only`, `C102_json`, `C102_xml`, `C102_pmd`, `C102_xcode`, `C102_text`, `C102_html`, `C102_long_lines`, `C102_long_lines_json`, `C102_long_lines_xml`, `C102_long_lines_pmd`, `C102_long_lines_xcode`, `C102_long_lines_text`, `C102_long_lines_html`.
* **C103 Reports that could not be written** (partial). If oclint exits with 0, 5 or 6, the whole report is in its place. (False: the program never looks at the state of a stream after writing. When the disk or the reader of standard output takes only the first n characters, exactly these n arrive, nothing is said about it, and exit code and messages are the same as with enough room. True when there is room for everything.) *The property is false of the code: C103_witness has a run with exit code 0 and no message that leaves the first twelve characters of a report. C103_complete_partial proves it when there is room. C103_devices says what arrives in general and C103_exit that the exit code does not depend on it. llvm::outs() (the version and usage texts) is not part of this.*
  Theorems: `C103_devices`, `C103_exit`, `C103_complete_partial`, `C103_witness`.
* **C104 What the rules find is what is counted, rule by rule** (proved). Take a run in which every file compiles far enough to be looked at, with any number of rules that walk the syntax tree and report nodes, together with the long line rule. What is collected is, file by file and in each file rule by rule in the order of the identifiers, exactly what each rule finds in the declarations of the main file that it is shown (none if the rule does not support the language; in CUDA sources only the functions it asks for), leaving out findings on no node, findings on or inside a declaration annotated for the rule or for all rules, findings that begin on a line with a suppressing comment, and findings in no file. The exit code follows from these and the limits alone. Rules do not disturb each other: switching other rules on or off changes nothing in what is reported for a rule, in spite of the state that rules keep between files and the cached answers about suppression. Conversely nothing is left out silently: if the analysis ends without an exception, every running rule was set up for every file that compiles and went through all declarations it is to be shown. *C104_collected gives the collected sets of a whole run; C104_findings the lists handed to the reporter; C104_exit the exit code; C104_by_rule and C104_independent say that the reports of a rule do not depend on the other rules. A rule is any traversal of the shown declarations with its own memory. The hypothesis Steady (a rule finds the same in a file whatever it looked at before) is part of the property; the shipped rules set their members in setUp, except the stack of the short variable name rule, which survives between files (C60_stale_stack_witness). C104_nothing_left_out: whoever ends without an exception has looked at everything.*
  Theorems: `C104_nothing_left_out`, `C104_collected`, `C104_findings`, `C104_exit`, `C104_by_rule`, `C104_independent`.
* **C105 The version that is stated** (partial). Every report, except in Xcode's format, which has no place for it, states the version of the program, whatever was found, and so does -version; it is the version in the name of the program that is built and bundled. Both links of a bundle point to that program and no two names are the same. (False: the program is built as oclint-26.02 and every report states 24.11.) *C105_reports_state_partial (every report states 24.11), C105_unique, C105_version_option, C105_links: as stated. That the stated version is the one the program is built as is false: C105_release_witness shows it for every report.*
  Theorems: `C105_reports_state_partial`, `C105_unique`, `C105_version_option`, `C105_release_witness`, `C105_links`.
* **C106 Limits, from the settings to the exit code** (proved). The ten rules with a size limit have the limits that the configuration files and -rc set for them, the last one winning, or their documented defaults. In a run of any of these rules in which every file compiles, what is reported is, file by file and rule by rule, one violation with the measured value and the limit for each construct of the shown declarations whose measure is above the limit and which is not suppressed, and nothing else; the exit code is 0 if no more than -max-priority-1, -2 and -3 of priorities as documented are reported, else 5 (6 if a file has errors). Raising limits never adds a report, so a run without duplicates that succeeds still succeeds. (Limits of zero or more for the parameters of a method and the length of names; C38 says what negative ones do.) A run that ends in a report has visited every construct of every file with every such rule; a name that the name rule cannot shorten therefore never ends in exit code 0, 4, 5 or 6. *C106_settings: from the configuration files and -rc to the limit; C106_classes: names and priorities; C106_unit, C106_findings_unique: what a rule finds in a file; C106_reports and C106_exit: what is collected and the exit code; C106_fewer and C106_raise: higher limits. The constructs the traversal of a declaration comes by are a parameter (Clang's traversal). C106_abbreviated_witness shows why duplicates are excluded in C106_raise: messages about two variables can be the same with a limit and differ with a higher one. C106_nothing_left_out and C106_name_that_ends_the_run: what a run that ends in a report has visited.*
  Theorems: `C106_classes`, `C106_unit`, `C106_findings_unique`, `C106_settings`, `C106_reports`, `C106_exit`, `C106_fewer`, `C106_raise`, `C106_abbreviated_witness`, `C106_nothing_left_out`, `C106_name_that_ends_the_run`.
* **C107 The report of a run is what the rules found** (proved). In a run of shipped rules in which every file compiles, the text that arrives on the screen or in the output file, read by a parser of its format, states exactly the findings that are not silenced, in the order of the files and, within a file, of the rules - each once unless duplicates are asked for -, with the diagnostics of the compiler and of clang's static analyzer where the format lists them, and with the numbers of files, of files with violations and of violations of each priority. This holds for the formats JSON, XML, PMD, Xcode, text and HTML as long as paths and messages avoid the characters that the format does not escape (C55). Messages about size limits always do when variables have plain names, so for these rules nothing is asked of the messages. *C107_told: what reaches the reporters. C107_json, C107_xml, C107_pmd, C107_xcode, C107_text, C107_html: the report read back, for any shipped rules. C107_limit_messages: messages about limits can stand in every report. C107_limits_xcode, C107_limits_json: runs of rules with limits, nothing assumed of the messages. That every file compiles, that the reporters are the shipped ones and that the destination opens are assumed, as in C102 and C104.*
  Theorems: `C107_told`, `C107_json`, `C107_xml`, `C107_pmd`, `C107_xcode`, `C107_text`, `C107_html`, `C107_limit_messages`, `C107_limits_xcode`, `C107_limits_json`.
* **C108 Building, testing and checking the project itself** (partial). The script `build` prepares every part of the project with CMake and builds it in a directory of its own, a part only after everything it is built on; `test` does so in test directories and then runs the tests of the part; `dogFooding` has CMake list how the part is compiled and checks it with the program that was built; `ci` calls these scripts. Each stops at the first command that fails and ends with its code, so exit status 0 means that everything that was planned was run and succeeded - for `test` that the tests of every part passed, for `dogFooding` that no violation was found in any part. The scripts write to no directories but their own, and each command reaches CMake with the words that were meant. *Everything but the last clause holds for every machine, every option and every directory (C108_build, C108_test, C108_dogfooding, C108_ci and, step by step, C108_..._steps; C108_..._green and C108_good for the exit status; C108_dependencies and C108_directories for order and directories). The last clause is false of the code: paths are put into commands without quotes, so with a space in the name of the project's directory CMake gets other words (C108_words_witness); C108_words_partial has it for `build` when the names have no spaces. `ci -release` ends with status 0 without having called any test (C108_release_untested). Exit statuses are assumed to be below 256 and signals to be negative, as the system reports them. A script that another one starts is a command like any other.*
  Theorems: `C108_build`, `C108_test`, `C108_dogfooding`, `C108_ci`, `C108_build_steps`, `C108_test_steps`, `C108_dogfooding_steps`, `C108_ci_steps`, `C108_build_green`, `C108_test_green`, `C108_dogfooding_green`, `C108_ci_green`, `C108_good`, `C108_dependencies`, `C108_directories`, `C108_words_partial`, `C108_words_witness`, `C108_release_untested`.
* **C109 A release is what was built** (proved). When `bundle` succeeds, the directory of the release has the driver's programs and the links to it, the rules, the reporters, the compiler's headers, the helper programs that are there, the C++ headers on Intel Macs and a licence made of OCLint's and the first 44 lines of LLVM's - each exactly as it was built or installed, and nothing else, whatever an older release left; nothing else on the disk changes. It succeeds exactly if these sources are there and no name is taken. A program started from the release finds exactly the rules and reporters that were built. With -archive the release is moved to a directory named after the version and packed under that name, exactly as it is; a second release of the same version fails instead of being mixed with the first, while without -archive a second run gives the same disk. *For disks without links in the directories that are copied, and without permissions; LLVM has to be apart from the release (the default is).*
  Theorems: `C109_bundle`, `C109_ready`, `C109_archive`, `C109_again`, `C109_archive_again`, `C109_found`.
* **C110 Setting up LLVM leaves what is needed** (partial). `clang` downloads the LLVM of this machine into one directory and unpacks it into another, both of which exist by then and, with `-clean`, are empty before. Converting a static library loses no member and changes none except into native code, and a library that cannot be unpacked or packed stays as it was. On macOS exactly the libraries `libc++*` and `libunwind*` and the headers in `include/c++` and `include/<platform of Apple>/c++` are taken away, elsewhere nothing. What is left is what `bundle` needs to make a release. *C110_script, C110_removed, C110_removable and C110_llc hold of every machine and disk. Three clauses are false of the code, each with a witness. A Mac with an Intel processor gets LLVM for ARM (C110_address_witness; C110_address_partial has every other machine). Of two members of a library that have the same name the first one is lost when the second one is converted (C110_library_witness); C110_library says exactly what a library has afterwards, and C110_library_partial that nothing is lost when the names differ and end in `.o`. On a Mac with an Intel processor `bundle` always fails after `clang`, whatever is built in between, because `clang` has removed the headers that `bundle` copies (C110_release_witness); C110_release_partial has that everywhere else, and for `-docgen`, what is removed makes no difference to a release. The download, the unpacking, `ar` and `llc` are parameters; links to directories are left out.*
  Theorems: `C110_address`, `C110_address_partial`, `C110_address_witness`, `C110_llc`, `C110_library`, `C110_library_partial`, `C110_library_witness`, `C110_removed`, `C110_removable`, `C110_script`, `C110_release_partial`, `C110_no_headers`, `C110_release_witness`.
* **C111 Scripts that call other scripts stop at the first failure** (partial). `googleTest` fetches, updates and builds GoogleTest in the place where the tests look for it. `docGen`, `make`, `makeWithSystemLLVM` and `gh-actions` call the other scripts in a fixed order, end with the status of the first one that fails, and start nothing after it. A job that tests a part of the project is called with exactly the parts it is built on; there is one job for each part, and if it ends with status 0 then LLVM was set up, GoogleTest was fetched and built, what the part is built on was built, and the tests of the part were run and passed. `makeWithSystemLLVM` refuses a path at which there is nothing, and otherwise builds a release with the LLVM at that path. *C111_googletest, C111_docgen, C111_make, C111_gh_actions and C111_system_llvm say exactly what the scripts do on any machine with any arguments, C111_workflow and C111_workflow_green what the jobs do. One clause is false of the code: `makeWithSystemLLVM` uses the path without quotes, so an empty path and a path with a blank pass the check although nothing is there, and the second word is taken for the name of a part (C111_system_llvm_witness); C111_system_llvm_partial has the clause for paths without blanks that are not empty. C111_tests_green assumes codes as systems report them: an exit status, or the negated number of a signal. A second run of a job on the same machine always fails, since `googleTest co` does (C111_second_run). Words that may be options are taken as `argparse` takes them (C120). Names of files are not expanded.*
  Theorems: `C111_fields`, `C111_googletest`, `C111_docgen`, `C111_make`, `C111_make_total`, `C111_gh_actions`, `C111_gh_actions_total`, `C111_system_llvm_refused`, `C111_system_llvm`, `C111_system_llvm_total`, `C111_system_llvm_partial`, `C111_tests_green`, `C111_workflow`, `C111_workflow_green`, `C111_second_run`, `C111_gtest_found`, `C111_system_llvm_witness`.
* **C112 Reports of a rule come in source order and none twice** (proved). A rule that looks at one statement at a time reports what it is made for in the order in which the source is traversed, a statement before what is nested in it, and for each statement that calls for a report there is exactly one. Where a statement calls for several (instance variables on the left of an assignment, parameters assigned to, labels in a switch, exits of a finally block) each comes once and in source order; a CUDA source is gone through declaration by declaration. *One theorem for each rule over syntax trees; C112_one_outcome shows that the specification leaves no choice. Rules whose reports go through other data (metrics, names, unused declarations) are covered by their own count theorems.*
  Theorems: `C112_one_outcome`, `C112_dead_code`, `C112_collapsible_if`, `C112_for_while`, `C112_redundant_if`, `C112_redundant_conditional`, `C112_inverted_logic`, `C112_broken_oddness`, `C112_double_negative`, `C112_multiple_unary`, `C112_constant_if`, `C112_constant_conditional`, `C112_covered_switch`, `C112_missing_default`, `C112_empty_catch`, `C112_empty_do`, `C112_empty_else`, `C112_empty_finally`, `C112_empty_for`, `C112_empty_if`, `C112_empty_switch`, `C112_empty_try`, `C112_empty_while`, `C112_jumbled_incrementer`, `C112_broken_null`, `C112_broken_nil`, `C112_misplaced_null`, `C112_misplaced_nil`, `C112_redundant_nil`, `C112_bitwise`, `C112_branching_last`, `C112_null_check_dealloc`, `C112_useless_parens`, `C112_redundant_local`, `C112_early_exit`, `C112_goto`, `C112_too_few`, `C112_early_exit_rule`, `C112_reassignment`, `C112_ivars`, `C112_divergence`.
* **C113 The order of the sources does not matter, and parts can be analysed apart** (proved). When the directories of the compile commands are absolute and no rule remembers one file when it looks at the next, giving the sources in another order gives the same violations, warnings, errors and analyzer bugs, in another order, and the same exit code. Analysing two parts of the sources in two runs gives, one after the other, exactly what one run over all of them gives, in every channel. A run over some of the sources succeeds if the run over all of them does. None of this holds of relative compile directories, since the program does not go back after a compile. *Over the runs of C104 (rules of the tree and the long line rule, everything compiles). Settled says what absolute directories give: chdir does not depend on where one stands. C113_relative_directory is a run in which a relative directory makes the exit code depend on the order of the sources.*
  Theorems: `C113_reordered`, `C113_fewer`, `C113_split`, `C113_same_answers`, `C113_exit_order`, `C113_exit_fewer`, `C113_relative_directory`.
* **C114 From the command line and the configuration files to the exit code** (proved). Which exit code the program ends with is determined by the command line, the three configuration files and what the plugins, clang and the reporter do, as follows. Rule plugins are looked for in the directories of the command line and the files, or in the installation's; 1 if one does not open or there is no rule. The reporter is the first plugin of the installation with the effective name; 2 if there is none. Every job of the sources is compiled where the one before left and looked at by the rules that the requests select, and with the effective switch clang's static analyzer runs afterwards; 3 if that stops. 4 if the effective output has no name or does not open, or the reporter throws; 6 if there is a compiler error; 5 if there are more violations of a priority, counted once unless duplicates are allowed, than the effective limit; otherwise 0. A command line that is not accepted gives 7. If a configuration file that is consulted has a text, the program reads freed memory instead, whatever the command line. The program always ends if compile commands are not empty (and have an argument when the static analyzer runs), reporter plugins can create a reporter, and rules and reporters do not have undefined behaviour themselves. *The exit code is stated in terms of the command line and the configuration files only: no function of the model and no option state occurs in Spec/Program.lean. C114_exit_code needs that no consulted file has a text, C114_undefined says what happens otherwise, C114_ends under which conditions on plugins, rules and commands the program ends at all.*
  Theorems: `C114_texts_kept`, `C114_exit_code`, `C114_undefined`, `C114_rejected`, `C114_unique`, `C114_ends`.
* **C115 The script in the HTML report sorts the table when a heading is clicked** (proved). The text between `<script>` and `</script>` of the HTML report is a JavaScript function `sortTable` of one parameter. Run by the rules of the language on a page whose table `violations-table` has one row of headings, it ends and only moves the rows of the body: they are ascending in the given column afterwards, descending if they were ascending before, and equal rows stay in order. If one of the first two rows lacks the column, or the page has no such table, it ends with a TypeError. In a report whose texts have no markup, the table has one row per violation, error, warning and finding, and each of the six headings calls the function with the number of its own column.
  Theorems: `C115_script_is_model`, `C115_click_sorts`, `C115_click_missing_cell`, `C115_click_no_table`, `C115_report_click`.
* **C116 From the words of the command line to the settings and the exit status** (proved). Every list of words on the command line can be read in exactly one way as sources, options with texts, requests to print something, and mistakes. The program prints help or its version and ends with 0 if such a request is read, whatever mistakes are before it. Otherwise it goes on exactly if nothing is a mistake, there is a source, no option that may be given once is given twice, and every limit is a number that fits `int` and every switch one of the nine texts for on and off; then each setting is what the words say. All other lines end with 7. The words after the first `--` are compiler arguments. Every combination of settings can be given, except sources that begin with a dash. *The reading of words is a relation (Spec/CommandLine.lean, WordsSay) that shares no function with the model; numbers and switches have specifications of their own. The reader itself is LLVM's, modelled from its documented behaviour; C116_exit_status needs the same conditions on the configuration files as C114.*
  Theorems: `C116_reading`, `C116_accepted`, `C116_printed`, `C116_rejected`, `C116_exit_status`, `C116_expressible`.
* **C117 The words of a compile command reach Clang in both passes** (partial). In both passes Clang's driver is given the words of the compile command in order, without those about output, temporary files, colours and modules, with -D__OCLINT__ as an option; the pass of Clang's checker has --analyze in place of the -fsyntax-only of the first pass and otherwise the same words, so it looks at the same source. This is not true of every command: the checker pass drops the last word whatever it is. If the command has a -fsyntax-only of its own before the source, or, with a Clang that inserts before it, a --, the source itself is dropped; after a -- the macro is read as a file; and any word that begins with -o counts as output. *False of the code (C117_witness). C117_adjusted: the adjusted words of every command, both directions. C117_passes: what each pass hands over, for every command. C117_checker_partial and C117_run_partial: the property for commands without -fsyntax-only and -- of their own. C117_checker_iff: exactly when the checker pass loses no word. C117_source_kept, C117_macro_partial: sources and macro. The two adjusters belong to Clang and are modelled from their documented behaviour; other theorems (C92) hold for arbitrary adjusters.*
  Theorems: `C117_adjusted`, `C117_passes`, `C117_checker_partial`, `C117_checker_iff`, `C117_source_kept`, `C117_macro_partial`, `C117_witness`, `C117_run_partial`.
* **C118 Which plug-ins are built** (partial). From the CMake lists of the repository, one plug-in is built for every source of a rule and of a reporter, under the name of the source, and nothing else. After any sequence of calls of scaffoldRule in a tree that can be built, everything can be built: what was built before, and one plug-in for each request. The same holds for scaffoldReporter and the requests it does not refuse. Two of these sentences are not true: the line of FeatureEnvyRule.cpp is commented out, so that this one source is not built; and scaffoldRule accepts a class name that another rule has, in the same or in another category, after which nothing can be built any more. *C118_built_partial: one plug-in for every rule source other than FeatureEnvyRule.cpp; C118_witness: that one is in the tree and is not built. C118_scaffolded: after any requests, the tree can be built exactly if the class names are new and distinct, whatever their categories (and none is OCLintAbstract, whose target is taken); the examples beside it have two requests for one name, and a category that is in the list of categories but has no list of its own: both end in a tree that cannot be built. C118_reporters: scaffoldReporter, without exception. C118_reporters_built: the six reporters. Class names CACHE and PARENT_SCOPE, which mean something to SET, are excluded. Constructs of CMake other than those in the lists count as errors.*
  Theorems: `C118_scaffolded`, `C118_built_partial`, `C118_witness`, `C118_reporters`, `C118_reporters_built`.
* **C119 Which tests are built** (proved). From the CMake lists of the repository the programs of tests that are built have the canary and every source of a test below oclint-rules/test, each exactly once, and no others; without CUDA the three that need it are left out. Every rule of the repository, also the one that is not built itself, has the source of a test of its name in the directory of its category, and it gets into a program. After any sequence of calls of scaffoldRule, with or without tests, in a tree whose tests can be built, the tests can be built exactly if no two requests for a test and no such request and a program that there was have one name; then what is built is what was built before and one program for each request for a test, with the source that was written for it. For reporters, the core, the metrics and the driver, one program is built for every source of a test that is in the repository. After any sequence of calls of scaffoldReporter, what is built is what was built before and one program for each request for a test that is not refused. *C119_built: the sources of all programs are a permutation of the canary and testSources, without cudaTests if there is no CUDA; C119_every_rule: the test of every shipped rule is among them; C119_scaffolded: both directions for all sequences of requests. C119_named_built: the reporters, the core, the metrics and the driver. C119_reporters: scaffoldReporter. The requests are those of C118 (letters, digits and underscores, no class CACHE or PARENT_SCOPE). The lists are taken line by line from the repository; constructs of CMake other than those in them count as errors, and variables that come from elsewhere count as empty, which matters only for linking.*
  Theorems: `C119_scaffolded`, `C119_built`, `C119_every_rule`, `C119_reporters`, `C119_named_built`.
* **C120 How the scripts read their command lines** (partial). Whatever build, test, dogFooding, ci, googleTest, bundle, clang, scaffoldRule and scaffoldReporter can be asked for can be said with their options in any order, and is then what the script is asked for. In general a line that says one thing after another asks for all of them in turn; it is refused exactly if one of them is not allowed, or the argument without a name is missing or given too often. Scripts that start other scripts are understood: the lines of docGen, gh-actions and makeWithSystemLLVM, the texts that ci makes with the number of jobs, and the words that make passes on, whatever they are. scaffoldRule and scaffoldReporter make nothing for a class that was not named. A word that begins with a dash and is no option, nor the beginning of one, is refused. The last sentence is not true: any word that begins with -n gives scaffoldRule and scaffoldReporter a name, so -no-test with one dash, the form that the other scripts allow, makes a rule with tests and the name o-test. *C120_read: every line that says one thing after another, with the values after a blank, after = or, for the argument without a name, after --; C120_any_order: if they do not contradict each other, in any order. C120_build, C120_test, C120_dog, C120_ci, C120_gtest, C120_bundle, C120_clang, C120_rule, C120_reporter: everything can be asked for; C120_defaults: what is asked for without options. C120_make, C120_calls, C120_gh, C120_system, C120_ci_calls: scripts that start others; C120_gh and C120_system are for words that do not begin with a dash (or are numbers); the scripts of C111 start others with their words, so that C111 says the rest. C120_rule_class, C120_reporter_class. C120_unknown_partial: words that are no option, nor the beginning of one, nor begin with an option of one letter are never accepted; C120_unknown_fails: -no-test is accepted by scaffoldRule; C120_glued: what such words do, for all of them. argparse itself is not part of the project; its model is part of the trusted base.*
  Theorems: `C120_read`, `C120_any_order`, `C120_build`, `C120_test`, `C120_dog`, `C120_ci`, `C120_gtest`, `C120_bundle`, `C120_clang`, `C120_rule`, `C120_reporter`, `C120_defaults`, `C120_flag_first`, `C120_make`, `C120_calls`, `C120_gh`, `C120_system`, `C120_ci_calls`, `C120_unknown_partial`, `C120_glued`, `C120_unknown_fails`, `C120_rule_class`, `C120_reporter_class`.
* **C121 A build is made with the options it is called with** (partial). After a call of `build` that succeeds, every part that was built is compiled for the documentation (with -DDOCGEN, which adds virtual functions to RuleBase) exactly if this call has -docgen, and optimized exactly if it has -release; so all parts agree on the class RuleBase. Whatever sequence of `build`, `test` and `dogFooding` was called, in whatever order and however the calls ended, a directory of `build` never has tests set up instead of plug-ins, and tests and checks are never compiled for the documentation nor optimized. The first sentence is not true without -clean: CMake remembers options, so what an earlier call asked for is still done; after `docGen`, `build -no-ninja` as `gh-actions` calls it compiles all parts but the reporters for the documentation. *C121_remembered: exactly what CMake works with after a call of build that succeeds, whatever was there before. C121_options: when a part is compiled for the documentation and when it is optimized, both directions; without -clean also because of earlier calls. C121_clean_partial: the first sentence for calls with -clean. C121_witness: docGen, then build as gh-actions calls it. C121_apart: the second sentence, for all sequences of calls. What CMake remembers is modelled from its documentation; generators are not, so the witness uses calls with the same one.*
  Theorems: `C121_remembered`, `C121_options`, `C121_clean_partial`, `C121_witness`, `C121_apart`.
* **C122 Every source is built, and what is built fits together** (proved). From the CMake lists of the repository, whatever else is on the disk and whatever CMake remembers, each part builds libraries in which every source in `lib` occurs exactly once; the driver also builds the program oclint-26.02 of main.cpp and the two loaders, and oclint-docgen of main_docgen.cpp and the loader of rules exactly if DOC_GEN_BUILD is set; no two targets have the same name and no source is left out but main_docgen.cpp. CMake goes on to the tests if TEST_BUILD is set and to the plug-ins otherwise, and to the plug-ins in every directory of `build` whatever scripts were called before. After a call of `build` that succeeds, libraries are looked for where the parts that a part is built on write theirs, every library of the project that a program is linked with is found there or built by the same part, and each program is linked with the driver, the rule set and the core in this order; after a call with -clean there is oclint-docgen exactly if the call has -docgen. A release that `bundle` makes has each program that is built, taken from where it is written, and the names that users start lead to a program that is built. *C122_built: the targets and the directories that CMake goes on to, for every disk and cache; C122_names: no two targets have one name, whatever the lists; C122_nothing_left: no source is left out; C122_plugins: with the sequences of calls of C121; C122_docgen: after build -clean; C122_linked: after any call of build that succeeds; C122_bundled: with bundle (C109), when no archive is made. The lists are taken line by line from the repository; constructs of CMake other than those in them count as errors. readProject has a bound on how deep lists lead to other lists, and the theorems are for every bound from three on, which is what the repository needs. Libraries of LLVM and of the system that come from variables are left out of what is linked.*
  Theorems: `C122_bundled`, `C122_built`, `C122_nothing_left`, `C122_names`, `C122_plugins`, `C122_docgen`, `C122_linked`.
* **C123 Archives that are packed are uploaded and do not replace each other** (proved). The upload step that the workflows for builds, for the documentation and for releases share copies exactly the files below `build` whose names begin with oclint- and end with .tar.gz. The archive of every run of `bundle -archive` that succeeds, and the archive that docGen makes, are among them. Archives that are made of one commit on two machines have the same name exactly if both or none are releases and the machines have the same architecture, system and release of the system up to capital letters; so no job of a workflow replaces the archive of a job on another sort of machine; and archives of two commits whose names have no dashes have the same name only if both are releases. *C123_pattern: what is uploaded; C123_uploaded and C123_docs: archives are; C123_apart: names of archives on two machines; C123_commits: also of two commits. With dashes in the name of an architecture two sorts of machines could have one name (example beside the theorem). The filters of aws s3 cp are modelled from their documentation, with * as the only special character. C123_docs is about the name that docGen:11 has in its text; that docGen makes the file is left to tar.*
  Theorems: `C123_pattern`, `C123_uploaded`, `C123_apart`, `C123_commits`, `C123_docs`.
