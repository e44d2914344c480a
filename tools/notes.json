{
 "C05": {
  "note": "The general equality with distinct paths is refuted by C05_undercount_witness, as the statement says."
 },
 "C16": {
  "status": "partial",
  "note": "Resolution against the real working directory is proved for directories shorter than 300 bytes; C16_long_cwd_witness refutes it for longer ones (fixed getcwd buffer). Like C13 it presupposes that option processing is defined (C68)."
 },
 "C29": {
  "status": "partial",
  "note": "The maps live in the library of the rule (static helper library), so rules of different libraries do not disturb each other: C29_libraries, and C29_one_rule_per_library for the shipped layout. For rules of the same library independence is proved when all calls for a path name the same rule; the general claim is refuted by C29_leak_witness (the range map is keyed by path only). C29_answer_exact states the answer in every history."
 },
 "C26": {
  "note": "C26_header_witness and C26_stale_witness show the header and stale-path behaviour."
 },
 "C35": {
  "status": "partial",
  "note": "Proved when every switch body starts with a label and for the control structures the metric knows; C35_hides_witness, C35_try_witness, C35_overflow_witness and C35_hidden_overflow_witness refute it otherwise."
 },
 "C38": {
  "status": "partial",
  "note": "C38_exact_partial, C38_total_partial and C38_raise_partial hold for all limits of eight rules, and for limits that are not negative for parameter counts and name lengths. For negative limits the statement is false: the parameter rule is then silent (C38_negative_parameters_witness) and the name rule can throw (C38_negative_name_witness); C38_names describes the name rule for every limit."
 },
 "C60": {
  "note": "Witness theorems refute the exemption of every loop variable, as the statement says. C60_exact: which variables are reported, both directions, for every leftover state."
 },
 "C55": {
  "status": "partial",
  "note": "Every format reads back for texts without the characters that are special in it, and for every format this is the exact condition: C55_json_exact, C55_xml_exact, C55_pmd_exact, C55_html_exact, C55_text_exact and C55_xcode_exact say that a report reads back as what it is about if and only if its texts are free of those characters (JsonClean, XmlClean, PmdClean, HtmlClean, LineClean, DiagClean). The unrestricted claim is refuted: C55_json_ambiguous_witness and C55_xcode_ambiguous_witness give different results with the same report. C55_html_head reads the style sheet and the script in the head of the HTML page."
 },
 "C56": {
  "status": "partial",
  "note": "Well formed for texts without special characters (PMD: whatever the messages are). Refuted otherwise by C56_json_witness, C56_xml_witness and C56_pmd_witness: JSON and XML texts and PMD paths are written unescaped."
 },
 "C57": {
  "status": "partial",
  "note": "Refuted for XML: C57_datetime_partial shows the date is right except that the month is one too small for every moment in years 0-9999, C57_never_calendar that it is never right. The JSON time stamp is right exactly for 32-bit times. HTML prints ctime text as given."
 },
 "C58": {
  "status": "partial",
  "note": "Proved for the text, JSON, XML and HTML reports as read back, when all priorities are 1, 2 or 3 and the texts have no characters that are special in the format: C58_text_totals_partial, C58_json_totals_partial, C58_xml_totals_partial, C58_html_totals_partial (for HTML also the totals of errors, warnings and checker findings). C58_other_priority_witness refutes it otherwise. PMD and Xcode reports state no totals. C58_no_rule_ub: violations without rule."
 },
 "C59": {
  "note": "For every strict weak order of texts; C59_location_witness shows that places are sorted as texts, not as numbers."
 },
 "C39": {
  "status": "partial",
  "note": "Proved when neither the reported statement nor the one before it can be jumped into (leading case/default labels are allowed). C39_label_witness refutes it otherwise: a label inside the reported block makes it reachable."
 },
 "C40": {
  "note": "AlwaysExits is the syntactic notion."
 },
 "C41": {
  "status": "partial",
  "note": "Proved when the inner if has no declaration or init statement in its condition; C41_inner_init_witness refutes it otherwise."
 },
 "C43": {
  "status": "partial",
  "note": "What is reported is characterised exactly (C43_reports_exactly). The advice is proved when the then branches contain no labels; C43_label_witness refutes it otherwise."
 },
 "C44": {
  "status": "partial",
  "note": "Reports are characterised exactly. The advice is proved for opposite returned constants, for assignments to one variable, and for conditional operators; casts keep only the truth value. C44_operator_witness, C44_variable_witness and C44_cast_witness refute the general claim."
 },
 "C45": {
  "note": "No label may be in both branches, which C guarantees."
 },
 "C46": {
  "note": "Values are 32 bit two's complement integers with C's remainder; the operand must have a value (no overflow, no division by zero in it)."
 },
 "C48": {
  "note": "Clang's EvaluateAsBooleanCondition is a parameter; its soundness (Evaluator) is a hypothesis, shown satisfiable by foldLogic_evaluator."
 },
 "C49": {
  "status": "partial",
  "note": "False as stated for default labels: Clang adds a default label to the list the rule walks only after the statement behind it, so `default: case 1: f();` is not reported (C49_default_not_last_witness). C49_default_not_last_partial: in a switch with one default label, it is reported exactly if there is a label behind its statement; C49_default_only, C49_default_once: nothing else is. The other clauses are proved in full. C49_missing_break_witness shows that the syntactic notion of a break is neither sound nor complete for falling through. A section that runs into the next label is reported twice."
 },
 "C51": {
  "note": "C51_misses shows the cases not covered."
 },
 "C52": {
  "status": "partial",
  "note": "Reports are characterised exactly for all five rules. That a broken check dereferences null is proved for uses not guarded by a further condition; C52_guarded_witness refutes it otherwise. Variables are identified by name, as in the code (C52_name_witness)."
 },
 "C53": {
  "note": "For every iteration order of the unordered_map. 'Calls' are messages, instance variable uses and property uses of Objective-C methods. The rule is in the source tree and has unit tests, but is not built (C118)."
 },
 "C66": {
  "status": "partial",
  "note": "Reports are characterised exactly, for whatever comparison of expressions. The advice is proved when asking has no effect and there is no init statement; C66_effect_witness refutes it otherwise."
 },
 "C67": {
  "status": "partial",
  "note": "Proved when the other operand is the message itself, without arguments; C67_witness refutes it otherwise."
 },
 "C13": {
  "status": "partial",
  "note": "Proved for configuration files whose texts stay readable. The code frees them first: C68_options_undefined refutes the property for every consulted file with a text entry, C68_options_defined links this model to the code otherwise."
 },
 "C14": {
  "status": "partial",
  "note": "Proved for configuration files whose texts stay readable. The code frees them first: C68_options_undefined refutes the property for every consulted file with a text entry, C68_options_defined links this model to the code otherwise."
 },
 "C17": {
  "status": "partial",
  "note": "Exit codes are characterised exactly whenever option processing is defined. That the program always exits holds only if no consulted configuration file has a text entry (C68)."
 },
 "C68": {
  "note": "Exact condition for undefined behaviour. From LLVM it is taken that a StringRef filled by the YAML reader points into the file buffer or the reader's allocator."
 },
 "C70": {
  "note": "The advice is proved for variables whose stored value is what reading returns and for observations that do not depend on the variable."
 },
 "C71": {
  "note": "Trees have no positions; the lines of a statement are a function of it. The rewriting is proved for the semantics in Model/Semantics; an indirect goto must not end normally."
 },
 "C72": {
  "status": "partial",
  "note": "C72_no_shadowing_partial proves the statement if no other variable has the name of a parameter; C72_shadowing refutes it otherwise. What is reported is characterised exactly in C72_by_name."
 },
 "C73": {
  "note": "Classes are trees of what the rule reads of clang's records."
 },
 "C75": {
  "note": "Clang's matchers are modelled by predicates."
 },
 "C77": {
  "note": "C77_called_witness: a class inside a class template is called by the template, a pointer to a guard like the guard. Whether a variable is used is an input (clang's isUsed, isReferenced)."
 },
 "C78": {
  "status": "partial",
  "note": "Reports are characterised exactly (C78_exact). The intended statement is proved outside of classes and class methods (C78_proper_partial) and refuted otherwise (C78_witness)."
 },
 "C80": {
  "status": "partial",
  "note": "Reports are characterised exactly (C80_exact). The intended statement is proved for definitions of instance methods and refuted otherwise (C80_witness)."
 },
 "C82": {
  "status": "partial",
  "note": "Proved when the receiver's class is the method's class (C82_same_class_partial) and in one direction always (C82_complete); refuted otherwise (C82_witness, C82_undefined)."
 },
 "C83": {
  "status": "proved",
  "note": "The annotation is looked for as in C28. C83_witness shows the limits to the direct superclass and to its @interface; C83_chain what silence about a whole chain of classes means."
 },
 "C84": {
  "status": "partial",
  "note": "Reports are characterised exactly (C84_exact). Proved when left hand sides have no other instance variable; refuted otherwise (C84_witness). Which node refers to which instance variable is a parameter."
 },
 "C86": {
  "status": "partial",
  "note": "Reports are characterised exactly (C86_exact). That boxing sends the same message is proved except for numberWithBool:, where C86_bool_witness refutes it."
 },
 "C88": {
  "note": "The visitor does not look at other receivers, e.g. calls."
 },
 "C89": {
  "status": "proved",
  "note": "C89_console: output, errors, log and files exactly as specified, both directions. C89_exit: same exit code as the model of C17. C89_complaint, C89_report and C89_quiet: consequences by exit code. C89_rejected: a command line Clang does not accept. The texts of a reporter, of dlerror(), of LLVM about configuration files and of a command line error are parameters; a reporter that throws is taken to have written its text before. How the log (llvm::outs) mixes with standard output is not modelled, nor what rules and Clang's front end write themselves. Depends on C68 as C17 does: configuration texts are taken to stay readable."
 },
 "C90": {
  "status": "proved",
  "note": "C90_exactly: a document is read as a configuration iff it is the one described, for all shapes including broken ones. C90_unknown: unknown keys. C90_stops_reading: a mistake in the first key loses all others. Parsing of YAML text and of numbers (getAsSignedInteger) are parameters; the behaviour of llvm::yaml::Input is an assumption listed at Model/ConfigYaml. What llvm::yaml::Input writes to standard error about a mistake is not modelled."
 },
 "C91": {
  "status": "proved",
  "note": "C91_docs: exit code, messages and all file contents; C91_cases: its cases exclude each other. C91_complete: no rule is lost or doubled. C91_unparsed: a command line that cannot be parsed is undefined behaviour (the code takes the value of a failed Expected). std::sort is any function that keeps its promise; clock and rule texts are parameters. Files are listed as they are opened: a category called index would name the index file a second time."
 },
 "C92": {
  "status": "proved",
  "note": "C92_completes and C92_stops: what a run writes and collects, both directions. C92_collects and C92_error: the same of the model without output, used by C17; C92_error_of_calm_rules: the case that no rule throws. C92_result: the two models agree. C92_unique: one result. C20_same_outcome: without a throwing rule both modes end alike, also when they stop; C20_message_witness: with one the messages may differ. Command lines too short for the code (no argument; with the checker fewer than two) are undefined behaviour in the model and excluded. Release build without the debug lines; the rules and Clang itself write nothing."
 },
 "C93": {
  "status": "proved",
  "note": "C93_trace (all rules return), C93_interrupted (one does not) and C93_exists: the events of every run, also of one that stops. C93_cut: an interrupted run is the beginning of an uninterrupted one. C93_same: they are the events of the run of C92. C93_life: the events of each compiler. C93_order, C93_created, C93_alive, C93_ended, C93_deleted: their order. C93_leaks, C93_interrupted_leaks: exactly which compilers are deleted. C93_one_at_a_time, C93_one_at_a_time_interrupted, C93_all_at_once: how long compilers live. The whole sequence of events of a compile (which inputs can be begun, whether there is a target) is a parameter of the toolchain; what Clang does inside BeginSourceFile, Execute, EndSourceFile and the destructor is not modelled. An action whose BeginSourceFile fails is leaked by the code; actions are not separate objects of the model."
 },
 "C94": {
  "status": "partial",
  "note": "C94_distinct, C94_plain, C94_source, C94_select, C94_one, C94_suppress, C94_reports, C94_languages, C94_cuda, C94_useful, C94_defaults, C94_documented, C94_tested, C94_kinds: as stated. C94_identifiers, C94_attributes: the rules whose identifier is not the name of their source file, and those whose attribute name is not their name. That every violation counts against a limit is false: branch divergence has priority 10, so no number of its violations exceeds a limit (C94_unlimited_witness); C94_counted_partial is the statement for the other rules. The catalogue was copied from the sources by a script; that it was copied correctly is part of the trusted base. The thresholds MAXIMUM_IF_LENGTH, RAII_DEFAULT_CLASSES and RAII_CUSTOM_CLASSES have no documented default. One of the rules, feature envy, is not built (C118); the theorems are about any of the rules being loaded."
 },
 "C95": {
  "note": "C95_witness: a class name with a small first letter loses it in the name."
 },
 "C96": {
  "note": "C96_witness shows why braces are excluded: a value with a wildcard in it is expanded again."
 },
 "C97": {
  "note": "C97_again: asking twice lists the rule twice and overwrites its source without a warning (scaffoldReporter refuses to, see C98)."
 },
 "C99": {
  "status": "partial",
  "note": "C99_directory_partial and C99_bundle_partial exclude empty entries in PATH, which mean the working directory to the system but are skipped by LLVM's search; C99_empty_entry_witness: the program can then take the directory of another one for its own. C99_not_found, C99_absolute, C99_parts, C99_layout, C99_programs, C99_where: as stated, no such exclusion. C99_link_witness: the place is that of the name the program was started by; started through a link from another directory it does not find the rules of the installation that the link leads to. LLVM's path functions are modelled from their documented behaviour; a directory that is itself a link is excluded by the meaning of `place`."
 },
 "C100": {
  "status": "proved",
  "note": "C100_command_line is the whole statement. C100_findings (the violations), C100_exit (the exit code), C100_threshold (the last -rc argument decides, for any key and number), C100_selected (enabling one rule runs it alone) are its parts and are more general. The priority of the rule (3) is a hypothesis here and a theorem for the shipped rule in C94. Negative thresholds for priorities 1 and 2 are excluded; see C18 for those."
 },
 "C101": {
  "status": "partial",
  "note": "At most once, at the definition: proved for cyclomatic complexity and for C++ methods declared in their class (C101_once_partial), refuted in general by C101_once_witness. C101_every_declaration says which declarations are reported."
 },
 "C08": {
  "note": "C08_every_text is the whole statement: what atoi does on every text."
 },
 "C102": {
  "status": "proved",
  "note": "C102_delivered and C102_only are the two directions, C102_json/xml/pmd/xcode/text/html say how each report reads back, under the conditions of C55 on the texts (they cannot be dropped, see the C55 witnesses). C102_long_lines and C102_long_lines_json … _html are the runs of the long line rule with the shipped catalogue. Writing is taken to succeed here; C103 says what happens if not."
 },
 "C103": {
  "status": "partial",
  "note": "The property is false of the code: C103_witness has a run with exit code 0 and no message that leaves the first twelve characters of a report. C103_complete_partial proves it when there is room. C103_devices says what arrives in general and C103_exit that the exit code does not depend on it. llvm::outs() (the version and usage texts) is not part of this."
 },
 "C104": {
  "status": "proved",
  "note": "C104_collected gives the collected sets of a whole run; C104_findings the lists handed to the reporter; C104_exit the exit code; C104_by_rule and C104_independent say that the reports of a rule do not depend on the other rules. A rule is any traversal of the shown declarations with its own memory. The hypothesis Steady (a rule finds the same in a file whatever it looked at before) is part of the property; the shipped rules set their members in setUp, except the stack of the short variable name rule, which survives between files (C60_stale_stack_witness). C104_nothing_left_out: whoever ends without an exception has looked at everything."
 },
 "C105": {
  "status": "partial",
  "note": "C105_reports_state_partial (every report states 24.11), C105_unique, C105_version_option, C105_links: as stated. That the stated version is the one the program is built as is false: C105_release_witness shows it for every report."
 },
 "C106": {
  "status": "proved",
  "note": "C106_settings: from the configuration files and -rc to the limit; C106_classes: names and priorities; C106_unit, C106_findings_unique: what a rule finds in a file; C106_reports and C106_exit: what is collected and the exit code; C106_fewer and C106_raise: higher limits. The constructs the traversal of a declaration comes by are a parameter (Clang's traversal). C106_abbreviated_witness shows why duplicates are excluded in C106_raise: messages about two variables can be the same with a limit and differ with a higher one. C106_nothing_left_out and C106_name_that_ends_the_run: what a run that ends in a report has visited."
 },
 "C107": {
  "status": "proved",
  "note": "C107_told: what reaches the reporters. C107_json, C107_xml, C107_pmd, C107_xcode, C107_text, C107_html: the report read back, for any shipped rules. C107_limit_messages: messages about limits can stand in every report. C107_limits_xcode, C107_limits_json: runs of rules with limits, nothing assumed of the messages. That every file compiles, that the reporters are the shipped ones and that the destination opens are assumed, as in C102 and C104."
 },
 "C108": {
  "status": "partial",
  "note": "Everything but the last clause holds for every machine, every option and every directory (C108_build, C108_test, C108_dogfooding, C108_ci and, step by step, C108_..._steps; C108_..._green and C108_good for the exit status; C108_dependencies and C108_directories for order and directories). The last clause is false of the code: paths are put into commands without quotes, so with a space in the name of the project's directory CMake gets other words (C108_words_witness); C108_words_partial has it for `build` when the names have no spaces. `ci -release` ends with status 0 without having called any test (C108_release_untested). Exit statuses are assumed to be below 256 and signals to be negative, as the system reports them. A script that another one starts is a command like any other."
 },
 "C109": {
  "status": "proved",
  "note": "For disks without links in the directories that are copied, and without permissions; LLVM has to be apart from the release (the default is)."
 },
 "C110": {
  "status": "partial",
  "note": "C110_script, C110_removed, C110_removable and C110_llc hold of every machine and disk. Three clauses are false of the code, each with a witness. A Mac with an Intel processor gets LLVM for ARM (C110_address_witness; C110_address_partial has every other machine). Of two members of a library that have the same name the first one is lost when the second one is converted (C110_library_witness); C110_library says exactly what a library has afterwards, and C110_library_partial that nothing is lost when the names differ and end in `.o`. On a Mac with an Intel processor `bundle` always fails after `clang`, whatever is built in between, because `clang` has removed the headers that `bundle` copies (C110_release_witness); C110_release_partial has that everywhere else, and for `-docgen`, what is removed makes no difference to a release. The download, the unpacking, `ar` and `llc` are parameters; links to directories are left out."
 },
 "C111": {
  "status": "partial",
  "note": "C111_googletest, C111_docgen, C111_make, C111_gh_actions and C111_system_llvm say exactly what the scripts do on any machine with any arguments, C111_workflow and C111_workflow_green what the jobs do. One clause is false of the code: `makeWithSystemLLVM` uses the path without quotes, so an empty path and a path with a blank pass the check although nothing is there, and the second word is taken for the name of a part (C111_system_llvm_witness); C111_system_llvm_partial has the clause for paths without blanks that are not empty. C111_tests_green assumes codes as systems report them: an exit status, or the negated number of a signal. A second run of a job on the same machine always fails, since `googleTest co` does (C111_second_run). Words that may be options are taken as `argparse` takes them (C120). Names of files are not expanded."
 },
 "C112": {
  "status": "proved",
  "note": "One theorem for each rule over syntax trees; C112_one_outcome shows that the specification leaves no choice. Rules whose reports go through other data (metrics, names, unused declarations) are covered by their own count theorems."
 },
 "C113": {
  "status": "proved",
  "note": "Over the runs of C104 (rules of the tree and the long line rule, everything compiles). Settled says what absolute directories give: chdir does not depend on where one stands. C113_relative_directory is a run in which a relative directory makes the exit code depend on the order of the sources."
 },
 "C114": {
  "status": "proved",
  "note": "The exit code is stated in terms of the command line and the configuration files only: no function of the model and no option state occurs in Spec/Program.lean. C114_exit_code needs that no consulted file has a text, C114_undefined says what happens otherwise, C114_ends under which conditions on plugins, rules and commands the program ends at all."
 },
 "C116": {
  "status": "proved",
  "note": "The reading of words is a relation (Spec/CommandLine.lean, WordsSay) that shares no function with the model; numbers and switches have specifications of their own. The reader itself is LLVM's, modelled from its documented behaviour; C116_exit_status needs the same conditions on the configuration files as C114."
 },
 "C117": {
  "status": "partial",
  "note": "False of the code (C117_witness). C117_adjusted: the adjusted words of every command, both directions. C117_passes: what each pass hands over, for every command. C117_checker_partial and C117_run_partial: the property for commands without -fsyntax-only and -- of their own. C117_checker_iff: exactly when the checker pass loses no word. C117_source_kept, C117_macro_partial: sources and macro. The two adjusters belong to Clang and are modelled from their documented behaviour; other theorems (C92) hold for arbitrary adjusters."
 },
 "C118": {
  "status": "partial",
  "note": "C118_built_partial: one plug-in for every rule source other than FeatureEnvyRule.cpp; C118_witness: that one is in the tree and is not built. C118_scaffolded: after any requests, the tree can be built exactly if the class names are new and distinct, whatever their categories (and none is OCLintAbstract, whose target is taken); the examples beside it have two requests for one name, and a category that is in the list of categories but has no list of its own: both end in a tree that cannot be built. C118_reporters: scaffoldReporter, without exception. C118_reporters_built: the six reporters. Class names CACHE and PARENT_SCOPE, which mean something to SET, are excluded. Constructs of CMake other than those in the lists count as errors."
 },
 "C119": {
  "status": "proved",
  "note": "C119_built: the sources of all programs are a permutation of the canary and testSources, without cudaTests if there is no CUDA; C119_every_rule: the test of every shipped rule is among them; C119_scaffolded: both directions for all sequences of requests. C119_named_built: the reporters, the core, the metrics and the driver. C119_reporters: scaffoldReporter. The requests are those of C118 (letters, digits and underscores, no class CACHE or PARENT_SCOPE). The lists are taken line by line from the repository; constructs of CMake other than those in them count as errors, and variables that come from elsewhere count as empty, which matters only for linking."
 },
 "C120": {
  "status": "partial",
  "note": "C120_read: every line that says one thing after another, with the values after a blank, after = or, for the argument without a name, after --; C120_any_order: if they do not contradict each other, in any order. C120_build, C120_test, C120_dog, C120_ci, C120_gtest, C120_bundle, C120_clang, C120_rule, C120_reporter: everything can be asked for; C120_defaults: what is asked for without options. C120_make, C120_calls, C120_gh, C120_system, C120_ci_calls: scripts that start others; C120_gh and C120_system are for words that do not begin with a dash (or are numbers); the scripts of C111 start others with their words, so that C111 says the rest. C120_rule_class, C120_reporter_class. C120_unknown_partial: words that are no option, nor the beginning of one, nor begin with an option of one letter are never accepted; C120_unknown_fails: -no-test is accepted by scaffoldRule; C120_glued: what such words do, for all of them. argparse itself is not part of the project; its model is part of the trusted base."
 },
 "C121": {
  "status": "partial",
  "note": "C121_remembered: exactly what CMake works with after a call of build that succeeds, whatever was there before. C121_options: when a part is compiled for the documentation and when it is optimized, both directions; without -clean also because of earlier calls. C121_clean_partial: the first sentence for calls with -clean. C121_witness: docGen, then build as gh-actions calls it. C121_apart: the second sentence, for all sequences of calls. What CMake remembers is modelled from its documentation; generators are not, so the witness uses calls with the same one."
 },
 "C122": {
  "status": "proved",
  "note": "C122_built: the targets and the directories that CMake goes on to, for every disk and cache; C122_names: no two targets have one name, whatever the lists; C122_nothing_left: no source is left out; C122_plugins: with the sequences of calls of C121; C122_docgen: after build -clean; C122_linked: after any call of build that succeeds; C122_bundled: with bundle (C109), when no archive is made. The lists are taken line by line from the repository; constructs of CMake other than those in them count as errors. readProject has a bound on how deep lists lead to other lists, and the theorems are for every bound from three on, which is what the repository needs. Libraries of LLVM and of the system that come from variables are left out of what is linked."
 },
 "C123": {
  "status": "proved",
  "note": "C123_pattern: what is uploaded; C123_uploaded and C123_docs: archives are; C123_apart: names of archives on two machines; C123_commits: also of two commits. With dashes in the name of an architecture two sorts of machines could have one name (example beside the theorem). The filters of aws s3 cp are modelled from their documentation, with * as the only special character. C123_docs is about the name that docGen:11 has in its text; that docGen makes the file is left to tar."
 }
}