{"id": "C01", "title": "Raw results lose and invent nothing", "statement": "The list of violations a reporter receives when duplicate removal is off is exactly the concatenation, in order of analysis and then order of reporting, of every violation added during the run; the same holds for compiler errors, compiler warnings and checker bugs; the reported counts are the lengths of those lists.", "quantifier": "every sequence of violation sets, errors, warnings and checker bugs collected, in every interleaving", "why_tests_cant": "A test collects one or two fixed sets; the claim is about arbitrary interleavings of arbitrarily many additions to the four channels.", "anchors": ["oclint-core/lib/RawResults.cpp RawResults::allViolations/allErrors/allWarnings/allCheckerBugs", "oclint-core/lib/ResultCollector.cpp", "oclint-core/lib/ViolationSet.cpp"]}
{"id": "C02", "title": "Duplicate removal keeps exactly the first copy of each violation", "statement": "With duplicate removal on, the reported violations contain each distinct collected violation exactly once, at the position of its first occurrence, and nothing else; two violations are merged only if all seven of their fields agree, whatever their hash values are. Applying it to an already duplicate free run changes nothing.", "quantifier": "every list of collected violations and every hash function consistent with equality (including colliding ones)", "why_tests_cant": "UniqueResultsTest uses one or two violations; that merging depends on all seven fields and never on the hash needs violations whose hashes collide, which no test can produce at will, and runs of any length.", "anchors": ["oclint-core/lib/UniqueResults.cpp uniqueViolations, ViolationHash/ViolationEqual", "oclint-core/lib/Violation.cpp operator=="]}
{"id": "C03", "title": "Query order and repetition never change de-duplicated answers", "statement": "Between two additions, asking a de-duplicating result object any of its questions, in any order and any number of times, always gives the same answers; but once a non-empty answer was given, later additions are not reflected (the object is a snapshot), while an empty answer is always recomputed.", "quantifier": "every history mixing queries with additions to the collector", "why_tests_cant": "The answers are memoised; only a quantification over all query/addition histories shows when memoisation is visible.", "anchors": ["oclint-core/lib/UniqueResults.cpp UniqueResults::allViolations/allErrors/allWarnings/allCheckerBugs"]}
{"id": "C04", "title": "Per-priority counts partition the total", "statement": "For every run, the per-priority counts over all priorities add up to the number of violations, each count equals the number of reported violations whose rule has that priority, and the only way a count can fail is a violation that carries no rule.", "quantifier": "every list of violations, every assignment of priorities to rules, every priority", "why_tests_cant": "UniqueResultsTest and RawResultsTest have mock rules of priority 1 and 2 only; that nothing is counted twice or not at all is a statement about every mix of priorities and sets.", "anchors": ["oclint-core/lib/AbstractResults.cpp numberOfViolationsWithPriority/numberOfViolations"]}
{"id": "C05", "title": "File statistics are consistent", "statement": "The number of files in the summary is the number of analysed translation units; the number of files with violations is the number of distinct files of the first violation of each unit, never exceeds it, is zero exactly when no violation was collected, and equals the number of distinct file paths whenever every analysed unit only produced violations in one file; it is not the number of distinct violating paths in general.", "quantifier": "every collection of violation sets", "why_tests_cant": "The undercount only shows for units with violations in several paths; all combinations of sets and paths matter.", "anchors": ["oclint-core/lib/AbstractResults.cpp numberOfFiles/numberOfFilesWithViolations"]}
{"id": "C06", "title": "Rule registry indexing", "statement": "After any sequence of registrations, asking for index i returns the i-th registered rule when 0 <= i < n, returns no rule for i >= n, and a negative index never yields a rule.", "quantifier": "every registration history and every integer index", "why_tests_cant": "RuleSetTest registers a single rule; an off-by-one at the ends of the registry or a negative index shows only for other registry sizes and indices.", "anchors": ["oclint-core/lib/RuleSet.cpp getRuleAtIndex/addRule/numberOfRules"]}
{"id": "C07", "title": "Rule configuration behaves as a last-write-wins map", "statement": "After any sequence of set / clear operations a key is configured exactly if it was set since the last clear, its value is the last one set, the typed getters return the default exactly for unconfigured keys, and getters with defaults never change the configuration. Reading a key directly without a default makes an unconfigured key configured with the empty string, or is undefined behaviour if nothing was ever configured.", "quantifier": "every history of configuration operations and every key and default", "why_tests_cant": "RuleConfigurationTest sets a few keys in one order each; that no interleaving of set, clear and read leaves a stale or invented value is about all sequences of operations.", "anchors": ["oclint-core/lib/RuleConfiguration.cpp addConfiguration/removeAll/hasKey/valueForKey/stringForKey/intForKey/doubleForKey"]}
{"id": "C08", "title": "Integer thresholds round trip through configuration text", "statement": "Configuring a threshold with the decimal text of any 32-bit integer yields exactly that integer; leading blanks and any non-digit tail are ignored; text with no leading number yields 0; text whose number does not fit in an int is undefined behaviour.", "quantifier": "every 32-bit integer and every string", "why_tests_cant": "A test tries a handful of numbers; sign, leading blanks, tails and both ends of the 32-bit range only agree for certain when all texts are covered.", "anchors": ["oclint-core/lib/RuleConfiguration.cpp intForKey"]}
{"id": "C09", "title": "Rule identifiers are letter-only camel case", "statement": "The identifier that a rule has on the command line, unless it defines its own, consists of ASCII letters only, is the concatenation of the maximal letter runs of the rule name with each run's first letter upper-cased, and deriving the identifier of an identifier gives the same identifier.", "quantifier": "every rule name", "why_tests_cant": "RuleBaseTest derives the identifier of one or two names; digits, punctuation at either end, runs of separators and names that are identifiers already are far more combinations than can be listed.", "anchors": ["oclint-core/lib/RuleBase.cpp RuleBase::identifier"]}
{"id": "C10", "title": "Violations without a source file are never recorded", "statement": "Reporting a violation records it, with the given position, message and rule unchanged and after all earlier ones, exactly when its file path is non-empty; otherwise nothing changes.", "quantifier": "every sequence of reports by every rule", "why_tests_cant": "ViolationSetTest adds one violation; that reporting never reorders, changes or drops an earlier one is about every history of reports.", "anchors": ["oclint-core/lib/RuleCarrier.cpp RuleCarrier::addViolation"]}
{"id": "C11", "title": "The last enable/disable for a rule wins", "statement": "After any sequence of enable and disable requests, a loaded rule runs exactly when its identifier is not disabled by the last request for it and, if any rule name's last request is an enable, its own last request is an enable.", "quantifier": "every sequence of enable/disable requests and every set of loaded rules", "why_tests_cant": "RulesetFilterTest has one rule, one enable and one disable; whether the last request wins depends on the order and the interplay with requests for other rules, that is on all sequences.", "anchors": ["oclint-driver/lib/RulesetFilter.cpp enableRule/disableRule/filteredRules"]}
{"id": "C12", "title": "Filtering keeps load order and never adds rules", "statement": "The rules that run are a sub-list, in load order, of the loaded rules, with as many copies of a rule as were loaded; with no enable/disable requests all loaded rules run; disabling every explicitly enabled rule turns all other rules back on.", "quantifier": "every request history and registration history", "why_tests_cant": "RulesetFilterTest loads a single rule, so order, copies of a rule and the return to running everything cannot show; the claim is about every loaded list and every history of requests.", "anchors": ["oclint-driver/lib/RulesetFilter.cpp filteredRules/filteredRuleNames"]}
{"id": "C13", "title": "Configuration precedence: command line, then working directory, home, system", "statement": "Each scalar option takes the command line value if given, otherwise the value of the last of the system, home and working directory configuration files that sets it, otherwise the built-in default; the home file is consulted only when HOME is set.", "quantifier": "every combination of command line and the three configuration files, for every scalar option", "why_tests_cant": "The combinations of presence/absence over 4 sources and about ten options are too many to test and the values are unbounded.", "anchors": ["oclint-driver/lib/Options.cpp updateArgIfSet/processConfigFile/process", "oclint-driver/lib/ConfigFile.cpp"]}
{"id": "C14", "title": "Rule paths and rule configuration accumulate across sources", "statement": "Rule load paths are the command line paths followed by the paths of the system, home and working directory files in that order (or the default path if there are none); each rule configuration key gets the value of the last source setting it, command line last.", "quantifier": "every combination of command line and configuration files", "why_tests_cant": "There are no tests of option processing; the sources interact (a list that replaces instead of appends shows only with two files), and each may be present or absent with any content.", "anchors": ["oclint-driver/lib/Options.cpp processConfigFile/process/rulesPath"]}
{"id": "C15", "title": "A -rc argument splits at its last equals sign", "statement": "For `-rc X`: if X contains '=', key and value are the parts before and after the last '='; the value never contains '=', and key=value reassembles X; if X contains no '=', both key and value are X. If the last '=' is behind the first 2^31 - 1 characters, its position is cut to 32 bits, with undefined behaviour, an uncaught exception or a wrong split, depending on the position.", "quantifier": "every argument string shorter than 2^63, the limit of std::string", "why_tests_cant": "No test calls the option processing with an argument at all; a split at the first instead of the last '=' shows only for values of a certain form, and an argument of two gigabytes is in no test.", "anchors": ["oclint-driver/lib/Options.cpp:212-220"]}
{"id": "C16", "title": "Report destination is absolute", "statement": "The report file path is the -o argument itself if it starts with '/', otherwise the working directory, a slash and the argument; an empty argument raises an error (reported as a reporting failure), never an out of bounds access.", "quantifier": "every -o string and working directory", "why_tests_cant": "Nothing tests the output path; the interesting arguments are the extreme ones (empty, a lone slash, a blank), and the claim is that no argument leads out of bounds.", "anchors": ["oclint-driver/lib/Options.cpp outputPath", "oclint-driver/main.cpp outStream"]}
{"id": "C17", "title": "The exit code is determined by a fixed precedence", "statement": "The process exits 0 exactly when options parse, rules and reporter load, analysis and reporting raise nothing, there are no compiler errors and every priority count is at most its threshold; each failing stage has its own code and an earlier failing stage always wins.", "quantifier": "every combination of stage outcomes, counts and thresholds", "why_tests_cant": "main() has no tests at all, and a test of one failing stage says nothing about which code is given when several stages fail at once.", "anchors": ["oclint-driver/main.cpp main/prepare/handleExit/numberOfViolationsExceedThreshold"]}
{"id": "C18", "title": "Threshold gate is monotone and exact at the boundary", "statement": "Counts equal to the thresholds pass and one more fails; raising a threshold never turns a passing run into a failing one; removing violations or removing duplicates never does either; violations of rules with a priority outside 1..3 never affect the exit code.", "quantifier": "every triple of counts and thresholds, and every pair of runs related by removing violations", "why_tests_cant": "A test checks one count against one threshold; monotony compares pairs of runs, and exactness at the boundary has to hold for every threshold and priority.", "anchors": ["oclint-driver/main.cpp numberOfViolationsExceedThreshold", "oclint-core/lib/AbstractResults.cpp"]}
{"id": "C19", "title": "Every requested source with compile commands is analysed once per command, in order", "statement": "The list of compile jobs is the concatenation, in request order, of the compile commands of every requested source; sources without a command contribute nothing.", "quantifier": "every list of sources and every compilation database", "why_tests_cant": "The driver has no tests; a source that is skipped or analysed twice shows only for particular databases, such as sources with no or with several commands.", "anchors": ["oclint-driver/lib/Driver.cpp constructCompileCommands"]}
{"id": "C20", "title": "Global analysis and per-file analysis see the same contexts", "statement": "For every list of compile jobs where no job fails fatally, analysing all jobs together or one by one hands the same successfully compiled units in the same order to the analyzer, and the plain rule analyzer therefore produces identical results in both modes.", "quantifier": "every list of compile jobs with arbitrary success/failure", "why_tests_cant": "It compares two modes over all lists of jobs; a test can run both modes on one project, where jobs that fail or yield nothing do not occur.", "anchors": ["oclint-driver/lib/Driver.cpp Driver::run/invoke/constructCompilers", "oclint-driver/lib/RulesetBasedAnalyzer.cpp analyze"]}
{"id": "C21", "title": "Compiler diagnostics go to exactly one channel", "statement": "In the normal pass each warning ends up in warnings, each error or fatal error in errors, everything else nowhere; in the checker pass every diagnostic ends up in checker bugs; order is preserved; positions and text are kept and no rule is attached.", "quantifier": "every sequence of diagnostics and every mode", "why_tests_cant": "Diagnostics come from clang in any number and order and mix of severities; a test with one warning cannot show that a fatal error or a note is never put in the wrong place.", "anchors": ["oclint-driver/lib/DiagnosticDispatcher.cpp HandleDiagnostic"]}
{"id": "C22", "title": "Compiler command line handed to the front end", "statement": "The command line starts with the tool path, never contains -gmodules, ends with -D__OCLINT__, otherwise keeps the arguments in order; the checker pass adds --analyze first and drops the database command's first and last arguments; a one element database command in checker pass reads out of bounds.", "quantifier": "every compile command and every tool path other than -gmodules", "why_tests_cant": "No test looks at the command line; the ends of the list, where arguments are dropped or added, only go wrong for commands of particular lengths, and one of these reads out of bounds.", "anchors": ["oclint-driver/lib/Driver.cpp newCompilerInvocation"]}
{"id": "C23", "title": "Escaped blanks in compile directories are unescaped left to right", "statement": "Every occurrence of backslash-blank found scanning left to right without overlap is replaced by a blank, everything else is kept; the replacement terminates for every non-empty pattern; a backslash-blank can remain only if it was produced by a preceding backslash.", "quantifier": "every path string and every pattern/replacement", "why_tests_cant": "No test has a directory with escaped blanks; overlaps such as two backslashes before a blank, and termination of the loop, are questions about all strings.", "anchors": ["oclint-driver/lib/Driver.cpp stringReplace"]}
{"id": "C24", "title": "Plugin loading", "statement": "Loading a rule directory opens every entry not starting with a dot, in directory order, stopping with an error at the first that cannot be opened; a missing directory loads nothing; the reporter chosen is the first entry in directory order whose name is the requested one, and a later broken plugin does not matter.", "quantifier": "every directory content", "why_tests_cant": "It depends on the entries of a directory, their order and which of them can be opened; tests link the rules in and never load a plugin.", "anchors": ["oclint-driver/rules_dlfcn_port.cpp", "oclint-driver/reporters_dlfcn_port.cpp"]}
{"id": "C25", "title": "Each analysed unit yields exactly one result set with its rules' violations in order", "statement": "After analysing n units the collector has n more sets; the i-th is the concatenation over running rules, in order, of the violations each reported for unit i.", "quantifier": "every list of units and rules", "why_tests_cant": "Rule tests run one rule over one unit; that units and rules are never mixed up is about any number of both.", "anchors": ["oclint-driver/lib/RulesetBasedAnalyzer.cpp analyze"]}
{"id": "C26", "title": "`//!OCLINT` suppresses exactly the violations that begin on its line", "statement": "A violation whose begin line carries the marker in a comment of the main file is dropped, one whose begin line does not is kept as far as line markers are concerned, and repeated queries about the same file are consistent, for any order of queries; the lookup is by line only, so a marker in the main file also drops violations located on the same line number of a header.", "quantifier": "every set of comments and every sequence of queries over units", "why_tests_cant": "The lookup is cached between queries; whether an answer depends on earlier queries shows only for particular orders of queries about several files.", "anchors": ["oclint-rules/lib/helper/SuppressHelper.cpp lineBasedShouldSuppress/singleLineSuppress"]}
{"id": "C27", "title": "An annotation suppresses a rule for the whole annotated declaration", "statement": "A rule's violation on a node is suppressed exactly when the node or one of its ancestors in the first-parent chain is a declaration carrying `oclint:suppress` or the rule specific annotation; suppression of an ancestor always suppresses the descendants; without a rule nothing is suppressed this way.", "quantifier": "every tree of nodes and annotations and every rule", "why_tests_cant": "SuppressHelperTest has a few annotated functions; that suppression reaches every descendant, and nothing else, quantifies over all chains of parents.", "anchors": ["oclint-rules/lib/helper/SuppressHelper.cpp shouldSuppress/markedAsSuppress/markedParentsAsSuppress"]}
{"id": "C28", "title": "Rule-specific annotations match exactly that rule", "statement": "`oclint:suppress[name]` matches the rule called name only, never a rule whose name merely is a prefix, suffix or superstring (for names without brackets); an optional trailing bracketed comment is returned verbatim.", "quantifier": "every annotation text and every pair of rule names", "why_tests_cant": "AttributeHelperTest tries a few annotations; names that contain one another, or a bracket in a comment, are cases of a claim about all pairs of names.", "anchors": ["oclint-rules/lib/helper/AttributeHelper.cpp attributeHasAnnotation"]}
{"id": "C29", "title": "Range based suppression does not leak between rules", "statement": "Whether a line of a unit is suppressed for one rule is independent of which other rules were asked before.", "quantifier": "every sequence of (rule, unit, line) queries", "why_tests_cant": "It compares the answer about one rule after different histories of questions about others; tests ask about a single rule per process.", "anchors": ["oclint-rules/lib/helper/SuppressHelper.cpp rangeBasedShouldSuppress"]}
{"id": "C30", "title": "Language gating", "statement": "Outside CUDA, a rule is run on a unit exactly when it declares support for the unit's language and for host code, where Objective-C takes precedence over C++ over C; a unit in none of these is run by no AST visitor rule. In a CUDA unit the language does not matter: every rule is run, on exactly those declarations (kernels or others) it declares to be for.", "quantifier": "every combination of language options and every support mask", "why_tests_cant": "LanguageSelectionTest and CUDASupportTest try one language per rule; the claim is about every combination of language options and declared support.", "anchors": ["oclint-rules/lib/AbstractASTRuleBase.cpp isLanguageSupported", "oclint-rules/include/oclint/AbstractASTVisitorRule.h"]}
{"id": "C31", "title": "Line rules see every line of the main file exactly once", "statement": "A source line rule is called once per line of the main file with consecutive numbers from 1; joining the lines with newlines gives back the buffer up to one final newline; no line contains a newline; an empty file has no lines.", "quantifier": "every buffer", "why_tests_cant": "LongLineRuleTest has files of a few lines; missing last newlines, empty lines and carriage returns in any position are what a line splitter gets wrong.", "anchors": ["oclint-rules/lib/AbstractSourceCodeReaderRule.cpp apply"]}
{"id": "C32", "title": "Long line rule is exact", "statement": "The long line rule reports line i exactly when the line has more bytes than the configured threshold and is not suppressed, at line i from column 1 to its length, and the message states the actual length and limit.", "quantifier": "every buffer and threshold", "why_tests_cant": "LongLineRuleTest has one line at a time below or above the limit; being exact at the boundary on every line of every file cannot be listed.", "anchors": ["oclint-rules/rules/size/LongLineRule.cpp"]}
{"id": "C33", "title": "Cyclomatic complexity counts decision points", "statement": "The complexity of a body is one plus the number of decision points (if, for, for-in, while, do, case, catch, ?:, &&, ||) anywhere in it, so it is at least 1, grows by one per added decision point and is additive over sequencing and nesting.", "quantifier": "every statement tree", "why_tests_cant": "CyclomaticComplexityMetricTest counts single constructs; additivity over nesting is about all trees, and a construct missed in one position (say inside a condition) shows in none of its snippets.", "anchors": ["oclint-metrics/lib/CyclomaticComplexityMetric.cpp"]}
{"id": "C34", "title": "NPath complexity counts acyclic paths", "statement": "NPath of a body follows Nejmeh's recurrences: products over sequences, sums over branches plus the complexity of conditions; it equals the number of acyclic paths of the body as enumerated by an independent path semantics; redundant parentheses and casts do not change it.", "quantifier": "every statement and expression tree", "why_tests_cant": "NPathComplexityMetricTest compares numbers for short snippets with numbers worked out by hand; agreement with the number of paths is a statement about all bodies by induction.", "anchors": ["oclint-metrics/lib/NPathComplexityMetric.cpp"]}
{"id": "C35", "title": "NPath is at least one and never hides complexity", "statement": "Every statement has NPath at least 1 and embedding a statement in a bigger body never lowers the reported value; the computation stays within int.", "quantifier": "every statement tree", "why_tests_cant": "The value grows exponentially with the length of the body, so whether it stays within int is out of reach of any snippet a test would contain.", "anchors": ["oclint-metrics/lib/NPathComplexityMetric.cpp nPath(SwitchStmt*), nPath(CompoundStmt*)"]}
{"id": "C36", "title": "NCSS counts statements compositionally", "statement": "The non-commenting statement count of a body is additive over sequences, unaffected by redundant braces and empty statements, and at least the number of leaf statements reachable through the supported control structures.", "quantifier": "every statement tree", "why_tests_cant": "NcssMetricTest counts single statements; additivity and indifference to braces compare the counts of arbitrary bodies.", "anchors": ["oclint-metrics/lib/NcssMetric.cpp"]}
{"id": "C37", "title": "Block depth is the maximum brace nesting", "statement": "The depth of a body is the maximum number of compound statements on any root-to-leaf chain of supported control structures; adding statements never lowers it; wrapping in braces adds exactly one.", "quantifier": "every statement tree", "why_tests_cant": "StmtDepthMetricTest nests two or three levels; that the maximum is taken over every chain, through every kind of statement, is an induction over trees.", "anchors": ["oclint-metrics/lib/StmtDepthMetric.cpp"]}
{"id": "C38", "title": "Threshold rules report exactly above the threshold", "statement": "Every metric rule (complexity, NPath, NCSS, depth, method length, class length, parameter count, field count, method count, name length) reports a construct exactly when its metric exceeds (or, for minimum rules, falls below) the configured threshold, and the description states the metric and the limit; raising the threshold only removes reports.", "quantifier": "every construct and every configured threshold, including negative ones", "why_tests_cant": "The tests of each rule try one value on each side of a limit or none at the limit itself; exactness for all limits and metrics, and monotony in the limit, compare infinitely many runs.", "anchors": ["oclint-rules/rules/size/*.cpp", "oclint-rules/rules/naming/*.cpp"]}
{"id": "C39", "title": "Dead code reports are about statements that cannot execute", "statement": "A statement reported as dead code is never executed, in any execution, when the enclosing block has no labels that can be jumped to; removing the code after an unconditional exit does not change behaviour.", "quantifier": "every block and every execution", "why_tests_cant": "It speaks of executions: that reported code is never executed, whatever the program does, cannot be seen by looking at reports, and certainly not for all programs.", "anchors": ["oclint-rules/rules/basic/DeadCodeRule.cpp"]}
{"id": "C40", "title": "Dead code is reported for every unconditional exit", "statement": "A block is reported exactly when some statement of it that always exits (by return, throw, break, continue, or an if/else both of whose branches do) is immediately followed by a statement that has no label.", "quantifier": "every block", "why_tests_cant": "DeadCodeRuleTest has one exit per snippet; which mixtures of exits in both branches of nested ifs count as leaving the block is an induction over statements.", "anchors": ["oclint-rules/rules/basic/DeadCodeRule.cpp"]}
{"id": "C41", "title": "Collapsible-if advice preserves behaviour", "statement": "Whenever the collapsible-if rule reports a pair of nested ifs, replacing it by a single if with the conjunction of the two conditions behaves identically in every state.", "quantifier": "every reported if statement and every execution", "why_tests_cant": "CollapsibleIfStatementsRuleTest looks at whether something is reported; that following the advice changes no behaviour relates two programs in every state.", "anchors": ["oclint-rules/rules/basic/CollapsibleIfStatementsRule.cpp"]}
{"id": "C42", "title": "For-loop-should-be-while advice preserves behaviour", "statement": "Every loop reported by the rule is `for(;c;) body` and behaves identically to `while (c) body`.", "quantifier": "every reported loop and every execution", "why_tests_cant": "ForLoopShouldBeWhileLoopRuleTest looks at whether something is reported; that the two loops do the same relates all their executions, including those that never end.", "anchors": ["oclint-rules/rules/basic/ForLoopShouldBeWhileLoopRule.cpp"]}
{"id": "C43", "title": "Unnecessary-else advice preserves behaviour", "statement": "For every reported if, dropping the `else` keyword and running the else branch after the if behaves identically.", "quantifier": "every reported if and every execution", "why_tests_cant": "UnnecessaryElseStatementRuleTest looks at whether something is reported; that the advice changes no behaviour relates two programs in every state, and fails where the dropped else ends a scope.", "anchors": ["oclint-rules/rules/redundant/UnnecessaryElseStatementRule.cpp"]}
{"id": "C44", "title": "Redundant-if and redundant-conditional advice preserves behaviour", "statement": "Whenever reported, the construct can be replaced by the condition, its negation or the common value with the same result.", "quantifier": "every reported construct and every execution", "why_tests_cant": "The tests look at whether something is reported; that the replacement has the same value in every state is about executions, and fails for some reported shapes no test follows through.", "anchors": ["oclint-rules/rules/redundant/RedundantIfStatementRule.cpp", "oclint-rules/rules/redundant/RedundantConditionalOperatorRule.cpp"]}
{"id": "C45", "title": "Inverted-logic advice preserves behaviour", "statement": "Every reported if/else or ?: has a negated condition with both branches, and swapping branches while dropping the negation behaves identically.", "quantifier": "every reported construct and every execution", "why_tests_cant": "InvertedLogicRuleTest looks at whether something is reported; that swapping the branches changes nothing relates two programs in every state.", "anchors": ["oclint-rules/rules/convention/InvertedLogicRule.cpp"]}
{"id": "C46", "title": "Broken oddness check is really broken", "statement": "The rule flags exactly `x % 2 == 1` and `1 == x % 2`; such a comparison gives the wrong answer to the question whether x is odd for every negative odd x, and the right one for all others.", "quantifier": "every 32 bit integer", "why_tests_cant": "BrokenOddnessCheckRuleTest looks at whether something is reported; that the reported test is wrong exactly for negative odd numbers is about all values.", "anchors": ["oclint-rules/rules/basic/BrokenOddnessCheckRule.cpp"]}
{"id": "C47", "title": "Double negation and multiple unary advice", "statement": "A flagged `!!e` has the truth value of e, a flagged `~~e` equals e for every bit pattern, and the multiple-unary rule flags exactly directly nested (through parentheses) unary +,-,~,! operators.", "quantifier": "every expression and value", "why_tests_cant": "The tests look at whether something is reported; that the advice keeps the value is about all bit patterns, and nesting through parentheses about all depths.", "anchors": ["oclint-rules/rules/basic/DoubleNegativeRule.cpp", "oclint-rules/rules/basic/MultipleUnaryOperatorRule.cpp"]}
{"id": "C48", "title": "Constant conditions", "statement": "Conditions flagged as constant evaluate to the same value in every state, given that the compiler's constant evaluator is right about the expressions it evaluates; the rules flag exactly the conditions it evaluates.", "quantifier": "every flagged condition and every state", "why_tests_cant": "The tests have literals as conditions; the claim is about every expression that clang can evaluate and every state in which it might be evaluated.", "anchors": ["oclint-rules/rules/basic/ConstantIfExpressionRule.cpp", "oclint-rules/rules/basic/ConstantConditionalOperatorRule.cpp"]}
{"id": "C49", "title": "Switch rules are exact", "statement": "Default-label-not-last reports exactly switches whose default is followed by a case; covered-switch and missing-default exactly (non-)exhaustive switches with(out) default; too-few-branches exactly those with fewer `case` labels than the threshold, labels of nested switches included; missing-break exactly those in which, between a label and the next or the end, no statement is or contains a break, return, throw or continue.", "quantifier": "every switch statement", "why_tests_cant": "Each switch rule is tested with two or three cases; nested switches, labels on labels and breaks inside blocks combine in any number.", "anchors": ["oclint-rules/rules/convention/DefaultLabelNotLastInSwitchStatementRule.cpp", "oclint-rules/rules/convention/CoveredSwitchStatementsDontNeedDefaultRule.cpp", "oclint-rules/rules/convention/SwitchStatementsShouldHaveDefaultRule.cpp", "oclint-rules/rules/convention/TooFewBranchesInSwitchStatementRule.cpp", "oclint-rules/rules/convention/MissingBreakInSwitchStatementRule.cpp"]}
{"id": "C50", "title": "Empty block rules are exact", "statement": "Each empty-block rule reports exactly the statements of its kind whose block is empty or is a lone semicolon.", "quantifier": "every statement", "why_tests_cant": "Each rule is tested with a handful of bodies; exactness is about every body, and each of the nine rules could be wrong in its own way.", "anchors": ["oclint-rules/rules/empty/*.cpp"]}
{"id": "C51", "title": "Jumbled incrementer", "statement": "Reported exactly for a for loop that is the body of another, or the only statement of its block, whose increment applies a unary operator to the variable the outer loop declares. An outer variable declared before the loop and an increment such as `i += 1` are not covered.", "quantifier": "every pair of nested loops", "why_tests_cant": "JumbledIncrementerRuleTest has two nested loops; blocks, parentheses and other statements around the inner loop, and loops in between, are not covered.", "anchors": ["oclint-rules/rules/basic/JumbledIncrementerRule.cpp"]}
{"id": "C52", "title": "Null check rules are exact", "statement": "Broken, misplaced and redundant null check rules report exactly the conjunctions/disjunctions combining a null comparison of a variable with a dereference of the same variable in the wrong position; a reported broken null check dereferences null whenever the variable is null.", "quantifier": "every logical expression and every state", "why_tests_cant": "Conditions are trees of && and || of any depth; the tests have one operator with the two operands directly below it, and none executes the condition.", "anchors": ["oclint-rules/rules/basic/BrokenNullCheckRule.cpp", "oclint-rules/rules/basic/MisplacedNullCheckRule.cpp", "oclint-rules/rules/abstract/AbstractNullCheckRule.h"]}
{"id": "C53", "title": "Feature envy metric", "statement": "A method is reported exactly when some other class receives more calls from it than its own class does, and the class named in the report is one that does.", "quantifier": "every multiset of call targets", "why_tests_cant": "FeatureEnvyRuleTest has a few calls; ties, several envied classes and calls nested in arguments are about all numbers of calls.", "anchors": ["oclint-rules/rules/design/FeatureEnvyRule.cpp"]}
{"id": "C54", "title": "XML escaping is faithful", "statement": "The PMD reporter's message escaping never emits a raw <, >, \" or ' and every & it emits starts an entity; decoding the entities gives back the original message, so distinct messages stay distinct.", "quantifier": "every message string", "why_tests_cant": "PMDReporterTest has one message with each special character; that decoding gives back every message needs all strings, in particular those that contain entities already.", "anchors": ["oclint-reporters/reporters/PMDReporter.cpp xmlEscape"]}
{"id": "C55", "title": "Every violation is reported exactly once, in order, with its fields", "statement": "Each report format's body contains one record per violation, error, warning and checker bug, in order, from which path, line, column, rule, priority and message can be read back.", "quantifier": "every result", "why_tests_cant": "The reporter tests have one violation at a time; that records can be told apart fails only for texts that contain what separates fields and records.", "anchors": ["oclint-reporters/reporters/*.cpp"]}
{"id": "C56", "title": "Machine readable reports are well formed", "statement": "The JSON and XML style reports are syntactically well formed for every result.", "quantifier": "every result, including messages and paths containing quotes, angle brackets or backslashes", "why_tests_cant": "The reporter tests look for fragments of the output; being well formed is about the whole report, and fails for paths and messages with quotes, angle brackets or control characters in places no test puts them.", "anchors": ["oclint-reporters/reporters/JSONReporter.cpp", "oclint-reporters/reporters/XMLReporter.cpp", "oclint-reporters/reporters/PMDReporter.cpp"]}
{"id": "C57", "title": "Report timestamp is the calendar date", "statement": "The datetime attribute of the XML and HTML reports is the current calendar date and time.", "quantifier": "every point in time", "why_tests_cant": "The tests do not look at the timestamp, and an expression that is wrong by a field gives a plausible looking date on most days.", "anchors": ["oclint-reporters/reporters/XMLReporter.cpp writeDatetime"]}
{"id": "C58", "title": "Report summary totals agree with the body", "statement": "The totals printed in the summary equal the number of records printed.", "quantifier": "every result", "why_tests_cant": "The reporter tests have fixed results with at most one violation of a kind; agreement of totals and records is about every result and both ways of removing duplicates.", "anchors": ["oclint-reporters/reporters/*.cpp"]}
{"id": "C59", "title": "Sorting the HTML report table", "statement": "Clicking a column header terminates, leaves the table a permutation of its rows, sorted ascending on the column, or descending if it was already ascending.", "quantifier": "every table and column", "why_tests_cant": "No test runs the script; termination and sortedness of a loop that exchanges neighbours are about all tables and all sequences of clicks.", "anchors": ["oclint-reporters/reporters/HTMLReporter.cpp sortTable"]}
{"id": "C60", "title": "Short variable names", "statement": "The short variable name rule reports, once and in order, only variables whose non-empty name is shorter than the threshold; it reports all of those that are not declared in a loop header or catch clause; variables of a header in which every name is short are exempt. Exactly, after a header the k-th short variable is exempt if and only if it is the k-th variable of the header. Exemption of every loop variable is not true: a short name after a long one in the same header is reported, and a stack entry left over from an earlier translation unit can hide a variable.", "quantifier": "every translation unit, every threshold and every leftover state of the rule", "why_tests_cant": "The rule keeps a stack of loop headers across the traversal, so what it does with one variable depends on everything visited before; the tests have one function each.", "anchors": ["oclint-rules/rules/naming/ShortVariableNameRule.cpp"]}
{"id": "C61", "title": "Bitwise operator in conditional", "statement": "The conditions of if, while, do and ?: that contain &, | or ^ anywhere are reported, each once, and nothing else is; for and switch conditions are not covered.", "quantifier": "every syntax tree", "why_tests_cant": "BitwiseOperatorInConditionalRuleTest puts the operator at the top of the condition or a level below; 'anywhere' and 'once' are about all expressions.", "anchors": ["oclint-rules/rules/basic/BitwiseOperatorInConditionalRule.cpp"]}
{"id": "C62", "title": "Goto statements", "statement": "Every goto to a label is reported exactly once, wherever it is; nothing else is, in particular no computed goto.", "quantifier": "every syntax tree", "why_tests_cant": "GotoStatementRuleTest has one goto per snippet; that none is missed in any position is about all trees.", "anchors": ["oclint-rules/rules/basic/GotoStatementRule.cpp"]}
{"id": "C63", "title": "Leaving a finally block", "statement": "Every return, @throw and raise of an NSException anywhere inside a @finally block is reported, once for each @finally block around it, and nothing else is.", "quantifier": "every syntax tree", "why_tests_cant": "The tests have one finally block; nested ones, where a statement counts once for each, are about all depths.", "anchors": ["oclint-rules/rules/basic/ReturnFromFinallyBlockRule.cpp", "oclint-rules/rules/basic/ThrowExceptionFromFinallyBlockRule.cpp"]}
{"id": "C64", "title": "Branching statement as last in loop", "statement": "A break, continue or return is reported exactly when it is the last statement of the body of a for, while, do or Objective-C for-in loop.", "quantifier": "every syntax tree", "why_tests_cant": "The tests end a loop body with one statement or block; what counts as the last statement through labels and nested blocks is about all bodies.", "anchors": ["oclint-rules/rules/convention/AvoidBranchingStatementAsLastInLoopRule.cpp"]}
{"id": "C65", "title": "Non-case label in switch", "statement": "Every label inside the body of a switch that is not a case or default label is reported, once for each switch around it, and nothing else is.", "quantifier": "every syntax tree", "why_tests_cant": "NonCaseLabelInSwitchStatementRuleTest has one switch; labels below case labels and switches inside switches nest to any depth.", "anchors": ["oclint-rules/rules/convention/NonCaseLabelInSwitchStatementRule.cpp"]}
{"id": "C66", "title": "Null check before delete", "statement": "The rule reports exactly the ifs without else that ask whether a pointer is not null and then only delete it, possibly setting it to null afterwards; dropping the check of a reported if does not change behaviour.", "quantifier": "every if statement and every execution", "why_tests_cant": "The tests look at whether something is reported; that dropping the check changes nothing is about executions with the pointer null and not null, and fails where the condition has effects.", "anchors": ["oclint-rules/rules/redundant/UnnecessaryNullCheckForCXXDeallocRule.cpp", "oclint-rules/lib/util/ASTUtil.cpp"]}
{"id": "C67", "title": "Redundant nil check advice", "statement": "Dropping a nil check reported as redundant does not change the truth value of the condition.", "quantifier": "every reported conjunction and every state", "why_tests_cant": "The tests look at whether something is reported; that the condition keeps its truth value is about every receiver, argument and result of the method.", "anchors": ["oclint-rules/rules/redundant/RedundantNilCheckRule.cpp"]}
{"id": "C68", "title": "Configuration texts and the memory they are in", "statement": "Processing a configuration file has undefined behaviour exactly if the file is readable, not blank and has a text entry that is not empty, because the constructor frees the memory its text members point to before they are read. A file with only numbers and switches is processed as described by the precedence property, and so would every file be if the memory were kept.", "quantifier": "every file content, every result of the YAML reader, every option state", "why_tests_cant": "Reading freed memory usually gives the text that was there, so tests pass; and nothing in the repository tests configuration files.", "anchors": ["oclint-driver/lib/ConfigFile.cpp", "oclint-driver/include/oclint/ConfigFile.h", "oclint-driver/lib/Options.cpp"]}
{"id": "C69", "title": "Useless parentheses", "statement": "Exactly the parenthesised conditions of if, returned values and initial values are reported, at most one per statement; dropping the reported parentheses does not change what the program does.", "quantifier": "every syntax tree and every execution", "why_tests_cant": "UselessParenthesesRuleTest looks at whether something is reported; that dropping the parentheses changes nothing is about all executions.", "anchors": ["oclint-rules/rules/redundant/UselessParenthesesRule.cpp"]}
{"id": "C70", "title": "Redundant local variable", "statement": "A variable is reported exactly if its declaration is alone in the next to last statement of a block and the last statement returns the value of a variable of that name; returning its initial value instead gives the same result and the same observable state.", "quantifier": "every syntax tree and every execution", "why_tests_cant": "RedundantLocalVariableRuleTest looks at whether something is reported; that the shorter block gives the same result is about every initial value and state.", "anchors": ["oclint-rules/rules/redundant/RedundantLocalVariableRule.cpp"]}
{"id": "C71", "title": "Prefer early exit", "statement": "An if without else is reported exactly if it has more lines than the limit and is followed by the last statement of its block, which is a jump, or ends the body of a for, while or do loop; inverting the condition and leaving early does not change behaviour. Range-based for and Objective-C for-in loops are not covered.", "quantifier": "every syntax tree, every limit and every execution", "why_tests_cant": "PreferEarlyExitRuleTest has two or three snippets; that inverting the condition changes nothing relates two programs in every state, inside and outside of loops.", "anchors": ["oclint-rules/rules/convention/PreferEarlyExitRule.cpp"]}
{"id": "C72", "title": "Parameter reassignment", "statement": "Exactly the plain assignments to parameters of the function are reported. This is only true if no other variable has the name of a parameter: an assignment to a local variable that shadows a parameter is reported as well. Compound assignment, increment and assignment through parentheses are not reported.", "quantifier": "every function or method with its body", "why_tests_cant": "ParameterReassignmentRuleTest has functions of one or two statements; a local variable with the name of a parameter, the case that goes wrong, does not occur.", "anchors": ["oclint-rules/rules/convention/ParameterReassignmentRule.cpp"]}
{"id": "C73", "title": "Destructors of base classes", "statement": "For each polymorphic class exactly the ancestors are reported that are reached by public inheritance through classes that are not polymorphic and whose destructor is neither virtual nor protected, once per path. If nothing is reported for a class and its ancestors, all its public ancestors have a virtual or protected destructor.", "quantifier": "every class hierarchy", "why_tests_cant": "The tests have hierarchies of two or three classes; repeated and private bases and the conclusion from silence are about all hierarchies.", "anchors": ["oclint-rules/rules/convention/BaseClassDestructorShouldBeVirtualOrProtectedRule.cpp"]}
{"id": "C74", "title": "Destructors of polymorphic classes", "statement": "Exactly the polymorphic classes without virtual destructor are reported, once; together with the rule on base classes, silence means that deleting through a pointer to the class or a public ancestor is safe.", "quantifier": "every class hierarchy", "why_tests_cant": "The tests have single classes; that silence of both rules makes deleting safe quantifies over a class and all its ancestors.", "anchors": ["oclint-rules/rules/convention/DestructorOfVirtualClassRule.cpp"]}
{"id": "C75", "title": "Members that matchers find", "statement": "Virtual methods with a default argument, and private static variables and methods, are reported, in order and each once, and nothing else is.", "quantifier": "every sequence of declarations", "why_tests_cant": "The tests have one class with one member; that every member of every class is found in order is about all translation units.", "anchors": ["oclint-rules/rules/design/AvoidDefaultArgumentsOnVirtualMethodsRule.cpp", "oclint-rules/rules/design/AvoidPrivateStaticMembersRule.cpp", "oclint-rules/lib/AbstractASTMatcherRule.cpp"]}
{"id": "C76", "title": "Branch divergence in CUDA kernels", "statement": "An if with else is reported exactly if it is in the main file of a CUDA source, in a kernel or in a top level declaration that is not a function, so host code in classes and namespaces is reported as well; in other sources nothing is.", "quantifier": "every source file, language and tree", "why_tests_cant": "CudaBranchDivergenceRuleTest has one kernel; what happens to host functions inside classes and namespaces is not tested and is wrong.", "anchors": ["oclint-rules/rules/cuda/CudaBranchDivergenceRule.cpp", "oclint-rules/include/oclint/AbstractASTVisitorRule.h"]}
{"id": "C77", "title": "Unused local variable", "statement": "The unused local variables that have a name and are in no template are reported, in order and each once, unless what their type is called is listed under RAII_DEFAULT_CLASSES or RAII_CUSTOM_CLASSES. The listed names are the longest pieces without separators of the last configured values. What a type is called is the text before the first template argument, without qualifiers; it need not be the class.", "quantifier": "every sequence of variables, every history of the configuration, every type text", "why_tests_cant": "UnusedLocalVariableRuleTest tries a few type names and lists; the list is text given by the user, with any separators, empty pieces and repeated keys.", "anchors": ["oclint-rules/rules/unused/UnusedLocalVariableRule.cpp", "oclint-core/lib/RuleConfiguration.cpp"]}
{"id": "C78", "title": "Unused parameter", "statement": "An unused named parameter is reported, once, exactly if it is not marked, not of a template, and nothing around it requires it: no missing body, virtual method, block, method declaration, method of a superclass or protocol, or action. This is only true outside of classes and of class methods: inside a class nothing is reported, and class methods the superclass requires are reported.", "quantifier": "every parameter and every chain of enclosing declarations", "why_tests_cant": "Each test has one reason why a parameter is needed; whether one reason is overlooked in presence of others is about all combinations.", "anchors": ["oclint-rules/rules/unused/UnusedMethodParameterRule.cpp", "oclint-rules/lib/util/ASTUtil.cpp"]}
{"id": "C79", "title": "isEqual and hash", "statement": "An implementation is reported exactly if it has isEqual: and not hash, and then once, whatever the order of its methods.", "quantifier": "every list of methods", "why_tests_cant": "ObjCVerifyIsEqualHashRuleTest has one class; that the answer depends on which methods there are and not on their order is about all lists.", "anchors": ["oclint-rules/rules/cocoa/ObjCVerifyIsEqualHashRule.cpp"]}
{"id": "C80", "title": "Missing call of base method", "statement": "A definition of a method is reported, once, exactly if a method it overrides is annotated to require a call of the base method and the body does not send the method's own message to super. This is only true of instance methods; class methods and redeclarations are always reported.", "quantifier": "every method, body and set of annotations", "why_tests_cant": "ObjCVerifyMustCallSuperRuleTest has instance methods only, so that class methods are always reported does not show; where in the body the call is, is about all bodies.", "anchors": ["oclint-rules/rules/cocoa/ObjCVerifyMustCallSuperRule.cpp", "oclint-rules/lib/helper/EnforceHelper.cpp"]}
{"id": "C81", "title": "Calling prohibited methods", "statement": "Exactly the calls of functions and methods annotated as prohibited are reported, once, with the annotation's comment as advice.", "quantifier": "every call and every set of annotations", "why_tests_cant": "The tests have a single call; that calls in any position are found exactly once is about all trees.", "anchors": ["oclint-rules/rules/cocoa/ObjCVerifyProhibitedCallRule.cpp", "oclint-rules/lib/helper/EnforceHelper.cpp"]}
{"id": "C82", "title": "Calling protected methods", "statement": "A message for a protected method is reported exactly if it is sent from outside of the method's class and its subclasses. No such message is missed; but a message to an object of a subclass is reported even if it is sent from inside the method's class, and for a protected method of a protocol the behaviour is undefined.", "quantifier": "every class hierarchy, implementation and sequence of messages", "why_tests_cant": "The tests have two classes; who is a subclass of whom, and of which class the receiver is, are about all hierarchies.", "anchors": ["oclint-rules/rules/cocoa/ObjCVerifyProtectedMethodRule.cpp", "oclint-rules/lib/helper/EnforceHelper.cpp"]}
{"id": "C83", "title": "Missing abstract method implementation", "statement": "For each method that the direct superclass declares abstract and the implementation lacks there is a report, in order, and there are no others; silence means that all of these are implemented. Abstract methods of classes further up and those that a category declares are not looked at; but if nothing is reported for any class of a chain, each abstract method of an @interface in it is implemented below.", "quantifier": "every pair of superclass methods and implemented methods", "why_tests_cant": "The tests have one class and its superclass; what silence says about a whole chain of classes follows by induction over its length.", "anchors": ["oclint-rules/rules/cocoa/ObjCVerifySubclassMustImplementRule.cpp", "oclint-rules/lib/helper/EnforceHelper.cpp"]}
{"id": "C84", "title": "Instance variables assigned outside of accessors", "statement": "In a method that is not an initializer, the instance variables assigned to are reported unless the method is an accessor of the variable. This is only true if no other instance variable occurs in the left hand side: one that is only read there is reported too. Increments are not reported.", "quantifier": "every method body and selector", "why_tests_cant": "The tests have one assignment each and no left hand side that only reads an instance variable as an index or through a pointer, which is what goes wrong; the claim is about all left hand sides.", "anchors": ["oclint-rules/rules/convention/ObjCAssignIvarOutsideAccessorsRule.cpp"]}
{"id": "C85", "title": "Number literals", "statement": "A message is reported exactly if it applies a factory method of NSNumber to one literal of the type the method is for; the literal written with @ instead sends the same message.", "quantifier": "every sequence of messages", "why_tests_cant": "The tests try literals of each kind once; that exactly the method's own type counts is about all pairs of methods and literals, and that the message is the same about what both forms mean.", "anchors": ["oclint-rules/rules/migration/ObjCNSNumberLiteralsRule.cpp"]}
{"id": "C86", "title": "Boxed expressions", "statement": "A message is reported exactly if it makes an NSNumber from a parenthesised expression of the type the method is for, from a parenthesised expression converted to BOOL, or from an enumeration constant, or an NSString from a call or parenthesised expression of type char *. The boxed expression sends the same message, except that numberWithBool: may become numberWithInt:.", "quantifier": "every sequence of messages", "why_tests_cant": "The tests look at whether something is reported; that the boxed expression sends the same message fails for one type, which shows only when both forms are compared for all types.", "anchors": ["oclint-rules/rules/migration/ObjCBoxedExpressionsRule.cpp"]}
{"id": "C87", "title": "Container literals", "statement": "Exactly the messages to NSArray and NSDictionary with one of their listed factory methods are reported, in order and each once; mutable containers never are.", "quantifier": "every sequence of messages", "why_tests_cant": "The tests try each factory method once; that nothing else is reported is about all messages and receivers.", "anchors": ["oclint-rules/rules/migration/ObjCContainerLiteralsRule.cpp"]}
{"id": "C88", "title": "Object subscripting", "statement": "Exactly the messages are reported that subscripts stand for and whose receiver is an implicitly converted expression of the type that has the method, in order and each once; reading from a variable of mutable array type is not.", "quantifier": "every sequence of messages", "why_tests_cant": "The tests have one message each; receivers of other types and implicit conversions in between are about all messages.", "anchors": ["oclint-rules/rules/migration/ObjCObjectSubscriptingRule.cpp"]}
{"id": "C89", "title": "What the program writes", "statement": "For every run with processed options, standard output, standard error and the written file are determined: the list of enabled rules comes first on standard output if asked for, the report goes to standard output or to the one output file and nowhere else, standard error has, after what LLVM says about the configuration files, the reason a plugin did not open or the sources that are skipped, one 'oclint: error:' line for exit codes 1 to 5 and none for 0 and 6, and the counts shown with exit code 5 are those of the violations of each priority with their limits. Nothing is written to the log without -verbose.", "quantifier": "every machine (plugins, compiler results, file system), command line and set of options", "why_tests_cant": "No test runs the program; which of its streams gets what depends on options, plugins, diagnostics and failures together.", "anchors": ["oclint-driver/main.cpp", "oclint-driver/lib/Driver.cpp", "oclint-driver/rules_dlfcn_port.cpp", "oclint-driver/reporters_dlfcn_port.cpp"]}
{"id": "C90", "title": "Keys of configuration files", "statement": "Each of the twelve keys of a configuration file sets its own member and no other: a list of texts, a list of key/value pairs, a text, a number that fits an int, or true/false. Keys are read in a fixed order; the first entry of the wrong shape stops the reading without failing the program, what was read before it stays, of a broken list the items before the broken one stay, and the members of all later keys stay unset. Unknown keys change nothing. A text that is not YAML sets nothing.", "quantifier": "every parsed YAML document", "why_tests_cant": "Nothing tests configuration files; a key that sets the wrong member, or a broken list that loses what was read, shows only for particular documents.", "anchors": ["oclint-driver/lib/ConfigFile.cpp"]}
{"id": "C91", "title": "Generated documentation", "statement": "The documentation generator either complains on standard error and exits with 1 without writing a file, if a plugin does not open or there is no rule, or exits with 0 and writes an index that names the number of rules and every category exactly once in order, and for every category one file with exactly the loaded rules of that category, ordered by identifier, each with title, underline of the same length, since, name, description, source, example, thresholds, suppression and additional text. Together the files have every loaded rule exactly as often as it is loaded, whatever rules are enabled or disabled.", "quantifier": "every machine, command line, set of rule descriptions and implementation of std::sort", "why_tests_cant": "docgen has no tests; that every rule is in exactly one file and every category in the index once is about all sets of loaded rules.", "anchors": ["oclint-driver/main_docgen.cpp"]}
{"id": "C92", "title": "A whole run of the driver", "statement": "A run over the sources compiles every compile command of every source in order, each in its own directory, and sends every compiled unit to the rules; with the Clang checker every command is compiled once more after all have been analysed. It ends exactly if the directory of every command can be entered and Clang plans a single front end job for it (or offloads); then the collected results are, in order, the error and warning diagnostics of all compilations, the violations the rules found in every unit that compiled without error, and all diagnostics of the checker's compilations. It stops exactly if some command does not satisfy this or a rule throws, with the message about the first of these in the order of the mode. Whether all units are compiled before the first is analysed changes nothing about the results of a run that ends, and decides only the order of what -verbose writes and, if a rule throws, which message is the first. What is written is determined: one line for each source without compile command on standard error, and with -verbose the progress lines, without it nothing.", "quantifier": "every toolchain, compilation database, list of sources, rule behaviour (also of rules that throw), mode and state of the rules", "why_tests_cant": "The driver has no tests; the directories, units and diagnostics of one command affect the next, so the claim is about all lists of commands.", "anchors": ["oclint-driver/lib/Driver.cpp", "oclint-driver/lib/RulesetBasedAnalyzer.cpp", "oclint-driver/lib/Logger.cpp"]}
{"id": "C93", "title": "Lives of the compilers", "statement": "In every run of the driver, ended or stopped, each compiler is created once, works on its inputs in order, is shown to the rules only between that and its end, has exactly those inputs ended that were begun successfully and each of them once, and is deleted at most once, after all rules have seen it and its diagnostics are finished; nothing happens to it afterwards. If files are compiled one by one, every compiler that yielded a unit is deleted before the next one is created; if they are compiled together none is deleted before all are created, and none at all if a compile command or a rule stops the run. A run that is stopped by a rule ends with this rule seeing a unit, and up to there does what it would do if the rule did not stop it. A compiler whose compile fails and all compilers of the Clang checker are never deleted.", "quantifier": "every toolchain, compilation database, list of sources, set and behaviour of rules, mode, and every position in the sequence of events", "why_tests_cant": "Use after deletion depends on every interleaving of successful and failing compile commands and rules in both modes.", "anchors": ["oclint-driver/lib/Driver.cpp", "oclint-driver/lib/CompilerInstance.cpp", "oclint-driver/lib/RulesetBasedAnalyzer.cpp"]}
{"id": "C94", "title": "The shipped rules", "statement": "The rules whose sources are in the repository have distinct names, identifiers and attribute names; identifiers are words of letters, names and categories plain text that disturbs no report format. Hence, whichever of them are loaded in whatever order: enabling or disabling some by identifier affects exactly these; an annotation against some silences exactly these; whether a violation can be read back from a report depends on its path and message only; every violation counts against exactly one of the three limits. Each rule is shown the declarations of a file exactly if it is meant for its language, kernels only to two rules. The default stated in the documentation of a threshold is the one used, and the documented source file is the one the rule is in. Names, priorities and categories are the ones the unit tests demand.", "quantifier": "every subset and order of the shipped rules, every list of requests, annotations and violations, every file and configuration", "why_tests_cant": "Each rule is tested alone; that no two of the shipped rules get in each other's way is about all subsets in all orders, with all requests and annotations.", "anchors": ["oclint-rules/rules", "oclint-core/lib/RuleBase.cpp", "oclint-driver/lib/RulesetFilter.cpp", "oclint-rules/include/oclint/AbstractASTVisitorRule.h"]}
{"id": "C95", "title": "Names of scaffolded rules", "statement": "scaffoldRule without --name makes up a name whose identifier is the class name exactly if the class name is a capital letter followed by letters only (or empty). Then the rule is enabled and disabled by its class name, and the documentation links to the file that was written. A class name of capitalised words gives the words with small first letters, separated by spaces, for rules and for reporters; a name that is given is kept.", "quantifier": "every class name, name and list of requests", "why_tests_cant": "The scripts have no tests; digits, underscores and runs of capitals in class names are about all strings.", "anchors": ["oclint-scripts/scaffoldRule", "oclint-scripts/scaffoldReporter", "oclint-core/lib/RuleBase.cpp"]}
{"id": "C96", "title": "Filling in templates", "statement": "For values without braces, the source and the test of a scaffolded rule are the templates with exactly the wildcards replaced by their values, though replaced one after the other and line by line. The block of nodes has, for each line of the two lists of nodes in order that matches def (.+) :, the code for the node that the leftmost, greedy match captures (with Decl appended for declarations), and nothing for other lines.", "quantifier": "every request without braces, every pair of lists of nodes", "why_tests_cant": "The scripts have no tests; replacing one wildcard after the other goes wrong when a value contains a later wildcard, which no usual value does.", "anchors": ["oclint-scripts/scaffoldRule", "oclint-rules/template"]}
{"id": "C97", "title": "Files of scaffolded rules", "statement": "In a checkout in which no directory is in the place of a file or vice versa, any sequence of calls of scaffoldRule succeeds. Afterwards every class has the source its last request asks for, and the test of its last request with tests; the list of every category has all build steps in order behind what it had; every category that had no list is added to the list of categories exactly once, in order; all other files are as before and only the directories of the categories are new. On any disk, and even if it fails, the script overwrites nothing but the sources of the class it is asked for.", "quantifier": "every checkout, every sequence of requests whose categories and class names have no slashes or braces; for the last sentence every disk", "why_tests_cant": "The scripts have no tests; what a call does depends on the files earlier calls have written, so the claim is about all sequences of calls from all checkouts.", "anchors": ["oclint-scripts/scaffoldRule", "oclint-scripts/oclintscripts/path.py"]}
{"id": "C98", "title": "Files of scaffolded reporters", "statement": "scaffoldReporter writes a reporter and (unless --no-tests) its test from the templates and appends one build step for each to the two lists, if neither file is there. Otherwise it prints one line for each that is there and changes nothing. On any disk, for any class name and even if it fails, no file that was there loses anything, and only the two lists can get more.", "quantifier": "every disk, class name, name and choice about tests", "why_tests_cant": "The scripts have no tests; that nothing is lost even if a call fails half way is about every disk and every point of failure.", "anchors": ["oclint-scripts/scaffoldReporter", "oclint-reporters/template"]}
{"id": "C99", "title": "Where the program looks for its parts", "statement": "The directory that oclint takes for its own is an absolute path to the directory of the program that the system started, whether the command has a slash or is looked for in PATH and whatever the working directory is; if no directory of PATH has it, it is the working directory. Without -R, rules are looked for in lib/oclint/rules beside the directory of the program, reporters in lib/oclint/reporters, and the first configuration file is etc/oclint. The bundle script puts the program and its links, rules and reporters in these places, so a program of a bundle finds the rules and reporters of its bundle, also after the bundle was moved.", "quantifier": "every command, working directory, PATH, file system without linked directories and place of the bundle", "why_tests_cant": "All ways to write and find a command, and an agreement between a C++ program and a Python script that no test runs together.", "anchors": ["oclint-driver/lib/Options.cpp:190-204", "oclint-driver/lib/Options.cpp:231-271", "oclint-scripts/bundle", "oclint-scripts/oclintscripts/path.py"]}
{"id": "C100", "title": "From long lines to the exit code", "statement": "oclint -rule LongLine -rc LONG_LINE=t, with nothing about rules in the configuration files, on different files that compile without errors and with reporting succeeding, exits with the code for exceeded thresholds if the files together have more lines longer than t characters than -max-priority-3 allows, not counting lines silenced by a comment or by the range of a declaration, and with 0 otherwise. The violations are, in the order of the files and of the lines, one per such line with its number and length; it does not matter whether files are analysed together and whether duplicates are allowed. The last -rc argument for a key decides its value against earlier ones and all configuration files.", "quantifier": "every machine, command line of this form, number of files, contents, limit in the range of int and threshold", "why_tests_cant": "Composes command line, configuration files, rule selection, compile jobs, line splitting, suppression with its caches, result collection, removal of duplicates and the exit code, for all files; tests look at each of these alone and at a few files.", "anchors": ["oclint-rules/rules/size/LongLineRule.cpp", "oclint-rules/lib/AbstractSourceCodeReaderRule.cpp", "oclint-driver/main.cpp", "oclint-driver/lib/Driver.cpp", "oclint-driver/lib/Options.cpp", "oclint-core/lib/RuleBase.cpp"]}
{"id": "C101", "title": "Declarations repeated in a file", "statement": "The size rules report a function at most once, and at its definition. (False for the NPath, NCSS, long method and too many parameters rules: they look at a value that all declarations of a function share, so that in a file each declaration of a function above the limit is reported with the same text, prototypes included, except that the long method rule leaves out declarations of C++ methods inside their class. Every @class of a class with too many instance variables is reported likewise. True for the cyclomatic complexity, with a limit of at least one and default arguments that do not branch, and for long C++ methods declared in their class. A function with no body is not reported.)", "quantifier": "all configurations, functions, bodies, numbers of parameters and lists of declarations", "why_tests_cant": "The tests of these rules have one declaration per function; how prototypes and definitions interact follows from which functions of Clang look at one declaration and which at all of them.", "anchors": ["oclint-rules/rules/size/TooManyParametersRule.cpp:15-25", "oclint-rules/rules/size/NPathComplexityRule.cpp:20-38", "oclint-rules/rules/size/NcssMethodCountRule.cpp:14-24", "oclint-rules/rules/size/LongMethodRule.cpp:14-29", "oclint-rules/rules/size/CyclomaticComplexityRule.cpp:20-32", "oclint-rules/rules/size/TooManyFieldsRule.cpp:77-87"]}
{"id": "C102", "title": "From the run to the report", "statement": "If the rules load, the reporter is found, the analysis ends and the destination can be opened, then a run with any of the six shipped reporters ends with exit code 0, 5 or 6, and the report, on standard output or in the file of -o, reads back as exactly the results of the analysis, provided that paths, messages and rule names have no characters that are special in the chosen format. Conversely, exit code 0, 5 or 6 means that the report of the chosen format was handed to that destination. For oclint -rule LongLine the report lists exactly the too long lines of the files; then only the paths of the files (and, where diagnostics are reported, their texts) need to be free of special characters.", "quantifier": "every machine with the shipped reporters, command line, set of rules, results of the analysis and clock", "why_tests_cant": "Composes options, loading, analysis, collection and the writing of each format, and reads the result with independent parsers; tests look at reporters alone with a few made-up violations.", "anchors": ["oclint-driver/main.cpp:51-73", "oclint-driver/main.cpp:151-230", "oclint-reporters/reporters/JSONReporter.cpp", "oclint-reporters/reporters/XMLReporter.cpp", "oclint-reporters/reporters/PMDReporter.cpp", "oclint-reporters/reporters/XcodeReporter.cpp", "oclint-reporters/reporters/TextReporter.cpp", "oclint-reporters/reporters/HTMLReporter.cpp"]}
{"id": "C103", "title": "Reports that could not be written", "statement": "If oclint exits with 0, 5 or 6, the whole report is in its place. (False: the program never looks at the state of a stream after writing. When the disk or the reader of standard output takes only the first n characters, exactly these n arrive, nothing is said about it, and exit code and messages are the same as with enough room. True when there is room for everything.)", "quantifier": "every machine, command line, amount of room for standard output and for each file, and way in which the reporter divides its text into writes", "why_tests_cant": "Tests write into a string stream that takes everything; the claim is about every amount of room on the disk or in the pipe.", "anchors": ["oclint-driver/main.cpp:51-73", "oclint-driver/main.cpp:110-131", "oclint-driver/main.cpp:151-218"]}
{"id": "C104", "title": "What the rules find is what is counted, rule by rule", "statement": "Take a run in which every file compiles far enough to be looked at, with any number of rules that walk the syntax tree and report nodes, together with the long line rule. What is collected is, file by file and in each file rule by rule in the order of the identifiers, exactly what each rule finds in the declarations of the main file that it is shown (none if the rule does not support the language; in CUDA sources only the functions it asks for), leaving out findings on no node, findings on or inside a declaration annotated for the rule or for all rules, findings that begin on a line with a suppressing comment, and findings in no file. The exit code follows from these and the limits alone. Rules do not disturb each other: switching other rules on or off changes nothing in what is reported for a rule, in spite of the state that rules keep between files and the cached answers about suppression. Conversely nothing is left out silently: if the analysis ends without an exception, every running rule was set up for every file that compiles and went through all declarations it is to be shown.", "quantifier": "for all sets of rules, all syntax trees, annotations, comments, source texts and orders of files, any findings and any state kept by the rules, provided that what a rule finds in a file does not depend on the files before", "why_tests_cant": "A test runs one rule on one file. State kept in rule objects, caches of suppressed lines shared between files and the order of rules only matter in combinations of rules and files that nobody enumerates.", "anchors": ["oclint-rules/include/oclint/AbstractASTVisitorRule.h", "oclint-rules/lib/AbstractASTRuleBase.cpp", "oclint-core/lib/RuleBase.cpp", "oclint-core/lib/RuleCarrier.cpp", "oclint-driver/lib/RulesetBasedAnalyzer.cpp", "oclint-driver/main.cpp"]}
{"id": "C105", "title": "The version that is stated", "statement": "Every report, except in Xcode's format, which has no place for it, states the version of the program, whatever was found, and so does -version; it is the version in the name of the program that is built and bundled. Both links of a bundle point to that program and no two names are the same. (False: the program is built as oclint-26.02 and every report states 24.11.)", "quantifier": "every result, clock, set of rules and moment of the build; every commit for the links", "why_tests_cant": "The test of the version compares the constant with itself; that the release in the build files is another one only shows when they are put side by side, and that no report can state the release needs all results.", "anchors": ["oclint-core/lib/Constants.cpp:5-8", "oclint-core/cmake/OCLintConfig.cmake:39", "oclint-driver/CMakeLists.txt:22", "oclint-driver/main.cpp:144-149", "oclint-driver/main_docgen.cpp:76-81", "oclint-scripts/bundle:37-43", "oclint-scripts/oclintscripts/version.py"]}
{"id": "C106", "title": "Limits, from the settings to the exit code", "statement": "The ten rules with a size limit have the limits that the configuration files and -rc set for them, the last one winning, or their documented defaults. In a run of any of these rules in which every file compiles, what is reported is, file by file and rule by rule, one violation with the measured value and the limit for each construct of the shown declarations whose measure is above the limit and which is not suppressed, and nothing else; the exit code is 0 if no more than -max-priority-1, -2 and -3 of priorities as documented are reported, else 5 (6 if a file has errors). Raising limits never adds a report, so a run without duplicates that succeeds still succeeds. (Limits of zero or more for the parameters of a method and the length of names; C38 says what negative ones do.) A run that ends in a report has visited every construct of every file with every such rule; a name that the name rule cannot shorten therefore never ends in exit code 0, 4, 5 or 6.", "quantifier": "for all configuration files and command lines, all subsets of the ten rules, all files, trees, constructs, comments and annotations, all limits", "why_tests_cant": "The tests set a limit for one rule and look at one construct; that the number typed on the command line is the one every rule compares with, and that nothing on the way to the exit code adds or loses a report, is about all settings and all files at once.", "anchors": ["oclint-driver/lib/Options.cpp", "oclint-core/lib/RuleConfiguration.cpp", "oclint-rules/rules/size", "oclint-rules/rules/naming/LongVariableNameRule.cpp", "oclint-rules/include/oclint/AbstractASTVisitorRule.h", "oclint-driver/main.cpp:176-227"]}
{"id": "C107", "title": "The report of a run is what the rules found", "statement": "In a run of shipped rules in which every file compiles, the text that arrives on the screen or in the output file, read by a parser of its format, states exactly the findings that are not silenced, in the order of the files and, within a file, of the rules - each once unless duplicates are asked for -, with the diagnostics of the compiler and of clang's static analyzer where the format lists them, and with the numbers of files, of files with violations and of violations of each priority. This holds for the formats JSON, XML, PMD, Xcode, text and HTML as long as paths and messages avoid the characters that the format does not escape (C55). Messages about size limits always do when variables have plain names, so for these rules nothing is asked of the messages.", "quantifier": "for all sets of shipped rules and what they find, all files, trees, comments and annotations, all command lines and all six formats", "why_tests_cant": "No test runs a rule and a reporter together; reporters are tested with a handful of made-up violations, and rules with a collector that nobody prints.", "anchors": ["oclint-driver/main.cpp:151-230", "oclint-core/lib/ResultCollector.cpp", "oclint-core/lib/RawResults.cpp", "oclint-core/lib/UniqueResults.cpp", "oclint-rules/lib/AbstractASTRuleBase.cpp", "oclint-rules/rules/size", "oclint-reporters/reporters"]}
{"id": "C108", "title": "Building, testing and checking the project itself", "statement": "The script `build` prepares every part of the project with CMake and builds it in a directory of its own, a part only after everything it is built on; `test` does so in test directories and then runs the tests of the part; `dogFooding` has CMake list how the part is compiled and checks it with the program that was built; `ci` calls these scripts. Each stops at the first command that fails and ends with its code, so exit status 0 means that everything that was planned was run and succeeded - for `test` that the tests of every part passed, for `dogFooding` that no violation was found in any part. The scripts write to no directories but their own, and each command reaches CMake with the words that were meant.", "quantifier": "for all machines - whatever commands return, whichever file operations fail and whichever directories exist -, all options, all directories of the project and all directories the scripts are called in", "why_tests_cant": "The scripts are what runs the tests; nothing tests them. A wrong order, a code that is dropped or a directory that two parts share shows only on a machine that happens to fail at that point.", "anchors": ["oclint-scripts/build", "oclint-scripts/test", "oclint-scripts/dogFooding", "oclint-scripts/ci", "oclint-scripts/oclintscripts/process.py", "oclint-scripts/oclintscripts/path.py", "oclint-scripts/oclintscripts/cmake.py"]}
{"id": "C109", "title": "A release is what was built", "statement": "When `bundle` succeeds, the directory of the release has the driver's programs and the links to it, the rules, the reporters, the compiler's headers, the helper programs that are there, the C++ headers on Intel Macs and a licence made of OCLint's and the first 44 lines of LLVM's - each exactly as it was built or installed, and nothing else, whatever an older release left; nothing else on the disk changes. It succeeds exactly if these sources are there and no name is taken. A program started from the release finds exactly the rules and reporters that were built. With -archive the release is moved to a directory named after the version and packed under that name, exactly as it is; a second release of the same version fails instead of being mixed with the first, while without -archive a second run gives the same disk.", "quantifier": "for all disks on which everything is in a directory, all options, commits and places of the project and of LLVM that are apart from the release", "why_tests_cant": "No test runs the script; a file left from an older release, a library that is not copied or a link that points nowhere is only seen by whoever unpacks the archive.", "anchors": ["oclint-scripts/bundle", "oclint-scripts/oclintscripts/path.py:76-97", "oclint-scripts/oclintscripts/version.py", "oclint-driver/lib/Options.cpp:268-271"]}
{"id": "C110", "title": "Setting up LLVM leaves what is needed", "statement": "`clang` downloads the LLVM of this machine into one directory and unpacks it into another, both of which exist by then and, with `-clean`, are empty before. Converting a static library loses no member and changes none except into native code, and a library that cannot be unpacked or packed stays as it was. On macOS exactly the libraries `libc++*` and `libunwind*` and the headers in `include/c++` and `include/<platform of Apple>/c++` are taken away, elsewhere nothing. What is left is what `bundle` needs to make a release.", "quantifier": "for all disks on which everything is in a directory, all machines, all libraries (lists of members), everything `ar`, `llc`, the download and the unpacking may do, and all orders in which files are listed", "why_tests_cant": "Nothing tests the script: it needs a download of more than a gigabyte, and what it does depends on the machine. A member that is lost shows as a linker error, a header that is missing shows when a release is made on another kind of Mac.", "anchors": ["oclint-scripts/clang", "oclint-scripts/bundle:75-81", "oclint-scripts/oclintscripts/path.py:43-44", "oclint-scripts/oclintscripts/path.py:72-74"]}
{"id": "C111", "title": "Scripts that call other scripts stop at the first failure", "statement": "`googleTest` fetches, updates and builds GoogleTest in the place where the tests look for it. `docGen`, `make`, `makeWithSystemLLVM` and `gh-actions` call the other scripts in a fixed order, end with the status of the first one that fails, and start nothing after it. A job that tests a part of the project is called with exactly the parts it is built on; there is one job for each part, and if it ends with status 0 then LLVM was set up, GoogleTest was fetched and built, what the part is built on was built, and the tests of the part were run and passed. `makeWithSystemLLVM` refuses a path at which there is nothing, and otherwise builds a release with the LLVM at that path.", "quantifier": "for all machines - whatever commands return, whichever file operations fail and whichever files exist -, all arguments of the scripts, all directories of the project and all directories the scripts are called in", "why_tests_cant": "These scripts are the tests' own scaffolding: if a status were dropped the job would be green without a single test having run, and nothing would notice.", "anchors": ["oclint-scripts/googleTest", "oclint-scripts/docGen", "oclint-scripts/make", "oclint-scripts/makeWithSystemLLVM", "oclint-scripts/gh-actions", ".github/workflows/tests.yaml"]}
{"id": "C112", "title": "Reports of a rule come in source order and none twice", "statement": "A rule that looks at one statement at a time reports what it is made for in the order in which the source is traversed, a statement before what is nested in it, and for each statement that calls for a report there is exactly one. Where a statement calls for several (instance variables on the left of an assignment, parameters assigned to, labels in a switch, exits of a finally block) each comes once and in source order; a CUDA source is gone through declaration by declaration.", "quantifier": "every syntax tree, every configuration the rules read, every oracle for ranges and constants", "why_tests_cant": "a test compares the reports for a short snippet with one violation; that no nesting of statements makes a rule report twice or out of order is a statement about all trees", "anchors": ["oclint-core/include/oclint/RuleBase.h", "oclint-rules/include/oclint/AbstractASTVisitorRule.h:14-63", "oclint-rules/rules/basic", "oclint-rules/rules/convention", "oclint-rules/rules/redundant", "oclint-rules/rules/empty", "oclint-rules/rules/unused"]}
{"id": "C113", "title": "The order of the sources does not matter, and parts can be analysed apart", "statement": "When the directories of the compile commands are absolute and no rule remembers one file when it looks at the next, giving the sources in another order gives the same violations, warnings, errors and analyzer bugs, in another order, and the same exit code. Analysing two parts of the sources in two runs gives, one after the other, exactly what one run over all of them gives, in every channel. A run over some of the sources succeeds if the run over all of them does. None of this holds of relative compile directories, since the program does not go back after a compile.", "quantifier": "for all machines, options, rule sets that are steady, sources, permutations, splits and sublists of the sources, with and without removal of duplicates, with and without clang's static analyzer", "why_tests_cant": "a test has one order of a few files; a rule set or a driver that leaks state from one file into the next shows only for particular neighbours", "anchors": ["oclint-driver/lib/Driver.cpp:101-121", "oclint-driver/lib/Driver.cpp:227-298", "oclint-core/lib/ResultCollector.cpp", "oclint-core/lib/UniqueResults.cpp", "oclint-driver/main.cpp:169-219"]}
{"id": "C114", "title": "From the command line and the configuration files to the exit code", "statement": "Which exit code the program ends with is determined by the command line, the three configuration files and what the plugins, clang and the reporter do, as follows. Rule plugins are looked for in the directories of the command line and the files, or in the installation's; 1 if one does not open or there is no rule. The reporter is the first plugin of the installation with the effective name; 2 if there is none. Every job of the sources is compiled where the one before left and looked at by the rules that the requests select, and with the effective switch clang's static analyzer runs afterwards; 3 if that stops. 4 if the effective output has no name or does not open, or the reporter throws; 6 if there is a compiler error; 5 if there are more violations of a priority, counted once unless duplicates are allowed, than the effective limit; otherwise 0. A command line that is not accepted gives 7. If a configuration file that is consulted has a text, the program reads freed memory instead, whatever the command line. The program always ends if compile commands are not empty (and have an argument when the static analyzer runs), reporter plugins can create a reporter, and rules and reporters do not have undefined behaviour themselves.", "quantifier": "every command line whose -rc arguments are shorter than 2^31 bytes, all configuration files and results of the YAML reader, all directories and plugins, compilation databases, sources, rules, reporters, behaviours of clang and of the file system", "why_tests_cant": "each stage has tests of its own at best, and main has none; that the stages fit together - that the limit used is the effective one, that the rules that run are the selected ones - is not tested anywhere", "anchors": ["oclint-driver/main.cpp:44-219", "oclint-driver/lib/Options.cpp:100-300", "oclint-driver/lib/ConfigFile.cpp", "oclint-driver/lib/Driver.cpp:131-418", "oclint-driver/reporters_dlfcn_port.cpp:12-50", "oclint-driver/rules_dlfcn_port.cpp"]}
{"id": "C115", "title": "The script in the HTML report sorts the table when a heading is clicked", "statement": "The text between `<script>` and `</script>` of the HTML report is a JavaScript function `sortTable` of one parameter. Run by the rules of the language on a page whose table `violations-table` has one row of headings, it ends and only moves the rows of the body: they are ascending in the given column afterwards, descending if they were ascending before, and equal rows stay in order. If one of the first two rows lacks the column, or the page has no such table, it ends with a TypeError. In a report whose texts have no markup, the table has one row per violation, error, warning and finding, and each of the six headings calls the function with the number of its own column.", "quantifier": "for all pages, columns, orders of texts, translations to lower case and results of an analysis", "why_tests_cant": "No test runs the script, and no C++ compiler looks into it: a misspelt variable or an exchanged comparison is a string like any other. That the loop ends and sorts is about all tables.", "anchors": ["oclint-reporters/reporters/HTMLReporter.cpp:147-176 sortTable", "oclint-reporters/reporters/HTMLReporter.cpp writeHead"]}
{"id": "C116", "title": "From the words of the command line to the settings and the exit status", "statement": "Every list of words on the command line can be read in exactly one way as sources, options with texts, requests to print something, and mistakes. The program prints help or its version and ends with 0 if such a request is read, whatever mistakes are before it. Otherwise it goes on exactly if nothing is a mistake, there is a source, no option that may be given once is given twice, and every limit is a number that fits `int` and every switch one of the nine texts for on and off; then each setting is what the words say. All other lines end with 7. The words after the first `--` are compiler arguments. Every combination of settings can be given, except sources that begin with a dash.", "quantifier": "for all lists of words, replacements of response files, compilation databases, machines and configuration files", "why_tests_cant": "No test runs `main` or declares the options: a misspelt option name, a list declared as a single option or a limit declared with the wrong type shows only when the program is called with it. That every line has one reading and every setting a line is about all lists of words.", "anchors": ["oclint-driver/lib/Options.cpp:25-97", "oclint-driver/main.cpp:169-219 main"]}
{"id": "C117", "title": "The words of a compile command reach Clang in both passes", "statement": "In both passes Clang's driver is given the words of the compile command in order, without those about output, temporary files, colours and modules, with -D__OCLINT__ as an option; the pass of Clang's checker has --analyze in place of the -fsyntax-only of the first pass and otherwise the same words, so it looks at the same source. This is not true of every command: the checker pass drops the last word whatever it is. If the command has a -fsyntax-only of its own before the source, or, with a Clang that inserts before it, a --, the source itself is dropped; after a -- the macro is read as a file; and any word that begins with -o counts as output.", "quantifier": "for all compile commands whose program does not begin with a dash, both places where Clang may insert -fsyntax-only, and both passes", "why_tests_cant": "The adjusted command exists only inside a run with a compilation database; no test of the driver builds one, and the dropped word is the right one for the commands people try. The cases in which it is not are found by considering all commands.", "anchors": ["oclint-driver/lib/Driver.cpp:265-273 adjustArguments", "oclint-driver/lib/Driver.cpp:178-202 newCompilerInvocation", "oclint-driver/lib/Driver.cpp:331-364 invokeClangStaticAnalyzer"]}
{"id": "C118", "title": "Which plug-ins are built", "statement": "From the CMake lists of the repository, one plug-in is built for every source of a rule and of a reporter, under the name of the source, and nothing else. After any sequence of calls of scaffoldRule in a tree that can be built, everything can be built: what was built before, and one plug-in for each request. The same holds for scaffoldReporter and the requests it does not refuse. Two of these sentences are not true: the line of FeatureEnvyRule.cpp is commented out, so that this one source is not built; and scaffoldRule accepts a class name that another rule has, in the same or in another category, after which nothing can be built any more.", "quantifier": "for all disks with the lists of the repository and the sources; for all trees that can be built, all sequences of requests with names of letters, digits and underscores in categories that are built or new", "why_tests_cant": "No test configures the tree; the unit tests of the rules are built from other lists, so the rule that is not built passes its tests. Sequences of scaffolding calls, categories that come up again and names in two categories are about all sequences.", "anchors": ["oclint-rules/rules/CMakeLists.txt:1-58", "oclint-rules/rules/design/CMakeLists.txt:1-7", "oclint-reporters/reporters/CMakeLists.txt:1-23", "oclint-scripts/scaffoldRule:98-103 write_cmake_lists", "oclint-scripts/scaffoldReporter:50-56"]}
{"id": "C119", "title": "Which tests are built", "statement": "From the CMake lists of the repository the programs of tests that are built have the canary and every source of a test below oclint-rules/test, each exactly once, and no others; without CUDA the three that need it are left out. Every rule of the repository, also the one that is not built itself, has the source of a test of its name in the directory of its category, and it gets into a program. After any sequence of calls of scaffoldRule, with or without tests, in a tree whose tests can be built, the tests can be built exactly if no two requests for a test and no such request and a program that there was have one name; then what is built is what was built before and one program for each request for a test, with the source that was written for it. For reporters, the core, the metrics and the driver, one program is built for every source of a test that is in the repository. After any sequence of calls of scaffoldReporter, what is built is what was built before and one program for each request for a test that is not refused.", "quantifier": "with and without CUDA, for all disks with the lists of the repository and the sources; for all trees whose tests can be built, all sequences of requests with names of letters, digits and underscores in categories that are built or new", "why_tests_cant": "A test that is not in a list is not run, and nothing fails. Sequences of scaffolding calls, categories that come up again, requests without a test and names in two categories are about all sequences.", "anchors": ["oclint-rules/test/CMakeLists.txt:1-38", "oclint-rules/test/cuda/CMakeLists.txt:1-6", "oclint-scripts/scaffoldRule:105-109 write_test_cmake_lists", "oclint-rules/CMakeLists.txt:24-29", "oclint-reporters/test/CMakeLists.txt:1-20", "oclint-core/test/CMakeLists.txt:1-28", "oclint-metrics/test/CMakeLists.txt:1-19", "oclint-driver/test/CMakeLists.txt:1-21", "oclint-scripts/scaffoldReporter:59-61 write_test_cmake_lists"]}
{"id": "C120", "title": "How the scripts read their command lines", "statement": "Whatever build, test, dogFooding, ci, googleTest, bundle, clang, scaffoldRule and scaffoldReporter can be asked for can be said with their options in any order, and is then what the script is asked for. In general a line that says one thing after another asks for all of them in turn; it is refused exactly if one of them is not allowed, or the argument without a name is missing or given too often. Scripts that start other scripts are understood: the lines of docGen, gh-actions and makeWithSystemLLVM, the texts that ci makes with the number of jobs, and the words that make passes on, whatever they are. scaffoldRule and scaffoldReporter make nothing for a class that was not named. A word that begins with a dash and is no option, nor the beginning of one, is refused. The last sentence is not true: any word that begins with -n gives scaffoldRule and scaffoldReporter a name, so -no-test with one dash, the form that the other scripts allow, makes a rule with tests and the name o-test.", "quantifier": "for all requests and orders of options, all texts and numbers as their values, all words that make is given, all paths and names of parts that cannot be mistaken for options, all numbers of jobs", "why_tests_cant": "No test runs a script. A misspelt option in one script shows when another one calls it; that names with a dash, numbers below zero and words in any order are understood is about all command lines.", "anchors": ["oclint-scripts/build:13-24", "oclint-scripts/test:18-29", "oclint-scripts/ci:11-17", "oclint-scripts/googleTest:14-22", "oclint-scripts/bundle:20-25", "oclint-scripts/clang:12-16", "oclint-scripts/scaffoldRule:122-131", "oclint-scripts/scaffoldReporter:74-80", "oclint-scripts/make:3-4", "oclint-scripts/oclintscripts/process.py:13-17 j_flag"]}
{"id": "C121", "title": "A build is made with the options it is called with", "statement": "After a call of `build` that succeeds, every part that was built is compiled for the documentation (with -DDOCGEN, which adds virtual functions to RuleBase) exactly if this call has -docgen, and optimized exactly if it has -release; so all parts agree on the class RuleBase. Whatever sequence of `build`, `test` and `dogFooding` was called, in whatever order and however the calls ended, a directory of `build` never has tests set up instead of plug-ins, and tests and checks are never compiled for the documentation nor optimized. The first sentence is not true without -clean: CMake remembers options, so what an earlier call asked for is still done; after `docGen`, `build -no-ninja` as `gh-actions` calls it compiles all parts but the reporters for the documentation.", "quantifier": "for all machines, all options, everything CMake may remember from before, all sequences of calls, and all directories without spaces in their names", "why_tests_cant": "Whether a build is right depends on which builds were made in the same directory before; no test calls the scripts at all, and machines for continuous integration always start from nothing, where the mistake cannot be seen.", "anchors": ["oclint-scripts/build", "oclint-scripts/test", "oclint-scripts/docGen", "oclint-scripts/oclintscripts/cmake.py", "oclint-core/cmake/OCLintConfig.cmake"]}
{"id": "C122", "title": "Every source is built, and what is built fits together", "statement": "From the CMake lists of the repository, whatever else is on the disk and whatever CMake remembers, each part builds libraries in which every source in `lib` occurs exactly once; the driver also builds the program oclint-26.02 of main.cpp and the two loaders, and oclint-docgen of main_docgen.cpp and the loader of rules exactly if DOC_GEN_BUILD is set; no two targets have the same name and no source is left out but main_docgen.cpp. CMake goes on to the tests if TEST_BUILD is set and to the plug-ins otherwise, and to the plug-ins in every directory of `build` whatever scripts were called before. After a call of `build` that succeeds, libraries are looked for where the parts that a part is built on write theirs, every library of the project that a program is linked with is found there or built by the same part, and each program is linked with the driver, the rule set and the core in this order; after a call with -clean there is oclint-docgen exactly if the call has -docgen. A release that `bundle` makes has each program that is built, taken from where it is written, and the names that users start lead to a program that is built.", "quantifier": "for all disks with the lists and sources of the repository, everything CMake may remember, all sequences of calls of the scripts, all options of `build`, all directories without spaces and semicolons in their names", "why_tests_cant": "A source that is missing from a list, or is in two libraries, shows only when something that needs it is linked; that the parts agree on where libraries are depends on the scripts, the options and the lists together, and no test configures a build.", "anchors": ["oclint-core/CMakeLists.txt", "oclint-core/lib/CMakeLists.txt", "oclint-metrics/CMakeLists.txt", "oclint-metrics/lib/CMakeLists.txt", "oclint-rules/CMakeLists.txt", "oclint-rules/lib/CMakeLists.txt", "oclint-rules/lib/helper/CMakeLists.txt", "oclint-rules/lib/util/CMakeLists.txt", "oclint-reporters/CMakeLists.txt", "oclint-driver/CMakeLists.txt", "oclint-driver/lib/CMakeLists.txt", "oclint-scripts/build", "oclint-scripts/oclintscripts/cmake.py"]}
{"id": "C123", "title": "Archives that are packed are uploaded and do not replace each other", "statement": "The upload step that the workflows for builds, for the documentation and for releases share copies exactly the files below `build` whose names begin with oclint- and end with .tar.gz. The archive of every run of `bundle -archive` that succeeds, and the archive that docGen makes, are among them. Archives that are made of one commit on two machines have the same name exactly if both or none are releases and the machines have the same architecture, system and release of the system up to capital letters; so no job of a workflow replaces the archive of a job on another sort of machine; and archives of two commits whose names have no dashes have the same name only if both are releases.", "quantifier": "for all names, all machines whose architecture and system have no dash in their names, all commits, all options of bundle and all disks", "why_tests_cant": "Uploads only happen in workflows of the project itself; a pattern that fits nothing copies nothing and is no error, and that two names are the same shows only when an archive is missing.", "anchors": [".github/workflows/build.yaml", ".github/workflows/docgen.yaml", ".github/workflows/release.yaml", "oclint-scripts/bundle:101-109", "oclint-scripts/oclintscripts/environment.py"]}
