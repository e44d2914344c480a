## What is modelled

By source file; `tools/lines.py` lists the code lines of these files that no definition cites. A
citation says which lines a definition was read from. It is not evidence that it was read
correctly. `tools/citations.py` checks that cited ranges exist and contain the function they name.

* `oclint-core/lib`: violations, violation sets, result collector, raw and unique results, rule set,
  rule configuration, rule base, `RuleCarrier::addViolation` (`Model/Results`, `Registry`,
  `RuleBase`).
* `oclint-driver`: option processing, configuration files after YAML parsing, rule filter, plugin
  loading, compile commands and jobs, diagnostics, running the analyzer, `main` and its exit codes
  (`Model/Options`, `RulesetFilter`, `Loader`, `Driver`, `Main`); finding the program (`Install`);
  what `main`, the loaders and the driver write (`Console`, `Verbose`), also with the shipped reporters (`ReportRun`) and when there is no room for it (`WriteFailure`); runs of the long line rule (`LongLineRun`) and of any rules of the tree (`TreeRun`), among them those with limits (`MetricRun`); the lives of the compilers (`Lifecycle`); the keys of configuration files (`ConfigYaml`) and the memory
  their texts are in (`ConfigLifetime`); the documentation generator (`DocGen`).
* `oclint-metrics/lib`: cyclomatic complexity, NPath, NCSS, statement depth (`Model/Metrics`).
* `oclint-reporters`: HTML, JSON, PMD, text, XML and Xcode (`Model/Reporters`) and the sorting script
  of the HTML report (`SortTable`). The text of the script in `Reporters` is read and run by the rules for
  the part of JavaScript it uses in `Spec/Script` (C115): statements, numbers as natural numbers, `rows` as
  the live list of the rows of the table, `innerHTML`, `insertBefore`. Not in it: how a browser builds the
  table from the page beyond reading the tags of the rows, semicolons that are left out, other types.
* `oclint-rules/lib`: `AbstractASTRuleBase`, `AbstractSourceCodeReaderRule`, attributes and suppression
  (`Model/RuleBase`, `SourceLines`, `Suppress`), `StdUtil` (`Text`), `ASTUtil`.
* Declarations that share a definition (`Redeclarations`).
* All rules: `size`, `naming`, `basic`, `empty`, `redundant`, `convention`, `design` (`Thresholds`,
  `ShortNames`, `SourceLines`, `RulesControl`, `RulesExpr`, `RulesSwitch`, `RulesNull`, `FeatureEnvy`,
  `RulesLocal`, `RulesCxx`), `cuda` (`RulesCxx`), `unused` (`RulesUnused`), `cocoa` (`RulesCocoa`) and
  `migration` (`RulesMigration`). What the rules answer about themselves is in `Catalogue`; of the
  documentation texts (`DOCGEN`) only those about thresholds are modelled.
* `oclint-scripts/scaffoldRule`, `scaffoldReporter`, `path.py:86-88`, `version.py:20-21` (`Scaffold`)
  and the templates they read (`ScaffoldTemplates`); of `bundle` and `path.py` the places of programs, rules
  and reporters (`Install`), the version texts (`Version`).
* `oclint-rules/rules/CMakeLists.txt`, the `CMakeLists.txt` of the categories and
  `oclint-reporters/reporters/CMakeLists.txt`: the texts, and the part of CMake's language that they and the
  scaffolding scripts use, from its documented behaviour (`CMake`).
* `oclint-rules/test/CMakeLists.txt`, the `CMakeLists.txt` of the categories of tests and
  the lists of tests of the other projects, in the same way (`TestLists`, `CMake`).
* the `CMakeLists.txt` of the five parts and of their directories `lib`, in the same way: targets, sources, what
  is linked and where libraries are looked for, but not where headers are (`ProjectLists`).
* `oclint-scripts/bundle` as a whole, on a disk of directories, files and links (`Bundle`).
* `oclint-scripts/clang` after `argparse` has read the command line; the download, `tar`, `ar` and `llc` are
  parameters (`LlvmSetup`).
* `oclint-scripts/build`, `test`, `dogFooding`, `ci` after `argparse` has read the command line, with
  `process.py`, `cmake.py` and the functions of `path.py` they use (`BuildScripts`).
* what CMake remembers of the options these scripts give it (`CMakeCache.txt`, from CMake's documented
  behaviour), and what `OCLintConfig.cmake:18-36` and `123-125` make of them (`CmakeCache`). The generator is
  not remembered.
* `oclint-scripts/googleTest`, the shell scripts `docGen`, `make`, `makeWithSystemLLVM` and `gh-actions`, and
  the jobs of `.github/workflows/tests.yaml` (`CiScripts`). Names of files are not expanded.
* the command lines of all nine scripts that use `argparse`, from the words to the attributes, with the part
  of `argparse` of Python 3.11 that they use (`Argparse`). `argparse` is not part of the project; its model
  was compared with the library on 14400 random command lines (`tools/argparse_diff.py`), which is a test of
  the trusted base and no proof.
* `environment.py:9-31` but `linux_distribution`, and the steps of `.github/workflows/build.yaml`, `docgen.yaml`
  and `release.yaml` that upload archives, with the filters of `aws s3 cp` from their documentation (`Uploads`).

## What is not modelled

Whole files:

* `oclint-driver`: of `CompilerInstance.cpp` the choice of the front end action (57-62) and the set up of the target (64-81), `GenericException.cpp`; of `Logger.cpp` the debug stream.
* `oclint-rules/lib/AbstractASTMatcherRule.cpp`: what a matcher rule reports is modelled, how
  Clang's matchers find it is not.
* `oclint-scripts/upload`, which only says that it is not implemented and ends, the other steps of the other workflows, the rest of `OCLintConfig.cmake`, the other files of `oclint-core/cmake`, and the headers except where a definition cites them.

Parts of files that are otherwise modelled:

* `Driver.cpp:82-98`, `205-261`: construction of Clang's driver, invocation and compiler instance
  (an input of the model), debug output.
* How LLVM's `cl` library and Clang's `CommonOptionsParser` read the words of the command line is modelled
  from their documented behaviour (`CommandLine`); response files and the compilation database are
  parameters. LLVM's libraries declare more options of their own, which count as unknown in the model.
* Clang's argument adjusters, which `Driver.cpp:265-273` combines, are modelled from their documented behaviour
  (`Adjusters`); in the model of a run (`Driver`) they are a parameter.
* LLVM's YAML reader, which `ConfigFile.cpp` drives: the text to tree part is a parameter, how a tree
  is read is modelled from its documented behaviour (`ConfigYaml`).
* Accessors, constructors and one-line forwarding functions.

Simplifications are named at the definitions; search `Model/` for "Simplification".

## Known dependencies between properties

* C13, C14, C16, C17 and C89 use `processOptions`, which takes the texts of configuration files to stay
  readable. C68 proves that they are not, so these properties hold of the code only if no consulted
  configuration file has a text entry that is not empty (`C68_options_defined`); otherwise the run has
  undefined behaviour (`C68_options_undefined`). C114 puts both together for the whole program.

## How the model was compared with the repository's own tests

`tools/repotests.py write` reads the tests in `oclint-rules/test` and `oclint-metrics/test` as text,
has Clang parse the snippets in them, translates Clang's trees into terms of the model and writes one
`example` per expectation into `lean/Verif/Tests`.  The expected places and messages are those of the
tests.  1086 expectations are replayed; 19 are not, `tools/repotests.txt` says which and why.  The
tests of the reporters, of the core and of the driver are translated by hand in
`Verif/Tests/Reporters.lean`.  All of them hold.

These are tests, not proofs: no theorem uses them.  They check that the model of the rules agrees
with what the authors of the code expect of the code.  Two things are trusted in them.  The parser is
Clang 22 of the Lean toolchain and not the Clang 21 the project is built with.  The translation of its
trees is a script.  Nothing of the project was built or run.

## What the seeded edits show

`seeded/LOG.jsonl` is made by `tools/mutate.py` (edits the model in a scratch copy and rebuilds) and
`tools/mutlog.py`. Read it with these limits:

* A failing proof means that the proof does not go through for the edited model. It does not mean
  that the theorem is false of it. The field `evidence` says whether a property theorem failed or only
  lemmas did; the latter is the case for most lines, because the build is stopped soon after the
  first error, and then the field `claim` is inferred by a script from what uses the lemma.
* Edits that make the model itself fail to compile are left out. Everything else is in the log,
  including edits that survive.
* Edits written by hand were collected by a script that set survivors aside to be looked at. A few
  had no line in the log and were added later. Only edits whose lists were still at hand could be
  checked for this, so some early ones may be missing.
* Theorems renamed after an attempt appear under their present names.
