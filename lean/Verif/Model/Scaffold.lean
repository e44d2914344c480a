import Verif.Model.Registry
import Mathlib.Data.List.Infix

/-!
# The scaffolding scripts

Models `oclint-scripts/scaffoldRule`, `oclint-scripts/scaffoldReporter` and what they use of
`oclint-scripts/oclintscripts/path.py` and `version.py`, after `argparse` has read the command line.

Simplification: a path is its text, two texts for one place (`.`, `..`, `//`) count as different;
permissions and full disks are left out; texts that are read have `\n` for a line break.
-/

namespace Oclint

/-! ## Python -/

/-- The scan of `str.replace`: the number is how many characters of a replaced occurrence are left. -/
def pyReplaceFrom (old new : Str) : Nat → Str → Str
  | _, [] => []
  | k + 1, _ :: cs => pyReplaceFrom old new k cs
  | 0, c :: cs =>
    if old.isPrefixOf (c :: cs) then new ++ pyReplaceFrom old new (old.length - 1) cs
    else c :: pyReplaceFrom old new 0 cs

/-- Python's `s.replace(old, new)`, for an `old` that is not empty. -/
def pyReplace (s old new : Str) : Str := pyReplaceFrom old new 0 s

/-- Python's `os.path.join(a, b)` on POSIX. -/
def pyJoin (a b : Str) : Str :=
  if b.head? = some '/' then b
  else if a = [] ∨ a.getLast? = some '/' then a ++ b
  else a ++ '/' :: b

/-- `for line in file`: lines with their line breaks; the first argument is the line so far. -/
def pyLinesFrom : Str → Str → List Str
  | line, [] => if line = [] then [] else [line]
  | line, c :: cs =>
    if c = '\n' then (line ++ [c]) :: pyLinesFrom [] cs else pyLinesFrom (line ++ [c]) cs

/-- `for line in file`. -/
def pyLines (text : Str) : List Str := pyLinesFrom [] text

/-- What is on the disk. -/
structure Disk where
  /-- contents of files -/
  file : Str → Option Str
  /-- is it a directory? -/
  dir : Str → Bool

/-- The disk after a step, and the exception that ended it. -/
structure Ran where
  disk : Disk
  error : Option Str

/-- Statement after statement. -/
def Ran.next (r : Ran) (f : Disk → Ran) : Ran :=
  match r.error with
  | none => f r.disk
  | some _ => r

/-- The directory of a path: the text before the last `/`. -/
def dirOf (path : Str) : Str := (path.reverse.dropWhile (fun c => decide (c ≠ '/'))).tail.reverse

/-- Can a file be opened for writing? -/
def Disk.writable (d : Disk) (path : Str) : Bool := d.dir (dirOf path) && !d.dir path

/-- Setting the contents of a file. -/
def Disk.put (d : Disk) (path text : Str) : Disk :=
  { d with file := fun p => if p = path then some text else d.file p }

/-- What a file has, nothing if it is not there. -/
def Disk.get (d : Disk) (path : Str) : Str := (d.file path).getD []

/-- `open(path, 'a')`, `write(text)`, `close()`. -/
def Disk.append (d : Disk) (path text : Str) : Ran :=
  if d.writable path then ⟨d.put path (d.get path ++ text), none⟩
  else ⟨d, some "OSError".toList⟩

/-- `open(path, 'w')`. -/
def Disk.truncate (d : Disk) (path : Str) : Ran :=
  if d.writable path then ⟨d.put path [], none⟩ else ⟨d, some "OSError".toList⟩

/-- Is one path the other, or above it? -/
def above (p path : Str) : Bool := decide (p = path) || (p ++ ['/']).isPrefixOf path

/-- Is there a file where a directory should be? -/
def Disk.blocked (d : Disk) (path : Str) : Bool :=
  path.inits.any fun p => above p path && (d.file p).isSome

/-- `path.py:86-88`, `mkdir_p`; `os.makedirs` fails if a file is in the way. -/
def Disk.mkdirP (d : Disk) (path : Str) : Ran :=
  if d.dir path then ⟨d, none⟩
  else if d.blocked path then ⟨d, some "OSError".toList⟩
  else ⟨{ d with dir := fun p => d.dir p || above p path }, none⟩

/-! ## Default names -/

/-- `scaffoldRule:119-120` and `scaffoldReporter:71-72`, `lower_add_space`. -/
def lowerAddSpace (c : Char) : Str := [' ', c.toLower]

/-- `re.sub('[A-Z]', lower_add_space, s)`. -/
def subCapitals (s : Str) : Str :=
  s.flatMap fun c => if c.isUpper then lowerAddSpace c else [c]

/-- `scaffoldRule:141-142` and `scaffoldReporter:85-86`: the name, unless one is given. -/
def nameOrDefault (given className : Str) : Str :=
  if given = [] then (subCapitals className).drop 1 else given

/-! ## scaffoldRule -/

/-- `scaffoldRule:124`, the choices of `--type`. -/
inductive TemplateKind where
  | Generic | SourceCodeReader | ASTVisitor | ASTMatcher
  deriving Repr, DecidableEq

/-- The text of a choice. -/
def TemplateKind.text : TemplateKind → Str
  | .Generic => "Generic".toList
  | .SourceCodeReader => "SourceCodeReader".toList
  | .ASTVisitor => "ASTVisitor".toList
  | .ASTMatcher => "ASTMatcher".toList

/-- `scaffoldRule:127`, the choices of `--priority`. -/
inductive PriorityChoice where
  | one | two | three
  deriving Repr, DecidableEq

/-- `str(args.rule_priority)`. -/
def PriorityChoice.text : PriorityChoice → Str
  | .one => ['1']
  | .two => ['2']
  | .three => ['3']

/-- `scaffoldRule:122-131`: the command line. -/
structure RuleRequest where
  className : Str
  type : TemplateKind := .Generic
  category : Str := "custom".toList
  name : Str := []
  priority : PriorityChoice := .three
  tests : Bool := true

/-- `scaffoldRule:133-139` and `141-142`, `rule_info_dict`; the fields that are texts. -/
structure RuleDict where
  className : Str
  name : Str
  priority : Str
  category : Str
  version : Str

/-- `version.py:20-21`, `oclint_version`. -/
def oclintVersion : Str := "26.02".toList

/-- `scaffoldRule:133-142`. -/
def RuleRequest.dict (r : RuleRequest) : RuleDict :=
  { className := r.className, name := nameOrDefault r.name r.className,
    priority := r.priority.text, category := r.category, version := oclintVersion }

/-- `scaffoldRule:11`. -/
def rulesProject (home : Str) : Str := pyJoin home "../oclint-rules".toList
/-- `scaffoldRule:12`. -/
def rulesRoot (home : Str) : Str := pyJoin (rulesProject home) "rules".toList
/-- `scaffoldRule:13`. -/
def rulesLists (home : Str) : Str := pyJoin (rulesRoot home) "CMakeLists.txt".toList
/-- `scaffoldRule:14`. -/
def testsRoot (home : Str) : Str := pyJoin (rulesProject home) "test".toList
/-- `scaffoldRule:15`. -/
def testsLists (home : Str) : Str := pyJoin (testsRoot home) "CMakeLists.txt".toList
/-- `scaffoldRule:16`. -/
def rulesTemplates (home : Str) : Str := pyJoin (rulesProject home) "template".toList

/-- `scaffoldRule:18-19`, `custom_folder_path`. -/
def customFolder (home folder : Str) : Str := pyJoin (rulesRoot home) folder
/-- `scaffoldRule:21-22`, `custom_cmake_lists_path`. -/
def customLists (home folder : Str) : Str := pyJoin (customFolder home folder) "CMakeLists.txt".toList
/-- `scaffoldRule:24-25`, `custom_test_folder_path`. -/
def customTestFolder (home folder : Str) : Str := pyJoin (testsRoot home) folder
/-- `scaffoldRule:27-28`, `custom_test_cmake_lists_path`. -/
def customTestLists (home folder : Str) : Str :=
  pyJoin (customTestFolder home folder) "CMakeLists.txt".toList

/-- `scaffoldRule:30-34`, `add_path_to_cmake_lists`. -/
def addPathToLists (d : Disk) (path lists step : Str) : Ran :=
  if (d.file path).isSome then ⟨d, none⟩
  else (d.append path []).next fun d => d.append lists step

/-- `scaffoldRule:36-40`, `pre_check_rule`. -/
def preCheckRule (home : Str) (d : Disk) (folder : Str) : Ran :=
  (d.mkdirP (customFolder home folder)).next fun d =>
    addPathToLists d (customLists home folder) (rulesLists home)
      ("\nADD_RULE_CATEGORY_DIRECTORY(".toList ++ folder ++ ")\n".toList)

/-- `scaffoldRule:42-46`, `pre_check_test`. -/
def preCheckTest (home : Str) (d : Disk) (folder : Str) : Ran :=
  (d.mkdirP (customTestFolder home folder)).next fun d =>
    addPathToLists d (customTestLists home folder) (testsLists home)
      ("\nADD_SUBDIRECTORY(".toList ++ folder ++ ")\n".toList)

/-- `scaffoldRule:48-50`, `pre_check`. -/
def preCheck (home : Str) (d : Disk) (folder : Str) : Ran :=
  (preCheckRule home d folder).next fun d => preCheckTest home d folder

/-- The greedy part of `(.+) :`: the longest text within the line that ` :` follows. -/
def longestBefore : Str → Option Str
  | [] => none
  | c :: cs =>
    match if c = '\n' then none else longestBefore cs with
    | some p => some (c :: p)
    | none => if " :".toList.isPrefixOf (c :: cs) then some [] else none

/-- `(.+) :` at the beginning of a text. -/
def someBefore : Str → Option Str
  | [] => none
  | c :: cs => if c = '\n' then none else (longestBefore cs).map (c :: ·)

/-- `def (.+) :` at the beginning of a text: the group. -/
def defHere (s : Str) : Option Str :=
  if "def ".toList.isPrefixOf s then someBefore (s.drop 4) else none

/-- `re.search('def (.+) :', line)`: the group of the first match. -/
def searchDef : Str → Option Str
  | [] => none
  | c :: cs =>
    match defHere (c :: cs) with
    | some g => some g
    | none => searchDef cs

/-- `scaffoldRule:56-60`: the block of a node. -/
def codeBlock (node : Str) : Str :=
  let block := "\n    /* Visit ".toList ++ node ++ "\n".toList
  let block := block ++ "    bool Visit".toList ++ node ++ "(".toList ++ node ++ " *node)\n".toList
  let block := block ++ "    {\n        return true;\n    }\n".toList
  block ++ "     */\n".toList

/-- `scaffoldRule:52-62`, `generate_code_block`. -/
def generateCodeBlock (line nodeType : Str) : Str :=
  match searchDef line with
  | some g => codeBlock (g ++ nodeType)
  | none => []

/-- `scaffoldRule:64-72`, `visit_ast_nodes`; `none` if a file is missing. -/
def visitAstNodes (home : Str) (d : Disk) : Option Str :=
  match d.file (pyJoin (rulesTemplates home) "ClangStmtNodes".toList) with
  | none => none
  | some stmts =>
    let nodes := (pyLines stmts).foldl (fun acc l => acc ++ generateCodeBlock l []) []
    match d.file (pyJoin (rulesTemplates home) "ClangDeclNodes".toList) with
    | none => none
    | some decls =>
      some ((pyLines decls).foldl (fun acc l => acc ++ generateCodeBlock l "Decl".toList) nodes)

/-- `'{{' + each + '}}'`. -/
def wildcard (key : Str) : Str := "{{".toList ++ key ++ "}}".toList

/-- `scaffoldRule:75` with `rule_dict[each]`. -/
def ruleWildcards (r : RuleDict) : List (Str × Str) :=
  [("RULE_CLASS_NAME".toList, r.className), ("RULE_NAME".toList, r.name),
   ("RULE_PRIORITY".toList, r.priority), ("RULE_CATEGORY".toList, r.category),
   ("RULE_NAME".toList, r.name), ("OCLINT_VERSION".toList, r.version)]

/-- The loop `scaffoldRule:76-78`. -/
def replaceAll (line : Str) (wildcards : List (Str × Str)) : Str :=
  wildcards.foldl (fun line w => pyReplace line (wildcard w.1) w.2) line

/-- `scaffoldRule:74-79`, `replace_wildcard`. -/
def replaceRuleWildcards (line : Str) (r : RuleDict) (nodes : Str) : Str :=
  pyReplace (replaceAll line (ruleWildcards r)) "{{VISIT_AST_NODE_BLOCK}}".toList nodes

/-- The loop `scaffoldRule:86-89`, the text that is written; `none` is a missing file of nodes, which
is only looked for if there is a line. -/
def expandTemplate (home : Str) (d : Disk) (r : RuleDict) (template : Str) : Option Str :=
  match pyLines template, visitAstNodes home d with
  | [], _ => some []
  | lines, some nodes =>
    some (lines.foldl (fun out line => out ++ replaceRuleWildcards line r nodes) [])
  | _, none => none

/-- `scaffoldRule:81-89`, `copy_template`.  The file is emptied before the template is opened. -/
def copyTemplate (home : Str) (d : Disk) (folderPath type suffix : Str) (r : RuleDict) : Ran :=
  let templatePath := pyJoin (rulesTemplates home) (type ++ suffix ++ ".tmpl".toList)
  let dstPath := pyJoin folderPath (r.className ++ suffix ++ ".cpp".toList)
  (d.truncate dstPath).next fun d =>
    match d.file templatePath with
    | none => ⟨d, some "OSError".toList⟩
    | some template =>
      match expandTemplate home d r template with
      | none => ⟨d, some "OSError".toList⟩
      | some text => ⟨d.put dstPath text, none⟩

/-- `scaffoldRule:91-93`, `copy_rule`. -/
def copyRule (home : Str) (d : Disk) (folderPath : Str) (type : TemplateKind) (r : RuleDict) : Ran :=
  copyTemplate home d folderPath type.text "Rule".toList r

/-- `scaffoldRule:95-96`, `copy_test`. -/
def copyRuleTest (home : Str) (d : Disk) (folderPath : Str) (r : RuleDict) : Ran :=
  copyTemplate home d folderPath [] "RuleTest".toList r

/-- `scaffoldRule:98-103`, `write_cmake_lists`. -/
def writeRuleLists (d : Disk) (lists className : Str) : Ran :=
  let set := "SET(Build".toList ++ className ++ "Rule ".toList ++ className ++ ")".toList
  let build := "BUILD_DYNAMIC_RULES(\"${Build".toList ++ className ++ "Rule}\")".toList
  d.append lists ("\n".toList ++ set ++ "\n".toList ++ build ++ "\n".toList)

/-- `scaffoldRule:105-109`, `write_test_cmake_lists`. -/
def writeRuleTestLists (d : Disk) (lists className : Str) : Ran :=
  let build := "BUILD_TEST(".toList ++ className ++ "RuleTest\n".toList ++ className
    ++ "RuleTest.cpp)".toList
  d.append lists ("\n".toList ++ build ++ "\n".toList)

/-- `scaffoldRule:112-117`, `scaffold`. -/
def scaffoldFiles (home : Str) (d : Disk) (request : RuleRequest) : Ran :=
  let folder := request.category
  let r := request.dict
  ((copyRule home d (customFolder home folder) request.type r).next fun d =>
    writeRuleLists d (customLists home folder) r.className).next fun d =>
    if request.tests then
      (copyRuleTest home d (customTestFolder home folder) r).next fun d =>
        writeRuleTestLists d (customTestLists home folder) r.className
    else ⟨d, none⟩

/-- `scaffoldRule:133-144`. -/
def scaffoldRule (home : Str) (d : Disk) (request : RuleRequest) : Ran :=
  (preCheck home d request.category).next fun d => scaffoldFiles home d request

/-! ## scaffoldReporter -/

/-- `scaffoldReporter:74-80`: the command line. -/
structure ReporterRequest where
  className : Str
  name : Str := []
  tests : Bool := true

/-- `scaffoldReporter:8`. -/
def reportersProject (home : Str) : Str := pyJoin home "../oclint-reporters".toList
/-- `scaffoldReporter:9`. -/
def reportersRoot (home : Str) : Str := pyJoin (reportersProject home) "reporters".toList
/-- `scaffoldReporter:10`. -/
def reportersLists (home : Str) : Str := pyJoin (reportersRoot home) "CMakeLists.txt".toList
/-- `scaffoldReporter:11`. -/
def reportersTests (home : Str) : Str := pyJoin (reportersProject home) "test".toList
/-- `scaffoldReporter:12`. -/
def reportersTestLists (home : Str) : Str := pyJoin (reportersTests home) "CMakeLists.txt".toList
/-- `scaffoldReporter:13`. -/
def reportersTemplates (home : Str) : Str := pyJoin (reportersProject home) "template".toList

/-- `scaffoldReporter:18` and `41`. -/
def reporterPath' (home className : Str) : Str :=
  pyJoin (reportersRoot home) (className ++ "Reporter.cpp".toList)
/-- `scaffoldReporter:22` and `46`. -/
def reporterTestPath (home className : Str) : Str :=
  pyJoin (reportersTests home) (className ++ "ReporterTest.cpp".toList)

/-- `scaffoldReporter:17-26`, `pre_validate`: what is printed, and the answer. -/
def preValidate (home : Str) (d : Disk) (className : Str) (tests : Bool) : List Str × Bool :=
  let classExists := (d.file (reporterPath' home className)).isSome
  let said := if classExists then
    ["Error: ".toList ++ className ++ "Reporter.cpp already exists.".toList] else []
  let testExists := tests && (d.file (reporterTestPath home className)).isSome
  let said := if testExists then
    said ++ ["Error: ".toList ++ className ++ "ReporterTest.cpp already exists.".toList] else said
  (said, !(classExists || testExists))

/-- `scaffoldReporter:28-31`, `replace_wildcard`. -/
def replaceReporterWildcards (line className name : Str) : Str :=
  pyReplace (pyReplace line "{{REPORTER_CLASS_NAME}}".toList className)
    "{{REPORTER_NAME}}".toList name

/-- `scaffoldReporter:33-38`, `copy_template`. -/
def copyReporterTemplate (d : Disk) (newPath templatePath className name : Str) : Ran :=
  (d.truncate newPath).next fun d =>
    match d.file templatePath with
    | none => ⟨d, some "OSError".toList⟩
    | some template =>
      ⟨d.put newPath ((pyLines template).foldl
        (fun out line => out ++ replaceReporterWildcards line className name) []), none⟩

/-- `scaffoldReporter:40-43` and `63-65` with `50-56`, `scaffold`. -/
def scaffoldReporterFiles (home : Str) (d : Disk) (className name : Str) : Ran :=
  (copyReporterTemplate d (reporterPath' home className)
    (pyJoin (reportersTemplates home) "Reporter.tmpl".toList) className name).next fun d =>
    d.append (reportersLists home)
      ("\n".toList ++ ("BUILD_DYNAMIC_REPORTER(".toList ++ className ++ ")".toList) ++ "\n".toList)

/-- `scaffoldReporter:45-48` and `67-69` with `50-52`, `59-61`, `scaffold_test`. -/
def scaffoldReporterTest (home : Str) (d : Disk) (className name : Str) : Ran :=
  (copyReporterTemplate d (reporterTestPath home className)
    (pyJoin (reportersTemplates home) "ReporterTest.tmpl".toList) className name).next fun d =>
    d.append (reportersTestLists home)
      ("\n".toList ++ ("BUILD_TEST(".toList ++ className ++ "ReporterTest)".toList) ++ "\n".toList)

/-- `scaffoldReporter:82-90`: what is printed and what happens to the disk. -/
def scaffoldReporter (home : Str) (d : Disk) (request : ReporterRequest) : List Str × Ran :=
  let name := nameOrDefault request.name request.className
  let (said, valid) := preValidate home d request.className request.tests
  if valid then
    (said, (scaffoldReporterFiles home d request.className name).next fun d =>
      if request.tests then scaffoldReporterTest home d request.className name else ⟨d, none⟩)
  else (said, ⟨d, none⟩)

end Oclint
