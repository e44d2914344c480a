import Verif.Model.ScaffoldTemplates
import Verif.Spec.DocGen

/-!
# What the scaffolding scripts should do
-/

namespace Oclint.Spec
open Oclint

/-! ## Names -/

/-- A capital letter followed by letters, or nothing at all. -/
def ClassWord (s : Str) : Prop :=
  (∀ c ∈ s, c.isAlpha = true) ∧ ∀ c, s.head? = some c → c.isUpper = true

/-- A capital letter followed by characters that are no capital letters. -/
def CapitalWord (w : Str) : Prop :=
  ∃ c cs, w = c :: cs ∧ c.isUpper = true ∧ ∀ x ∈ cs, x.isUpper = false

/-- A word with a small letter first. -/
def uncapital : Str → Str
  | [] => []
  | c :: cs => c.toLower :: cs

/-! ## Templates -/

/-- What can be filled in. -/
inductive Field where
  | className | name | priority | category | version | visits
  deriving Repr, DecidableEq

/-- A part of a template. -/
inductive Part where
  | text (s : Str)
  | value (f : Field)
  deriving Repr, DecidableEq

/-- The text of a part. -/
def Part.filled (v : Field → Str) : Part → Str
  | .text s => s
  | .value f => v f

/-- A template filled in. -/
def fill (v : Field → Str) (parts : List Part) : Str := (parts.map (Part.filled v)).flatten

/-- What every scaffolded rule says about itself. -/
def metadataParts : List Part :=
  [.text (chars! "{\n"),
   .text (chars! "public:\n"),
   .text (chars! "    virtual const string name() const override\n"),
   .text (chars! "    {\n"),
   .text (chars! "        return \""), .value .name, .text (chars! "\";\n"),
   .text (chars! "    }\n"),
   .text (chars! "\n"),
   .text (chars! "    virtual int priority() const override\n"),
   .text (chars! "    {\n"),
   .text (chars! "        return "), .value .priority, .text (chars! ";\n"),
   .text (chars! "    }\n"),
   .text (chars! "\n"),
   .text (chars! "    virtual const string category() const override\n"),
   .text (chars! "    {\n"),
   .text (chars! "        return \""), .value .category, .text (chars! "\";\n"),
   .text (chars! "    }\n"),
   .text (chars! "\n"),
   .text (chars! "#ifdef DOCGEN\n"),
   .text (chars! "    virtual const std::string since() const override\n"),
   .text (chars! "    {\n"),
   .text (chars! "        return \""), .value .version, .text (chars! "\";\n"),
   .text (chars! "    }\n"),
   .text (chars! "\n"),
   .text (chars! "    virtual const std::string description() const override\n"),
   .text (chars! "    {\n"),
   .text (chars! "        return \"\"; // TODO: fill in the description of the rule.\n"),
   .text (chars! "    }\n"),
   .text (chars! "\n"),
   .text (chars! "    virtual const std::string example() const override\n"),
   .text (chars! "    {\n"),
   .text (chars! "        return R\"rst(\n"),
   .text (chars! ".. code-block:: cpp\n"),
   .text (chars! "\n"),
   .text (chars! "    void example()\n"),
   .text (chars! "    {\n"),
   .text (chars! "        // TODO: modify the example for this rule.\n"),
   .text (chars! "    }\n"),
   .text (chars! "        )rst\";\n"),
   .text (chars! "    }\n"),
   .text (chars! "\n"),
   .text (chars! "    /* fill in the file name only when it does not match the rule identifier\n"),
   .text (chars! "    virtual const std::string fileName() const override\n"),
   .text (chars! "    {\n"),
   .text (chars! "        return \"\";\n"),
   .text (chars! "    }\n"),
   .text (chars! "    */\n"),
   .text (chars! "\n"),
   .text (chars! "    /* add each threshold's key, description, and its default value to the map.\n"),
   .text (chars! "    virtual const std::map<std::string, std::string> thresholds() const override\n"),
   .text (chars! "    {\n"),
   .text (chars! "        std::map<std::string, std::string> thresholdMapping;\n"),
   .text (chars! "        return thresholdMapping;\n"),
   .text (chars! "    }\n"),
   .text (chars! "    */\n"),
   .text (chars! "\n"),
   .text (chars! "    /* add additional document for the rule, like references, notes, etc.\n"),
   .text (chars! "    virtual const std::string additionalDocument() const override\n"),
   .text (chars! "    {\n"),
   .text (chars! "        return \"\";\n"),
   .text (chars! "    }\n"),
   .text (chars! "    */\n"),
   .text (chars! "\n"),
   .text (chars! "    /* uncomment this method when the rule is enabled to be suppressed.\n"),
   .text (chars! "    virtual bool enableSuppress() const override\n"),
   .text (chars! "    {\n"),
   .text (chars! "        return true;\n"),
   .text (chars! "    }\n"),
   .text (chars! "    */\n"),
   .text (chars! "#endif\n")]

/-- A rule of type `Generic`. -/
def genericParts : List Part :=
  [.text (chars! "#include <clang/AST/AST.h>\n"),
   .text (chars! "\n"),
   .text (chars! "#include \"oclint/RuleBase.h\"\n"),
   .text (chars! "#include \"oclint/RuleSet.h\"\n"),
   .text (chars! "\n"),
   .text (chars! "using namespace std;\n"),
   .text (chars! "using namespace oclint;\n"),
   .text (chars! "\n"),
   .text (chars! "class "), .value .className, .text (chars! "Rule : public RuleBase\n")] ++
  metadataParts ++
  [.text (chars! "\n"),
   .text (chars! "    virtual void apply() override\n"),
   .text (chars! "    {\n"),
   .text (chars! "    }\n"),
   .text (chars! "\n"),
   .text (chars! "};\n"),
   .text (chars! "\n"),
   .text (chars! "static RuleSet rules(new "), .value .className, .text (chars! "Rule());\n")]

/-- A rule of type `SourceCodeReader`. -/
def sourceCodeReaderParts : List Part :=
  [.text (chars! "#include \"oclint/AbstractSourceCodeReaderRule.h\"\n"),
   .text (chars! "#include \"oclint/RuleSet.h\"\n"),
   .text (chars! "\n"),
   .text (chars! "using namespace std;\n"),
   .text (chars! "using namespace oclint;\n"),
   .text (chars! "\n"),
   .text (chars! "class "), .value .className,
   .text (chars! "Rule : public AbstractSourceCodeReaderRule\n")] ++
  metadataParts ++
  [.text (chars! "\n"),
   .text (chars! "    virtual void eachLine(int lineNumber, string line) override\n"),
   .text (chars! "    {\n"),
   .text (chars! "    }\n"),
   .text (chars! "};\n"),
   .text (chars! "\n"),
   .text (chars! "static RuleSet rules(new "), .value .className, .text (chars! "Rule());\n")]

/-- A rule of type `ASTVisitor`. -/
def astVisitorParts : List Part :=
  [.text (chars! "#include \"oclint/AbstractASTVisitorRule.h\"\n"),
   .text (chars! "#include \"oclint/RuleSet.h\"\n"),
   .text (chars! "\n"),
   .text (chars! "using namespace std;\n"),
   .text (chars! "using namespace clang;\n"),
   .text (chars! "using namespace oclint;\n"),
   .text (chars! "\n"),
   .text (chars! "class "), .value .className,
   .text (chars! "Rule : public AbstractASTVisitorRule<"), .value .className,
   .text (chars! "Rule>\n")] ++
  metadataParts ++
  [.text (chars! "\n"),
   .text (chars! "    virtual void setUp() override {}\n"),
   .text (chars! "    virtual void tearDown() override {}\n"),
   .text (chars! "\n"),
   .text (chars! "    "), .value .visits, .text (chars! "\n"),
   .text (chars! "};\n"),
   .text (chars! "\n"),
   .text (chars! "static RuleSet rules(new "), .value .className, .text (chars! "Rule());\n")]

/-- A rule of type `ASTMatcher`. -/
def astMatcherParts : List Part :=
  [.text (chars! "#include \"oclint/AbstractASTMatcherRule.h\"\n"),
   .text (chars! "#include \"oclint/RuleSet.h\"\n"),
   .text (chars! "\n"),
   .text (chars! "using namespace std;\n"),
   .text (chars! "using namespace clang;\n"),
   .text (chars! "using namespace clang::ast_matchers;\n"),
   .text (chars! "using namespace oclint;\n"),
   .text (chars! "\n"),
   .text (chars! "class "), .value .className,
   .text (chars! "Rule : public AbstractASTMatcherRule\n")] ++
  metadataParts ++
  [.text (chars! "\n"),
   .text (chars! "    virtual void callback(const MatchFinder::MatchResult &result) override\n"),
   .text (chars! "    {\n"),
   .text (chars! "    }\n"),
   .text (chars! "\n"),
   .text (chars! "    virtual void setUpMatcher() override\n"),
   .text (chars! "    {\n"),
   .text (chars! "    }\n"),
   .text (chars! "\n"),
   .text (chars! "};\n"),
   .text (chars! "\n"),
   .text (chars! "static RuleSet rules(new "), .value .className, .text (chars! "Rule());\n")]

/-- The test of a rule. -/
def ruleTestParts : List Part :=
  [.text (chars! "#include \"TestRuleOnCode.h\"\n"),
   .text (chars! "#include \"rules/"), .value .category, .text (chars! "/"), .value .className,
   .text (chars! "Rule.cpp\"\n"),
   .text (chars! "\n"),
   .text (chars! "TEST("), .value .className, .text (chars! "RuleTest, PropertyTest)\n"),
   .text (chars! "{\n"),
   .text (chars! "    "), .value .className, .text (chars! "Rule rule;\n"),
   .text (chars! "    EXPECT_EQ("), .value .priority, .text (chars! ", rule.priority());\n"),
   .text (chars! "    EXPECT_EQ(\""), .value .name, .text (chars! "\", rule.name());\n"),
   .text (chars! "    EXPECT_EQ(\""), .value .category,
   .text (chars! "\", rule.category());\n"),
   .text (chars! "}\n"),
   .text (chars! "\n"),
   .text (chars! "TEST("), .value .className, .text (chars! "RuleTest, FirstFailingTest)\n"),
   .text (chars! "{\n"),
   .text (chars! "    EXPECT_FALSE(\"Start writing a new test\");\n"),
   .text (chars! "}\n")]

/-- A reporter. -/
def reporterParts : List Part :=
  [.text (chars! "#include \"oclint/Reporter.h\"\n"),
   .text (chars! "\n"),
   .text (chars! "using namespace oclint;\n"),
   .text (chars! "\n"),
   .text (chars! "class "), .value .className, .text (chars! "Reporter : public Reporter\n"),
   .text (chars! "{\n"),
   .text (chars! "public:\n"),
   .text (chars! "    virtual const std::string name() const override\n"),
   .text (chars! "    {\n"),
   .text (chars! "        return \""), .value .name, .text (chars! "\";\n"),
   .text (chars! "    }\n"),
   .text (chars! "\n"),
   .text (chars! "    virtual void report(Results *results, std::ostream &out) override\n"),
   .text (chars! "    {\n"),
   .text (chars! "    }\n"),
   .text (chars! "};\n"),
   .text (chars! "\n"),
   .text (chars! "extern \"C\" Reporter* create()\n"),
   .text (chars! "{\n"),
   .text (chars! "  return new "), .value .className, .text (chars! "Reporter();\n"),
   .text (chars! "}\n")]

/-- The test of a reporter. -/
def reporterTestParts : List Part :=
  [.text (chars! "#include <gtest/gtest.h>\n"),
   .text (chars! "#include <gmock/gmock.h>\n"),
   .text (chars! "\n"),
   .text (chars! "#include \""), .value .className, .text (chars! "Reporter.cpp\"\n"),
   .text (chars! "\n"),
   .text (chars! "using namespace ::testing;\n"),
   .text (chars! "using namespace oclint;\n"),
   .text (chars! "\n"),
   .text (chars! "TEST("), .value .className, .text (chars! "ReporterTest, PropertyTest)\n"),
   .text (chars! "{\n"),
   .text (chars! "    "), .value .className, .text (chars! "Reporter reporter;\n"),
   .text (chars! "    EXPECT_THAT(reporter.name(), StrEq(\""), .value .name,
   .text (chars! "\"));\n"),
   .text (chars! "}\n"),
   .text (chars! "\n"),
   .text (chars! "TEST("), .value .className,
   .text (chars! "ReporterTest, FirstFailingTest)\n"),
   .text (chars! "{\n"),
   .text (chars! "    EXPECT_FALSE(\"Start writing a new test\");\n"),
   .text (chars! "}\n"),
   .text (chars! "\n"),
   .text (chars! "int main(int argc, char **argv)\n"),
   .text (chars! "{\n"),
   .text (chars! "    ::testing::InitGoogleMock(&argc, argv);\n"),
   .text (chars! "    return RUN_ALL_TESTS();\n"),
   .text (chars! "}\n")]

/-- The code of a rule. -/
def ruleParts : TemplateKind → List Part
  | .Generic => genericParts
  | .SourceCodeReader => sourceCodeReaderParts
  | .ASTVisitor => astVisitorParts
  | .ASTMatcher => astMatcherParts

/-- No opening braces. -/
def Braceless (s : Str) : Prop := '{' ∉ s

/-! ## Lists of nodes -/

/-- Texts that the expression `def (.+) :` captures at the beginning of a text. -/
def DefAt (s g : Str) : Prop :=
  g ≠ [] ∧ '\n' ∉ g ∧ ∃ rest, s = "def ".toList ++ g ++ " :".toList ++ rest

/-- What it captures in a line: as far left as possible, and there as much as possible. -/
def Captures (line g : Str) : Prop :=
  ∃ before s, line = before ++ s ∧ DefAt s g ∧ (∀ g', DefAt s g' → g'.length ≤ g.length) ∧
    ∀ b s', line = b ++ s' → b.length < before.length → ∀ g', ¬ DefAt s' g'

/-- The code for a node, commented out. -/
def blockOf (node : Str) : Str :=
  inLines
    [[], "    /* Visit ".toList ++ node,
     "    bool Visit".toList ++ node ++ "(".toList ++ node ++ " *node)".toList,
     "    {".toList, "        return true;".toList, "    }".toList, "     */".toList]

/-- The blocks of the lines that name a node. -/
inductive BlocksOf (suffix : Str) : List Str → Str → Prop where
  | nil : BlocksOf suffix [] []
  | node {line g lines text} : Captures line g → BlocksOf suffix lines text →
      BlocksOf suffix (line :: lines) (blockOf (g ++ suffix) ++ text)
  | other {line lines text} : (∀ g, ¬ Captures line g) → BlocksOf suffix lines text →
      BlocksOf suffix (line :: lines) text

/-- The lines of a text, with their line breaks; the last one may lack it. -/
def LinesOf (text : Str) (lines : List Str) : Prop :=
  lines.flatten = text ∧ (∀ l ∈ lines, l ≠ [] ∧ '\n' ∉ l.dropLast) ∧
    ∀ l ∈ lines.dropLast, l.getLast? = some '\n'

/-- The blocks for two lists of nodes. -/
def VisitsOf (stmts decls visits : Str) : Prop :=
  ∃ ls ld ts td, LinesOf stmts ls ∧ LinesOf decls ld ∧ BlocksOf [] ls ts ∧
    BlocksOf "Decl".toList ld td ∧ visits = ts ++ td

/-! ## Files -/

/-- The directory of the rules of a category. -/
def rulesDir (home category : Str) : Str := home ++ "/../oclint-rules/rules/".toList ++ category
/-- The directory of the tests of a category. -/
def testsDir (home category : Str) : Str := home ++ "/../oclint-rules/test/".toList ++ category
/-- The lists of categories. -/
def rulesRootLists (home : Str) : Str := home ++ "/../oclint-rules/rules/CMakeLists.txt".toList
/-- The lists of categories of tests. -/
def testsRootLists (home : Str) : Str := home ++ "/../oclint-rules/test/CMakeLists.txt".toList
/-- The list of rules of a directory. -/
def listsIn (dir : Str) : Str := dir ++ "/CMakeLists.txt".toList
/-- The source of a rule. -/
def ruleSource (home category className : Str) : Str :=
  rulesDir home category ++ "/".toList ++ className ++ "Rule.cpp".toList
/-- The source of a test. -/
def testSource (home category className : Str) : Str :=
  testsDir home category ++ "/".toList ++ className ++ "RuleTest.cpp".toList
/-- A template. -/
def templatePath (home name : Str) : Str := home ++ "/../oclint-rules/template/".toList ++ name

/-- What is assumed of a source tree: files are not directories, what is above a directory is one, and
the files that the script reads are as they are in the repository (the lists of nodes can be any). -/
structure Checkout (home : Str) (d : Disk) (stmts decls : Str) : Prop where
  place : home ≠ [] ∧ home.getLast? ≠ some '/'
  sound : ∀ p, d.dir p = true → d.file p = none
  parents : ∀ p rest, d.dir (p ++ '/' :: rest) = true → d.dir p = true
  rules : d.dir (home ++ "/../oclint-rules/rules".toList) = true
  tests : d.dir (home ++ "/../oclint-rules/test".toList) = true
  rulesLists : d.file (rulesRootLists home) ≠ none
  testsLists : d.file (testsRootLists home) ≠ none
  template : ∀ kind : TemplateKind,
    d.file (templatePath home (kind.text ++ "Rule.tmpl".toList)) = some (ruleTemplate kind)
  testTemplate : d.file (templatePath home "RuleTest.tmpl".toList) = some ruleTestTemplate
  stmtNodes : d.file (templatePath home "ClangStmtNodes".toList) = some stmts
  declNodes : d.file (templatePath home "ClangDeclNodes".toList) = some decls

/-- A request with a name for a category that is the name of a directory, and a class name that has no
slash, both without braces. -/
structure PlainRequest (r : RuleRequest) : Prop where
  category : r.category ≠ [] ∧ '/' ∉ r.category ∧ Braceless r.category
  className : '/' ∉ r.className ∧ Braceless r.className
  name : Braceless r.name

/-- Nothing of another kind is where the script wants a file or a directory. -/
structure Unobstructed (home : Str) (d : Disk) (r : RuleRequest) : Prop where
  rules : d.file (rulesDir home r.category) = none
  tests : d.file (testsDir home r.category) = none
  rulesLists : d.dir (listsIn (rulesDir home r.category)) = false
  testsLists : d.dir (listsIn (testsDir home r.category)) = false
  rule : d.dir (ruleSource home r.category r.className) = false
  test : d.dir (testSource home r.category r.className) = false

/-- The name of the rule of a request. -/
def requestedName (r : RuleRequest) : Str :=
  if r.name = [] then (r.className.flatMap fun c => if c.isUpper then [' ', c.toLower] else [c]).tail
  else r.name

/-- The values of a request. -/
def requestedFields (r : RuleRequest) (visits : Str) : Field → Str
  | .className => r.className
  | .name => requestedName r
  | .priority =>
    match r.priority with
    | .one => "1".toList
    | .two => "2".toList
    | .three => "3".toList
  | .category => r.category
  | .version => "26.02".toList
  | .visits => visits

/-- What the list of a category gets for a rule. -/
def ruleStep (className : Str) : Str :=
  inLines [[], "SET(Build".toList ++ className ++ "Rule ".toList ++ className ++ ")".toList,
    "BUILD_DYNAMIC_RULES(\"${Build".toList ++ className ++ "Rule}\")".toList]

/-- What the list of a category gets for a test. -/
def testStep (className : Str) : Str :=
  inLines [[], "BUILD_TEST(".toList ++ className ++ "RuleTest".toList,
    className ++ "RuleTest.cpp)".toList]

/-- What the list of all categories gets. -/
def categoryStep (category : Str) : Str :=
  inLines [[], "ADD_RULE_CATEGORY_DIRECTORY(".toList ++ category ++ ")".toList]

/-- What the list of all categories of tests gets. -/
def testCategoryStep (category : Str) : Str :=
  inLines [[], "ADD_SUBDIRECTORY(".toList ++ category ++ ")".toList]

/-- What a file has, nothing if it is not there. -/
def contents (d : Disk) (path : Str) : Str := (d.file path).getD []

/-- Is there such a file? -/
def Present (d : Disk) (path : Str) : Prop := ∃ text, d.file path = some text

/-- The disk after a request.  A category gets into the list of categories if it has no list of its own. -/
structure Scaffolded (home : Str) (d : Disk) (r : RuleRequest) (visits : Str) (d' : Disk) : Prop where
  rule : d'.file (ruleSource home r.category r.className) =
    some (fill (requestedFields r visits) (ruleParts r.type))
  lists : d'.file (listsIn (rulesDir home r.category)) =
    some (contents d (listsIn (rulesDir home r.category)) ++ ruleStep r.className)
  test : r.tests = true → d'.file (testSource home r.category r.className) =
    some (fill (requestedFields r visits) ruleTestParts)
  testLists : r.tests = true → d'.file (listsIn (testsDir home r.category)) =
    some (contents d (listsIn (testsDir home r.category)) ++ testStep r.className)
  noTest : r.tests = false → d'.file (testSource home r.category r.className) =
    d.file (testSource home r.category r.className)
  noTestLists : r.tests = false → d'.file (listsIn (testsDir home r.category)) =
    some (contents d (listsIn (testsDir home r.category)))
  known : Present d (listsIn (rulesDir home r.category)) →
    d'.file (rulesRootLists home) = d.file (rulesRootLists home)
  unknown : ¬ Present d (listsIn (rulesDir home r.category)) →
    d'.file (rulesRootLists home) =
      some (contents d (rulesRootLists home) ++ categoryStep r.category)
  testKnown : Present d (listsIn (testsDir home r.category)) →
    d'.file (testsRootLists home) = d.file (testsRootLists home)
  testUnknown : ¬ Present d (listsIn (testsDir home r.category)) →
    d'.file (testsRootLists home) =
      some (contents d (testsRootLists home) ++ testCategoryStep r.category)
  others : ∀ p, p ∉ [ruleSource home r.category r.className, listsIn (rulesDir home r.category),
      testSource home r.category r.className, listsIn (testsDir home r.category),
      rulesRootLists home, testsRootLists home] → d'.file p = d.file p
  dirs : ∀ p, d'.dir p = true ↔
    d.dir p = true ∨ p = rulesDir home r.category ∨ p = testsDir home r.category

/-- Request after request, until one fails. -/
def scaffoldAll (home : Str) : Disk → List RuleRequest → Ran
  | d, [] => ⟨d, none⟩
  | d, r :: rs =>
    match scaffoldRule home d r with
    | ⟨d, none⟩ => scaffoldAll home d rs
    | failed => failed

/-- Is it about the same class? -/
def SameClass (q r : RuleRequest) : Prop := q.category = r.category ∧ q.className = r.className

/-- The files that a request writes to. -/
def writtenBy (home : Str) (r : RuleRequest) : List Str :=
  [ruleSource home r.category r.className, listsIn (rulesDir home r.category),
    testSource home r.category r.className, listsIn (testsDir home r.category),
    rulesRootLists home, testsRootLists home]

/-- What the list of categories gets: every new category once, in the order in which they come up. -/
def Registered (rs : List RuleRequest) (old : Str → Prop) (step : Str → Str) (before after : Str) : Prop :=
  ∃ new : List Str, new.Sublist (rs.map (·.category)) ∧ new.Nodup ∧
    (∀ c, c ∈ new ↔ c ∈ rs.map (·.category) ∧ ¬ old c) ∧
    after = before ++ (new.map step).flatten

/-- The disk after some requests. -/
structure ScaffoldedAll (home : Str) (d : Disk) (rs : List RuleRequest) (visits : Str) (d' : Disk) :
    Prop where
  rule : ∀ a r b, rs = a ++ r :: b → (∀ q ∈ b, ¬ SameClass q r) →
    d'.file (ruleSource home r.category r.className) =
      some (fill (requestedFields r visits) (ruleParts r.type))
  test : ∀ a r b, rs = a ++ r :: b → r.tests = true → (∀ q ∈ b, SameClass q r → q.tests = false) →
    d'.file (testSource home r.category r.className) =
      some (fill (requestedFields r visits) ruleTestParts)
  noTest : ∀ r ∈ rs, (∀ q ∈ rs, SameClass q r → q.tests = false) →
    d'.file (testSource home r.category r.className) =
      d.file (testSource home r.category r.className)
  lists : ∀ r ∈ rs, d'.file (listsIn (rulesDir home r.category)) =
    some (contents d (listsIn (rulesDir home r.category)) ++
      ((rs.filter fun q => decide (q.category = r.category)).map fun q => ruleStep q.className).flatten)
  testLists : ∀ r ∈ rs, d'.file (listsIn (testsDir home r.category)) =
    some (contents d (listsIn (testsDir home r.category)) ++
      ((rs.filter fun q => decide (q.category = r.category) && q.tests).map
        fun q => testStep q.className).flatten)
  roots : Registered rs (fun c => Present d (listsIn (rulesDir home c))) categoryStep
    (contents d (rulesRootLists home)) (contents d' (rulesRootLists home))
  testRoots : Registered rs (fun c => Present d (listsIn (testsDir home c))) testCategoryStep
    (contents d (testsRootLists home)) (contents d' (testsRootLists home))
  others : ∀ p, (∀ r ∈ rs, p ∉ writtenBy home r) → d'.file p = d.file p
  dirs : ∀ p, d'.dir p = true ↔
    d.dir p = true ∨ ∃ r ∈ rs, p = rulesDir home r.category ∨ p = testsDir home r.category

/-! ## Reporters -/

/-- The directory of the reporters. -/
def reportersDir (home : Str) : Str := home ++ "/../oclint-reporters/reporters".toList
/-- The directory of their tests. -/
def reporterTestsDir (home : Str) : Str := home ++ "/../oclint-reporters/test".toList
/-- The source of a reporter. -/
def reporterSource (home className : Str) : Str :=
  reportersDir home ++ "/".toList ++ className ++ "Reporter.cpp".toList
/-- The source of its test. -/
def reporterTestSource (home className : Str) : Str :=
  reporterTestsDir home ++ "/".toList ++ className ++ "ReporterTest.cpp".toList
/-- A template. -/
def reporterTemplatePath (home name : Str) : Str :=
  home ++ "/../oclint-reporters/template/".toList ++ name

/-- What is assumed of a source tree. -/
structure ReporterCheckout (home : Str) (d : Disk) : Prop where
  place : home ≠ [] ∧ home.getLast? ≠ some '/'
  reporters : d.dir (reportersDir home) = true
  tests : d.dir (reporterTestsDir home) = true
  lists : d.dir (listsIn (reportersDir home)) = false
  testLists : d.dir (listsIn (reporterTestsDir home)) = false
  template : d.file (reporterTemplatePath home "Reporter.tmpl".toList) = some reporterTemplate
  testTemplate : d.file (reporterTemplatePath home "ReporterTest.tmpl".toList) =
    some reporterTestTemplate

/-- What the request is for. -/
def reporterValues (r : ReporterRequest) : Field → Str
  | .className => r.className
  | .name =>
    if r.name = [] then
      (r.className.flatMap fun c => if c.isUpper then [' ', c.toLower] else [c]).tail
    else r.name
  | _ => []

/-- What the list of reporters gets. -/
def reporterStep (className : Str) : Str :=
  inLines [[], "BUILD_DYNAMIC_REPORTER(".toList ++ className ++ ")".toList]
/-- What the list of tests gets. -/
def reporterTestStep (className : Str) : Str :=
  inLines [[], "BUILD_TEST(".toList ++ className ++ "ReporterTest)".toList]

/-- The disk after a request for a reporter. -/
structure ReporterScaffolded (home : Str) (d : Disk) (r : ReporterRequest) (d' : Disk) : Prop where
  reporter : d'.file (reporterSource home r.className) = some (fill (reporterValues r) reporterParts)
  lists : d'.file (listsIn (reportersDir home)) =
    some (contents d (listsIn (reportersDir home)) ++ reporterStep r.className)
  test : r.tests = true → d'.file (reporterTestSource home r.className) =
    some (fill (reporterValues r) reporterTestParts)
  testLists : r.tests = true → d'.file (listsIn (reporterTestsDir home)) =
    some (contents d (listsIn (reporterTestsDir home)) ++ reporterTestStep r.className)
  others : ∀ p, p ∉ [reporterSource home r.className, listsIn (reportersDir home)] →
    (r.tests = true → p ∉ [reporterTestSource home r.className, listsIn (reporterTestsDir home)]) →
    d'.file p = d.file p
  dirs : d'.dir = d.dir

/-- What is said of files that are there. -/
def reporterComplaints (home : Str) (d : Disk) (r : ReporterRequest) (said : List Str) : Prop :=
  (∀ line, line ∈ said ↔
    (line = "Error: ".toList ++ r.className ++ "Reporter.cpp already exists.".toList ∧
      Present d (reporterSource home r.className)) ∨
    (line = "Error: ".toList ++ r.className ++ "ReporterTest.cpp already exists.".toList ∧
      r.tests = true ∧ Present d (reporterTestSource home r.className))) ∧ said.Nodup

/-- Nothing that was there is lost: files keep their texts, lists can get more at the end. -/
def NothingLost (d : Disk) (lists : List Str) (d' : Disk) : Prop :=
  ∀ p text, d.file p = some text →
    ∃ more, d'.file p = some (text ++ more) ∧ (p ∉ lists → more = [])

end Oclint.Spec
