import Verif.Model.Catalogue
import Verif.Model.Scaffold

/-!
# Templates of the scaffolding scripts

The files in `oclint-rules/template` and `oclint-reporters/template`, line by line; the lists of AST
nodes are left out.
-/

namespace Oclint

/-- `oclint-rules/template/GenericRule.tmpl:1-86`. -/
def genericTemplate : Str := List.flatten
  [chars! "#include <clang/AST/AST.h>\n",
   chars! "\n",
   chars! "#include \"oclint/RuleBase.h\"\n",
   chars! "#include \"oclint/RuleSet.h\"\n",
   chars! "\n",
   chars! "using namespace std;\n",
   chars! "using namespace oclint;\n",
   chars! "\n",
   chars! "class {{RULE_CLASS_NAME}}Rule : public RuleBase\n",
   chars! "{\n",
   chars! "public:\n",
   chars! "    virtual const string name() const override\n",
   chars! "    {\n",
   chars! "        return \"{{RULE_NAME}}\";\n",
   chars! "    }\n",
   chars! "\n",
   chars! "    virtual int priority() const override\n",
   chars! "    {\n",
   chars! "        return {{RULE_PRIORITY}};\n",
   chars! "    }\n",
   chars! "\n",
   chars! "    virtual const string category() const override\n",
   chars! "    {\n",
   chars! "        return \"{{RULE_CATEGORY}}\";\n",
   chars! "    }\n",
   chars! "\n",
   chars! "#ifdef DOCGEN\n",
   chars! "    virtual const std::string since() const override\n",
   chars! "    {\n",
   chars! "        return \"{{OCLINT_VERSION}}\";\n",
   chars! "    }\n",
   chars! "\n",
   chars! "    virtual const std::string description() const override\n",
   chars! "    {\n",
   chars! "        return \"\"; // TODO: fill in the description of the rule.\n",
   chars! "    }\n",
   chars! "\n",
   chars! "    virtual const std::string example() const override\n",
   chars! "    {\n",
   chars! "        return R\"rst(\n",
   chars! ".. code-block:: cpp\n",
   chars! "\n",
   chars! "    void example()\n",
   chars! "    {\n",
   chars! "        // TODO: modify the example for this rule.\n",
   chars! "    }\n",
   chars! "        )rst\";\n",
   chars! "    }\n",
   chars! "\n",
   chars! "    /* fill in the file name only when it does not match the rule identifier\n",
   chars! "    virtual const std::string fileName() const override\n",
   chars! "    {\n",
   chars! "        return \"\";\n",
   chars! "    }\n",
   chars! "    */\n",
   chars! "\n",
   chars! "    /* add each threshold's key, description, and its default value to the map.\n",
   chars! "    virtual const std::map<std::string, std::string> thresholds() const override\n",
   chars! "    {\n",
   chars! "        std::map<std::string, std::string> thresholdMapping;\n",
   chars! "        return thresholdMapping;\n",
   chars! "    }\n",
   chars! "    */\n",
   chars! "\n",
   chars! "    /* add additional document for the rule, like references, notes, etc.\n",
   chars! "    virtual const std::string additionalDocument() const override\n",
   chars! "    {\n",
   chars! "        return \"\";\n",
   chars! "    }\n",
   chars! "    */\n",
   chars! "\n",
   chars! "    /* uncomment this method when the rule is enabled to be suppressed.\n",
   chars! "    virtual bool enableSuppress() const override\n",
   chars! "    {\n",
   chars! "        return true;\n",
   chars! "    }\n",
   chars! "    */\n",
   chars! "#endif\n",
   chars! "\n",
   chars! "    virtual void apply() override\n",
   chars! "    {\n",
   chars! "    }\n",
   chars! "\n",
   chars! "};\n",
   chars! "\n",
   chars! "static RuleSet rules(new {{RULE_CLASS_NAME}}Rule());\n"]

/-- `oclint-rules/template/SourceCodeReaderRule.tmpl:1-83`. -/
def sourceCodeReaderTemplate : Str := List.flatten
  [chars! "#include \"oclint/AbstractSourceCodeReaderRule.h\"\n",
   chars! "#include \"oclint/RuleSet.h\"\n",
   chars! "\n",
   chars! "using namespace std;\n",
   chars! "using namespace oclint;\n",
   chars! "\n",
   chars! "class {{RULE_CLASS_NAME}}Rule : public AbstractSourceCodeReaderRule\n",
   chars! "{\n",
   chars! "public:\n",
   chars! "    virtual const string name() const override\n",
   chars! "    {\n",
   chars! "        return \"{{RULE_NAME}}\";\n",
   chars! "    }\n",
   chars! "\n",
   chars! "    virtual int priority() const override\n",
   chars! "    {\n",
   chars! "        return {{RULE_PRIORITY}};\n",
   chars! "    }\n",
   chars! "\n",
   chars! "    virtual const string category() const override\n",
   chars! "    {\n",
   chars! "        return \"{{RULE_CATEGORY}}\";\n",
   chars! "    }\n",
   chars! "\n",
   chars! "#ifdef DOCGEN\n",
   chars! "    virtual const std::string since() const override\n",
   chars! "    {\n",
   chars! "        return \"{{OCLINT_VERSION}}\";\n",
   chars! "    }\n",
   chars! "\n",
   chars! "    virtual const std::string description() const override\n",
   chars! "    {\n",
   chars! "        return \"\"; // TODO: fill in the description of the rule.\n",
   chars! "    }\n",
   chars! "\n",
   chars! "    virtual const std::string example() const override\n",
   chars! "    {\n",
   chars! "        return R\"rst(\n",
   chars! ".. code-block:: cpp\n",
   chars! "\n",
   chars! "    void example()\n",
   chars! "    {\n",
   chars! "        // TODO: modify the example for this rule.\n",
   chars! "    }\n",
   chars! "        )rst\";\n",
   chars! "    }\n",
   chars! "\n",
   chars! "    /* fill in the file name only when it does not match the rule identifier\n",
   chars! "    virtual const std::string fileName() const override\n",
   chars! "    {\n",
   chars! "        return \"\";\n",
   chars! "    }\n",
   chars! "    */\n",
   chars! "\n",
   chars! "    /* add each threshold's key, description, and its default value to the map.\n",
   chars! "    virtual const std::map<std::string, std::string> thresholds() const override\n",
   chars! "    {\n",
   chars! "        std::map<std::string, std::string> thresholdMapping;\n",
   chars! "        return thresholdMapping;\n",
   chars! "    }\n",
   chars! "    */\n",
   chars! "\n",
   chars! "    /* add additional document for the rule, like references, notes, etc.\n",
   chars! "    virtual const std::string additionalDocument() const override\n",
   chars! "    {\n",
   chars! "        return \"\";\n",
   chars! "    }\n",
   chars! "    */\n",
   chars! "\n",
   chars! "    /* uncomment this method when the rule is enabled to be suppressed.\n",
   chars! "    virtual bool enableSuppress() const override\n",
   chars! "    {\n",
   chars! "        return true;\n",
   chars! "    }\n",
   chars! "    */\n",
   chars! "#endif\n",
   chars! "\n",
   chars! "    virtual void eachLine(int lineNumber, string line) override\n",
   chars! "    {\n",
   chars! "    }\n",
   chars! "};\n",
   chars! "\n",
   chars! "static RuleSet rules(new {{RULE_CLASS_NAME}}Rule());\n"]

/-- `oclint-rules/template/ASTVisitorRule.tmpl:1-85`. -/
def astVisitorTemplate : Str := List.flatten
  [chars! "#include \"oclint/AbstractASTVisitorRule.h\"\n",
   chars! "#include \"oclint/RuleSet.h\"\n",
   chars! "\n",
   chars! "using namespace std;\n",
   chars! "using namespace clang;\n",
   chars! "using namespace oclint;\n",
   chars! "\n",
   chars! "class {{RULE_CLASS_NAME}}Rule : public AbstractASTVisitorRule<{{RULE_CLASS_NAME}}Rule>\n",
   chars! "{\n",
   chars! "public:\n",
   chars! "    virtual const string name() const override\n",
   chars! "    {\n",
   chars! "        return \"{{RULE_NAME}}\";\n",
   chars! "    }\n",
   chars! "\n",
   chars! "    virtual int priority() const override\n",
   chars! "    {\n",
   chars! "        return {{RULE_PRIORITY}};\n",
   chars! "    }\n",
   chars! "\n",
   chars! "    virtual const string category() const override\n",
   chars! "    {\n",
   chars! "        return \"{{RULE_CATEGORY}}\";\n",
   chars! "    }\n",
   chars! "\n",
   chars! "#ifdef DOCGEN\n",
   chars! "    virtual const std::string since() const override\n",
   chars! "    {\n",
   chars! "        return \"{{OCLINT_VERSION}}\";\n",
   chars! "    }\n",
   chars! "\n",
   chars! "    virtual const std::string description() const override\n",
   chars! "    {\n",
   chars! "        return \"\"; // TODO: fill in the description of the rule.\n",
   chars! "    }\n",
   chars! "\n",
   chars! "    virtual const std::string example() const override\n",
   chars! "    {\n",
   chars! "        return R\"rst(\n",
   chars! ".. code-block:: cpp\n",
   chars! "\n",
   chars! "    void example()\n",
   chars! "    {\n",
   chars! "        // TODO: modify the example for this rule.\n",
   chars! "    }\n",
   chars! "        )rst\";\n",
   chars! "    }\n",
   chars! "\n",
   chars! "    /* fill in the file name only when it does not match the rule identifier\n",
   chars! "    virtual const std::string fileName() const override\n",
   chars! "    {\n",
   chars! "        return \"\";\n",
   chars! "    }\n",
   chars! "    */\n",
   chars! "\n",
   chars! "    /* add each threshold's key, description, and its default value to the map.\n",
   chars! "    virtual const std::map<std::string, std::string> thresholds() const override\n",
   chars! "    {\n",
   chars! "        std::map<std::string, std::string> thresholdMapping;\n",
   chars! "        return thresholdMapping;\n",
   chars! "    }\n",
   chars! "    */\n",
   chars! "\n",
   chars! "    /* add additional document for the rule, like references, notes, etc.\n",
   chars! "    virtual const std::string additionalDocument() const override\n",
   chars! "    {\n",
   chars! "        return \"\";\n",
   chars! "    }\n",
   chars! "    */\n",
   chars! "\n",
   chars! "    /* uncomment this method when the rule is enabled to be suppressed.\n",
   chars! "    virtual bool enableSuppress() const override\n",
   chars! "    {\n",
   chars! "        return true;\n",
   chars! "    }\n",
   chars! "    */\n",
   chars! "#endif\n",
   chars! "\n",
   chars! "    virtual void setUp() override {}\n",
   chars! "    virtual void tearDown() override {}\n",
   chars! "\n",
   chars! "    {{VISIT_AST_NODE_BLOCK}}\n",
   chars! "};\n",
   chars! "\n",
   chars! "static RuleSet rules(new {{RULE_CLASS_NAME}}Rule());\n"]

/-- `oclint-rules/template/ASTMatcherRule.tmpl:1-90`. -/
def astMatcherTemplate : Str := List.flatten
  [chars! "#include \"oclint/AbstractASTMatcherRule.h\"\n",
   chars! "#include \"oclint/RuleSet.h\"\n",
   chars! "\n",
   chars! "using namespace std;\n",
   chars! "using namespace clang;\n",
   chars! "using namespace clang::ast_matchers;\n",
   chars! "using namespace oclint;\n",
   chars! "\n",
   chars! "class {{RULE_CLASS_NAME}}Rule : public AbstractASTMatcherRule\n",
   chars! "{\n",
   chars! "public:\n",
   chars! "    virtual const string name() const override\n",
   chars! "    {\n",
   chars! "        return \"{{RULE_NAME}}\";\n",
   chars! "    }\n",
   chars! "\n",
   chars! "    virtual int priority() const override\n",
   chars! "    {\n",
   chars! "        return {{RULE_PRIORITY}};\n",
   chars! "    }\n",
   chars! "\n",
   chars! "    virtual const string category() const override\n",
   chars! "    {\n",
   chars! "        return \"{{RULE_CATEGORY}}\";\n",
   chars! "    }\n",
   chars! "\n",
   chars! "#ifdef DOCGEN\n",
   chars! "    virtual const std::string since() const override\n",
   chars! "    {\n",
   chars! "        return \"{{OCLINT_VERSION}}\";\n",
   chars! "    }\n",
   chars! "\n",
   chars! "    virtual const std::string description() const override\n",
   chars! "    {\n",
   chars! "        return \"\"; // TODO: fill in the description of the rule.\n",
   chars! "    }\n",
   chars! "\n",
   chars! "    virtual const std::string example() const override\n",
   chars! "    {\n",
   chars! "        return R\"rst(\n",
   chars! ".. code-block:: cpp\n",
   chars! "\n",
   chars! "    void example()\n",
   chars! "    {\n",
   chars! "        // TODO: modify the example for this rule.\n",
   chars! "    }\n",
   chars! "        )rst\";\n",
   chars! "    }\n",
   chars! "\n",
   chars! "    /* fill in the file name only when it does not match the rule identifier\n",
   chars! "    virtual const std::string fileName() const override\n",
   chars! "    {\n",
   chars! "        return \"\";\n",
   chars! "    }\n",
   chars! "    */\n",
   chars! "\n",
   chars! "    /* add each threshold's key, description, and its default value to the map.\n",
   chars! "    virtual const std::map<std::string, std::string> thresholds() const override\n",
   chars! "    {\n",
   chars! "        std::map<std::string, std::string> thresholdMapping;\n",
   chars! "        return thresholdMapping;\n",
   chars! "    }\n",
   chars! "    */\n",
   chars! "\n",
   chars! "    /* add additional document for the rule, like references, notes, etc.\n",
   chars! "    virtual const std::string additionalDocument() const override\n",
   chars! "    {\n",
   chars! "        return \"\";\n",
   chars! "    }\n",
   chars! "    */\n",
   chars! "\n",
   chars! "    /* uncomment this method when the rule is enabled to be suppressed.\n",
   chars! "    virtual bool enableSuppress() const override\n",
   chars! "    {\n",
   chars! "        return true;\n",
   chars! "    }\n",
   chars! "    */\n",
   chars! "#endif\n",
   chars! "\n",
   chars! "    virtual void callback(const MatchFinder::MatchResult &result) override\n",
   chars! "    {\n",
   chars! "    }\n",
   chars! "\n",
   chars! "    virtual void setUpMatcher() override\n",
   chars! "    {\n",
   chars! "    }\n",
   chars! "\n",
   chars! "};\n",
   chars! "\n",
   chars! "static RuleSet rules(new {{RULE_CLASS_NAME}}Rule());\n"]

/-- `oclint-rules/template/RuleTest.tmpl:1-15`. -/
def ruleTestTemplate : Str := List.flatten
  [chars! "#include \"TestRuleOnCode.h\"\n",
   chars! "#include \"rules/{{RULE_CATEGORY}}/{{RULE_CLASS_NAME}}Rule.cpp\"\n",
   chars! "\n",
   chars! "TEST({{RULE_CLASS_NAME}}RuleTest, PropertyTest)\n",
   chars! "{\n",
   chars! "    {{RULE_CLASS_NAME}}Rule rule;\n",
   chars! "    EXPECT_EQ({{RULE_PRIORITY}}, rule.priority());\n",
   chars! "    EXPECT_EQ(\"{{RULE_NAME}}\", rule.name());\n",
   chars! "    EXPECT_EQ(\"{{RULE_CATEGORY}}\", rule.category());\n",
   chars! "}\n",
   chars! "\n",
   chars! "TEST({{RULE_CLASS_NAME}}RuleTest, FirstFailingTest)\n",
   chars! "{\n",
   chars! "    EXPECT_FALSE(\"Start writing a new test\");\n",
   chars! "}\n"]

/-- `oclint-reporters/template/Reporter.tmpl:1-21`. -/
def reporterTemplate : Str := List.flatten
  [chars! "#include \"oclint/Reporter.h\"\n",
   chars! "\n",
   chars! "using namespace oclint;\n",
   chars! "\n",
   chars! "class {{REPORTER_CLASS_NAME}}Reporter : public Reporter\n",
   chars! "{\n",
   chars! "public:\n",
   chars! "    virtual const std::string name() const override\n",
   chars! "    {\n",
   chars! "        return \"{{REPORTER_NAME}}\";\n",
   chars! "    }\n",
   chars! "\n",
   chars! "    virtual void report(Results *results, std::ostream &out) override\n",
   chars! "    {\n",
   chars! "    }\n",
   chars! "};\n",
   chars! "\n",
   chars! "extern \"C\" Reporter* create()\n",
   chars! "{\n",
   chars! "  return new {{REPORTER_CLASS_NAME}}Reporter();\n",
   chars! "}\n"]

/-- `oclint-reporters/template/ReporterTest.tmpl:1-24`. -/
def reporterTestTemplate : Str := List.flatten
  [chars! "#include <gtest/gtest.h>\n",
   chars! "#include <gmock/gmock.h>\n",
   chars! "\n",
   chars! "#include \"{{REPORTER_CLASS_NAME}}Reporter.cpp\"\n",
   chars! "\n",
   chars! "using namespace ::testing;\n",
   chars! "using namespace oclint;\n",
   chars! "\n",
   chars! "TEST({{REPORTER_CLASS_NAME}}ReporterTest, PropertyTest)\n",
   chars! "{\n",
   chars! "    {{REPORTER_CLASS_NAME}}Reporter reporter;\n",
   chars! "    EXPECT_THAT(reporter.name(), StrEq(\"{{REPORTER_NAME}}\"));\n",
   chars! "}\n",
   chars! "\n",
   chars! "TEST({{REPORTER_CLASS_NAME}}ReporterTest, FirstFailingTest)\n",
   chars! "{\n",
   chars! "    EXPECT_FALSE(\"Start writing a new test\");\n",
   chars! "}\n",
   chars! "\n",
   chars! "int main(int argc, char **argv)\n",
   chars! "{\n",
   chars! "    ::testing::InitGoogleMock(&argc, argv);\n",
   chars! "    return RUN_ALL_TESTS();\n",
   chars! "}\n"]

/-- The template of a choice of `--type`. -/
def ruleTemplate : TemplateKind → Str
  | .Generic => genericTemplate
  | .SourceCodeReader => sourceCodeReaderTemplate
  | .ASTVisitor => astVisitorTemplate
  | .ASTMatcher => astMatcherTemplate

end Oclint
