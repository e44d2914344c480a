import Verif.Lemmas.ScaffoldSeq
import Verif.Model.DocGen

/-!
# Properties of the scaffolding scripts (C95–C98)
-/

namespace Oclint
open Spec

/-! ## C95: names -/

/-- The name that is made up for a class gives back the class as identifier exactly for class names
that are a capital letter followed by letters (or empty). -/
theorem C95_identifier_iff (r : RuleRequest) (hn : r.name = []) :
    identifier r.dict.name = r.className ↔ ClassWord r.className := by
  show identifier (nameOrDefault r.name r.className) = _ ↔ _
  rw [hn]
  exact default_identifier_iff r.className

/-- Then it is selected and deselected by the name of the class. -/
theorem C95_selected (r : RuleRequest) (hn : r.name = []) (h : ClassWord r.className)
    (reqs : List Request) :
    (filterAfter reqs).accepts (identifier r.dict.name) = true ↔ Selected reqs r.className := by
  rw [(C95_identifier_iff r hn).2 h, accepts_iff]

/-- And the documentation links to the file that was written. -/
theorem C95_link (home : Str) (r : RuleRequest) (hn : r.name = []) (h : ClassWord r.className)
    (doc : RuleDoc) (hc : doc.category = r.category)
    (hf : doc.fileName = identifier r.dict.name ++ "Rule.cpp".toList) :
    ruleSource home r.category r.className = home ++ "/../".toList ++ sourceOf doc := by
  unfold ruleSource rulesDir sourceOf
  rw [hc, hf, (C95_identifier_iff r hn).2 h]
  simp only [← List.append_assoc]
  congr 4
  rw [List.append_assoc]
  congr 1

/-- A class name of capitalised words gives the words, separated by spaces; for rules and reporters. -/
theorem C95_words (ws : List Str) (h : ∀ w ∈ ws, CapitalWord w) (r : RuleRequest) (q : ReporterRequest)
    (hr : r.name = [] ∧ r.className = ws.flatten) (hq : q.name = [] ∧ q.className = ws.flatten) :
    r.dict.name = List.intercalate [' '] (ws.map uncapital) ∧
      reporterValues q .name = List.intercalate [' '] (ws.map uncapital) := by
  rw [← reporterName_eq]
  show nameOrDefault r.name r.className = _ ∧ _
  rw [hr.1, hr.2, hq.1, hq.2]
  exact ⟨default_name_words ws h, default_name_words ws h⟩

/-- A name that is given is kept. -/
theorem C95_given (r : RuleRequest) (hn : r.name ≠ []) : r.dict.name = r.name := by
  show nameOrDefault r.name r.className = _
  unfold nameOrDefault
  rw [if_neg hn]

example : ({ className := "LongLineX".toList } : RuleRequest).dict.name = "long line x".toList := by
  decide +kernel
/-- The first letter of a class name with a small letter is lost. -/
theorem C95_witness : ({ className := "longLine".toList } : RuleRequest).dict.name = "ong line".toList ∧
    identifier "ong line".toList = "OngLine".toList := by decide +kernel

/-! ## C96: templates -/

/-- The sources have the values in the places of the wildcards, and nothing else changed. -/
theorem C96_rule (r : RuleRequest) (hr : PlainRequest r) (visits : Str) :
    (∀ home d, visitAstNodes home d = some visits →
      expandTemplate home d r.dict (ruleTemplate r.type) =
        some (fill (requestedFields r visits) (ruleParts r.type)) ∧
      expandTemplate home d r.dict ruleTestTemplate =
        some (fill (requestedFields r visits) ruleTestParts)) := by
  intro home d hn
  rw [expandTemplate_eq home d r.dict _ visits hn, expandTemplate_eq home d r.dict _ visits hn,
    ruleTemplate_eq, ruleTestTemplate_eq, filled_eq r hr visits _ (ruleParts_ok r.type),
    filled_eq r hr visits _ ruleTestParts_ok]
  exact ⟨rfl, rfl⟩

/-- What is offered to visit are the nodes that the two lists define, in order. -/
theorem C96_visits (home : Str) (hh : home ≠ [] ∧ home.getLast? ≠ some '/') (d : Disk) (stmts decls : Str)
    (hs : d.file (templatePath home "ClangStmtNodes".toList) = some stmts)
    (hd : d.file (templatePath home "ClangDeclNodes".toList) = some decls) (visits : Str) :
    visitAstNodes home d = some visits ↔ VisitsOf stmts decls visits := by
  obtain ⟨v, hv, hn⟩ := visitAstNodes_eq stmts decls
  have e := hn home d (by rw [template_eq home hh _ (by decide +kernel)]; exact hs)
    (by rw [template_eq home hh _ (by decide +kernel)]; exact hd)
  rw [e]
  constructor
  · intro h
    rw [← Option.some.inj h]
    exact hv
  · intro h
    rw [visitsOf_unique h hv]

/-- There is always exactly one such text. -/
theorem C96_visits_unique (stmts decls : Str) : ∃! visits, VisitsOf stmts decls visits := by
  obtain ⟨v, hv, -⟩ := visitAstNodes_eq stmts decls
  exact ⟨v, hv, fun w hw => visitsOf_unique hw hv⟩

/-- What a line defines is what the regular expression captures. -/
theorem C96_captures (line g : Str) : searchDef line = some g ↔ Captures line g := searchDef_iff line g

/-- Values with wildcards are expanded again. -/
theorem C96_witness :
    replaceRuleWildcards genericTemplate
        ({ className := "A".toList, name := "{{RULE_PRIORITY}}".toList } : RuleRequest).dict [] =
      fill (requestedFields { className := "A".toList, name := "3".toList } []) genericParts := by
  decide +kernel

example : searchDef "  def DeclStmt : StmtNode<Stmt>;\n".toList = some "DeclStmt".toList ∧
    searchDef "def A : B : C".toList = some "A : B".toList ∧
    searchDef "  class DStmt<X> : Y;\n".toList = none := by decide +kernel

example : "class LongLineRule : public RuleBase\n".toList <:+:
    fill (requestedFields { className := "LongLine".toList } []) genericParts := by decide +kernel

/-! ## C97: `scaffoldRule` -/

/-- One request. -/
theorem C97_run (home : Str) (d : Disk) (stmts decls visits : Str) (hc : Checkout home d stmts decls)
    (hv : VisitsOf stmts decls visits) (r : RuleRequest) (hr : PlainRequest r)
    (hu : Unobstructed home d r) :
    ∃ d', scaffoldRule home d r = ⟨d', none⟩ ∧ Scaffolded home d r visits d' :=
  scaffoldRule_run home d stmts decls visits hc hv r hr hu

/-- Any number of requests. -/
theorem C97_sequence (home : Str) (d : Disk) (stmts decls visits : Str)
    (hc : Checkout home d stmts decls) (hv : VisitsOf stmts decls visits) (rs : List RuleRequest)
    (hp : ∀ r ∈ rs, PlainRequest r) (hu : ∀ r ∈ rs, Unobstructed home d r) :
    ∃ d', scaffoldAll home d rs = ⟨d', none⟩ ∧ ScaffoldedAll home d rs visits d' :=
  scaffoldAll_run home stmts decls visits hv rs d hc hp hu

/-- Whatever is on the disk and whether or not the script fails, it only overwrites the sources of the
rule it is asked for; other files keep what they have, four lists can get more. -/
theorem C97_kept (home : Str) (hh : home ≠ [] ∧ home.getLast? ≠ some '/') (d : Disk) (r : RuleRequest)
    (hr : PlainRequest r) (p text : Str) (h : d.file p = some text)
    (h1 : p ≠ ruleSource home r.category r.className)
    (h2 : r.tests = true → p ≠ testSource home r.category r.className) :
    ∃ more, (scaffoldRule home d r).disk.file p = some (text ++ more) ∧
      (p ∉ [rulesRootLists home, testsRootLists home, listsIn (rulesDir home r.category),
        listsIn (testsDir home r.category)] → more = []) :=
  scaffoldRule_lost home hh d r hr p text h h1 h2

/-- Asking twice puts the rule into the list twice; what was in the source before is lost. -/
theorem C97_again (home : Str) (d : Disk) (stmts decls visits : Str)
    (hc : Checkout home d stmts decls) (hv : VisitsOf stmts decls visits) (r : RuleRequest)
    (hr : PlainRequest r) (hu : Unobstructed home d r) :
    ∃ d', scaffoldAll home d [r, r] = ⟨d', none⟩ ∧
      d'.file (listsIn (rulesDir home r.category)) =
        some (contents d (listsIn (rulesDir home r.category)) ++ ruleStep r.className ++
          ruleStep r.className) ∧
      d'.file (ruleSource home r.category r.className) =
        some (fill (requestedFields r visits) (ruleParts r.type)) := by
  obtain ⟨d', h1, h2⟩ := C97_sequence home d stmts decls visits hc hv [r, r] (by simpa using hr)
    (by simpa using hu)
  refine ⟨d', h1, ?_, h2.rule [r] r [] rfl (by simp)⟩
  rw [h2.lists r (by simp)]
  simp

/-- Some directories. -/
def exampleDirs : List Str :=
  ["h".toList, "h/..".toList, "h/../oclint-rules".toList,
    "h/../oclint-rules/rules".toList, "h/../oclint-rules/test".toList,
    "h/../oclint-reporters/reporters".toList, "h/../oclint-reporters/test".toList,
    "h/../oclint-reporters".toList]

/-- A disk with some directories and files. -/
def exampleDisk : Disk where
  dir p := decide (p ∈ exampleDirs)
  file p := List.lookup p [
    ("h/../oclint-rules/rules/CMakeLists.txt".toList, "ADD_RULE_CATEGORY_DIRECTORY(basic)\n".toList),
    ("h/../oclint-rules/test/CMakeLists.txt".toList, "ADD_SUBDIRECTORY(basic)\n".toList),
    ("h/../oclint-rules/template/GenericRule.tmpl".toList, genericTemplate),
    ("h/../oclint-rules/template/SourceCodeReaderRule.tmpl".toList, sourceCodeReaderTemplate),
    ("h/../oclint-rules/template/ASTVisitorRule.tmpl".toList, astVisitorTemplate),
    ("h/../oclint-rules/template/ASTMatcherRule.tmpl".toList, astMatcherTemplate),
    ("h/../oclint-rules/template/RuleTest.tmpl".toList, ruleTestTemplate),
    ("h/../oclint-rules/template/ClangStmtNodes".toList, "def IfStmt : StmtNode<Stmt>;\n".toList),
    ("h/../oclint-rules/template/ClangDeclNodes".toList, "def Var : DDecl<Named>;\n".toList),
    ("h/../oclint-reporters/template/Reporter.tmpl".toList, reporterTemplate),
    ("h/../oclint-reporters/template/ReporterTest.tmpl".toList, reporterTestTemplate),
    ("h/../oclint-reporters/reporters/TextReporter.cpp".toList, "old".toList)]

theorem exampleCheckout : Checkout "h".toList exampleDisk "def IfStmt : StmtNode<Stmt>;\n".toList
    "def Var : DDecl<Named>;\n".toList := by
  exact {
    place := by decide +kernel
    sound := by
      intro p hp
      have key : ∀ p ∈ exampleDirs, exampleDisk.file p = none := by decide +kernel
      exact key p (of_decide_eq_true hp)
    parents := by
      intro p rest hp
      have key : ∀ q ∈ exampleDirs, ∀ p ∈ q.inits, above p q = true → exampleDisk.dir p = true := by
        decide +kernel
      exact key _ (of_decide_eq_true hp) p (by rw [List.mem_inits]; exact List.prefix_append _ _)
        ((above_iff _ _).2 (Or.inr ⟨rest, rfl⟩))
    rules := by decide +kernel
    tests := by decide +kernel
    rulesLists := by decide +kernel
    testsLists := by decide +kernel
    template := by intro kind; cases kind <;> decide +kernel
    testTemplate := by decide +kernel
    stmtNodes := by decide +kernel
    declNodes := by decide +kernel }

theorem exampleFree : Unobstructed "h".toList exampleDisk { className := "LongLine".toList } := by
  constructor <;> decide +kernel

theorem examplePlain : PlainRequest { className := "LongLine".toList } := by
  constructor <;> unfold Braceless <;> decide +kernel

/-- The hypotheses can be satisfied: on this disk the script does what it should. -/
example : ∃ visits d', VisitsOf "def IfStmt : StmtNode<Stmt>;\n".toList
      "def Var : DDecl<Named>;\n".toList visits ∧
    scaffoldRule "h".toList exampleDisk { className := "LongLine".toList } = ⟨d', none⟩ ∧
    Scaffolded "h".toList exampleDisk { className := "LongLine".toList } visits d' := by
  obtain ⟨visits, hv, -⟩ := C96_visits_unique "def IfStmt : StmtNode<Stmt>;\n".toList
    "def Var : DDecl<Named>;\n".toList
  obtain ⟨d', h1, h2⟩ := C97_run _ _ _ _ _ exampleCheckout hv _ examplePlain exampleFree
  exact ⟨visits, d', hv, h1, h2⟩

example : (scaffoldRule "h".toList exampleDisk { className := "LongLine".toList }).disk.file
    "h/../oclint-rules/rules/CMakeLists.txt".toList =
      some "ADD_RULE_CATEGORY_DIRECTORY(basic)\n\nADD_RULE_CATEGORY_DIRECTORY(custom)\n".toList ∧
    (scaffoldRule "h".toList exampleDisk { className := "LongLine".toList }).disk.file
      "h/../oclint-rules/rules/custom/CMakeLists.txt".toList =
      some "\nSET(BuildLongLineRule LongLine)\nBUILD_DYNAMIC_RULES(\"${BuildLongLineRule}\")\n".toList ∧
    (scaffoldRule "h".toList exampleDisk { className := "LongLine".toList }).disk.file
      "h/../oclint-rules/test/custom/CMakeLists.txt".toList =
      some "\nBUILD_TEST(LongLineRuleTest\nLongLineRuleTest.cpp)\n".toList := by
  decide +kernel

/-! ## C98: `scaffoldReporter` -/

/-- If neither source is there, both are written, and listed. -/
theorem C98_run (home : Str) (d : Disk) (hc : ReporterCheckout home d)
    (r : ReporterRequest) (hcl : '/' ∉ r.className) (hb : Braceless r.className)
    (h1 : d.dir (reporterSource home r.className) = false)
    (h2 : d.dir (reporterTestSource home r.className) = false)
    (n1 : ¬ Present d (reporterSource home r.className))
    (n2 : r.tests = true → ¬ Present d (reporterTestSource home r.className)) :
    ∃ d', scaffoldReporter home d r = ([], ⟨d', none⟩) ∧ ReporterScaffolded home d r d' :=
  scaffoldReporter_run home d hc r hcl hb h1 h2 n1 n2

/-- Otherwise it says so and does nothing. -/
theorem C98_refused (home : Str) (hh : home ≠ [] ∧ home.getLast? ≠ some '/') (d : Disk)
    (r : ReporterRequest) (hcl : '/' ∉ r.className) :
    reporterComplaints home d r (scaffoldReporter home d r).1 ∧
      (Present d (reporterSource home r.className) ∨
        (r.tests = true ∧ Present d (reporterTestSource home r.className)) →
        (scaffoldReporter home d r).2 = ⟨d, none⟩) := by
  obtain ⟨h1, h2⟩ := scaffoldReporter_complaints home hh d r hcl
  refine ⟨h1, fun h => h2 ?_⟩
  rcases h with h | h
  · exact List.ne_nil_of_mem ((h1.1 _).2 (Or.inl ⟨rfl, h⟩))
  · exact List.ne_nil_of_mem ((h1.1 _).2 (Or.inr ⟨rfl, h⟩))

/-- Whatever is on the disk, whatever is asked for and whether or not the script fails: no file loses
anything, and only the two lists can get more. -/
theorem C98_kept (home : Str) (hh : home ≠ [] ∧ home.getLast? ≠ some '/') (d : Disk)
    (r : ReporterRequest) :
    NothingLost d [listsIn (reportersDir home), listsIn (reporterTestsDir home)]
      (scaffoldReporter home d r).2.disk := by
  have := scaffoldReporter_lost home d r
  rwa [reportersLists_eq home hh, reportersTestLists_eq home hh] at this

theorem exampleReporters : ReporterCheckout "h".toList exampleDisk := by
  constructor <;> decide +kernel

example : ∃ d', scaffoldReporter "h".toList exampleDisk { className := "Toml".toList } = ([], ⟨d', none⟩) ∧
    ReporterScaffolded "h".toList exampleDisk { className := "Toml".toList } d' :=
  C98_run _ _ exampleReporters _ (by decide +kernel) (by unfold Braceless; decide +kernel)
    (by decide +kernel) (by decide +kernel)
    (by rintro ⟨t, ht⟩; exact absurd (ht.symm.trans (by decide +kernel : _ = none)) (Option.some_ne_none t))
    (by rintro - ⟨t, ht⟩; exact absurd (ht.symm.trans (by decide +kernel : _ = none)) (Option.some_ne_none t))

example : (scaffoldReporter "h".toList exampleDisk { className := "Text".toList }).1 =
    ["Error: TextReporter.cpp already exists.".toList] := by decide +kernel

end Oclint
