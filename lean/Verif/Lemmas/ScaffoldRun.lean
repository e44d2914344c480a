import Verif.Lemmas.ScaffoldDisk

/-!
# Lemmas about running the scaffolding scripts
-/

namespace Oclint
open Spec

theorem rules_ne_tests (home x y : Str) :
    home ++ "/../oclint-rules/rules".toList ++ x ≠ home ++ "/../oclint-rules/test".toList ++ y := by
  rw [show "/../oclint-rules/rules".toList = chars! "/../oclint-rules/rules" from rfl,
    show "/../oclint-rules/test".toList = chars! "/../oclint-rules/test" from rfl]
  simp

theorem rules_ne_template (home x y : Str) :
    templatePath home y ≠ home ++ "/../oclint-rules/rules".toList ++ x := by
  unfold templatePath
  rw [show "/../oclint-rules/rules".toList = chars! "/../oclint-rules/rules" from rfl,
    show "/../oclint-rules/template/".toList = chars! "/../oclint-rules/template/" from rfl]
  simp

theorem tests_ne_template (home x y : Str) :
    templatePath home y ≠ home ++ "/../oclint-rules/test".toList ++ x := by
  unfold templatePath
  rw [show "/../oclint-rules/test".toList = chars! "/../oclint-rules/test" from rfl,
    show "/../oclint-rules/template/".toList = chars! "/../oclint-rules/template/" from rfl]
  simp

/-- The root of the rules. -/
def RR (home : Str) : Str := home ++ "/../oclint-rules/rules".toList
/-- The root of the tests. -/
def TT (home : Str) : Str := home ++ "/../oclint-rules/test".toList

theorem RR_ne_TT (home x y : Str) : RR home ++ x ≠ TT home ++ y := rules_ne_tests home x y
theorem template_ne_RR (home x y : Str) : templatePath home y ≠ RR home ++ x :=
  rules_ne_template home x y
theorem template_ne_TT (home x y : Str) : templatePath home y ≠ TT home ++ x :=
  tests_ne_template home x y

theorem rulesDir_eq (home cat : Str) : rulesDir home cat = RR home ++ '/' :: cat := by
  unfold rulesDir RR
  rw [show "/../oclint-rules/rules/".toList = "/../oclint-rules/rules".toList ++ ['/'] by decide +kernel]
  simp only [List.append_assoc, List.singleton_append]

theorem testsDir_eq (home cat : Str) : testsDir home cat = TT home ++ '/' :: cat := by
  unfold testsDir TT
  rw [show "/../oclint-rules/test/".toList = "/../oclint-rules/test".toList ++ ['/'] by decide +kernel]
  simp only [List.append_assoc, List.singleton_append]

theorem rulesRootLists_eq (home : Str) : rulesRootLists home = listsIn (RR home) := by
  unfold rulesRootLists listsIn RR
  rw [List.append_assoc]
  congr 1

theorem testsRootLists_eq (home : Str) : testsRootLists home = listsIn (TT home) := by
  unfold testsRootLists listsIn TT
  rw [List.append_assoc]
  congr 1

theorem ruleSource_eq (home cat cls : Str) :
    ruleSource home cat cls = rulesDir home cat ++ '/' :: (cls ++ "Rule.cpp".toList) := by
  unfold ruleSource
  rw [List.append_assoc, List.append_assoc]
  congr 1

theorem testSource_eq (home cat cls : Str) :
    testSource home cat cls = testsDir home cat ++ '/' :: (cls ++ "RuleTest.cpp".toList) := by
  unfold testSource
  rw [List.append_assoc, List.append_assoc]
  congr 1

theorem listsIn_eq (dir : Str) : listsIn dir = dir ++ '/' :: "CMakeLists.txt".toList := rfl

theorem lists_ne_source (dir cls ext : Str) (he : ext.getLast? = some 'p') :
    listsIn dir ≠ dir ++ '/' :: (cls ++ ext) := by
  intro h
  have := congrArg List.getLast? h
  rw [listsIn_eq, List.getLast?_append, List.getLast?_append, List.getLast?_cons,
    List.getLast?_cons] at this
  rw [List.getLast?_append, he] at this
  have h2 : "CMakeLists.txt".toList.getLast?.getD '/' = 't' := by decide +kernel
  rw [h2] at this
  simp at this

/-- A longer path below a directory. -/
theorem deeper_ne (R a b c : Str) (hc : '/' ∉ c) : R ++ '/' :: a ++ '/' :: b ≠ R ++ '/' :: c := by
  intro h
  rw [List.append_assoc, List.append_cancel_left_eq, List.cons_append, List.cons.injEq] at h
  exact hc (by rw [← h.2]; simp)

theorem self_ne (R a : Str) : R ≠ R ++ '/' :: a := by
  intro h
  have := congrArg List.length h
  simp only [List.length_append, List.length_cons] at this
  omega

theorem noSlash_name : '/' ∉ "CMakeLists.txt".toList := by decide +kernel
theorem noSlash_rule : '/' ∉ "Rule.cpp".toList := by decide +kernel
theorem noSlash_test : '/' ∉ "RuleTest.cpp".toList := by decide +kernel

theorem head_append_ne (a b : Str) (ha : '/' ∉ a) (hb : '/' ∉ b) : (a ++ b).head? ≠ some '/' := by
  intro h
  have := List.mem_of_mem_head? h
  simp [ha, hb] at this

theorem steps_eq (c : Str) :
    "\nADD_RULE_CATEGORY_DIRECTORY(".toList ++ c ++ ")\n".toList = categoryStep c := by
  unfold categoryStep inLines
  simp only [List.flatMap_cons, List.flatMap_nil, List.append_nil, List.nil_append]
  rw [show "\nADD_RULE_CATEGORY_DIRECTORY(".toList = ['\n'] ++ "ADD_RULE_CATEGORY_DIRECTORY(".toList by
    decide +kernel, show ")\n".toList = ")".toList ++ ['\n'] by decide +kernel]
  simp only [List.append_assoc]

theorem testSteps_eq (c : Str) :
    "\nADD_SUBDIRECTORY(".toList ++ c ++ ")\n".toList = testCategoryStep c := by
  unfold testCategoryStep inLines
  simp only [List.flatMap_cons, List.flatMap_nil, List.append_nil, List.nil_append]
  rw [show "\nADD_SUBDIRECTORY(".toList = ['\n'] ++ "ADD_SUBDIRECTORY(".toList by
    decide +kernel, show ")\n".toList = ")".toList ++ ['\n'] by decide +kernel]
  simp only [List.append_assoc]

theorem requestFields_eq (r : RuleRequest) (visits : Str) :
    dictFields r.dict visits = requestedFields r visits := by
  funext f
  have hdrop : ∀ s : Str, s.drop 1 = s.tail := fun s => by cases s <;> rfl
  cases f with
  | className => rfl
  | name =>
    simp only [dictFields, RuleRequest.dict, requestedFields, nameOrDefault, requestedName]
    rw [hdrop]
    rfl
  | priority =>
    simp only [dictFields, RuleRequest.dict, requestedFields]
    cases r.priority <;> rfl
  | category => rfl
  | version => rfl
  | visits => rfl

theorem drop_braceless {s : Str} (h : Braceless s) (n : Nat) : Braceless (s.drop n) :=
  fun e => h (List.mem_of_mem_drop e)

/-- The text of a template filled in for a plain request. -/
theorem filled_eq (r : RuleRequest) (hr : PlainRequest r) (visits : Str) (parts : List Part)
    (hp : ∀ p ∈ parts, textOk p) :
    replaceRuleWildcards (fill (fun f => wildcard (ruleKey f)) parts) r.dict visits =
      fill (requestedFields r visits) parts := by
  rw [replaceRule_fill parts hp, requestFields_eq]
  · exact noMark_of_braceless _ hr.className.2
  · show NoMark (nameOrDefault r.name r.className)
    apply noMark_of_braceless
    unfold nameOrDefault
    split
    · exact drop_braceless (subCapitals_braceless _ hr.className.2) 1
    · exact hr.name
  · show NoMark r.priority.text
    cases r.priority <;> decide
  · exact noMark_of_braceless _ hr.category.2.2
  · show NoMark oclintVersion
    decide +kernel

theorem scaffoldRule_run (home : Str) (d : Disk) (stmts decls visits : Str)
    (hc : Checkout home d stmts decls) (hv : VisitsOf stmts decls visits) (r : RuleRequest)
    (hr : PlainRequest r) (hu : Unobstructed home d r) :
    ∃ d', scaffoldRule home d r = ⟨d', none⟩ ∧ Scaffolded home d r visits d' := by
  have hh := hc.place
  obtain ⟨hcne, hcs, -⟩ := hr.category
  have hcl := hr.className.1
  have hR : rulesRoot home = RR home := rulesRoot_eq home hh
  have hT : testsRoot home = TT home := testsRoot_eq home hh
  have hnl : r.className ++ "Rule".toList ++ ".cpp".toList = r.className ++ "Rule.cpp".toList := by
    rw [List.append_assoc]; congr 1
  have hnt : r.className ++ "RuleTest".toList ++ ".cpp".toList =
      r.className ++ "RuleTest.cpp".toList := by
    rw [List.append_assoc]; congr 1
  have hsl : '/' ∉ r.className ++ "Rule.cpp".toList := by
    rw [List.mem_append, not_or]; exact ⟨hcl, noSlash_rule⟩
  have hst : '/' ∉ r.className ++ "RuleTest.cpp".toList := by
    rw [List.mem_append, not_or]; exact ⟨hcl, noSlash_test⟩
  -- the paths of the script
  have pA : customFolder home r.category = RR home ++ '/' :: r.category := by
    rw [customFolder_eq home hh _ hcs, hR]
  have pB : customTestFolder home r.category = TT home ++ '/' :: r.category := by
    rw [customTestFolder_eq home hh _ hcs, hT]
  have pLA : customLists home r.category = listsIn (RR home ++ '/' :: r.category) := by
    unfold customLists
    rw [pA, join_in _ _ _ hcne hcs (by decide +kernel), listsIn_eq]
  have pLB : customTestLists home r.category = listsIn (TT home ++ '/' :: r.category) := by
    unfold customTestLists
    rw [pB, join_in _ _ _ hcne hcs (by decide +kernel), listsIn_eq]
  have pRA : rulesLists home = listsIn (RR home) := by rw [rulesLists_eq home hh, hR]
  have pRB : testsLists home = listsIn (TT home) := by rw [testsLists_eq home hh, hT]
  -- the names of the specification
  have uA := rulesDir_eq home r.category
  have uB := testsDir_eq home r.category
  have uRA := rulesRootLists_eq home
  have uRB := testsRootLists_eq home
  have uS := ruleSource_eq home r.category r.className
  have uTS := testSource_eq home r.category r.className
  -- differences
  have nA : ∀ x y, RR home ++ x ≠ TT home ++ y := RR_ne_TT home
  have sd : SoundDisk d := ⟨hc.sound, hc.parents⟩
  -- first the category of rules
  obtain ⟨d1, e1, s1, dir1, l1, k1, n1, f1⟩ := register d sd (RR home) r.category
    (categoryStep r.category) hc.rules hcs (by rw [← uA]; exact hu.rules)
    (by rw [← uA]; exact hu.rulesLists) (by rw [← uRA]; exact hc.rulesLists)
  have f1T : ∀ x, d1.file (TT home ++ x) = d.file (TT home ++ x) := by
    intro x
    apply f1
    · rw [listsIn_eq, List.append_assoc]; exact fun e => nA _ _ e.symm
    · rw [listsIn_eq]; exact fun e => nA _ _ e.symm
  have d1T : ∀ x, d1.dir (TT home ++ x) = d.dir (TT home ++ x) := by
    intro x
    rw [Bool.eq_iff_iff, dir1]
    exact ⟨fun h => h.elim id fun e => absurd e.symm (nA _ _), Or.inl⟩
  -- then the category of tests
  have c1T : ∀ x, contents d1 (TT home ++ x) = contents d (TT home ++ x) := by
    intro x; unfold contents; rw [f1T]
  obtain ⟨d2, e2, s2, dir2, l2, k2, n2, f2⟩ := register d1 s1 (TT home) r.category
    (testCategoryStep r.category) ((dir1 _).2 (Or.inl hc.tests)) hcs
    (by rw [f1T, ← uB]; exact hu.tests)
    (by
      rw [listsIn_eq, List.append_assoc, d1T, ← List.append_assoc, ← listsIn_eq, ← uB]
      exact hu.testsLists)
    (by rw [listsIn_eq, f1T, ← listsIn_eq, ← uRB]; exact hc.testsLists)
  have f2R : ∀ x, d2.file (RR home ++ x) = d1.file (RR home ++ x) := by
    intro x
    apply f2
    · rw [listsIn_eq, List.append_assoc]; exact nA _ _
    · rw [listsIn_eq]; exact nA _ _
  have d2R : ∀ x, d2.dir (RR home ++ x) = d1.dir (RR home ++ x) := by
    intro x
    rw [Bool.eq_iff_iff, dir2]
    exact ⟨fun h => h.elim id fun e => absurd e (nA _ _), Or.inl⟩
  have f2t : ∀ y, d2.file (templatePath home y) = d.file (templatePath home y) := by
    intro y
    rw [f2, f1]
    · rw [listsIn_eq, List.append_assoc]; exact template_ne_RR _ _ _
    · rw [listsIn_eq]; exact template_ne_RR _ _ _
    · rw [listsIn_eq, List.append_assoc]; exact template_ne_TT _ _ _
    · rw [listsIn_eq]; exact template_ne_TT _ _ _
  -- the lists of nodes
  obtain ⟨visits', hv', hnodes⟩ := visitAstNodes_eq stmts decls
  obtain rfl := visitsOf_unique hv hv'
  have hstmt : pyJoin (rulesTemplates home) "ClangStmtNodes".toList =
      templatePath home "ClangStmtNodes".toList := template_eq home hh _ (by decide +kernel)
  have hdecl : pyJoin (rulesTemplates home) "ClangDeclNodes".toList =
      templatePath home "ClangDeclNodes".toList := template_eq home hh _ (by decide +kernel)
  have hvis : ∀ e : Disk, (∀ y, e.file (templatePath home y) = d.file (templatePath home y)) →
      visitAstNodes home e = some visits := by
    intro e he
    apply hnodes
    · rw [hstmt, he]; exact hc.stmtNodes
    · rw [hdecl, he]; exact hc.declNodes
  -- the rule
  have hSA : RR home ++ '/' :: r.category ++ '/' :: (r.className ++ "Rule.cpp".toList) =
      ruleSource home r.category r.className := by rw [uS, uA]
  have hTB : TT home ++ '/' :: r.category ++ '/' :: (r.className ++ "RuleTest.cpp".toList) =
      testSource home r.category r.className := by rw [uTS, uB]
  have dirS : d2.dir (ruleSource home r.category r.className) = false := by
    rw [← hSA, List.append_assoc, d2R, ← Bool.not_eq_true, dir1]
    rintro (h | h)
    · rw [← List.append_assoc, hSA, hu.rule] at h; cases h
    · rw [← List.append_assoc] at h
      exact self_ne _ _ h.symm
  have dirA2 : d2.dir (RR home ++ '/' :: r.category) = true := by
    rw [d2R]; exact (dir1 _).2 (Or.inr rfl)
  have tmplRule : pyJoin (rulesTemplates home) (r.type.text ++ "Rule".toList ++ ".tmpl".toList) =
      templatePath home (r.type.text ++ "Rule.tmpl".toList) := by
    rw [template_eq home hh _ (by cases r.type <;> decide +kernel), List.append_assoc]
    congr 1
  obtain ⟨d3, e3, dir3, g3, f3⟩ := copy_step home d2 (RR home ++ '/' :: r.category)
    (r.className ++ "Rule.cpp".toList) r.type.text "Rule".toList r.dict
    (templatePath home (r.type.text ++ "Rule.tmpl".toList)) (ruleTemplate r.type) visits hsl dirA2
    (by rw [hSA]; exact dirS)
    (by
      show pyJoin _ (r.className ++ "Rule".toList ++ ".cpp".toList) = _
      rw [hnl, join_in _ _ _ hcne hcs (head_append_ne _ _ hcl noSlash_rule)])
    tmplRule (by rw [f2t]; exact hc.template r.type)
    (by rw [List.append_assoc]; exact template_ne_RR _ _ _)
    (by
      apply hvis
      intro y
      rw [put_other _ _ _ _ (by rw [List.append_assoc]; exact template_ne_RR _ _ _), f2t])
  rw [ruleTemplate_eq, filled_eq r hr visits _ (ruleParts_ok r.type), hSA] at g3
  rw [hSA] at f3
  -- its line in the list
  have hLS : listsIn (RR home ++ '/' :: r.category) ≠ ruleSource home r.category r.className := by
    rw [← hSA]; exact lists_ne_source _ _ _ (by decide +kernel)
  obtain ⟨d4, e4, dir4, g4, f4⟩ := append_step d3 (RR home ++ '/' :: r.category)
    "CMakeLists.txt".toList (ruleStep r.className) noSlash_name (by rw [dir3]; exact dirA2)
    (by
      rw [dir3, List.append_assoc, d2R, ← Bool.not_eq_true, dir1]
      rintro (h | h)
      · rw [← List.append_assoc, ← listsIn_eq, ← uA, hu.rulesLists] at h; cases h
      · rw [← List.append_assoc] at h; exact self_ne _ _ h.symm)
  rw [← listsIn_eq] at e4 g4 f4
  have cLA : contents d3 (listsIn (RR home ++ '/' :: r.category)) =
      contents d (listsIn (RR home ++ '/' :: r.category)) := by
    have : d3.file (listsIn (RR home ++ '/' :: r.category)) =
        some (contents d (listsIn (RR home ++ '/' :: r.category))) := by
      rw [f3 _ hLS, listsIn_eq, List.append_assoc, f2R, ← List.append_assoc, ← listsIn_eq, l1]
    exact contents_of_some this
  rw [cLA] at g4
  have hRS : listsIn (RR home) ≠ ruleSource home r.category r.className := by
    rw [← hSA, listsIn_eq]
    exact fun e => deeper_ne _ _ _ _ noSlash_name e.symm
  have hRL : listsIn (RR home) ≠ listsIn (RR home ++ '/' :: r.category) := by
    rw [listsIn_eq, listsIn_eq]
    exact fun e => deeper_ne _ _ _ _ noSlash_name e.symm
  have hTL : listsIn (TT home) ≠ listsIn (TT home ++ '/' :: r.category) := by
    rw [listsIn_eq, listsIn_eq]
    exact fun e => deeper_ne _ _ _ _ noSlash_name e.symm
  have hTS : listsIn (TT home) ≠ testSource home r.category r.className := by
    rw [← hTB, listsIn_eq]
    exact fun e => deeper_ne _ _ _ _ noSlash_name e.symm
  have hLT : listsIn (TT home ++ '/' :: r.category) ≠ testSource home r.category r.className := by
    rw [← hTB]; exact lists_ne_source _ _ _ (by decide +kernel)
  have tS : ∀ x, TT home ++ x ≠ ruleSource home r.category r.className := by
    intro x; rw [← hSA, List.append_assoc]; exact fun e => nA _ _ e.symm
  have tL : ∀ x, TT home ++ x ≠ listsIn (RR home ++ '/' :: r.category) := by
    intro x; rw [listsIn_eq, List.append_assoc]; exact fun e => nA _ _ e.symm
  have rS : ∀ x, RR home ++ x ≠ testSource home r.category r.className := by
    intro x; rw [← hTB, List.append_assoc]; exact nA _ _
  have rL : ∀ x, RR home ++ x ≠ listsIn (TT home ++ '/' :: r.category) := by
    intro x; rw [listsIn_eq, List.append_assoc]; exact nA _ _
  have f4T : ∀ x, d4.file (TT home ++ x) = d2.file (TT home ++ x) := by
    intro x; rw [f4 _ (tL x), f3 _ (tS x)]
  have f4t : ∀ y, d4.file (templatePath home y) = d.file (templatePath home y) := by
    intro y
    rw [f4, f3, f2t]
    · rw [← hSA, List.append_assoc]; exact template_ne_RR _ _ _
    · rw [listsIn_eq, List.append_assoc]; exact template_ne_RR _ _ _
  have dirs4 : ∀ p, d4.dir p = true ↔
      d.dir p = true ∨ p = rulesDir home r.category ∨ p = testsDir home r.category := by
    intro p
    rw [dir4, dir3, dir2, dir1, uA, uB, or_assoc]
  have lTB : d4.file (listsIn (TT home ++ '/' :: r.category)) =
      some (contents d (listsIn (TT home ++ '/' :: r.category))) := by
    rw [listsIn_eq, List.append_assoc, f4T, ← List.append_assoc, ← listsIn_eq, l2]
    rw [listsIn_eq, List.append_assoc, c1T]
  have presT : Present d1 (listsIn (TT home ++ '/' :: r.category)) ↔
      Present d (listsIn (TT home ++ '/' :: r.category)) := by
    unfold Present
    rw [listsIn_eq, List.append_assoc, f1T]
  have kT : Present d (listsIn (TT home ++ '/' :: r.category)) →
      d4.file (listsIn (TT home)) = d.file (listsIn (TT home)) := by
    intro h
    have := k2 (presT.2 h)
    rw [listsIn_eq] at this ⊢
    rw [f4T, this, f1T]
  have nT : ¬ Present d (listsIn (TT home ++ '/' :: r.category)) →
      d4.file (listsIn (TT home)) =
        some (contents d (listsIn (TT home)) ++ testCategoryStep r.category) := by
    intro h
    have := n2 (fun e => h (presT.1 e))
    rw [listsIn_eq] at this ⊢
    rw [f4T, this, c1T]
  have kR : Present d (listsIn (RR home ++ '/' :: r.category)) →
      d4.file (listsIn (RR home)) = d.file (listsIn (RR home)) := by
    intro h
    have := k1 h
    rw [f4 _ hRL, f3 _ hRS]
    rw [listsIn_eq] at this ⊢
    rw [f2R, this]
  have nR : ¬ Present d (listsIn (RR home ++ '/' :: r.category)) →
      d4.file (listsIn (RR home)) =
        some (contents d (listsIn (RR home)) ++ categoryStep r.category) := by
    intro h
    have := n1 h
    rw [f4 _ hRL, f3 _ hRS]
    rw [listsIn_eq] at this ⊢
    rw [f2R, this]
  have g3' : d4.file (ruleSource home r.category r.className) =
      some (fill (requestedFields r visits) (ruleParts r.type)) := by
    rw [f4 _ (Ne.symm hLS), g3]
  have o4 : ∀ p, p ≠ ruleSource home r.category r.className →
      p ≠ listsIn (RR home ++ '/' :: r.category) → p ≠ listsIn (TT home ++ '/' :: r.category) →
      p ≠ listsIn (RR home) → p ≠ listsIn (TT home) → d4.file p = d.file p := by
    intro p h1 h2 h3 h4 h5
    rw [f4 p h2, f3 p h1, f2 p h3 h5, f1 p h2 h4]
  have listsRule : "\n".toList ++ ("SET(Build".toList ++ r.className ++ "Rule ".toList ++ r.className ++
      ")".toList) ++ "\n".toList ++ ("BUILD_DYNAMIC_RULES(\"${Build".toList ++ r.className ++
      "Rule}\")".toList) ++ "\n".toList = ruleStep r.className := by
    unfold ruleStep inLines
    rw [show "\n".toList = ['\n'] by decide +kernel]
    simp only [List.flatMap_cons, List.flatMap_nil, List.append_nil, List.nil_append,
      List.append_assoc]
  have listsTest : "\n".toList ++ ("BUILD_TEST(".toList ++ r.className ++ "RuleTest\n".toList ++
      r.className ++ "RuleTest.cpp)".toList) ++ "\n".toList = testStep r.className := by
    unfold testStep inLines
    rw [show "\n".toList = ['\n'] by decide +kernel,
      show "RuleTest\n".toList = "RuleTest".toList ++ ['\n'] by decide +kernel]
    simp only [List.flatMap_cons, List.flatMap_nil, List.append_nil, List.nil_append,
      List.append_assoc]
  -- up to here
  have run : scaffoldRule home d r =
      if r.tests then
        (copyRuleTest home d4 (customTestFolder home r.category) r.dict).next fun d =>
          writeRuleTestLists d (customTestLists home r.category) r.className
      else ⟨d4, none⟩ := by
    unfold scaffoldRule preCheck preCheckRule preCheckTest
    rw [pLA, pRA, pA, steps_eq, e1]
    simp only [Ran.next]
    rw [pLB, pRB, pB, testSteps_eq]
    have e2' := e2
    simp only [Ran.next] at e2'
    rw [e2']
    simp only
    unfold scaffoldFiles copyRule
    simp only
    rw [pA, e3]
    simp only [Ran.next]
    unfold writeRuleLists
    simp only
    have e4' : d3.append (customLists home r.category) (ruleStep r.className) = ⟨d4, none⟩ := by
      rw [pLA]; exact e4
    rw [show r.dict.className = r.className from rfl, listsRule, e4']
    simp only
    rw [pB, pLB]
  cases ht : r.tests with
  | false =>
    rw [run, ht]
    refine ⟨d4, rfl, ?_⟩
    exact {
      rule := g3'
      lists := by rw [uA]; exact g4
      test := fun h => by rw [ht] at h; cases h
      testLists := fun h => by rw [ht] at h; cases h
      noTest := fun _ => by
        apply o4
        · rw [← hTB, List.append_assoc]; exact tS _
        · rw [← hTB, List.append_assoc]; exact tL _
        · exact Ne.symm hLT
        · rw [← hTB, List.append_assoc, listsIn_eq]; exact fun e => nA _ _ e.symm
        · exact Ne.symm hTS
      noTestLists := fun _ => by rw [uB]; exact lTB
      known := fun h => by rw [uRA]; rw [uA] at h; exact kR h
      unknown := fun h => by rw [uRA]; rw [uA] at h; exact nR h
      testKnown := fun h => by rw [uRB]; rw [uB] at h; exact kT h
      testUnknown := fun h => by rw [uRB]; rw [uB] at h; exact nT h
      others := fun p hp => by
        simp only [List.mem_cons, List.not_mem_nil, or_false, not_or, uA, uB, uRA, uRB] at hp
        exact o4 p hp.1 hp.2.1 hp.2.2.2.1 hp.2.2.2.2.1 hp.2.2.2.2.2
      dirs := fun p => by rw [dirs4, uA, uB] }
  | true =>
    -- the test
    have dirB4 : d4.dir (TT home ++ '/' :: r.category) = true := by
      rw [dirs4, uB]; exact Or.inr (Or.inr rfl)
    obtain ⟨d5, e5, dir5, g5, f5⟩ := copy_step home d4 (TT home ++ '/' :: r.category)
      (r.className ++ "RuleTest.cpp".toList) [] "RuleTest".toList r.dict
      (templatePath home "RuleTest.tmpl".toList) ruleTestTemplate visits hst dirB4
      (by
        rw [hTB, ← Bool.not_eq_true, dirs4, uA, uB]
        rintro (h | h | h)
        · rw [hu.test] at h; cases h
        · rw [← hTB, List.append_assoc] at h; exact nA _ _ h.symm
        · rw [← hTB] at h; exact self_ne _ _ h.symm)
      (by
        show pyJoin _ (r.className ++ "RuleTest".toList ++ ".cpp".toList) = _
        rw [hnt, join_in _ _ _ hcne hcs (head_append_ne _ _ hcl noSlash_test)])
      (by
        rw [List.nil_append, show "RuleTest".toList ++ ".tmpl".toList = "RuleTest.tmpl".toList by
          decide +kernel]
        exact template_eq home hh _ (by decide +kernel))
      (by rw [f4t]; exact hc.testTemplate)
      (by rw [List.append_assoc]; exact template_ne_TT _ _ _)
      (by
        apply hvis
        intro y
        rw [put_other _ _ _ _ (by rw [List.append_assoc]; exact template_ne_TT _ _ _), f4t])
    rw [ruleTestTemplate_eq, filled_eq r hr visits _ ruleTestParts_ok, hTB] at g5
    rw [hTB] at f5
    obtain ⟨d6, e6, dir6, g6, f6⟩ := append_step d5 (TT home ++ '/' :: r.category)
      "CMakeLists.txt".toList (testStep r.className) noSlash_name (by rw [dir5]; exact dirB4)
      (by
        rw [dir5, ← Bool.not_eq_true, dirs4, uA, uB]
        rintro (h | h | h)
        · rw [← listsIn_eq, ← uB, hu.testsLists] at h; cases h
        · rw [List.append_assoc] at h; exact nA _ _ h.symm
        · exact self_ne _ _ h.symm)
    rw [← listsIn_eq] at e6 g6 f6
    have cLB : contents d5 (listsIn (TT home ++ '/' :: r.category)) =
        contents d (listsIn (TT home ++ '/' :: r.category)) := by
      apply contents_of_some
      rw [f5 _ hLT, lTB]
    rw [cLB] at g6
    have f6R : ∀ x, d6.file (RR home ++ x) = d4.file (RR home ++ x) := by
      intro x; rw [f6 _ (rL x), f5 _ (rS x)]
    have f6T : d6.file (listsIn (TT home)) = d4.file (listsIn (TT home)) := by
      rw [f6 _ hTL, f5 _ hTS]
    refine ⟨d6, ?_, ?_⟩
    · rw [run, ht, if_pos rfl, pB]
      unfold copyRuleTest
      rw [e5]
      simp only [Ran.next]
      unfold writeRuleTestLists
      simp only
      rw [listsTest, pLB, e6]
    · exact {
        rule := by rw [← hSA, List.append_assoc, f6R, ← List.append_assoc, hSA]; exact g3'
        lists := by
          rw [uA, listsIn_eq, List.append_assoc, f6R, ← List.append_assoc, ← listsIn_eq]; exact g4
        test := fun _ => by rw [f6 _ (Ne.symm hLT)]; exact g5
        testLists := fun _ => by rw [uB]; exact g6
        noTest := fun h => by rw [ht] at h; cases h
        noTestLists := fun h => by rw [ht] at h; cases h
        known := fun h => by
          rw [uA] at h
          have := kR h
          rw [uRA]
          rw [listsIn_eq] at this ⊢
          rw [f6R, this]
        unknown := fun h => by
          rw [uA] at h
          have := nR h
          rw [uRA]
          rw [listsIn_eq] at this ⊢
          rw [f6R, this]
        testKnown := fun h => by rw [uB] at h; rw [uRB, f6T]; exact kT h
        testUnknown := fun h => by rw [uB] at h; rw [uRB, f6T]; exact nT h
        others := fun p hp => by
          simp only [List.mem_cons, List.not_mem_nil, or_false, not_or, uA, uB, uRA, uRB] at hp
          rw [f6 p hp.2.2.2.1, f5 p hp.2.2.1]
          exact o4 p hp.1 hp.2.1 hp.2.2.2.1 hp.2.2.2.2.1 hp.2.2.2.2.2
        dirs := fun p => by rw [dir6, dir5, dirs4] }

end Oclint
