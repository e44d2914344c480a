import Verif.Lemmas.ScaffoldReporter

/-!
# Lemmas about running `scaffoldRule` again and again
-/

namespace Oclint
open Spec

/-! ### Nothing but the sources is lost -/

theorem Spec.NothingLost.copyTemplate {d d' : Disk} {lists : List Str} (h : NothingLost d lists d')
    {home folder type suffix : Str} {r : RuleDict}
    (hp : d.file (pyJoin folder (r.className ++ suffix ++ ".cpp".toList)) = none) :
    NothingLost d lists (copyTemplate home d' folder type suffix r).disk := by
  unfold Oclint.copyTemplate
  refine (h.truncate hp).next fun e he => ?_
  split
  · exact he
  · split
    · exact he
    · exact he.put_new hp

theorem Spec.NothingLost.mkdirP {d d' : Disk} {lists : List Str} (h : NothingLost d lists d')
    {path : Str} : NothingLost d lists (d'.mkdirP path).disk := by
  unfold Disk.mkdirP
  split
  · exact h
  · split
    · exact h
    · exact h

theorem Spec.NothingLost.addPath {d d' : Disk} {all : List Str} (h : NothingLost d all d')
    {path lists step : Str} (h1 : path ∈ all) (h2 : lists ∈ all) :
    NothingLost d all (addPathToLists d' path lists step).disk := by
  unfold addPathToLists
  split
  · exact h
  · exact (h.append h1).next fun e he => he.append h2

/-- A disk without the sources. -/
def erased (home : Str) (d : Disk) (r : RuleRequest) : Disk :=
  { d with file := fun q =>
      if (q = ruleSource home r.category r.className ∨
        (r.tests = true ∧ q = testSource home r.category r.className)) then none else d.file q }

theorem scaffoldRule_lost (home : Str) (hh : home ≠ [] ∧ home.getLast? ≠ some '/') (d : Disk)
    (r : RuleRequest) (hr : PlainRequest r) (p text : Str) (h : d.file p = some text)
    (h1 : p ≠ ruleSource home r.category r.className)
    (h2 : r.tests = true → p ≠ testSource home r.category r.className) :
    ∃ more, (scaffoldRule home d r).disk.file p = some (text ++ more) ∧
      (p ∉ [rulesRootLists home, testsRootLists home, listsIn (rulesDir home r.category),
        listsIn (testsDir home r.category)] → more = []) := by
  obtain ⟨hcne, hcs, -⟩ := hr.category
  have hcl := hr.className.1
  have pA : customFolder home r.category = rulesDir home r.category := by
    rw [customFolder_eq home hh _ hcs, rulesRoot_eq home hh, rulesDir_eq]; rfl
  have pB : customTestFolder home r.category = testsDir home r.category := by
    rw [customTestFolder_eq home hh _ hcs, testsRoot_eq home hh, testsDir_eq]; rfl
  have pLA : customLists home r.category = listsIn (rulesDir home r.category) := by
    unfold customLists
    rw [pA, rulesDir_eq, join_in _ _ _ hcne hcs (by decide +kernel), listsIn_eq]
  have pLB : customTestLists home r.category = listsIn (testsDir home r.category) := by
    unfold customTestLists
    rw [pB, testsDir_eq, join_in _ _ _ hcne hcs (by decide +kernel), listsIn_eq]
  have pRA : rulesLists home = rulesRootLists home := by
    rw [rulesLists_eq home hh, rulesRoot_eq home hh, rulesRootLists_eq]; rfl
  have pRB : testsLists home = testsRootLists home := by
    rw [testsLists_eq home hh, testsRoot_eq home hh, testsRootLists_eq]; rfl
  have pS : pyJoin (customFolder home r.category) (r.className ++ "Rule".toList ++ ".cpp".toList) =
      ruleSource home r.category r.className := by
    rw [pA, ruleSource_eq, rulesDir_eq, List.append_assoc,
      show "Rule".toList ++ ".cpp".toList = "Rule.cpp".toList by decide +kernel,
      join_in _ _ _ hcne hcs (head_append_ne _ _ hcl noSlash_rule)]
  have pT : pyJoin (customTestFolder home r.category)
      (r.className ++ "RuleTest".toList ++ ".cpp".toList) =
      testSource home r.category r.className := by
    rw [pB, testSource_eq, testsDir_eq, List.append_assoc,
      show "RuleTest".toList ++ ".cpp".toList = "RuleTest.cpp".toList by decide +kernel,
      join_in _ _ _ hcne hcs (head_append_ne _ _ hcl noSlash_test)]
  generalize hall : [rulesRootLists home, testsRootLists home, listsIn (rulesDir home r.category),
    listsIn (testsDir home r.category)] = all
  generalize hd0 : erased home d r = d0
  have h0 : NothingLost d0 all d := by
    intro q t hq
    simp only [← hd0, erased] at hq
    split at hq
    · cases hq
    · exact ⟨[], by rw [hq, List.append_nil], fun _ => rfl⟩
  have key : NothingLost d0 all (scaffoldRule home d r).disk := by
    unfold scaffoldRule preCheck preCheckRule preCheckTest
    rw [pLA, pLB, pRA, pRB]
    refine Spec.NothingLost.next (Spec.NothingLost.next (h0.mkdirP.next fun e he => ?_) fun e he => ?_)
      fun e he => ?_
    · exact he.addPath (by rw [← hall]; simp) (by rw [← hall]; simp)
    · exact he.mkdirP.next fun e he => he.addPath (by rw [← hall]; simp) (by rw [← hall]; simp)
    · unfold scaffoldFiles copyRule copyRuleTest writeRuleLists writeRuleTestLists
      simp only
      rw [pLA, pLB]
      refine Spec.NothingLost.next (Spec.NothingLost.next (he.copyTemplate ?_) fun e he => ?_)
        fun e he => ?_
      · show d0.file (pyJoin _ (r.className ++ _ ++ _)) = none
        rw [pS]
        simp [← hd0, erased]
      · exact he.append (by rw [← hall]; simp)
      · split
        · next ht =>
          refine Spec.NothingLost.next (he.copyTemplate ?_) fun e he => he.append (by rw [← hall]; simp)
          show d0.file (pyJoin _ (r.className ++ _ ++ _)) = none
          rw [pT]
          simp [← hd0, erased, ht]
        · exact he
  apply key p text
  simp only [← hd0, erased]
  rw [if_neg]
  · exact h
  · rintro (e | ⟨ht, e⟩)
    · exact h1 e
    · exact h2 ht e

/-! ### Different places -/

theorem split_slash {a b x y : Str} (ha : '/' ∉ a) (hx : '/' ∉ x)
    (h : a ++ '/' :: b = x ++ '/' :: y) : a = x ∧ b = y := by
  exact eq_of_until ha hx h

theorem rulesDir_inj {home a b : Str} (h : rulesDir home a = rulesDir home b) : a = b := by
  unfold rulesDir at h
  rwa [List.append_cancel_left_eq] at h

theorem testsDir_inj {home a b : Str} (h : testsDir home a = testsDir home b) : a = b := by
  unfold testsDir at h
  rwa [List.append_cancel_left_eq] at h

theorem listsIn_inj {a b : Str} (h : listsIn a = listsIn b) : a = b := by
  unfold listsIn at h
  rwa [List.append_cancel_right_eq] at h

/-- Two files below the same place. -/
theorem below_eq {R a b x y : Str} (ha : '/' ∉ a) (hx : '/' ∉ x)
    (h : R ++ '/' :: a ++ '/' :: b = R ++ '/' :: x ++ '/' :: y) : a = x ∧ b = y := by
  rw [List.append_assoc, List.append_assoc, List.append_cancel_left_eq, List.cons_append,
    List.cons_append, List.cons.injEq] at h
  exact split_slash ha hx h.2

section places
variable {home : Str} {q r : RuleRequest} (hq : PlainRequest q) (hr : PlainRequest r)

theorem rules_not_tests {x y : Str} : RR home ++ x ≠ TT home ++ y := RR_ne_TT home x y

include hq hr

theorem ruleSource_inj (h : ruleSource home q.category q.className =
    ruleSource home r.category r.className) : SameClass q r := by
  rw [ruleSource_eq, ruleSource_eq, rulesDir_eq, rulesDir_eq] at h
  obtain ⟨h1, h2⟩ := below_eq hq.category.2.1 hr.category.2.1 h
  rw [List.append_cancel_right_eq] at h2
  exact ⟨h1, h2⟩

theorem testSource_inj (h : testSource home q.category q.className =
    testSource home r.category r.className) : SameClass q r := by
  rw [testSource_eq, testSource_eq, testsDir_eq, testsDir_eq] at h
  obtain ⟨h1, h2⟩ := below_eq hq.category.2.1 hr.category.2.1 h
  rw [List.append_cancel_right_eq] at h2
  exact ⟨h1, h2⟩

theorem ruleSource_ne_lists : ruleSource home q.category q.className ≠
    listsIn (rulesDir home r.category) := by
  intro h
  rw [ruleSource_eq, listsIn_eq, rulesDir_eq, rulesDir_eq] at h
  have h2 := (below_eq hq.category.2.1 hr.category.2.1 h).2
  have := lists_ne_source [] q.className "Rule.cpp".toList (by decide +kernel)
  rw [listsIn_eq, ← h2] at this
  exact this rfl

theorem testSource_ne_lists : testSource home q.category q.className ≠
    listsIn (testsDir home r.category) := by
  intro h
  rw [testSource_eq, listsIn_eq, testsDir_eq, testsDir_eq] at h
  have h2 := (below_eq hq.category.2.1 hr.category.2.1 h).2
  have := lists_ne_source [] q.className "RuleTest.cpp".toList (by decide +kernel)
  rw [listsIn_eq, ← h2] at this
  exact this rfl

omit hq hr in
theorem ruleSource_ne_root : ruleSource home q.category q.className ≠ rulesRootLists home := by
  rw [ruleSource_eq, rulesRootLists_eq, rulesDir_eq, listsIn_eq]
  exact deeper_ne _ _ _ _ noSlash_name

omit hq hr in
theorem testSource_ne_root : testSource home q.category q.className ≠ testsRootLists home := by
  rw [testSource_eq, testsRootLists_eq, testsDir_eq, listsIn_eq]
  exact deeper_ne _ _ _ _ noSlash_name

omit hq hr in
theorem lists_ne_root (c : Str) : listsIn (rulesDir home c) ≠ rulesRootLists home := by
  rw [rulesRootLists_eq, rulesDir_eq, listsIn_eq, listsIn_eq]
  exact deeper_ne _ _ _ _ noSlash_name

omit hq hr in
theorem testLists_ne_root (c : Str) : listsIn (testsDir home c) ≠ testsRootLists home := by
  rw [testsRootLists_eq, testsDir_eq, listsIn_eq, listsIn_eq]
  exact deeper_ne _ _ _ _ noSlash_name

end places

/-- Paths of rules begin like this. -/
theorem rule_paths (home : Str) (c cls : Str) :
    (∃ x, ruleSource home c cls = RR home ++ x) ∧ (∃ x, listsIn (rulesDir home c) = RR home ++ x) ∧
      (∃ x, rulesRootLists home = RR home ++ x) ∧ ∃ x, rulesDir home c = RR home ++ x := by
  refine ⟨⟨'/' :: (c ++ '/' :: (cls ++ "Rule.cpp".toList)), ?_⟩,
    ⟨'/' :: (c ++ '/' :: "CMakeLists.txt".toList), ?_⟩, ⟨'/' :: "CMakeLists.txt".toList, ?_⟩,
    ⟨_, rulesDir_eq _ _⟩⟩
  · rw [ruleSource_eq, rulesDir_eq, List.append_assoc, List.cons_append]
  · rw [listsIn_eq, rulesDir_eq, List.append_assoc, List.cons_append]
  · rw [rulesRootLists_eq, listsIn_eq]

theorem test_paths (home : Str) (c cls : Str) :
    (∃ x, testSource home c cls = TT home ++ x) ∧ (∃ x, listsIn (testsDir home c) = TT home ++ x) ∧
      (∃ x, testsRootLists home = TT home ++ x) ∧ ∃ x, testsDir home c = TT home ++ x := by
  refine ⟨⟨'/' :: (c ++ '/' :: (cls ++ "RuleTest.cpp".toList)), ?_⟩,
    ⟨'/' :: (c ++ '/' :: "CMakeLists.txt".toList), ?_⟩, ⟨'/' :: "CMakeLists.txt".toList, ?_⟩,
    ⟨_, testsDir_eq _ _⟩⟩
  · rw [testSource_eq, testsDir_eq, List.append_assoc, List.cons_append]
  · rw [listsIn_eq, testsDir_eq, List.append_assoc, List.cons_append]
  · rw [testsRootLists_eq, listsIn_eq]

/-- What a request writes to below the rules. -/
theorem written_rules {home x : Str} {r : RuleRequest} (h : RR home ++ x ∈ writtenBy home r) :
    RR home ++ x = ruleSource home r.category r.className ∨
      RR home ++ x = listsIn (rulesDir home r.category) ∨ RR home ++ x = rulesRootLists home := by
  obtain ⟨⟨a, ha⟩, ⟨b, hb⟩, ⟨c, hc⟩, -⟩ := test_paths home r.category r.className
  unfold writtenBy at h
  simp only [List.mem_cons, List.not_mem_nil, or_false] at h
  rcases h with h | h | h | h | h | h
  · exact Or.inl h
  · exact Or.inr (Or.inl h)
  · rw [ha] at h; exact absurd h (RR_ne_TT _ _ _)
  · rw [hb] at h; exact absurd h (RR_ne_TT _ _ _)
  · exact Or.inr (Or.inr h)
  · rw [hc] at h; exact absurd h (RR_ne_TT _ _ _)

theorem written_tests {home x : Str} {r : RuleRequest} (h : TT home ++ x ∈ writtenBy home r) :
    TT home ++ x = testSource home r.category r.className ∨
      TT home ++ x = listsIn (testsDir home r.category) ∨ TT home ++ x = testsRootLists home := by
  obtain ⟨⟨a, ha⟩, ⟨b, hb⟩, ⟨c, hc⟩, -⟩ := rule_paths home r.category r.className
  unfold writtenBy at h
  simp only [List.mem_cons, List.not_mem_nil, or_false] at h
  rcases h with h | h | h | h | h | h
  · rw [ha] at h; exact absurd h.symm (RR_ne_TT _ _ _)
  · rw [hb] at h; exact absurd h.symm (RR_ne_TT _ _ _)
  · exact Or.inl h
  · exact Or.inr (Or.inl h)
  · rw [hc] at h; exact absurd h.symm (RR_ne_TT _ _ _)
  · exact Or.inr (Or.inr h)

theorem written_template {home y : Str} {r : RuleRequest} : templatePath home y ∉ writtenBy home r := by
  obtain ⟨⟨a, ha⟩, ⟨b, hb⟩, ⟨c, hc⟩, -⟩ := rule_paths home r.category r.className
  obtain ⟨⟨a', ha'⟩, ⟨b', hb'⟩, ⟨c', hc'⟩, -⟩ := test_paths home r.category r.className
  unfold writtenBy
  simp only [List.mem_cons, List.not_mem_nil, or_false, not_or]
  rw [ha, hb, hc, ha', hb', hc']
  exact ⟨template_ne_RR _ _ _, template_ne_RR _ _ _, template_ne_TT _ _ _, template_ne_TT _ _ _,
    template_ne_RR _ _ _, template_ne_TT _ _ _⟩

/-- Source files are only written by requests for them. -/
theorem ruleSource_written {home : Str} {q r : RuleRequest} (hq : PlainRequest q) (hr : PlainRequest r)
    (h : ruleSource home r.category r.className ∈ writtenBy home q) : SameClass q r := by
  obtain ⟨x, hx⟩ := (rule_paths home r.category r.className).1
  rw [hx] at h
  rcases written_rules h with h | h | h <;> rw [← hx] at h
  · exact ruleSource_inj hq hr h.symm
  · exact absurd h (ruleSource_ne_lists hr hq)
  · exact absurd h ruleSource_ne_root

theorem testSource_written {home : Str} {q r : RuleRequest} (hq : PlainRequest q) (hr : PlainRequest r)
    (h : testSource home r.category r.className ∈ writtenBy home q) : SameClass q r := by
  obtain ⟨x, hx⟩ := (test_paths home r.category r.className).1
  rw [hx] at h
  rcases written_tests h with h | h | h <;> rw [← hx] at h
  · exact testSource_inj hq hr h.symm
  · exact absurd h (testSource_ne_lists hr hq)
  · exact absurd h testSource_ne_root

theorem lists_written {home : Str} {q r : RuleRequest} (hq : PlainRequest q) (hr : PlainRequest r)
    (h : listsIn (rulesDir home r.category) ∈ writtenBy home q) : q.category = r.category := by
  obtain ⟨x, hx⟩ := (rule_paths home r.category r.className).2.1
  rw [hx] at h
  rcases written_rules h with h | h | h <;> rw [← hx] at h
  · exact absurd h.symm (ruleSource_ne_lists hq hr)
  · exact (rulesDir_inj (listsIn_inj h)).symm
  · exact absurd h (lists_ne_root _)

theorem testLists_written {home : Str} {q r : RuleRequest} (hq : PlainRequest q) (hr : PlainRequest r)
    (h : listsIn (testsDir home r.category) ∈ writtenBy home q) : q.category = r.category := by
  obtain ⟨x, hx⟩ := (test_paths home r.category r.className).2.1
  rw [hx] at h
  rcases written_tests h with h | h | h <;> rw [← hx] at h
  · exact absurd h.symm (testSource_ne_lists hq hr)
  · exact (testsDir_inj (listsIn_inj h)).symm
  · exact absurd h (testLists_ne_root _)

/-! ### The next request finds a checkout too -/

theorem noFile_next {home : Str} {d d' : Disk} {stmts decls visits : Str} {r : RuleRequest}
    (hc : Checkout home d stmts decls) (h : Scaffolded home d r visits d') :
    ∀ c p, (p = rulesDir home c ∨ p = testsDir home c) → '/' ∉ c → d.file p = none →
      d'.file p = none := by
  intro c p hp hcs hn
  rw [h.others, hn]
  intro hm
  rcases hp with rfl | rfl
  · have hx := rulesDir_eq home c
    rw [hx] at hm
    rcases written_rules hm with e | e | e
    · rw [ruleSource_eq, rulesDir_eq] at e; exact deeper_ne _ _ _ _ hcs e.symm
    · rw [listsIn_eq, rulesDir_eq] at e; exact deeper_ne _ _ _ _ hcs e.symm
    · rw [← hx] at e; rw [e] at hn; exact hc.rulesLists hn
  · have hx := testsDir_eq home c
    rw [hx] at hm
    rcases written_tests hm with e | e | e
    · rw [testSource_eq, testsDir_eq] at e; exact deeper_ne _ _ _ _ hcs e.symm
    · rw [listsIn_eq, testsDir_eq] at e; exact deeper_ne _ _ _ _ hcs e.symm
    · rw [← hx] at e; rw [e] at hn; exact hc.testsLists hn

theorem checkout_next {home : Str} {d d' : Disk} {stmts decls visits : Str} {r : RuleRequest}
    (hr : PlainRequest r) (hc : Checkout home d stmts decls) (hu : Unobstructed home d r)
    (h : Scaffolded home d r visits d') : Checkout home d' stmts decls := by
  have hw : ∀ y, d'.file (templatePath home y) = d.file (templatePath home y) :=
    fun y => h.others _ written_template
  have noFile := noFile_next hc h
  have hcs := hr.category.2.1
  have rootsNot : d.dir (rulesRootLists home) = false ∧ d.dir (testsRootLists home) = false := by
    constructor
    · rw [← Bool.not_eq_true]; exact fun e => hc.rulesLists (hc.sound _ e)
    · rw [← Bool.not_eq_true]; exact fun e => hc.testsLists (hc.sound _ e)
  exact {
    place := hc.place
    sound := by
      intro p hp
      rcases (h.dirs p).1 hp with hd | rfl | rfl
      · rw [h.others, hc.sound p hd]
        intro hm
        simp only [List.mem_cons, List.not_mem_nil, or_false] at hm
        rcases hm with rfl | rfl | rfl | rfl | rfl | rfl
        · rw [hu.rule] at hd; cases hd
        · rw [hu.rulesLists] at hd; cases hd
        · rw [hu.test] at hd; cases hd
        · rw [hu.testsLists] at hd; cases hd
        · rw [rootsNot.1] at hd; cases hd
        · rw [rootsNot.2] at hd; cases hd
      · exact noFile _ _ (Or.inl rfl) hcs hu.rules
      · exact noFile _ _ (Or.inr rfl) hcs hu.tests
    parents := by
      intro p rest hp
      rw [h.dirs]
      rcases (h.dirs _).1 hp with hd | e | e
      · exact Or.inl (hc.parents p rest hd)
      · rw [rulesDir_eq] at e
        rcases above_child (RR home) r.category p rest hcs e.symm with e | ⟨rest', e⟩
        · rw [e]; exact Or.inl hc.rules
        · exact Or.inl (hc.parents p rest' (by rw [← e]; exact hc.rules))
      · rw [testsDir_eq] at e
        rcases above_child (TT home) r.category p rest hcs e.symm with e | ⟨rest', e⟩
        · rw [e]; exact Or.inl hc.tests
        · exact Or.inl (hc.parents p rest' (by rw [← e]; exact hc.tests))
    rules := (h.dirs _).2 (Or.inl hc.rules)
    tests := (h.dirs _).2 (Or.inl hc.tests)
    rulesLists := by
      by_cases hp : Present d (listsIn (rulesDir home r.category))
      · rw [h.known hp]; exact hc.rulesLists
      · rw [h.unknown hp]; exact Option.some_ne_none _
    testsLists := by
      by_cases hp : Present d (listsIn (testsDir home r.category))
      · rw [h.testKnown hp]; exact hc.testsLists
      · rw [h.testUnknown hp]; exact Option.some_ne_none _
    template := fun kind => by rw [hw]; exact hc.template kind
    testTemplate := by rw [hw]; exact hc.testTemplate
    stmtNodes := by rw [hw]; exact hc.stmtNodes
    declNodes := by rw [hw]; exact hc.declNodes }

theorem unobstructed_next {home : Str} {d d' : Disk} {stmts decls visits : Str} {q r : RuleRequest}
    (hq : PlainRequest q) (hr : PlainRequest r) (hc : Checkout home d stmts decls)
    (hu : Unobstructed home d q) (h : Scaffolded home d r visits d') : Unobstructed home d' q := by
  have noFile := noFile_next hc h
  have hcs := hr.category.2.1
  have noDir : ∀ p, d.dir p = false → ((∃ a b, p = RR home ++ '/' :: a ++ '/' :: b) ∨
      ∃ a b, p = TT home ++ '/' :: a ++ '/' :: b) → d'.dir p = false := by
    intro p hp hs
    rw [← Bool.not_eq_true, h.dirs, hp]
    rintro (e | e | e)
    · cases e
    · rw [rulesDir_eq] at e
      rcases hs with ⟨a, b, rfl⟩ | ⟨a, b, rfl⟩
      · exact deeper_ne _ _ _ _ hcs e
      · rw [List.append_assoc] at e; exact RR_ne_TT _ _ _ e.symm
    · rw [testsDir_eq] at e
      rcases hs with ⟨a, b, rfl⟩ | ⟨a, b, rfl⟩
      · rw [List.append_assoc] at e; exact RR_ne_TT _ _ _ e
      · exact deeper_ne _ _ _ _ hcs e
  exact {
    rules := noFile _ _ (Or.inl rfl) hq.category.2.1 hu.rules
    tests := noFile _ _ (Or.inr rfl) hq.category.2.1 hu.tests
    rulesLists := noDir _ hu.rulesLists (Or.inl ⟨_, _, by rw [listsIn_eq, rulesDir_eq]⟩)
    testsLists := noDir _ hu.testsLists (Or.inr ⟨_, _, by rw [listsIn_eq, testsDir_eq]⟩)
    rule := noDir _ hu.rule (Or.inl ⟨_, _, by rw [ruleSource_eq, rulesDir_eq]⟩)
    test := noDir _ hu.test (Or.inr ⟨_, _, by rw [testSource_eq, testsDir_eq]⟩) }

/-! ### Request after request -/

theorem registered_cons {rs : List RuleRequest} {r : RuleRequest} {old old' : Str → Prop}
    {step : Str → Str} {a b c : Str} (ho : ∀ x, old' x ↔ old x ∨ x = r.category)
    (h : Registered rs old' step b c) (hk : old r.category → b = a)
    (hn : ¬ old r.category → b = a ++ step r.category) : Registered (r :: rs) old step a c := by
  obtain ⟨new, h1, h2, h3, h4⟩ := h
  by_cases hr : old r.category
  · refine ⟨new, ?_, h2, ?_, by rw [h4, hk hr]⟩
    · rw [List.map_cons]; exact h1.cons _
    · intro x
      rw [h3, ho, List.map_cons, List.mem_cons, not_or]
      constructor
      · exact fun ⟨ha, hb, _⟩ => ⟨Or.inr ha, hb⟩
      · rintro ⟨rfl | ha, hb⟩
        · exact absurd hr hb
        · exact ⟨ha, hb, fun e => hb (e ▸ hr)⟩
  · refine ⟨r.category :: new, ?_, ?_, ?_, ?_⟩
    · rw [List.map_cons]; exact h1.cons_cons _
    · rw [List.nodup_cons]
      exact ⟨fun hm => ((h3 _).1 hm).2 ((ho _).2 (Or.inr rfl)), h2⟩
    · intro x
      rw [List.mem_cons, h3, ho, List.map_cons, List.mem_cons, not_or]
      constructor
      · rintro (rfl | ⟨ha, hb, _⟩)
        · exact ⟨Or.inl rfl, hr⟩
        · exact ⟨Or.inr ha, hb⟩
      · rintro ⟨rfl | ha, hb⟩
        · exact Or.inl rfl
        · by_cases e : x = r.category
          · exact Or.inl e
          · exact Or.inr ⟨ha, hb, e⟩
    · rw [h4, hn hr, List.map_cons, List.flatten_cons, List.append_assoc]

/-- Categories that have a list afterwards. -/
theorem present_lists {home : Str} {d d' : Disk} {visits : Str} {r : RuleRequest}
    (hr : PlainRequest r) (h : Scaffolded home d r visits d') (c : Str) (hc : '/' ∉ c) :
    Present d' (listsIn (rulesDir home c)) ↔ Present d (listsIn (rulesDir home c)) ∨ c = r.category := by
  by_cases e : c = r.category
  · subst e
    exact ⟨fun _ => Or.inr rfl, fun _ => ⟨_, h.lists⟩⟩
  · rw [or_iff_left e]
    unfold Present
    rw [h.others]
    intro hm
    obtain ⟨x, hx⟩ := (rule_paths home c c).2.1
    rw [hx] at hm
    rcases written_rules hm with hm | hm | hm <;> rw [← hx] at hm
    · rw [ruleSource_eq, listsIn_eq, rulesDir_eq, rulesDir_eq] at hm
      exact e (below_eq hc hr.category.2.1 hm).1
    · exact e (rulesDir_inj (listsIn_inj hm))
    · exact lists_ne_root _ hm

theorem present_testLists {home : Str} {d d' : Disk} {visits : Str} {r : RuleRequest}
    (hr : PlainRequest r) (h : Scaffolded home d r visits d') (c : Str) (hc : '/' ∉ c) :
    Present d' (listsIn (testsDir home c)) ↔ Present d (listsIn (testsDir home c)) ∨ c = r.category := by
  by_cases e : c = r.category
  · subst e
    refine ⟨fun _ => Or.inr rfl, fun _ => ?_⟩
    cases ht : r.tests with
    | true => exact ⟨_, h.testLists ht⟩
    | false => exact ⟨_, h.noTestLists ht⟩
  · rw [or_iff_left e]
    unfold Present
    rw [h.others]
    intro hm
    obtain ⟨x, hx⟩ := (test_paths home c c).2.1
    rw [hx] at hm
    rcases written_tests hm with hm | hm | hm <;> rw [← hx] at hm
    · rw [testSource_eq, listsIn_eq, testsDir_eq, testsDir_eq] at hm
      exact e (below_eq hc hr.category.2.1 hm).1
    · exact e (testsDir_inj (listsIn_inj hm))
    · exact testLists_ne_root _ hm

/-- Only what is asked of a category with a slash matters. -/
theorem registered_congr {rs : List RuleRequest} (hp : ∀ r ∈ rs, PlainRequest r) {old old' : Str → Prop}
    {step : Str → Str} {a b : Str} (ho : ∀ x, '/' ∉ x → (old' x ↔ old x))
    (h : Registered rs old step a b) : Registered rs old' step a b := by
  obtain ⟨new, h1, h2, h3, h4⟩ := h
  refine ⟨new, h1, h2, fun c => ?_, h4⟩
  rw [h3]
  refine and_congr_right fun hm => ?_
  obtain ⟨r, hr, rfl⟩ := List.mem_map.1 hm
  rw [ho _ (hp r hr).category.2.1]

theorem scaffoldAll_run (home : Str) (stmts decls visits : Str) (hv : VisitsOf stmts decls visits)
    (rs : List RuleRequest) (d : Disk) (hc : Checkout home d stmts decls)
    (hp : ∀ r ∈ rs, PlainRequest r) (hu : ∀ r ∈ rs, Unobstructed home d r) :
    ∃ d', scaffoldAll home d rs = ⟨d', none⟩ ∧ ScaffoldedAll home d rs visits d' := by
  induction rs generalizing d with
  | nil =>
    refine ⟨d, rfl, ?_⟩
    exact {
      rule := fun a r b e => by simp at e
      test := fun a r b e => by simp at e
      noTest := fun r hr => by simp at hr
      lists := fun r hr => by simp at hr
      testLists := fun r hr => by simp at hr
      roots := ⟨[], by simp, by simp, by simp, by simp⟩
      testRoots := ⟨[], by simp, by simp, by simp, by simp⟩
      others := fun p _ => rfl
      dirs := fun p => by simp }
  | cons r rs ih =>
    have hr := hp r (by simp)
    have hps : ∀ q ∈ rs, PlainRequest q := fun q hq => hp q (List.mem_cons_of_mem _ hq)
    have hur := hu r (by simp)
    obtain ⟨d1, e1, s1⟩ := scaffoldRule_run home d stmts decls visits hc hv r hr hur
    obtain ⟨d2, e2, s2⟩ := ih d1 (checkout_next hr hc hur s1) hps fun q hq =>
      unobstructed_next (hps q hq) hr hc (hu q (List.mem_cons_of_mem _ hq)) s1
    have listsOne : ∀ q, PlainRequest q → contents d1 (listsIn (rulesDir home q.category)) =
        contents d (listsIn (rulesDir home q.category)) ++
          (if q.category = r.category then ruleStep r.className else []) := by
      intro q hq
      by_cases e : q.category = r.category
      · rw [if_pos e, e]; exact contents_of_some s1.lists
      · rw [if_neg e, List.append_nil]
        unfold contents
        rw [s1.others]
        exact fun hm => e (lists_written hr hq hm).symm
    have testListsOne : ∀ q, PlainRequest q → contents d1 (listsIn (testsDir home q.category)) =
        contents d (listsIn (testsDir home q.category)) ++
          (if q.category = r.category ∧ r.tests = true then testStep r.className else []) := by
      intro q hq
      by_cases e : q.category = r.category
      · rw [e]
        cases ht : r.tests with
        | true => rw [if_pos ⟨rfl, rfl⟩]; exact contents_of_some (s1.testLists ht)
        | false =>
          rw [if_neg (by simp), List.append_nil]
          exact contents_of_some (s1.noTestLists ht)
      · rw [if_neg (fun h => e h.1), List.append_nil]
        unfold contents
        rw [s1.others]
        exact fun hm => e (testLists_written hr hq hm).symm
    refine ⟨d2, ?_, ?_⟩
    · rw [scaffoldAll, e1]; exact e2
    · exact {
        rule := by
          intro a q b e hn
          cases a with
          | nil =>
            simp only [List.nil_append, List.cons.injEq] at e
            obtain ⟨rfl, rfl⟩ := e
            rw [s2.others, s1.rule]
            exact fun x hx hm => hn x hx (ruleSource_written (hps x hx) hr hm)
          | cons y a =>
            simp only [List.cons_append, List.cons.injEq] at e
            exact s2.rule a q b e.2 hn
        test := by
          intro a q b e ht hn
          cases a with
          | nil =>
            simp only [List.nil_append, List.cons.injEq] at e
            obtain ⟨rfl, rfl⟩ := e
            by_cases hx : ∃ x ∈ rs, SameClass x r
            · obtain ⟨x, hx, e1, e2⟩ := hx
              have := s2.noTest x hx fun y hy hyx => hn y hy ⟨hyx.1.trans e1, hyx.2.trans e2⟩
              rw [e1, e2] at this
              rw [this, s1.test ht]
            · rw [s2.others, s1.test ht]
              exact fun x hxs hm => hx ⟨x, hxs, testSource_written (hps x hxs) hr hm⟩
          | cons y a =>
            simp only [List.cons_append, List.cons.injEq] at e
            exact s2.test a q b e.2 ht hn
        noTest := by
          intro q hq hn
          have hq' := hp q hq
          have h1 : d1.file (testSource home q.category q.className) =
              d.file (testSource home q.category q.className) := by
            by_cases e : SameClass r q
            · have := s1.noTest (hn r (by simp) e)
              rwa [e.1, e.2] at this
            · rw [s1.others]
              exact fun hm => e (testSource_written hr hq' hm)
          by_cases hx : ∃ x ∈ rs, SameClass x q
          · obtain ⟨x, hx, e1, e2⟩ := hx
            have := s2.noTest x hx fun y hy hyx =>
              hn y (List.mem_cons_of_mem _ hy) ⟨hyx.1.trans e1, hyx.2.trans e2⟩
            rw [e1, e2] at this
            rw [this, h1]
          · rw [s2.others, h1]
            exact fun x hxs hm => hx ⟨x, hxs, testSource_written (hps x hxs) hq' hm⟩
        lists := by
          intro q hq
          have hq' := hp q hq
          have h1 := listsOne q hq'
          by_cases hx : ∃ x ∈ rs, x.category = q.category
          · obtain ⟨x, hx, e⟩ := hx
            have := s2.lists x hx
            rw [e, h1] at this
            rw [this, List.filter_cons]
            by_cases e' : q.category = r.category
            · simp [e']
            · simp [e', Ne.symm e']
          · have hnone : (rs.filter fun x => decide (x.category = q.category)) = [] := by
              rw [List.filter_eq_nil_iff]
              intro x hxs
              rw [decide_eq_true_eq]
              exact fun e => hx ⟨x, hxs, e⟩
            have e : q.category = r.category := by
              rcases List.mem_cons.1 hq with rfl | hq
              · rfl
              · exact absurd ⟨q, hq, rfl⟩ hx
            rw [s2.others _ fun x hxs hm => hx ⟨x, hxs, lists_written (hps x hxs) hq' hm⟩,
              List.filter_cons, hnone]
            rw [e, s1.lists]
            simp
        testLists := by
          intro q hq
          have hq' := hp q hq
          have h1 := testListsOne q hq'
          by_cases hx : ∃ x ∈ rs, x.category = q.category
          · obtain ⟨x, hx, e⟩ := hx
            have := s2.testLists x hx
            rw [e, h1] at this
            rw [this, List.filter_cons]
            by_cases e' : q.category = r.category
            · cases ht : r.tests <;> simp [e']
            · simp [e', Ne.symm e']
          · have hnone : (rs.filter fun x => decide (x.category = q.category) && x.tests) = [] := by
              rw [List.filter_eq_nil_iff]
              intro x hxs
              rw [Bool.and_eq_true, decide_eq_true_eq]
              exact fun e => hx ⟨x, hxs, e.1⟩
            have e : q.category = r.category := by
              rcases List.mem_cons.1 hq with rfl | hq
              · rfl
              · exact absurd ⟨q, hq, rfl⟩ hx
            rw [s2.others _ fun x hxs hm => hx ⟨x, hxs, testLists_written (hps x hxs) hq' hm⟩,
              List.filter_cons, hnone]
            rw [e]
            cases ht : r.tests with
            | true => rw [s1.testLists ht]; simp
            | false => rw [s1.noTestLists ht]; simp
        roots := by
          refine registered_cons (old' := fun c => Present d (listsIn (rulesDir home c)) ∨ c = r.category)
            (fun x => Iff.rfl)
            (registered_congr hps (fun x hx => (present_lists hr s1 x hx).symm) s2.roots) ?_ ?_
          · intro h; unfold contents; rw [s1.known h]
          · intro h; exact contents_of_some (s1.unknown h)
        testRoots := by
          refine registered_cons (old' := fun c => Present d (listsIn (testsDir home c)) ∨ c = r.category)
            (fun x => Iff.rfl)
            (registered_congr hps (fun x hx => (present_testLists hr s1 x hx).symm) s2.testRoots) ?_ ?_
          · intro h; unfold contents; rw [s1.testKnown h]
          · intro h; exact contents_of_some (s1.testUnknown h)
        others := fun p h => by
          rw [s2.others p fun q hq => h q (List.mem_cons_of_mem _ hq)]
          exact s1.others p (h r (by simp))
        dirs := fun p => by
          rw [s2.dirs, s1.dirs]
          simp only [List.mem_cons, exists_eq_or_imp]
          exact or_assoc }

end Oclint
