import Verif.Lemmas.TestScaffold
import Verif.Props.CMake

/-!
# C119: which tests are built
-/

namespace Oclint
open Spec
open scoped List

/-! ## Paths -/

theorem testListAt_eq (home c : Str) : listAt (testsPlace home) c = listsIn (testsDir home c) := by
  rw [listsIn_eq, testsDir_eq]
  simp [listAt, testsPlace, TT]

theorem testRootAt_eq (home : Str) : testsPlace home ++ chars! "/CMakeLists.txt" = testsRootLists home := by
  rw [testsRootLists_eq, listsIn_eq]
  simp [testsPlace, TT]

theorem itemTest_eq (home : Str) (r : RuleRequest) :
    itemTest (testsPlace home) (classItem ('/' :: r.category) r.className) = requestedTest home r := by
  rw [requestedTest, testSource_eq, testsDir_eq]
  simp [itemTest, classItem, testsPlace, TT]

/-! ## Scaffolding -/

/-- The last element with a property. -/
theorem last_with {α : Type} {P : α → Prop} {l : List α} (h : ∃ x ∈ l, P x) :
    ∃ a q b, l = a ++ q :: b ∧ P q ∧ ∀ x ∈ b, ¬ P x := by
  induction l with
  | nil => obtain ⟨x, hx, -⟩ := h; cases hx
  | cons y l ih =>
    by_cases hm : ∃ x ∈ l, P x
    · obtain ⟨a, q, b, rfl, h1, h2⟩ := ih hm
      exact ⟨y :: a, q, b, rfl, h1, h2⟩
    · obtain ⟨x, hx, hp⟩ := h
      rcases List.mem_cons.1 hx with rfl | hx
      · exact ⟨[], x, l, rfl, hp, fun z hz hpz => hm ⟨z, hz, hpz⟩⟩
      · exact absurd ⟨x, hx, hp⟩ hm

/-- A test that is asked for is there. -/
theorem test_present {home : Str} {d d' : Disk} {rs : List RuleRequest} {visits : Str}
    (h : ScaffoldedAll home d rs visits d') {r : RuleRequest} (hm : r ∈ rs) (ht : r.tests = true) :
    d'.file (testSource home r.category r.className) ≠ none := by
  obtain ⟨a, q, b, e, ⟨hs, hq⟩, hb⟩ := last_with (P := fun q => SameClass q r ∧ q.tests = true)
    ⟨r, hm, ⟨rfl, rfl⟩, ht⟩
  have := h.test a q b e hq (by
    intro x hx hs'
    by_contra hn
    exact hb x hx ⟨⟨hs'.1.trans hs.1, hs'.2.trans hs.2⟩, by simpa using hn⟩)
  rw [hs.1, hs.2] at this
  rw [this]
  nofun

theorem testListsRel_of {home : Str} {d d' : Disk} {rs : List RuleRequest} {visits : Str}
    (hr : ∀ r ∈ rs, PlainRequest r) (h : ScaffoldedAll home d rs visits d')
    (hroot : d'.file (testsRootLists home) ≠ none) :
    TestListsRel (testsPlace home) rs d d' := by
  have hin : ∀ c ∈ rs.map (·.category), d'.file (listsIn (testsDir home c)) =
      some (contents d (listsIn (testsDir home c)) ++
        ((askedIn (rs.filter (·.tests)) c).map testStep).flatten) := by
    intro c hc
    obtain ⟨r, hm, rfl⟩ := List.mem_map.1 hc
    rw [h.testLists r hm, askedIn, List.map_map, List.filter_filter]
    rfl
  have hout : ∀ c, c ≠ [] → c.all cmNameChar = true → c ∉ rs.map (·.category) →
      d'.file (listsIn (testsDir home c)) = d.file (listsIn (testsDir home c)) := by
    intro c h0 h1 hc
    apply h.others
    intro r hm hw
    exact hc (List.mem_map.2 ⟨r, hm,
      testLists_written (r := { className := [], category := c }) (hr r hm) (nameChars_plain h1 h0) hw⟩)
  constructor
  · intro c text h0 h1 hf
    rw [testListAt_eq] at hf ⊢
    by_cases hc : c ∈ rs.map (·.category)
    · rw [hin c hc, contents, hf]
      rfl
    · have e : askedIn (rs.filter (·.tests)) c = [] := by
        unfold askedIn
        rw [List.map_eq_nil_iff, List.filter_eq_nil_iff]
        intro r hm
        have : r.category ≠ c := fun e => hc (List.mem_map.2 ⟨r, List.mem_of_mem_filter hm, e⟩)
        simpa using this
      rw [hout c h0 h1 hc, hf, e]
      simp
  · intro c hc hf
    rw [testListAt_eq] at hf ⊢
    rw [hin c hc, contents, hf]
    rfl
  · intro x hd
    have e : testsPlace home ++ x = TT home ++ x := rfl
    rw [e] at hd ⊢
    by_cases hw : ∃ r ∈ rs, TT home ++ x ∈ writtenBy home r
    · obtain ⟨r, hm, hw⟩ := hw
      rcases written_tests hw with e | e | e
      · by_cases ht : ∃ q ∈ rs, SameClass q r ∧ q.tests = true
        · obtain ⟨q, hq, hs, ht⟩ := ht
          have := test_present h hq ht
          rwa [hs.1, hs.2, ← e] at this
        · rw [e] at hd ⊢
          rw [h.noTest r hm fun q hq hs => by
            by_contra hn
            exact ht ⟨q, hq, hs, by simpa using hn⟩]
          exact hd
      · rw [e, h.testLists r hm]; nofun
      · rw [e]; exact hroot
    · rw [h.others _ fun r hm hw' => hw ⟨r, hm, hw'⟩]
      exact hd

/-- Nothing is against the item of a request by itself. -/
theorem requested_good {home : Str} {d' : Disk} {r : RuleRequest} (hr : ListedRequest r)
    (hs : d'.file (testSource home r.category r.className) ≠ none) :
    TestGood d' (testsPlace home) (classItem ('/' :: r.category) r.className) := by
  refine ⟨?_, ?_, by simp [classItem], ?_⟩
  · intro c hcm
    rcases List.mem_append.1 hcm with hcm | hcm
    · rcases hr.className.2 c hcm with h | rfl
      · simp only [Char.isAlphanum, Bool.or_eq_true] at h
        simp only [cmTargetChar, Bool.or_eq_true]
        tauto
      · decide +kernel
    · exact (by decide +kernel : ∀ c ∈ chars! "RuleTest", cmTargetChar c = true) c hcm
  · intro hm
    have hl : (r.className ++ chars! "RuleTest").getLast? = some 't' := by simp
    have : ∀ x ∈ testProjectTargets, x.getLast? ≠ some 't' := by decide +kernel
    exact this _ hm hl
  · intro f hf
    rw [classItem, List.mem_singleton] at hf
    refine ⟨?_, ?_, ?_⟩
    · rw [hf]
      intro hm
      rcases List.mem_append.1 hm with hm | hm
      · exact absurd (hr.className.2 _ hm) (by decide +kernel)
      · exact absurd hm (by decide +kernel)
    · intro hm
      have hl : f.getLast? = some 'p' := by rw [hf]; simp
      have : ∀ x ∈ executableWords, x.getLast? ≠ some 'p' := by decide +kernel
      exact this _ hm hl
    · rw [hf]
      have e : testsPlace home ++ (classItem ('/' :: r.category) r.className).place ++
          '/' :: (r.className ++ chars! "RuleTest.cpp") = testSource home r.category r.className := by
        rw [testSource_eq, testsDir_eq]
        simp [classItem, testsPlace, TT]
      rw [e]
      exact hs

/-- **C119.** In a tree whose tests can be built, whatever rules are scaffolded, with or without tests: if
no two tests get the same name, everything can be built afterwards, the programs that there were and one
for each request for a test.  If two do, nothing can be built any more.  A request without a test adds
nothing.  What is assumed is that the categories that have a list are built. -/
theorem C119_scaffolded (cuda : Bool) (home : Str) (d : Disk) (stmts decls visits : Str)
    (hc : Checkout home d stmts decls) (hv : VisitsOf stmts decls visits) (rs : List RuleRequest)
    (hr : ∀ r ∈ rs, ListedRequest r) (hu : ∀ r ∈ rs, Unobstructed home d r)
    (s : TestRoot) (hb : configureTests cuda d (testsPlace home) = some s)
    (ha : ∀ r ∈ rs, Present d (listsIn (testsDir home r.category)) → r.category ∈ s.added) :
    ∃ d', scaffoldAll home d rs = ⟨d', none⟩ ∧
      (FreshTests s.tests rs → ∃ s', configureTests cuda d' (testsPlace home) = some s' ∧
        s'.tests.Perm (s.tests ++ (rs.filter (·.tests)).map (requestedTest home)) ∧
        s.added <+: s'.added) ∧
      (¬ FreshTests s.tests rs → configureTests cuda d' (testsPlace home) = none) := by
  have hp : ∀ r ∈ rs, PlainRequest r := fun r h => listed_plain (hr r h)
  obtain ⟨d', hd, h⟩ := C97_sequence home d stmts decls visits hc hv rs hp hu
  refine ⟨d', hd, ?_⟩
  have hc' := scaffoldAll_checkout hv rs hc hp hu hd
  have hl := testListsRel_of hp h hc'.testsLists
  obtain ⟨p, hpl, hg, hn, rfl⟩ := (configureTests_iff cuda d _ s).1 hb
  obtain ⟨text, ht⟩ := Option.ne_none_iff_exists'.1 hc.testsLists
  obtain ⟨text', ht'⟩ := Option.ne_none_iff_exists'.1 hc'.testsLists
  obtain ⟨new, -, hnd, hnew, hroot⟩ := h.testRoots
  rw [contents, contents, ht, ht'] at hroot
  simp only [Option.getD_some] at hroot
  obtain ⟨p', hpl', hadd, hitems⟩ := testPlan_rel hr hl (text := text)
    (by rw [testRootAt_eq]; exact ht) new hnd (by
      intro c
      rw [hnew, testListAt_eq]
      refine and_congr_right fun _ => ?_
      constructor
      · intro hno
        by_contra hne
        exact hno (Option.ne_none_iff_exists'.1 hne)
      · rintro hno ⟨t, hpres⟩
        rw [hno] at hpres
        cases hpres)
    (by rw [testRootAt_eq, ht', hroot]) hpl
    (by
      intro r hrm hne
      rw [testListAt_eq] at hne
      exact ha r hrm (Option.ne_none_iff_exists'.1 hne))
  have hperm : (p'.items.map (itemTest (testsPlace home))).Perm
      (p.items.map (itemTest (testsPlace home)) ++ (rs.filter (·.tests)).map (requestedTest home)) := by
    have := hitems.map (itemTest (testsPlace home))
    rw [List.map_append, List.map_map] at this
    refine this.trans (List.Perm.of_eq ?_)
    congr 1
    apply List.map_congr_left
    intro r _
    exact itemTest_eq home r
  have hgood : ∀ i ∈ p'.items, TestGood d' (testsPlace home) i := by
    intro i hi
    rcases List.mem_append.1 (hitems.mem_iff.1 hi) with hi | hi
    · obtain ⟨g1, g2, g3, g4⟩ := hg i hi
      refine ⟨g1, g2, g3, fun f hf => ⟨(g4 f hf).1, (g4 f hf).2.1, ?_⟩⟩
      have := (g4 f hf).2.2
      rw [List.append_assoc] at this ⊢
      exact hl.more _ this
    · obtain ⟨r, hrm, rfl⟩ := List.mem_map.1 hi
      obtain ⟨hrm, ht⟩ := List.mem_filter.1 hrm
      exact requested_good (hr r hrm) (test_present h hrm ht)
  have hnodup : (p'.items.map (·.name)).Nodup ↔
      FreshTests (p.items.map (itemTest (testsPlace home))) rs := by
    have e1 : (p'.items.map (·.name)).Perm ((p.items.map (·.name)) ++
        (rs.filter (·.tests)).map fun r => r.className ++ "RuleTest".toList) := by
      have := hitems.map (·.name)
      rw [List.map_append, List.map_map] at this
      exact this
    rw [e1.nodup_iff, List.nodup_append]
    have e2 : ((rs.filter (·.tests)).map fun r => r.className ++ "RuleTest".toList).Nodup ↔
        ((rs.filter (·.tests)).map (·.className)).Nodup := by
      have e3 : ((rs.filter (·.tests)).map fun r => r.className ++ "RuleTest".toList) =
          ((rs.filter (·.tests)).map (·.className)).map (· ++ "RuleTest".toList) := by
        rw [List.map_map]
        rfl
      rw [e3]
      exact List.nodup_map_iff fun a b e => List.append_cancel_right e
    rw [e2]
    constructor
    · rintro ⟨-, h1, h2⟩
      refine ⟨h1, ?_⟩
      intro r hrm ht x hx
      obtain ⟨i, hi, rfl⟩ := List.mem_map.1 hx
      exact h2 _ (List.mem_map.2 ⟨i, hi, rfl⟩) _
        (List.mem_map.2 ⟨r, List.mem_filter.2 ⟨hrm, ht⟩, rfl⟩)
    · rintro ⟨h1, h2⟩
      refine ⟨hn, h1, ?_⟩
      intro a ha b hb
      obtain ⟨i, hi, rfl⟩ := List.mem_map.1 ha
      obtain ⟨r, hrm, rfl⟩ := List.mem_map.1 hb
      obtain ⟨hrm, ht⟩ := List.mem_filter.1 hrm
      exact h2 r hrm ht _ (List.mem_map.2 ⟨i, hi, rfl⟩)
  constructor
  · intro hf
    exact ⟨_, (configureTests_iff cuda d' _ _).2 ⟨p', hpl', hgood, hnodup.2 hf, rfl⟩, hperm,
      by simp only [hadd]; exact List.prefix_append _ _⟩
  · intro hf
    cases hcf : configureTests cuda d' (testsPlace home) with
    | none => rfl
    | some s' =>
      obtain ⟨q, hq, g1, g2, -⟩ := (configureTests_iff cuda d' _ s').1 hcf
      rw [hpl'] at hq
      cases hq
      exact absurd (hnodup.1 g2) hf

/-! ## The tests of the repository -/

theorem planTestRoot_macros (cuda : Bool) (d : Disk) (root : Str) (p : TestPlan) (cs : List CmCommand) :
    ∀ f f', cs.foldlM macroFlag f = some f' →
      cs.foldlM (planTestRoot cuda d root) (f, p) = some (f', p) := by
  induction cs with
  | nil => intro f f' h; cases h; rfl
  | cons c cs ih =>
    intro f f' h
    rw [List.foldlM_cons] at h ⊢
    obtain ⟨g, h1, h2⟩ := Option.bind_eq_some_iff.1 h
    have : planTestRoot cuda d root (f, p) c = some (g, p) := by
      unfold macroFlag at h1
      unfold planTestRoot
      cases f with
      | true => cases h1; rfl
      | false =>
        simp only [Bool.false_eq_true, if_false] at h1 ⊢
        split at h1
        · rename_i hm
          cases h1
          rw [if_pos hm]
        · cases h1
    rw [this]
    exact ih g f' h2

theorem planTestRoot_lists (cuda : Bool) (d : Disk) (root : Str)
    (xs : List (Str × Str × List TestItem)) : ∀ {p : TestPlan},
    (∀ x ∈ xs, PlainName x.1 ∧ d.file (listAt root x.1) = some x.2.1 ∧
      planTestText cuda ('/' :: x.1) p.vars x.2.1 = some x.2.2) →
    (p.added ++ xs.map (·.1)).Nodup →
    (xs.map fun x => testCategoryCmd x.1).foldlM (planTestRoot cuda d root) (false, p) =
      some (false, ⟨p.vars, p.items ++ xs.flatMap (·.2.2), p.added ++ xs.map (·.1)⟩) := by
  induction xs with
  | nil => intro p _ _; simp
  | cons x xs ih =>
    intro p hn hd
    obtain ⟨hpc, h1, h2⟩ := hn x (by simp)
    have hx : x.1 ∉ p.added := by
      intro hm
      exact (List.nodup_append.1 hd).2.2 _ hm _ (by simp) rfl
    have hs : planTestRoot cuda d root (false, p) (testCategoryCmd x.1) = some (false,
        ⟨p.vars, p.items ++ x.2.2, p.added ++ [x.1]⟩) := by
      rw [planTestPlain_category _ _ _ _ _ hpc, planTestDir, if_neg (by
        rintro (h | h | h)
        · exact hpc.1 h
        · rw [plain_nameChars hpc] at h; cases h
        · exact hx (by simpa using h)), h1, Option.bind_some, h2]
      rfl
    rw [List.map_cons, List.foldlM_cons, hs, Option.bind_eq_bind, Option.bind_some,
      ih (p := ⟨p.vars, p.items ++ x.2.2, p.added ++ [x.1]⟩) (fun x hx => hn x (by simp [hx]))
        (by simpa using hd)]
    simp

/-- The commands of the list of categories. -/
def testRootCommands : List CmCommand := (cmCommands (cmText testRootLines)).getD []

/-- The values of the variables of that list. -/
def shippedVars : Str → Str :=
  ((cmArgsOf (fun _ => []) (testRootCommands.getD 1 ⟨[], []⟩).args).bind (cmSet fun _ => [])).getD
    fun _ => []

/-- The categories with their lists and what these want to have built. -/
def shippedTestLists (cuda : Bool) : List (Str × Str × List TestItem) :=
  testCategoryLists.map fun c =>
    (c.1, cmText c.2, (planTestText cuda ('/' :: c.1) shippedVars (cmText c.2)).getD [])

/-- The canary. -/
def canaryItem : TestItem := ⟨[], chars! "CanaryTest", [chars! "CanaryTest.cpp"]⟩

/-- Everything that is to be built. -/
def shippedTestItems (cuda : Bool) : List TestItem :=
  canaryItem :: (shippedTestLists cuda).flatMap (·.2.2)

theorem testRoot_commands : ∀ cuda, cmCommands (cmText testRootLines) =
    some ([testRootCommands.getD 0 ⟨[], []⟩, testRootCommands.getD 1 ⟨[], []⟩] ++
      ((testRootCommands.drop 2).take 5 ++ ([testRootCommands.getD 7 ⟨[], []⟩] ++
        (shippedTestLists cuda).map fun x => testCategoryCmd x.1))) := by
  decide +kernel

theorem testMacro_commands : ((testRootCommands.drop 2).take 5).foldlM macroFlag false = some false := by
  decide +kernel

theorem shipped_testLists : ∀ cuda, ∀ x ∈ shippedTestLists cuda, PlainName x.1 ∧
    planTestText cuda ('/' :: x.1) shippedVars x.2.1 = some x.2.2 := by
  decide +kernel

theorem testRoot_first (cuda : Bool) (d : Disk) (root : Str)
    (h : d.file (root ++ chars! "/headers/TestRuleOnCode.cpp") ≠ none) :
    [testRootCommands.getD 0 ⟨[], []⟩, testRootCommands.getD 1 ⟨[], []⟩].foldlM
      (planTestRoot cuda d root) (false, ⟨fun _ => [], [], []⟩) =
        some (false, ⟨shippedVars, [], []⟩) := by
  have e0 : (testRootCommands.getD 0 ⟨[], []⟩).name = chars! "add_library" := by decide +kernel
  have e1 : (testRootCommands.getD 1 ⟨[], []⟩).name = chars! "set" := by decide +kernel
  have a0 : cmArgsOf (fun _ => []) (testRootCommands.getD 0 ⟨[], []⟩).args = some testHelperArgs := by
    decide +kernel
  have a1 : ((cmArgsOf (fun _ => []) (testRootCommands.getD 1 ⟨[], []⟩).args).bind
      (cmSet fun _ => [])).isSome = true := by decide +kernel
  have hv : (cmArgsOf (fun _ => []) (testRootCommands.getD 1 ⟨[], []⟩).args).bind
      (cmSet fun _ => []) = some shippedVars := by
    rw [shippedVars]
    generalize (cmArgsOf (fun _ => []) (testRootCommands.getD 1 ⟨[], []⟩).args).bind
      (cmSet fun _ => []) = o at a1
    cases o with
    | none => cases a1
    | some v => rfl
  generalize testRootCommands.getD 0 ⟨[], []⟩ = c0 at e0 a0 ⊢
  generalize testRootCommands.getD 1 ⟨[], []⟩ = c1 at e1 hv ⊢
  have n1 : ¬ chars! "add_library" = chars! "macro" := by decide +kernel
  have n2 : ¬ chars! "add_library" = chars! "set" := by decide +kernel
  have n3 : ¬ chars! "set" = chars! "macro" := by decide +kernel
  have s0 : planTestRoot cuda d root (false, ⟨fun _ => [], [], []⟩) c0 =
      some (false, ⟨fun _ => [], [], []⟩) := by
    unfold planTestRoot
    simp only [Bool.false_eq_true, if_false, e0, if_neg n1]
    unfold planTestPlain
    simp only [a0, Option.bind_some, e0, if_neg n2, if_true,
      Option.isSome_iff_ne_none.2 h, and_self, Option.map_some]
  have s1 : planTestRoot cuda d root (false, ⟨fun _ => [], [], []⟩) c1 =
      some (false, ⟨shippedVars, [], []⟩) := by
    unfold planTestRoot
    simp only [Bool.false_eq_true, if_false, e1, if_neg n3]
    unfold planTestPlain
    obtain ⟨args, h1, h2⟩ := Option.bind_eq_some_iff.1 hv
    simp only [h1, Option.bind_some, e1, if_true, h2, Option.map_some]
  rw [List.foldlM_cons, s0, Option.bind_eq_bind, Option.bind_some, List.foldlM_cons, s1]
  rfl

theorem testRoot_canary (cuda : Bool) (d : Disk) (root : Str) :
    [testRootCommands.getD 7 ⟨[], []⟩].foldlM (planTestRoot cuda d root)
      (false, ⟨shippedVars, [], []⟩) = some (false, ⟨shippedVars, [canaryItem], []⟩) := by
  have e0 : (testRootCommands.getD 7 ⟨[], []⟩).name = chars! "build_test" := by decide +kernel
  have a0 : cmArgsOf shippedVars (testRootCommands.getD 7 ⟨[], []⟩).args =
      some [chars! "CanaryTest", chars! "CanaryTest.cpp"] := by decide +kernel
  generalize testRootCommands.getD 7 ⟨[], []⟩ = c0 at e0 a0 ⊢
  have n1 : ¬ chars! "build_test" = chars! "macro" := by decide +kernel
  have n2 : ¬ chars! "build_test" = chars! "set" := by decide +kernel
  have n3 : ¬ chars! "build_test" = chars! "add_library" := by decide +kernel
  have s0 : planTestRoot cuda d root (false, ⟨shippedVars, [], []⟩) c0 =
      some (false, ⟨shippedVars, [canaryItem], []⟩) := by
    unfold planTestRoot
    simp only [Bool.false_eq_true, if_false, e0, if_neg n1]
    unfold planTestPlain
    simp only [a0, Option.bind_some, e0, if_neg n2, if_neg n3, if_true]
    rfl
  rw [List.foldlM_cons, s0]
  rfl

theorem shipped_testPlan (cuda : Bool) {root : Str} {d : Disk} (h : ShippedTests root d) :
    testPlan cuda d root = some ⟨shippedVars, shippedTestItems cuda, testCategoryLists.map (·.1)⟩ := by
  unfold testPlan
  have ht : d.file (root ++ chars! "/CMakeLists.txt") = some (cmText testRootLines) := h.top
  rw [ht, Option.bind_some, testRoot_commands cuda, Option.bind_some, List.foldlM_append,
    testRoot_first cuda d root h.helper, Option.bind_eq_bind, Option.bind_some, List.foldlM_append,
    planTestRoot_macros cuda d root _ _ false false testMacro_commands, Option.bind_eq_bind,
    Option.bind_some, List.foldlM_append, testRoot_canary, Option.bind_eq_bind, Option.bind_some,
    planTestRoot_lists cuda d root (shippedTestLists cuda)]
  · have hmap : (shippedTestLists cuda).map (·.1) = testCategoryLists.map (·.1) := by
      rw [shippedTestLists, List.map_map]
      rfl
    unfold shippedTestItems
    generalize shippedTestLists cuda = l at hmap ⊢
    generalize testCategoryLists.map (·.1) = m at hmap ⊢
    generalize shippedVars = v
    rw [hmap]
    rfl
  · intro x hx
    obtain ⟨h1, h2⟩ := shipped_testLists cuda x hx
    refine ⟨h1, ?_, ?_⟩
    swap
    · generalize shippedVars = v at h2 ⊢
      exact h2
    obtain ⟨c, hc, rfl⟩ := List.mem_map.1 hx
    have := h.lists c hc
    rw [← this]
    congr 1
    simp [listAt]
  · revert cuda
    decide +kernel

/-- The sources, as they are below the directory of tests. -/
def relSources (items : List TestItem) : List Str :=
  items.flatMap fun i => i.files.map fun f => i.place ++ '/' :: f

theorem shipped_testItems : ∀ cuda : Bool,
    relSources (shippedTestItems cuda) ~ "/CanaryTest.cpp".toList ::
      ((testSources.filter fun x => cuda || !cudaTests.contains x).map fun x =>
        "/".toList ++ x.1 ++ "/".toList ++ x.2) ∧
    ((shippedTestItems cuda).map (·.name)).Nodup ∧
    ∀ i ∈ shippedTestItems cuda, (∀ c ∈ i.name, cmTargetChar c = true) ∧ i.name ∉ testProjectTargets ∧
      i.files ≠ [] ∧ ∀ f ∈ i.files, '/' ∉ f ∧ f ∉ executableWords := by
  decide +kernel

/-- **C119.** From the lists of the repository CMake builds programs of tests that have the canary and
every source of a test in the repository, each exactly once, and nothing else; without CUDA those that
need it are left out. -/
theorem C119_built (cuda : Bool) (root : Str) (d : Disk) (h : ShippedTests root d) :
    ∃ s, configureTests cuda d root = some s ∧ s.added = testCategoryLists.map (·.1) ∧
      (s.tests.map (·.name)).Nodup ∧ testSources.Nodup ∧
      s.tests.flatMap (·.sources) ~ (root ++ "/CanaryTest.cpp".toList) ::
        ((testSources.filter fun x => cuda || !cudaTests.contains x).map fun x =>
          root ++ "/".toList ++ x.1 ++ "/".toList ++ x.2) := by
  obtain ⟨i1, i2, i3⟩ := shipped_testItems cuda
  have hplan := shipped_testPlan cuda h
  have hnd : testSources.Nodup := by decide +kernel
  have e : ∀ items : List TestItem, (items.map (itemTest root)).flatMap (·.sources) =
      (relSources items).map (root ++ ·) := by
    intro items
    induction items with
    | nil => rfl
    | cons i items ih =>
      rw [List.map_cons, List.flatMap_cons, ih]
      simp [relSources, itemTest]
  generalize shippedTestItems cuda = items at i1 i2 i3 hplan
  have hpres : ∀ x ∈ relSources items, d.file (root ++ x) ≠ none := by
    intro x hx
    rcases List.mem_cons.1 (i1.mem_iff.1 hx) with rfl | hx
    · exact h.canary
    · obtain ⟨s, hs, rfl⟩ := List.mem_map.1 hx
      have := h.sources s (List.mem_of_mem_filter hs)
      simpa only [List.append_assoc] using this
  refine ⟨_, (configureTests_iff cuda d root _).2 ⟨_, hplan, ?_, i2, rfl⟩, rfl, ?_, hnd, ?_⟩
  · intro i hi
    obtain ⟨g1, g2, g3, g4⟩ := i3 i hi
    refine ⟨g1, g2, g3, fun f hf => ⟨(g4 f hf).1, (g4 f hf).2, ?_⟩⟩
    rw [List.append_assoc]
    exact hpres _ (List.mem_flatMap.2 ⟨i, hi, List.mem_map.2 ⟨f, hf, rfl⟩⟩)
  · rw [List.map_map]
    exact i2
  · simp only
    rw [e]
    refine (i1.map (root ++ ·)).trans (List.Perm.of_eq ?_)
    rw [List.map_cons, List.map_map]
    congr 1
    apply List.map_congr_left
    intro x _
    simp

theorem ruleTest_listed : ∀ r ∈ shippedRules, ∃ stem, r.source = stem ++ chars! ".cpp" ∧
    (r.directory, stem ++ chars! "Test.cpp") ∈ testSources ∧
    (r.directory ≠ chars! "cuda" → (r.directory, stem ++ chars! "Test.cpp") ∉ cudaTests) := by
  have key : ∀ r ∈ shippedRules, r.source = r.source.take (r.source.length - 4) ++ chars! ".cpp" ∧
      (r.directory, r.source.take (r.source.length - 4) ++ chars! "Test.cpp") ∈ testSources ∧
      (r.directory ≠ chars! "cuda" →
        (r.directory, r.source.take (r.source.length - 4) ++ chars! "Test.cpp") ∉ cudaTests) := by
    decide +kernel
  exact fun r hr => ⟨_, key r hr⟩

/-- **C119.** Every rule of the repository is tested: the source of its test, which has the name of the
rule and is in the directory of the same name, gets into a program; for the rules about CUDA, if there
is CUDA. -/
theorem C119_every_rule (cuda : Bool) (root : Str) (d : Disk) (h : ShippedTests root d) (s : TestRoot)
    (hs : configureTests cuda d root = some s) (r : ShippedRule) (hr : r ∈ shippedRules)
    (hc : cuda = true ∨ r.directory ≠ "cuda".toList) :
    ∃ stem, r.source = stem ++ ".cpp".toList ∧ ∃ p ∈ s.tests,
      root ++ "/".toList ++ r.directory ++ "/".toList ++ stem ++ "Test.cpp".toList ∈ p.sources := by
  obtain ⟨s', h1, -, -, -, h2⟩ := C119_built cuda root d h
  rw [hs] at h1
  cases h1
  obtain ⟨stem, h3, h4, h5⟩ := ruleTest_listed r hr
  refine ⟨stem, h3, ?_⟩
  have hm : root ++ "/".toList ++ r.directory ++ "/".toList ++ (stem ++ chars! "Test.cpp") ∈
      s.tests.flatMap (·.sources) := by
    rw [h2.mem_iff]
    refine List.mem_cons_of_mem _ (List.mem_map.2 ⟨_, List.mem_filter.2 ⟨h4, ?_⟩, rfl⟩)
    rcases hc with rfl | hc
    · rfl
    · have := h5 hc
      simp [this]
  obtain ⟨p, hp, hx⟩ := List.mem_flatMap.1 hm
  refine ⟨p, hp, ?_⟩
  rw [← List.append_assoc] at hx
  exact hx

/-! ## Reporters -/

theorem reporterTest_next {home : Str} {d d' : Disk} {r : ReporterRequest} (hx : PlainName r.className)
    {built : List Plugin} (hb : configureReporterTests d (reporterTestsDir home) = some built)
    (n1 : r.tests = true → ¬ Present d (reporterTestSource home r.className))
    (h : ReporterScaffolded home d r d') :
    configureReporterTests d' (reporterTestsDir home) =
      some (built ++ ([r].filter (·.tests)).map (requestedReporterTest home)) := by
  have el : reporterTestsDir home ++ chars! "/CMakeLists.txt" = listsIn (reporterTestsDir home) := rfl
  have es : reporterTestSource home r.className = reporterTestsDir home ++
      '/' :: ((r.className ++ chars! "ReporterTest") ++ []) ++ chars! ".cpp" := by
    simp [reporterTestSource]
  obtain ⟨text, ht⟩ := configureNamed_list hb
  by_cases htests : r.tests = true
  · have hl := h.testLists htests
    rw [← el, contents, ht, Option.getD_some] at hl
    have hp := plainName_append hx (chars! "ReporterTest") (by decide +kernel)
    have := named_next (by decide +kernel) hp (by rw [List.append_nil]; exact hp) hb
      (reporter_mono h) ht hl (adds_reporterTest _ hx) (by rw [← es]; exact not_present (n1 htests))
      (by rw [← es, h.test htests]; nofun)
    rw [← es, List.append_nil] at this
    rw [List.filter_cons_of_pos (by simpa using htests)]
    exact this
  · rw [List.filter_cons_of_neg (by simpa using htests)]
    rw [List.filter_nil, List.map_nil, List.append_nil]
    refine named_same hb (reporter_mono h) ?_
    rw [el]
    apply h.others
    · intro hm
      have hne : ∀ a b : Str, home ++ ("/../oclint-reporters/".toList ++ 't' :: a) ≠
          home ++ ("/../oclint-reporters/".toList ++ 'r' :: b) := by
        intro a b e
        have := List.append_cancel_left (List.append_cancel_left e)
        simp at this
      have e1 : listsIn (reporterTestsDir home) = home ++ ("/../oclint-reporters/".toList ++
          't' :: "est/CMakeLists.txt".toList) := by
        simp [listsIn, reporterTestsDir]
      rw [e1] at hm
      simp only [List.mem_cons, List.not_mem_nil, or_false] at hm
      rcases hm with hm | hm
      · exact hne _ ("eporters/".toList ++ (r.className ++ "Reporter.cpp".toList))
          (hm.trans (by simp [reporterSource, reportersDir]))
      · exact hne _ "eporters/CMakeLists.txt".toList (hm.trans (by simp [listsIn, reportersDir]))
    · exact fun h => absurd h htests

/-- **C119.** In a tree whose tests of reporters can be built, whatever reporters are scaffolded with
plain names, everything can be built afterwards: what was built before, and one program for each request
for a test that is not refused. -/
theorem C119_reporters (home : Str) (rs : List ReporterRequest) (d : Disk) (built : List Plugin)
    (hc : ReporterCheckout home d)
    (hr : ∀ r ∈ rs, PlainName r.className ∧ d.dir (reporterSource home r.className) = false ∧
      d.dir (reporterTestSource home r.className) = false)
    (hb : configureReporterTests d (reporterTestsDir home) = some built) :
    ∃ d' taken, scaffoldReporters home d rs = ⟨d', none⟩ ∧ Accepted home d rs taken ∧
      configureReporterTests d' (reporterTestsDir home) =
        some (built ++ (taken.filter (·.tests)).map (requestedReporterTest home)) := by
  refine reporters_run home (fun d acc => configureReporterTests d (reporterTestsDir home) =
    some (built ++ (acc.filter (·.tests)).map (requestedReporterTest home))) ?_ rs d [] hc hr
    (by simpa using hb)
  intro d d' r acc hx _ n2 h hb
  have := reporterTest_next hx hb n2 h
  rw [this, List.filter_append, List.map_append, List.append_assoc]

/-- A list that has some macros, then some classes, something about linking one of them, and more
classes. -/
theorem named_linked {cmd suffix : Str} (hcmd : cmd ≠ chars! "macro")
    (hcmd2 : cmd ≠ chars! "target_link_libraries") (d : Disk) (root text : Str)
    (ht : d.file (root ++ chars! "/CMakeLists.txt") = some text) (macros : List CmCommand)
    (xs ys : List Str) (args : List CmArg) (target : Str) (libs : List Str)
    (hc : cmCommands text = some (macros ++ (xs.map (namedCmd cmd) ++
      (⟨chars! "target_link_libraries", args⟩ :: ys.map (namedCmd cmd)))))
    (ha : cmArgsOf (fun _ => []) args = some (target :: libs))
    (htarget : target ∈ xs.map (· ++ suffix))
    (hm : macros.foldlM macroFlag false = some false)
    (hx : ∀ x ∈ xs ++ ys, PlainName x ∧ PlainName (x ++ suffix)) (hn : (xs ++ ys).Nodup)
    (hs : ∀ x ∈ xs ++ ys, d.file (namedPlugin suffix root x).source ≠ none) :
    configureNamed cmd suffix d root = some ((xs ++ ys).map (namedPlugin suffix root)) := by
  have hn' : ((xs ++ ys).map fun x => x ++ suffix).Nodup :=
    hn.map fun a b e => List.append_cancel_right e
  have e1 : (xs.map (namedPlugin suffix root)).map (·.target) = xs.map fun x => x ++ suffix := by
    rw [List.map_map]
    rfl
  have n1 : ¬ chars! "target_link_libraries" = chars! "macro" := by decide +kernel
  have hl : namedCommand cmd suffix d root (false, xs.map (namedPlugin suffix root))
      ⟨chars! "target_link_libraries", args⟩ = some (false, xs.map (namedPlugin suffix root)) := by
    have hct : (xs.map fun x => x ++ suffix).contains target = true := by simpa using htarget
    unfold namedCommand
    simp only [Bool.false_eq_true, if_false, if_neg n1, if_neg (Ne.symm hcmd2), if_true, ha, e1, hct]
  unfold configureNamed
  rw [ht, Option.bind_some, hc, Option.bind_some, List.foldlM_append,
    reporterFold_macros _ _ d root [] _ false false hm, Option.bind_eq_bind, Option.bind_some,
    List.foldlM_append, reporterFold_list hcmd d root xs []
      (fun x h => ⟨(hx x (by simp [h])).1, (hx x (by simp [h])).2, hs x (by simp [h])⟩)
      (by
        rw [List.map_append] at hn'
        exact (List.nodup_append.1 hn').1),
    Option.bind_eq_bind, Option.bind_some, List.nil_append, List.foldlM_cons, hl, Option.bind_eq_bind,
    Option.bind_some, reporterFold_list hcmd d root ys _
      (fun x h => ⟨(hx x (by simp [h])).1, (hx x (by simp [h])).2, hs x (by simp [h])⟩)
      (by rw [e1, ← List.map_append]; exact hn')]
  simp

theorem core_commands : cmCommands (cmText coreTestLines) =
    some (((cmCommands (cmText coreTestLines)).getD []).take 5 ++
      ((coreTests.take 8).map (namedCmd (chars! "build_test")) ++
      (⟨chars! "target_link_libraries", [⟨chars! "RuleSetTest", false⟩, ⟨chars! "OCLintRuleSet", false⟩]⟩ ::
        (coreTests.drop 8).map (namedCmd (chars! "build_test"))))) := by
  decide +kernel

/-- **C119.** From the lists of the repository CMake builds, of reporters, of the core, of the metrics and of
the driver, one program for each source of a test. -/
theorem C119_named_built (root : Str) (d : Disk) (x : List Str × List Str) (hx : x ∈ namedTests)
    (ht : d.file (root ++ "/CMakeLists.txt".toList) = some (cmText x.1))
    (hs : ∀ t ∈ x.2, d.file (root ++ "/".toList ++ t ++ ".cpp".toList) ≠ none) :
    configureReporterTests d root = some (x.2.map fun t =>
      ⟨t, root ++ "/".toList ++ t ++ ".cpp".toList⟩) := by
  obtain ⟨lines, tests⟩ := x
  simp only at ht hs ⊢
  have e : ∀ x, namedPlugin [] root x = ⟨x, root ++ "/".toList ++ x ++ ".cpp".toList⟩ := by
    intro x
    simp [namedPlugin]
  have hm : ∀ x ∈ namedTests, (((cmCommands (cmText x.1)).getD []).take 5).foldlM macroFlag false =
      some false := by decide +kernel
  have hp : ∀ x ∈ namedTests, ∀ t ∈ x.2, PlainName t ∧ PlainName (t ++ []) := by decide +kernel
  have hn : ∀ x ∈ namedTests, x.2.Nodup := by decide +kernel
  have hc : ∀ x ∈ namedTests, x = (coreTestLines, coreTests) ∨ cmCommands (cmText x.1) =
      some (((cmCommands (cmText x.1)).getD []).take 5 ++
        x.2.map (namedCmd (chars! "build_test"))) := by decide +kernel
  have n1 : chars! "build_test" ≠ chars! "macro" := by decide +kernel
  have n2 : chars! "build_test" ≠ chars! "target_link_libraries" := by decide +kernel
  replace hm := hm _ hx
  replace hp := hp _ hx
  replace hn := hn _ hx
  have hs' : ∀ t ∈ tests, d.file (namedPlugin [] root t).source ≠ none := by
    intro t h
    rw [e]
    exact hs t h
  rw [← List.map_congr_left fun x _ => e x]
  rcases hc _ hx with h | hc
  · rw [Prod.mk.injEq] at h
    obtain ⟨rfl, rfl⟩ := h
    have hcore := core_commands
    have htd := List.take_append_drop 8 coreTests
    have hmem : chars! "RuleSetTest" ∈ (coreTests.take 8).map (· ++ []) := by decide +kernel
    have hargs : cmArgsOf (fun _ => []) [⟨chars! "RuleSetTest", false⟩, ⟨chars! "OCLintRuleSet", false⟩] =
      some [chars! "RuleSetTest", chars! "OCLintRuleSet"] := by decide +kernel
    rw [← htd] at hp hn hs' ⊢
    generalize (cmCommands (cmText coreTestLines)).getD [] = cs at hm hcore
    exact named_linked n1 n2 d root _ ht _ _ _ _ _ _ hcore hargs hmem hm hp hn hs'
  · exact named_built n1 d root _ ht _ tests hc hm hp hn hs'

/-! ## Examples -/

/-- The disk of the examples with a category of tests. -/
def testDisk : Disk where
  dir p := decide (p ∈ exampleDirs ++ ["h/../oclint-rules/test/basic".toList])
  file p :=
    if p = "h/../oclint-rules/test/basic/CMakeLists.txt".toList then
      some "BUILD_TEST(Old\n  OldRuleTest.cpp)\nIF (TEST_CUDA)\n  BUILD_TEST(Gpu OldRuleTest.cpp)\nENDIF()\n".toList
    else if p = "h/../oclint-rules/test/basic/OldRuleTest.cpp".toList then some []
    else exampleDisk.file p

/-- Two rules are scaffolded, one of them without a test, ... -/
example : ((configureTests false testDisk (testsPlace "h".toList)).map fun s => (s.tests, s.added)) =
      some ([⟨"Old".toList, ["h/../oclint-rules/test/basic/OldRuleTest.cpp".toList]⟩], ["basic".toList]) ∧
    ((configureTests true (scaffoldAll "h".toList testDisk [{ className := "LongLine".toList },
        { className := "Short".toList, category := "mine".toList, tests := false },
        { className := "Gpu".toList, category := "basic".toList }]).disk
        (testsPlace "h".toList)).map fun s => (s.tests.map (·.name), s.added)) =
      some (["Old".toList, "Gpu".toList, "GpuRuleTest".toList, "LongLineRuleTest".toList],
        ["basic".toList, "custom".toList, "mine".toList]) := by
  decide +kernel

/-- ... and two with tests of the same name in two categories. -/
example : (configureTests false (scaffoldAll "h".toList testDisk [{ className := "LongLine".toList },
      { className := "LongLine".toList, category := "basic".toList }]).disk
      (testsPlace "h".toList)).isNone = true := by
  decide +kernel

theorem testCheckout : Checkout "h".toList testDisk "def IfStmt : StmtNode<Stmt>;\n".toList
    "def Var : DDecl<Named>;\n".toList := by
  exact {
    place := by decide +kernel
    sound := by
      intro p hp
      have key : ∀ p ∈ exampleDirs ++ ["h/../oclint-rules/test/basic".toList], testDisk.file p = none := by
        decide +kernel
      exact key p (of_decide_eq_true hp)
    parents := by
      intro p rest hp
      have key : ∀ q ∈ exampleDirs ++ ["h/../oclint-rules/test/basic".toList], ∀ p ∈ q.inits,
          above p q = true → testDisk.dir p = true := by
        decide +kernel
      exact key _ (of_decide_eq_true hp) p (by rw [List.mem_inits]; exact List.prefix_append _ _)
        ((above_iff _ _).2 (Or.inr ⟨rest, rfl⟩))
    rules := by decide +kernel
    tests := by decide +kernel
    rulesLists := by decide +kernel
    testsLists := by decide +kernel
    template := by intro kind; cases kind <;> decide +kernel
    testTemplate := by decide +kernel
    stmtNodes := by decide +kernel
    declNodes := by decide +kernel }

/-- The hypotheses of `C119_scaffolded` can be satisfied. -/
example : ∃ d' s', scaffoldAll "h".toList testDisk [{ className := "LongLine".toList }] = ⟨d', none⟩ ∧
    configureTests true d' (testsPlace "h".toList) = some s' ∧ s'.tests.length = 3 := by
  obtain ⟨visits, hv, -⟩ := C96_visits_unique "def IfStmt : StmtNode<Stmt>;\n".toList
    "def Var : DDecl<Named>;\n".toList
  have hs : (configureTests true testDisk (testsPlace "h".toList)).isSome = true := by decide +kernel
  obtain ⟨s, hs⟩ := Option.isSome_iff_exists.1 hs
  have hn : (configureTests true testDisk (testsPlace "h".toList)).map (fun s => s.tests.map (·.name)) =
      some ["Old".toList, "Gpu".toList] := by decide +kernel
  rw [hs, Option.map_some, Option.some.injEq] at hn
  have hl : ListedRequest { className := "LongLine".toList } := by
    constructor
    · decide +kernel
    · decide +kernel
    · decide +kernel
    · unfold Braceless; decide +kernel
  obtain ⟨d', h1, h2, -⟩ := C119_scaffolded true _ _ _ _ _ testCheckout hv
    [{ className := "LongLine".toList }]
    (by
      intro r hr
      rw [List.mem_singleton] at hr
      rw [hr]
      exact hl)
    (by
      intro r hr
      rw [List.mem_singleton] at hr
      rw [hr]
      constructor <;> decide +kernel) s hs
    (by
      intro r hr
      rw [List.mem_singleton] at hr
      rw [hr]
      rintro ⟨t, ht⟩
      exact absurd (ht.symm.trans (by decide +kernel : _ = none)) (Option.some_ne_none t))
  obtain ⟨s', h3, h4, -⟩ := h2 ⟨by decide +kernel, by
    intro r hr _ p hp e
    rw [List.mem_singleton] at hr
    have : p.name ∈ s.tests.map (·.name) := List.mem_map_of_mem hp
    rw [hn, e, hr] at this
    exact absurd this (by decide +kernel)⟩
  refine ⟨d', s', h1, h3, ?_⟩
  have hlen : s.tests.length = 2 := by
    have := congrArg List.length hn
    simpa using this
  rw [h4.length_eq]
  simp [hlen]

/-- The disk of the examples with the list of tests of reporters. -/
def reporterTestDisk : Disk where
  dir := exampleDisk.dir
  file p :=
    if p = "h/../oclint-reporters/test/CMakeLists.txt".toList then some (cmText reporterTestLines)
    else if p ∈ shippedReporterTests.map
        fun x => "h/../oclint-reporters/test/".toList ++ x ++ ".cpp".toList then some []
    else exampleDisk.file p

/-- The first request is refused because of its test, the second wants none, the third gets one. -/
example : (configureReporterTests (scaffoldReporters "h".toList reporterTestDisk
      [{ className := "PMD".toList }, { className := "Yaml".toList, tests := false },
        { className := "Toml".toList }]).disk
        (reporterTestsDir "h".toList)).map (fun b => b.map (·.target)) =
    some ["CanaryTest".toList, "TextReporterTest".toList, "HTMLReporterTest".toList,
      "XMLReporterTest".toList, "JSONReporterTest".toList, "PMDReporterTest".toList,
      "XcodeReporterTest".toList, "TomlReporterTest".toList] := by
  decide +kernel

end Oclint
