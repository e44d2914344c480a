import Verif.Lemmas.ScaffoldRun

/-!
# Lemmas about `scaffoldReporter`
-/

namespace Oclint
open Spec

/-! ### Paths -/

section paths
variable (home : Str) (hh : home ≠ [] ∧ home.getLast? ≠ some '/')
include hh

theorem reportersProject_eq : reportersProject home = home ++ "/../oclint-reporters".toList := by
  unfold reportersProject
  rw [pyJoin_eq _ _ hh.1 hh.2 (by decide +kernel)]
  rfl

theorem reportersRoot_eq : reportersRoot home = reportersDir home := by
  unfold reportersRoot reportersDir
  rw [reportersProject_eq home hh, join_literal home _ _ (by decide +kernel) (by decide +kernel) (by decide +kernel)]
  congr 1

theorem reportersTests_eq : reportersTests home = reporterTestsDir home := by
  unfold reportersTests reporterTestsDir
  rw [reportersProject_eq home hh, join_literal home _ _ (by decide +kernel) (by decide +kernel) (by decide +kernel)]
  congr 1

theorem reportersTemplates_eq (name : Str) (hn : name.head? ≠ some '/') :
    pyJoin (reportersTemplates home) name = reporterTemplatePath home name := by
  unfold reportersTemplates
  rw [reportersProject_eq home hh,
    join_literal home _ _ (by decide +kernel) (by decide +kernel) (by decide +kernel),
    join_literal home _ _ (by decide +kernel) (by decide +kernel) hn]
  unfold reporterTemplatePath
  rw [show "/../oclint-reporters/template/".toList =
    "/../oclint-reporters".toList ++ '/' :: "template".toList ++ ['/'] by decide +kernel]
  simp only [List.append_assoc, List.singleton_append]

theorem reportersLists_eq : reportersLists home = listsIn (reportersDir home) := by
  unfold reportersLists
  rw [reportersRoot_eq home hh]
  unfold reportersDir
  rw [join_literal home _ _ (by decide +kernel) (by decide +kernel) (by decide +kernel)]
  unfold listsIn
  rw [List.append_assoc]
  congr 1

theorem reportersTestLists_eq : reportersTestLists home = listsIn (reporterTestsDir home) := by
  unfold reportersTestLists
  rw [reportersTests_eq home hh]
  unfold reporterTestsDir
  rw [join_literal home _ _ (by decide +kernel) (by decide +kernel) (by decide +kernel)]
  unfold listsIn
  rw [List.append_assoc]
  congr 1

theorem reporterPath_eq (cls : Str) (hc : '/' ∉ cls) :
    reporterPath' home cls = reporterSource home cls := by
  unfold reporterPath'
  rw [reportersRoot_eq home hh]
  unfold reporterSource reportersDir
  rw [join_literal home _ _ (by decide +kernel) (by decide +kernel)
    (head_append_ne _ _ hc (by decide +kernel))]
  simp only [List.append_assoc]
  congr 1

theorem reporterTestPath_eq (cls : Str) (hc : '/' ∉ cls) :
    reporterTestPath home cls = reporterTestSource home cls := by
  unfold reporterTestPath
  rw [reportersTests_eq home hh]
  unfold reporterTestSource reporterTestsDir
  rw [join_literal home _ _ (by decide +kernel) (by decide +kernel)
    (head_append_ne _ _ hc (by decide +kernel))]
  simp only [List.append_assoc]
  congr 1

end paths

theorem reporterSource_eq (home cls : Str) :
    reporterSource home cls = reportersDir home ++ '/' :: (cls ++ "Reporter.cpp".toList) := by
  unfold reporterSource
  rw [List.append_assoc, List.append_assoc]
  congr 1

theorem reporterTestSource_eq (home cls : Str) :
    reporterTestSource home cls =
      reporterTestsDir home ++ '/' :: (cls ++ "ReporterTest.cpp".toList) := by
  unfold reporterTestSource
  rw [List.append_assoc, List.append_assoc]
  congr 1

theorem reporters_ne_tests (home x y : Str) : reportersDir home ++ x ≠ reporterTestsDir home ++ y := by
  unfold reportersDir reporterTestsDir
  rw [show "/../oclint-reporters/reporters".toList = chars! "/../oclint-reporters/reporters" from rfl,
    show "/../oclint-reporters/test".toList = chars! "/../oclint-reporters/test" from rfl]
  simp

theorem template_ne_reporters (home x y : Str) :
    reporterTemplatePath home y ≠ reportersDir home ++ x := by
  unfold reportersDir reporterTemplatePath
  rw [show "/../oclint-reporters/reporters".toList = chars! "/../oclint-reporters/reporters" from rfl,
    show "/../oclint-reporters/template/".toList = chars! "/../oclint-reporters/template/" from rfl]
  simp

theorem template_ne_reporterTests (home x y : Str) :
    reporterTemplatePath home y ≠ reporterTestsDir home ++ x := by
  unfold reporterTestsDir reporterTemplatePath
  rw [show "/../oclint-reporters/test".toList = chars! "/../oclint-reporters/test" from rfl,
    show "/../oclint-reporters/template/".toList = chars! "/../oclint-reporters/template/" from rfl]
  simp

/-! ### Templates -/

theorem replaceReporter_line (cls name a b : Str) :
    replaceReporterWildcards (a ++ ['\n'] ++ b) cls name =
      replaceReporterWildcards (a ++ ['\n']) cls name ++ replaceReporterWildcards b cls name := by
  obtain ⟨⟨s, hs⟩, h2⟩ := replace_line "{{REPORTER_CLASS_NAME}}".toList cls (by decide +kernel)
    (by decide +kernel) a b
  unfold replaceReporterWildcards
  rw [h2, hs]
  exact (replace_line _ name (by decide +kernel) (by decide +kernel) s _).2

theorem reporter_fold (template cls name : Str) :
    (pyLines template).foldl (fun out line => out ++ replaceReporterWildcards line cls name) [] =
      replaceReporterWildcards template cls name := by
  have hl := pyLines_linesOf template
  have hf := foldl_lines (fun l => replaceReporterWildcards l cls name) rfl
    (replaceReporter_line cls name) (pyLines template) hl.2.2 []
  rw [hl.1] at hf
  exact hf

theorem reporterName_eq (r : ReporterRequest) :
    nameOrDefault r.name r.className = reporterValues r .name := by
  have hdrop : ∀ s : Str, s.drop 1 = s.tail := fun s => by cases s <;> rfl
  simp only [nameOrDefault, reporterValues]
  rw [hdrop]
  rfl

/-- Writing a source from a template. -/
theorem reporter_copy_step (d : Disk) (dir name tmpl template : Str) (cls rep : Str)
    (hn : '/' ∉ name) (hdir : d.dir dir = true) (hno : d.dir (dir ++ '/' :: name) = false)
    (ht : d.file tmpl = some template) (hne : tmpl ≠ dir ++ '/' :: name) :
    ∃ d', copyReporterTemplate d (dir ++ '/' :: name) tmpl cls rep = ⟨d', none⟩ ∧ d'.dir = d.dir ∧
      d'.file (dir ++ '/' :: name) = some (replaceReporterWildcards template cls rep) ∧
      ∀ p, p ≠ dir ++ '/' :: name → d'.file p = d.file p := by
  have hw : d.writable (dir ++ '/' :: name) = true := by
    unfold Disk.writable
    rw [dirOf_eq _ _ hn, hdir, hno]
    rfl
  refine ⟨(d.put (dir ++ '/' :: name) []).put (dir ++ '/' :: name)
    (replaceReporterWildcards template cls rep), ?_, rfl, put_same _ _ _, fun p hp => ?_⟩
  · unfold copyReporterTemplate Disk.truncate
    rw [if_pos hw]
    simp only [Ran.next]
    rw [put_other _ _ _ _ hne, ht]
    simp only
    rw [reporter_fold]
  · rw [put_other _ _ _ _ hp, put_other _ _ _ _ hp]

theorem reporterStep_eq (cls : Str) :
    "\n".toList ++ ("BUILD_DYNAMIC_REPORTER(".toList ++ cls ++ ")".toList) ++ "\n".toList =
      reporterStep cls := by
  unfold reporterStep inLines
  rw [show "\n".toList = ['\n'] by decide +kernel]
  simp only [List.flatMap_cons, List.flatMap_nil, List.append_nil, List.nil_append,
    List.append_assoc]

theorem reporterTestStep_eq (cls : Str) :
    "\n".toList ++ ("BUILD_TEST(".toList ++ cls ++ "ReporterTest)".toList) ++ "\n".toList =
      reporterTestStep cls := by
  unfold reporterTestStep inLines
  rw [show "\n".toList = ['\n'] by decide +kernel]
  simp only [List.flatMap_cons, List.flatMap_nil, List.append_nil, List.nil_append,
    List.append_assoc]

theorem scaffoldReporter_run (home : Str) (d : Disk) (hc : ReporterCheckout home d)
    (r : ReporterRequest) (hcl : '/' ∉ r.className) (hb : Braceless r.className)
    (h1 : d.dir (reporterSource home r.className) = false)
    (h2 : d.dir (reporterTestSource home r.className) = false)
    (n1 : ¬ Present d (reporterSource home r.className))
    (n2 : r.tests = true → ¬ Present d (reporterTestSource home r.className)) :
    ∃ d', scaffoldReporter home d r = ([], ⟨d', none⟩) ∧ ReporterScaffolded home d r d' := by
  have hh := hc.place
  have none_of : ∀ {p}, ¬ Present d p → d.file p = none := by
    intro p h
    cases e : d.file p with
    | none => rfl
    | some t => exact absurd ⟨t, e⟩ h
  have hsl : '/' ∉ r.className ++ "Reporter.cpp".toList := by
    rw [List.mem_append, not_or]; exact ⟨hcl, by decide +kernel⟩
  have hst : '/' ∉ r.className ++ "ReporterTest.cpp".toList := by
    rw [List.mem_append, not_or]; exact ⟨hcl, by decide +kernel⟩
  have uS := reporterSource_eq home r.className
  have uT := reporterTestSource_eq home r.className
  have nA := reporters_ne_tests home
  have hpre : preValidate home d r.className r.tests = ([], true) := by
    unfold preValidate
    rw [reporterPath_eq home hh _ hcl, reporterTestPath_eq home hh _ hcl, none_of n1]
    cases ht : r.tests with
    | false => simp
    | true => rw [none_of (n2 ht)]; simp
  have fillEq : ∀ (template : Str) (parts : List Part), (∀ p ∈ parts, textOk p) →
      (∀ p ∈ parts, classOrName p) → template = fill (fun f => wildcard (reporterKey f)) parts →
      replaceReporterWildcards template r.className (nameOrDefault r.name r.className) =
        fill (reporterValues r) parts := by
    intro template parts ho hcn e
    rw [e, reporterName_eq]
    exact replaceReporter_fill parts ho hcn (reporterValues r) (noMark_of_braceless _ hb)
  obtain ⟨d1, e1, dir1, g1, f1⟩ := reporter_copy_step d (reportersDir home)
    (r.className ++ "Reporter.cpp".toList) (reporterTemplatePath home "Reporter.tmpl".toList)
    reporterTemplate r.className (nameOrDefault r.name r.className) hsl hc.reporters
    (by rw [← uS]; exact h1) hc.template (template_ne_reporters _ _ _)
  rw [fillEq _ _ reporterParts_ok.1 reporterParts_ok.2 reporterTemplate_eq, ← uS] at g1
  rw [← uS] at e1 f1
  obtain ⟨d2, e2, dir2, g2, f2⟩ := append_step d1 (reportersDir home) "CMakeLists.txt".toList
    (reporterStep r.className) noSlash_name (by rw [dir1]; exact hc.reporters)
    (by rw [dir1]; exact hc.lists)
  rw [← listsIn_eq] at e2 g2 f2
  have hLS : listsIn (reportersDir home) ≠ reporterSource home r.className := by
    rw [uS]; exact lists_ne_source _ _ _ (by decide +kernel)
  have hLT : listsIn (reporterTestsDir home) ≠ reporterTestSource home r.className := by
    rw [uT]; exact lists_ne_source _ _ _ (by decide +kernel)
  have c1 : contents d1 (listsIn (reportersDir home)) = contents d (listsIn (reportersDir home)) := by
    unfold contents; rw [f1 _ hLS]
  rw [c1] at g2
  have g1' : d2.file (reporterSource home r.className) =
      some (fill (reporterValues r) reporterParts) := by rw [f2 _ (Ne.symm hLS), g1]
  have f2' : ∀ p, p ≠ reporterSource home r.className → p ≠ listsIn (reportersDir home) →
      d2.file p = d.file p := fun p ha hb => by rw [f2 p hb, f1 p ha]
  have run : scaffoldReporter home d r = ([],
      if r.tests then scaffoldReporterTest home d2 r.className (nameOrDefault r.name r.className)
      else ⟨d2, none⟩) := by
    unfold scaffoldReporter
    simp only
    rw [hpre]
    simp only [if_true]
    unfold scaffoldReporterFiles
    rw [reporterPath_eq home hh _ hcl, reportersTemplates_eq home hh _ (by decide +kernel), e1]
    simp only [Ran.next]
    rw [reportersLists_eq home hh, reporterStep_eq, e2]
  cases ht : r.tests with
  | false =>
    refine ⟨d2, by rw [run, ht]; rfl, ?_⟩
    exact {
      reporter := g1'
      lists := g2
      test := fun h => by rw [ht] at h; cases h
      testLists := fun h => by rw [ht] at h; cases h
      others := fun p hp _ => by
        simp only [List.mem_cons, List.not_mem_nil, or_false, not_or] at hp
        exact f2' p hp.1 hp.2
      dirs := by rw [dir2, dir1] }
  | true =>
    have tS : ∀ x, reporterTestsDir home ++ x ≠ reporterSource home r.className := by
      intro x; rw [uS]; exact fun e => nA _ _ e.symm
    have tL : ∀ x, reporterTestsDir home ++ x ≠ listsIn (reportersDir home) := by
      intro x; rw [listsIn_eq]; exact fun e => nA _ _ e.symm
    have f2T : ∀ x, d2.file (reporterTestsDir home ++ x) = d.file (reporterTestsDir home ++ x) :=
      fun x => f2' _ (tS x) (tL x)
    obtain ⟨d3, e3, dir3, g3, f3⟩ := reporter_copy_step d2 (reporterTestsDir home)
      (r.className ++ "ReporterTest.cpp".toList)
      (reporterTemplatePath home "ReporterTest.tmpl".toList)
      reporterTestTemplate r.className (nameOrDefault r.name r.className) hst
      (by rw [dir2, dir1]; exact hc.tests)
      (by rw [dir2, dir1, ← uT]; exact h2)
      (by
        rw [f2' _ (by rw [uS]; exact template_ne_reporters _ _ _)
          (by rw [listsIn_eq]; exact template_ne_reporters _ _ _)]
        exact hc.testTemplate)
      (template_ne_reporterTests _ _ _)
    rw [fillEq _ _ reporterTestParts_ok.1 reporterTestParts_ok.2 reporterTestTemplate_eq, ← uT] at g3
    rw [← uT] at e3 f3
    obtain ⟨d4, e4, dir4, g4, f4⟩ := append_step d3 (reporterTestsDir home) "CMakeLists.txt".toList
      (reporterTestStep r.className) noSlash_name (by rw [dir3, dir2, dir1]; exact hc.tests)
      (by rw [dir3, dir2, dir1]; exact hc.testLists)
    rw [← listsIn_eq] at e4 g4 f4
    have c3 : contents d3 (listsIn (reporterTestsDir home)) =
        contents d (listsIn (reporterTestsDir home)) := by
      unfold contents; rw [f3 _ hLT, listsIn_eq, f2T]
    rw [c3] at g4
    have rS : ∀ x, reportersDir home ++ x ≠ reporterTestSource home r.className := by
      intro x; rw [uT]; exact nA _ _
    have rL : ∀ x, reportersDir home ++ x ≠ listsIn (reporterTestsDir home) := by
      intro x; rw [listsIn_eq]; exact nA _ _
    have f4R : ∀ x, d4.file (reportersDir home ++ x) = d2.file (reportersDir home ++ x) :=
      fun x => by rw [f4 _ (rL x), f3 _ (rS x)]
    refine ⟨d4, ?_, ?_⟩
    · rw [run, ht, if_pos rfl]
      unfold scaffoldReporterTest
      rw [reporterTestPath_eq home hh _ hcl, reportersTemplates_eq home hh _ (by decide +kernel), e3]
      simp only [Ran.next]
      rw [reportersTestLists_eq home hh, reporterTestStep_eq, e4]
    · exact {
        reporter := by rw [uS, f4R, ← uS]; exact g1'
        lists := by rw [listsIn_eq, f4R, ← listsIn_eq]; exact g2
        test := fun _ => by rw [f4 _ (Ne.symm hLT)]; exact g3
        testLists := fun _ => g4
        others := fun p hp hq => by
          have hq := hq ht
          simp only [List.mem_cons, List.not_mem_nil, or_false, not_or] at hp hq
          rw [f4 p hq.2, f3 p hq.1, f2' p hp.1 hp.2]
        dirs := by rw [dir4, dir3, dir2, dir1] }

/-! ### Nothing is lost -/

theorem Spec.NothingLost.put_new {d d' : Disk} {lists : List Str} (h : NothingLost d lists d') {p t : Str}
    (hp : d.file p = none) : NothingLost d lists (d'.put p t) := by
  intro q text hq
  obtain ⟨more, h1, h2⟩ := h q text hq
  refine ⟨more, ?_, h2⟩
  rw [put_other _ _ _ _ (by rintro rfl; rw [hp] at hq; cases hq), h1]

theorem Spec.NothingLost.append {d d' : Disk} {lists : List Str} (h : NothingLost d lists d') {p t : Str}
    (hp : p ∈ lists) : NothingLost d lists (d'.append p t).disk := by
  unfold Disk.append
  split
  · intro q text hq
    obtain ⟨more, h1, h2⟩ := h q text hq
    by_cases e : q = p
    · subst e
      refine ⟨more ++ t, ?_, fun hn => absurd hp hn⟩
      rw [put_same]
      simp [Disk.get, h1]
    · exact ⟨more, by rw [put_other _ _ _ _ e, h1], h2⟩
  · exact h

theorem Spec.NothingLost.next {d : Disk} {lists : List Str} {r : Ran} {f : Disk → Ran}
    (h : NothingLost d lists r.disk) (hf : ∀ d', NothingLost d lists d' → NothingLost d lists (f d').disk) :
    NothingLost d lists (r.next f).disk := by
  unfold Ran.next
  split
  · exact hf _ h
  · exact h

theorem Spec.NothingLost.truncate {d d' : Disk} {lists : List Str} (h : NothingLost d lists d') {p : Str}
    (hp : d.file p = none) : NothingLost d lists (d'.truncate p).disk := by
  unfold Disk.truncate
  split
  · exact h.put_new hp
  · exact h

theorem Spec.NothingLost.copyReporter {d d' : Disk} {lists : List Str} (h : NothingLost d lists d')
    {p tmpl cls rep : Str} (hp : d.file p = none) :
    NothingLost d lists (copyReporterTemplate d' p tmpl cls rep).disk := by
  unfold copyReporterTemplate
  refine (h.truncate hp).next fun e he => ?_
  split
  · exact he
  · exact he.put_new hp

theorem Spec.NothingLost.refl (d : Disk) (lists : List Str) : NothingLost d lists d :=
  fun _ text h => ⟨[], by rw [h, List.append_nil], fun _ => rfl⟩

theorem scaffoldReporter_lost (home : Str) (d : Disk) (r : ReporterRequest) :
    NothingLost d [reportersLists home, reportersTestLists home] (scaffoldReporter home d r).2.disk := by
  have h0 := NothingLost.refl d [reportersLists home, reportersTestLists home]
  unfold scaffoldReporter
  simp only
  split
  · next hv =>
    unfold preValidate at hv
    simp only [Bool.not_eq_true', Bool.or_eq_false_iff, Bool.and_eq_false_iff,
      Option.isSome_eq_false_iff, Option.isNone_iff_eq_none] at hv
    refine NothingLost.next ?_ fun e he => ?_
    · unfold scaffoldReporterFiles
      exact (h0.copyReporter hv.1).next fun e he => he.append (by simp)
    · split
      · next ht =>
        unfold scaffoldReporterTest
        rcases hv.2 with h | h
        · rw [ht] at h; cases h
        · exact (he.copyReporter h).next fun e he => he.append (by simp)
      · exact he
  · exact h0

theorem scaffoldReporter_complaints (home : Str) (hh : home ≠ [] ∧ home.getLast? ≠ some '/') (d : Disk)
    (r : ReporterRequest) (hcl : '/' ∉ r.className) :
    reporterComplaints home d r (scaffoldReporter home d r).1 ∧
      ((scaffoldReporter home d r).1 ≠ [] → (scaffoldReporter home d r).2 = ⟨d, none⟩) := by
  have hne : "Error: ".toList ++ r.className ++ "Reporter.cpp already exists.".toList ≠
      "Error: ".toList ++ r.className ++ "ReporterTest.cpp already exists.".toList := by
    intro e
    rw [List.append_cancel_left_eq] at e
    exact absurd e (by decide +kernel)
  have some_iff : ∀ p, (d.file p).isSome = true ↔ Present d p := by
    intro p
    rw [Option.isSome_iff_exists]
    rfl
  have e1 : (scaffoldReporter home d r).1 = (preValidate home d r.className r.tests).1 := by
    unfold scaffoldReporter
    simp only
    split <;> rfl
  have e2 : (preValidate home d r.className r.tests).2 = false →
      (scaffoldReporter home d r).2 = ⟨d, none⟩ := by
    intro h
    unfold scaffoldReporter
    simp only
    rw [h]
    rfl
  rw [e1]
  unfold preValidate at e2 ⊢
  rw [reporterPath_eq home hh _ hcl, reporterTestPath_eq home hh _ hcl] at *
  unfold reporterComplaints
  rw [← some_iff, ← some_iff]
  generalize "Error: ".toList ++ r.className ++ "Reporter.cpp already exists.".toList = m1 at *
  generalize "Error: ".toList ++ r.className ++ "ReporterTest.cpp already exists.".toList = m2 at *
  generalize (d.file (reporterSource home r.className)).isSome = b1 at *
  generalize (d.file (reporterTestSource home r.className)).isSome = b2 at *
  generalize r.tests = b3 at *
  cases b1 <;> cases b2 <;> cases b3 <;> simp_all

end Oclint
