import Verif.Tests.Support

/-!
# Tests of the repository, convention

Written by `tools/repotests.py`; see `Verif/Tests/Support.lean`.
-/

namespace Oclint

set_option linter.all false

/-! ## `oclint-rules/test/convention/AvoidBranchingStatementAsLastInLoopRuleTest.cpp` -/

-- CleanCode
example : ((overRoots (reportOver branchingLastVisit)
    [(.compound [])]).isEmpty) = true := by decide +kernel

-- EmptyForeachBreak
example : ((overRoots (reportOver branchingLastVisit)
    [(.compound [(.declS [(.varD ⟨0, "collection".toList⟩ none)]), (.forIn (.declS [(.varD ⟨1, "it".toList⟩ none)]) (.cast .implicit .lvalueToRvalue (.declRef ⟨0, "collection".toList⟩)) (.compound []))])]).isEmpty) = true := by decide +kernel

-- EmptyForBreak
example : ((overRoots (reportOver branchingLastVisit)
    [(.compound [(.forS (some (.declS [(.varD ⟨0, "i".toList⟩ (some (.intLit 0)))])) (some (.binary .lt (.cast .implicit .lvalueToRvalue (.declRef ⟨0, "i".toList⟩)) (.cast .implicit .lvalueToRvalue (.declRef ⟨1, "b".toList⟩)))) (some (.unary .postInc (.declRef ⟨0, "i".toList⟩))) (.compound []))])]).isEmpty) = true := by decide +kernel

-- EmptyWhileBreak
example : ((overRoots (reportOver branchingLastVisit)
    [(.compound [(.whileS (.binary .gt (.cast .implicit .lvalueToRvalue (.declRef ⟨0, "b".toList⟩)) (.intLit 0)) (.compound []))])]).isEmpty) = true := by decide +kernel

-- EmptyDoWhileBreak
example : ((overRoots (reportOver branchingLastVisit)
    [(.compound [(.doS (.compound []) (.binary .gt (.cast .implicit .lvalueToRvalue (.declRef ⟨0, "b".toList⟩)) (.intLit 0)))])]).isEmpty) = true := by decide +kernel

-- GoodForeachBreak
example : ((overRoots (reportOver branchingLastVisit)
    [(.compound [(.declS [(.varD ⟨0, "collection".toList⟩ none)]), (.forIn (.declS [(.varD ⟨1, "it".toList⟩ none)]) (.cast .implicit .lvalueToRvalue (.declRef ⟨0, "collection".toList⟩)) (.compound [(.ifS none (.cast .implicit .lvalueToRvalue (.declRef ⟨2, "b".toList⟩)) (.compound [.breakS]) none)]))])]).isEmpty) = true := by decide +kernel

-- GoodForeachContinue
example : ((overRoots (reportOver branchingLastVisit)
    [(.compound [(.declS [(.varD ⟨0, "collection".toList⟩ none)]), (.forIn (.declS [(.varD ⟨1, "it".toList⟩ none)]) (.cast .implicit .lvalueToRvalue (.declRef ⟨0, "collection".toList⟩)) (.compound [(.ifS none (.cast .implicit .lvalueToRvalue (.declRef ⟨2, "b".toList⟩)) (.compound [.continueS]) none)]))])]).isEmpty) = true := by decide +kernel

-- GoodForeachReturn
example : ((overRoots (reportOver branchingLastVisit)
    [(.compound [(.declS [(.varD ⟨0, "collection".toList⟩ none)]), (.forIn (.declS [(.varD ⟨1, "it".toList⟩ none)]) (.cast .implicit .lvalueToRvalue (.declRef ⟨0, "collection".toList⟩)) (.compound [(.ifS none (.cast .implicit .lvalueToRvalue (.declRef ⟨2, "b".toList⟩)) (.compound [(.returnS none)]) none)]))])]).isEmpty) = true := by decide +kernel

-- GoodForBreak
example : ((overRoots (reportOver branchingLastVisit)
    [(.compound [(.forS (some (.declS [(.varD ⟨0, "i".toList⟩ (some (.intLit 0)))])) (some (.binary .lt (.cast .implicit .lvalueToRvalue (.declRef ⟨0, "i".toList⟩)) (.cast .implicit .lvalueToRvalue (.declRef ⟨1, "b".toList⟩)))) (some (.unary .postInc (.declRef ⟨0, "i".toList⟩))) (.compound [(.ifS none (.cast .implicit .lvalueToRvalue (.declRef ⟨1, "b".toList⟩)) (.compound [.breakS]) none)]))])]).isEmpty) = true := by decide +kernel

-- GoodForContinue
example : ((overRoots (reportOver branchingLastVisit)
    [(.compound [(.forS (some (.declS [(.varD ⟨0, "i".toList⟩ (some (.intLit 0)))])) (some (.binary .lt (.cast .implicit .lvalueToRvalue (.declRef ⟨0, "i".toList⟩)) (.cast .implicit .lvalueToRvalue (.declRef ⟨1, "b".toList⟩)))) (some (.unary .postInc (.declRef ⟨0, "i".toList⟩))) (.compound [(.ifS none (.cast .implicit .lvalueToRvalue (.declRef ⟨1, "b".toList⟩)) (.compound [.continueS]) none)]))])]).isEmpty) = true := by decide +kernel

-- GoodForReturn
example : ((overRoots (reportOver branchingLastVisit)
    [(.compound [(.forS (some (.declS [(.varD ⟨0, "i".toList⟩ (some (.intLit 0)))])) (some (.binary .lt (.cast .implicit .lvalueToRvalue (.declRef ⟨0, "i".toList⟩)) (.cast .implicit .lvalueToRvalue (.declRef ⟨1, "b".toList⟩)))) (some (.unary .postInc (.declRef ⟨0, "i".toList⟩))) (.compound [(.ifS none (.cast .implicit .lvalueToRvalue (.declRef ⟨1, "b".toList⟩)) (.compound [(.returnS none)]) none)]))])]).isEmpty) = true := by decide +kernel

-- GoodWhileBreak
example : ((overRoots (reportOver branchingLastVisit)
    [(.compound [(.whileS (.binary .gt (.cast .implicit .lvalueToRvalue (.declRef ⟨0, "b".toList⟩)) (.intLit 0)) (.compound [(.ifS none (.cast .implicit .lvalueToRvalue (.declRef ⟨0, "b".toList⟩)) (.compound [.breakS]) none)]))])]).isEmpty) = true := by decide +kernel

-- GoodWhileContinue
example : ((overRoots (reportOver branchingLastVisit)
    [(.compound [(.whileS (.binary .gt (.cast .implicit .lvalueToRvalue (.declRef ⟨0, "b".toList⟩)) (.intLit 0)) (.compound [(.ifS none (.cast .implicit .lvalueToRvalue (.declRef ⟨0, "b".toList⟩)) (.compound [.continueS]) none)]))])]).isEmpty) = true := by decide +kernel

-- GoodWhileReturn
example : ((overRoots (reportOver branchingLastVisit)
    [(.compound [(.whileS (.binary .gt (.cast .implicit .lvalueToRvalue (.declRef ⟨0, "b".toList⟩)) (.intLit 0)) (.compound [(.ifS none (.cast .implicit .lvalueToRvalue (.declRef ⟨0, "b".toList⟩)) (.compound [(.returnS none)]) none)]))])]).isEmpty) = true := by decide +kernel

-- GoodDoWhileBreak
example : ((overRoots (reportOver branchingLastVisit)
    [(.compound [(.doS (.compound [(.ifS none (.cast .implicit .lvalueToRvalue (.declRef ⟨0, "b".toList⟩)) (.compound [.breakS]) none)]) (.binary .gt (.cast .implicit .lvalueToRvalue (.declRef ⟨0, "b".toList⟩)) (.intLit 0)))])]).isEmpty) = true := by decide +kernel

-- GoodDoWhileContinue
example : ((overRoots (reportOver branchingLastVisit)
    [(.compound [(.doS (.compound [(.ifS none (.cast .implicit .lvalueToRvalue (.declRef ⟨0, "b".toList⟩)) (.compound [.continueS]) none)]) (.binary .gt (.cast .implicit .lvalueToRvalue (.declRef ⟨0, "b".toList⟩)) (.intLit 0)))])]).isEmpty) = true := by decide +kernel

-- GoodDoWhileReturn
example : ((overRoots (reportOver branchingLastVisit)
    [(.compound [(.doS (.compound [(.ifS none (.cast .implicit .lvalueToRvalue (.declRef ⟨0, "b".toList⟩)) (.compound [(.returnS none)]) none)]) (.binary .gt (.cast .implicit .lvalueToRvalue (.declRef ⟨0, "b".toList⟩)) (.intLit 0)))])]).isEmpty) = true := by decide +kernel

-- BadForeachBreak
example : (reportedAt 0 (overRoots (reportOver branchingLastVisit)
    [(.compound [(.declS [(.varD ⟨0, "collection".toList⟩ none)]), (.forIn (.declS [(.varD ⟨1, "it".toList⟩ none)]) (.cast .implicit .lvalueToRvalue (.declRef ⟨0, "collection".toList⟩)) (.compound [.breakS]))])])
    [.breakS]) = true := by decide +kernel

-- BadForeachContinue
example : (reportedAt 0 (overRoots (reportOver branchingLastVisit)
    [(.compound [(.declS [(.varD ⟨0, "collection".toList⟩ none)]), (.forIn (.declS [(.varD ⟨1, "it".toList⟩ none)]) (.cast .implicit .lvalueToRvalue (.declRef ⟨0, "collection".toList⟩)) (.compound [.continueS]))])])
    [.continueS]) = true := by decide +kernel

-- BadForeachReturn
example : (reportedAt 0 (overRoots (reportOver branchingLastVisit)
    [(.compound [(.declS [(.varD ⟨0, "collection".toList⟩ none)]), (.forIn (.declS [(.varD ⟨1, "it".toList⟩ none)]) (.cast .implicit .lvalueToRvalue (.declRef ⟨0, "collection".toList⟩)) (.compound [(.returnS none)]))])])
    [(.returnS none)]) = true := by decide +kernel

-- BadForBreak
example : (reportedAt 0 (overRoots (reportOver branchingLastVisit)
    [(.compound [(.forS (some (.declS [(.varD ⟨0, "i".toList⟩ (some (.intLit 0)))])) (some (.binary .lt (.cast .implicit .lvalueToRvalue (.declRef ⟨0, "i".toList⟩)) (.cast .implicit .lvalueToRvalue (.declRef ⟨1, "b".toList⟩)))) (some (.unary .postInc (.declRef ⟨0, "i".toList⟩))) (.compound [.breakS]))])])
    [.breakS]) = true := by decide +kernel

-- BadForContinue
example : (reportedAt 0 (overRoots (reportOver branchingLastVisit)
    [(.compound [(.forS (some (.declS [(.varD ⟨0, "i".toList⟩ (some (.intLit 0)))])) (some (.binary .lt (.cast .implicit .lvalueToRvalue (.declRef ⟨0, "i".toList⟩)) (.cast .implicit .lvalueToRvalue (.declRef ⟨1, "b".toList⟩)))) (some (.unary .postInc (.declRef ⟨0, "i".toList⟩))) (.compound [.continueS]))])])
    [.continueS]) = true := by decide +kernel

-- BadForReturn
example : (reportedAt 0 (overRoots (reportOver branchingLastVisit)
    [(.compound [(.forS (some (.declS [(.varD ⟨0, "i".toList⟩ (some (.intLit 0)))])) (some (.binary .lt (.cast .implicit .lvalueToRvalue (.declRef ⟨0, "i".toList⟩)) (.cast .implicit .lvalueToRvalue (.declRef ⟨1, "b".toList⟩)))) (some (.unary .postInc (.declRef ⟨0, "i".toList⟩))) (.compound [(.returnS none)]))])])
    [(.returnS none)]) = true := by decide +kernel

-- BadWhileBreak
example : (reportedAt 0 (overRoots (reportOver branchingLastVisit)
    [(.compound [(.whileS (.binary .gt (.cast .implicit .lvalueToRvalue (.declRef ⟨0, "b".toList⟩)) (.intLit 0)) (.compound [.breakS]))])])
    [.breakS]) = true := by decide +kernel

-- BadWhileContinue
example : (reportedAt 0 (overRoots (reportOver branchingLastVisit)
    [(.compound [(.whileS (.binary .gt (.cast .implicit .lvalueToRvalue (.declRef ⟨0, "b".toList⟩)) (.intLit 0)) (.compound [.continueS]))])])
    [.continueS]) = true := by decide +kernel

-- BadWhileReturn
example : (reportedAt 0 (overRoots (reportOver branchingLastVisit)
    [(.compound [(.whileS (.binary .gt (.cast .implicit .lvalueToRvalue (.declRef ⟨0, "b".toList⟩)) (.intLit 0)) (.compound [(.returnS none)]))])])
    [(.returnS none)]) = true := by decide +kernel

-- BadDoWhileBreak
example : (reportedAt 0 (overRoots (reportOver branchingLastVisit)
    [(.compound [(.doS (.compound [.breakS]) (.binary .gt (.cast .implicit .lvalueToRvalue (.declRef ⟨0, "b".toList⟩)) (.intLit 0)))])])
    [.breakS]) = true := by decide +kernel

-- BadDoWhileContinue
example : (reportedAt 0 (overRoots (reportOver branchingLastVisit)
    [(.compound [(.doS (.compound [.continueS]) (.binary .gt (.cast .implicit .lvalueToRvalue (.declRef ⟨0, "b".toList⟩)) (.intLit 0)))])])
    [.continueS]) = true := by decide +kernel

-- BadDoWhileReturn
example : (reportedAt 0 (overRoots (reportOver branchingLastVisit)
    [(.compound [(.doS (.compound [(.returnS none)]) (.binary .gt (.cast .implicit .lvalueToRvalue (.declRef ⟨0, "b".toList⟩)) (.intLit 0)))])])
    [(.returnS none)]) = true := by decide +kernel

/-! ## `oclint-rules/test/convention/BaseClassDestructorShouldBeVirtualOrProtectedRuleTest.cpp` -/

-- VirtualBaseDestructor
example : (((([(.mk "Base".toList true true (some ⟨true, .pub⟩) .nil),
      (.mk "C".toList true true (some ⟨true, .pub⟩) (.base .pub (.mk "Base".toList true true (some ⟨true, .pub⟩) .nil) .nil))] : List CxxClass).flatMap baseDestructorVisit).map (fun r => (r.1.name, r.2))).isEmpty) = true := by decide +kernel

-- ProtectedBaseDestructor
example : (((([(.mk "Base".toList true false (some ⟨false, .prot⟩) .nil),
      (.mk "C".toList true false (some ⟨false, .pub⟩) (.base .pub (.mk "Base".toList true false (some ⟨false, .prot⟩) .nil) .nil))] : List CxxClass).flatMap baseDestructorVisit).map (fun r => (r.1.name, r.2))).isEmpty) = true := by decide +kernel

-- PublicBaseDestructor
example : (sameReports ((([(.mk "Base".toList true false (some ⟨false, .pub⟩) .nil),
      (.mk "C".toList true true (some ⟨true, .priv⟩) (.base .pub (.mk "Base".toList true false (some ⟨false, .pub⟩) .nil) .nil))] : List CxxClass).flatMap baseDestructorVisit).map (fun r => (r.1.name, r.2)))
    [("Base".toList, "~Base() should be protected or virtual according to class C".toList)]) = true := by decide +kernel

-- PublicImplicitBaseDestructor
example : (sameReports ((([(.mk "Base".toList true false none .nil),
      (.mk "C".toList true true (some ⟨true, .priv⟩) (.base .pub (.mk "Base".toList true false none .nil) .nil))] : List CxxClass).flatMap baseDestructorVisit).map (fun r => (r.1.name, r.2)))
    [("Base".toList, "~Base() should be protected or virtual according to class C".toList)]) = true := by decide +kernel

-- NotVirtualChildClass
example : (((([(.mk "Base".toList true false (some ⟨false, .pub⟩) .nil),
      (.mk "C".toList true false (some ⟨false, .pub⟩) (.base .pub (.mk "Base".toList true false (some ⟨false, .pub⟩) .nil) .nil))] : List CxxClass).flatMap baseDestructorVisit).map (fun r => (r.1.name, r.2))).isEmpty) = true := by decide +kernel

-- ReportOnlyOnce
example : (sameReports ((([(.mk "Base".toList true false (some ⟨false, .pub⟩) .nil),
      (.mk "Intermediate".toList true true (some ⟨true, .pub⟩) (.base .pub (.mk "Base".toList true false (some ⟨false, .pub⟩) .nil) .nil)),
      (.mk "Child".toList true true (some ⟨true, .pub⟩) (.base .pub (.mk "Intermediate".toList true true (some ⟨true, .pub⟩) (.base .pub (.mk "Base".toList true false (some ⟨false, .pub⟩) .nil) .nil)) .nil))] : List CxxClass).flatMap baseDestructorVisit).map (fun r => (r.1.name, r.2)))
    [("Base".toList, "~Base() should be protected or virtual according to class Intermediate".toList)]) = true := by decide +kernel

-- SuccessiveInheritance
example : (sameReports ((([(.mk "Base".toList true false none .nil),
      (.mk "Intermediate".toList true false none (.base .pub (.mk "Base".toList true false none .nil) .nil)),
      (.mk "Child".toList true true (some ⟨true, .pub⟩) (.base .pub (.mk "Intermediate".toList true false none (.base .pub (.mk "Base".toList true false none .nil) .nil)) .nil))] : List CxxClass).flatMap baseDestructorVisit).map (fun r => (r.1.name, r.2)))
    [("Base".toList, "~Base() should be protected or virtual according to class Child".toList), ("Intermediate".toList, "~Intermediate() should be protected or virtual according to class Child".toList)]) = true := by decide +kernel

-- MultiplePublicBaseClasses
example : (sameReports ((([(.mk "Base1".toList true false none .nil),
      (.mk "Base2".toList true false none .nil),
      (.mk "C".toList true true (some ⟨true, .priv⟩) (.base .pub (.mk "Base1".toList true false none .nil) (.base .pub (.mk "Base2".toList true false none .nil) .nil)))] : List CxxClass).flatMap baseDestructorVisit).map (fun r => (r.1.name, r.2)))
    [("Base1".toList, "~Base1() should be protected or virtual according to class C".toList), ("Base2".toList, "~Base2() should be protected or virtual according to class C".toList)]) = true := by decide +kernel

-- DiamondBaseClasses
example : (sameReports ((([(.mk "Base".toList true false (some ⟨false, .pub⟩) .nil),
      (.mk "Left".toList true false (some ⟨false, .pub⟩) (.base .pub (.mk "Base".toList true false (some ⟨false, .pub⟩) .nil) .nil)),
      (.mk "Right".toList true false (some ⟨false, .pub⟩) (.base .pub (.mk "Base".toList true false (some ⟨false, .pub⟩) .nil) .nil)),
      (.mk "C".toList true true (some ⟨true, .priv⟩) (.base .pub (.mk "Left".toList true false (some ⟨false, .pub⟩) (.base .pub (.mk "Base".toList true false (some ⟨false, .pub⟩) .nil) .nil)) (.base .pub (.mk "Right".toList true false (some ⟨false, .pub⟩) (.base .pub (.mk "Base".toList true false (some ⟨false, .pub⟩) .nil) .nil)) .nil)))] : List CxxClass).flatMap baseDestructorVisit).map (fun r => (r.1.name, r.2)))
    [("Base".toList, "~Base() should be protected or virtual according to class C".toList), ("Base".toList, "~Base() should be protected or virtual according to class C".toList), ("Left".toList, "~Left() should be protected or virtual according to class C".toList), ("Right".toList, "~Right() should be protected or virtual according to class C".toList)]) = true := by decide +kernel

-- MultipleKindBaseClasses
example : (sameReports ((([(.mk "PublicBase".toList true false none .nil),
      (.mk "ProtectedBase".toList true false none .nil),
      (.mk "PrivatedBase".toList true false none .nil),
      (.mk "PublicVBase".toList true false none .nil),
      (.mk "ProtectedVBase".toList true false none .nil),
      (.mk "PrivatedVBase".toList true false none .nil),
      (.mk "C".toList true true (some ⟨true, .priv⟩) (.base .pub (.mk "PublicBase".toList true false none .nil) (.base .prot (.mk "ProtectedBase".toList true false none .nil) (.base .priv (.mk "PrivatedBase".toList true false none .nil) (.base .pub (.mk "PublicVBase".toList true false none .nil) (.base .prot (.mk "ProtectedVBase".toList true false none .nil) (.base .priv (.mk "PrivatedVBase".toList true false none .nil) .nil)))))))] : List CxxClass).flatMap baseDestructorVisit).map (fun r => (r.1.name, r.2)))
    [("PublicBase".toList, "~PublicBase() should be protected or virtual according to class C".toList), ("PublicVBase".toList, "~PublicVBase() should be protected or virtual according to class C".toList)]) = true := by decide +kernel

-- SkipCheckingOnForwardDeclarations
example : (((([(.mk "aa".toList false false none .nil)] : List CxxClass).flatMap baseDestructorVisit).map (fun r => (r.1.name, r.2))).isEmpty) = true := by decide +kernel

/-! ## `oclint-rules/test/convention/CoveredSwitchStatementsDontNeedDefaultRuleTest.cpp` -/

-- SwitchHasDefaultButNotCovered
example : ((overRoots (reportOver coveredSwitchVisit)
    [(.otherE [(.intLit 0)]),
    (.otherE [(.intLit 1)]),
    (.otherE [(.intLit 2)]),
    (.compound [(.switchS false (.cast .implicit .other (.cast .implicit .lvalueToRvalue (.declRef ⟨0, "a".toList⟩))) (.compound [(.caseS (.cast .implicit .other (.otherE [(.declRef ⟨1, "value1".toList⟩)])) .breakS), (.caseS (.cast .implicit .other (.otherE [(.declRef ⟨2, "value2".toList⟩)])) .breakS), (.defaultS .breakS)]))])]).isEmpty) = true := by decide +kernel

-- SwitchHasDefaultButCovered
example : (reportedAt 0 (overRoots (reportOver coveredSwitchVisit)
    [(.otherE [(.intLit 0)]),
    (.otherE [(.intLit 1)]),
    (.compound [(.switchS true (.cast .implicit .other (.cast .implicit .lvalueToRvalue (.declRef ⟨0, "a".toList⟩))) (.compound [(.caseS (.cast .implicit .other (.otherE [(.declRef ⟨1, "value1".toList⟩)])) .breakS), (.caseS (.cast .implicit .other (.otherE [(.declRef ⟨2, "value2".toList⟩)])) .breakS), (.defaultS .breakS)]))])])
    [(.switchS true (.cast .implicit .other (.cast .implicit .lvalueToRvalue (.declRef ⟨0, "a".toList⟩))) (.compound [(.caseS (.cast .implicit .other (.otherE [(.declRef ⟨1, "value1".toList⟩)])) .breakS), (.caseS (.cast .implicit .other (.otherE [(.declRef ⟨2, "value2".toList⟩)])) .breakS), (.defaultS .breakS)]))]) = true := by decide +kernel

-- SwitchNoDefaultButCovered
example : ((overRoots (reportOver coveredSwitchVisit)
    [(.otherE [(.intLit 0)]),
    (.otherE [(.intLit 1)]),
    (.compound [(.switchS true (.cast .implicit .other (.cast .implicit .lvalueToRvalue (.declRef ⟨0, "a".toList⟩))) (.compound [(.caseS (.cast .implicit .other (.otherE [(.declRef ⟨1, "value1".toList⟩)])) .breakS), (.caseS (.cast .implicit .other (.otherE [(.declRef ⟨2, "value2".toList⟩)])) .breakS)]))])]).isEmpty) = true := by decide +kernel

/-! ## `oclint-rules/test/convention/DefaultLabelNotLastInSwitchStatementRuleTest.cpp` -/

-- DefaultIsLast
example : ((overRoots (reportOver defaultNotLastVisit)
    [(.compound [(.switchS false (.cast .implicit .lvalueToRvalue (.declRef ⟨0, "a".toList⟩)) (.compound [(.caseS (.otherE [(.intLit 1)]) .breakS), (.defaultS .breakS)]))])]).isEmpty) = true := by decide +kernel

-- DefaultInTheMiddle
example : (reportedAt 0 (overRoots (reportOver defaultNotLastVisit)
    [(.compound [(.switchS false (.cast .implicit .lvalueToRvalue (.declRef ⟨0, "a".toList⟩)) (.compound [(.caseS (.otherE [(.intLit 1)]) .breakS), (.defaultS .breakS), (.caseS (.otherE [(.intLit 2)]) .breakS)]))])])
    [(.defaultS .breakS)]) = true := by decide +kernel

-- SwitchNoDefault
example : ((overRoots (reportOver defaultNotLastVisit)
    [(.compound [(.switchS false (.cast .implicit .lvalueToRvalue (.declRef ⟨0, "a".toList⟩)) (.compound [(.caseS (.otherE [(.intLit 1)]) .breakS), (.caseS (.otherE [(.intLit 2)]) .breakS)]))])]).isEmpty) = true := by decide +kernel

/-! ## `oclint-rules/test/convention/DestructorOfVirtualClassRuleTest.cpp` -/

-- NonVirtualClass
example : ((taggedReports (fun c => (virtualClassVisit c).map Prod.snd)
    ([(.mk "C".toList true false (some ⟨false, .pub⟩) .nil)] : List CxxClass)).isEmpty) = true := by decide +kernel

-- VirtualDestructor
example : ((taggedReports (fun c => (virtualClassVisit c).map Prod.snd)
    ([(.mk "C".toList true true (some ⟨true, .pub⟩) .nil)] : List CxxClass)).isEmpty) = true := by decide +kernel

-- NonVirtualDestructor
example : (taggedAll (taggedReports (fun c => (virtualClassVisit c).map Prod.snd)
    ([(.mk "C".toList true true (some ⟨false, .pub⟩) .nil)] : List CxxClass))
    [([0], "class C should have a virtual destructor ~C()".toList)]) = true := by decide +kernel

-- NoDestructor
example : (taggedAll (taggedReports (fun c => (virtualClassVisit c).map Prod.snd)
    ([(.mk "C".toList true true (some ⟨false, .pub⟩) .nil)] : List CxxClass))
    [([0], "class C should have a virtual destructor ~C()".toList)]) = true := by decide +kernel

-- BrokenDerivatedFromBrokenVirtualClass
example : (taggedAll (taggedReports (fun c => (virtualClassVisit c).map Prod.snd)
    ([(.mk "Base".toList true true (some ⟨false, .pub⟩) .nil),
      (.mk "C".toList true true (some ⟨false, .pub⟩) (.base .pub (.mk "Base".toList true true (some ⟨false, .pub⟩) .nil) .nil))] : List CxxClass))
    [([0], "class Base should have a virtual destructor ~Base()".toList), ([1], "class C should have a virtual destructor ~C()".toList)]) = true := by decide +kernel

-- FixedDerivatedFromBrokenVirtualClass
example : (taggedAll (taggedReports (fun c => (virtualClassVisit c).map Prod.snd)
    ([(.mk "Base".toList true true (some ⟨false, .pub⟩) .nil),
      (.mk "C".toList true true (some ⟨true, .pub⟩) (.base .pub (.mk "Base".toList true true (some ⟨false, .pub⟩) .nil) .nil))] : List CxxClass))
    [([0], "class Base should have a virtual destructor ~Base()".toList)]) = true := by decide +kernel

-- ImplicitVirtualDestructor
example : ((taggedReports (fun c => (virtualClassVisit c).map Prod.snd)
    ([(.mk "Base".toList true true (some ⟨true, .pub⟩) .nil),
      (.mk "C".toList true true (some ⟨true, .pub⟩) (.base .pub (.mk "Base".toList true true (some ⟨true, .pub⟩) .nil) .nil))] : List CxxClass)).isEmpty) = true := by decide +kernel

/-! ## `oclint-rules/test/convention/InvertedLogicRuleTest.cpp` -/

-- IfElseInCorrectOrder
example : ((overRoots (reportOver invertedLogicVisit)
    [(.compound [(.declS [(.varD ⟨0, "i".toList⟩ none)]), (.ifS none (.intLit 1) (.compound [(.binary .assign (.declRef ⟨0, "i".toList⟩) (.intLit 1))]) (some (.compound [(.binary .assign (.declRef ⟨0, "i".toList⟩) (.intLit 0))])))])]).isEmpty) = true := by decide +kernel

-- IfLogicalNotUnaryOperator
example : (reportedAt 0 (overRoots (reportOver invertedLogicVisit)
    [(.compound [(.declS [(.varD ⟨0, "i".toList⟩ none)]), (.ifS none (.unary .lnot (.intLit 1)) (.compound [(.binary .assign (.declRef ⟨0, "i".toList⟩) (.intLit 1))]) (some (.compound [(.binary .assign (.declRef ⟨0, "i".toList⟩) (.intLit 0))])))])])
    [(.unary .lnot (.intLit 1))]) = true := by decide +kernel

-- IfNotEqualBinaryOperator
example : (reportedAt 0 (overRoots (reportOver invertedLogicVisit)
    [(.compound [(.declS [(.varD ⟨0, "i".toList⟩ none)]), (.ifS none (.binary .ne (.intLit 1) (.intLit 0)) (.compound [(.binary .assign (.declRef ⟨0, "i".toList⟩) (.intLit 1))]) (some (.compound [(.binary .assign (.declRef ⟨0, "i".toList⟩) (.intLit 0))])))])])
    [(.binary .ne (.intLit 1) (.intLit 0))]) = true := by decide +kernel

-- IfNegativeConditionWithNoElseBlockIsFine
example : ((overRoots (reportOver invertedLogicVisit)
    [(.compound [(.declS [(.varD ⟨0, "i".toList⟩ none)]), (.ifS none (.unary .lnot (.intLit 1)) (.compound [(.binary .assign (.declRef ⟨0, "i".toList⟩) (.intLit 1))]) none)])]).isEmpty) = true := by decide +kernel

-- ConditionalOperatorCorrectOrder
example : ((overRoots (reportOver invertedLogicVisit)
    [(.compound [(.returnS (some (.condOp (.binary .eq (.cast .implicit .lvalueToRvalue (.declRef ⟨0, "i".toList⟩)) (.intLit 1)) (.intLit 2) (.intLit 3))))])]).isEmpty) = true := by decide +kernel

-- ConditionalOperatorCorrectOrder
example : ((overRoots (reportOver invertedLogicVisit)
    [(.compound [(.returnS (some (.condOp (.cast .implicit .lvalueToRvalue (.declRef ⟨0, "i".toList⟩)) (.intLit 2) (.intLit 3))))])]).isEmpty) = true := by decide +kernel

-- ConditionalOperatorLogicalNotUnaryOperator
example : (reportedAt 0 (overRoots (reportOver invertedLogicVisit)
    [(.compound [(.returnS (some (.condOp (.unary .lnot (.cast .implicit .lvalueToRvalue (.declRef ⟨0, "i".toList⟩))) (.intLit 2) (.intLit 3))))])])
    [(.unary .lnot (.cast .implicit .lvalueToRvalue (.declRef ⟨0, "i".toList⟩)))]) = true := by decide +kernel

-- ConditionalOperatorNotEqualBinaryOperator
example : (reportedAt 0 (overRoots (reportOver invertedLogicVisit)
    [(.compound [(.returnS (some (.condOp (.binary .ne (.cast .implicit .lvalueToRvalue (.declRef ⟨0, "i".toList⟩)) (.intLit 0)) (.intLit 3) (.intLit 2))))])])
    [(.binary .ne (.cast .implicit .lvalueToRvalue (.declRef ⟨0, "i".toList⟩)) (.intLit 0))]) = true := by decide +kernel

/-! ## `oclint-rules/test/convention/MissingBreakInSwitchStatementRuleTest.cpp` -/

-- CasesHaveBreaks
example : ((overRoots (reportOver missingBreakVisit)
    [(.compound [(.switchS false (.cast .implicit .lvalueToRvalue (.declRef ⟨0, "a".toList⟩)) (.compound [(.caseS (.otherE [(.intLit 1)]) .breakS), (.caseS (.otherE [(.intLit 2)]) .breakS), (.caseS (.otherE [(.intLit 3)]) .breakS), (.caseS (.otherE [(.intLit 4)]) .breakS)]))])]).isEmpty) = true := by decide +kernel

-- OneCaseWithBreak
example : ((overRoots (reportOver missingBreakVisit)
    [(.compound [(.switchS false (.cast .implicit .lvalueToRvalue (.declRef ⟨0, "a".toList⟩)) (.compound [(.caseS (.otherE [(.intLit 1)]) (.call (.cast .implicit .other (.declRef ⟨1, "m".toList⟩)) [])), .breakS]))])]).isEmpty) = true := by decide +kernel

-- OneCaseHasNoBreak
example : (reportedAt 0 (overRoots (reportOver missingBreakVisit)
    [(.compound [(.switchS false (.cast .implicit .lvalueToRvalue (.declRef ⟨0, "a".toList⟩)) (.compound [(.caseS (.otherE [(.intLit 1)]) (.call (.cast .implicit .other (.declRef ⟨1, "m".toList⟩)) [])), .breakS, (.caseS (.otherE [(.intLit 2)]) (.call (.cast .implicit .other (.declRef ⟨1, "m".toList⟩)) [])), (.caseS (.otherE [(.intLit 3)]) .breakS)]))])])
    [(.switchS false (.cast .implicit .lvalueToRvalue (.declRef ⟨0, "a".toList⟩)) (.compound [(.caseS (.otherE [(.intLit 1)]) (.call (.cast .implicit .other (.declRef ⟨1, "m".toList⟩)) [])), .breakS, (.caseS (.otherE [(.intLit 2)]) (.call (.cast .implicit .other (.declRef ⟨1, "m".toList⟩)) [])), (.caseS (.otherE [(.intLit 3)]) .breakS)]))]) = true := by decide +kernel

-- TwoCasesHaveNoBreak
example : (reportedAt 0 (overRoots (reportOver missingBreakVisit)
    [(.compound [(.switchS false (.cast .implicit .lvalueToRvalue (.declRef ⟨0, "a".toList⟩)) (.compound [(.caseS (.otherE [(.intLit 1)]) (.call (.cast .implicit .other (.declRef ⟨1, "m".toList⟩)) [])), (.caseS (.otherE [(.intLit 2)]) (.call (.cast .implicit .other (.declRef ⟨1, "m".toList⟩)) [])), (.caseS (.otherE [(.intLit 3)]) .breakS)]))])])
    [(.switchS false (.cast .implicit .lvalueToRvalue (.declRef ⟨0, "a".toList⟩)) (.compound [(.caseS (.otherE [(.intLit 1)]) (.call (.cast .implicit .other (.declRef ⟨1, "m".toList⟩)) [])), (.caseS (.otherE [(.intLit 2)]) (.call (.cast .implicit .other (.declRef ⟨1, "m".toList⟩)) [])), (.caseS (.otherE [(.intLit 3)]) .breakS)]))]) = true := by decide +kernel

-- DefaultHasNoBreak
example : (reportedAt 0 (overRoots (reportOver missingBreakVisit)
    [(.compound [(.switchS false (.cast .implicit .lvalueToRvalue (.declRef ⟨0, "a".toList⟩)) (.compound [(.caseS (.otherE [(.intLit 1)]) (.call (.cast .implicit .other (.declRef ⟨1, "m".toList⟩)) [])), .breakS, (.caseS (.otherE [(.intLit 2)]) .breakS), (.defaultS (.call (.cast .implicit .other (.declRef ⟨1, "m".toList⟩)) []))]))])])
    [(.switchS false (.cast .implicit .lvalueToRvalue (.declRef ⟨0, "a".toList⟩)) (.compound [(.caseS (.otherE [(.intLit 1)]) (.call (.cast .implicit .other (.declRef ⟨1, "m".toList⟩)) [])), .breakS, (.caseS (.otherE [(.intLit 2)]) .breakS), (.defaultS (.call (.cast .implicit .other (.declRef ⟨1, "m".toList⟩)) []))]))]) = true := by decide +kernel

-- NoCase
example : ((overRoots (reportOver missingBreakVisit)
    [(.compound [(.switchS false (.cast .implicit .lvalueToRvalue (.declRef ⟨0, "a".toList⟩)) (.compound []))])]).isEmpty) = true := by decide +kernel

-- SkipCasesWithNoStatement
example : ((overRoots (reportOver missingBreakVisit)
    [(.compound [(.switchS false (.cast .implicit .lvalueToRvalue (.declRef ⟨0, "a".toList⟩)) (.compound [(.caseS (.otherE [(.intLit 1)]) (.caseS (.otherE [(.intLit 2)]) .breakS)), (.defaultS .breakS)]))])]).isEmpty) = true := by decide +kernel

-- SkipCasesWithReturn
example : ((overRoots (reportOver missingBreakVisit)
    [(.compound [(.switchS false (.cast .implicit .lvalueToRvalue (.declRef ⟨0, "a".toList⟩)) (.compound [(.caseS (.otherE [(.intLit 1)]) (.returnS (some (.intLit 1)))), (.caseS (.otherE [(.intLit 2)]) (.returnS (some (.intLit 2)))), (.defaultS (.returnS (some (.intLit 3))))]))])]).isEmpty) = true := by decide +kernel

-- SkipCasesWithCXXThrow
example : ((overRoots (reportOver missingBreakVisit)
    [(.compound [(.switchS false (.cast .implicit .lvalueToRvalue (.declRef ⟨0, "a".toList⟩)) (.compound [(.caseS (.otherE [(.intLit 1)]) (.throwE (some (.intLit 1)))), (.caseS (.otherE [(.intLit 2)]) (.returnS (some (.intLit 2)))), (.defaultS (.throwE (some (.intLit 3))))]))])]).isEmpty) = true := by decide +kernel

-- SkipCasesWithObjCThrow
example : ((overRoots (reportOver missingBreakVisit)
    [(.compound [(.declS [(.varD ⟨0, "ex1".toList⟩ none), (.varD ⟨1, "ex2".toList⟩ none)]), (.switchS false (.cast .implicit .lvalueToRvalue (.declRef ⟨2, "a".toList⟩)) (.compound [(.caseS (.otherE [(.intLit 1)]) (.atThrow (some (.cast .implicit .lvalueToRvalue (.declRef ⟨0, "ex1".toList⟩))))), (.caseS (.otherE [(.intLit 2)]) (.returnS (some (.intLit 2)))), (.defaultS (.atThrow (some (.cast .implicit .lvalueToRvalue (.declRef ⟨1, "ex2".toList⟩)))))]))])]).isEmpty) = true := by decide +kernel

-- SkipCasesWithContinue
example : ((overRoots (reportOver missingBreakVisit)
    [(.compound [(.forS (some (.declS [(.varD ⟨0, "i".toList⟩ (some (.intLit 0)))])) (some (.binary .lt (.cast .implicit .lvalueToRvalue (.declRef ⟨0, "i".toList⟩)) (.intLit 2))) (some (.unary .preInc (.declRef ⟨0, "i".toList⟩))) (.compound [(.switchS false (.cast .implicit .lvalueToRvalue (.declRef ⟨1, "a".toList⟩)) (.compound [(.caseS (.otherE [(.intLit 1)]) .continueS), (.caseS (.otherE [(.intLit 2)]) .continueS), (.defaultS .continueS)]))]))])]).isEmpty) = true := by decide +kernel

-- CasesHaveAssignmentAndBreak
example : ((overRoots (reportOver missingBreakVisit)
    [(.compound [(.declS [(.varD ⟨0, "i".toList⟩ none)]), (.switchS false (.cast .implicit .lvalueToRvalue (.declRef ⟨1, "a".toList⟩)) (.compound [(.caseS (.otherE [(.intLit 1)]) (.binary .assign (.declRef ⟨0, "i".toList⟩) (.intLit 1))), .breakS]))])]).isEmpty) = true := by decide +kernel

-- CaseWithCXXCtorThrow
example : ((overRoots (reportOver missingBreakVisit)
    [(.compound []),
    (.compound [(.declS [(.varD ⟨0, "res".toList⟩ (some (.intLit 123)))]), (.switchS false (.cast .implicit .lvalueToRvalue (.declRef ⟨1, "a".toList⟩)) (.compound [(.caseS (.otherE [(.intLit 1)]) (.binary .assign (.declRef ⟨0, "res".toList⟩) (.intLit 1))), (.throwE (some (.intLit 123))), (.caseS (.otherE [(.intLit 2)]) (.binary .assign (.declRef ⟨0, "res".toList⟩) (.intLit 2))), (.throwE (some (.cast .implicit .other (.strLit "abc".toList)))), (.caseS (.otherE [(.intLit 3)]) (.binary .assign (.declRef ⟨0, "res".toList⟩) (.intLit 3))), (.throwE (some (.otherE []))), (.caseS (.otherE [(.intLit 4)]) (.binary (.compoundAssign 3) (.declRef ⟨0, "res".toList⟩) (.intLit 1))), (.compound [(.throwE (some (.otherE [])))]), (.defaultS (.binary (.compoundAssign 3) (.declRef ⟨0, "res".toList⟩) (.intLit 1))), (.throwE (some (.otherE [])))])), (.returnS (some (.cast .implicit .lvalueToRvalue (.declRef ⟨0, "res".toList⟩))))])]).isEmpty) = true := by decide +kernel

/-! ## `oclint-rules/test/convention/NonCaseLabelInSwitchStatementRuleTest.cpp` -/

-- CaseAndDefault
example : ((overRoots (reportOver nonCaseLabelVisit)
    [(.compound [(.switchS false (.cast .implicit .lvalueToRvalue (.declRef ⟨0, "a".toList⟩)) (.compound [(.caseS (.otherE [(.intLit 1)]) .breakS), (.defaultS .breakS)]))])]).isEmpty) = true := by decide +kernel

-- OneLabel
example : (reportedAt 0 (overRoots (reportOver nonCaseLabelVisit)
    [(.compound [(.switchS false (.cast .implicit .lvalueToRvalue (.declRef ⟨0, "a".toList⟩)) (.compound [(.caseS (.otherE [(.intLit 1)]) .breakS), (.labelS "label1".toList .breakS), (.caseS (.otherE [(.intLit 2)]) .breakS)]))])])
    [(.labelS "label1".toList .breakS)]) = true := by decide +kernel

-- TwoLabels
example : (reportedAt 0 (overRoots (reportOver nonCaseLabelVisit)
    [(.compound [(.switchS false (.cast .implicit .lvalueToRvalue (.declRef ⟨0, "a".toList⟩)) (.compound [(.labelS "label1".toList .breakS), (.labelS "label2".toList .breakS)]))])])
    [(.labelS "label1".toList .breakS)]) = true := by decide +kernel

-- TwoLabels
example : (reportedAt 1 (overRoots (reportOver nonCaseLabelVisit)
    [(.compound [(.switchS false (.cast .implicit .lvalueToRvalue (.declRef ⟨0, "a".toList⟩)) (.compound [(.labelS "label1".toList .breakS), (.labelS "label2".toList .breakS)]))])])
    [(.labelS "label2".toList .breakS)]) = true := by decide +kernel

/-! ## `oclint-rules/test/convention/ObjCAssignIvarOutsideAccessorsRuleTest.cpp` -/

-- TestInit
example : ((([("init".toList, (.compound [(.binary .assign (.member true (.cast .implicit .lvalueToRvalue (.declRef ⟨0, "self".toList⟩)) "_bar".toList) (.intLit 3)), (.returnS (some (.cast .implicit .bitCast (.cast .implicit .lvalueToRvalue (.declRef ⟨0, "self".toList⟩)))))]))] : List (Str × Stmt)).flatMap fun m => ivarAssignmentVisit memberName m.1 m.2).isEmpty) = true := by decide +kernel

-- TestInitWith
example : ((([("initWith".toList, (.compound [(.binary .assign (.member true (.cast .implicit .lvalueToRvalue (.declRef ⟨0, "self".toList⟩)) "_bar".toList) (.intLit 3)), (.returnS (some (.cast .implicit .bitCast (.cast .implicit .lvalueToRvalue (.declRef ⟨0, "self".toList⟩)))))]))] : List (Str × Stmt)).flatMap fun m => ivarAssignmentVisit memberName m.1 m.2).isEmpty) = true := by decide +kernel

-- TestChangeGetter
example : ((([("bar".toList, (.compound [(.binary .assign (.member true (.cast .implicit .lvalueToRvalue (.declRef ⟨0, "self".toList⟩)) "_bar".toList) (.intLit 3)), (.returnS (some (.cast .implicit .lvalueToRvalue (.member true (.cast .implicit .lvalueToRvalue (.declRef ⟨0, "self".toList⟩)) "_bar".toList))))]))] : List (Str × Stmt)).flatMap fun m => ivarAssignmentVisit memberName m.1 m.2).isEmpty) = true := by decide +kernel

-- TestChangeSetter
example : ((([("setFoo:".toList, (.compound [(.ifS none (.binary .eq (.cast .implicit .lvalueToRvalue (.member true (.cast .implicit .lvalueToRvalue (.declRef ⟨0, "self".toList⟩)) "_foo".toList)) (.cast .implicit .bitCast (.paren (.cast .cstyle .nullToPointer (.intLit 0))))) (.compound [(.binary .assign (.member true (.cast .implicit .lvalueToRvalue (.declRef ⟨0, "self".toList⟩)) "_foo".toList) (.cast .implicit .bitCast (.cast .implicit .lvalueToRvalue (.declRef ⟨1, "foo".toList⟩))))]) none)]))] : List (Str × Stmt)).flatMap fun m => ivarAssignmentVisit memberName m.1 m.2).isEmpty) = true := by decide +kernel

-- TestOtherMethod
example : (reportedAt 0 (([("doSomething".toList, (.compound [(.binary .assign (.member true (.cast .implicit .lvalueToRvalue (.declRef ⟨0, "self".toList⟩)) "_bar".toList) (.intLit 3))]))] : List (Str × Stmt)).flatMap fun m => ivarAssignmentVisit memberName m.1 m.2)
    [(.member true (.cast .implicit .lvalueToRvalue (.declRef ⟨0, "self".toList⟩)) "_bar".toList)]) = true := by decide +kernel

-- TestChildPropertyAccess
example : ((([("doSomething".toList, (.compound [(.otherE [(.binary .assign (.otherE [(.otherE [])]) (.otherE [])), (.otherE []), (.otherE []), (.message (some "Foo".toList) (some (.otherE [])) "setBar:".toList [(.otherE [])])])]))] : List (Str × Stmt)).flatMap fun m => ivarAssignmentVisit memberName m.1 m.2).isEmpty) = true := by decide +kernel

/-! ## `oclint-rules/test/convention/ParameterReassignmentRuleTest.cpp` -/

-- UseParameter
example : ((([⟨[⟨0, "i".toList⟩], []⟩, ⟨[⟨2, "a".toList⟩], [(.compound [(.call (.cast .implicit .other (.declRef ⟨1, "useInt".toList⟩)) [(.cast .implicit .lvalueToRvalue (.declRef ⟨2, "a".toList⟩))])])]⟩] : List ParamScope).flatMap parameterReassignment).isEmpty) = true := by decide +kernel

-- ReassignParameter
example : (reportedAt 0 (([⟨[⟨0, "a".toList⟩], [(.compound [(.binary .assign (.declRef ⟨0, "a".toList⟩) (.intLit 1))])]⟩] : List ParamScope).flatMap parameterReassignment)
    [(.binary .assign (.declRef ⟨0, "a".toList⟩) (.intLit 1))]) = true := by decide +kernel

-- MultipleParameterReassignments
example : (reportedAt 0 (([⟨[⟨0, "a".toList⟩], [(.compound [(.binary .assign (.declRef ⟨0, "a".toList⟩) (.intLit 1)), (.binary .assign (.declRef ⟨0, "a".toList⟩) (.intLit 2))])]⟩] : List ParamScope).flatMap parameterReassignment)
    [(.binary .assign (.declRef ⟨0, "a".toList⟩) (.intLit 1))]) = true := by decide +kernel

-- MultipleParameterReassignments
example : (reportedAt 1 (([⟨[⟨0, "a".toList⟩], [(.compound [(.binary .assign (.declRef ⟨0, "a".toList⟩) (.intLit 1)), (.binary .assign (.declRef ⟨0, "a".toList⟩) (.intLit 2))])]⟩] : List ParamScope).flatMap parameterReassignment)
    [(.binary .assign (.declRef ⟨0, "a".toList⟩) (.intLit 2))]) = true := by decide +kernel

-- MultipleParametersBeingReassigned
example : (reportedAt 0 (([⟨[⟨0, "a".toList⟩, ⟨2, "b".toList⟩, ⟨1, "c".toList⟩], [(.compound [(.binary .assign (.declRef ⟨0, "a".toList⟩) (.intLit 1)), (.binary .assign (.declRef ⟨1, "c".toList⟩) (.intLit 3))])]⟩] : List ParamScope).flatMap parameterReassignment)
    [(.binary .assign (.declRef ⟨0, "a".toList⟩) (.intLit 1))]) = true := by decide +kernel

-- MultipleParametersBeingReassigned
example : (reportedAt 1 (([⟨[⟨0, "a".toList⟩, ⟨2, "b".toList⟩, ⟨1, "c".toList⟩], [(.compound [(.binary .assign (.declRef ⟨0, "a".toList⟩) (.intLit 1)), (.binary .assign (.declRef ⟨1, "c".toList⟩) (.intLit 3))])]⟩] : List ParamScope).flatMap parameterReassignment)
    [(.binary .assign (.declRef ⟨1, "c".toList⟩) (.intLit 3))]) = true := by decide +kernel

-- CXXParameterReassignment
example : (reportedAt 0 (([⟨[⟨0, "a".toList⟩], []⟩, ⟨[⟨1, "a".toList⟩], [(.compound [(.binary .assign (.declRef ⟨1, "a".toList⟩) (.intLit 1))])]⟩] : List ParamScope).flatMap parameterReassignment)
    [(.binary .assign (.declRef ⟨1, "a".toList⟩) (.intLit 1))]) = true := by decide +kernel

-- ObjCParameterReassignment
example : (reportedAt 0 (([⟨[⟨0, "a".toList⟩], []⟩, ⟨[⟨1, "a".toList⟩], [(.compound [(.binary .assign (.declRef ⟨1, "a".toList⟩) (.intLit 1))])]⟩] : List ParamScope).flatMap parameterReassignment)
    [(.binary .assign (.declRef ⟨1, "a".toList⟩) (.intLit 1))]) = true := by decide +kernel

/-! ## `oclint-rules/test/convention/SwitchStatementsShouldHaveDefaultRuleTest.cpp` -/

-- SwitchHasDefault
example : ((overRoots (reportOver missingDefaultVisit)
    [(.compound [(.switchS false (.cast .implicit .lvalueToRvalue (.declRef ⟨0, "a".toList⟩)) (.compound [(.caseS (.otherE [(.intLit 1)]) .breakS), (.defaultS .breakS)]))])]).isEmpty) = true := by decide +kernel

-- SwitchNoDefault
example : (reportedAt 0 (overRoots (reportOver missingDefaultVisit)
    [(.compound [(.switchS false (.cast .implicit .lvalueToRvalue (.declRef ⟨0, "a".toList⟩)) (.compound [(.caseS (.otherE [(.intLit 1)]) .breakS), (.caseS (.otherE [(.intLit 2)]) .breakS)]))])])
    [(.switchS false (.cast .implicit .lvalueToRvalue (.declRef ⟨0, "a".toList⟩)) (.compound [(.caseS (.otherE [(.intLit 1)]) .breakS), (.caseS (.otherE [(.intLit 2)]) .breakS)]))]) = true := by decide +kernel

-- SwitchNoDefaultButCovered
example : ((overRoots (reportOver missingDefaultVisit)
    [(.otherE [(.intLit 0)]),
    (.otherE [(.intLit 1)]),
    (.compound [(.switchS true (.cast .implicit .other (.cast .implicit .lvalueToRvalue (.declRef ⟨0, "a".toList⟩))) (.compound [(.caseS (.cast .implicit .other (.otherE [(.declRef ⟨1, "value1".toList⟩)])) .breakS), (.caseS (.cast .implicit .other (.otherE [(.declRef ⟨2, "value2".toList⟩)])) .breakS)]))])]).isEmpty) = true := by decide +kernel

-- SwitchNoDefaultAndNotCovered
example : (reportedAt 0 (overRoots (reportOver missingDefaultVisit)
    [(.otherE [(.intLit 0)]),
    (.otherE [(.intLit 1)]),
    (.otherE [(.intLit 2)]),
    (.compound [(.switchS false (.cast .implicit .other (.cast .implicit .lvalueToRvalue (.declRef ⟨0, "a".toList⟩))) (.compound [(.caseS (.cast .implicit .other (.otherE [(.declRef ⟨1, "value1".toList⟩)])) .breakS), (.caseS (.cast .implicit .other (.otherE [(.declRef ⟨2, "value2".toList⟩)])) .breakS)]))])])
    [(.switchS false (.cast .implicit .other (.cast .implicit .lvalueToRvalue (.declRef ⟨0, "a".toList⟩))) (.compound [(.caseS (.cast .implicit .other (.otherE [(.declRef ⟨1, "value1".toList⟩)])) .breakS), (.caseS (.cast .implicit .other (.otherE [(.declRef ⟨2, "value2".toList⟩)])) .breakS)]))]) = true := by decide +kernel

/-! ## `oclint-rules/test/convention/TooFewBranchesInSwitchStatementRuleTest.cpp` -/

-- FourBranches
example : ((overRoots (reportOver fun s => okOr [] (tooFewBranchesVisit (some [("MINIMUM_CASES_IN_SWITCH".toList, "3".toList)]) s)) [(.compound [(.switchS false (.cast .implicit .lvalueToRvalue (.declRef ⟨0, "a".toList⟩)) (.compound [(.caseS (.otherE [(.intLit 1)]) .breakS), (.caseS (.otherE [(.intLit 2)]) .breakS), (.caseS (.otherE [(.intLit 3)]) .breakS), (.caseS (.otherE [(.intLit 4)]) .breakS)]))])]).isEmpty) = true := by decide +kernel

-- ThreeBranches
example : ((overRoots (reportOver fun s => okOr [] (tooFewBranchesVisit (some [("MINIMUM_CASES_IN_SWITCH".toList, "3".toList)]) s)) [(.compound [(.switchS false (.cast .implicit .lvalueToRvalue (.declRef ⟨0, "a".toList⟩)) (.compound [(.caseS (.otherE [(.intLit 1)]) .breakS), (.caseS (.otherE [(.intLit 2)]) .breakS), (.caseS (.otherE [(.intLit 3)]) .breakS)]))])]).isEmpty) = true := by decide +kernel

-- TwoBranches
example : (reportedAt 0 (overRoots (reportOver fun s => okOr [] (tooFewBranchesVisit (some [("MINIMUM_CASES_IN_SWITCH".toList, "3".toList)]) s)) [(.compound [(.switchS false (.cast .implicit .lvalueToRvalue (.declRef ⟨0, "a".toList⟩)) (.compound [(.caseS (.otherE [(.intLit 1)]) .breakS), (.caseS (.otherE [(.intLit 2)]) .breakS)]))])])
    [(.switchS false (.cast .implicit .lvalueToRvalue (.declRef ⟨0, "a".toList⟩)) (.compound [(.caseS (.otherE [(.intLit 1)]) .breakS), (.caseS (.otherE [(.intLit 2)]) .breakS)]))]) = true := by decide +kernel

-- OneBranche
example : (reportedAt 0 (overRoots (reportOver fun s => okOr [] (tooFewBranchesVisit (some [("MINIMUM_CASES_IN_SWITCH".toList, "3".toList)]) s)) [(.compound [(.switchS false (.cast .implicit .lvalueToRvalue (.declRef ⟨0, "a".toList⟩)) (.compound [(.caseS (.otherE [(.intLit 1)]) .breakS)]))])])
    [(.switchS false (.cast .implicit .lvalueToRvalue (.declRef ⟨0, "a".toList⟩)) (.compound [(.caseS (.otherE [(.intLit 1)]) .breakS)]))]) = true := by decide +kernel

-- ZeroBranch
example : (reportedAt 0 (overRoots (reportOver fun s => okOr [] (tooFewBranchesVisit (some [("MINIMUM_CASES_IN_SWITCH".toList, "3".toList)]) s)) [(.compound [(.switchS false (.cast .implicit .lvalueToRvalue (.declRef ⟨0, "a".toList⟩)) (.compound [(.defaultS .breakS)]))])])
    [(.switchS false (.cast .implicit .lvalueToRvalue (.declRef ⟨0, "a".toList⟩)) (.compound [(.defaultS .breakS)]))]) = true := by decide +kernel

/-! ## `oclint-rules/test/convention/PreferEarlyExitRuleTest.cpp` -/

-- LoopWithShortIf, for loop
example : ((overRoots (fun s => okOr [] (earlyExitRule (some [("MAXIMUM_IF_LENGTH".toList, "3".toList)]) (rangeIn [((.ifS none (.cast .implicit .lvalueToRvalue (.declRef ⟨1, "a".toList⟩)) (.compound [(.binary (.compoundAssign 0) (.declRef ⟨1, "a".toList⟩) (.intLit 2))]) none), (4, 6))]) s)) [(.compound [(.forS (some (.declS [(.varD ⟨0, "i".toList⟩ (some (.intLit 0)))])) (some (.binary .ne (.cast .implicit .lvalueToRvalue (.declRef ⟨0, "i".toList⟩)) (.intLit 5))) (some (.unary .preInc (.declRef ⟨0, "i".toList⟩))) (.compound [(.ifS none (.cast .implicit .lvalueToRvalue (.declRef ⟨1, "a".toList⟩)) (.compound [(.binary (.compoundAssign 0) (.declRef ⟨1, "a".toList⟩) (.intLit 2))]) none)])), (.returnS (some (.cast .implicit .lvalueToRvalue (.declRef ⟨1, "a".toList⟩))))])]).isEmpty) = true := by decide +kernel

-- LoopWithLongIf, for loop
example : (reportedAt 0 (overRoots (fun s => okOr [] (earlyExitRule (some [("MAXIMUM_IF_LENGTH".toList, "3".toList)]) (rangeIn [((.ifS none (.cast .implicit .lvalueToRvalue (.declRef ⟨1, "a".toList⟩)) (.compound [(.binary (.compoundAssign 0) (.declRef ⟨1, "a".toList⟩) (.intLit 2)), (.binary (.compoundAssign 0) (.declRef ⟨1, "a".toList⟩) (.intLit 2))]) none), (4, 7))]) s)) [(.compound [(.forS (some (.declS [(.varD ⟨0, "i".toList⟩ (some (.intLit 0)))])) (some (.binary .ne (.cast .implicit .lvalueToRvalue (.declRef ⟨0, "i".toList⟩)) (.intLit 5))) (some (.unary .preInc (.declRef ⟨0, "i".toList⟩))) (.compound [(.ifS none (.cast .implicit .lvalueToRvalue (.declRef ⟨1, "a".toList⟩)) (.compound [(.binary (.compoundAssign 0) (.declRef ⟨1, "a".toList⟩) (.intLit 2)), (.binary (.compoundAssign 0) (.declRef ⟨1, "a".toList⟩) (.intLit 2))]) none)])), (.returnS (some (.cast .implicit .lvalueToRvalue (.declRef ⟨1, "a".toList⟩))))])])
    [(.ifS none (.cast .implicit .lvalueToRvalue (.declRef ⟨1, "a".toList⟩)) (.compound [(.binary (.compoundAssign 0) (.declRef ⟨1, "a".toList⟩) (.intLit 2)), (.binary (.compoundAssign 0) (.declRef ⟨1, "a".toList⟩) (.intLit 2))]) none)]) = true := by decide +kernel

-- LoopWithShortIf, do/while loop
example : ((overRoots (fun s => okOr [] (earlyExitRule (some [("MAXIMUM_IF_LENGTH".toList, "3".toList)]) (rangeIn [((.ifS none (.cast .implicit .lvalueToRvalue (.declRef ⟨1, "a".toList⟩)) (.compound [(.binary (.compoundAssign 0) (.declRef ⟨1, "a".toList⟩) (.intLit 2))]) none), (4, 6))]) s)) [(.compound [(.declS [(.varD ⟨0, "i".toList⟩ (some (.intLit 0)))]), (.doS (.compound [(.ifS none (.cast .implicit .lvalueToRvalue (.declRef ⟨1, "a".toList⟩)) (.compound [(.binary (.compoundAssign 0) (.declRef ⟨1, "a".toList⟩) (.intLit 2))]) none)]) (.binary .ne (.unary .preInc (.declRef ⟨0, "i".toList⟩)) (.intLit 5))), (.returnS (some (.cast .implicit .lvalueToRvalue (.declRef ⟨1, "a".toList⟩))))])]).isEmpty) = true := by decide +kernel

-- LoopWithLongIf, do/while loop
example : (reportedAt 0 (overRoots (fun s => okOr [] (earlyExitRule (some [("MAXIMUM_IF_LENGTH".toList, "3".toList)]) (rangeIn [((.ifS none (.cast .implicit .lvalueToRvalue (.declRef ⟨1, "a".toList⟩)) (.compound [(.binary (.compoundAssign 0) (.declRef ⟨1, "a".toList⟩) (.intLit 2)), (.binary (.compoundAssign 0) (.declRef ⟨1, "a".toList⟩) (.intLit 2))]) none), (4, 7))]) s)) [(.compound [(.declS [(.varD ⟨0, "i".toList⟩ (some (.intLit 0)))]), (.doS (.compound [(.ifS none (.cast .implicit .lvalueToRvalue (.declRef ⟨1, "a".toList⟩)) (.compound [(.binary (.compoundAssign 0) (.declRef ⟨1, "a".toList⟩) (.intLit 2)), (.binary (.compoundAssign 0) (.declRef ⟨1, "a".toList⟩) (.intLit 2))]) none)]) (.binary .ne (.unary .preInc (.declRef ⟨0, "i".toList⟩)) (.intLit 5))), (.returnS (some (.cast .implicit .lvalueToRvalue (.declRef ⟨1, "a".toList⟩))))])])
    [(.ifS none (.cast .implicit .lvalueToRvalue (.declRef ⟨1, "a".toList⟩)) (.compound [(.binary (.compoundAssign 0) (.declRef ⟨1, "a".toList⟩) (.intLit 2)), (.binary (.compoundAssign 0) (.declRef ⟨1, "a".toList⟩) (.intLit 2))]) none)]) = true := by decide +kernel

-- LoopWithShortIf, while loop
example : ((overRoots (fun s => okOr [] (earlyExitRule (some [("MAXIMUM_IF_LENGTH".toList, "3".toList)]) (rangeIn [((.ifS none (.cast .implicit .lvalueToRvalue (.declRef ⟨1, "a".toList⟩)) (.compound [(.binary (.compoundAssign 0) (.declRef ⟨1, "a".toList⟩) (.intLit 2))]) none), (4, 6))]) s)) [(.compound [(.declS [(.varD ⟨0, "i".toList⟩ (some (.intLit 0)))]), (.whileS (.binary .ne (.unary .postInc (.declRef ⟨0, "i".toList⟩)) (.intLit 5)) (.compound [(.ifS none (.cast .implicit .lvalueToRvalue (.declRef ⟨1, "a".toList⟩)) (.compound [(.binary (.compoundAssign 0) (.declRef ⟨1, "a".toList⟩) (.intLit 2))]) none)])), (.returnS (some (.cast .implicit .lvalueToRvalue (.declRef ⟨1, "a".toList⟩))))])]).isEmpty) = true := by decide +kernel

-- LoopWithLongIf, while loop
example : (reportedAt 0 (overRoots (fun s => okOr [] (earlyExitRule (some [("MAXIMUM_IF_LENGTH".toList, "3".toList)]) (rangeIn [((.ifS none (.cast .implicit .lvalueToRvalue (.declRef ⟨1, "a".toList⟩)) (.compound [(.binary (.compoundAssign 0) (.declRef ⟨1, "a".toList⟩) (.intLit 2)), (.binary (.compoundAssign 0) (.declRef ⟨1, "a".toList⟩) (.intLit 2))]) none), (4, 7))]) s)) [(.compound [(.declS [(.varD ⟨0, "i".toList⟩ (some (.intLit 0)))]), (.whileS (.binary .ne (.unary .postInc (.declRef ⟨0, "i".toList⟩)) (.intLit 5)) (.compound [(.ifS none (.cast .implicit .lvalueToRvalue (.declRef ⟨1, "a".toList⟩)) (.compound [(.binary (.compoundAssign 0) (.declRef ⟨1, "a".toList⟩) (.intLit 2)), (.binary (.compoundAssign 0) (.declRef ⟨1, "a".toList⟩) (.intLit 2))]) none)])), (.returnS (some (.cast .implicit .lvalueToRvalue (.declRef ⟨1, "a".toList⟩))))])])
    [(.ifS none (.cast .implicit .lvalueToRvalue (.declRef ⟨1, "a".toList⟩)) (.compound [(.binary (.compoundAssign 0) (.declRef ⟨1, "a".toList⟩) (.intLit 2)), (.binary (.compoundAssign 0) (.declRef ⟨1, "a".toList⟩) (.intLit 2))]) none)]) = true := by decide +kernel

-- FunctionWithShortIf, break;
example : ((overRoots (fun s => okOr [] (earlyExitRule (some [("MAXIMUM_IF_LENGTH".toList, "3".toList)]) (rangeIn [((.ifS none (.cast .implicit .lvalueToRvalue (.declRef ⟨2, "a".toList⟩)) (.compound [(.binary (.compoundAssign 0) (.declRef ⟨1, "i".toList⟩) (.intLit 2))]) none), (6, 8))]) s)) [(.compound [(.declS [(.varD ⟨0, "label_ptr".toList⟩ (some (.cast .implicit .other (.otherE []))))]), (.labelS "LABEL".toList (.forS none none none (.compound [(.declS [(.varD ⟨1, "i".toList⟩ (some (.intLit 2)))]), (.ifS none (.cast .implicit .lvalueToRvalue (.declRef ⟨2, "a".toList⟩)) (.compound [(.binary (.compoundAssign 0) (.declRef ⟨1, "i".toList⟩) (.intLit 2))]) none), .breakS])))])]).isEmpty) = true := by decide +kernel

-- FunctionWithLongIf, break;
example : (reportedAt 0 (overRoots (fun s => okOr [] (earlyExitRule (some [("MAXIMUM_IF_LENGTH".toList, "3".toList)]) (rangeIn [((.ifS none (.cast .implicit .lvalueToRvalue (.declRef ⟨2, "a".toList⟩)) (.compound [(.binary (.compoundAssign 0) (.declRef ⟨1, "i".toList⟩) (.intLit 2)), (.binary (.compoundAssign 0) (.declRef ⟨1, "i".toList⟩) (.intLit 2))]) none), (6, 9))]) s)) [(.compound [(.declS [(.varD ⟨0, "label_ptr".toList⟩ (some (.cast .implicit .other (.otherE []))))]), (.labelS "LABEL".toList (.forS none none none (.compound [(.declS [(.varD ⟨1, "i".toList⟩ (some (.intLit 2)))]), (.ifS none (.cast .implicit .lvalueToRvalue (.declRef ⟨2, "a".toList⟩)) (.compound [(.binary (.compoundAssign 0) (.declRef ⟨1, "i".toList⟩) (.intLit 2)), (.binary (.compoundAssign 0) (.declRef ⟨1, "i".toList⟩) (.intLit 2))]) none), .breakS])))])])
    [(.ifS none (.cast .implicit .lvalueToRvalue (.declRef ⟨2, "a".toList⟩)) (.compound [(.binary (.compoundAssign 0) (.declRef ⟨1, "i".toList⟩) (.intLit 2)), (.binary (.compoundAssign 0) (.declRef ⟨1, "i".toList⟩) (.intLit 2))]) none)]) = true := by decide +kernel

-- FunctionWithShortIf, continue;
example : ((overRoots (fun s => okOr [] (earlyExitRule (some [("MAXIMUM_IF_LENGTH".toList, "3".toList)]) (rangeIn [((.ifS none (.cast .implicit .lvalueToRvalue (.declRef ⟨2, "a".toList⟩)) (.compound [(.binary (.compoundAssign 0) (.declRef ⟨1, "i".toList⟩) (.intLit 2))]) none), (6, 8))]) s)) [(.compound [(.declS [(.varD ⟨0, "label_ptr".toList⟩ (some (.cast .implicit .other (.otherE []))))]), (.labelS "LABEL".toList (.forS none none none (.compound [(.declS [(.varD ⟨1, "i".toList⟩ (some (.intLit 2)))]), (.ifS none (.cast .implicit .lvalueToRvalue (.declRef ⟨2, "a".toList⟩)) (.compound [(.binary (.compoundAssign 0) (.declRef ⟨1, "i".toList⟩) (.intLit 2))]) none), .continueS])))])]).isEmpty) = true := by decide +kernel

-- FunctionWithLongIf, continue;
example : (reportedAt 0 (overRoots (fun s => okOr [] (earlyExitRule (some [("MAXIMUM_IF_LENGTH".toList, "3".toList)]) (rangeIn [((.ifS none (.cast .implicit .lvalueToRvalue (.declRef ⟨2, "a".toList⟩)) (.compound [(.binary (.compoundAssign 0) (.declRef ⟨1, "i".toList⟩) (.intLit 2)), (.binary (.compoundAssign 0) (.declRef ⟨1, "i".toList⟩) (.intLit 2))]) none), (6, 9))]) s)) [(.compound [(.declS [(.varD ⟨0, "label_ptr".toList⟩ (some (.cast .implicit .other (.otherE []))))]), (.labelS "LABEL".toList (.forS none none none (.compound [(.declS [(.varD ⟨1, "i".toList⟩ (some (.intLit 2)))]), (.ifS none (.cast .implicit .lvalueToRvalue (.declRef ⟨2, "a".toList⟩)) (.compound [(.binary (.compoundAssign 0) (.declRef ⟨1, "i".toList⟩) (.intLit 2)), (.binary (.compoundAssign 0) (.declRef ⟨1, "i".toList⟩) (.intLit 2))]) none), .continueS])))])])
    [(.ifS none (.cast .implicit .lvalueToRvalue (.declRef ⟨2, "a".toList⟩)) (.compound [(.binary (.compoundAssign 0) (.declRef ⟨1, "i".toList⟩) (.intLit 2)), (.binary (.compoundAssign 0) (.declRef ⟨1, "i".toList⟩) (.intLit 2))]) none)]) = true := by decide +kernel

-- FunctionWithShortIf, goto LABEL;
example : ((overRoots (fun s => okOr [] (earlyExitRule (some [("MAXIMUM_IF_LENGTH".toList, "3".toList)]) (rangeIn [((.ifS none (.cast .implicit .lvalueToRvalue (.declRef ⟨2, "a".toList⟩)) (.compound [(.binary (.compoundAssign 0) (.declRef ⟨1, "i".toList⟩) (.intLit 2))]) none), (6, 8))]) s)) [(.compound [(.declS [(.varD ⟨0, "label_ptr".toList⟩ (some (.cast .implicit .other (.otherE []))))]), (.labelS "LABEL".toList (.forS none none none (.compound [(.declS [(.varD ⟨1, "i".toList⟩ (some (.intLit 2)))]), (.ifS none (.cast .implicit .lvalueToRvalue (.declRef ⟨2, "a".toList⟩)) (.compound [(.binary (.compoundAssign 0) (.declRef ⟨1, "i".toList⟩) (.intLit 2))]) none), (.gotoS [])])))])]).isEmpty) = true := by decide +kernel

-- FunctionWithLongIf, goto LABEL;
example : (reportedAt 0 (overRoots (fun s => okOr [] (earlyExitRule (some [("MAXIMUM_IF_LENGTH".toList, "3".toList)]) (rangeIn [((.ifS none (.cast .implicit .lvalueToRvalue (.declRef ⟨2, "a".toList⟩)) (.compound [(.binary (.compoundAssign 0) (.declRef ⟨1, "i".toList⟩) (.intLit 2)), (.binary (.compoundAssign 0) (.declRef ⟨1, "i".toList⟩) (.intLit 2))]) none), (6, 9))]) s)) [(.compound [(.declS [(.varD ⟨0, "label_ptr".toList⟩ (some (.cast .implicit .other (.otherE []))))]), (.labelS "LABEL".toList (.forS none none none (.compound [(.declS [(.varD ⟨1, "i".toList⟩ (some (.intLit 2)))]), (.ifS none (.cast .implicit .lvalueToRvalue (.declRef ⟨2, "a".toList⟩)) (.compound [(.binary (.compoundAssign 0) (.declRef ⟨1, "i".toList⟩) (.intLit 2)), (.binary (.compoundAssign 0) (.declRef ⟨1, "i".toList⟩) (.intLit 2))]) none), (.gotoS [])])))])])
    [(.ifS none (.cast .implicit .lvalueToRvalue (.declRef ⟨2, "a".toList⟩)) (.compound [(.binary (.compoundAssign 0) (.declRef ⟨1, "i".toList⟩) (.intLit 2)), (.binary (.compoundAssign 0) (.declRef ⟨1, "i".toList⟩) (.intLit 2))]) none)]) = true := by decide +kernel

-- FunctionWithShortIf, goto *label_ptr;
example : ((overRoots (fun s => okOr [] (earlyExitRule (some [("MAXIMUM_IF_LENGTH".toList, "3".toList)]) (rangeIn [((.ifS none (.cast .implicit .lvalueToRvalue (.declRef ⟨2, "a".toList⟩)) (.compound [(.binary (.compoundAssign 0) (.declRef ⟨1, "i".toList⟩) (.intLit 2))]) none), (6, 8))]) s)) [(.compound [(.declS [(.varD ⟨0, "label_ptr".toList⟩ (some (.cast .implicit .other (.otherE []))))]), (.labelS "LABEL".toList (.forS none none none (.compound [(.declS [(.varD ⟨1, "i".toList⟩ (some (.intLit 2)))]), (.ifS none (.cast .implicit .lvalueToRvalue (.declRef ⟨2, "a".toList⟩)) (.compound [(.binary (.compoundAssign 0) (.declRef ⟨1, "i".toList⟩) (.intLit 2))]) none), (.indirectGoto (.cast .implicit .lvalueToRvalue (.declRef ⟨0, "label_ptr".toList⟩)))])))])]).isEmpty) = true := by decide +kernel

-- FunctionWithLongIf, goto *label_ptr;
example : (reportedAt 0 (overRoots (fun s => okOr [] (earlyExitRule (some [("MAXIMUM_IF_LENGTH".toList, "3".toList)]) (rangeIn [((.ifS none (.cast .implicit .lvalueToRvalue (.declRef ⟨2, "a".toList⟩)) (.compound [(.binary (.compoundAssign 0) (.declRef ⟨1, "i".toList⟩) (.intLit 2)), (.binary (.compoundAssign 0) (.declRef ⟨1, "i".toList⟩) (.intLit 2))]) none), (6, 9))]) s)) [(.compound [(.declS [(.varD ⟨0, "label_ptr".toList⟩ (some (.cast .implicit .other (.otherE []))))]), (.labelS "LABEL".toList (.forS none none none (.compound [(.declS [(.varD ⟨1, "i".toList⟩ (some (.intLit 2)))]), (.ifS none (.cast .implicit .lvalueToRvalue (.declRef ⟨2, "a".toList⟩)) (.compound [(.binary (.compoundAssign 0) (.declRef ⟨1, "i".toList⟩) (.intLit 2)), (.binary (.compoundAssign 0) (.declRef ⟨1, "i".toList⟩) (.intLit 2))]) none), (.indirectGoto (.cast .implicit .lvalueToRvalue (.declRef ⟨0, "label_ptr".toList⟩)))])))])])
    [(.ifS none (.cast .implicit .lvalueToRvalue (.declRef ⟨2, "a".toList⟩)) (.compound [(.binary (.compoundAssign 0) (.declRef ⟨1, "i".toList⟩) (.intLit 2)), (.binary (.compoundAssign 0) (.declRef ⟨1, "i".toList⟩) (.intLit 2))]) none)]) = true := by decide +kernel

-- LongIfAndReturnInsideBlock
example : (reportedAt 0 (overRoots (fun s => okOr [] (earlyExitRule (some [("MAXIMUM_IF_LENGTH".toList, "3".toList)]) (rangeIn [((.ifS none (.cast .implicit .lvalueToRvalue (.declRef ⟨1, "a".toList⟩)) (.compound [(.binary (.compoundAssign 0) (.declRef ⟨0, "i".toList⟩) (.intLit 2)), (.binary (.compoundAssign 0) (.declRef ⟨0, "i".toList⟩) (.intLit 2))]) none), (3, 6))]) s)) [(.compound [(.declS [(.varD ⟨0, "i".toList⟩ (some (.intLit 2)))]), (.ifS none (.cast .implicit .lvalueToRvalue (.declRef ⟨1, "a".toList⟩)) (.compound [(.binary (.compoundAssign 0) (.declRef ⟨0, "i".toList⟩) (.intLit 2)), (.binary (.compoundAssign 0) (.declRef ⟨0, "i".toList⟩) (.intLit 2))]) none), (.returnS (some (.cast .implicit .lvalueToRvalue (.declRef ⟨0, "i".toList⟩))))])])
    [(.ifS none (.cast .implicit .lvalueToRvalue (.declRef ⟨1, "a".toList⟩)) (.compound [(.binary (.compoundAssign 0) (.declRef ⟨0, "i".toList⟩) (.intLit 2)), (.binary (.compoundAssign 0) (.declRef ⟨0, "i".toList⟩) (.intLit 2))]) none)]) = true := by decide +kernel

end Oclint
