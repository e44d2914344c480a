import Verif.Tests.Support

/-!
# Tests of the repository, unused

Written by `tools/repotests.py`; see `Verif/Tests/Support.lean`.
-/

namespace Oclint

set_option linter.all false

/-! ## `oclint-rules/test/unused/UnusedLocalVariableRuleTest.cpp` -/

-- UsedLocalVariable
example : ((taggedReports (fun v => match unusedLocalRule none [v] with | .ok r => r.map Prod.snd | _ => [])
    ([⟨"a".toList, "int".toList, true, true, true, false, (some true)⟩] : List LocalVar)).isEmpty) = true := by decide +kernel

-- UnusedLocalVariable
example : (taggedAt 0 (taggedReports (fun v => match unusedLocalRule none [v] with | .ok r => r.map Prod.snd | _ => [])
    ([⟨"a".toList, "int".toList, false, false, true, false, (some true)⟩] : List LocalVar))
    [0] "The local variable 'a' is unused.".toList) = true := by decide +kernel

-- UnusedLocalVariableWithIntialAssignment
example : (taggedAt 0 (taggedReports (fun v => match unusedLocalRule none [v] with | .ok r => r.map Prod.snd | _ => [])
    ([⟨"a".toList, "int".toList, false, false, true, false, (some true)⟩] : List LocalVar))
    [0] "The local variable 'a' is unused.".toList) = true := by decide +kernel

-- UsedConstLocalVariable
example : ((taggedReports (fun v => match unusedLocalRule none [v] with | .ok r => r.map Prod.snd | _ => [])
    ([⟨"dummy".toList, "int".toList, false, false, false, false, (some true)⟩,
      ⟨"a".toList, "const int".toList, false, true, true, false, (some true)⟩] : List LocalVar)).isEmpty) = true := by decide +kernel

-- DeclarationOutsideMethodShouldBeIgnored
example : ((taggedReports (fun v => match unusedLocalRule none [v] with | .ok r => r.map Prod.snd | _ => [])
    ([⟨"i".toList, "int".toList, false, false, false, false, none⟩] : List LocalVar)).isEmpty) = true := by decide +kernel

-- UnusedMethodParameterShouldBeIgnoredInThisRule
example : ((taggedReports (fun v => match unusedLocalRule none [v] with | .ok r => r.map Prod.snd | _ => [])
    ([⟨"a".toList, "int".toList, false, false, false, false, (some true)⟩] : List LocalVar)).isEmpty) = true := by decide +kernel

-- IgnoreUnusedLocalVariableInTemplateFunction
example : ((taggedReports (fun v => match unusedLocalRule none [v] with | .ok r => r.map Prod.snd | _ => [])
    ([⟨"i".toList, "int".toList, false, true, true, false, (some false)⟩] : List LocalVar)).isEmpty) = true := by decide +kernel

-- IgnoreRAIITechniqueInWhitelist
example : ((taggedReports (fun v => match unusedLocalRule none [v] with | .ok r => r.map Prod.snd | _ => [])
    ([⟨"m".toList, "mutex_type &".toList, false, false, false, false, (some false)⟩,
      ⟨"m".toList, "mutex_type &".toList, false, false, false, false, (some false)⟩,
      ⟨"".toList, "adopt_lock_t".toList, false, false, false, false, (some false)⟩,
      ⟨"m".toList, "mutex_type &".toList, false, false, false, false, (some false)⟩,
      ⟨"m".toList, "mutex_type &".toList, false, false, false, false, (some false)⟩,
      ⟨"".toList, "adopt_lock_t".toList, false, false, false, false, (some false)⟩,
      ⟨"adopt_lock".toList, "adopt_lock_t".toList, false, false, false, false, none⟩,
      ⟨"mtx".toList, "mutex".toList, true, true, true, false, (some true)⟩,
      ⟨"lock".toList, "std::lock_guard<std::mutex>".toList, false, false, true, false, (some true)⟩] : List LocalVar)).isEmpty) = true := by decide +kernel

-- RAIITechniqueWhitelistDifferentNumOfParameters
example : ((taggedReports (fun v => match unusedLocalRule none [v] with | .ok r => r.map Prod.snd | _ => [])
    ([⟨"m".toList, "mutex_type &".toList, false, false, false, false, (some false)⟩,
      ⟨"m".toList, "mutex_type &".toList, false, false, false, false, (some false)⟩,
      ⟨"".toList, "adopt_lock_t".toList, false, false, false, false, (some false)⟩,
      ⟨"m".toList, "mutex_type &".toList, false, false, false, false, (some false)⟩,
      ⟨"m".toList, "mutex_type &".toList, false, false, false, false, (some false)⟩,
      ⟨"".toList, "adopt_lock_t".toList, false, false, false, false, (some false)⟩,
      ⟨"adopt_lock".toList, "adopt_lock_t".toList, true, true, false, false, none⟩,
      ⟨"mutex".toList, "std::mutex".toList, true, true, true, false, (some true)⟩,
      ⟨"lock".toList, "std::lock_guard<std::mutex>".toList, false, false, true, false, (some true)⟩] : List LocalVar)).isEmpty) = true := by decide +kernel

-- RAIITechniqueDefaultParameters
example : (taggedAll (taggedReports (fun v => match unusedLocalRule none [v] with | .ok r => r.map Prod.snd | _ => [])
    ([⟨"m".toList, "mutex_type &".toList, false, false, false, false, (some false)⟩,
      ⟨"m".toList, "mutex_type &".toList, false, false, false, false, (some false)⟩,
      ⟨"".toList, "adopt_lock_t".toList, false, false, false, false, (some false)⟩,
      ⟨"m".toList, "mutex_type &".toList, false, false, false, false, (some false)⟩,
      ⟨"m".toList, "mutex_type &".toList, false, false, false, false, (some false)⟩,
      ⟨"".toList, "adopt_lock_t".toList, false, false, false, false, (some false)⟩,
      ⟨"adopt_lock".toList, "adopt_lock_t".toList, false, false, false, false, none⟩,
      ⟨"mtx".toList, "std::mutex".toList, true, true, true, false, (some true)⟩,
      ⟨"lock".toList, "std::lock_guard<std::mutex>".toList, false, false, true, false, (some true)⟩,
      ⟨"lock".toList, "std::unique_lock<std::mutex>".toList, false, false, true, false, (some true)⟩,
      ⟨"testObjA".toList, "TestClassA".toList, false, false, true, false, (some true)⟩,
      ⟨"testObjB".toList, "testNamespace::TestClassB".toList, false, false, true, false, (some true)⟩,
      ⟨"iii".toList, "int".toList, false, false, true, false, (some true)⟩] : List LocalVar))
    [([10], "The local variable 'testObjA' is unused.".toList), ([11], "The local variable 'testObjB' is unused.".toList), ([12], "The local variable 'iii' is unused.".toList)]) = true := by decide +kernel

-- RAIITechniqueDefaultParametersExplicite
example : (taggedAll (taggedReports (fun v => (unusedLocalVisit (resetSkippedTypes ["std::lock_guard std::unique_lock".toList]) v).map Prod.snd)
    ([⟨"m".toList, "mutex_type &".toList, false, false, false, false, (some false)⟩,
      ⟨"m".toList, "mutex_type &".toList, false, false, false, false, (some false)⟩,
      ⟨"".toList, "adopt_lock_t".toList, false, false, false, false, (some false)⟩,
      ⟨"m".toList, "mutex_type &".toList, false, false, false, false, (some false)⟩,
      ⟨"m".toList, "mutex_type &".toList, false, false, false, false, (some false)⟩,
      ⟨"".toList, "adopt_lock_t".toList, false, false, false, false, (some false)⟩,
      ⟨"adopt_lock".toList, "adopt_lock_t".toList, false, false, false, false, none⟩,
      ⟨"mtx".toList, "std::mutex".toList, true, true, true, false, (some true)⟩,
      ⟨"lock".toList, "std::lock_guard<std::mutex>".toList, false, false, true, false, (some true)⟩,
      ⟨"lock".toList, "std::unique_lock<std::mutex>".toList, false, false, true, false, (some true)⟩,
      ⟨"testObjA".toList, "TestClassA".toList, false, false, true, false, (some true)⟩,
      ⟨"testObjB".toList, "testNamespace::TestClassB".toList, false, false, true, false, (some true)⟩,
      ⟨"iii".toList, "int".toList, false, false, true, false, (some true)⟩] : List LocalVar))
    [([10], "The local variable 'testObjA' is unused.".toList), ([11], "The local variable 'testObjB' is unused.".toList), ([12], "The local variable 'iii' is unused.".toList)]) = true := by decide +kernel

-- RAIITechniqueCustomValuesWithoutFullNamespace
example : (taggedAll (taggedReports (fun v => (unusedLocalVisit (resetSkippedTypes ["std::lock_guard std::unique_lock".toList, "TestClassA TestClassB".toList]) v).map Prod.snd)
    ([⟨"m".toList, "mutex_type &".toList, false, false, false, false, (some false)⟩,
      ⟨"m".toList, "mutex_type &".toList, false, false, false, false, (some false)⟩,
      ⟨"".toList, "adopt_lock_t".toList, false, false, false, false, (some false)⟩,
      ⟨"m".toList, "mutex_type &".toList, false, false, false, false, (some false)⟩,
      ⟨"m".toList, "mutex_type &".toList, false, false, false, false, (some false)⟩,
      ⟨"".toList, "adopt_lock_t".toList, false, false, false, false, (some false)⟩,
      ⟨"adopt_lock".toList, "adopt_lock_t".toList, false, false, false, false, none⟩,
      ⟨"mtx".toList, "std::mutex".toList, true, true, true, false, (some true)⟩,
      ⟨"lock".toList, "std::lock_guard<std::mutex>".toList, false, false, true, false, (some true)⟩,
      ⟨"lock".toList, "std::unique_lock<std::mutex>".toList, false, false, true, false, (some true)⟩,
      ⟨"testObjA".toList, "TestClassA".toList, false, false, true, false, (some true)⟩,
      ⟨"testObjB".toList, "testNamespace::TestClassB".toList, false, false, true, false, (some true)⟩,
      ⟨"iii".toList, "int".toList, false, false, true, false, (some true)⟩] : List LocalVar))
    [([11], "The local variable 'testObjB' is unused.".toList), ([12], "The local variable 'iii' is unused.".toList)]) = true := by decide +kernel

-- RAIITechniqueCustomValuesWithFullNamespace
example : (taggedAll (taggedReports (fun v => (unusedLocalVisit (resetSkippedTypes ["std::lock_guard std::unique_lock".toList, "TestClassA testNamespace::TestClassB".toList]) v).map Prod.snd)
    ([⟨"m".toList, "mutex_type &".toList, false, false, false, false, (some false)⟩,
      ⟨"m".toList, "mutex_type &".toList, false, false, false, false, (some false)⟩,
      ⟨"".toList, "adopt_lock_t".toList, false, false, false, false, (some false)⟩,
      ⟨"m".toList, "mutex_type &".toList, false, false, false, false, (some false)⟩,
      ⟨"m".toList, "mutex_type &".toList, false, false, false, false, (some false)⟩,
      ⟨"".toList, "adopt_lock_t".toList, false, false, false, false, (some false)⟩,
      ⟨"adopt_lock".toList, "adopt_lock_t".toList, false, false, false, false, none⟩,
      ⟨"mtx".toList, "std::mutex".toList, true, true, true, false, (some true)⟩,
      ⟨"lock".toList, "std::lock_guard<std::mutex>".toList, false, false, true, false, (some true)⟩,
      ⟨"lock".toList, "std::unique_lock<std::mutex>".toList, false, false, true, false, (some true)⟩,
      ⟨"testObjA".toList, "TestClassA".toList, false, false, true, false, (some true)⟩,
      ⟨"testObjB".toList, "testNamespace::TestClassB".toList, false, false, true, false, (some true)⟩,
      ⟨"iii".toList, "int".toList, false, false, true, false, (some true)⟩] : List LocalVar))
    [([12], "The local variable 'iii' is unused.".toList)]) = true := by decide +kernel

-- RAIITechniqueCustomValuesWithFullNamespaceWithoutDefault
example : (taggedAll (taggedReports (fun v => (unusedLocalVisit (resetSkippedTypes ["".toList, "TestClassA testNamespace::TestClassB".toList]) v).map Prod.snd)
    ([⟨"m".toList, "mutex_type &".toList, false, false, false, false, (some false)⟩,
      ⟨"m".toList, "mutex_type &".toList, false, false, false, false, (some false)⟩,
      ⟨"".toList, "adopt_lock_t".toList, false, false, false, false, (some false)⟩,
      ⟨"m".toList, "mutex_type &".toList, false, false, false, false, (some false)⟩,
      ⟨"m".toList, "mutex_type &".toList, false, false, false, false, (some false)⟩,
      ⟨"".toList, "adopt_lock_t".toList, false, false, false, false, (some false)⟩,
      ⟨"adopt_lock".toList, "adopt_lock_t".toList, false, false, false, false, none⟩,
      ⟨"mtx".toList, "std::mutex".toList, true, true, true, false, (some true)⟩,
      ⟨"lock".toList, "std::lock_guard<std::mutex>".toList, false, false, true, false, (some true)⟩,
      ⟨"lock".toList, "std::unique_lock<std::mutex>".toList, false, false, true, false, (some true)⟩,
      ⟨"testObjA".toList, "TestClassA".toList, false, false, true, false, (some true)⟩,
      ⟨"testObjB".toList, "testNamespace::TestClassB".toList, false, false, true, false, (some true)⟩,
      ⟨"iii".toList, "int".toList, false, false, true, false, (some true)⟩] : List LocalVar))
    [([8], "The local variable 'lock' is unused.".toList), ([9], "The local variable 'lock' is unused.".toList), ([12], "The local variable 'iii' is unused.".toList)]) = true := by decide +kernel

-- SuppressUnusedLocalVariable
example : ((taggedReports (unsuppressed "unused local variable".toList (fun v => match unusedLocalRule none [v] with | .ok r => r.map Prod.snd | _ => []))
    ([([(.decl (.plain [])), (.decl (.plain [])), .stmt, .stmt, (.decl (.plain ["oclint:suppress[unused local variable]".toList]))], ⟨"a".toList, "int".toList, false, false, true, false, (some true)⟩)] : List (List NodeKind × LocalVar))).isEmpty) = true := by decide +kernel

-- IgnoreVariablesWithoutAName
example : ((taggedReports (fun v => match unusedLocalRule none [v] with | .ok r => r.map Prod.snd | _ => [])
    ([⟨"".toList, "int &".toList, false, false, true, false, (some true)⟩] : List LocalVar)).isEmpty) = true := by decide +kernel

/-! ## `oclint-rules/test/unused/UnusedMethodParameterRuleTest.cpp` -/

-- MethodWithUsedParameter
example : ((taggedReports (unusedParamVisit)
    ([] : List Param)).isEmpty) = true := by decide +kernel

-- MethodWithUnusedParameter
example : (taggedAt 0 (taggedReports (unusedParamVisit)
    ([⟨"a".toList, false, false, [.function true true true none, .other]⟩] : List Param))
    [0] "The parameter 'a' is unused.".toList) = true := by decide +kernel

-- MethodWithUnusedParameterSuppressThisRule
example : ((taggedReports (unsuppressed "unused method parameter".toList (unusedParamVisit))
    ([([(.decl (.plain [])), (.decl (.plain [])), (.decl (.plain ["oclint:suppress[unused method parameter]".toList]))], ⟨"a".toList, false, false, [.function true true true none, .other]⟩)] : List (List NodeKind × Param))).isEmpty) = true := by decide +kernel

-- MethodWithUnusedParameterSuppressAll
example : ((taggedReports (unsuppressed "unused method parameter".toList (unusedParamVisit))
    ([([(.decl (.plain [])), (.decl (.plain [])), (.decl (.plain ["oclint:suppress".toList]))], ⟨"a".toList, false, false, [.function true true true none, .other]⟩)] : List (List NodeKind × Param))).isEmpty) = true := by decide +kernel

-- CppParameterHasNoNameShouldBeIgnored
example : ((taggedReports (unusedParamVisit)
    ([⟨"".toList, false, false, [.function true true true none, .other]⟩] : List Param)).isEmpty) = true := by decide +kernel

-- ObjCMethodWithUnusedParameter
example : (taggedAt 0 (taggedReports (unusedParamVisit)
    ([⟨"a".toList, false, false, [.objcMethod ⟨"aMethod:".toList, true, .interface, (some ⟨(some ⟨fun _ => false, fun _ => false⟩), []⟩), false⟩, .other, .other]⟩,
      ⟨"a".toList, false, false, [.objcMethod ⟨"aMethod:".toList, true, .implementation, (some ⟨(some ⟨fun _ => false, fun _ => false⟩), []⟩), false⟩, .other, .other]⟩] : List Param))
    [1] "The parameter 'a' is unused.".toList) = true := by decide +kernel

-- ObjCMethodWithUnusedParameterSuppressThisRule
example : ((taggedReports (unsuppressed "unused method parameter".toList (unusedParamVisit))
    ([([(.decl (.plain [])), (.decl (.plain [])), (.decl (.method [] false none .classWithInterface [])), (.decl (.plain []))], ⟨"a".toList, false, false, [.objcMethod ⟨"aMethod:".toList, true, .interface, (some ⟨(some ⟨fun _ => false, fun _ => false⟩), []⟩), false⟩, .other, .other]⟩),
      ([(.decl (.plain [])), (.decl (.plain [])), (.decl (.method [] false none .classWithInterface [])), (.decl (.plain ["oclint:suppress[unused method parameter]".toList]))], ⟨"a".toList, false, false, [.objcMethod ⟨"aMethod:".toList, true, .implementation, (some ⟨(some ⟨fun _ => false, fun _ => false⟩), []⟩), false⟩, .other, .other]⟩)] : List (List NodeKind × Param))).isEmpty) = true := by decide +kernel

-- ObjCMethodWithUnusedParameterSuppressAll
example : ((taggedReports (unsuppressed "unused method parameter".toList (unusedParamVisit))
    ([([(.decl (.plain [])), (.decl (.plain [])), (.decl (.method [] false none .classWithInterface [])), (.decl (.plain []))], ⟨"a".toList, false, false, [.objcMethod ⟨"aMethod:".toList, true, .interface, (some ⟨(some ⟨fun _ => false, fun _ => false⟩), []⟩), false⟩, .other, .other]⟩),
      ([(.decl (.plain [])), (.decl (.plain [])), (.decl (.method [] false none .classWithInterface [])), (.decl (.plain ["oclint:suppress".toList]))], ⟨"a".toList, false, false, [.objcMethod ⟨"aMethod:".toList, true, .implementation, (some ⟨(some ⟨fun _ => false, fun _ => false⟩), []⟩), false⟩, .other, .other]⟩)] : List (List NodeKind × Param))).isEmpty) = true := by decide +kernel

-- ObjCMethodWithUnusedParameterMultipleSuppress
example : ((taggedReports (unsuppressed "unused method parameter".toList (unusedParamVisit))
    ([([(.decl (.plain [])), (.decl (.plain [])), (.decl (.method [] false none .classWithInterface [])), (.decl (.plain []))], ⟨"a".toList, false, false, [.objcMethod ⟨"aMethod:".toList, true, .interface, (some ⟨(some ⟨fun _ => false, fun _ => false⟩), []⟩), false⟩, .other, .other]⟩),
      ([(.decl (.plain [])), (.decl (.plain [])), (.decl (.method [] false none .classWithInterface [])), (.decl (.plain ["oclint:suppress[unused method parameter]".toList, "oclint:suppress[rule2]".toList]))], ⟨"a".toList, false, false, [.objcMethod ⟨"aMethod:".toList, true, .implementation, (some ⟨(some ⟨fun _ => false, fun _ => false⟩), []⟩), false⟩, .other, .other]⟩)] : List (List NodeKind × Param))).isEmpty) = true := by decide +kernel

-- ObjCMethodWithUnusedParameterMultipleSuppressReverse
example : ((taggedReports (unsuppressed "unused method parameter".toList (unusedParamVisit))
    ([([(.decl (.plain [])), (.decl (.plain [])), (.decl (.method [] false none .classWithInterface [])), (.decl (.plain []))], ⟨"a".toList, false, false, [.objcMethod ⟨"aMethod:".toList, true, .interface, (some ⟨(some ⟨fun _ => false, fun _ => false⟩), []⟩), false⟩, .other, .other]⟩),
      ([(.decl (.plain [])), (.decl (.plain [])), (.decl (.method [] false none .classWithInterface [])), (.decl (.plain ["oclint:suppress[rule2]".toList, "oclint:suppress[unused method parameter]".toList]))], ⟨"a".toList, false, false, [.objcMethod ⟨"aMethod:".toList, true, .implementation, (some ⟨(some ⟨fun _ => false, fun _ => false⟩), []⟩), false⟩, .other, .other]⟩)] : List (List NodeKind × Param))).isEmpty) = true := by decide +kernel

-- ObjCMethodWithUnusedParameterSupressOther
example : (taggedAt 0 (taggedReports (unsuppressed "unused method parameter".toList (unusedParamVisit))
    ([([(.decl (.plain [])), (.decl (.plain [])), (.decl (.method [] false none .classWithInterface [])), (.decl (.plain []))], ⟨"a".toList, false, false, [.objcMethod ⟨"aMethod:".toList, true, .interface, (some ⟨(some ⟨fun _ => false, fun _ => false⟩), []⟩), false⟩, .other, .other]⟩),
      ([(.decl (.plain [])), (.decl (.plain [])), (.decl (.method [] false none .classWithInterface [])), (.decl (.plain ["oclint:suppress[rule2]".toList]))], ⟨"a".toList, false, false, [.objcMethod ⟨"aMethod:".toList, true, .implementation, (some ⟨(some ⟨fun _ => false, fun _ => false⟩), []⟩), false⟩, .other, .other]⟩)] : List (List NodeKind × Param)))
    [1] "The parameter 'a' is unused.".toList) = true := by decide +kernel

-- FunctionDeclarationWithoutDefincationShouldBeIgnored
example : ((taggedReports (unusedParamVisit)
    ([⟨"a".toList, false, false, [.function false false true none, .other]⟩] : List Param)).isEmpty) = true := by decide +kernel

-- FunctionDefinationWithUnusedParameterDeclarationShouldBeIgnored
example : (taggedAt 0 (taggedReports (unusedParamVisit)
    ([⟨"a".toList, false, false, [.function false true true none, .other]⟩,
      ⟨"a".toList, false, false, [.function true true true none, .other]⟩] : List Param))
    [1] "The parameter 'a' is unused.".toList) = true := by decide +kernel

-- CppMethodDeclarationWithoutDefinationShouldBeIgnored
example : (taggedAt 0 (taggedReports (unusedParamVisit)
    ([⟨"a".toList, false, false, [.function false true true (some false), .record, .other]⟩,
      ⟨"a".toList, false, false, [.function true true true (some false), .other]⟩] : List Param))
    [1] "The parameter 'a' is unused.".toList) = true := by decide +kernel

-- CppMethodInheritanceFromBaseClassShouldBeIgnored
example : ((taggedReports (unusedParamVisit)
    ([⟨"a".toList, false, false, [.function false true true (some true), .record, .other]⟩,
      ⟨"a".toList, false, false, [.function false true true (some true), .record, .other]⟩,
      ⟨"a".toList, false, false, [.function true true true (some true), .other]⟩] : List Param)).isEmpty) = true := by decide +kernel

-- CppMethodWithoutVirtualInBaseClassIsAViolation
example : (taggedAt 0 (taggedReports (unusedParamVisit)
    ([⟨"a".toList, false, false, [.function false true true (some false), .record, .other]⟩,
      ⟨"a".toList, false, false, [.function false true true (some false), .record, .other]⟩,
      ⟨"a".toList, false, false, [.function true true true (some false), .other]⟩] : List Param))
    [2] "The parameter 'a' is unused.".toList) = true := by decide +kernel

-- StaticFunctionShouldBeIgnored
example : ((taggedReports (unusedParamVisit)
    ([] : List Param)).isEmpty) = true := by decide +kernel

-- ObjCMethodDeclarationInsideInterfaceShouldBeIgnored
example : ((taggedReports (unusedParamVisit)
    ([⟨"a".toList, false, false, [.objcMethod ⟨"aMethod:".toList, true, .interface, (some ⟨none, []⟩), false⟩, .other, .other]⟩] : List Param)).isEmpty) = true := by decide +kernel

-- ObjCMethodDeclarationInsideCategoryShouldBeIgnored
example : ((taggedReports (unusedParamVisit)
    ([⟨"a".toList, false, false, [.objcMethod ⟨"aMethod:".toList, true, .category, (some ⟨none, []⟩), false⟩, .other, .other]⟩] : List Param)).isEmpty) = true := by decide +kernel

-- ObjCMethodInheritanceFromBaseInterfaceShouldBeIgnored
example : ((taggedReports (unusedParamVisit)
    ([⟨"a".toList, false, false, [.objcMethod ⟨"aMethod:".toList, true, .interface, (some ⟨none, []⟩), false⟩, .other, .other]⟩,
      ⟨"a".toList, false, false, [.objcMethod ⟨"aMethod:".toList, true, .implementation, (some ⟨(some ⟨fun _ => true, fun _ => false⟩), []⟩), false⟩, .other, .other]⟩] : List Param)).isEmpty) = true := by decide +kernel

-- ObjCMethodWithIBActionAttribute
example : ((taggedReports (unusedParamVisit)
    ([⟨"sender".toList, false, false, [.objcMethod ⟨"aMethod:".toList, true, .interface, (some ⟨(some ⟨fun _ => false, fun _ => false⟩), []⟩), true⟩, .other, .other]⟩,
      ⟨"sender".toList, false, false, [.objcMethod ⟨"aMethod:".toList, true, .implementation, (some ⟨(some ⟨fun _ => false, fun _ => false⟩), []⟩), true⟩, .other, .other]⟩] : List Param)).isEmpty) = true := by decide +kernel

-- ObjCMethodWithIBActionAttributeMixed
example : (taggedAt 0 (taggedReports (unusedParamVisit)
    ([⟨"sender".toList, false, false, [.objcMethod ⟨"aMethod:".toList, true, .interface, (some ⟨(some ⟨fun _ => false, fun _ => false⟩), []⟩), true⟩, .other, .other]⟩,
      ⟨"a".toList, false, false, [.objcMethod ⟨"bMethod:".toList, true, .interface, (some ⟨(some ⟨fun _ => false, fun _ => false⟩), []⟩), false⟩, .other, .other]⟩,
      ⟨"sender".toList, false, false, [.objcMethod ⟨"aMethod:".toList, true, .implementation, (some ⟨(some ⟨fun _ => false, fun _ => false⟩), []⟩), true⟩, .other, .other]⟩,
      ⟨"a".toList, false, false, [.objcMethod ⟨"bMethod:".toList, true, .implementation, (some ⟨(some ⟨fun _ => false, fun _ => false⟩), []⟩), false⟩, .other, .other]⟩] : List Param))
    [3] "The parameter 'a' is unused.".toList) = true := by decide +kernel

-- BlockDeclarationShouldBeIgnored
example : ((taggedReports (unusedParamVisit)
    ([⟨"yield".toList, true, false, [.function true true true none, .other]⟩,
      ⟨"number".toList, false, false, [.block, .function true true true none, .other]⟩] : List Param)).isEmpty) = true := by decide +kernel

-- IgnoreUnusedParameterInTemplateFunction
example : ((taggedReports (unusedParamVisit)
    ([⟨"i".toList, false, false, [.function true true false none, .other]⟩] : List Param)).isEmpty) = true := by decide +kernel

-- UnusedLocalVariableShouldBeIgnoredInThisRule
example : ((taggedReports (unusedParamVisit)
    ([] : List Param)).isEmpty) = true := by decide +kernel

-- AttributeUnusedSupressesFirstParameterRule
example : (taggedAt 0 (taggedReports (unusedParamVisit)
    ([⟨"a".toList, false, false, [.function false true true none, .other]⟩,
      ⟨"b".toList, false, false, [.function false true true none, .other]⟩,
      ⟨"a".toList, false, true, [.function true true true none, .other]⟩,
      ⟨"b".toList, false, false, [.function true true true none, .other]⟩] : List Param))
    [3] "The parameter 'b' is unused.".toList) = true := by decide +kernel

-- AttributeUnusedSupressesSecondParameterRule
example : (taggedAt 0 (taggedReports (unusedParamVisit)
    ([⟨"a".toList, false, false, [.function false true true none, .other]⟩,
      ⟨"b".toList, false, false, [.function false true true none, .other]⟩,
      ⟨"a".toList, false, false, [.function true true true none, .other]⟩,
      ⟨"b".toList, false, true, [.function true true true none, .other]⟩] : List Param))
    [2] "The parameter 'a' is unused.".toList) = true := by decide +kernel

-- AttributeUnusedSupressesAllParameterRule
example : ((taggedReports (unusedParamVisit)
    ([⟨"a".toList, false, false, [.function false true true none, .other]⟩,
      ⟨"b".toList, false, false, [.function false true true none, .other]⟩,
      ⟨"a".toList, false, true, [.function true true true none, .other]⟩,
      ⟨"b".toList, false, true, [.function true true true none, .other]⟩] : List Param)).isEmpty) = true := by decide +kernel

end Oclint
