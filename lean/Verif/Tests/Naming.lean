import Verif.Tests.Support

/-!
# Tests of the repository, naming

Written by `tools/repotests.py`; see `Verif/Tests/Support.lean`.
-/

namespace Oclint

set_option linter.all false

/-! ## `oclint-rules/test/naming/LongVariableNameRuleTest.cpp` -/

-- NoVar
example : ((taggedReports (metricMessages (some [("LONG_VARIABLE_NAME".toList, "3".toList)]) .longName)
    ([] : List Construct)).isEmpty) = true := by decide +kernel

-- OneCharName
example : ((taggedReports (metricMessages (some [("LONG_VARIABLE_NAME".toList, "3".toList)]) .longName)
    ([.variable "i".toList] : List Construct)).isEmpty) = true := by decide +kernel

-- TwoCharsName
example : ((taggedReports (metricMessages (some [("LONG_VARIABLE_NAME".toList, "3".toList)]) .longName)
    ([.variable "ii".toList] : List Construct)).isEmpty) = true := by decide +kernel

-- ThreeCharsName
example : ((taggedReports (metricMessages (some [("LONG_VARIABLE_NAME".toList, "3".toList)]) .longName)
    ([.variable "iii".toList] : List Construct)).isEmpty) = true := by decide +kernel

-- FourCharsName
example : (taggedAt 0 (taggedReports (metricMessages (some [("LONG_VARIABLE_NAME".toList, "3".toList)]) .longName)
    ([.variable "iiii".toList] : List Construct))
    [0] "Length of variable name `iiii` is 4, which is longer than the threshold of 3".toList) = true := by decide +kernel

-- FiveCharsName
example : (taggedAt 0 (taggedReports (metricMessages (some [("LONG_VARIABLE_NAME".toList, "3".toList)]) .longName)
    ([.variable "iiiii".toList] : List Construct))
    [0] "Length of variable name `iiiii` is 5, which is longer than the threshold of 3".toList) = true := by decide +kernel

-- FifteenCharsName
example : (taggedAt 0 (taggedReports (metricMessages (some [("LONG_VARIABLE_NAME".toList, "3".toList)]) .longName)
    ([.variable "iiiiiiiiiiiiiii".toList] : List Construct))
    [0] "Length of variable name `iiiiii...iii` is 15, which is longer than the threshold of 3".toList) = true := by decide +kernel

/-! ## `oclint-rules/test/naming/ShortVariableNameRuleTest.cpp` -/

-- C_NoVar
example : ((shortNames (some [("SHORT_VARIABLE_NAME".toList, "3".toList)]) [(.compound [])]).isEmpty) = true := by decide +kernel

-- C_OneCharName
example : (taggedAt 0 (shortNames (some [("SHORT_VARIABLE_NAME".toList, "3".toList)]) [(.varD ⟨0, "i".toList⟩ none),
      (.compound [])]) [0] "Length of variable name `i` is 1, which is shorter than the threshold of 3".toList) = true := by decide +kernel

-- C_TwoCharsName
example : (taggedAt 0 (shortNames (some [("SHORT_VARIABLE_NAME".toList, "3".toList)]) [(.compound [(.declS [(.varD ⟨0, "ii".toList⟩ none)])])]) [0] "Length of variable name `ii` is 2, which is shorter than the threshold of 3".toList) = true := by decide +kernel

-- C_ThreeCharsName
example : ((shortNames (some [("SHORT_VARIABLE_NAME".toList, "3".toList)]) [(.compound [(.declS [(.varD ⟨0, "iii".toList⟩ none)])])]).isEmpty) = true := by decide +kernel

-- C_FourCharsName
example : ((shortNames (some [("SHORT_VARIABLE_NAME".toList, "3".toList)]) [(.compound [(.declS [(.varD ⟨0, "iiii".toList⟩ none)])])]).isEmpty) = true := by decide +kernel

-- Cpp_NoVar
example : ((shortNames (some [("SHORT_VARIABLE_NAME".toList, "3".toList)]) [(.compound [])]).isEmpty) = true := by decide +kernel

-- Cpp_OneCharName
example : (taggedAt 0 (shortNames (some [("SHORT_VARIABLE_NAME".toList, "3".toList)]) [(.varD ⟨0, "i".toList⟩ none),
      (.compound [])]) [0] "Length of variable name `i` is 1, which is shorter than the threshold of 3".toList) = true := by decide +kernel

-- Cpp_TwoCharsName
example : (taggedAt 0 (shortNames (some [("SHORT_VARIABLE_NAME".toList, "3".toList)]) [(.compound [(.declS [(.varD ⟨0, "ii".toList⟩ none)])])]) [0] "Length of variable name `ii` is 2, which is shorter than the threshold of 3".toList) = true := by decide +kernel

-- Cpp_ThreeCharsName
example : ((shortNames (some [("SHORT_VARIABLE_NAME".toList, "3".toList)]) [(.compound [(.declS [(.varD ⟨0, "iii".toList⟩ none)])])]).isEmpty) = true := by decide +kernel

-- Cpp_FourCharsName
example : ((shortNames (some [("SHORT_VARIABLE_NAME".toList, "3".toList)]) [(.compound [(.declS [(.varD ⟨0, "iiii".toList⟩ none)])])]).isEmpty) = true := by decide +kernel

-- ObjC_NoVar
example : ((shortNames (some [("SHORT_VARIABLE_NAME".toList, "3".toList)]) [(.compound [])]).isEmpty) = true := by decide +kernel

-- ObjC_OneCharName
example : (taggedAt 0 (shortNames (some [("SHORT_VARIABLE_NAME".toList, "3".toList)]) [(.varD ⟨0, "i".toList⟩ none),
      (.compound [])]) [0] "Length of variable name `i` is 1, which is shorter than the threshold of 3".toList) = true := by decide +kernel

-- ObjC_TwoCharsName
example : (taggedAt 0 (shortNames (some [("SHORT_VARIABLE_NAME".toList, "3".toList)]) [(.compound [(.declS [(.varD ⟨0, "ii".toList⟩ none)])])]) [0] "Length of variable name `ii` is 2, which is shorter than the threshold of 3".toList) = true := by decide +kernel

-- ObjC_ThreeCharsName
example : ((shortNames (some [("SHORT_VARIABLE_NAME".toList, "3".toList)]) [(.compound [(.declS [(.varD ⟨0, "iii".toList⟩ none)])])]).isEmpty) = true := by decide +kernel

-- ObjC_FourCharsName
example : ((shortNames (some [("SHORT_VARIABLE_NAME".toList, "3".toList)]) [(.compound [(.declS [(.varD ⟨0, "iiii".toList⟩ none)])])]).isEmpty) = true := by decide +kernel

-- IgnoreVariableInCXXForInit
example : ((shortNames (some [("SHORT_VARIABLE_NAME".toList, "3".toList)]) [(.compound [(.forS (some (.declS [(.varD ⟨0, "i".toList⟩ (some (.intLit 0)))])) none none (.compound []))])]).isEmpty) = true := by decide +kernel

-- IgnoreVariableInCXXForEachInit
example : ((shortNames (some [("SHORT_VARIABLE_NAME".toList, "3".toList)]) [(.compound [(.declS [(.varD ⟨0, "anArray".toList⟩ none)]), (.forRange (.declRef ⟨0, "anArray".toList⟩) (.declS [(.varD ⟨1, "it".toList⟩ (some (.cast .implicit .lvalueToRvalue (.unary .deref (.cast .implicit .lvalueToRvalue (.declRef ⟨2, "__begin1".toList⟩))))))]) (.compound []))])]).isEmpty) = true := by decide +kernel

-- IgnoreVariableInObjCForInit
example : ((shortNames (some [("SHORT_VARIABLE_NAME".toList, "3".toList)]) [(.compound [(.forS (some (.declS [(.varD ⟨0, "i".toList⟩ (some (.intLit 0)))])) none none (.compound []))])]).isEmpty) = true := by decide +kernel

-- IgnoreVariableInObjCForEachInit
example : ((shortNames (some [("SHORT_VARIABLE_NAME".toList, "3".toList)]) [(.compound [(.declS [(.varD ⟨0, "anArray".toList⟩ none)]), (.forIn (.declS [(.varD ⟨1, "it".toList⟩ none)]) (.cast .implicit .lvalueToRvalue (.declRef ⟨0, "anArray".toList⟩)) (.compound []))])]).isEmpty) = true := by decide +kernel

-- IgnoreMultipleVariablesInCXXForInit
example : ((shortNames (some [("SHORT_VARIABLE_NAME".toList, "3".toList)]) [(.compound [(.forS (some (.declS [(.varD ⟨0, "i".toList⟩ (some (.intLit 0))), (.varD ⟨1, "ie".toList⟩ (some (.intLit 1)))])) none none (.compound []))])]).isEmpty) = true := by decide +kernel

-- NestedForLoopForCXX
example : ((shortNames (some [("SHORT_VARIABLE_NAME".toList, "3".toList)]) [(.compound [(.declS [(.varD ⟨0, "anArray".toList⟩ none)]), (.forS (some (.declS [(.varD ⟨1, "i".toList⟩ (some (.intLit 0)))])) none none (.compound [(.forS (some (.declS [(.varD ⟨2, "j".toList⟩ (some (.intLit 0))), (.varD ⟨3, "je".toList⟩ (some (.intLit 1)))])) none none (.compound [(.forRange (.declRef ⟨0, "anArray".toList⟩) (.declS [(.varD ⟨4, "k".toList⟩ (some (.cast .implicit .lvalueToRvalue (.unary .deref (.cast .implicit .lvalueToRvalue (.declRef ⟨5, "__begin3".toList⟩))))))]) (.compound []))]))]))])]).isEmpty) = true := by decide +kernel

-- NestedForLoopForObjC
example : ((shortNames (some [("SHORT_VARIABLE_NAME".toList, "3".toList)]) [(.compound [(.declS [(.varD ⟨0, "anArray".toList⟩ none)]), (.forS (some (.declS [(.varD ⟨1, "i".toList⟩ (some (.intLit 0)))])) none none (.compound [(.forS (some (.declS [(.varD ⟨2, "j".toList⟩ (some (.intLit 0))), (.varD ⟨3, "je".toList⟩ (some (.intLit 1)))])) none none (.compound [(.forIn (.declS [(.varD ⟨4, "k".toList⟩ none)]) (.cast .implicit .lvalueToRvalue (.declRef ⟨0, "anArray".toList⟩)) (.compound []))]))]))])]).isEmpty) = true := by decide +kernel

-- IgnoreVariableInCXXException
example : ((shortNames (some [("SHORT_VARIABLE_NAME".toList, "3".toList)]) [(.compound [(.cxxTry (.compound [.nullS]) [(.cxxCatch (some (.varD ⟨0, "ex".toList⟩ none)) (.compound [.nullS]))])])]).isEmpty) = true := by decide +kernel

-- IgnoreVariableInObjCException
example : ((shortNames (some [("SHORT_VARIABLE_NAME".toList, "3".toList)]) [(.compound [(.atTry (.compound [.nullS]) [(.atCatch (.compound [.nullS]))] none)])]).isEmpty) = true := by decide +kernel

-- IgnoreMultipleVariablesInObjCException
example : ((shortNames (some [("SHORT_VARIABLE_NAME".toList, "3".toList)]) [(.compound [(.atTry (.compound [.nullS]) [(.atCatch (.compound [.nullS])), (.atCatch (.compound [.nullS]))] none)])]).isEmpty) = true := by decide +kernel

-- ShortVariableInsideCatchBlock
example : (taggedAt 0 (shortNames (some [("SHORT_VARIABLE_NAME".toList, "3".toList)]) [(.compound [(.atTry (.compound [.nullS]) [(.atCatch (.compound [.nullS])), (.atCatch (.compound [(.declS [(.varD ⟨0, "i".toList⟩ none)])]))] none)])]) [0] "Length of variable name `i` is 1, which is shorter than the threshold of 3".toList) = true := by decide +kernel

end Oclint
