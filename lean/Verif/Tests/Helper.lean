import Verif.Tests.Support

/-!
# Tests of the repository, helper

Written by `tools/repotests.py`; see `Verif/Tests/Support.lean`.
-/

namespace Oclint

set_option linter.all false

/-! ## `oclint-rules/test/helper/AttributeHelperTest.cpp` -/

-- NoAttributeFunctionCall
example : ((taggedReports (attributeTestVisit)
    ([.function (some ("a".toList, (.plain [])))] : List AnyCall)).isEmpty) = true := by decide +kernel

-- AttributeFunctionCall
example : (taggedAt 0 (taggedReports (attributeTestVisit)
    ([.function (some ("a".toList, (.plain ["oclint:enforce[test attribute]".toList])))] : List AnyCall))
    [0] "".toList) = true := by decide +kernel

-- IncorrectAction
example : ((taggedReports (attributeTestVisit)
    ([.function (some ("a".toList, (.plain ["oclint:wrong[test attribute]".toList])))] : List AnyCall)).isEmpty) = true := by decide +kernel

-- BadFormat
example : ((taggedReports (attributeTestVisit)
    ([.function (some ("a".toList, (.plain ["oclint-sfdklj]".toList])))] : List AnyCall)).isEmpty) = true := by decide +kernel

-- IncorrectAttribute
example : ((taggedReports (attributeTestVisit)
    ([.function (some ("a".toList, (.plain ["oclint:enforce[wrong attribute]".toList])))] : List AnyCall)).isEmpty) = true := by decide +kernel

-- ExtraFunctionDeclBefore
example : (taggedAt 0 (taggedReports (attributeTestVisit)
    ([.function (some ("a".toList, (.plain ["oclint:enforce[test attribute]".toList])))] : List AnyCall))
    [0] "".toList) = true := by decide +kernel

-- ExtraFunctionDeclAfter
example : (taggedAt 0 (taggedReports (attributeTestVisit)
    ([.function (some ("a".toList, (.plain ["oclint:enforce[test attribute]".toList])))] : List AnyCall))
    [0] "".toList) = true := by decide +kernel

-- MethodNoAttribute
example : ((taggedReports (attributeTestVisit)
    ([.message "foo".toList (some (.method [] false none .classWithInterface []))] : List AnyCall)).isEmpty) = true := by decide +kernel

-- MethodAttribute
example : (taggedAt 0 (taggedReports (attributeTestVisit)
    ([.message "foo".toList (some (.method ["oclint:enforce[test attribute]".toList] false none .classWithInterface []))] : List AnyCall))
    [0] "".toList) = true := by decide +kernel

-- CategoryAttribute
example : (taggedAt 0 (taggedReports (attributeTestVisit)
    ([.message "foo".toList (some (.method [] false none .classWithInterface [(some (.method ["oclint:enforce[test attribute]".toList] false none .category []))]))] : List AnyCall))
    [0] "".toList) = true := by decide +kernel

-- PropertyAttribute
example : (taggedAt 0 (taggedReports (attributeTestVisit)
    ([.message "setFoo:".toList (some (.method [] true (some ["oclint:enforce[test attribute]".toList]) .classWithInterface []))] : List AnyCall))
    [0] "".toList) = true := by decide +kernel

-- CategoryPropertyAttribute
example : (taggedAt 0 (taggedReports (attributeTestVisit)
    ([.message "setFoo:".toList (some (.method [] true (some []) .classWithInterface [(some (.method [] true (some ["oclint:enforce[test attribute]".toList]) .category []))]))] : List AnyCall))
    [0] "".toList) = true := by decide +kernel

-- CategoryPropertyRedeclaredAttribute
example : (taggedAt 0 (taggedReports (attributeTestVisit)
    ([.message "setFoo:".toList (some (.method [] true (some ["oclint:enforce[test attribute]".toList]) .classWithInterface [(some (.method [] true (some []) .category []))]))] : List AnyCall))
    [0] "".toList) = true := by decide +kernel

-- CorrectComment
example : (taggedAt 0 (taggedReports (attributeCommentTestVisit)
    ([.function (some ("a".toList, (.plain ["oclint:enforce[test attribute][foo]".toList])))] : List AnyCall))
    [0] "foo".toList) = true := by decide +kernel

-- MissingClose
example : (taggedAt 0 (taggedReports (attributeCommentTestVisit)
    ([.function (some ("a".toList, (.plain ["oclint:enforce[test attribute][foo".toList])))] : List AnyCall))
    [0] "no comment".toList) = true := by decide +kernel

-- ExtraClose
example : (taggedAt 0 (taggedReports (attributeCommentTestVisit)
    ([.function (some ("a".toList, (.plain ["oclint:enforce[test attribute][foo]]".toList])))] : List AnyCall))
    [0] "foo]".toList) = true := by decide +kernel

-- NoComment
example : (taggedAt 0 (taggedReports (attributeCommentTestVisit)
    ([.function (some ("a".toList, (.plain ["oclint:enforce[test attribute]".toList])))] : List AnyCall))
    [0] "no comment".toList) = true := by decide +kernel

-- ParensComment
example : (taggedAt 0 (taggedReports (attributeCommentTestVisit)
    ([.function (some ("a".toList, (.plain ["oclint:enforce[test attribute](comment)".toList])))] : List AnyCall))
    [0] "no comment".toList) = true := by decide +kernel

-- ExtraJunk
example : (taggedAt 0 (taggedReports (attributeCommentTestVisit)
    ([.function (some ("a".toList, (.plain ["oclint:enforce[test attribute]sdkjfl".toList])))] : List AnyCall))
    [0] "no comment".toList) = true := by decide +kernel

/-! ## `oclint-rules/test/helper/SuppressHelperTest.cpp` -/

-- NoSuppress
example : (violationAt 0 (everyNodeViolations false "test ast rule".toList ⟨"input.m".toList, some [], [(true, [⟨(.plain []), 1, 1⟩])], "void a() {}".toList⟩ [([(.decl (.plain [])), (.decl (.plain []))], ⟨"input.m".toList, 1, 1, 1, 11⟩),
      ([(.decl (.plain [])), (.decl (.plain [])), .stmt], ⟨"input.m".toList, 1, 10, 1, 11⟩)]) (1, 1, 1, 11) "".toList) = true := by decide +kernel

-- NoSuppress
example : (violationAt 1 (everyNodeViolations false "test ast rule".toList ⟨"input.m".toList, some [], [(true, [⟨(.plain []), 1, 1⟩])], "void a() {}".toList⟩ [([(.decl (.plain [])), (.decl (.plain []))], ⟨"input.m".toList, 1, 1, 1, 11⟩),
      ([(.decl (.plain [])), (.decl (.plain [])), .stmt], ⟨"input.m".toList, 1, 10, 1, 11⟩)]) (1, 10, 1, 11) "".toList) = true := by decide +kernel

-- SimpleSuppressEntireMethod
example : ((everyNodeViolations false "test ast rule".toList ⟨"input.m".toList, some [], [(true, [⟨(.plain ["oclint:suppress[test ast rule]".toList]), 1, 1⟩, ⟨(.plain []), 1, 1⟩])], "void __attribute__((annotate(\"oclint:suppress[test ast rule]\"))) a() { int i = 1; }".toList⟩ [([(.decl (.plain [])), (.decl (.plain ["oclint:suppress[test ast rule]".toList]))], ⟨"input.m".toList, 1, 1, 1, 83⟩),
      ([(.decl (.plain [])), (.decl (.plain ["oclint:suppress[test ast rule]".toList])), .stmt], ⟨"input.m".toList, 1, 70, 1, 83⟩),
      ([(.decl (.plain [])), (.decl (.plain ["oclint:suppress[test ast rule]".toList])), .stmt, .stmt], ⟨"input.m".toList, 1, 72, 1, 81⟩),
      ([(.decl (.plain [])), (.decl (.plain ["oclint:suppress[test ast rule]".toList])), .stmt, .stmt, (.decl (.plain []))], ⟨"input.m".toList, 1, 72, 1, 80⟩),
      ([(.decl (.plain [])), (.decl (.plain ["oclint:suppress[test ast rule]".toList])), .stmt, .stmt, (.decl (.plain [])), .stmt], ⟨"input.m".toList, 1, 80, 1, 80⟩)]).isEmpty) = true := by decide +kernel

-- SimpleSuppressEntireCXXClass
example : ((everyNodeViolations false "test ast rule".toList ⟨"input.m".toList, some [], [(true, [⟨(.plain ["oclint:suppress[test ast rule]".toList]), 1, 1⟩, ⟨(.plain []), 1, 1⟩, ⟨(.plain []), 1, 1⟩])], "class __attribute__((annotate(\"oclint:suppress[test ast rule]\"))) c { void a() { int i = 1; } };".toList⟩ [([(.decl (.plain [])), (.decl (.plain ["oclint:suppress[test ast rule]".toList]))], ⟨"input.m".toList, 1, 1, 1, 95⟩),
      ([(.decl (.plain [])), (.decl (.plain ["oclint:suppress[test ast rule]".toList])), (.decl (.plain []))], ⟨"input.m".toList, 1, 71, 1, 93⟩),
      ([(.decl (.plain [])), (.decl (.plain ["oclint:suppress[test ast rule]".toList])), (.decl (.plain [])), .stmt], ⟨"input.m".toList, 1, 80, 1, 93⟩),
      ([(.decl (.plain [])), (.decl (.plain ["oclint:suppress[test ast rule]".toList])), (.decl (.plain [])), .stmt, .stmt], ⟨"input.m".toList, 1, 82, 1, 91⟩),
      ([(.decl (.plain [])), (.decl (.plain ["oclint:suppress[test ast rule]".toList])), (.decl (.plain [])), .stmt, .stmt, (.decl (.plain []))], ⟨"input.m".toList, 1, 82, 1, 90⟩),
      ([(.decl (.plain [])), (.decl (.plain ["oclint:suppress[test ast rule]".toList])), (.decl (.plain [])), .stmt, .stmt, (.decl (.plain [])), .stmt], ⟨"input.m".toList, 1, 90, 1, 90⟩)]).isEmpty) = true := by decide +kernel

-- CXXClassSuppressOnClass
example : (violationAt 1 (everyNodeViolations false "test ast rule".toList ⟨"input.m".toList, some [], [(true, [⟨(.plain ["oclint:suppress".toList]), 1, 1⟩, ⟨(.plain []), 1, 1⟩]), (true, [⟨(.plain []), 2, 2⟩])], "class __attribute__((annotate(\"oclint:suppress\"))) c { void a(); };\nvoid c::a() {}\n".toList⟩ [([(.decl (.plain [])), (.decl (.plain ["oclint:suppress".toList]))], ⟨"input.m".toList, 1, 1, 1, 66⟩),
      ([(.decl (.plain [])), (.decl (.plain ["oclint:suppress".toList])), (.decl (.plain []))], ⟨"input.m".toList, 1, 56, 1, 63⟩),
      ([(.decl (.plain [])), (.decl (.plain []))], ⟨"input.m".toList, 2, 1, 2, 14⟩),
      ([(.decl (.plain [])), (.decl (.plain [])), .stmt], ⟨"input.m".toList, 2, 13, 2, 14⟩)]) (2, 13, 2, 14) "".toList) = true := by decide +kernel

-- CXXClassSuppressOnMethod
example : (violationAt 1 (everyNodeViolations false "test ast rule".toList ⟨"input.m".toList, some [], [(true, [⟨(.plain []), 1, 1⟩, ⟨(.plain []), 1, 1⟩]), (true, [⟨(.plain ["oclint:suppress".toList]), 2, 2⟩, ⟨(.plain []), 2, 2⟩])], "class c { void a(); };\nvoid __attribute__((annotate(\"oclint:suppress\"))) c::a() { int i = 1; }\n".toList⟩ [([(.decl (.plain [])), (.decl (.plain []))], ⟨"input.m".toList, 1, 1, 1, 21⟩),
      ([(.decl (.plain [])), (.decl (.plain [])), (.decl (.plain []))], ⟨"input.m".toList, 1, 11, 1, 18⟩),
      ([(.decl (.plain [])), (.decl (.plain ["oclint:suppress".toList]))], ⟨"input.m".toList, 2, 1, 2, 71⟩),
      ([(.decl (.plain [])), (.decl (.plain ["oclint:suppress".toList])), .stmt], ⟨"input.m".toList, 2, 58, 2, 71⟩),
      ([(.decl (.plain [])), (.decl (.plain ["oclint:suppress".toList])), .stmt, .stmt], ⟨"input.m".toList, 2, 60, 2, 69⟩),
      ([(.decl (.plain [])), (.decl (.plain ["oclint:suppress".toList])), .stmt, .stmt, (.decl (.plain []))], ⟨"input.m".toList, 2, 60, 2, 68⟩),
      ([(.decl (.plain [])), (.decl (.plain ["oclint:suppress".toList])), .stmt, .stmt, (.decl (.plain [])), .stmt], ⟨"input.m".toList, 2, 68, 2, 68⟩)]) (1, 11, 1, 18) "".toList) = true := by decide +kernel

-- ObjCContainerSuppressOnAtInterface
example : ((everyNodeViolations false "test ast rule".toList ⟨"input.m".toList, some [], [(true, [⟨(.plain ["oclint:suppress".toList]), 1, 4⟩, ⟨(.plain []), 2, 2⟩])], "__attribute__((annotate(\"oclint:suppress\"))) @interface a {\nint i;\n}\n@end".toList⟩ [([(.decl (.plain [])), (.decl (.plain ["oclint:suppress".toList]))], ⟨"input.m".toList, 1, 46, 4, 2⟩),
      ([(.decl (.plain [])), (.decl (.plain ["oclint:suppress".toList])), (.decl (.plain []))], ⟨"input.m".toList, 2, 1, 2, 5⟩)]).isEmpty) = true := by decide +kernel

-- ObjCContainerSuppressOnMethod
example : (violationAt 0 (everyNodeViolations false "test ast rule".toList ⟨"input.m".toList, some [some ("/* __attribute__((annotate(\"oclint:suppress\"))) */".toList, 6)], [(true, [⟨(.plain ["oclint:suppress".toList]), 1, 5⟩, ⟨(.plain []), 2, 2⟩, ⟨(.method ["oclint:suppress".toList] false none .classWithInterface []), 4, 4⟩]), (true, [⟨(.plain []), 6, 8⟩, ⟨(.method ["oclint:suppress".toList] false none .classWithInterface []), 7, 7⟩])], "__attribute__((annotate(\"oclint:suppress\"))) @interface a {\nint i;\n}\n-(void)m __attribute__((annotate(\"oclint:suppress\")));\n@end\n/* __attribute__((annotate(\"oclint:suppress\"))) */ @implementation a\n-(void)m __attribute__((annotate(\"oclint:suppress\"))) {}\n@end\n".toList⟩ [([(.decl (.plain [])), (.decl (.plain ["oclint:suppress".toList]))], ⟨"input.m".toList, 1, 46, 5, 2⟩),
      ([(.decl (.plain [])), (.decl (.plain ["oclint:suppress".toList])), (.decl (.plain []))], ⟨"input.m".toList, 2, 1, 2, 5⟩),
      ([(.decl (.plain [])), (.decl (.plain ["oclint:suppress".toList])), (.decl (.method ["oclint:suppress".toList] false none .classWithInterface []))], ⟨"input.m".toList, 4, 1, 4, 54⟩),
      ([(.decl (.plain [])), (.decl (.plain []))], ⟨"input.m".toList, 6, 52, 8, 1⟩),
      ([(.decl (.plain [])), (.decl (.plain [])), (.decl (.method ["oclint:suppress".toList] false none .classWithInterface []))], ⟨"input.m".toList, 7, 1, 7, 56⟩),
      ([(.decl (.plain [])), (.decl (.plain [])), (.decl (.method ["oclint:suppress".toList] false none .classWithInterface [])), .stmt], ⟨"input.m".toList, 7, 55, 7, 56⟩)]) (6, 52, 8, 1) "".toList) = true := by decide +kernel

-- SimpleNOLINT
example : ((everyNodeViolations false "test ast rule".toList ⟨"input.m".toList, some [some ("//!OCLINT".toList, 1)], [(true, [⟨(.plain []), 1, 1⟩])], "void a() {} //!OCLINT".toList⟩ [([(.decl (.plain [])), (.decl (.plain []))], ⟨"input.m".toList, 1, 1, 1, 11⟩),
      ([(.decl (.plain [])), (.decl (.plain [])), .stmt], ⟨"input.m".toList, 1, 10, 1, 11⟩)]).isEmpty) = true := by decide +kernel

-- SimpleNOLINT
example : ((everyNodeViolations true "test ast rule".toList ⟨"input.m".toList, some [some ("//! OCLINT".toList, 1)], [(true, [⟨(.plain []), 1, 1⟩])], "void a() {} //! OCLINT".toList⟩ [([(.decl (.plain [])), (.decl (.plain []))], ⟨"input.m".toList, 1, 1, 1, 11⟩),
      ([(.decl (.plain [])), (.decl (.plain [])), .stmt], ⟨"input.m".toList, 1, 10, 1, 11⟩)]).isEmpty) = true := by decide +kernel

-- SimpleNOLINT
example : ((everyNodeViolations true "test ast rule".toList ⟨"input.m".toList, some [some ("//!OCLint".toList, 1)], [(true, [⟨(.plain []), 1, 1⟩])], "void a() {} //!OCLint".toList⟩ [([(.decl (.plain [])), (.decl (.plain []))], ⟨"input.m".toList, 1, 1, 1, 11⟩),
      ([(.decl (.plain [])), (.decl (.plain [])), .stmt], ⟨"input.m".toList, 1, 10, 1, 11⟩)]).isEmpty) = true := by decide +kernel

-- SimpleNOLINT
example : ((everyNodeViolations true "test ast rule".toList ⟨"input.m".toList, some [some ("//! OCLint".toList, 1)], [(true, [⟨(.plain []), 1, 1⟩])], "void a() {} //! OCLint".toList⟩ [([(.decl (.plain [])), (.decl (.plain []))], ⟨"input.m".toList, 1, 1, 1, 11⟩),
      ([(.decl (.plain [])), (.decl (.plain [])), .stmt], ⟨"input.m".toList, 1, 10, 1, 11⟩)]).isEmpty) = true := by decide +kernel

-- MultipleLineNOLINT
example : ((everyNodeViolations false "test ast rule".toList ⟨"input.m".toList, some [some ("//!OCLINT".toList, 1), some ("//!OCLINT".toList, 2)], [(true, [⟨(.plain []), 1, 3⟩])], "void a() { //!OCLINT\n if (1) {//!OCLINT\n}}".toList⟩ [([(.decl (.plain [])), (.decl (.plain []))], ⟨"input.m".toList, 1, 1, 3, 2⟩),
      ([(.decl (.plain [])), (.decl (.plain [])), .stmt], ⟨"input.m".toList, 1, 10, 3, 2⟩),
      ([(.decl (.plain [])), (.decl (.plain [])), .stmt, .stmt], ⟨"input.m".toList, 2, 2, 3, 1⟩),
      ([(.decl (.plain [])), (.decl (.plain [])), .stmt, .stmt, .stmt], ⟨"input.m".toList, 2, 6, 2, 6⟩),
      ([(.decl (.plain [])), (.decl (.plain [])), .stmt, .stmt, .stmt], ⟨"input.m".toList, 2, 9, 3, 1⟩)]).isEmpty) = true := by decide +kernel

-- MultipleLineNOLINT
example : ((everyNodeViolations true "test ast rule".toList ⟨"input.m".toList, some [some ("//! OCLINT".toList, 1), some ("//! OCLINT".toList, 2)], [(true, [⟨(.plain []), 1, 3⟩])], "void a() { //! OCLINT\n if (1) {//! OCLINT\n}}".toList⟩ [([(.decl (.plain [])), (.decl (.plain []))], ⟨"input.m".toList, 1, 1, 3, 2⟩),
      ([(.decl (.plain [])), (.decl (.plain [])), .stmt], ⟨"input.m".toList, 1, 10, 3, 2⟩),
      ([(.decl (.plain [])), (.decl (.plain [])), .stmt, .stmt], ⟨"input.m".toList, 2, 2, 3, 1⟩),
      ([(.decl (.plain [])), (.decl (.plain [])), .stmt, .stmt, .stmt], ⟨"input.m".toList, 2, 6, 2, 6⟩),
      ([(.decl (.plain [])), (.decl (.plain [])), .stmt, .stmt, .stmt], ⟨"input.m".toList, 2, 9, 3, 1⟩)]).isEmpty) = true := by decide +kernel

-- MultipleLineNOLINT
example : ((everyNodeViolations true "test ast rule".toList ⟨"input.m".toList, some [some ("//!OCLint".toList, 1), some ("//!OCLint".toList, 2)], [(true, [⟨(.plain []), 1, 3⟩])], "void a() { //!OCLint\n if (1) {//!OCLint\n}}".toList⟩ [([(.decl (.plain [])), (.decl (.plain []))], ⟨"input.m".toList, 1, 1, 3, 2⟩),
      ([(.decl (.plain [])), (.decl (.plain [])), .stmt], ⟨"input.m".toList, 1, 10, 3, 2⟩),
      ([(.decl (.plain [])), (.decl (.plain [])), .stmt, .stmt], ⟨"input.m".toList, 2, 2, 3, 1⟩),
      ([(.decl (.plain [])), (.decl (.plain [])), .stmt, .stmt, .stmt], ⟨"input.m".toList, 2, 6, 2, 6⟩),
      ([(.decl (.plain [])), (.decl (.plain [])), .stmt, .stmt, .stmt], ⟨"input.m".toList, 2, 9, 3, 1⟩)]).isEmpty) = true := by decide +kernel

-- MultipleLineNOLINT
example : ((everyNodeViolations true "test ast rule".toList ⟨"input.m".toList, some [some ("//! OCLint".toList, 1), some ("//! OCLint".toList, 2)], [(true, [⟨(.plain []), 1, 3⟩])], "void a() { //! OCLint\n if (1) {//! OCLint\n}}".toList⟩ [([(.decl (.plain [])), (.decl (.plain []))], ⟨"input.m".toList, 1, 1, 3, 2⟩),
      ([(.decl (.plain [])), (.decl (.plain [])), .stmt], ⟨"input.m".toList, 1, 10, 3, 2⟩),
      ([(.decl (.plain [])), (.decl (.plain [])), .stmt, .stmt], ⟨"input.m".toList, 2, 2, 3, 1⟩),
      ([(.decl (.plain [])), (.decl (.plain [])), .stmt, .stmt, .stmt], ⟨"input.m".toList, 2, 6, 2, 6⟩),
      ([(.decl (.plain [])), (.decl (.plain [])), .stmt, .stmt, .stmt], ⟨"input.m".toList, 2, 9, 3, 1⟩)]).isEmpty) = true := by decide +kernel

-- CommentWithDescriptionNOLINT
example : ((everyNodeViolations false "test ast rule".toList ⟨"input.m".toList, some [some ("//!OCLINT(reason for suppressing this is blahblah)".toList, 1)], [(true, [⟨(.plain []), 1, 1⟩])], "void a() {} //!OCLINT(reason for suppressing this is blahblah)".toList⟩ [([(.decl (.plain [])), (.decl (.plain []))], ⟨"input.m".toList, 1, 1, 1, 11⟩),
      ([(.decl (.plain [])), (.decl (.plain [])), .stmt], ⟨"input.m".toList, 1, 10, 1, 11⟩)]).isEmpty) = true := by decide +kernel

-- CommentWithDescriptionNOLINT
example : ((everyNodeViolations false "test ast rule".toList ⟨"input.m".toList, some [some ("//!OCLINT[reason for suppressing this is blahblah]".toList, 1)], [(true, [⟨(.plain []), 1, 1⟩])], "void a() {} //!OCLINT[reason for suppressing this is blahblah]".toList⟩ [([(.decl (.plain [])), (.decl (.plain []))], ⟨"input.m".toList, 1, 1, 1, 11⟩),
      ([(.decl (.plain [])), (.decl (.plain [])), .stmt], ⟨"input.m".toList, 1, 10, 1, 11⟩)]).isEmpty) = true := by decide +kernel

-- CommentWithDescriptionNOLINT
example : ((everyNodeViolations false "test ast rule".toList ⟨"input.m".toList, some [some ("//!OCLINT:reason for suppressing this is blahblah)".toList, 1)], [(true, [⟨(.plain []), 1, 1⟩])], "void a() {} //!OCLINT:reason for suppressing this is blahblah)".toList⟩ [([(.decl (.plain [])), (.decl (.plain []))], ⟨"input.m".toList, 1, 1, 1, 11⟩),
      ([(.decl (.plain [])), (.decl (.plain [])), .stmt], ⟨"input.m".toList, 1, 10, 1, 11⟩)]).isEmpty) = true := by decide +kernel

-- CommentWithDescriptionNOLINT
example : ((everyNodeViolations false "test ast rule".toList ⟨"input.m".toList, some [some ("//!OCLINT     ".toList, 1)], [(true, [⟨(.plain []), 1, 1⟩])], "void a() {} //!OCLINT     ".toList⟩ [([(.decl (.plain [])), (.decl (.plain []))], ⟨"input.m".toList, 1, 1, 1, 11⟩),
      ([(.decl (.plain [])), (.decl (.plain [])), .stmt], ⟨"input.m".toList, 1, 10, 1, 11⟩)]).isEmpty) = true := by decide +kernel

-- CommentWithDescriptionNOLINT
example : ((everyNodeViolations true "test ast rule".toList ⟨"input.m".toList, some [some ("//! OCLINT(reason for suppressing this is blahblah)".toList, 1)], [(true, [⟨(.plain []), 1, 1⟩])], "void a() {} //! OCLINT(reason for suppressing this is blahblah)".toList⟩ [([(.decl (.plain [])), (.decl (.plain []))], ⟨"input.m".toList, 1, 1, 1, 11⟩),
      ([(.decl (.plain [])), (.decl (.plain [])), .stmt], ⟨"input.m".toList, 1, 10, 1, 11⟩)]).isEmpty) = true := by decide +kernel

-- CommentWithDescriptionNOLINT
example : ((everyNodeViolations true "test ast rule".toList ⟨"input.m".toList, some [some ("//! OCLINT[reason for suppressing this is blahblah]".toList, 1)], [(true, [⟨(.plain []), 1, 1⟩])], "void a() {} //! OCLINT[reason for suppressing this is blahblah]".toList⟩ [([(.decl (.plain [])), (.decl (.plain []))], ⟨"input.m".toList, 1, 1, 1, 11⟩),
      ([(.decl (.plain [])), (.decl (.plain [])), .stmt], ⟨"input.m".toList, 1, 10, 1, 11⟩)]).isEmpty) = true := by decide +kernel

-- CommentWithDescriptionNOLINT
example : ((everyNodeViolations true "test ast rule".toList ⟨"input.m".toList, some [some ("//! OCLINT:reason for suppressing this is blahblah)".toList, 1)], [(true, [⟨(.plain []), 1, 1⟩])], "void a() {} //! OCLINT:reason for suppressing this is blahblah)".toList⟩ [([(.decl (.plain [])), (.decl (.plain []))], ⟨"input.m".toList, 1, 1, 1, 11⟩),
      ([(.decl (.plain [])), (.decl (.plain [])), .stmt], ⟨"input.m".toList, 1, 10, 1, 11⟩)]).isEmpty) = true := by decide +kernel

-- CommentWithDescriptionNOLINT
example : ((everyNodeViolations true "test ast rule".toList ⟨"input.m".toList, some [some ("//! OCLINT     ".toList, 1)], [(true, [⟨(.plain []), 1, 1⟩])], "void a() {} //! OCLINT     ".toList⟩ [([(.decl (.plain [])), (.decl (.plain []))], ⟨"input.m".toList, 1, 1, 1, 11⟩),
      ([(.decl (.plain [])), (.decl (.plain [])), .stmt], ⟨"input.m".toList, 1, 10, 1, 11⟩)]).isEmpty) = true := by decide +kernel

-- CommentWithDescriptionNOLINT
example : ((everyNodeViolations true "test ast rule".toList ⟨"input.m".toList, some [some ("//!OCLint(reason for suppressing this is blahblah)".toList, 1)], [(true, [⟨(.plain []), 1, 1⟩])], "void a() {} //!OCLint(reason for suppressing this is blahblah)".toList⟩ [([(.decl (.plain [])), (.decl (.plain []))], ⟨"input.m".toList, 1, 1, 1, 11⟩),
      ([(.decl (.plain [])), (.decl (.plain [])), .stmt], ⟨"input.m".toList, 1, 10, 1, 11⟩)]).isEmpty) = true := by decide +kernel

-- CommentWithDescriptionNOLINT
example : ((everyNodeViolations true "test ast rule".toList ⟨"input.m".toList, some [some ("//!OCLint[reason for suppressing this is blahblah]".toList, 1)], [(true, [⟨(.plain []), 1, 1⟩])], "void a() {} //!OCLint[reason for suppressing this is blahblah]".toList⟩ [([(.decl (.plain [])), (.decl (.plain []))], ⟨"input.m".toList, 1, 1, 1, 11⟩),
      ([(.decl (.plain [])), (.decl (.plain [])), .stmt], ⟨"input.m".toList, 1, 10, 1, 11⟩)]).isEmpty) = true := by decide +kernel

-- CommentWithDescriptionNOLINT
example : ((everyNodeViolations true "test ast rule".toList ⟨"input.m".toList, some [some ("//!OCLint:reason for suppressing this is blahblah)".toList, 1)], [(true, [⟨(.plain []), 1, 1⟩])], "void a() {} //!OCLint:reason for suppressing this is blahblah)".toList⟩ [([(.decl (.plain [])), (.decl (.plain []))], ⟨"input.m".toList, 1, 1, 1, 11⟩),
      ([(.decl (.plain [])), (.decl (.plain [])), .stmt], ⟨"input.m".toList, 1, 10, 1, 11⟩)]).isEmpty) = true := by decide +kernel

-- CommentWithDescriptionNOLINT
example : ((everyNodeViolations true "test ast rule".toList ⟨"input.m".toList, some [some ("//!OCLint     ".toList, 1)], [(true, [⟨(.plain []), 1, 1⟩])], "void a() {} //!OCLint     ".toList⟩ [([(.decl (.plain [])), (.decl (.plain []))], ⟨"input.m".toList, 1, 1, 1, 11⟩),
      ([(.decl (.plain [])), (.decl (.plain [])), .stmt], ⟨"input.m".toList, 1, 10, 1, 11⟩)]).isEmpty) = true := by decide +kernel

-- CommentWithDescriptionNOLINT
example : ((everyNodeViolations true "test ast rule".toList ⟨"input.m".toList, some [some ("//! OCLint(reason for suppressing this is blahblah)".toList, 1)], [(true, [⟨(.plain []), 1, 1⟩])], "void a() {} //! OCLint(reason for suppressing this is blahblah)".toList⟩ [([(.decl (.plain [])), (.decl (.plain []))], ⟨"input.m".toList, 1, 1, 1, 11⟩),
      ([(.decl (.plain [])), (.decl (.plain [])), .stmt], ⟨"input.m".toList, 1, 10, 1, 11⟩)]).isEmpty) = true := by decide +kernel

-- CommentWithDescriptionNOLINT
example : ((everyNodeViolations true "test ast rule".toList ⟨"input.m".toList, some [some ("//! OCLint[reason for suppressing this is blahblah]".toList, 1)], [(true, [⟨(.plain []), 1, 1⟩])], "void a() {} //! OCLint[reason for suppressing this is blahblah]".toList⟩ [([(.decl (.plain [])), (.decl (.plain []))], ⟨"input.m".toList, 1, 1, 1, 11⟩),
      ([(.decl (.plain [])), (.decl (.plain [])), .stmt], ⟨"input.m".toList, 1, 10, 1, 11⟩)]).isEmpty) = true := by decide +kernel

-- CommentWithDescriptionNOLINT
example : ((everyNodeViolations true "test ast rule".toList ⟨"input.m".toList, some [some ("//! OCLint:reason for suppressing this is blahblah)".toList, 1)], [(true, [⟨(.plain []), 1, 1⟩])], "void a() {} //! OCLint:reason for suppressing this is blahblah)".toList⟩ [([(.decl (.plain [])), (.decl (.plain []))], ⟨"input.m".toList, 1, 1, 1, 11⟩),
      ([(.decl (.plain [])), (.decl (.plain [])), .stmt], ⟨"input.m".toList, 1, 10, 1, 11⟩)]).isEmpty) = true := by decide +kernel

-- CommentWithDescriptionNOLINT
example : ((everyNodeViolations true "test ast rule".toList ⟨"input.m".toList, some [some ("//! OCLint     ".toList, 1)], [(true, [⟨(.plain []), 1, 1⟩])], "void a() {} //! OCLint     ".toList⟩ [([(.decl (.plain [])), (.decl (.plain []))], ⟨"input.m".toList, 1, 1, 1, 11⟩),
      ([(.decl (.plain [])), (.decl (.plain [])), .stmt], ⟨"input.m".toList, 1, 10, 1, 11⟩)]).isEmpty) = true := by decide +kernel

-- CommentWithDescriptionNOLINT
example : ((everyNodeViolations true "test ast rule".toList ⟨"input.m".toList, some [some ("//!  OCLint(reason for suppressing this is blahblah)".toList, 1)], [(true, [⟨(.plain []), 1, 1⟩])], "void a() {} //!  OCLint(reason for suppressing this is blahblah)".toList⟩ [([(.decl (.plain [])), (.decl (.plain []))], ⟨"input.m".toList, 1, 1, 1, 11⟩),
      ([(.decl (.plain [])), (.decl (.plain [])), .stmt], ⟨"input.m".toList, 1, 10, 1, 11⟩)]).isEmpty) = true := by decide +kernel

-- CommentWithDescriptionNOLINT
example : ((everyNodeViolations true "test ast rule".toList ⟨"input.m".toList, some [some ("//!   OCLint[reason for suppressing this is blahblah]".toList, 1)], [(true, [⟨(.plain []), 1, 1⟩])], "void a() {} //!   OCLint[reason for suppressing this is blahblah]".toList⟩ [([(.decl (.plain [])), (.decl (.plain []))], ⟨"input.m".toList, 1, 1, 1, 11⟩),
      ([(.decl (.plain [])), (.decl (.plain [])), .stmt], ⟨"input.m".toList, 1, 10, 1, 11⟩)]).isEmpty) = true := by decide +kernel

-- CommentWithDescriptionNOLINT
example : ((everyNodeViolations true "test ast rule".toList ⟨"input.m".toList, some [some ("//!    OCLint:reason for suppressing this is blahblah)".toList, 1)], [(true, [⟨(.plain []), 1, 1⟩])], "void a() {} //!    OCLint:reason for suppressing this is blahblah)".toList⟩ [([(.decl (.plain [])), (.decl (.plain []))], ⟨"input.m".toList, 1, 1, 1, 11⟩),
      ([(.decl (.plain [])), (.decl (.plain [])), .stmt], ⟨"input.m".toList, 1, 10, 1, 11⟩)]).isEmpty) = true := by decide +kernel

-- CommentWithDescriptionNOLINT
example : ((everyNodeViolations true "test ast rule".toList ⟨"input.m".toList, some [some ("//!     OCLint     ".toList, 1)], [(true, [⟨(.plain []), 1, 1⟩])], "void a() {} //!     OCLint     ".toList⟩ [([(.decl (.plain [])), (.decl (.plain []))], ⟨"input.m".toList, 1, 1, 1, 11⟩),
      ([(.decl (.plain [])), (.decl (.plain [])), .stmt], ⟨"input.m".toList, 1, 10, 1, 11⟩)]).isEmpty) = true := by decide +kernel

-- NoSuppress
example : (violationAt 0 (everyLineViolations false "test source code rule".toList ⟨"input.m".toList, some [], [(true, [⟨(.plain []), 1, 1⟩])], "void a() {}".toList⟩) (1, 1, 1, 11) "".toList) = true := by decide +kernel

-- SuppressByComment
example : ((everyLineViolations false "test source code rule".toList ⟨"input.m".toList, some [some ("//!OCLINT".toList, 1)], [(true, [⟨(.plain []), 1, 1⟩])], "void a() {} //!OCLINT".toList⟩).isEmpty) = true := by decide +kernel

-- SuppressByComment
example : ((everyLineViolations true "test source code rule".toList ⟨"input.m".toList, some [some ("//! OCLINT".toList, 1)], [(true, [⟨(.plain []), 1, 1⟩])], "void a() {} //! OCLINT".toList⟩).isEmpty) = true := by decide +kernel

-- SuppressByComment
example : ((everyLineViolations true "test source code rule".toList ⟨"input.m".toList, some [some ("//!OCLint".toList, 1)], [(true, [⟨(.plain []), 1, 1⟩])], "void a() {} //!OCLint".toList⟩).isEmpty) = true := by decide +kernel

-- SuppressByComment
example : ((everyLineViolations true "test source code rule".toList ⟨"input.m".toList, some [some ("//! OCLint".toList, 1)], [(true, [⟨(.plain []), 1, 1⟩])], "void a() {} //! OCLint".toList⟩).isEmpty) = true := by decide +kernel

-- SuppressEntireMethod
example : ((everyLineViolations false "test source code rule".toList ⟨"input.m".toList, some [], [(true, [⟨(.plain ["oclint:suppress[test source code rule]".toList]), 1, 4⟩, ⟨(.plain []), 3, 3⟩])], "void __attribute__((annotate(\"oclint:suppress[test source code rule]\"))) a()\n{\nint i = 1;\n}\n".toList⟩).isEmpty) = true := by decide +kernel

-- SimpleSuppressEntireCXXClass
example : ((everyLineViolations false "test source code rule".toList ⟨"input.m".toList, some [], [(true, [⟨(.plain ["oclint:suppress[test source code rule]".toList]), 1, 7⟩, ⟨(.plain []), 3, 6⟩, ⟨(.plain []), 5, 5⟩])], "class __attribute__((annotate(\"oclint:suppress[test source code rule]\"))) c\n{\nvoid a()\n{\nint i = 1;\n}\n};\n".toList⟩).isEmpty) = true := by decide +kernel

-- ObjCContainerSuppressOnAtInterface
example : ((everyLineViolations false "test source code rule".toList ⟨"input.m".toList, some [], [(true, [⟨(.plain ["oclint:suppress".toList]), 1, 4⟩, ⟨(.plain []), 2, 2⟩])], "__attribute__((annotate(\"oclint:suppress\"))) @interface a {\nint i;\n}\n@end".toList⟩).isEmpty) = true := by decide +kernel

end Oclint
