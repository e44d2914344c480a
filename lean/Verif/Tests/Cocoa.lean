import Verif.Tests.Support

/-!
# Tests of the repository, cocoa

Written by `tools/repotests.py`; see `Verif/Tests/Support.lean`.
-/

namespace Oclint

set_option linter.all false

/-! ## `oclint-rules/test/cocoa/ObjCVerifyIsEqualHashRuleTest.cpp` -/

-- HashEqualMethod
example : ((taggedReports (isEqualHashVisit)
    ([["hash".toList, "isEqual:".toList]] : List (List Str))).isEmpty) = true := by decide +kernel

-- HashMethod
example : ((taggedReports (isEqualHashVisit)
    ([["hash".toList]] : List (List Str))).isEmpty) = true := by decide +kernel

-- EqualMethod
example : (taggedAt 0 (taggedReports (isEqualHashVisit)
    ([["isEqual:".toList]] : List (List Str)))
    [0] "If you override isEqual you must override hash too.".toList) = true := by decide +kernel

/-! ## `oclint-rules/test/cocoa/ObjCVerifyMustCallSuperRuleTest.cpp` -/

-- AnnotationDoesCall
example : ((taggedReports (mustCallSuperVisit)
    ([⟨"viewWillAppear:".toList, true, false, [], []⟩,
      ⟨"viewWillAppear:".toList, true, true, [(.method ["oclint:enforce[base method]".toList] false none .classWithInterface [])], [("viewWillAppear:".toList, .superInstance)]⟩] : List OverridingMethod)).isEmpty) = true := by decide +kernel

-- AnnotationDoesNotCall
example : (taggedAt 0 (taggedReports (mustCallSuperVisit)
    ([⟨"viewWillAppear:".toList, true, false, [], []⟩,
      ⟨"viewWillAppear:".toList, true, true, [(.method ["oclint:enforce[base method]".toList] false none .classWithInterface [])], []⟩] : List OverridingMethod))
    [1] "overridden method viewWillAppear: must call super".toList) = true := by decide +kernel

-- AnnotationSuppression
example : ((taggedReports (unsuppressed "base method".toList (mustCallSuperVisit))
    ([([(.decl (.plain [])), (.decl (.plain [])), (.decl (.method ["oclint:enforce[base method]".toList] false none .classWithInterface []))], ⟨"viewWillAppear:".toList, true, false, [], []⟩),
      ([(.decl (.plain [])), (.decl (.plain [])), (.decl (.method ["oclint:enforce[base method]".toList, "oclint:suppress[base method]".toList] false none .classWithInterface []))], ⟨"viewWillAppear:".toList, true, true, [(.method ["oclint:enforce[base method]".toList] false none .classWithInterface [])], []⟩)] : List (List NodeKind × OverridingMethod))).isEmpty) = true := by decide +kernel

-- NormalMethod
example : ((taggedReports (mustCallSuperVisit)
    ([⟨"someMethod".toList, true, false, [], []⟩,
      ⟨"someMethod".toList, true, false, [], []⟩,
      ⟨"anotherMethod".toList, true, false, [], []⟩] : List OverridingMethod)).isEmpty) = true := by decide +kernel

/-! ## `oclint-rules/test/cocoa/ObjCVerifyProhibitedCallRuleTest.cpp` -/

-- OutsideCallerTest
example : (taggedAt 0 (taggedReports (prohibitedCallVisit)
    ([.message "foo".toList (some (.method ["oclint:enforce[prohibited method]".toList] false none .classWithInterface [])),
      .message "a".toList (some (.method [] true (some []) .classWithInterface []))] : List AnyCall))
    [0] "calling prohibited method foo".toList) = true := by decide +kernel

-- InsideClassTest
example : (taggedAt 0 (taggedReports (prohibitedCallVisit)
    ([.message "foo".toList (some (.method ["oclint:enforce[prohibited method]".toList] false none .classWithInterface []))] : List AnyCall))
    [0] "calling prohibited method foo".toList) = true := by decide +kernel

-- InsideChildTest
example : (taggedAt 0 (taggedReports (prohibitedCallVisit)
    ([.message "foo".toList (some (.method ["oclint:enforce[prohibited method]".toList] false none .classWithInterface []))] : List AnyCall))
    [0] "calling prohibited method foo".toList) = true := by decide +kernel

-- InheritedMarkerTest
example : (taggedAt 0 (taggedReports (prohibitedCallVisit)
    ([.message "foo".toList (some (.method ["oclint:enforce[prohibited method]".toList] false none .classWithInterface [])),
      .message "c".toList (some (.method [] true (some []) .classWithInterface []))] : List AnyCall))
    [0] "calling prohibited method foo".toList) = true := by decide +kernel

-- ProtectedPropertyGetterOutside
example : (taggedAt 0 (taggedReports (prohibitedCallVisit)
    ([.message "a".toList (some (.method [] true (some ["oclint:enforce[prohibited method]".toList]) .classWithInterface []))] : List AnyCall))
    [0] "calling prohibited method a".toList) = true := by decide +kernel

-- ProtectedPropertySetterOutside
example : (taggedAt 0 (taggedReports (prohibitedCallVisit)
    ([.message "setA:".toList (some (.method [] true (some ["oclint:enforce[prohibited method]".toList]) .classWithInterface []))] : List AnyCall))
    [0] "calling prohibited method setA:".toList) = true := by decide +kernel

-- ProtectedPropertyGetterInside
example : (taggedAt 0 (taggedReports (prohibitedCallVisit)
    ([.message "a".toList (some (.method [] true (some ["oclint:enforce[prohibited method]".toList]) .classWithInterface []))] : List AnyCall))
    [0] "calling prohibited method a".toList) = true := by decide +kernel

-- ProtectedPropertySetterInside
example : (taggedAt 0 (taggedReports (prohibitedCallVisit)
    ([.message "setA:".toList (some (.method [] true (some ["oclint:enforce[prohibited method]".toList]) .classWithInterface []))] : List AnyCall))
    [0] "calling prohibited method setA:".toList) = true := by decide +kernel

-- UnmarkedSetterTest
example : ((taggedReports (prohibitedCallVisit)
    ([.message "setA:".toList (some (.method [] true (some []) .classWithInterface []))] : List AnyCall)).isEmpty) = true := by decide +kernel

-- UnmarkedGetterTest
example : ((taggedReports (prohibitedCallVisit)
    ([.message "a".toList (some (.method [] true (some []) .classWithInterface []))] : List AnyCall)).isEmpty) = true := by decide +kernel

-- UnmarkedCallTest
example : ((taggedReports (prohibitedCallVisit)
    ([.message "setA:".toList (some (.method [] true (some []) .classWithInterface []))] : List AnyCall)).isEmpty) = true := by decide +kernel

-- PropertyCategoryOutside
example : (taggedAt 0 (taggedReports (prohibitedCallVisit)
    ([.message "setA:".toList (some (.method [] false none .classWithInterface [(some (.method ["oclint:enforce[prohibited method]".toList] false none .category []))])),
      .message "c".toList (some (.method [] true (some []) .classWithInterface []))] : List AnyCall))
    [0] "calling prohibited method setA:".toList) = true := by decide +kernel

-- ProhibitedFunctionCall
example : (taggedAt 0 (taggedReports (prohibitedCallVisit)
    ([.function (some ("foo".toList, (.plain ["oclint:enforce[prohibited method]".toList])))] : List AnyCall))
    [0] "calling prohibited function foo".toList) = true := by decide +kernel

-- RedeclareFunctionCallBefore
example : (taggedAt 0 (taggedReports (prohibitedCallVisit)
    ([.function (some ("foo".toList, (.plain ["oclint:enforce[prohibited method]".toList])))] : List AnyCall))
    [0] "calling prohibited function foo".toList) = true := by decide +kernel

-- RedeclareFunctionCallAfter
example : (taggedAt 0 (taggedReports (prohibitedCallVisit)
    ([.function (some ("foo".toList, (.plain ["oclint:enforce[prohibited method]".toList])))] : List AnyCall))
    [0] "calling prohibited function foo".toList) = true := by decide +kernel

-- CommentFunction
example : (taggedAt 0 (taggedReports (prohibitedCallVisit)
    ([.function (some ("foo".toList, (.plain ["oclint:enforce[prohibited method][bar]".toList])))] : List AnyCall))
    [0] "calling prohibited function foo instead use bar".toList) = true := by decide +kernel

-- CommentMethod
example : (taggedAt 0 (taggedReports (prohibitedCallVisit)
    ([.message "foo".toList (some (.method ["oclint:enforce[prohibited method][bar]".toList] false none .classWithInterface [])),
      .message "a".toList (some (.method [] true (some []) .classWithInterface []))] : List AnyCall))
    [0] "calling prohibited method foo instead use bar".toList) = true := by decide +kernel

/-! ## `oclint-rules/test/cocoa/ObjCVerifyProtectedMethodRuleTest.cpp` -/

-- testOutsideCaller
example : (taggedAt 0 (taggedReports (protectedTestVisit)
    ([((.mk "B".toList (some (.mk "NSObject".toList none))), ⟨"foo".toList, (some ((.method ["oclint:enforce[protected method]".toList] false none .classWithInterface []), (some (.mk "A".toList (some (.mk "NSObject".toList none)))))), (some (.mk "A".toList (some (.mk "NSObject".toList none))))⟩),
      ((.mk "B".toList (some (.mk "NSObject".toList none))), ⟨"a".toList, (some ((.method [] true (some []) .classWithInterface []), (some (.mk "B".toList (some (.mk "NSObject".toList none)))))), (some (.mk "B".toList (some (.mk "NSObject".toList none))))⟩)] : List (ObjcClass × ClassSend)))
    [0] "calling protected method foo from outside A and its subclasses".toList) = true := by decide +kernel

-- InsideClassTest
example : ((taggedReports (protectedTestVisit)
    ([((.mk "A".toList (some (.mk "NSObject".toList none))), ⟨"foo".toList, (some ((.method ["oclint:enforce[protected method]".toList] false none .classWithInterface []), (some (.mk "A".toList (some (.mk "NSObject".toList none)))))), (some (.mk "A".toList (some (.mk "NSObject".toList none))))⟩)] : List (ObjcClass × ClassSend))).isEmpty) = true := by decide +kernel

-- InsideChildTest
example : ((taggedReports (protectedTestVisit)
    ([((.mk "C".toList (some (.mk "A".toList (some (.mk "NSObject".toList none))))), ⟨"foo".toList, (some ((.method ["oclint:enforce[protected method]".toList] false none .classWithInterface []), (some (.mk "A".toList (some (.mk "NSObject".toList none)))))), (some (.mk "C".toList (some (.mk "A".toList (some (.mk "NSObject".toList none))))))⟩)] : List (ObjcClass × ClassSend))).isEmpty) = true := by decide +kernel

-- InheritedMarkerTest
example : (taggedAt 0 (taggedReports (protectedTestVisit)
    ([((.mk "D".toList (some (.mk "NSObject".toList none))), ⟨"foo".toList, (some ((.method ["oclint:enforce[protected method]".toList] false none .classWithInterface []), (some (.mk "A".toList (some (.mk "NSObject".toList none)))))), (some (.mk "C".toList (some (.mk "A".toList (some (.mk "NSObject".toList none))))))⟩),
      ((.mk "D".toList (some (.mk "NSObject".toList none))), ⟨"c".toList, (some ((.method [] true (some []) .classWithInterface []), (some (.mk "D".toList (some (.mk "NSObject".toList none)))))), (some (.mk "D".toList (some (.mk "NSObject".toList none))))⟩)] : List (ObjcClass × ClassSend)))
    [0] "calling protected method foo from outside A and its subclasses".toList) = true := by decide +kernel

-- ProtectedPropertyGetterOutside
example : (taggedAt 0 (taggedReports (protectedTestVisit)
    ([((.mk "D".toList (some (.mk "NSObject".toList none))), ⟨"a".toList, (some ((.method [] true (some ["oclint:enforce[protected method]".toList]) .classWithInterface []), (some (.mk "C".toList (some (.mk "NSObject".toList none)))))), (some (.mk "C".toList (some (.mk "NSObject".toList none))))⟩)] : List (ObjcClass × ClassSend)))
    [0] "calling protected method a from outside C and its subclasses".toList) = true := by decide +kernel

-- ProtectedPropertySetterOutside
example : (taggedAt 0 (taggedReports (protectedTestVisit)
    ([((.mk "D".toList (some (.mk "NSObject".toList none))), ⟨"setA:".toList, (some ((.method [] true (some ["oclint:enforce[protected method]".toList]) .classWithInterface []), (some (.mk "C".toList (some (.mk "NSObject".toList none)))))), (some (.mk "C".toList (some (.mk "NSObject".toList none))))⟩)] : List (ObjcClass × ClassSend)))
    [0] "calling protected method setA: from outside C and its subclasses".toList) = true := by decide +kernel

-- ProtectedPropertyGetterInside
example : ((taggedReports (protectedTestVisit)
    ([((.mk "D".toList (some (.mk "C".toList (some (.mk "NSObject".toList none))))), ⟨"a".toList, (some ((.method [] true (some ["oclint:enforce[protected method]".toList]) .classWithInterface []), (some (.mk "C".toList (some (.mk "NSObject".toList none)))))), (some (.mk "C".toList (some (.mk "NSObject".toList none))))⟩)] : List (ObjcClass × ClassSend))).isEmpty) = true := by decide +kernel

-- ProtectedPropertySetterInside
example : ((taggedReports (protectedTestVisit)
    ([((.mk "D".toList (some (.mk "C".toList (some (.mk "NSObject".toList none))))), ⟨"setA:".toList, (some ((.method [] true (some ["oclint:enforce[protected method]".toList]) .classWithInterface []), (some (.mk "C".toList (some (.mk "NSObject".toList none)))))), (some (.mk "C".toList (some (.mk "NSObject".toList none))))⟩)] : List (ObjcClass × ClassSend))).isEmpty) = true := by decide +kernel

-- ProtectedPropertyCategoryOutside
example : (taggedAt 0 (taggedReports (protectedTestVisit)
    ([((.mk "D".toList (some (.mk "NSObject".toList none))), ⟨"setA:".toList, (some ((.method [] false none .classWithInterface [(some (.method ["oclint:enforce[protected method]".toList] false none .category []))]), (some (.mk "C".toList (some (.mk "NSObject".toList none)))))), (some (.mk "C".toList (some (.mk "NSObject".toList none))))⟩),
      ((.mk "D".toList (some (.mk "NSObject".toList none))), ⟨"c".toList, (some ((.method [] true (some []) .classWithInterface []), (some (.mk "D".toList (some (.mk "NSObject".toList none)))))), (some (.mk "D".toList (some (.mk "NSObject".toList none))))⟩)] : List (ObjcClass × ClassSend)))
    [0] "calling protected method setA: from outside C and its subclasses".toList) = true := by decide +kernel

/-! ## `oclint-rules/test/cocoa/ObjCVerifySubclassMustImplementRuleTest.cpp` -/

-- AnnotationDoesNotImplementation
example : (taggedAt 0 (taggedReports (fun x => subclassMustImplementVisit x.1 x.2)
    ([((some ("Parent".toList, [⟨"someAbstractMethod".toList, true, (.method ["oclint:enforce[abstract method]".toList] false none .classWithInterface [])⟩])), [])] : List (Option (Str × List DeclaredMethod) × List (Str × Bool))))
    [0] "subclasses of Parent must implement someAbstractMethod".toList) = true := by decide +kernel

-- AnnotationDoesImplement
example : ((taggedReports (fun x => subclassMustImplementVisit x.1 x.2)
    ([((some ("Parent".toList, [⟨"someAbstractMethod".toList, true, (.method ["oclint:enforce[abstract method]".toList] false none .classWithInterface [])⟩])), [("someAbstractMethod".toList, true)])] : List (Option (Str × List DeclaredMethod) × List (Str × Bool)))).isEmpty) = true := by decide +kernel

-- NormalDoesNotImplement
example : ((taggedReports (fun x => subclassMustImplementVisit x.1 x.2)
    ([((some ("Parent".toList, [⟨"someAbstractMethod".toList, true, (.method [] false none .classWithInterface [])⟩])), [])] : List (Option (Str × List DeclaredMethod) × List (Str × Bool)))).isEmpty) = true := by decide +kernel

-- NormalDoesImplement
example : ((taggedReports (fun x => subclassMustImplementVisit x.1 x.2)
    ([((some ("Parent".toList, [⟨"someAbstractMethod".toList, true, (.method [] false none .classWithInterface [])⟩])), [("someAbstractMethod".toList, true)])] : List (Option (Str × List DeclaredMethod) × List (Str × Bool)))).isEmpty) = true := by decide +kernel

-- SubChildUnaffected
example : ((taggedReports (fun x => subclassMustImplementVisit x.1 x.2)
    ([((some ("Parent".toList, [⟨"someAbstractMethod".toList, true, (.method ["oclint:enforce[abstract method]".toList] false none .classWithInterface [])⟩])), [("someAbstractMethod".toList, true)]),
      ((some ("Child".toList, [])), [])] : List (Option (Str × List DeclaredMethod) × List (Str × Bool)))).isEmpty) = true := by decide +kernel

end Oclint
