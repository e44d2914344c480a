import Verif.Tests.Support

/-!
# Tests of the repository, design

Written by `tools/repotests.py`; see `Verif/Tests/Support.lean`.
-/

namespace Oclint

set_option linter.all false

/-! ## `oclint-rules/test/design/AvoidDefaultArgumentsOnVirtualMethodsRuleTest.cpp` -/

-- VirtualWithDefaultArg
example : (taggedAt 0 (taggedReports (fun d => (defaultArgumentsRule [d]).map fun _ => "".toList)
    ([.other 0,
      .other 1,
      .method 2 .priv false true [true],
      .other 3] : List MemberDecl))
    [2] "".toList) = true := by decide +kernel

-- VirtualWithSomeArgs
example : ((taggedReports (fun d => (defaultArgumentsRule [d]).map fun _ => "".toList)
    ([.other 0,
      .other 1,
      .method 2 .priv false true [false, false],
      .other 3,
      .other 4] : List MemberDecl)).isEmpty) = true := by decide +kernel

-- NonVirtualWithDefaultArg
example : ((taggedReports (fun d => (defaultArgumentsRule [d]).map fun _ => "".toList)
    ([.other 0,
      .other 1,
      .method 2 .priv false false [true],
      .other 3] : List MemberDecl)).isEmpty) = true := by decide +kernel

/-! ## `oclint-rules/test/design/AvoidPrivateStaticMembersRuleTest.cpp` -/

-- PrivateStaticField
example : (taggedAt 0 (taggedReports (fun d => (privateStaticRule [d]).map fun _ => "".toList)
    ([.other 0,
      .other 1,
      .var 2 .priv true] : List MemberDecl))
    [2] "".toList) = true := by decide +kernel

-- PrivateStaticMethod
example : (taggedAt 0 (taggedReports (fun d => (privateStaticRule [d]).map fun _ => "".toList)
    ([.other 0,
      .other 1,
      .method 2 .priv true false []] : List MemberDecl))
    [2] "".toList) = true := by decide +kernel

-- PublicStaticField
example : ((taggedReports (fun d => (privateStaticRule [d]).map fun _ => "".toList)
    ([.other 0,
      .other 1,
      .other 2,
      .var 3 .pub true] : List MemberDecl)).isEmpty) = true := by decide +kernel

-- PublicStaticMethod
example : ((taggedReports (fun d => (privateStaticRule [d]).map fun _ => "".toList)
    ([.other 0,
      .other 1,
      .other 2,
      .method 3 .pub true false []] : List MemberDecl)).isEmpty) = true := by decide +kernel

/-! ## `oclint-rules/test/design/FeatureEnvyRuleTest.cpp` -/

-- ObjCImplementationNoMethod
example : ((taggedReports (fun x => featureEnvyVisit id x.1 x.2.1 x.2.2)
    ([] : List (Str × MethodOwner × List ObjCUse))).isEmpty) = true := by decide +kernel

-- ObjcMethodMessageOther
example : (taggedAt 0 (taggedReports (fun x => featureEnvyVisit id x.1 x.2.1 x.2.2)
    ([("f".toList, .interface (some "B".toList), []),
      ("f".toList, .interface (some "A".toList), [.message false (.instance (some "B".toList))])] : List (Str × MethodOwner × List ObjCUse)))
    [1] "Method f messages B more than self.".toList) = true := by decide +kernel

-- ObjcMethodMessageSelf
example : ((taggedReports (fun x => featureEnvyVisit id x.1 x.2.1 x.2.2)
    ([("f".toList, .interface (some "B".toList), []),
      ("f".toList, .interface (some "A".toList), [.message false (.instance (some "A".toList))])] : List (Str × MethodOwner × List ObjCUse))).isEmpty) = true := by decide +kernel

-- ObjcClassMethodMessageSelf
example : ((taggedReports (fun x => featureEnvyVisit id x.1 x.2.1 x.2.2)
    ([("f".toList, .interface (some "A".toList), [.message false (.instance none)])] : List (Str × MethodOwner × List ObjCUse))).isEmpty) = true := by decide +kernel

-- ObjcMethodMessageSelfAndOtherEqually
example : ((taggedReports (fun x => featureEnvyVisit id x.1 x.2.1 x.2.2)
    ([("f".toList, .interface (some "B".toList), []),
      ("f".toList, .interface (some "A".toList), [.message false (.instance (some "B".toList)), .message false (.instance (some "A".toList))])] : List (Str × MethodOwner × List ObjCUse))).isEmpty) = true := by decide +kernel

-- ObjcMethodMessageSelfLessThanOther
example : (taggedAt 0 (taggedReports (fun x => featureEnvyVisit id x.1 x.2.1 x.2.2)
    ([("f".toList, .interface (some "B".toList), []),
      ("f".toList, .interface (some "A".toList), [.message false (.instance (some "B".toList)), .message false (.instance (some "A".toList)), .message false (.instance (some "B".toList))])] : List (Str × MethodOwner × List ObjCUse)))
    [1] "Method f messages B more than self.".toList) = true := by decide +kernel

-- ObjcMethodAccessesPropertyOfAnotherClass
example : (taggedAt 0 (taggedReports (fun x => featureEnvyVisit id x.1 x.2.1 x.2.2)
    ([("f".toList, .interface (some "A".toList), [.property true (.explicit (some (.interface (some "B".toList))) (some (.interface (some "B".toList)))), .message true (.instance (some "B".toList))])] : List (Str × MethodOwner × List ObjCUse)))
    [0] "Method f messages B more than self.".toList) = true := by decide +kernel

-- ObjcMethodAccessesImplicitPropertySetterOfAnotherClass
example : (taggedAt 0 (taggedReports (fun x => featureEnvyVisit id x.1 x.2.1 x.2.2)
    ([("p".toList, .interface (some "B".toList), []),
      ("setP:".toList, .interface (some "B".toList), []),
      ("f".toList, .interface (some "A".toList), [.property true (.implicit (some (.interface (some "B".toList))) (some (.interface (some "B".toList)))), .message true (.instance (some "B".toList))])] : List (Str × MethodOwner × List ObjCUse)))
    [2] "Method f messages B more than self.".toList) = true := by decide +kernel

-- ObjcMethodAccessesImplicitPropertyGetterOfAnotherClass
example : (taggedAt 0 (taggedReports (fun x => featureEnvyVisit id x.1 x.2.1 x.2.2)
    ([("p".toList, .interface (some "B".toList), []),
      ("setP:".toList, .interface (some "B".toList), []),
      ("f".toList, .interface (some "A".toList), [.property false (.implicit (some (.interface (some "B".toList))) (some (.interface (some "B".toList)))), .message true (.instance (some "B".toList))])] : List (Str × MethodOwner × List ObjCUse)))
    [2] "Method f messages B more than self.".toList) = true := by decide +kernel

-- ObjcMethodAccessesDynamicPropertyOfAnotherClass
example : (taggedAt 0 (taggedReports (fun x => featureEnvyVisit id x.1 x.2.1 x.2.2)
    ([("f".toList, .interface (some "A".toList), [.property true (.explicit (some (.interface (some "B".toList))) (some (.interface (some "B".toList)))), .message true (.instance (some "B".toList))])] : List (Str × MethodOwner × List ObjCUse)))
    [0] "Method f messages B more than self.".toList) = true := by decide +kernel

-- ObjcMethodAccessesIvarOfAnotherClass
example : (taggedAt 0 (taggedReports (fun x => featureEnvyVisit id x.1 x.2.1 x.2.2)
    ([("f".toList, .interface (some "A".toList), [.ivar (some "B".toList)])] : List (Str × MethodOwner × List ObjCUse)))
    [0] "Method f messages B more than self.".toList) = true := by decide +kernel

end Oclint
