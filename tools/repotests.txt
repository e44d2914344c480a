Abstract 40
Basic 207
Cocoa 38
Convention 116
Cuda 3
Design 18
Empty 34
Helper 63
Metrics 82
Migration 123
Naming 33
Properties 69
Redundant 79
Size 137
Unused 44
not replayed: MacroLocationTest.cpp WithoutMacro: rule new DefaultASTRule2 ( )
not replayed: MacroLocationTest.cpp WithMacro: rule new DefaultASTRule2 ( )
not replayed: TagBasedViolationTest.cpp NumberBasedViolation: no translation for FindAllCompoundStmtRule
not replayed: TagBasedViolationTest.cpp OneSingleTagBasedViolation: no translation for FindAllCompoundStmtRule
not replayed: TagBasedViolationTest.cpp NestedViolations: no translation for FindAllCompoundStmtRule
not replayed: TagBasedViolationTest.cpp ParallelViolations: no translation for FindAllCompoundStmtRule
not replayed: ObjCVerifyProhibitedCallRuleTest.cpp ProtocolNoAnnotation: Clang 22 fails
not replayed: ObjCVerifyProhibitedCallRuleTest.cpp ProtocolAnnotation: Clang 22 fails
not replayed: CudaCyclomaticComplexityRuleTest.cpp CUDASupport: language CUDA
not replayed: FeatureEnvyRuleTest.cpp MethodDeclaredInProtocol: Clang 22 fails
not replayed: AttributeHelperTest.cpp ProtocolAttribute: Clang 22 fails
not replayed: SuppressHelperTest.cpp ObjCContainerSuppressOnAtProtocol: Clang 22 fails
not replayed: ObjCObjectSubscriptingRuleTest.cpp ArrayObjectAtSubscripting: Clang 22 fails
not replayed: ObjCObjectSubscriptingRuleTest.cpp ArraySetObjectSubscripting: Clang 22 fails
not replayed: ObjCObjectSubscriptingRuleTest.cpp DictionaryObjectForKeySubscripting: Clang 22 fails
not replayed: ObjCObjectSubscriptingRuleTest.cpp DictionarySetObjectForKeySubscripting: Clang 22 fails
not replayed: LongClassRuleTest.cpp ObjCProtocol: Clang 22 fails
not replayed: UnusedMethodParameterRuleTest.cpp ObjCMethodDeclarationInsideProtocolShouldBeIgnored: Clang 22 fails
not replayed: UnusedMethodParameterRuleTest.cpp ObjCMethodImplementedForProtocolShouldBeIgnored: Clang 22 fails
