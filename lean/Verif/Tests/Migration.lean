import Verif.Tests.Support

/-!
# Tests of the repository, migration

Written by `tools/repotests.py`; see `Verif/Tests/Support.lean`.
-/

namespace Oclint

set_option linter.all false

/-! ## `oclint-rules/test/migration/ObjCBoxedExpressionsRuleTest.cpp` -/

-- CharacterLiteral
example : ((taggedReports (fun m => if boxedExpressionVisit m then [[]] else [])
    ([] : List TypedMessage)).isEmpty) = true := by decide +kernel

-- NumberWithChar
example : ((taggedReports (fun m => if boxedExpressionVisit m then [[]] else [])
    ([⟨(some "NSNumber".toList), none, "numberWithChar:".toList, [(.implicitCast "char".toList (.charLit "int".toList))]⟩] : List TypedMessage)).isEmpty) = true := by decide +kernel

-- NumberWithCharButInteger
example : ((taggedReports (fun m => if boxedExpressionVisit m then [[]] else [])
    ([⟨(some "NSNumber".toList), none, "numberWithChar:".toList, [(.implicitCast "char".toList (.intLit "int".toList))]⟩] : List TypedMessage)).isEmpty) = true := by decide +kernel

-- NumberWithBoxedChar
example : (taggedAt 0 (taggedReports (fun m => if boxedExpressionVisit m then [[]] else [])
    ([⟨(some "NSNumber".toList), none, "numberWithChar:".toList, [(.paren "char".toList (.call "char".toList))]⟩] : List TypedMessage))
    [0] "".toList) = true := by decide +kernel

-- IntLiteral
example : ((taggedReports (fun m => if boxedExpressionVisit m then [[]] else [])
    ([] : List TypedMessage)).isEmpty) = true := by decide +kernel

-- NumberWithInt
example : ((taggedReports (fun m => if boxedExpressionVisit m then [[]] else [])
    ([⟨(some "NSNumber".toList), none, "numberWithInt:".toList, [(.intLit "int".toList)]⟩] : List TypedMessage)).isEmpty) = true := by decide +kernel

-- NumberWithBoxedInt
example : (taggedAt 0 (taggedReports (fun m => if boxedExpressionVisit m then [[]] else [])
    ([⟨(some "NSNumber".toList), none, "numberWithInt:".toList, [(.paren "int".toList (.other "int".toList))]⟩] : List TypedMessage))
    [0] "".toList) = true := by decide +kernel

-- UnsignedIntLiteral
example : ((taggedReports (fun m => if boxedExpressionVisit m then [[]] else [])
    ([] : List TypedMessage)).isEmpty) = true := by decide +kernel

-- NumberWithUnsignedInt
example : ((taggedReports (fun m => if boxedExpressionVisit m then [[]] else [])
    ([⟨(some "NSNumber".toList), none, "numberWithUnsignedInt:".toList, [(.intLit "unsigned int".toList)]⟩] : List TypedMessage)).isEmpty) = true := by decide +kernel

-- NumberWithBoxedUnsignedIntButInterger
example : ((taggedReports (fun m => if boxedExpressionVisit m then [[]] else [])
    ([⟨(some "NSNumber".toList), none, "numberWithUnsignedInt:".toList, [(.implicitCast "unsigned int".toList (.intLit "int".toList))]⟩] : List TypedMessage)).isEmpty) = true := by decide +kernel

-- NumberWithBoxedUnsignedInt
example : (taggedAt 0 (taggedReports (fun m => if boxedExpressionVisit m then [[]] else [])
    ([⟨(some "NSNumber".toList), none, "numberWithUnsignedInt:".toList, [(.paren "unsigned int".toList (.other "unsigned int".toList))]⟩] : List TypedMessage))
    [0] "".toList) = true := by decide +kernel

-- LongLiteral
example : ((taggedReports (fun m => if boxedExpressionVisit m then [[]] else [])
    ([] : List TypedMessage)).isEmpty) = true := by decide +kernel

-- NumberWithLong
example : ((taggedReports (fun m => if boxedExpressionVisit m then [[]] else [])
    ([⟨(some "NSNumber".toList), none, "numberWithLong:".toList, [(.intLit "long".toList)]⟩] : List TypedMessage)).isEmpty) = true := by decide +kernel

-- NumberWithBoxedLong
example : (taggedAt 0 (taggedReports (fun m => if boxedExpressionVisit m then [[]] else [])
    ([⟨(some "NSNumber".toList), none, "numberWithLong:".toList, [(.paren "long".toList (.other "long".toList))]⟩] : List TypedMessage))
    [0] "".toList) = true := by decide +kernel

-- UnsignedLongLiteral
example : ((taggedReports (fun m => if boxedExpressionVisit m then [[]] else [])
    ([] : List TypedMessage)).isEmpty) = true := by decide +kernel

-- NumberWithUnsignedLong
example : ((taggedReports (fun m => if boxedExpressionVisit m then [[]] else [])
    ([⟨(some "NSNumber".toList), none, "numberWithUnsignedLong:".toList, [(.intLit "unsigned long".toList)]⟩] : List TypedMessage)).isEmpty) = true := by decide +kernel

-- NumberWithBoxedUnsignedLong
example : (taggedAt 0 (taggedReports (fun m => if boxedExpressionVisit m then [[]] else [])
    ([⟨(some "NSNumber".toList), none, "numberWithUnsignedLong:".toList, [(.paren "unsigned long".toList (.other "unsigned long".toList))]⟩] : List TypedMessage))
    [0] "".toList) = true := by decide +kernel

-- LongLongLiteral
example : ((taggedReports (fun m => if boxedExpressionVisit m then [[]] else [])
    ([] : List TypedMessage)).isEmpty) = true := by decide +kernel

-- NumberWithLongLong
example : ((taggedReports (fun m => if boxedExpressionVisit m then [[]] else [])
    ([⟨(some "NSNumber".toList), none, "numberWithLongLong:".toList, [(.intLit "long long".toList)]⟩] : List TypedMessage)).isEmpty) = true := by decide +kernel

-- NumberWithBoxedLongLong
example : (taggedAt 0 (taggedReports (fun m => if boxedExpressionVisit m then [[]] else [])
    ([⟨(some "NSNumber".toList), none, "numberWithLongLong:".toList, [(.paren "long long".toList (.other "long long".toList))]⟩] : List TypedMessage))
    [0] "".toList) = true := by decide +kernel

-- UnsignedLongLongLiteral
example : ((taggedReports (fun m => if boxedExpressionVisit m then [[]] else [])
    ([] : List TypedMessage)).isEmpty) = true := by decide +kernel

-- NumberWithUnsignedLongLong
example : ((taggedReports (fun m => if boxedExpressionVisit m then [[]] else [])
    ([⟨(some "NSNumber".toList), none, "numberWithUnsignedLongLong:".toList, [(.intLit "unsigned long long".toList)]⟩] : List TypedMessage)).isEmpty) = true := by decide +kernel

-- NumberWithBoxedUnsignedLongLong
example : (taggedAt 0 (taggedReports (fun m => if boxedExpressionVisit m then [[]] else [])
    ([⟨(some "NSNumber".toList), none, "numberWithUnsignedLongLong:".toList, [(.paren "unsigned long long".toList (.other "unsigned long long".toList))]⟩] : List TypedMessage))
    [0] "".toList) = true := by decide +kernel

-- FloatLiteral
example : ((taggedReports (fun m => if boxedExpressionVisit m then [[]] else [])
    ([] : List TypedMessage)).isEmpty) = true := by decide +kernel

-- NumberWithFloat
example : ((taggedReports (fun m => if boxedExpressionVisit m then [[]] else [])
    ([⟨(some "NSNumber".toList), none, "numberWithFloat:".toList, [(.floatLit "float".toList)]⟩] : List TypedMessage)).isEmpty) = true := by decide +kernel

-- NumberWithBoxedFloat
example : (taggedAt 0 (taggedReports (fun m => if boxedExpressionVisit m then [[]] else [])
    ([⟨(some "NSNumber".toList), none, "numberWithFloat:".toList, [(.paren "float".toList (.other "float".toList))]⟩] : List TypedMessage))
    [0] "".toList) = true := by decide +kernel

-- DoubleLiteral
example : ((taggedReports (fun m => if boxedExpressionVisit m then [[]] else [])
    ([] : List TypedMessage)).isEmpty) = true := by decide +kernel

-- NumberWithDouble
example : ((taggedReports (fun m => if boxedExpressionVisit m then [[]] else [])
    ([⟨(some "NSNumber".toList), none, "numberWithDouble:".toList, [(.floatLit "double".toList)]⟩] : List TypedMessage)).isEmpty) = true := by decide +kernel

-- NumberWithBoxedDouble
example : (taggedAt 0 (taggedReports (fun m => if boxedExpressionVisit m then [[]] else [])
    ([⟨(some "NSNumber".toList), none, "numberWithDouble:".toList, [(.paren "double".toList (.other "double".toList))]⟩] : List TypedMessage))
    [0] "".toList) = true := by decide +kernel

-- BOOLYesLiteral_newBOOLDef
example : ((taggedReports (fun m => if boxedExpressionVisit m then [[]] else [])
    ([] : List TypedMessage)).isEmpty) = true := by decide +kernel

-- NumberWithBoolYes_newBOOLDef
example : ((taggedReports (fun m => if boxedExpressionVisit m then [[]] else [])
    ([⟨(some "NSNumber".toList), none, "numberWithBool:".toList, [(.objcBoolLit "BOOL".toList)]⟩] : List TypedMessage)).isEmpty) = true := by decide +kernel

-- NumberWithBoxedBOOLYes_newBOOLDef
example : (taggedAt 0 (taggedReports (fun m => if boxedExpressionVisit m then [[]] else [])
    ([⟨(some "NSNumber".toList), none, "numberWithBool:".toList, [(.implicitCast "BOOL".toList (.paren "int".toList (.other "int".toList)))]⟩] : List TypedMessage))
    [0] "".toList) = true := by decide +kernel

-- BOOLNoLiteral_newBOOLDef
example : ((taggedReports (fun m => if boxedExpressionVisit m then [[]] else [])
    ([] : List TypedMessage)).isEmpty) = true := by decide +kernel

-- NumberWithBoolNo_newBOOLDef
example : ((taggedReports (fun m => if boxedExpressionVisit m then [[]] else [])
    ([⟨(some "NSNumber".toList), none, "numberWithBool:".toList, [(.objcBoolLit "BOOL".toList)]⟩] : List TypedMessage)).isEmpty) = true := by decide +kernel

-- NumberWithBoxedBOOLNo_newBOOLDef
example : (taggedAt 0 (taggedReports (fun m => if boxedExpressionVisit m then [[]] else [])
    ([⟨(some "NSNumber".toList), none, "numberWithBool:".toList, [(.implicitCast "BOOL".toList (.paren "int".toList (.other "int".toList)))]⟩] : List TypedMessage))
    [0] "".toList) = true := by decide +kernel

-- BOOLYesLiteral_oldBOOLDef
example : ((taggedReports (fun m => if boxedExpressionVisit m then [[]] else [])
    ([] : List TypedMessage)).isEmpty) = true := by decide +kernel

-- NumberWithBoolYes_oldBOOLDef
example : ((taggedReports (fun m => if boxedExpressionVisit m then [[]] else [])
    ([⟨(some "NSNumber".toList), none, "numberWithBool:".toList, [(.paren "BOOL".toList (.cStyleCast "BOOL".toList (.intLit "int".toList)))]⟩] : List TypedMessage)).isEmpty) = true := by decide +kernel

-- NumberWithBoxedBOOLYes_oldBOOLDef
example : (taggedAt 0 (taggedReports (fun m => if boxedExpressionVisit m then [[]] else [])
    ([⟨(some "NSNumber".toList), none, "numberWithBool:".toList, [(.implicitCast "BOOL".toList (.paren "int".toList (.other "int".toList)))]⟩] : List TypedMessage))
    [0] "".toList) = true := by decide +kernel

-- BOOLNoLiteral_oldBOOLDef
example : ((taggedReports (fun m => if boxedExpressionVisit m then [[]] else [])
    ([] : List TypedMessage)).isEmpty) = true := by decide +kernel

-- NumberWithBoolNo_oldBOOLDef
example : ((taggedReports (fun m => if boxedExpressionVisit m then [[]] else [])
    ([⟨(some "NSNumber".toList), none, "numberWithBool:".toList, [(.paren "BOOL".toList (.cStyleCast "BOOL".toList (.intLit "int".toList)))]⟩] : List TypedMessage)).isEmpty) = true := by decide +kernel

-- NumberWithBoxedBOOLNo_oldBOOLDef
example : (taggedAt 0 (taggedReports (fun m => if boxedExpressionVisit m then [[]] else [])
    ([⟨(some "NSNumber".toList), none, "numberWithBool:".toList, [(.implicitCast "BOOL".toList (.paren "int".toList (.other "int".toList)))]⟩] : List TypedMessage))
    [0] "".toList) = true := by decide +kernel

-- NumberWithEnumBoxed
example : ((taggedReports (fun m => if boxedExpressionVisit m then [[]] else [])
    ([] : List TypedMessage)).isEmpty) = true := by decide +kernel

-- NumberWithEnum
example : (taggedAt 0 (taggedReports (fun m => if boxedExpressionVisit m then [[]] else [])
    ([⟨(some "NSNumber".toList), none, "numberWithInt:".toList, [(.declRef "int".toList true)]⟩] : List TypedMessage))
    [0] "".toList) = true := by decide +kernel

-- NumberWithEnum
example : (taggedAt 0 (taggedReports (fun m => if boxedExpressionVisit m then [[]] else [])
    ([⟨(some "NSNumber".toList), none, "numberWithInt:".toList, [(.paren "int".toList (.declRef "int".toList true))]⟩] : List TypedMessage))
    [0] "".toList) = true := by decide +kernel

-- NumberWithEnumTypedefBoxed
example : ((taggedReports (fun m => if boxedExpressionVisit m then [[]] else [])
    ([] : List TypedMessage)).isEmpty) = true := by decide +kernel

-- NumberWithEnumTypedef
example : (taggedAt 0 (taggedReports (fun m => if boxedExpressionVisit m then [[]] else [])
    ([⟨(some "NSNumber".toList), none, "numberWithInt:".toList, [(.declRef "int".toList true)]⟩] : List TypedMessage))
    [0] "".toList) = true := by decide +kernel

-- NumberWithEnumTypedef
example : (taggedAt 0 (taggedReports (fun m => if boxedExpressionVisit m then [[]] else [])
    ([⟨(some "NSNumber".toList), none, "numberWithInt:".toList, [(.paren "int".toList (.declRef "int".toList true))]⟩] : List TypedMessage))
    [0] "".toList) = true := by decide +kernel

-- StringWithUTF8StringBoxed
example : ((taggedReports (fun m => if boxedExpressionVisit m then [[]] else [])
    ([] : List TypedMessage)).isEmpty) = true := by decide +kernel

-- StringWithUTF8String
example : (taggedAt 0 (taggedReports (fun m => if boxedExpressionVisit m then [[]] else [])
    ([⟨(some "NSString".toList), none, "stringWithUTF8String:".toList, [(.implicitCast "const char *".toList (.call "char *".toList))]⟩] : List TypedMessage))
    [0] "".toList) = true := by decide +kernel

-- StringWithUTF8String
example : (taggedAt 0 (taggedReports (fun m => if boxedExpressionVisit m then [[]] else [])
    ([⟨(some "NSString".toList), none, "stringWithUTF8String:".toList, [(.implicitCast "const char *".toList (.paren "char *".toList (.call "char *".toList)))]⟩] : List TypedMessage))
    [0] "".toList) = true := by decide +kernel

/-! ## `oclint-rules/test/migration/ObjCContainerLiteralsRuleTest.cpp` -/

-- ArrayLiteralWithArray
example : ((taggedReports (fun m => if containerLiteralVisit m then [[]] else [])
    ([] : List TypedMessage)).isEmpty) = true := by decide +kernel

-- ArrayWithArray
example : (taggedAt 0 (taggedReports (fun m => if containerLiteralVisit m then [[]] else [])
    ([⟨(some "NSArray".toList), none, "array".toList, []⟩] : List TypedMessage))
    [0] "".toList) = true := by decide +kernel

-- ArrayLiteralWithObject
example : ((taggedReports (fun m => if containerLiteralVisit m then [[]] else [])
    ([] : List TypedMessage)).isEmpty) = true := by decide +kernel

-- ArrayWithObject
example : (taggedAt 0 (taggedReports (fun m => if containerLiteralVisit m then [[]] else [])
    ([⟨(some "NSArray".toList), none, "arrayWithObject:".toList, [(.implicitCast "id".toList (.other "NSNumber *".toList))]⟩] : List TypedMessage))
    [0] "".toList) = true := by decide +kernel

-- ArrayLiteralWithObjectsCount
example : ((taggedReports (fun m => if containerLiteralVisit m then [[]] else [])
    ([] : List TypedMessage)).isEmpty) = true := by decide +kernel

-- ArrayWithObjectsCount
example : (taggedAt 0 (taggedReports (fun m => if containerLiteralVisit m then [[]] else [])
    ([⟨(some "NSArray".toList), none, "arrayWithObjects:count:".toList, [(.implicitCast "const id *".toList (.implicitCast "NSNumber **".toList (.declRef "NSNumber *[3]".toList false))), (.implicitCast "NSUInteger".toList (.intLit "int".toList))]⟩] : List TypedMessage))
    [0] "".toList) = true := by decide +kernel

-- ArrayLiteralWithObjects
example : ((taggedReports (fun m => if containerLiteralVisit m then [[]] else [])
    ([] : List TypedMessage)).isEmpty) = true := by decide +kernel

-- ArrayWithObjects
example : (taggedAt 0 (taggedReports (fun m => if containerLiteralVisit m then [[]] else [])
    ([⟨(some "NSArray".toList), none, "arrayWithObjects:".toList, [(.implicitCast "id".toList (.other "NSNumber *".toList)), (.other "NSNumber *".toList), (.other "NSNumber *".toList), (.cStyleCast "id".toList (.intLit "int".toList))]⟩] : List TypedMessage))
    [0] "".toList) = true := by decide +kernel

-- DictionaryLiteralWithDictionary
example : ((taggedReports (fun m => if containerLiteralVisit m then [[]] else [])
    ([] : List TypedMessage)).isEmpty) = true := by decide +kernel

-- DictionaryWithDictionary
example : (taggedAt 0 (taggedReports (fun m => if containerLiteralVisit m then [[]] else [])
    ([⟨(some "NSDictionary".toList), none, "dictionary".toList, []⟩] : List TypedMessage))
    [0] "".toList) = true := by decide +kernel

-- DictionaryLiteralWithObjectForKey
example : ((taggedReports (fun m => if containerLiteralVisit m then [[]] else [])
    ([] : List TypedMessage)).isEmpty) = true := by decide +kernel

-- DictionaryWithObjectForKey
example : (taggedAt 0 (taggedReports (fun m => if containerLiteralVisit m then [[]] else [])
    ([⟨(some "NSDictionary".toList), none, "dictionaryWithObject:forKey:".toList, [(.implicitCast "id".toList (.other "NSNumber *".toList)), (.implicitCast "id".toList (.other "NSNumber *".toList))]⟩] : List TypedMessage))
    [0] "".toList) = true := by decide +kernel

-- DictionaryLiteralWithObjectsForKeysCount
example : ((taggedReports (fun m => if containerLiteralVisit m then [[]] else [])
    ([] : List TypedMessage)).isEmpty) = true := by decide +kernel

-- DictionaryWithObjectsForKeysCount
example : (taggedAt 0 (taggedReports (fun m => if containerLiteralVisit m then [[]] else [])
    ([⟨(some "NSDictionary".toList), none, "dictionaryWithObjects:forKeys:count:".toList, [(.implicitCast "const id *".toList (.implicitCast "NSNumber **".toList (.declRef "NSNumber *[2]".toList false))), (.implicitCast "const id *".toList (.implicitCast "NSNumber **".toList (.declRef "NSNumber *[2]".toList false))), (.implicitCast "NSUInteger".toList (.intLit "int".toList))]⟩] : List TypedMessage))
    [0] "".toList) = true := by decide +kernel

-- DictionaryLiteralWithObjectsAndKeys
example : ((taggedReports (fun m => if containerLiteralVisit m then [[]] else [])
    ([] : List TypedMessage)).isEmpty) = true := by decide +kernel

-- DictionaryWithObjectsAndKeys
example : (taggedAt 0 (taggedReports (fun m => if containerLiteralVisit m then [[]] else [])
    ([⟨(some "NSDictionary".toList), none, "dictionaryWithObjectsAndKeys:".toList, [(.implicitCast "id".toList (.other "NSNumber *".toList)), (.other "NSNumber *".toList), (.other "NSNumber *".toList), (.other "NSNumber *".toList), (.cStyleCast "id".toList (.intLit "int".toList))]⟩] : List TypedMessage))
    [0] "".toList) = true := by decide +kernel

-- DictionaryLiteralWithObjectsForKeys
example : ((taggedReports (fun m => if containerLiteralVisit m then [[]] else [])
    ([] : List TypedMessage)).isEmpty) = true := by decide +kernel

-- DictionaryWithObjectsForKeys
example : (taggedAt 0 (taggedReports (fun m => if containerLiteralVisit m then [[]] else [])
    ([⟨(some "NSDictionary".toList), none, "dictionaryWithObjects:forKeys:".toList, [(.other "NSArray *".toList), (.other "NSArray *".toList)]⟩] : List TypedMessage))
    [0] "".toList) = true := by decide +kernel

/-! ## `oclint-rules/test/migration/ObjCNSNumberLiteralsRuleTest.cpp` -/

-- CharacterLiteral
example : ((taggedReports (fun m => if numberLiteralVisit m then [[]] else [])
    ([] : List TypedMessage)).isEmpty) = true := by decide +kernel

-- NumberWithChar
example : (taggedAt 0 (taggedReports (fun m => if numberLiteralVisit m then [[]] else [])
    ([⟨(some "NSNumber".toList), none, "numberWithChar:".toList, [(.implicitCast "char".toList (.charLit "int".toList))]⟩] : List TypedMessage))
    [0] "".toList) = true := by decide +kernel

-- NumberWithCharButInteger
example : ((taggedReports (fun m => if numberLiteralVisit m then [[]] else [])
    ([⟨(some "NSNumber".toList), none, "numberWithChar:".toList, [(.implicitCast "char".toList (.intLit "int".toList))]⟩] : List TypedMessage)).isEmpty) = true := by decide +kernel

-- NumberWithBoxedChar
example : ((taggedReports (fun m => if numberLiteralVisit m then [[]] else [])
    ([⟨(some "NSNumber".toList), none, "numberWithChar:".toList, [(.paren "char".toList (.call "char".toList))]⟩] : List TypedMessage)).isEmpty) = true := by decide +kernel

-- IntLiteral
example : ((taggedReports (fun m => if numberLiteralVisit m then [[]] else [])
    ([] : List TypedMessage)).isEmpty) = true := by decide +kernel

-- NumberWithInt
example : (taggedAt 0 (taggedReports (fun m => if numberLiteralVisit m then [[]] else [])
    ([⟨(some "NSNumber".toList), none, "numberWithInt:".toList, [(.intLit "int".toList)]⟩] : List TypedMessage))
    [0] "".toList) = true := by decide +kernel

-- NumberWithBoxedInt
example : ((taggedReports (fun m => if numberLiteralVisit m then [[]] else [])
    ([⟨(some "NSNumber".toList), none, "numberWithInt:".toList, [(.paren "int".toList (.other "int".toList))]⟩] : List TypedMessage)).isEmpty) = true := by decide +kernel

-- UnsignedIntLiteral
example : ((taggedReports (fun m => if numberLiteralVisit m then [[]] else [])
    ([] : List TypedMessage)).isEmpty) = true := by decide +kernel

-- NumberWithUnsignedInt
example : (taggedAt 0 (taggedReports (fun m => if numberLiteralVisit m then [[]] else [])
    ([⟨(some "NSNumber".toList), none, "numberWithUnsignedInt:".toList, [(.intLit "unsigned int".toList)]⟩] : List TypedMessage))
    [0] "".toList) = true := by decide +kernel

-- NumberWithUnsignedInt
example : (taggedAt 0 (taggedReports (fun m => if numberLiteralVisit m then [[]] else [])
    ([⟨(some "NSNumber".toList), none, "numberWithUnsignedInt:".toList, [(.intLit "unsigned int".toList)]⟩] : List TypedMessage))
    [0] "".toList) = true := by decide +kernel

-- NumberWithBoxedUnsignedIntButInterger
example : ((taggedReports (fun m => if numberLiteralVisit m then [[]] else [])
    ([⟨(some "NSNumber".toList), none, "numberWithUnsignedInt:".toList, [(.implicitCast "unsigned int".toList (.intLit "int".toList))]⟩] : List TypedMessage)).isEmpty) = true := by decide +kernel

-- NumberWithBoxedUnsignedInt
example : ((taggedReports (fun m => if numberLiteralVisit m then [[]] else [])
    ([⟨(some "NSNumber".toList), none, "numberWithUnsignedInt:".toList, [(.paren "unsigned int".toList (.other "unsigned int".toList))]⟩] : List TypedMessage)).isEmpty) = true := by decide +kernel

-- LongLiteral
example : ((taggedReports (fun m => if numberLiteralVisit m then [[]] else [])
    ([] : List TypedMessage)).isEmpty) = true := by decide +kernel

-- NumberWithLong
example : (taggedAt 0 (taggedReports (fun m => if numberLiteralVisit m then [[]] else [])
    ([⟨(some "NSNumber".toList), none, "numberWithLong:".toList, [(.intLit "long".toList)]⟩] : List TypedMessage))
    [0] "".toList) = true := by decide +kernel

-- NumberWithLong
example : (taggedAt 0 (taggedReports (fun m => if numberLiteralVisit m then [[]] else [])
    ([⟨(some "NSNumber".toList), none, "numberWithLong:".toList, [(.intLit "long".toList)]⟩] : List TypedMessage))
    [0] "".toList) = true := by decide +kernel

-- NumberWithBoxedLong
example : ((taggedReports (fun m => if numberLiteralVisit m then [[]] else [])
    ([⟨(some "NSNumber".toList), none, "numberWithLong:".toList, [(.paren "long".toList (.other "long".toList))]⟩] : List TypedMessage)).isEmpty) = true := by decide +kernel

-- UnsignedLongLiteral
example : ((taggedReports (fun m => if numberLiteralVisit m then [[]] else [])
    ([] : List TypedMessage)).isEmpty) = true := by decide +kernel

-- NumberWithUnsignedLong
example : (taggedAt 0 (taggedReports (fun m => if numberLiteralVisit m then [[]] else [])
    ([⟨(some "NSNumber".toList), none, "numberWithUnsignedLong:".toList, [(.intLit "unsigned long".toList)]⟩] : List TypedMessage))
    [0] "".toList) = true := by decide +kernel

-- NumberWithUnsignedLong
example : (taggedAt 0 (taggedReports (fun m => if numberLiteralVisit m then [[]] else [])
    ([⟨(some "NSNumber".toList), none, "numberWithUnsignedLong:".toList, [(.intLit "unsigned long".toList)]⟩] : List TypedMessage))
    [0] "".toList) = true := by decide +kernel

-- NumberWithBoxedUnsignedLong
example : ((taggedReports (fun m => if numberLiteralVisit m then [[]] else [])
    ([⟨(some "NSNumber".toList), none, "numberWithUnsignedLong:".toList, [(.paren "unsigned long".toList (.other "unsigned long".toList))]⟩] : List TypedMessage)).isEmpty) = true := by decide +kernel

-- LongLongLiteral
example : ((taggedReports (fun m => if numberLiteralVisit m then [[]] else [])
    ([] : List TypedMessage)).isEmpty) = true := by decide +kernel

-- NumberWithLongLong
example : (taggedAt 0 (taggedReports (fun m => if numberLiteralVisit m then [[]] else [])
    ([⟨(some "NSNumber".toList), none, "numberWithLongLong:".toList, [(.intLit "long long".toList)]⟩] : List TypedMessage))
    [0] "".toList) = true := by decide +kernel

-- NumberWithLongLong
example : (taggedAt 0 (taggedReports (fun m => if numberLiteralVisit m then [[]] else [])
    ([⟨(some "NSNumber".toList), none, "numberWithLongLong:".toList, [(.intLit "long long".toList)]⟩] : List TypedMessage))
    [0] "".toList) = true := by decide +kernel

-- NumberWithBoxedLongLong
example : ((taggedReports (fun m => if numberLiteralVisit m then [[]] else [])
    ([⟨(some "NSNumber".toList), none, "numberWithLongLong:".toList, [(.paren "long long".toList (.other "long long".toList))]⟩] : List TypedMessage)).isEmpty) = true := by decide +kernel

-- UnsignedLongLongLiteral
example : ((taggedReports (fun m => if numberLiteralVisit m then [[]] else [])
    ([] : List TypedMessage)).isEmpty) = true := by decide +kernel

-- NumberWithUnsignedLongLong
example : (taggedAt 0 (taggedReports (fun m => if numberLiteralVisit m then [[]] else [])
    ([⟨(some "NSNumber".toList), none, "numberWithUnsignedLongLong:".toList, [(.intLit "unsigned long long".toList)]⟩] : List TypedMessage))
    [0] "".toList) = true := by decide +kernel

-- NumberWithUnsignedLongLong
example : (taggedAt 0 (taggedReports (fun m => if numberLiteralVisit m then [[]] else [])
    ([⟨(some "NSNumber".toList), none, "numberWithUnsignedLongLong:".toList, [(.intLit "unsigned long long".toList)]⟩] : List TypedMessage))
    [0] "".toList) = true := by decide +kernel

-- NumberWithBoxedUnsignedLongLong
example : ((taggedReports (fun m => if numberLiteralVisit m then [[]] else [])
    ([⟨(some "NSNumber".toList), none, "numberWithUnsignedLongLong:".toList, [(.paren "unsigned long long".toList (.other "unsigned long long".toList))]⟩] : List TypedMessage)).isEmpty) = true := by decide +kernel

-- FloatLiteral
example : ((taggedReports (fun m => if numberLiteralVisit m then [[]] else [])
    ([] : List TypedMessage)).isEmpty) = true := by decide +kernel

-- NumberWithFloat
example : (taggedAt 0 (taggedReports (fun m => if numberLiteralVisit m then [[]] else [])
    ([⟨(some "NSNumber".toList), none, "numberWithFloat:".toList, [(.floatLit "float".toList)]⟩] : List TypedMessage))
    [0] "".toList) = true := by decide +kernel

-- NumberWithFloat
example : (taggedAt 0 (taggedReports (fun m => if numberLiteralVisit m then [[]] else [])
    ([⟨(some "NSNumber".toList), none, "numberWithFloat:".toList, [(.floatLit "float".toList)]⟩] : List TypedMessage))
    [0] "".toList) = true := by decide +kernel

-- NumberWithBoxedFloat
example : ((taggedReports (fun m => if numberLiteralVisit m then [[]] else [])
    ([⟨(some "NSNumber".toList), none, "numberWithFloat:".toList, [(.paren "float".toList (.other "float".toList))]⟩] : List TypedMessage)).isEmpty) = true := by decide +kernel

-- DoubleLiteral
example : ((taggedReports (fun m => if numberLiteralVisit m then [[]] else [])
    ([] : List TypedMessage)).isEmpty) = true := by decide +kernel

-- NumberWithDouble
example : (taggedAt 0 (taggedReports (fun m => if numberLiteralVisit m then [[]] else [])
    ([⟨(some "NSNumber".toList), none, "numberWithDouble:".toList, [(.floatLit "double".toList)]⟩] : List TypedMessage))
    [0] "".toList) = true := by decide +kernel

-- NumberWithBoxedDouble
example : ((taggedReports (fun m => if numberLiteralVisit m then [[]] else [])
    ([⟨(some "NSNumber".toList), none, "numberWithDouble:".toList, [(.paren "double".toList (.other "double".toList))]⟩] : List TypedMessage)).isEmpty) = true := by decide +kernel

-- BOOLYesLiteral_newBOOLDef
example : ((taggedReports (fun m => if numberLiteralVisit m then [[]] else [])
    ([] : List TypedMessage)).isEmpty) = true := by decide +kernel

-- NumberWithBoolYes_newBOOLDef
example : (taggedAt 0 (taggedReports (fun m => if numberLiteralVisit m then [[]] else [])
    ([⟨(some "NSNumber".toList), none, "numberWithBool:".toList, [(.objcBoolLit "BOOL".toList)]⟩] : List TypedMessage))
    [0] "".toList) = true := by decide +kernel

-- NumberWithBoxedBOOLYes_newBOOLDef
example : ((taggedReports (fun m => if numberLiteralVisit m then [[]] else [])
    ([⟨(some "NSNumber".toList), none, "numberWithBool:".toList, [(.implicitCast "BOOL".toList (.paren "int".toList (.other "int".toList)))]⟩] : List TypedMessage)).isEmpty) = true := by decide +kernel

-- BOOLNoLiteral_newBOOLDef
example : ((taggedReports (fun m => if numberLiteralVisit m then [[]] else [])
    ([] : List TypedMessage)).isEmpty) = true := by decide +kernel

-- NumberWithBoolNo_newBOOLDef
example : (taggedAt 0 (taggedReports (fun m => if numberLiteralVisit m then [[]] else [])
    ([⟨(some "NSNumber".toList), none, "numberWithBool:".toList, [(.objcBoolLit "BOOL".toList)]⟩] : List TypedMessage))
    [0] "".toList) = true := by decide +kernel

-- NumberWithBoxedBOOLNo_newBOOLDef
example : ((taggedReports (fun m => if numberLiteralVisit m then [[]] else [])
    ([⟨(some "NSNumber".toList), none, "numberWithBool:".toList, [(.implicitCast "BOOL".toList (.paren "int".toList (.other "int".toList)))]⟩] : List TypedMessage)).isEmpty) = true := by decide +kernel

-- BOOLYesLiteral_oldBOOLDef
example : ((taggedReports (fun m => if numberLiteralVisit m then [[]] else [])
    ([] : List TypedMessage)).isEmpty) = true := by decide +kernel

-- NumberWithBoolYes_oldBOOLDef
example : (taggedAt 0 (taggedReports (fun m => if numberLiteralVisit m then [[]] else [])
    ([⟨(some "NSNumber".toList), none, "numberWithBool:".toList, [(.paren "BOOL".toList (.cStyleCast "BOOL".toList (.intLit "int".toList)))]⟩] : List TypedMessage))
    [0] "".toList) = true := by decide +kernel

-- NumberWithBoxedBOOLYes_oldBOOLDef
example : ((taggedReports (fun m => if numberLiteralVisit m then [[]] else [])
    ([⟨(some "NSNumber".toList), none, "numberWithBool:".toList, [(.implicitCast "BOOL".toList (.paren "int".toList (.other "int".toList)))]⟩] : List TypedMessage)).isEmpty) = true := by decide +kernel

-- BOOLNoLiteral_oldBOOLDef
example : ((taggedReports (fun m => if numberLiteralVisit m then [[]] else [])
    ([] : List TypedMessage)).isEmpty) = true := by decide +kernel

-- NumberWithBoolNo_oldBOOLDef
example : (taggedAt 0 (taggedReports (fun m => if numberLiteralVisit m then [[]] else [])
    ([⟨(some "NSNumber".toList), none, "numberWithBool:".toList, [(.paren "BOOL".toList (.cStyleCast "BOOL".toList (.intLit "int".toList)))]⟩] : List TypedMessage))
    [0] "".toList) = true := by decide +kernel

-- NumberWithBoxedBOOLNo_oldBOOLDef
example : ((taggedReports (fun m => if numberLiteralVisit m then [[]] else [])
    ([⟨(some "NSNumber".toList), none, "numberWithBool:".toList, [(.implicitCast "BOOL".toList (.paren "int".toList (.other "int".toList)))]⟩] : List TypedMessage)).isEmpty) = true := by decide +kernel

/-! ## `oclint-rules/test/migration/ObjCObjectSubscriptingRuleTest.cpp` -/

-- ArrayObjectAtIndex
example : (taggedAt 0 (taggedReports (fun m => if subscriptingVisit m then [[]] else [])
    ([⟨(some "NSArray".toList), (some (.implicitCast "NSArray *".toList (.declRef "NSArray *".toList false))), "objectAtIndex:".toList, [(.implicitCast "NSUInteger".toList (.intLit "int".toList))]⟩] : List TypedMessage))
    [0] "".toList) = true := by decide +kernel

-- ArrayObjectAtIndexedSubscript
example : (taggedAt 0 (taggedReports (fun m => if subscriptingVisit m then [[]] else [])
    ([⟨(some "NSArray".toList), (some (.implicitCast "NSArray *".toList (.declRef "NSArray *".toList false))), "objectAtIndexedSubscript:".toList, [(.implicitCast "NSUInteger".toList (.intLit "int".toList))]⟩] : List TypedMessage))
    [0] "".toList) = true := by decide +kernel

-- ArrayReplaceObjectAtIndexWithObject
example : (taggedAt 0 (taggedReports (fun m => if subscriptingVisit m then [[]] else [])
    ([⟨(some "NSMutableArray".toList), (some (.implicitCast "NSMutableArray *".toList (.declRef "NSMutableArray *".toList false))), "replaceObjectAtIndex:withObject:".toList, [(.implicitCast "NSUInteger".toList (.intLit "int".toList)), (.implicitCast "id".toList (.declRef "id".toList false))]⟩] : List TypedMessage))
    [0] "".toList) = true := by decide +kernel

-- ArraySetObjectAtIndexesSubscript
example : (taggedAt 0 (taggedReports (fun m => if subscriptingVisit m then [[]] else [])
    ([⟨(some "NSMutableArray".toList), (some (.implicitCast "NSMutableArray *".toList (.declRef "NSMutableArray *".toList false))), "setObject:atIndexedSubscript:".toList, [(.implicitCast "id".toList (.declRef "id".toList false)), (.implicitCast "NSUInteger".toList (.intLit "int".toList))]⟩] : List TypedMessage))
    [0] "".toList) = true := by decide +kernel

-- DictionaryObjectForKey
example : (taggedAt 0 (taggedReports (fun m => if subscriptingVisit m then [[]] else [])
    ([⟨(some "NSDictionary".toList), (some (.implicitCast "NSDictionary *".toList (.declRef "NSDictionary *".toList false))), "objectForKey:".toList, [(.implicitCast "id".toList (.other "NSNumber *".toList))]⟩] : List TypedMessage))
    [0] "".toList) = true := by decide +kernel

-- DictionaryObjectForKeyedSubscript
example : (taggedAt 0 (taggedReports (fun m => if subscriptingVisit m then [[]] else [])
    ([⟨(some "NSDictionary".toList), (some (.implicitCast "NSDictionary *".toList (.declRef "NSDictionary *".toList false))), "objectForKeyedSubscript:".toList, [(.implicitCast "id".toList (.other "NSNumber *".toList))]⟩] : List TypedMessage))
    [0] "".toList) = true := by decide +kernel

-- DictionarySetObjectForKey
example : (taggedAt 0 (taggedReports (fun m => if subscriptingVisit m then [[]] else [])
    ([⟨(some "NSMutableDictionary".toList), (some (.implicitCast "NSMutableDictionary *".toList (.declRef "NSMutableDictionary *".toList false))), "setObject:forKey:".toList, [(.implicitCast "id".toList (.declRef "id".toList false)), (.implicitCast "id".toList (.other "NSNumber *".toList))]⟩] : List TypedMessage))
    [0] "".toList) = true := by decide +kernel

-- DictionarySetObjectForKeyedSubscript
example : (taggedAt 0 (taggedReports (fun m => if subscriptingVisit m then [[]] else [])
    ([⟨(some "NSMutableDictionary".toList), (some (.implicitCast "NSMutableDictionary *".toList (.declRef "NSMutableDictionary *".toList false))), "setObject:forKeyedSubscript:".toList, [(.implicitCast "id".toList (.declRef "id".toList false)), (.implicitCast "id".toList (.other "NSNumber *".toList))]⟩] : List TypedMessage))
    [0] "".toList) = true := by decide +kernel

end Oclint
