import Verif.Model.RulesMigration

/-!
# What the rules that propose literals report

`@x` and `@(x)` are compiled to a message themselves.  Which one depends on `x` (Clang's documentation
of Objective-C literals); a proposal is right if it is the message that was written.
-/

namespace Oclint.Spec
open Oclint

/-- Capital first letters, no blanks: `unsigned long` becomes `UnsignedLong`. -/
def camel : Bool → Str → Str
  | _, [] => []
  | up, c :: cs => if c = ' ' then camel true cs else (if up then c.toUpper else c) :: camel false cs

/-- The arithmetic types with a factory method that the rules know. -/
inductive NumberType : Str → Prop where
  | char : NumberType "char".toList
  | int : NumberType "int".toList
  | unsignedInt : NumberType "unsigned int".toList
  | long : NumberType "long".toList
  | unsignedLong : NumberType "unsigned long".toList
  | longLong : NumberType "long long".toList
  | unsignedLongLong : NumberType "unsigned long long".toList
  | float : NumberType "float".toList
  | double : NumberType "double".toList

/-- The factory method for a type. -/
def factory (type : Str) : Str := "numberWith".toList ++ camel true type ++ ":".toList

/-- What `@(e)` sends, by the type of `e`. -/
inductive BoxSends : Str → Str → Str → Prop where
  | number {t} : NumberType t → BoxSends t "NSNumber".toList (factory t)
  | bool : BoxSends "BOOL".toList "NSNumber".toList "numberWithBool:".toList
  | string : BoxSends "char *".toList "NSString".toList "stringWithUTF8String:".toList

/-- What `@e` sends for a literal `e`. -/
inductive LiteralSends : TypedExpr → Str → Prop where
  | char (t) : LiteralSends (.charLit t) "numberWithChar:".toList
  | int {t} : NumberType t → LiteralSends (.intLit t) (factory t)
  | float {t} : NumberType t → LiteralSends (.floatLit t) (factory t)
  | bool (t) : LiteralSends (.objcBoolLit t) "numberWithBool:".toList
  /-- `@YES` where `YES` is the macro `((BOOL)1)` -/
  | macro (t x) : LiteralSends (.paren t (.cStyleCast "BOOL".toList (.intLit x))) "numberWithBool:".toList

/-- An implicit conversion around it is dropped with the message. -/
inductive UpToConversion : TypedExpr → TypedExpr → Prop where
  | same (e) : UpToConversion e e
  | cast (t e) : UpToConversion (.implicitCast t e) e

/-- Integer types of literals. -/
def IntType (t : Str) : Prop :=
  NumberType t ∧ t ≠ "char".toList ∧ t ≠ "float".toList ∧ t ≠ "double".toList

/-- Floating types of literals. -/
def FloatType (t : Str) : Prop := t = "float".toList ∨ t = "double".toList

/-- The argument is a literal of the type that the selector is for. -/
inductive NumberLiteral : TypedExpr → Str → Prop where
  | char (t u) : NumberLiteral (.implicitCast t (.charLit u)) "numberWithChar:".toList
  | int {t} : IntType t → NumberLiteral (.intLit t) (factory t)
  | float {t} : FloatType t → NumberLiteral (.floatLit t) (factory t)
  | bool (t) : NumberLiteral (.objcBoolLit t) "numberWithBool:".toList
  | macro (t u) : NumberLiteral (.paren t (.cStyleCast "BOOL".toList (.intLit u))) "numberWithBool:".toList

/-- The argument is something to be boxed. -/
inductive BoxedNumber : TypedExpr → Str → Prop where
  | paren {t} (e) : NumberType t → BoxedNumber (.paren t e) (factory t)
  | bool (u e) : BoxedNumber (.implicitCast "BOOL".toList (.paren u e)) "numberWithBool:".toList
  | enumConstant : BoxedNumber (.declRef "int".toList true) "numberWithInt:".toList

/-- The argument is a C string to be boxed. -/
inductive BoxedString : TypedExpr → Str → Prop where
  | call : BoxedString (.implicitCast "const char *".toList (.call "char *".toList))
      "stringWithUTF8String:".toList
  | paren (e) : BoxedString (.implicitCast "const char *".toList (.paren "char *".toList e))
      "stringWithUTF8String:".toList

/-- Factory methods of containers, by class. -/
inductive ContainerFactory : Str → Str → Prop where
  | array : ContainerFactory "NSArray".toList "array".toList
  | arrayObject : ContainerFactory "NSArray".toList "arrayWithObject:".toList
  | arrayCount : ContainerFactory "NSArray".toList "arrayWithObjects:count:".toList
  | arrayObjects : ContainerFactory "NSArray".toList "arrayWithObjects:".toList
  | dictionary : ContainerFactory "NSDictionary".toList "dictionary".toList
  | dictionaryObject : ContainerFactory "NSDictionary".toList "dictionaryWithObject:forKey:".toList
  | dictionaryCount : ContainerFactory "NSDictionary".toList
      "dictionaryWithObjects:forKeys:count:".toList
  | dictionaryObjectsAndKeys : ContainerFactory "NSDictionary".toList
      "dictionaryWithObjectsAndKeys:".toList
  | dictionaryObjects : ContainerFactory "NSDictionary".toList "dictionaryWithObjects:forKeys:".toList

/-- Methods that subscripts stand for, by the type of the receiver. -/
inductive SubscriptMethod : Str → Str → Prop where
  | get : SubscriptMethod "NSArray *".toList "objectAtIndex:".toList
  | getSubscript : SubscriptMethod "NSArray *".toList "objectAtIndexedSubscript:".toList
  | set : SubscriptMethod "NSMutableArray *".toList "replaceObjectAtIndex:withObject:".toList
  | setSubscript : SubscriptMethod "NSMutableArray *".toList "setObject:atIndexedSubscript:".toList
  | getKey : SubscriptMethod "NSDictionary *".toList "objectForKey:".toList
  | getKeySubscript : SubscriptMethod "NSDictionary *".toList "objectForKeyedSubscript:".toList
  | setKey : SubscriptMethod "NSMutableDictionary *".toList "setObject:forKey:".toList
  | setKeySubscript : SubscriptMethod "NSMutableDictionary *".toList "setObject:forKeyedSubscript:".toList

end Oclint.Spec
