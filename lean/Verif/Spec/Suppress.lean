import Verif.Model.SourceLines
import Verif.Model.RuleBase
import Verif.Spec.Registry

/-!
# Specifications for suppression, language gating and line rules
-/

namespace Oclint.Spec
open Oclint

/-! ## Annotations -/

/-- The annotation text says that `action` applies to the rule called `rule`. -/
def Names (action rule annotation : Str) : Prop :=
  ∃ tail, annotation = "oclint:".toList ++ action ++ "[".toList ++ rule ++ "]".toList ++ tail

/-- `action` is requested for `rule` on a declaration: by an annotation of its own; for Objective-C
methods also by one of the property it is an accessor of, of the protocol method it implements, or
of a redeclaration in a category of its class. -/
inductive Requested (action rule : Str) : DeclInfo → Prop where
  | own (d : DeclInfo) (a : Str) : a ∈ d.annotations → Names action rule a → Requested action rule d
  | property (anns prop ctx cats) (a : Str) : a ∈ prop → Names action rule a →
      Requested action rule (.method anns true (some prop) ctx cats)
  | protocol (anns acc prop look cats) (a : Str) : a ∈ look → Names action rule a →
      Requested action rule (.method anns acc prop (.protocol (some look)) cats)
  | category (anns acc prop cats d) : some d ∈ cats → Requested action rule d →
      Requested action rule (.method anns acc prop .classWithInterface cats)

/-- The declaration asks for `rule` to be silent: the blanket annotation or a rule specific one. -/
def Silenced (rule : Str) (d : DeclInfo) : Prop :=
  "oclint:suppress".toList ∈ d.annotations ∨ Requested "suppress".toList rule d

/-- `p` is an ancestor of `n` in the first-parent chain; the chain ends at a node that is neither a
declaration nor a statement. -/
inductive Ancestor (pm : ParentMap) : Nat → Nat → Prop where
  | parent (n p rest) : pm.parents n = p :: rest → Ancestor pm n p
  | step (n q p rest) : Ancestor pm n q → pm.kind q ≠ .other →
      pm.parents q = p :: rest → Ancestor pm n p

/-! ## Line markers and ranges -/

/-- The comment text contains the suppression marker. -/
def Marked (apple : Bool) (text : Str) : Prop :=
  if apple then
    ∃ before blanks word after, text = before ++ "//!".toList ++ blanks ++ word ++ after ∧
      (∀ c ∈ blanks, c = ' ') ∧ word.map Char.toLower = "oclint".toList
  else ∃ before after, text = before ++ "//!OCLINT".toList ++ after

/-- The line has a marked comment in the unit's main file. -/
def LineSuppressed (apple : Bool) (u : SourceUnit) (line : Int) : Prop :=
  ∃ cs text, u.comments = some cs ∧ some (text, line) ∈ cs ∧ Marked apple text

/-- The line lies in a declaration of the main file that silences the rule. -/
def RangeSuppressed (u : SourceUnit) (rule : Str) (line : Int) : Prop :=
  ∃ top ∈ u.topDecls, top.1 = true ∧
    ∃ d ∈ top.2, Silenced rule d.decl ∧ d.startLine ≤ line ∧ line ≤ d.endLine

/-- A call of `shouldSuppress(line, context, rule)`. -/
structure Query where
  unit : SourceUnit
  rule : Option Str
  line : Int

/-- The static maps after some calls. -/
def cacheAfter (apple : Bool) (qs : List Query) : SuppressCache :=
  qs.foldl (fun st q => (shouldSuppressLine apple st q.unit q.rule q.line).2) SuppressCache.empty

/-- The answer to a call made after some other calls. -/
def answer (apple : Bool) (qs : List Query) (q : Query) : Bool :=
  (shouldSuppressLine apple (cacheAfter apple qs) q.unit q.rule q.line).1

/-- The maps of all libraries after some calls from them. -/
def mapsAfter (apple : Bool) (qs : List (Str × Query)) : Str → SuppressCache :=
  qs.foldl (fun maps q => (shouldSuppressFrom apple maps q.1 q.2.unit q.2.rule q.2.line).2)
    fun _ => SuppressCache.empty

/-- The answer to a call from a library made after calls from this one and others. -/
def answerFrom (apple : Bool) (qs : List (Str × Query)) (library : Str) (q : Query) : Bool :=
  (shouldSuppressFrom apple (mapsAfter apple qs) library q.unit q.rule q.line).1

/-- Whose comments count for a unit: those of the first unit asked about under its main path. -/
def commentSource (qs : List Query) (u : SourceUnit) : SourceUnit :=
  ((qs.find? fun q => decide (q.unit.mainPath = u.mainPath)).map Query.unit).getD u

open Classical in
/-- Whose declarations and rule count: those of the first call under the same main path that had a
rule and was not settled by a line marker. -/
noncomputable def rangeSource (apple : Bool) (qs : List Query) (q : Query) : Query :=
  (qs.find? fun q' => decide (q'.unit.mainPath = q.unit.mainPath ∧ q'.rule ≠ none ∧
    ¬ LineSuppressed apple (commentSource qs q'.unit) q'.line)).getD q

/-! ## Languages -/

/-- The languages a unit can be in, as far as rules are concerned. -/
inductive Language where
  | c | cxx | objC
  deriving Repr, DecidableEq

/-- The bit of a support mask that stands for a language. -/
def Language.bit : Language → Nat
  | .c => 0
  | .cxx => 1
  | .objC => 2

/-- The unit is in the language: Objective-C takes precedence over C++, C++ over C. -/
inductive InLanguage (o : LangOpts) : Language → Prop where
  | objC : o.objC = true → InLanguage o .objC
  | cxx : o.objC = false → o.cPlusPlus = true → InLanguage o .cxx
  | c : o.objC = false → o.cPlusPlus = false → o.c99 = true → InLanguage o .c

/-- A top level declaration of the main file. -/
def InMain (d : TopDecl) : Prop := d.beginValid = true ∧ d.inMainFile = true

/-- A CUDA rule wants the declaration: kernels need bit 1 of the mask, other functions bit 0, and
everything else is shown. -/
def WantsCUDA (mask : BitVec 32) (d : TopDecl) : Prop :=
  d.isFunction = true → mask.getLsbD (if d.hasCUDAGlobal then 1 else 0) = true

/-! ## Lines -/

/-- Lines joined by newlines. -/
def joinLines : List Str → Str
  | [] => []
  | [l] => l
  | l :: l' :: ls => l ++ '\n' :: joinLines (l' :: ls)

/-- `lines` are the lines of a buffer; a final newline ends the last line. -/
def IsLines (buffer : Str) (lines : List Str) : Prop :=
  (∀ l ∈ lines, '\n' ∉ l) ∧
    ((buffer = [] ∧ lines = []) ∨
      (lines ≠ [] ∧ (buffer = joinLines lines ++ ['\n'] ∨
        (buffer = joinLines lines ∧ lines.getLast? ≠ some []))))

/-- The violation the long line rule has for a line. -/
def longLine (rule : RuleId) (path : Str) (threshold : Int) (number : Nat) (line : Str) :
    Violation :=
  { rule := some rule, path := path, startLine := number, startColumn := 1, endLine := number,
    endColumn := line.length
    message := "Line with ".toList ++ decimal line.length
      ++ " characters exceeds limit of ".toList ++ decimalInt threshold }

end Oclint.Spec
