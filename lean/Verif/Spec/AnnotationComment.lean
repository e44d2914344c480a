import Verif.Spec.Suppress

/-!
# Specification of the comments of annotations
-/

namespace Oclint.Spec
open Oclint

/-- What follows the name of the rule in an annotation carries the comment `c`: what is between the
first opening bracket and a closing bracket at the end. -/
inductive CommentIn : Str → Option Str → Prop where
  | given (pre comment : Str) : '[' ∉ pre → CommentIn (pre ++ '[' :: comment ++ [']']) (some comment)
  | missing (tail : Str) : ('[' ∉ tail ∨ ∃ pre rest, '[' ∉ pre ∧ tail = pre ++ '[' :: rest ∧
      rest.getLast? ≠ some ']') → CommentIn tail none

/-- None of the annotations is about the action and the rule. -/
def NoneNames (action rule : Str) (annotations : List Str) : Prop :=
  ∀ a ∈ annotations, ¬ Names action rule a

/-- The first annotation about the action and the rule carries the comment `c`. -/
def FirstNames (action rule : Str) (annotations : List Str) (c : Option Str) : Prop :=
  ∃ before tail after,
    annotations = before ++ ("oclint:".toList ++ action ++ "[".toList ++ rule ++ "]".toList ++ tail) :: after ∧
    NoneNames action rule before ∧ CommentIn tail c

/-- The comment of the annotation that counts: its own annotations come first, then those of the
property it is an accessor of, then those of the protocol method or of the categories in order. -/
inductive CommentOf (action rule : Str) : DeclInfo → Option Str → Prop where
  | own (d : DeclInfo) (c : Option Str) : FirstNames action rule d.annotations c → CommentOf action rule d c
  | property (anns prop ctx cats c) : NoneNames action rule anns → FirstNames action rule prop c →
      CommentOf action rule (.method anns true (some prop) ctx cats) c
  | protocol (anns acc prop look cats c) : NoneNames action rule anns →
      (∀ p, acc = true → prop = some p → NoneNames action rule p) → FirstNames action rule look c →
      CommentOf action rule (.method anns acc prop (.protocol (some look)) cats) c
  | category (anns acc prop before d after c) : NoneNames action rule anns →
      (∀ p, acc = true → prop = some p → NoneNames action rule p) →
      (∀ e, some e ∈ before → ¬ Requested action rule e) → CommentOf action rule d c →
      CommentOf action rule (.method anns acc prop .classWithInterface (before ++ some d :: after)) c

/-- The advice a comment gives. -/
inductive AdviceOf : Option Str → Str → Prop where
  | absent : AdviceOf none []
  | blank : AdviceOf (some []) []
  | given (c : Str) : c ≠ [] → AdviceOf (some c) (" instead use ".toList ++ c)

end Oclint.Spec
