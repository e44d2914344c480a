import Verif.Model.Ast

/-!
# What the code metrics are supposed to measure

Independent of the metric classes: weights added up over a tree, chains of nested blocks, and
walks through the control structure.
-/

namespace Oclint.Spec

/-- `Tally w ch forest n`: adding the weights `w` of all nodes reachable from the roots `forest`
by repeatedly going to children `ch` gives `n` (a node counts as often as it occurs). -/
inductive Tally (w : Stmt → Nat) (ch : Stmt → List Stmt) : List Stmt → Nat → Prop where
  | nil : Tally w ch [] 0
  | cons {s : Stmt} {r : List Stmt} {m n : Nat} :
      Tally w ch (ch s) m → Tally w ch r n → Tally w ch (s :: r) (w s + m + n)

/-- `Gathers P forest out`: `out` are the nodes below the roots `forest` that satisfy `P`, a node before
those inside it and one subtree after the other. -/
inductive Gathers (P : Stmt → Prop) : List Stmt → List Stmt → Prop where
  | nil : Gathers P [] []
  | take {s : Stmt} {r a b : List Stmt} : P s → Gathers P s.kids a → Gathers P r b →
      Gathers P (s :: r) (s :: (a ++ b))
  | leave {s : Stmt} {r a b : List Stmt} : ¬ P s → Gathers P s.kids a → Gathers P r b →
      Gathers P (s :: r) (a ++ b)

/-- The largest `int`. -/
def intMax : Nat := 2147483647

/-- A decision point: `if`, `for`, `for-in`, `while`, `do`, `case`, `@catch`, `catch`, `?:`,
`&&`, `||`. -/
inductive IsDecision : Stmt → Prop where
  | ifS (p c t e) : IsDecision (.ifS p c t e)
  | forS (i c n b) : IsDecision (.forS i c n b)
  | forIn (e c b) : IsDecision (.forIn e c b)
  | whileS (c b) : IsDecision (.whileS c b)
  | doS (b c) : IsDecision (.doS b c)
  | caseS (v s) : IsDecision (.caseS v s)
  | atCatch (b) : IsDecision (.atCatch b)
  | cxxCatch (d b) : IsDecision (.cxxCatch d b)
  | condOp (c t f) : IsDecision (.condOp c t f)
  | land (l r) : IsDecision (.binary .land l r)
  | lor (l r) : IsDecision (.binary .lor l r)

open Classical in
/-- One per decision point. -/
noncomputable def decisionWeight (s : Stmt) : Nat := if IsDecision s then 1 else 0

/-- The statements a control structure is made of; everything that is not a control structure
(declarations, expressions, labels, `goto`, ...) has none. -/
def parts : Stmt → List Stmt
  | .compound b => b
  | .ifS _ _ t e => t :: e.toList
  | .whileS _ b | .doS b _ | .forS _ _ _ b | .forIn _ _ b | .switchS _ _ b => [b]
  | .caseS _ s | .defaultS s => [s]
  | .cxxTry b hs => b :: hs
  | .atTry b cs f => b :: (cs ++ f.toList)
  | .cxxCatch _ b | .atCatch b | .atFinally b | .atSynchronized _ b | .autoreleasePool b => [b]
  | _ => []

/-- What a statement adds by itself to the number of source statements: braces and empty
statements nothing, an `else` and the `while` of a `do` one more. -/
def statementWeight : Stmt → Nat
  | .nullS => 0
  | .compound _ => 0
  | .ifS _ _ _ (some _) => 2
  | .doS _ _ => 2
  | _ => 1

/-- A pair of braces. -/
def braces : Stmt → Nat
  | .compound _ => 1
  | _ => 0

/-- `Chain s n`: some chain of nested parts starting at `s` goes through `n` pairs of braces. -/
inductive Chain : Stmt → Nat → Prop where
  | stop (s : Stmt) : Chain s (braces s)
  | step {s k : Stmt} {n : Nat} : k ∈ parts s → Chain k n → Chain s (braces s + n)

/-! ## Walks -/

/-- The parts of an expression that short-circuit evaluation distinguishes. -/
def logicalParts : Stmt → List Stmt
  | .condOp c t f => [c, t, f]
  | .binary .land l r | .binary .lor l r => [l, r]
  | .paren e => [e]
  | .cast _ _ e => [e]
  | _ => []

/-- Additional ways through an expression contributed by the node itself. -/
def logicalWeight : Stmt → Nat
  | .condOp _ _ _ => 2
  | .binary .land _ _ | .binary .lor _ _ => 1
  | _ => 0

/-- `Ways e n`: the logical operators of `e` add `n` ways (Nejmeh's NP of an expression). -/
def Ways (e : Stmt) (n : Nat) : Prop := Tally logicalWeight logicalParts [e] n

/-- A choice made on a walk through a body. -/
inductive Choice where
  /-- leaving the condition in one of its additional ways -/
  | early (i : Nat)
  /-- leaving the increment of a `for` in one of its additional ways -/
  | incr (i : Nat)
  /-- condition holds: enter the branch -/
  | yes
  /-- condition does not hold / the loop is left -/
  | no
  /-- the initialisation of a `for` (the implementation counts it as a path of its own) -/
  | init
  /-- jump to the `i`-th label of a switch -/
  | label (i : Nat)
  deriving DecidableEq

/-- A `case` or `default`. -/
def IsLabel (s : Stmt) : Prop := (∃ v b, s = .caseS v b) ∨ ∃ b, s = .defaultS b

/-- `Section body i sec`: `sec` is the `i`-th labelled section of a switch body: a label and the
statements following it up to the next label. -/
inductive Section : List Stmt → Nat → List Stmt → Prop where
  | here {l : Stmt} {sec rest : List Stmt} : IsLabel l → (∀ s ∈ sec, ¬ IsLabel s) →
      (rest = [] ∨ ∃ l' r', rest = l' :: r' ∧ IsLabel l') → Section (l :: (sec ++ rest)) 0 (l :: sec)
  | later {l : Stmt} {body sec : List Stmt} {i : Nat} : IsLabel l → Section body i sec →
      Section (l :: body) (i + 1) sec
  | skip {s : Stmt} {body sec : List Stmt} {i : Nat} : ¬ IsLabel s → Section body i sec →
      Section (s :: body) i sec

/-- Statements a walk can branch in. -/
inductive Branching : Stmt → Prop where
  | compound (b) : Branching (.compound b)
  | ifS (p c t e) : Branching (.ifS p c t e)
  | whileS (c b) : Branching (.whileS c b)
  | doS (b c) : Branching (.doS b c)
  | forS (i c n b) : Branching (.forS i c n b)
  | switchS (a c b) : Branching (.switchS a c b)
  | caseS (v s) : Branching (.caseS v s)
  | defaultS (s) : Branching (.defaultS s)
  | forIn (e c b) : Branching (.forIn e c b)

mutual
/-- `Walk s w`: `w` is the sequence of choices of an acyclic walk through `s` (loop bodies are
taken at most once, jumps are ignored). -/
inductive Walk : Stmt → List Choice → Prop where
  | plain {s : Stmt} : ¬ Branching s → Walk s []
  | seq {b : List Stmt} {w : List Choice} : Walks b w → Walk (.compound b) w
  | ifEarly {p c t e n i} : Ways c n → i < n → Walk (.ifS p c t e) [.early i]
  | ifThen {p c t e w} : Walk t w → Walk (.ifS p c t e) (.yes :: w)
  | ifElse {p c t e w} : Walk e w → Walk (.ifS p c t (some e)) (.no :: w)
  | ifNoElse {p c t} : Walk (.ifS p c t none) [.no]
  | whileEarly {c b n i} : Ways c n → i < n → Walk (.whileS c b) [.early i]
  | whileBody {c b w} : Walk b w → Walk (.whileS c b) (.yes :: w)
  | whileSkip {c b} : Walk (.whileS c b) [.no]
  | doEarly {c b n i} : Ways c n → i < n → Walk (.doS b c) [.early i]
  | doBody {c b w} : Walk b w → Walk (.doS b c) (.yes :: w)
  | doBack {c b} : Walk (.doS b c) [.no]
  | forInit {s c n b w} : Walk s w → Walk (.forS (some s) c n b) (.init :: w)
  | forNoInit {c n b} : Walk (.forS none c n b) [.init]
  | forEarly {s c n b k i} : Ways c k → i < k → Walk (.forS s (some c) n b) [.early i]
  | forIncr {s c n b k i} : Ways n k → i < k → Walk (.forS s c (some n) b) [.incr i]
  | forBody {s c n b w} : Walk b w → Walk (.forS s c n b) (.yes :: w)
  | forSkip {s c n b} : Walk (.forS s c n b) [.no]
  | inBody {e c b w} : Walk b w → Walk (.forIn e c b) (.yes :: w)
  | inSkip {e c b} : Walk (.forIn e c b) [.no]
  | inInit {e c b} : Walk (.forIn e c b) [.init]
  | switchEarly {a c b n i} : Ways c n → i < n → Walk (.switchS a c b) [.early i]
  | switchSection {a c body i sec w} : Section body i sec → Walks sec w →
      Walk (.switchS a c (.compound body)) (.label i :: w)
  | switchBody {a c b w} : (∀ l, b ≠ .compound l) → Walk b w → Walk (.switchS a c b) (.label 0 :: w)
  | caseSub {v s w} : Walk s w → Walk (.caseS v s) w
  | defaultSub {s w} : Walk s w → Walk (.defaultS s) w

/-- A walk through a sequence. -/
inductive Walks : List Stmt → List Choice → Prop where
  | nil : Walks [] []
  | cons {s r u v} : Walk s u → Walks r v → Walks (s :: r) (u ++ v)
end

/-- Every switch body starts with a label, so that all its statements belong to a section. -/
inductive Labelled : List Stmt → Prop where
  | start {l : Stmt} {r : List Stmt} : IsLabel l → Labelled (l :: r)

/-- No switch without labels, and nothing before the first label of a switch, among the parts. -/
inductive WellLabelled : Stmt → Prop where
  | mk {s : Stmt} : (∀ k ∈ parts s, WellLabelled k) →
      (∀ a c b, s = .switchS a c (.compound b) → Labelled b) →
      (∀ i c n b, s = .forS (some i) c n b → WellLabelled i) → WellLabelled s

/-- The statements a control structure known to the metric is built from, the statements of a
switch body taken one by one. -/
inductive Within : Stmt → Stmt → Prop where
  | part {k s : Stmt} : Branching s → k ∈ parts s → (∀ a c b, s ≠ .switchS a c b) → Within k s
  | switchBody {a c k b} : k ∈ b → Within k (.switchS a c (.compound b))
  | switchLone {a c k} : (∀ b, k ≠ .compound b) → Within k (.switchS a c k)

end Oclint.Spec
