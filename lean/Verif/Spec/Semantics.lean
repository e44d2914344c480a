import Verif.Model.Ast

/-!
# What programs do

A semantics of the statements and expressions of `Model/Ast.lean`, used to say that a rule's advice
preserves behaviour.  It is not taken from oclint.

It is parametric in the program states `σ`, the values `V` and the meaning of everything the rules
do not look into (`World`): calls, arithmetic, `try`, range based loops and so on.  Concrete are the
logical operators, `?:`, comparison for (in)equality, and all control flow: blocks, `if`, the three
C loops, `switch` with `case` and `default` labels, `goto` with labels, `break`, `continue`,
`return`, and that exceptions propagate.

A statement is run from an entry: its start, or a label in it.  All evaluation is deterministic
given the `World`, so two statements with the same results also diverge in the same situations.
-/

namespace Oclint.Spec

/-- Result of evaluating an expression. -/
inductive Res (σ V : Type) where
  | val (v : V) (s : σ)
  | thrown (s : σ)

/-- How running a statement ends. -/
inductive Out (V : Type) where
  | normal
  | brk
  | cont
  | ret (v : Option V)
  | thrown
  | goto (label : Str)
  deriving DecidableEq

/-- Where running a statement begins. -/
inductive Entry (V : Type) where
  | start
  | label (l : Str)
  /-- at the `case` label for this value -/
  | toCase (v : V)
  | toDefault

/-- The meaning of what the semantics leaves open. -/
structure World (σ V : Type) where
  /-- conversion to a condition -/
  truth : V → Bool
  ofBool : Bool → V
  truth_ofBool : ∀ b, truth (ofBool b) = b
  /-- the value of a literal -/
  lit : Stmt → V
  lit_bool : ∀ b, lit (.boolLit b) = ofBool b
  lit_objc : ∀ b, lit (.objcBoolLit b) = ofBool b
  castV : CastForm → CastKind → V → V
  /-- evaluation of two operands, in whatever order; `none` if it does not end -/
  operands : Stmt → Stmt → σ → Option (Res σ (V × V))
  /-- built-in `==` -/
  eqV : V → V → Bool
  /-- any other expression; `none` if evaluation does not end -/
  atom : Stmt → σ → Option (Res σ V)
  /-- assignment to and initialisation of a variable -/
  store : DeclId → V → σ → σ
  /-- declaration of a variable without initial value -/
  declare : DeclId → σ → σ
  /-- does this `case` label select this value? -/
  caseIs : Stmt → V → Bool
  /-- any other statement; `none` if it does not end -/
  other : Stmt → σ → Option (Out V × σ)

/-- Is the statement a literal? -/
def isLiteral : Stmt → Bool
  | .intLit _ | .boolLit _ | .objcBoolLit _ | .floatLit _ | .charLit _ | .strLit _ | .nullPtrLit =>
    true
  | _ => false

/-- Is the statement an expression? -/
def isExpr : Stmt → Bool
  | .intLit _ | .boolLit _ | .objcBoolLit _ | .floatLit _ | .charLit _ | .strLit _ | .declRef _
  | .unary _ _ | .binary _ _ _ | .condOp _ _ _ | .paren _ | .cast _ _ _ | .member _ _ _
  | .message _ _ _ _ | .call _ _ | .throwE _ | .deleteE _ | .cleanups _ | .nullPtrLit | .otherE _ =>
    true
  | _ => false

section
variable {σ V : Type} (W : World σ V)

/-- Continue with the value. -/
def Res.andThen {α β : Type} (r : Option (Res σ α)) (f : α → σ → Option (Res σ β)) :
    Option (Res σ β) :=
  match r with
  | none => none
  | some (.thrown s) => some (.thrown s)
  | some (.val v s) => f v s

/-- Evaluation of expressions. -/
def eval : Stmt → σ → Option (Res σ V)
  | .paren e, s => eval e s
  | .unary .lnot e, s => Res.andThen (eval e s) fun v s => some (.val (W.ofBool (!W.truth v)) s)
  | .binary .land a b, s => Res.andThen (eval a s) fun v s =>
      if W.truth v then Res.andThen (eval b s) fun w s => some (.val (W.ofBool (W.truth w)) s)
      else some (.val (W.ofBool false) s)
  | .binary .lor a b, s => Res.andThen (eval a s) fun v s =>
      if W.truth v then some (.val (W.ofBool true) s)
      else Res.andThen (eval b s) fun w s => some (.val (W.ofBool (W.truth w)) s)
  | .binary .eq a b, s => Res.andThen (W.operands a b s) fun p s =>
      some (.val (W.ofBool (W.eqV p.1 p.2)) s)
  | .binary .ne a b, s => Res.andThen (W.operands a b s) fun p s =>
      some (.val (W.ofBool (!W.eqV p.1 p.2)) s)
  | .binary .assign (.declRef d) e, s => Res.andThen (eval e s) fun v s => some (.val v (W.store d v s))
  | .condOp c t f, s => Res.andThen (eval c s) fun v s => if W.truth v then eval t s else eval f s
  | .cast form kind e, s => Res.andThen (eval e s) fun v s => some (.val (W.castV form kind v) s)
  | .throwE none, s => some (.thrown s)
  | .throwE (some e), s => Res.andThen (eval e s) fun _ s => some (.thrown s)
  | .intLit n, s => some (.val (W.lit (.intLit n)) s)
  | .boolLit b, s => some (.val (W.lit (.boolLit b)) s)
  | .objcBoolLit b, s => some (.val (W.lit (.objcBoolLit b)) s)
  | .floatLit b, s => some (.val (W.lit (.floatLit b)) s)
  | .charLit b, s => some (.val (W.lit (.charLit b)) s)
  | .strLit b, s => some (.val (W.lit (.strLit b)) s)
  | .nullPtrLit, s => some (.val (W.lit .nullPtrLit) s)
  | e, s => W.atom e s

mutual
/-- Can the statement be entered there?  C and C++ do not allow jumps into a `try`, a range based
loop or an expression. -/
def hasEntry (e : Entry V) : Stmt → Bool
  | .compound b => (match e with | .start => true | _ => false) || hasEntryL e b
  | .ifS _ _ t els => (match e with | .start => true | _ => false) || hasEntry e t || hasEntryO e els
  | .whileS _ b => (match e with | .start => true | _ => false) || hasEntry e b
  | .doS b _ => (match e with | .start => true | _ => false) || hasEntry e b
  | .forS _ _ _ b => (match e with | .start => true | _ => false) || hasEntry e b
  | .switchS _ _ b =>
    match e with
    | .start => true
    | .label _ => hasEntry e b
    | _ => false
  | .caseS val s =>
    (match e with
      | .start => true
      | .toCase v => W.caseIs val v
      | _ => false) || hasEntry e s
  | .defaultS s => (match e with | .start | .toDefault => true | _ => false) || hasEntry e s
  | .labelS name s =>
    (match e with
      | .start => true
      | .label l => decide (l = name)
      | _ => false) || hasEntry e s
  | _ => match e with | .start => true | _ => false

/-- `hasEntry` for lists. -/
def hasEntryL (e : Entry V) : List Stmt → Bool
  | [] => false
  | s :: rest => hasEntry e s || hasEntryL e rest

/-- `hasEntry` for a possibly missing statement. -/
def hasEntryO (e : Entry V) : Option Stmt → Bool
  | none => false
  | some s => hasEntry e s
end

/-- The label the statement starts with is the one looked for. -/
def atLabel (e : Entry V) : Stmt → Bool
  | .caseS val _ => match e with | .toCase v => W.caseIs val v | _ => false
  | .defaultS _ => match e with | .toDefault => true | _ => false
  | .labelS name _ => match e with | .label l => decide (l = name) | _ => false
  | _ => false

/-- What the end of a loop body means for the loop: `none` is another round. -/
def loopOut : Out V → Option (Out V)
  | .normal | .cont => none
  | .brk => some .normal
  | o => some o

/-- What the end of its body means for a `switch`. -/
def switchOut : Out V → Out V
  | .brk => .normal
  | o => o

/-- Where a `switch` goes. -/
def switchTarget (body : Stmt) (v : V) : Option (Entry V) :=
  if hasEntry W (.toCase v) body then some (.toCase v)
  else if hasEntry W .toDefault body then some .toDefault
  else none

/-- Statements whose meaning is left open. -/
def isOther : Stmt → Bool
  | .forRange _ _ _ | .forIn _ _ _ | .indirectGoto _ | .cxxTry _ _ | .cxxCatch _ _ | .atTry _ _ _
  | .atCatch _ | .atFinally _ | .atSynchronized _ _ | .autoreleasePool _ | .otherS _ => true
  | _ => false

mutual
/-- Running a statement from an entry in a state. -/
inductive Run : Entry V → Stmt → σ → Out V → σ → Prop where
  | null {s} : Run .start .nullS s .normal s
  | compound {e b s o s'} : RunL e b s o s' → Run e (.compound b) s o s'
  | expr {x s v s'} : isExpr x = true → eval W x s = some (.val v s') → Run .start x s .normal s'
  | exprThrow {x s s'} : isExpr x = true → eval W x s = some (.thrown s') → Run .start x s .thrown s'
  | ifTrue {p c t els s s1 v s2 o s3} : RunO p s .normal s1 → eval W c s1 = some (.val v s2) →
      W.truth v = true → Run .start t s2 o s3 → Run .start (.ifS p c t els) s o s3
  | ifFalse {p c t els s s1 v s2 o s3} : RunO p s .normal s1 → eval W c s1 = some (.val v s2) →
      W.truth v = false → RunO els s2 o s3 → Run .start (.ifS p c t els) s o s3
  | ifThrow {p c t els s s1 s2} : RunO p s .normal s1 → eval W c s1 = some (.thrown s2) →
      Run .start (.ifS p c t els) s .thrown s2
  | ifInit {p c t els s o s1} : RunO p s o s1 → o ≠ .normal → Run .start (.ifS p c t els) s o s1
  | ifEnterThen {e p c t els s o s'} : e ≠ .start → hasEntry W e t = true → Run e t s o s' →
      Run e (.ifS p c t els) s o s'
  | ifEnterElse {e p c t x s o s'} : e ≠ .start → hasEntry W e t = false → hasEntry W e x = true →
      Run e x s o s' → Run e (.ifS p c t (some x)) s o s'
  | whileFalse {c b s v s1} : eval W c s = some (.val v s1) → W.truth v = false →
      Run .start (.whileS c b) s .normal s1
  | whileThrow {c b s s1} : eval W c s = some (.thrown s1) → Run .start (.whileS c b) s .thrown s1
  | whileTrue {c b s v s1 o s2 o' s3} : eval W c s = some (.val v s1) → W.truth v = true →
      Run .start b s1 o s2 → WhileRest c b o s2 o' s3 → Run .start (.whileS c b) s o' s3
  | whileEnter {e c b s o s2 o' s3} : e ≠ .start → hasEntry W e b = true → Run e b s o s2 →
      WhileRest c b o s2 o' s3 → Run e (.whileS c b) s o' s3
  | doBody {e b c s o s2 o' s3} : hasEntry W e b = true → Run e b s o s2 →
      DoRest b c o s2 o' s3 → Run e (.doS b c) s o' s3
  | forInit {i c n b s s1 o s2} : Run .start i s .normal s1 → Run .start (.forS none c n b) s1 o s2 →
      Run .start (.forS (some i) c n b) s o s2
  | forInitExit {i c n b s o s1} : Run .start i s o s1 → o ≠ .normal →
      Run .start (.forS (some i) c n b) s o s1
  | forFalse {c n b s v s1} : eval W c s = some (.val v s1) → W.truth v = false →
      Run .start (.forS none (some c) n b) s .normal s1
  | forThrow {c n b s s1} : eval W c s = some (.thrown s1) →
      Run .start (.forS none (some c) n b) s .thrown s1
  | forTrue {c n b s v s1 o s2 o' s3} : eval W c s = some (.val v s1) → W.truth v = true →
      Run .start b s1 o s2 → ForRest (some c) n b o s2 o' s3 →
      Run .start (.forS none (some c) n b) s o' s3
  | forEver {n b s o s2 o' s3} : Run .start b s o s2 → ForRest none n b o s2 o' s3 →
      Run .start (.forS none none n b) s o' s3
  | forEnter {e i c n b s o s2 o' s3} : e ≠ .start → hasEntry W e b = true → Run e b s o s2 →
      ForRest c n b o s2 o' s3 → Run e (.forS i c n b) s o' s3
  | switchThrow {a c b s s1} : eval W c s = some (.thrown s1) →
      Run .start (.switchS a c b) s .thrown s1
  | switchNone {a c b s v s1} : eval W c s = some (.val v s1) → switchTarget W b v = none →
      Run .start (.switchS a c b) s .normal s1
  | switchGo {a c b s v s1 e o s2} : eval W c s = some (.val v s1) → switchTarget W b v = some e →
      Run e b s1 o s2 → Run .start (.switchS a c b) s (switchOut o) s2
  | switchEnter {a c b l s o s2} : hasEntry W (.label l) b = true → Run (.label l) b s o s2 →
      Run (.label l) (.switchS a c b) s (switchOut o) s2
  | caseHere {e val x s o s'} : e = .start ∨ atLabel W e (.caseS val x) = true → Run .start x s o s' →
      Run e (.caseS val x) s o s'
  | caseBelow {e val x s o s'} : e ≠ .start → atLabel W e (.caseS val x) = false →
      hasEntry W e x = true → Run e x s o s' → Run e (.caseS val x) s o s'
  | defaultHere {e x s o s'} : e = .start ∨ atLabel W e (.defaultS x) = true → Run .start x s o s' →
      Run e (.defaultS x) s o s'
  | defaultBelow {e x s o s'} : e ≠ .start → atLabel W e (.defaultS x) = false →
      hasEntry W e x = true → Run e x s o s' → Run e (.defaultS x) s o s'
  | labelHere {e name x s o s'} : e = .start ∨ atLabel W e (.labelS name x) = true →
      Run .start x s o s' → Run e (.labelS name x) s o s'
  | labelBelow {e name x s o s'} : e ≠ .start → atLabel W e (.labelS name x) = false →
      hasEntry W e x = true → Run e x s o s' → Run e (.labelS name x) s o s'
  | goto {l s} : Run .start (.gotoS l) s (.goto l) s
  | brk {s} : Run .start .breakS s .brk s
  | cont {s} : Run .start .continueS s .cont s
  | ret {s} : Run .start (.returnS none) s (.ret none) s
  | retVal {x s v s'} : eval W x s = some (.val v s') →
      Run .start (.returnS (some x)) s (.ret (some v)) s'
  | retThrow {x s s'} : eval W x s = some (.thrown s') → Run .start (.returnS (some x)) s .thrown s'
  | atThrow {s} : Run .start (.atThrow none) s .thrown s
  | atThrowVal {x s v s'} : eval W x s = some (.val v s') → Run .start (.atThrow (some x)) s .thrown s'
  | atThrowThrow {x s s'} : eval W x s = some (.thrown s') → Run .start (.atThrow (some x)) s .thrown s'
  | decls {ds s o s'} : RunL .start ds s o s' → Run .start (.declS ds) s o s'
  | var {d s} : Run .start (.varD d none) s .normal (W.declare d s)
  | varInit {d x s v s'} : eval W x s = some (.val v s') →
      Run .start (.varD d (some x)) s .normal (W.store d v s')
  | varThrow {d x s s'} : eval W x s = some (.thrown s') → Run .start (.varD d (some x)) s .thrown s'
  | otherDecl {d s} : Run .start (.otherD d) s .normal s
  | other {x s o s'} : isOther x = true → W.other x s = some (o, s') → Run .start x s o s'

/-- Running the statements of a block from an entry. -/
inductive RunL : Entry V → List Stmt → σ → Out V → σ → Prop where
  | nil {s} : RunL .start [] s .normal s
  | go {e x rest s s1 o s2} : hasEntry W e x = true → Run e x s .normal s1 → RunL .start rest s1 o s2 →
      RunL e (x :: rest) s o s2
  | exit {e x rest s o s1} : hasEntry W e x = true → Run e x s o s1 → o ≠ .normal →
      RunL e (x :: rest) s o s1
  | skip {e x rest s o s1} : hasEntry W e x = false → RunL e rest s o s1 → RunL e (x :: rest) s o s1

/-- Running a possibly missing statement. -/
inductive RunO : Option Stmt → σ → Out V → σ → Prop where
  | none {s} : RunO none s .normal s
  | some {x s o s'} : Run .start x s o s' → RunO (some x) s o s'

/-- What follows a round of `while`, given how its body ended. -/
inductive WhileRest : Stmt → Stmt → Out V → σ → Out V → σ → Prop where
  | again {c b o s o' s'} : loopOut o = none → Run .start (.whileS c b) s o' s' →
      WhileRest c b o s o' s'
  | leave {c b o s o'} : loopOut o = some o' → WhileRest c b o s o' s

/-- What follows a round of `do`. -/
inductive DoRest : Stmt → Stmt → Out V → σ → Out V → σ → Prop where
  | again {b c o s v s1 o' s'} : loopOut o = none → eval W c s = some (.val v s1) →
      W.truth v = true → Run .start (.doS b c) s1 o' s' → DoRest b c o s o' s'
  | last {b c o s v s1} : loopOut o = none → eval W c s = some (.val v s1) →
      W.truth v = false → DoRest b c o s .normal s1
  | throw {b c o s s1} : loopOut o = none → eval W c s = some (.thrown s1) → DoRest b c o s .thrown s1
  | leave {b c o s o'} : loopOut o = some o' → DoRest b c o s o' s

/-- What follows a round of `for`. -/
inductive ForRest : Option Stmt → Option Stmt → Stmt → Out V → σ → Out V → σ → Prop where
  | again {c b o s o' s'} : loopOut o = none → Run .start (.forS none c none b) s o' s' →
      ForRest c none b o s o' s'
  | againInc {c n b o s v s1 o' s'} : loopOut o = none → eval W n s = some (.val v s1) →
      Run .start (.forS none c (some n) b) s1 o' s' → ForRest c (some n) b o s o' s'
  | incThrow {c n b o s s1} : loopOut o = none → eval W n s = some (.thrown s1) →
      ForRest c (some n) b o s .thrown s1
  | leave {c n b o s o'} : loopOut o = some o' → ForRest c n b o s o' s
end

/-- Running a function body: a `goto` starts it again at the label. -/
inductive RunBody (body : Stmt) : Entry V → σ → Out V → σ → Prop where
  | done {e s o s'} : Run W e body s o s' → (∀ l, o ≠ .goto l) → RunBody body e s o s'
  | jump {e s l s1 o s2} : Run W e body s (.goto l) s1 → RunBody body (.label l) s1 o s2 →
      RunBody body e s o s2

/-- Two lists of statements can be entered at the same places and do the same. -/
def SameL (a b : List Stmt) : Prop :=
  (∀ e, hasEntryL W e a = hasEntryL W e b) ∧ ∀ e s o s', RunL W e a s o s' ↔ RunL W e b s o s'

/-- Two statements can be entered at the same places and do the same. -/
def Same (a b : Stmt) : Prop :=
  (∀ e, hasEntry W e a = hasEntry W e b) ∧ ∀ e s o s', Run W e a s o s' ↔ Run W e b s o s'

/-- Expressions that have the same results. -/
def SameE (a b : Stmt) : Prop := ∀ s, eval W a s = eval W b s

/-- No label in the statement. -/
def NoEntry (a : Stmt) : Prop := ∀ e : Entry V, e ≠ .start → hasEntry W e a = false

end

/-- The second statement is the first with one `a` in it, as a statement of its own, replaced by
`b`. -/
inductive StmtReplaced (a b : Stmt) : Stmt → Stmt → Prop where
  | here : StmtReplaced a b a b
  | compound {x y l l'} : StmtReplaced a b x y →
      StmtReplaced a b (.compound (l ++ x :: l')) (.compound (l ++ y :: l'))
  | ifThen {p c x y e} : StmtReplaced a b x y → StmtReplaced a b (.ifS p c x e) (.ifS p c y e)
  | ifElse {p c t x y} : StmtReplaced a b x y → StmtReplaced a b (.ifS p c t (some x)) (.ifS p c t (some y))
  | whileS {c x y} : StmtReplaced a b x y → StmtReplaced a b (.whileS c x) (.whileS c y)
  | doS {c x y} : StmtReplaced a b x y → StmtReplaced a b (.doS x c) (.doS y c)
  | forS {i c n x y} : StmtReplaced a b x y → StmtReplaced a b (.forS i c n x) (.forS i c n y)
  | switchS {k c x y} : StmtReplaced a b x y → StmtReplaced a b (.switchS k c x) (.switchS k c y)
  | caseS {v x y} : StmtReplaced a b x y → StmtReplaced a b (.caseS v x) (.caseS v y)
  | defaultS {x y} : StmtReplaced a b x y → StmtReplaced a b (.defaultS x) (.defaultS y)
  | labelS {n x y} : StmtReplaced a b x y → StmtReplaced a b (.labelS n x) (.labelS n y)

/-- A concrete machine for examples: numbers, and a single variable that is the state. -/
def machine : World Int Int where
  truth v := decide (v ≠ 0)
  ofBool b := if b then 1 else 0
  truth_ofBool b := by cases b <;> rfl
  lit
    | .intLit n => n
    | .boolLit b => if b then 1 else 0
    | .objcBoolLit b => if b then 1 else 0
    | _ => 0
  lit_bool _ := rfl
  lit_objc _ := rfl
  castV _ _ v := v
  operands
    | .declRef _, .intLit n => fun s => some (.val (s, (n : Int)) s)
    | .declRef _, .boolLit b => fun s => some (.val (s, if b then 1 else 0) s)
    | _, _ => fun _ => none
  eqV a b := decide (a = b)
  atom
    | .declRef _ => fun s => some (.val s s)
    | _ => fun _ => none
  store _ v _ := v
  declare _ s := s
  caseIs
    | .intLit n => fun v => decide (v = n)
    | _ => fun _ => false
  other _ _ := none

/-- A concrete machine with as many variables as there are. -/
def memory : World (DeclId → Int) Int where
  truth v := decide (v ≠ 0)
  ofBool b := if b then 1 else 0
  truth_ofBool b := by cases b <;> rfl
  lit
    | .intLit n => n
    | .boolLit b => if b then 1 else 0
    | .objcBoolLit b => if b then 1 else 0
    | _ => 0
  lit_bool _ := rfl
  lit_objc _ := rfl
  castV _ _ v := v
  operands _ _ _ := none
  eqV a b := decide (a = b)
  atom
    | .declRef d => fun s => some (.val (s d) s)
    | _ => fun _ => none
  store d v s := fun d' => if d' = d then v else s d'
  declare _ s := s
  caseIs
    | .intLit n => fun v => decide (v = n)
    | _ => fun _ => false
  other _ _ := none

end Oclint.Spec
