import Verif.Model.SortTable
import Verif.Model.Text
import Verif.Spec.Reporters
import Verif.Spec.SortTable

/-!
# Reading and running a script

A fragment of JavaScript that is large enough for the script of the HTML report: how a text is cut into
words and read as a function, and what the function does to a page.  Written after the language and the
document object model, without looking at what the script is for.

Of a page there is the table that has an id, with the rows of its head and of its body; rows are objects
and are told apart by a number.  What the fragment does not give a meaning to is `JsRun.stuck`.
-/

namespace Oclint.Spec
open Oclint

/-! ## Words -/

inductive Word where
  | name (s : Str)
  | number (n : Nat)
  | text (s : Str)
  | mark (s : Str)
  deriving Repr, DecidableEq

def jsNameChar (c : Char) : Bool := c.isAlphanum || c = '_' || c = '$'

/-- Marks of two characters come before those of one. -/
def marks : List Str :=
  [chars! "++", chars! "==", chars! "&&", chars! "||", chars! "(", chars! ")", chars! "{", chars! "}",
    chars! "[", chars! "]", chars! ";", chars! ",", chars! ".", chars! "=", chars! "<", chars! ">",
    chars! "+", chars! "-"]

def decimalNat (s : Str) : Nat := s.foldl (fun n c => 10 * n + (c.toNat - 48)) 0

/-- The words of a text with at most `fuel` words and blanks. -/
def wordsOf : Nat → Str → Option (List Word)
  | 0, _ => none
  | _ + 1, [] => some []
  | fuel + 1, c :: s =>
    if c = ' ' then wordsOf fuel s
    else if c.isDigit then
      (wordsOf fuel ((c :: s).dropWhile Char.isDigit)).map
        (.number (decimalNat ((c :: s).takeWhile Char.isDigit)) :: ·)
    else if jsNameChar c then
      (wordsOf fuel ((c :: s).dropWhile jsNameChar)).map (.name ((c :: s).takeWhile jsNameChar) :: ·)
    else if c = '"' then
      match s.dropWhile (· != '"') with
      | [] => none
      | _ :: rest => (wordsOf fuel rest).map (.text (s.takeWhile (· != '"')) :: ·)
    else
      match marks.find? (fun m => m.isPrefixOf (c :: s)) with
      | none => none
      | some m => (wordsOf fuel ((c :: s).drop m.length)).map (.mark m :: ·)

/-! ## Expressions and statements -/

inductive JsExpr where
  | var (x : Str)
  | num (n : Nat)
  | str (s : Str)
  | bool (b : Bool)
  /-- `e.name` -/
  | member (e : JsExpr) (name : Str)
  /-- `e[i]` -/
  | item (e i : JsExpr)
  /-- `e.name()`, `e.name(a)`, `e.name(a, b)` -/
  | call0 (e : JsExpr) (name : Str)
  | call1 (e : JsExpr) (name : Str) (a : JsExpr)
  | call2 (e : JsExpr) (name : Str) (a b : JsExpr)
  /-- `a op b` -/
  | bin (op : Str) (a b : JsExpr)
  deriving Repr, DecidableEq

inductive JsStmt where
  | skip
  | seq (a b : JsStmt)
  /-- `var x;` or `var x = e;` -/
  | declare (x : Str) (e : Option JsExpr)
  | assign (x : Str) (e : JsExpr)
  /-- `x++;` -/
  | incr (x : Str)
  | expr (e : JsExpr)
  | ifElse (c : JsExpr) (a b : JsStmt)
  | whileDo (c : JsExpr) (b : JsStmt)
  /-- `for (init; c; step) b` -/
  | forDo (init : JsStmt) (c : JsExpr) (step b : JsStmt)
  | stop
  deriving Repr, DecidableEq

/-- The operators by how weakly they bind; those of one row group to the left. -/
def operators : List (List Str) :=
  [[chars! "||"], [chars! "&&"], [chars! "=="], [chars! "<", chars! ">"], [chars! "+", chars! "-"]]

/-- Is the next word the mark; what follows it. -/
def expect (m : Str) : List Word → Option (List Word)
  | .mark m' :: ws => if m = m' then some ws else none
  | _ => none

mutual

/-- A chain of operands with operators that bind at least as strongly as those of row `level`. -/
def readExpr : Nat → Nat → List Word → Option (JsExpr × List Word)
  | 0, _, _ => none
  | fuel + 1, level, ws =>
    match operators[level]? with
    | none => readOperand fuel ws
    | some ops =>
      match readExpr fuel (level + 1) ws with
      | none => none
      | some (a, rest) => readRest fuel level ops a rest

/-- What follows the first operand of a chain. -/
def readRest : Nat → Nat → List Str → JsExpr → List Word → Option (JsExpr × List Word)
  | 0, _, _, _, _ => none
  | fuel + 1, level, ops, a, .mark m :: ws =>
    if m ∈ ops then
      match readExpr fuel (level + 1) ws with
      | none => none
      | some (b, rest) => readRest fuel level ops (.bin m a b) rest
    else some (a, .mark m :: ws)
  | _ + 1, _, _, a, ws => some (a, ws)

/-- A name, number, text or expression in parentheses, with members, items and calls behind it. -/
def readOperand : Nat → List Word → Option (JsExpr × List Word)
  | 0, _ => none
  | fuel + 1, .number n :: ws => readBehind fuel (.num n) ws
  | fuel + 1, .text s :: ws => readBehind fuel (.str s) ws
  | fuel + 1, .name x :: ws =>
    readBehind fuel (if x = chars! "true" then .bool true else if x = chars! "false" then .bool false
      else .var x) ws
  | fuel + 1, .mark m :: ws =>
    if m = chars! "(" then
      match readExpr fuel 0 ws with
      | none => none
      | some (e, rest) => (expect (chars! ")") rest).bind (readBehind fuel e)
    else none
  | _ + 1, [] => none

def readBehind : Nat → JsExpr → List Word → Option (JsExpr × List Word)
  | 0, _, _ => none
  | fuel + 1, e, .mark m :: ws =>
    if m = chars! "." then
      match ws with
      | .name x :: .mark m' :: ws' =>
        if m' = chars! "(" then
          match expect (chars! ")") ws' with
          | some rest => readBehind fuel (.call0 e x) rest
          | none =>
            match readExpr fuel 0 ws' with
            | none => none
            | some (a, rest) =>
              match expect (chars! ")") rest with
              | some rest => readBehind fuel (.call1 e x a) rest
              | none =>
                match (expect (chars! ",") rest).bind (readExpr fuel 0) with
                | none => none
                | some (b, rest) => (expect (chars! ")") rest).bind (readBehind fuel (.call2 e x a b))
        else readBehind fuel (.member e x) (.mark m' :: ws')
      | .name x :: ws' => readBehind fuel (.member e x) ws'
      | _ => none
    else if m = chars! "[" then
      match readExpr fuel 0 ws with
      | none => none
      | some (i, rest) => (expect (chars! "]") rest).bind (readBehind fuel (.item e i))
    else some (e, .mark m :: ws)
  | _ + 1, e, ws => some (e, ws)

end

/-- `x = e`, `x++` or an expression. -/
def readSimple (fuel : Nat) : List Word → Option (JsStmt × List Word)
  | .name x :: .mark m :: ws =>
    if m = chars! "=" then (readExpr fuel 0 ws).map fun (e, rest) => (.assign x e, rest)
    else if m = chars! "++" then some (.incr x, ws)
    else (readExpr fuel 0 (.name x :: .mark m :: ws)).map fun (e, rest) => (.expr e, rest)
  | ws => (readExpr fuel 0 ws).map fun (e, rest) => (.expr e, rest)

/-- `x, y = e, …;` behind `var`. -/
def readDeclared (fuel : Nat) : Nat → List Word → Option (JsStmt × List Word)
  | 0, _ => none
  | k + 1, .name x :: .mark m :: ws =>
    if m = chars! ";" then some (.declare x none, ws)
    else if m = chars! "," then (readDeclared fuel k ws).map fun (s, rest) => (.seq (.declare x none) s, rest)
    else if m = chars! "=" then
      match readExpr fuel 0 ws with
      | none => none
      | some (e, rest) =>
        match expect (chars! ";") rest with
        | some rest => some (.declare x (some e), rest)
        | none => ((expect (chars! ",") rest).bind (readDeclared fuel k)).map
            fun (s, rest) => (.seq (.declare x (some e)) s, rest)
    else none
  | _ + 1, _ => none

mutual

def readStmt : Nat → List Word → Option (JsStmt × List Word)
  | 0, _ => none
  | fuel + 1, ws =>
    match ws with
    | .mark m :: ws' => if m = chars! "{" then readBlock fuel ws' else none
    | .name x :: ws' =>
      if x = chars! "var" then readDeclared fuel fuel ws'
      else if x = chars! "break" then (expect (chars! ";") ws').map fun rest => (.stop, rest)
      else if x = chars! "while" then
        match (expect (chars! "(") ws').bind (readExpr fuel 0) with
        | none => none
        | some (c, rest) =>
          ((expect (chars! ")") rest).bind (readStmt fuel)).map fun (b, rest) => (.whileDo c b, rest)
      else if x = chars! "for" then
        match (expect (chars! "(") ws').bind (readSimple fuel) with
        | none => none
        | some (init, rest) =>
          match (expect (chars! ";") rest).bind (readExpr fuel 0) with
          | none => none
          | some (c, rest) =>
            match (expect (chars! ";") rest).bind (readSimple fuel) with
            | none => none
            | some (step, rest) =>
              ((expect (chars! ")") rest).bind (readStmt fuel)).map
                fun (b, rest) => (.forDo init c step b, rest)
      else if x = chars! "if" then
        match (expect (chars! "(") ws').bind (readExpr fuel 0) with
        | none => none
        | some (c, rest) =>
          match (expect (chars! ")") rest).bind (readStmt fuel) with
          | none => none
          | some (a, .name y :: rest) =>
            if y = chars! "else" then
              (readStmt fuel rest).map fun (b, rest) => (.ifElse c a b, rest)
            else some (.ifElse c a .skip, .name y :: rest)
          | some (a, rest) => some (.ifElse c a .skip, rest)
      else
        match readSimple fuel ws with
        | none => none
        | some (s, rest) => (expect (chars! ";") rest).map fun rest => (s, rest)
    | _ => none

/-- Statements up to the closing brace. -/
def readBlock : Nat → List Word → Option (JsStmt × List Word)
  | 0, _ => none
  | fuel + 1, ws =>
    match expect (chars! "}") ws with
    | some rest => some (.skip, rest)
    | none =>
      match readStmt fuel ws with
      | none => none
      | some (s, rest) => (readBlock fuel rest).map fun (t, rest) => (.seq s t, rest)

end

/-- A function of one parameter. -/
structure JsFunction where
  name : Str
  parameter : Str
  body : JsStmt
  deriving Repr, DecidableEq

/-- `function name(parameter) { … }` and nothing else. -/
def readFunction (fuel : Nat) : List Word → Option JsFunction
  | .name f :: .name x :: .mark a :: .name p :: .mark b :: .mark c :: ws =>
    if f = chars! "function" ∧ a = chars! "(" ∧ b = chars! ")" ∧ c = chars! "{" then
      match readBlock fuel ws with
      | some (s, []) => some ⟨x, p, s⟩
      | _ => none
    else none
  | _ => none

/-- A text as a function.  A text has no more words than characters, and nothing in it is nested more
deeply. -/
def readScript (text : Str) : Option JsFunction :=
  (wordsOf (text.length + 1) text).bind (readFunction (10 * text.length + 10))

/-! ## What a function does -/

/-- A row of the table: its number and the `innerHTML` of its `td` cells. -/
structure PageRow where
  id : Nat
  cells : List Str
  deriving Repr, DecidableEq

/-- The table with the id `tableId`. -/
structure Page where
  tableId : Str
  head : List PageRow
  body : List PageRow
  deriving Repr, DecidableEq

/-- `table.rows`. -/
def Page.rows (p : Page) : List PageRow := p.head ++ p.body

inductive JsVal where
  | undefined
  | bool (b : Bool)
  | num (n : Int)
  | str (s : Str)
  | document
  | null
  | table
  /-- the collection `table.rows`, which changes with the table -/
  | rowsOf
  | row (id : Nat)
  /-- the part of the table that has the row -/
  | parentOf (id : Nat)
  /-- `row.getElementsByTagName("TD")` -/
  | cellsOf (id : Nat)
  | cell (id k : Nat)
  deriving Repr, DecidableEq

structure JsState where
  /-- the variables that are declared -/
  vars : Str → Option JsVal
  page : Page

/-- How running a statement ends. -/
inductive JsRun where
  | next (s : JsState)
  | broke (s : JsState)
  /-- an exception -/
  | failed (what : Str)
  /-- something the fragment gives no meaning to -/
  | stuck
  /-- still running -/
  | running

def truthy : JsVal → Bool
  | .undefined => false
  | .null => false
  | .bool b => b
  | .num n => n != 0
  | .str s => s != []
  | _ => true

def rowWith (p : Page) (id : Nat) : Option PageRow := p.rows.find? (fun r => r.id == id)

def typeError : Str := "TypeError".toList
def referenceError : Str := "ReferenceError".toList

section
variable (lower : Str → Str) (lt : Str → Str → Bool)

/-- `v.name`. -/
def memberOf (p : Page) (v : JsVal) (name : Str) : Outcome JsVal :=
  match v with
  | .undefined => .throws typeError
  | .null => .throws typeError
  | .table => if name = chars! "rows" then .ok .rowsOf else .ub
  | .rowsOf => if name = chars! "length" then .ok (.num p.rows.length) else .ub
  | .row id => if name = chars! "parentNode" then .ok (.parentOf id) else .ub
  | .cell id k =>
    if name = chars! "innerHTML" then
      match (rowWith p id).bind (fun r => r.cells[k]?) with
      | some t => .ok (.str t)
      | none => .ub
    else .ub
  | _ => .ub

/-- `v[i]`; an index that is not there gives `undefined`. -/
def itemOf (p : Page) (v i : JsVal) : Outcome JsVal :=
  match v, i with
  | .undefined, _ => .throws typeError
  | .null, _ => .throws typeError
  | .rowsOf, .num (.ofNat k) =>
    match p.rows[k]? with
    | some r => .ok (.row r.id)
    | none => .ok .undefined
  | .cellsOf id, .num (.ofNat k) =>
    match (rowWith p id).bind (fun r => r.cells[k]?) with
    | some _ => .ok (.cell id k)
    | none => .ok .undefined
  | _, _ => .ub

/-- `v.name()`. -/
def call0Of (v : JsVal) (name : Str) : Outcome JsVal :=
  match v with
  | .undefined => .throws typeError
  | .null => .throws typeError
  | .str s => if name = chars! "toLowerCase" then .ok (.str (lower s)) else .ub
  | _ => .ub

/-- `v.name(a)`. -/
def call1Of (p : Page) (v : JsVal) (name : Str) (a : JsVal) : Outcome JsVal :=
  match v, a with
  | .undefined, _ => .throws typeError
  | .null, _ => .throws typeError
  | .document, .str s =>
    if name = chars! "getElementById" then .ok (if s = p.tableId then .table else .null) else .ub
  | .row id, .str s =>
    if name = chars! "getElementsByTagName" ∧ s = chars! "TD" then .ok (.cellsOf id) else .ub
  | _, _ => .ub

/-- `a op b` for operators that need both operands. -/
def binOf (op : Str) (a b : JsVal) : Outcome JsVal :=
  match a, b with
  | .num m, .num n =>
    if op = chars! "+" then .ok (.num (m + n))
    else if op = chars! "-" then .ok (.num (m - n))
    else if op = chars! "<" then .ok (.bool (decide (m < n)))
    else if op = chars! ">" then .ok (.bool (decide (n < m)))
    else if op = chars! "==" then .ok (.bool (decide (m = n)))
    else .ub
  | .str s, .str t =>
    if op = chars! "<" then .ok (.bool (lt s t))
    else if op = chars! ">" then .ok (.bool (lt t s))
    else if op = chars! "==" then .ok (.bool (decide (s = t)))
    else .ub
  | _, _ => .ub

/-- The value of an expression that changes nothing. -/
def valueOf (s : JsState) : JsExpr → Outcome JsVal
  | .var x =>
    match s.vars x with
    | some v => .ok v
    | none => if x = chars! "document" then .ok .document else .throws referenceError
  | .num n => .ok (.num n)
  | .str t => .ok (.str t)
  | .bool b => .ok (.bool b)
  | .member e name => do memberOf s.page (← valueOf s e) name
  | .item e i => do
    let v ← valueOf s e
    itemOf s.page v (← valueOf s i)
  | .call0 e name => do call0Of lower (← valueOf s e) name
  | .call1 e name a => do
    let v ← valueOf s e
    call1Of s.page v name (← valueOf s a)
  | .call2 _ _ _ _ => .ub
  | .bin op a b => do
    let v ← valueOf s a
    if op = chars! "&&" then (if truthy v then valueOf s b else pure v)
    else if op = chars! "||" then (if truthy v then pure v else valueOf s b)
    else binOf lt op v (← valueOf s b)

/-- The rows with the row `r` before the one with the number `ref`. -/
def putBefore (r : PageRow) (ref : Nat) : List PageRow → List PageRow
  | [] => []
  | x :: xs => if x.id = ref then r :: x :: xs else x :: putBefore r ref xs

/-- `parent.insertBefore(new, ref)`, where the parent is the part of the table with the row
`parentRow`: the new row leaves the place where it was. -/
def insertBefore (p : Page) (parentRow new ref : Nat) : Option Page :=
  match rowWith p new with
  | none => none
  | some r =>
    let without := fun rows : List PageRow => rows.filter fun x => x.id != new
    let inHead := p.head.any fun x => x.id == parentRow
    if new = ref then none
    else if inHead then
      if p.head.any (fun x => x.id == ref) then
        some { p with head := putBefore r ref (without p.head), body := without p.body }
      else none
    else if p.body.any (fun x => x.id == ref) then
      some { p with head := without p.head, body := putBefore r ref (without p.body) }
    else none

/-- Set a variable that is declared. -/
def setVar (s : JsState) (x : Str) (v : JsVal) : JsRun :=
  match s.vars x with
  | none => .failed referenceError
  | some _ => .next { s with vars := fun y => if y = x then some v else s.vars y }

def declareVar (s : JsState) (x : Str) (v : JsVal) : JsState :=
  { s with vars := fun y => if y = x then some v else s.vars y }

/-- Continue with a value. -/
def withValue (v : Outcome JsVal) (f : JsVal → JsRun) : JsRun :=
  match v with
  | .ok v => f v
  | .throws e => .failed e
  | .ub => .stuck

/-- At most so many rounds. -/
def rounds (cond : JsState → Outcome JsVal) (body : JsState → JsRun) : Nat → JsState → JsRun
  | 0, _ => .running
  | k + 1, s => withValue (cond s) fun v =>
    if truthy v then
      match body s with
      | .next s' => rounds cond body k s'
      | .broke s' => .next s'
      | r => r
    else .next s

/-- One after the other, unless the first does not come to its end. -/
def JsRun.andThen (r : JsRun) (f : JsState → JsRun) : JsRun :=
  match r with
  | .next s => f s
  | r => r

/-- JsRun a statement, each loop for at most `fuel` rounds. -/
def runStmt (fuel : Nat) : JsStmt → JsState → JsRun
  | .skip, s => .next s
  | .seq a b, s => (runStmt fuel a s).andThen (runStmt fuel b)
  | .declare x none, s => .next (declareVar s x .undefined)
  | .declare x (some e), s => withValue (valueOf lower lt s e) fun v => .next (declareVar s x v)
  | .assign x e, s => withValue (valueOf lower lt s e) fun v => setVar s x v
  | .incr x, s => withValue (valueOf lower lt s (.var x)) fun v =>
    match v with
    | .num n => setVar s x (.num (n + 1))
    | _ => .stuck
  | .expr e, s =>
    match e with
    | .call2 e name a b =>
      withValue (valueOf lower lt s e) fun v => withValue (valueOf lower lt s a) fun va =>
        withValue (valueOf lower lt s b) fun vb =>
          match v, va, vb with
          | .parentOf q, .row new, .row ref =>
            if name = chars! "insertBefore" then
              match insertBefore s.page q new ref with
              | some p => .next { s with page := p }
              | none => .stuck
            else .stuck
          | _, _, _ => .stuck
    | e => withValue (valueOf lower lt s e) fun _ => .next s
  | .ifElse c a b, s => withValue (valueOf lower lt s c) fun v =>
    if truthy v then runStmt fuel a s else runStmt fuel b s
  | .whileDo c b, s => rounds (fun s => valueOf lower lt s c) (runStmt fuel b) fuel s
  | .forDo init c step b, s => (runStmt fuel init s).andThen
    (rounds (fun s => valueOf lower lt s c)
      (fun s => (runStmt fuel b s).andThen (runStmt fuel step)) fuel)
  | .stop, s => .broke s

/-- Call a function with a number; the page afterwards, or `none` while it is running. -/
def callFunction (fuel : Nat) (f : JsFunction) (n : Nat) (p : Page) : Outcome (Option Page) :=
  match runStmt lower lt fuel f.body ⟨fun x => if x = f.parameter then some (.num n) else none, p⟩ with
  | .next s => .ok (some s.page)
  | .broke _ => .ub
  | .failed e => .throws e
  | .stuck => .ub
  | .running => .ok none

end

/-! ## A page with a table -/

/-- `f(n)`. -/
def readCall (text : Str) : Option (Str × Nat) :=
  match wordsOf (text.length + 1) text with
  | some [.name f, .mark a, .number n, .mark b] =>
    if a = chars! "(" ∧ b = chars! ")" then some (f, n) else none
  | _ => none

/-- What is done on a click, tag by tag. -/
def onclicks (ts : List Tok) : List Str :=
  ts.filterMap fun t => match t with
    | .open _ attrs => attrs.lookup "onclick".toList
    | _ => none

/-- The texts of the cells, row by row, of `<tr><td>…</td>…</tr>…`; the first argument are the cells
of a row that is not closed yet. -/
def tableRows : Option (List Str) → List Tok → Option (List (List Str))
  | none, [] => some []
  | none, .open t _ :: ts => if t = "tr".toList then tableRows (some []) ts else none
  | some cells, .open t _ :: .text s :: .close t' :: ts =>
    if t = "td".toList ∧ t' = "td".toList then tableRows (some (cells ++ [s])) ts else none
  | some cells, .open t _ :: .close t' :: ts =>
    if t = "td".toList ∧ t' = "td".toList then tableRows (some (cells ++ [[]])) ts else none
  | some cells, .close t :: ts =>
    if t = "tr".toList then (tableRows none ts).map (cells :: ·) else none
  | _, _ => none

/-- The page with such a table, which has one row of headings; `inner` is how a text looks as
`innerHTML`. -/
def pageOf (inner : Str → Str) (id : Str) (table : List (List Str)) : Page where
  tableId := id
  head := [⟨0, []⟩]
  body := table.zipIdx.map fun c => ⟨c.2 + 1, c.1.map inner⟩

/-- Calling `f` with `n` ends after finitely many steps and does nothing but move the rows of the body:
afterwards they are in ascending order of their `n`-th cells, or in descending order if they were
ascending before, and rows with equal cells stay in order. -/
def ClickSorts (lower : Str → Str) (lt : Str → Str → Bool) (f : JsFunction) (n : Nat) (p : Page) : Prop :=
  ∃ steps, ∀ fuel, steps ≤ fuel → ∃ body,
    callFunction lower lt fuel f n p = .ok (some { p with body := body }) ∧ body.Perm p.body ∧
    (¬ Ordered (fun cells : List Str => lower (cells.getD n [])) lt (p.body.map PageRow.cells) →
      StableSort (fun cells : List Str => lower (cells.getD n [])) lt (p.body.map PageRow.cells)
        (body.map PageRow.cells)) ∧
    (Ordered (fun cells : List Str => lower (cells.getD n [])) lt (p.body.map PageRow.cells) →
      StableSort (fun cells : List Str => lower (cells.getD n [])) (flipped lt)
        (p.body.map PageRow.cells) (body.map PageRow.cells))

/-- The columns of a row of the report. -/
def shownRow (v : Violation) (rule category priority : Str) : List Str :=
  [v.path, decimalInt v.startLine ++ [':'] ++ decimalInt v.startColumn, rule, category, priority,
    v.message]

/-- The rows of the report. -/
def shownTable (info : RuleId → RuleInfo) (errors warnings violations bugs : List Violation) :
    List (List Str) :=
  violations.flatMap (fun v => match v.rule with
    | none => []
    | some r => [shownRow v (info r).name (info r).category (decimalInt (info r).priority)])
  ++ errors.map (fun v => shownRow v "compiler error".toList [] "error".toList)
  ++ warnings.map (fun v => shownRow v "compiler warning".toList [] "warning".toList)
  ++ bugs.map (fun v => shownRow v "clang static analyzer".toList [] "checker bug".toList)

end Oclint.Spec
