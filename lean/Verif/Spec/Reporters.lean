import Verif.Model.Reporters
import Verif.Spec.Registry
import Verif.Spec.Results

/-!
# Readers for the report formats

What a consumer of a report does with it: a JSON reader, an XML reader, and readers for the line
based formats.  None of them refers to how the reports are written.
-/

namespace Oclint.Spec
open Oclint

/-! ## Numbers and pieces of text -/

/-- Read a non-empty sequence of digits. -/
def readNat (s : Str) : Option Nat :=
  if s ≠ [] ∧ s.all Char.isDigit = true then
    some (s.foldl (fun a c => a * 10 + (c.toNat - 48)) 0)
  else none

/-- Read an integer: digits, possibly after a minus sign. -/
def readInt : Str → Option Int
  | '-' :: s => (readNat s).map fun n => -(n : Int)
  | s => (readNat s).map fun n => (n : Int)

/-- The text before and after the first occurrence of a character. -/
def cut (c : Char) : Str → Option (Str × Str)
  | [] => none
  | d :: s => if d = c then some ([], s) else (cut c s).map fun p => (d :: p.1, p.2)

/-- Remove a prefix. -/
def strip : Str → Str → Option Str
  | [], s => some s
  | _ :: _, [] => none
  | c :: p, d :: s => if c = d then strip p s else none

/-- The lines of a text; text after the last newline is the last line. -/
def linesOf : Str → List Str
  | [] => [[]]
  | '\n' :: s => [] :: linesOf s
  | c :: s =>
    match linesOf s with
    | [] => [[c]]
    | l :: ls => (c :: l) :: ls

/-! ## JSON -/

/-- JSON values without fractions, `true`, `false` and `null`. -/
inductive Json where
  | num (z : Int)
  | str (s : Str)
  | arr (l : List Json)
  | obj (l : List (Str × Json))

/-- What surrounds the place the JSON reader is at. -/
inductive JCtx where
  | arr (done : List Json)
  | obj (done : List (Str × Json))
  | member (done : List (Str × Json)) (key : Str)

/-- What the JSON reader is reading; text is accumulated in reverse. -/
inductive JMode where
  | value
  | valueOrEnd
  | key
  | keyOrEnd
  | colon (k : Str)
  | str (isKey : Bool) (acc : Str)
  | esc (isKey : Bool) (acc : Str)
  | uni (isKey : Bool) (acc hex : Str)
  | num (acc : Str)
  | after (v : Json)

/-- JSON white space. -/
def jsonSpace (c : Char) : Bool := c = ' ' || c = '\n' || c = '\t' || c = '\r'

/-- A number without superfluous leading zeros. -/
def jsonNumber (s : Str) : Option Int :=
  match s with
  | '0' :: _ :: _ => none
  | '-' :: '0' :: _ :: _ => none
  | s => readInt s

/-- Value of a hexadecimal digit. -/
def hexDigit (c : Char) : Option Nat :=
  if c.isDigit then some (c.toNat - 48)
  else if 'a' ≤ c ∧ c ≤ 'f' then some (c.toNat - 87)
  else if 'A' ≤ c ∧ c ≤ 'F' then some (c.toNat - 55)
  else none

/-- Value of four hexadecimal digits (most significant last). -/
def hexValue : Str → Option Nat
  | [] => some 0
  | c :: cs => do let d ← hexDigit c; let r ← hexValue cs; pure (r * 16 + d)

/-- The character of a one-letter escape. -/
def jsonEscape (c : Char) : Option Char :=
  if c = '"' ∨ c = '\\' ∨ c = '/' then some c
  else if c = 'n' then some '\n'
  else if c = 't' then some '\t'
  else if c = 'r' then some '\r'
  else if c = 'b' then some (Char.ofNat 8)
  else if c = 'f' then some (Char.ofNat 12)
  else none

/-- A string ends. -/
def jsonStringEnd (isKey : Bool) (acc : Str) : JMode :=
  if isKey then .colon acc.reverse else .after (.str acc.reverse)

/-- A character after a complete value. -/
def jsonAfter (v : Json) (c : Char) (stack : List JCtx) : Option (JMode × List JCtx) :=
  if jsonSpace c then some (.after v, stack)
  else match stack with
    | [] => none
    | .arr done :: st =>
      if c = ',' then some (.value, .arr (done ++ [v]) :: st)
      else if c = ']' then some (.after (.arr (done ++ [v])), st)
      else none
    | .member done k :: st =>
      if c = ',' then some (.key, .obj (done ++ [(k, v)]) :: st)
      else if c = '}' then some (.after (.obj (done ++ [(k, v)])), st)
      else none
    | .obj _ :: _ => none

/-- A character where a value begins. -/
def jsonBegin (c : Char) (stack : List JCtx) : Option (JMode × List JCtx) :=
  if c = '"' then some (.str false [], stack)
  else if c = '[' then some (.valueOrEnd, .arr [] :: stack)
  else if c = '{' then some (.keyOrEnd, .obj [] :: stack)
  else if c.isDigit ∨ c = '-' then some (.num [c], stack)
  else none

/-- One character of JSON text. -/
def jsonStep (c : Char) : JMode × List JCtx → Option (JMode × List JCtx)
  | (.value, stack) => if jsonSpace c then some (.value, stack) else jsonBegin c stack
  | (.valueOrEnd, stack) =>
    if jsonSpace c then some (.valueOrEnd, stack)
    else if c = ']' then
      match stack with
      | .arr _ :: st => some (.after (.arr []), st)
      | _ => none
    else jsonBegin c stack
  | (.key, stack) =>
    if jsonSpace c then some (.key, stack)
    else if c = '"' then some (.str true [], stack)
    else none
  | (.keyOrEnd, stack) =>
    if jsonSpace c then some (.keyOrEnd, stack)
    else if c = '}' then
      match stack with
      | .obj _ :: st => some (.after (.obj []), st)
      | _ => none
    else if c = '"' then some (.str true [], stack)
    else none
  | (.colon k, stack) =>
    if jsonSpace c then some (.colon k, stack)
    else if c = ':' then
      match stack with
      | .obj done :: st => some (.value, .member done k :: st)
      | _ => none
    else none
  | (.str isKey acc, stack) =>
    if c = '"' then some (jsonStringEnd isKey acc, stack)
    else if c = '\\' then some (.esc isKey acc, stack)
    else if c.toNat < 32 then none
    else some (.str isKey (c :: acc), stack)
  | (.esc isKey acc, stack) =>
    if c = 'u' then some (.uni isKey acc [], stack)
    else (jsonEscape c).map fun d => (.str isKey (d :: acc), stack)
  | (.uni isKey acc hex, stack) =>
    if hex.length = 3 then
      (hexValue (c :: hex)).map fun n => (.str isKey (Char.ofNat n :: acc), stack)
    else some (.uni isKey acc (c :: hex), stack)
  | (.num acc, stack) =>
    if c.isDigit then some (.num (c :: acc), stack)
    else match jsonNumber acc.reverse with
      | none => none
      | some z => jsonAfter (.num z) c stack
  | (.after v, stack) => jsonAfter v c stack

/-- Read on from a state. -/
def jsonRun (st : JMode × List JCtx) : Str → Option (JMode × List JCtx)
  | [] => some st
  | c :: s => (jsonStep c st).bind fun st' => jsonRun st' s

/-- Read a whole JSON text. -/
def readJson (s : Str) : Option Json :=
  match jsonRun (.value, []) s with
  | some (.after v, []) => some v
  | some (.num acc, []) => (jsonNumber acc.reverse).map .num
  | _ => none

/-- Text that means itself inside a JSON string. -/
def JsonSafe (s : Str) : Prop := ∀ c ∈ s, c ≠ '"' ∧ c ≠ '\\' ∧ 32 ≤ c.toNat

/-- The JSON object describing a violation. -/
def violationJson (info : RuleId → RuleInfo) (v : Violation) : Json :=
  .obj ([("path".toList, .str v.path), ("startLine".toList, .num v.startLine),
      ("startColumn".toList, .num v.startColumn)]
    ++ (if v.endLine ≠ 0 ∧ v.endColumn ≠ 0 then
        [("endLine".toList, .num v.endLine), ("endColumn".toList, .num v.endColumn)] else [])
    ++ (match v.rule with
        | none => []
        | some r => [("rule".toList, .str (info r).name), ("category".toList, .str (info r).category),
            ("priority".toList, .num (info r).priority)])
    ++ [("message".toList, .str v.message)])

/-- How many of the violations in a list have a priority. -/
def priorityJson (info : RuleId → RuleInfo) (vs : List Violation) (p : Int) : Json :=
  .obj [("priority".toList, .num p),
    ("number".toList, .num (countWithPriority (fun r => (info r).priority) p vs))]

/-- The document a JSON report stands for. -/
def reportJson (info : RuleId → RuleInfo) (timestamp files filesWithViolations : Int)
    (violations bugs : List Violation) : Json :=
  .obj [("version".toList, .str "24.11".toList), ("url".toList, .str "https://oclint.org".toList),
    ("timestamp".toList, .num timestamp),
    ("summary".toList, .obj [("numberOfFiles".toList, .num files),
      ("numberOfFilesWithViolations".toList, .num filesWithViolations),
      ("numberOfViolationsWithPriority".toList,
        .arr [priorityJson info violations 1, priorityJson info violations 2,
          priorityJson info violations 3])]),
    ("violation".toList, .arr (violations.map (violationJson info))),
    ("clangStaticAnalyzer".toList, .arr (bugs.map (violationJson info)))]

/-! ## XML -/

/-- Pieces of an XML document. -/
inductive Tok where
  | pi (s : Str)
  | open (name : Str) (attrs : List (Str × Str))
  | close (name : Str)
  | text (s : Str)
  deriving Repr, DecidableEq

/-- What the XML scanner is reading; text is accumulated in reverse. -/
inductive LexState where
  | text (acc : Str)
  | lt
  | pi (acc : Str)
  | closing (acc : Str)
  | name (acc : Str)
  | inTag (name : Str) (attrs : List (Str × Str))
  | attrName (name : Str) (attrs : List (Str × Str)) (acc : Str)
  | attrEq (name : Str) (attrs : List (Str × Str)) (key : Str)
  | attrValue (name : Str) (attrs : List (Str × Str)) (key : Str) (quote : Char) (acc : Str)
  | afterValue (name : Str) (attrs : List (Str × Str))
  deriving Repr, DecidableEq

/-- Characters of element and attribute names. -/
def nameChar (c : Char) : Bool := c.isAlphanum || c = '-' || c = '_' || c = '.' || c = ':'

/-- The text piece that ends here, if any. -/
def textTok (acc : Str) : List Tok := if acc = [] then [] else [.text acc.reverse]

/-- One character of XML text; returns the completed pieces. -/
def lexStep (c : Char) : LexState → Option (LexState × List Tok)
  | .text acc => if c = '<' then some (.lt, textTok acc) else some (.text (c :: acc), [])
  | .lt =>
    if c = '?' then some (.pi [], [])
    else if c = '/' then some (.closing [], [])
    else if nameChar c then some (.name [c], [])
    else none
  | .pi acc =>
    if c = '>' then
      match acc with
      | '?' :: acc => some (.text [], [.pi acc.reverse])
      | _ => none
    else some (.pi (c :: acc), [])
  | .closing acc =>
    if c = '>' then some (.text [], [.close acc.reverse])
    else if nameChar c then some (.closing (c :: acc), [])
    else none
  | .name acc =>
    if c = '>' then some (.text [], [.open acc.reverse []])
    else if c = ' ' ∨ c = '\n' then some (.inTag acc.reverse [], [])
    else if nameChar c then some (.name (c :: acc), [])
    else none
  | .inTag n as =>
    if c = '>' then some (.text [], [.open n as])
    else if c = ' ' ∨ c = '\n' then some (.inTag n as, [])
    else if nameChar c then some (.attrName n as [c], [])
    else none
  | .attrName n as acc =>
    if c = '=' then some (.attrEq n as acc.reverse, [])
    else if nameChar c then some (.attrName n as (c :: acc), [])
    else none
  | .attrEq n as k => if c = '"' ∨ c = '\'' then some (.attrValue n as k c [], []) else none
  | .attrValue n as k q acc =>
    if c = q then some (.afterValue n (as ++ [(k, acc.reverse)]), [])
    else if c = '<' then none
    else some (.attrValue n as k q (c :: acc), [])
  | .afterValue n as =>
    if c = '>' then some (.text [], [.open n as])
    else if c = ' ' ∨ c = '\n' then some (.inTag n as, [])
    else none

/-- Scan on from a state. -/
def lexRun (st : LexState) : Str → Option (LexState × List Tok)
  | [] => some (st, [])
  | c :: s =>
    (lexStep c st).bind fun r => (lexRun r.1 s).map fun r' => (r'.1, r.2 ++ r'.2)

/-- The predefined entities of XML. -/
def entity (n : Str) : Option Char :=
  if n = "lt".toList then some '<'
  else if n = "gt".toList then some '>'
  else if n = "quot".toList then some '"'
  else if n = "amp".toList then some '&'
  else if n = "apos".toList then some '\''
  else none

/-- Replace entities by their characters, inside (`some name so far`, reversed) or outside of an
entity. -/
def decodeFrom : Option Str → Str → Option Str
  | none, [] => some []
  | some _, [] => none
  | none, c :: s =>
    if c = '&' then decodeFrom (some []) s
    else if c = '<' then none
    else (decodeFrom none s).map fun t => c :: t
  | some n, c :: s =>
    if c = ';' then (entity n.reverse).bind fun d => (decodeFrom none s).map fun t => d :: t
    else decodeFrom (some (c :: n)) s

/-- Replace all entities by their characters. -/
def decodeEntities (s : Str) : Option Str := decodeFrom none s

/-- White space inside an attribute value is read as blanks. -/
def attrBlank (c : Char) : Char := if c = '\n' ∨ c = '\t' then ' ' else c

/-- Decode the attribute values of a tag. -/
def decodeAttrs : List (Str × Str) → Option (List (Str × Str))
  | [] => some []
  | (k, v) :: r => (decodeEntities (v.map attrBlank)).bind fun v' => (decodeAttrs r).map fun r' => (k, v') :: r'

/-- Decode the entities in a piece. -/
def decodeTok : Tok → Option Tok
  | .pi s => some (.pi s)
  | .close n => some (.close n)
  | .text s => (decodeEntities s).map .text
  | .open n as => (decodeAttrs as).map (.open n)

/-- Decode all pieces. -/
def decodeToks : List Tok → Option (List Tok)
  | [] => some []
  | t :: r => (decodeTok t).bind fun t' => (decodeToks r).map fun r' => t' :: r'

/-- Characters allowed in XML documents, as far as control characters are concerned. Carriage
returns are left out: a reader of XML turns them into newlines. -/
def xmlChar (c : Char) : Bool := decide (32 ≤ c.toNat) || c = '\n' || c = '\t'

/-- Are tags nested properly, attribute names distinct, and is there exactly one root element with
only white space around it? -/
def nested : List Str → Bool → List Tok → Bool
  | [], seen, [] => seen
  | _ :: _, _, [] => false
  | st, seen, .pi _ :: r => nested st seen r
  | [], seen, .text t :: r => t.all Char.isWhitespace && nested [] seen r
  | n :: st, seen, .text _ :: r => nested (n :: st) seen r
  | [], seen, .open n as :: r => !seen && decide (as.map Prod.fst).Nodup && nested [n] true r
  | m :: st, seen, .open n as :: r => decide (as.map Prod.fst).Nodup && nested (n :: m :: st) seen r
  | [], _, .close _ :: _ => false
  | m :: st, seen, .close n :: r => decide (m = n) && nested st seen r

/-- Scan a complete text into its pieces, entities decoded. -/
def scanXml (s : Str) : Option (List Tok) :=
  if s.all xmlChar then
    match lexRun (.text []) s with
    | some (.text acc, ts) => decodeToks (ts ++ textTok acc)
    | _ => none
  else none

/-- Read an XML document: its pieces, if it is well formed. -/
def readXml (s : Str) : Option (List Tok) :=
  match scanXml s with
  | none => none
  | some ts => if nested [] false ts then some ts else none

/-- Text that means itself in an attribute value. -/
def XmlSafe (s : Str) : Prop := ∀ c ∈ s, c ≠ '<' ∧ c ≠ '&' ∧ c ≠ '"' ∧ 32 ≤ c.toNat

/-- The pieces describing a violation in an XML report. -/
def violationXml (info : RuleId → RuleInfo) (v : Violation) : List Tok :=
  [.open "violation".toList
    ([("path".toList, v.path), ("startline".toList, decimalInt v.startLine),
        ("startcolumn".toList, decimalInt v.startColumn)]
      ++ (if v.endLine ≠ 0 ∧ v.endColumn ≠ 0 then
          [("endline".toList, decimalInt v.endLine), ("endcolumn".toList, decimalInt v.endColumn)]
          else [])
      ++ (match v.rule with
          | none => []
          | some r => [("rule".toList, (info r).name), ("category".toList, (info r).category),
              ("priority".toList, decimalInt (info r).priority)])
      ++ [("message".toList, v.message)]),
   .close "violation".toList]

/-- A summary property. -/
def propertyXml (key : Str) (n : Int) : List Tok :=
  [.open "property".toList [("name".toList, key)], .text (decimalInt n), .close "property".toList]

/-- The pieces an XML report consists of. -/
def reportXml (info : RuleId → RuleInfo) (datetime : Str) (files filesWithViolations : Int)
    (violations bugs : List Violation) : List Tok :=
  [.pi "xml version=\"1.0\" encoding=\"UTF-8\" ".toList,
    .open "oclint".toList [("version".toList, "24.11".toList), ("url".toList, "https://oclint.org".toList)],
    .open "datetime".toList [], .text datetime, .close "datetime".toList,
    .open "summary".toList []]
  ++ propertyXml "number of files".toList files
  ++ propertyXml "files with violations".toList filesWithViolations
  ++ propertyXml "number of priority 1 violations".toList
      (countWithPriority (fun r => (info r).priority) 1 violations)
  ++ propertyXml "number of priority 2 violations".toList
      (countWithPriority (fun r => (info r).priority) 2 violations)
  ++ propertyXml "number of priority 3 violations".toList
      (countWithPriority (fun r => (info r).priority) 3 violations)
  ++ [.close "summary".toList, .open "violations".toList []]
  ++ violations.flatMap (violationXml info)
  ++ [.close "violations".toList, .open "clangstaticanalyzer".toList []]
  ++ bugs.flatMap (violationXml info)
  ++ [.close "clangstaticanalyzer".toList, .close "oclint".toList, .text ['\n']]

/-! ## PMD -/

/-- Which rule a PMD record names: priority, rule, rule set. -/
def pmdRuleAttrs (name category : Str) (priority : Int) : List (Str × Str) :=
  [("priority".toList, decimalInt priority), ("rule".toList, name), ("ruleset".toList, category)]

/-- The pieces of a PMD record, without what follows it. -/
def recordPmd (v : Violation) (rule : List (Str × Str)) : List Tok :=
  [.open "file".toList [("name".toList, v.path)], .text ['\n'],
    .open "violation".toList
      ([("begincolumn".toList, decimalInt v.startColumn), ("endcolumn".toList, decimalInt v.endColumn),
        ("beginline".toList, decimalInt v.startLine), ("endline".toList, decimalInt v.endLine)] ++ rule),
    .text (['\n'] ++ v.message ++ ['\n']),
    .close "violation".toList, .text ['\n'], .close "file".toList, .text ['\n', '\n']]

/-- The rule part of the record of a violation: PMD priorities are 1, 3 and 5. -/
def violationPmdRule (info : RuleId → RuleInfo) (v : Violation) : List (Str × Str) :=
  match v.rule with
  | none => []
  | some r => pmdRuleAttrs (info r).name (info r).category (2 * (info r).priority - 1)

/-- The pieces a PMD report consists of. -/
def reportPmd (info : RuleId → RuleInfo) (errors warnings violations bugs : List Violation) :
    List Tok :=
  [.pi "xml version=\"1.0\" encoding=\"UTF-8\"".toList, .text ['\n'],
    .open "pmd".toList [("version".toList, "oclint-24.11".toList)]]
  ++ errors.flatMap (fun v => recordPmd v (pmdRuleAttrs "compiler error".toList "clang".toList 1))
  ++ warnings.flatMap (fun v => recordPmd v (pmdRuleAttrs "compiler warning".toList "clang".toList 2))
  ++ violations.flatMap (fun v => recordPmd v (violationPmdRule info v))
  ++ bugs.flatMap (fun v => recordPmd v (pmdRuleAttrs "clang static analyzer".toList "clang".toList 2))
  ++ [.close "pmd".toList]

/-! ## HTML tables -/

/-- Text that means itself between tags. -/
def HtmlSafe (s : Str) : Prop := ∀ c ∈ s, c ≠ '<' ∧ c ≠ '&' ∧ xmlChar c = true

/-- A table cell. -/
def cellToks (attrs : List (Str × Str)) (text : Str) : List Tok :=
  [.open "td".toList attrs] ++ (if text = [] then [] else [.text text]) ++ [.close "td".toList]

/-- A table row with the columns file, location, rule, category, priority (with its class) and
message. -/
def rowToks (v : Violation) (rule category cls priority : Str) : List Tok :=
  [.open "tr".toList []] ++ cellToks [] v.path
    ++ cellToks [] (decimalInt v.startLine ++ [':'] ++ decimalInt v.startColumn)
    ++ cellToks [] rule ++ cellToks [] category ++ cellToks [("class".toList, cls)] priority
    ++ cellToks [] v.message ++ [.close "tr".toList]

/-- The row of a violation. -/
def violationRow (info : RuleId → RuleInfo) (v : Violation) : List Tok :=
  match v.rule with
  | none => []
  | some r => rowToks v (info r).name (info r).category
      ("priority".toList ++ decimalInt (info r).priority) (decimalInt (info r).priority)

/-- A heading cell. -/
def headToks (attrs : List (Str × Str)) (text : Str) : List Tok :=
  [.open "th".toList attrs, .text text, .close "th".toList]

/-- The summary table: eight totals under their headings. -/
def summaryHtml (files filesWithViolations p1 p2 p3 errors warnings bugs : Int) : List Tok :=
  [.open "table".toList [], .open "thead".toList [], .open "tr".toList []]
  ++ headToks [] "Total Files".toList ++ headToks [] "Files with Violations".toList
  ++ headToks [] "Priority 1".toList ++ headToks [] "Priority 2".toList
  ++ headToks [] "Priority 3".toList ++ headToks [] "Compiler Errors".toList
  ++ headToks [] "Compiler Warnings".toList ++ headToks [] "Clang Static Analyzer".toList
  ++ [.close "tr".toList, .close "thead".toList, .open "tbody".toList [], .open "tr".toList []]
  ++ cellToks [] (decimalInt files) ++ cellToks [] (decimalInt filesWithViolations)
  ++ cellToks [("class".toList, "priority1".toList)] (decimalInt p1)
  ++ cellToks [("class".toList, "priority2".toList)] (decimalInt p2)
  ++ cellToks [("class".toList, "priority3".toList)] (decimalInt p3)
  ++ cellToks [("class".toList, "cmplr-error".toList)] (decimalInt errors)
  ++ cellToks [("class".toList, "cmplr-warning".toList)] (decimalInt warnings)
  ++ cellToks [("class".toList, "checker-bug".toList)] (decimalInt bugs)
  ++ [.close "tr".toList, .close "tbody".toList, .close "table".toList]

/-- A sortable heading. -/
def sortHead (i : String) (text : Str) : List Tok :=
  headToks [("onclick".toList, "sortTable(".toList ++ i.toList ++ ")".toList),
    ("class".toList, "sortable".toList)] text

/-- The opening of the details table: six sortable columns. -/
def detailsHtml : List Tok :=
  [.open "table".toList [("id".toList, "violations-table".toList)], .open "thead".toList [],
    .open "tr".toList []]
  ++ sortHead "0" "File".toList ++ sortHead "1" "Location".toList
  ++ sortHead "2" "Rule Name".toList ++ sortHead "3" "Rule Category".toList
  ++ sortHead "4" "Priority".toList ++ sortHead "5" "Message".toList
  ++ [.close "tr".toList, .close "thead".toList, .open "tbody".toList []]

/-- All rows of the details table. -/
def rowsHtml (info : RuleId → RuleInfo) (errors warnings violations bugs : List Violation) :
    List Tok :=
  violations.flatMap (violationRow info)
  ++ errors.flatMap (fun v => rowToks v "compiler error".toList [] "cmplr-error".toList "error".toList)
  ++ warnings.flatMap
      (fun v => rowToks v "compiler warning".toList [] "cmplr-warning".toList "warning".toList)
  ++ bugs.flatMap
      (fun v => rowToks v "clang static analyzer".toList [] "checker-bug".toList "checker bug".toList)

/-! ## Line based formats -/

/-- What a violation line says. -/
structure LineRecord where
  path : Str
  line : Int
  column : Int
  rule : Str
  category : Str
  priority : Int
  message : Str
  deriving Repr, DecidableEq

/-- What a diagnostic line says. -/
structure DiagRecord where
  path : Str
  line : Int
  column : Int
  message : Str
  deriving Repr, DecidableEq

/-- `path:line:column:` and the rest. -/
def readPlace (s : Str) : Option ((Str × Int × Int) × Str) := do
  let (path, r) ← cut ':' s
  let (l, r) ← cut ':' r
  let (c, r) ← cut ':' r
  let line ← readInt l
  let column ← readInt c
  pure ((path, line, column), r)

/-- The rule name is followed by a space. -/
def dropSpace (s : Str) : Option Str :=
  match s.reverse with
  | ' ' :: r => some r.reverse
  | _ => none

/-- `path:line:column:<tag>name [category|Ppriority] message`. -/
def readViolationLine (tag : Str) (s : Str) : Option LineRecord := do
  let ((path, line, column), r) ← readPlace s
  let r ← strip tag r
  let (n, r) ← cut '[' r
  let rule ← dropSpace n
  let (category, r) ← cut '|' r
  let r ← strip ['P'] r
  let (p, r) ← cut ']' r
  let priority ← readInt p
  let message ← strip [' '] r
  pure ⟨path, line, column, rule, category, priority, message⟩

/-- `path:line:column: message`. -/
def readDiagLine (s : Str) : Option DiagRecord := do
  let ((path, line, column), r) ← readPlace s
  let message ← strip [' '] r
  pure ⟨path, line, column, message⟩

/-- Apply a reader to every line. -/
def readAll {α : Type} (f : Str → Option α) : List Str → Option (List α)
  | [] => some []
  | l :: ls => (f l).bind fun a => (readAll f ls).map fun as => a :: as

/-- A record whose fields can be told apart in a line. -/
def LineClean (info : RuleId → RuleInfo) (v : Violation) : Prop :=
  ∃ r, v.rule = some r ∧ ':' ∉ v.path ∧ '\n' ∉ v.path ∧ '\n' ∉ v.message ∧
    '[' ∉ (info r).name ∧ '\n' ∉ (info r).name ∧ '|' ∉ (info r).category ∧ '\n' ∉ (info r).category

/-- A diagnostic whose fields can be told apart in a line. -/
def DiagClean (v : Violation) : Prop := ':' ∉ v.path ∧ '\n' ∉ v.path ∧ '\n' ∉ v.message

/-- The record of a violation. -/
def lineRecord (info : RuleId → RuleInfo) (v : Violation) : Option LineRecord :=
  v.rule.map fun r =>
    ⟨v.path, v.startLine, v.startColumn, (info r).name, (info r).category, (info r).priority, v.message⟩

/-- The record of a diagnostic. -/
def diagRecord (v : Violation) : DiagRecord := ⟨v.path, v.startLine, v.startColumn, v.message⟩

/-- The content of a text report. -/
structure TextDoc where
  errors : List DiagRecord
  warnings : List DiagRecord
  bugs : List DiagRecord
  files : Int
  filesWithViolations : Int
  p1 : Int
  p2 : Int
  p3 : Int
  violations : List LineRecord
  deriving Repr, DecidableEq

/-- The lines up to the first empty one, and the lines from there on. -/
def paragraph (ls : List Str) : List Str × List Str :=
  (ls.takeWhile (fun l => !l.isEmpty), ls.dropWhile (fun l => !l.isEmpty))

/-- A section with a heading surrounded by empty lines, absent if the heading is. -/
def readSection (heading : List Str) (ls : List Str) : Option (List DiagRecord × List Str) :=
  if ls.take (heading.length + 2) = [[]] ++ heading ++ [[]] then
    let p := paragraph (ls.drop (heading.length + 2))
    (readAll readDiagLine p.1).map fun ds => (ds, p.2)
  else some ([], ls)

/-- `<key>number ` and the rest. -/
def readTotal (key : String) (s : Str) : Option (Int × Str) := do
  let r ← strip key.toList s
  let (n, r) ← cut ' ' r
  let z ← readInt n
  pure (z, r)

/-- The summary line. -/
def readSummaryLine (s : Str) : Option (Int × Int × Int × Int × Int) := do
  let (a, r) ← readTotal "Summary: TotalFiles=" s
  let (b, r) ← readTotal "FilesWithViolations=" r
  let (p1, r) ← readTotal "P1=" r
  let (p2, r) ← readTotal "P2=" r
  let (p3, r) ← readTotal "P3=" r
  if r = [] then pure (a, b, p1, p2, p3) else none

/-- Heading of the error section. -/
def errorsHeading : List Str :=
  ["Compiler Errors:".toList,
   "(please be aware that these errors will prevent OCLint from analyzing this source code)".toList]

/-- Read a whole text report. -/
def readText (s : Str) : Option TextDoc := do
  let (errors, ls) ← readSection errorsHeading (linesOf s)
  let (warnings, ls) ← readSection ["Compiler Warnings:".toList] ls
  let (bugs, ls) ← readSection ["Clang Static Analyzer Results:".toList] ls
  if ls.take 4 = [[], [], "OCLint Report".toList, []] then
    match ls.drop 4 with
    | summary :: [] :: rest => do
      let (files, fwv, p1, p2, p3) ← readSummaryLine summary
      let p := paragraph rest
      let violations ← readAll (readViolationLine [' ']) p.1
      if p.2 = [[], "[OCLint (https://oclint.org) v24.11]".toList, []] then
        pure ⟨errors, warnings, bugs, files, fwv, p1, p2, p3, violations⟩
      else none
    | _ => none
  else none

/-! ## Dates -/

/-- Split at the given characters, which have to occur in that order, the last one at the end. -/
def splitAtChars : List Char → Str → Option (List Str)
  | [], s => if s = [] then some [] else none
  | c :: cs, s => (cut c s).bind fun p => (splitAtChars cs p.2).map fun fs => p.1 :: fs

/-- A number with exactly this many digits. -/
def readFixed (width : Nat) (s : Str) : Option Int :=
  if s.length = width then (readNat s).map fun n => (n : Int) else none

/-- `YYYY-MM-DDThh:mm:ssZ` with two (four) digits per field. -/
def readDatetime (s : Str) : Option (Int × Int × Int × Int × Int × Int) :=
  match splitAtChars ['-', '-', 'T', ':', ':', 'Z'] s with
  | some [y, mo, d, h, mi, se] => do
    let y ← readFixed 4 y
    let mo ← readFixed 2 mo
    let d ← readFixed 2 d
    let h ← readFixed 2 h
    let mi ← readFixed 2 mi
    let se ← readFixed 2 se
    pure (y, mo, d, h, mi, se)
  | _ => none

/-- The fields `gmtime` returns for a date in the years 0 to 9999 (`tm_year` counts from 1900,
`tm_mon` from 0). -/
def TmValid (tm : Tm) : Prop :=
  -1900 ≤ tm.year ∧ tm.year ≤ 8099 ∧ 0 ≤ tm.mon ∧ tm.mon ≤ 11 ∧ 1 ≤ tm.mday ∧ tm.mday ≤ 31 ∧
    0 ≤ tm.hour ∧ tm.hour ≤ 23 ∧ 0 ≤ tm.min ∧ tm.min ≤ 59 ∧ 0 ≤ tm.sec ∧ tm.sec ≤ 60

/-- The calendar date and time a `struct tm` stands for: year, month (January is 1), day, hour,
minute, second. -/
def calendar (tm : Tm) : Int × Int × Int × Int × Int × Int :=
  (tm.year + 1900, tm.mon + 1, tm.mday, tm.hour, tm.min, tm.sec)

end Oclint.Spec
