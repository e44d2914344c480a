import Verif.Spec.Reporters

/-!
# Totals and records in a report that has been read

What a reader finds in the JSON document, in the pieces of the XML document and in the two tables of
the HTML page: the number stated for a priority, and how many records of that priority there are.
Nothing here mentions how a report is written.
-/

namespace Oclint.Spec

/-! ## JSON -/

/-- The member of an object. -/
def Json.member (key : Str) : Json → Option Json
  | .obj l => (l.find? fun e => decide (e.1 = key)).map (·.2)
  | _ => none

/-- The elements of an array. -/
def Json.items : Json → List Json
  | .arr l => l
  | _ => []

/-- The number a value is. -/
def Json.number : Json → Option Int
  | .num z => some z
  | _ => none

/-- The priority an object states. -/
def Json.priority (e : Json) : Option Int := (e.member "priority".toList).bind Json.number

/-- The total stated for a priority. -/
def jsonTotal (d : Json) (p : Int) : Option Int :=
  ((d.member "summary".toList).bind fun s =>
    (s.member "numberOfViolationsWithPriority".toList).bind fun l =>
      (l.items.find? fun e => decide (e.priority = some p)).bind fun e =>
        (e.member "number".toList).bind Json.number)

/-- The records of a document. -/
def jsonRecords (d : Json) : List Json := ((d.member "violation".toList).map Json.items).getD []

/-- The records with a priority. -/
def jsonRecordsOf (d : Json) (p : Int) : List Json :=
  (jsonRecords d).filter fun e => decide (e.priority = some p)

/-! ## XML -/

/-- Is the piece the start of an element with this name? -/
def isOpen (name : Str) : Tok → Bool
  | .open n _ => decide (n = name)
  | _ => false

/-- The pieces inside the first element with this name. -/
def inside (name : Str) (ts : List Tok) : List Tok :=
  ((ts.dropWhile fun t => !isOpen name t).drop 1).takeWhile fun t => decide (t ≠ .close name)

/-- The text directly behind the first occurrence of a piece. -/
def textBehind (t : Tok) : List Tok → Option Str
  | [] => none
  | [_] => none
  | a :: .text s :: r => if a = t then some s else textBehind t (.text s :: r)
  | _ :: b :: r => textBehind t (b :: r)

/-- The total stated under a name. -/
def xmlTotal (ts : List Tok) (key : Str) : Option Int :=
  (textBehind (.open "property".toList [("name".toList, key)]) (inside "summary".toList ts)).bind readInt

/-- The attributes of a violation element. -/
def violationElement : Tok → Option (List (Str × Str))
  | .open n attrs => if n = "violation".toList then some attrs else none
  | _ => none

/-- The records of a document: the attributes of the violations. -/
def xmlRecords (ts : List Tok) : List (List (Str × Str)) :=
  (inside "violations".toList ts).filterMap violationElement

/-- The records with a priority. -/
def xmlRecordsOf (ts : List Tok) (p : Int) : List (List (Str × Str)) :=
  (xmlRecords ts).filter fun attrs => decide ((attrs.lookup "priority".toList).bind readInt = some p)

/-! ## HTML -/

/-- The start of a table cell of a class. -/
def classCell (cls : Str) : Tok := .open "td".toList [("class".toList, cls)]

/-- The number in the cell of a class. -/
def htmlTotal (summary : List Tok) (cls : Str) : Option Int :=
  (textBehind (classCell cls) summary).bind readInt

/-- How many rows have a cell of a class. -/
def htmlRowCountOf (rows : List Tok) (cls : Str) : Nat := rows.count (classCell cls)

/-- How many rows there are. -/
def htmlRowCount (rows : List Tok) : Nat := rows.count (.open "tr".toList [])

end Oclint.Spec
