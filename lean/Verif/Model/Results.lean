import Verif.Model.Basic

/-!
# Violations, the result collector and the two result views

Models `oclint-core/lib/Violation.cpp`, `ViolationSet.cpp`, `ResultCollector.cpp`,
`RawResults.cpp`, `UniqueResults.cpp`, `AbstractResults.cpp`, `RuleCarrier.cpp`.

Simplification: `size()` values are `Nat`; the C++ narrows them to `int`, which
differs only for 2^31 or more entries.
-/

namespace Oclint

/-- `oclint-core/include/oclint/Violation.h`, `Violation.cpp:9-20`.  `rule = none` is the null
pointer used for compiler diagnostics. -/
structure Violation where
  rule : Option RuleId
  path : Str
  startLine : Int
  startColumn : Int
  endLine : Int
  endColumn : Int
  message : Str
  deriving Repr, DecidableEq

/-- `Violation.cpp:22-31`, `Violation::operator==`. -/
def violationEq (a b : Violation) : Bool :=
  (a.rule == b.rule)
    && (a.path == b.path)
    && (a.startLine == b.startLine)
    && (a.startColumn == b.startColumn)
    && (a.endLine == b.endLine)
    && (a.endColumn == b.endColumn)
    && (a.message == b.message)

/-- `ViolationSet.h`: the `_violations` vector of one analysed unit. -/
abbrev ViolationSet := List Violation

/-- `ViolationSet.cpp:5-8`, `ViolationSet::addViolation` (push_back). -/
def ViolationSet.addViolation (s : ViolationSet) (v : Violation) : ViolationSet := s ++ [v]

/-- `RuleCarrier.cpp:36-45`, `RuleCarrier::addViolation`: dropped when the file path is empty. -/
def carrierAddViolation (s : ViolationSet) (filePath : Str)
    (startLine startColumn endLine endColumn : Int) (rule : Option RuleId) (message : Str) :
    ViolationSet :=
  if filePath ≠ [] then
    s.addViolation
      { rule := rule, path := filePath, startLine := startLine, startColumn := startColumn,
        endLine := endLine, endColumn := endColumn, message := message }
  else s

/-- `ResultCollector.h`, `ResultCollector.cpp:19-24`: the four stores of the singleton. -/
structure ResultCollector where
  collection : List ViolationSet
  errorSet : ViolationSet
  warningSet : ViolationSet
  checkerBugSet : ViolationSet
  deriving Repr, DecidableEq

namespace ResultCollector

/-- `ResultCollector.cpp:19-24`, constructor. -/
def empty : ResultCollector := ⟨[], [], [], []⟩

/-- `ResultCollector.cpp:30-33`, `add`. -/
def add (c : ResultCollector) (s : ViolationSet) : ResultCollector :=
  { c with collection := c.collection ++ [s] }

/-- `ResultCollector.cpp:40-43`, `addError`. -/
def addError (c : ResultCollector) (v : Violation) : ResultCollector :=
  { c with errorSet := c.errorSet.addViolation v }

/-- `ResultCollector.cpp:50-53`, `addWarning`. -/
def addWarning (c : ResultCollector) (v : Violation) : ResultCollector :=
  { c with warningSet := c.warningSet.addViolation v }

/-- `ResultCollector.cpp:60-63`, `addCheckerBug`. -/
def addCheckerBug (c : ResultCollector) (v : Violation) : ResultCollector :=
  { c with checkerBugSet := c.checkerBugSet.addViolation v }

end ResultCollector

/-- The four questions a `Results` object answers with a list of violations
(`oclint-core/include/oclint/Results.h`). -/
inductive Channel where
  | violations | errors | warnings | checkerBugs
  deriving Repr, DecidableEq

/-- The nested push_back loops of `RawResults.cpp:12-23` and `UniqueResults.cpp:63-70`. -/
def collectAll (sets : List ViolationSet) : List Violation :=
  sets.foldl (fun acc s => s.foldl (fun acc v => acc ++ [v]) acc) []

/-- `RawResults.cpp:12-38`: `allViolations`, `allErrors`, `allWarnings`, `allCheckerBugs`. -/
def rawAll (c : ResultCollector) : Channel → List Violation
  | .violations => collectAll c.collection
  | .errors => c.errorSet
  | .warnings => c.warningSet
  | .checkerBugs => c.checkerBugSet

/-! ## Hashing and duplicate removal -/

/-- `UniqueResults.cpp:12-26`, `ViolationHash`, for given hash functions of pointers and strings.
64-bit `size_t`; the `int` sub-expression is computed in 32 bits and sign-extended.  Simplification:
a shift that leaves the range of `int` (an end column of at least 2^24, say), which C++17 leaves
undefined, drops the high bits, as compilers implement it. -/
def violationHash (hashPtr : Option RuleId → BitVec 64) (hashStr : Str → BitVec 64)
    (v : Violation) : BitVec 64 :=
  let hash1 := hashPtr v.rule
  let hash2 := hashStr v.path
  let hash3 := hashStr v.message
  let hash4 := (BitVec.ofInt 32 v.startLine
    ^^^ (BitVec.ofInt 32 v.startColumn <<< 2)
    ^^^ (BitVec.ofInt 32 v.endLine <<< 4)
    ^^^ (BitVec.ofInt 32 v.endColumn <<< 8)).signExtend 64
  hash1 ^^^ (hash2 <<< 1) ^^^ (hash2 <<< 2) ^^^ (hash3 <<< 3) ^^^ (hash4 <<< 4)

/-- `std::unordered_set<Violation, ViolationHash>`: violations grouped by hash value; only
violations in the same group are compared with `operator==`. -/
abbrev HashSet (κ : Type) := κ → List Violation

/-- `std::unordered_set::insert(v)`; the Boolean is the `.second` of the returned pair. -/
def HashSet.insert {κ : Type} [DecidableEq κ] (h : Violation → κ) (s : HashSet κ) (v : Violation) :
    HashSet κ × Bool :=
  if (s (h v)).any (fun w => violationEq w v) then (s, false)
  else (fun k => if k = h v then v :: s k else s k, true)

/-- Loop body and loop of `UniqueResults.cpp:28-43`, `removeViolationDuplications`. -/
def removeDupLoop {κ : Type} [DecidableEq κ] (h : Violation → κ) :
    HashSet κ → List Violation → List Violation → List Violation
  | _, out, [] => out
  | set, out, v :: vs =>
    let r := set.insert h v
    if r.2 then removeDupLoop h r.1 (out ++ [v]) vs else removeDupLoop h r.1 out vs

/-- `UniqueResults.cpp:28-43`, `removeViolationDuplications`. -/
def removeDuplicates {κ : Type} [DecidableEq κ] (h : Violation → κ) (vs : List Violation) :
    List Violation :=
  removeDupLoop h (fun _ => []) [] vs

/-! ## The memoising view -/

/-- The mutable members of `UniqueResults` (`UniqueResults.h:13-16`). -/
structure UniqueMemo where
  violations : List Violation
  errors : List Violation
  warnings : List Violation
  checkerBugs : List Violation
  deriving Repr, DecidableEq

namespace UniqueMemo

/-- `UniqueResults.cpp:51-54`, constructor: all members empty. -/
def empty : UniqueMemo := ⟨[], [], [], []⟩

/-- Read the member used by a question. -/
def get (m : UniqueMemo) : Channel → List Violation
  | .violations => m.violations
  | .errors => m.errors
  | .warnings => m.warnings
  | .checkerBugs => m.checkerBugs

/-- Assign the member used by a question. -/
def set (m : UniqueMemo) (ch : Channel) (l : List Violation) : UniqueMemo :=
  match ch with
  | .violations => { m with violations := l }
  | .errors => { m with errors := l }
  | .warnings => { m with warnings := l }
  | .checkerBugs => { m with checkerBugs := l }

end UniqueMemo

/-- `UniqueResults.cpp:56-109`: `allViolations`, `allErrors`, `allWarnings`, `allCheckerBugs`.
Returns the answer and the updated members. -/
def uniqueAll {κ : Type} [DecidableEq κ] (h : Violation → κ) (c : ResultCollector) (m : UniqueMemo)
    (ch : Channel) : List Violation × UniqueMemo :=
  if m.get ch ≠ [] then (m.get ch, m)
  else
    let fresh := removeDuplicates h (rawAll c ch)
    (fresh, m.set ch fresh)

/-! ## Counting (`AbstractResults.cpp`) -/

/-- `AbstractResults.cpp:14-17`, `numberOfFiles`. -/
def numberOfFiles (c : ResultCollector) : Nat := c.collection.length

/-- `std::map<std::string,int>::operator[](k) += n` on an association list with distinct keys. -/
def mapAdd (m : List (Str × Nat)) (k : Str) (n : Nat) : List (Str × Nat) :=
  match m with
  | [] => [(k, n)]
  | (k', n') :: rest => if k' = k then (k', n' + n) :: rest else (k', n') :: mapAdd rest k n

/-- Loop body of `AbstractResults.cpp:22-29`: the path of the *first* violation of a non-empty
set is counted. -/
def filesStep (m : List (Str × Nat)) (s : ViolationSet) : List (Str × Nat) :=
  match s with
  | [] => m
  | v :: rest => mapAdd m v.path (rest.length + 1)

/-- `AbstractResults.cpp:19-31`, `numberOfFilesWithViolations`: size of the map. -/
def numberOfFilesWithViolations (c : ResultCollector) : Nat :=
  (c.collection.foldl filesStep []).length

/-- `AbstractResults.cpp:33-36`, `52-80`: `numberOfViolations`, `numberOfErrors`, ... -/
def numberOf (answer : List Violation) : Nat := answer.length

/-- `AbstractResults.cpp:57-60`, `67-70`, `77-80`: `hasErrors`, `hasWarnings`, `hasCheckerBugs`. -/
def hasAny (answer : List Violation) : Bool := decide (numberOf answer > 0)

/-- Loop of `AbstractResults.cpp:38-50`; `rule->priority()` on a null rule is undefined
behaviour. -/
def countPriorityLoop (priorityOf : RuleId → Int) (priority : Int) :
    Nat → List Violation → Outcome Nat
  | n, [] => .ok n
  | n, v :: vs =>
    match v.rule with
    | none => .ub
    | some r =>
      if priorityOf r = priority then countPriorityLoop priorityOf priority (n + 1) vs
      else countPriorityLoop priorityOf priority n vs

/-- `AbstractResults.cpp:38-50`, `numberOfViolationsWithPriority`. -/
def numberOfViolationsWithPriority (priorityOf : RuleId → Int) (answer : List Violation)
    (priority : Int) : Outcome Nat :=
  countPriorityLoop priorityOf priority 0 answer

end Oclint
