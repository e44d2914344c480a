import Verif.Model.Options

/-!
# Keys of configuration files

Models `ConfigFile.cpp:44-48`, `66-74` and `199-213`: what `yin >> *this` does with a parsed document.
`llvm::yaml::Input` is third party code.  From it the following is taken.  After an error nothing
more is read and what was read stays.  `mapOptional` does nothing if the key is missing; a document
that is neither a mapping nor empty is an error.  A sequence is filled element by element, the
element with the error stays default constructed.  Unknown keys are an error at the end of the
mapping.  An enumeration only takes the listed texts.
-/

namespace Oclint

/-- A parsed YAML node (`llvm::yaml::Input::HNode`); keys of a mapping differ. -/
inductive Yaml where
  | empty
  | scalar (text : Str)
  | seq (items : List Yaml)
  | map (entries : List (Str × Yaml))

/-- The entry of a key. -/
def yamlFind (key : Str) : List (Str × Yaml) → Option Yaml
  | [] => none
  | (k, v) :: rest => if k = key then some v else yamlFind key rest

/-- Something being read, and whether there was an error. -/
structure Reading (α : Type) where
  value : α
  failed : Bool

/-- `IO::mapOptional` on the current node. -/
def mapOptional {α : Type} (node : Yaml) (key : Str) (read : Yaml → α → Reading α) (st : Reading α) :
    Reading α :=
  if st.failed then st
  else
    match node with
    | .map entries =>
      match yamlFind key entries with
      | some v => read v st.value
      | none => st
    | .empty => st
    | _ => { st with failed := true }

/-- `Input::endMapping`: are there only keys that were asked for? -/
def endMapping {α : Type} (node : Yaml) (known : List Str) (st : Reading α) : Reading α :=
  if st.failed then st
  else
    match node with
    | .map entries => { st with failed := entries.any fun e => !known.contains e.1 }
    | _ => st

/-- `yamlize` of an `llvm::StringRef`. -/
def readScalarText (v : Yaml) (old : Str) : Reading Str :=
  match v with
  | .scalar s => ⟨s, false⟩
  | _ => ⟨old, true⟩

/-- `ConfigFile.cpp:44-48`, `RuleConfigurationPair::mapping`. -/
def readPair (v : Yaml) (old : Str × Str) : Reading (Str × Str) :=
  let st : Reading (Str × Str) := ⟨old, false⟩
  let st := mapOptional v "key".toList
    (fun v p => let r := readScalarText v p.1; ⟨(r.value, p.2), r.failed⟩) st
  let st := mapOptional v "value".toList
    (fun v p => let r := readScalarText v p.2; ⟨(p.1, r.value), r.failed⟩) st
  endMapping v ["key".toList, "value".toList] st

/-- The elements of a sequence, each into a default constructed element. -/
def readItems {α : Type} (read : Yaml → α → Reading α) (fresh : α) : List Yaml → Reading (List α)
  | [] => ⟨[], false⟩
  | v :: vs =>
    let r := read v fresh
    if r.failed then ⟨[r.value], true⟩
    else
      let rest := readItems read fresh vs
      ⟨r.value :: rest.value, rest.failed⟩

/-- Texts that LLVM takes as null. -/
def yamlNulls : List Str := ["null".toList, "Null".toList, "NULL".toList, "~".toList]

/-- `yamlize` of a vector that is empty so far. -/
def readVector {α : Type} (read : Yaml → α → Reading α) (fresh : α) (v : Yaml) : Reading (List α) :=
  match v with
  | .seq items => readItems read fresh items
  | .empty => ⟨[], false⟩
  | .scalar s => if yamlNulls.contains s then ⟨[], false⟩ else ⟨[], true⟩
  | .map _ => ⟨[], true⟩

/-- `INT_MAX`. -/
def INT_MAX : Int := 2147483647

/-- `yamlize` of an `int`; `parse` is `getAsSignedInteger` with radix 0. -/
def readInt (parse : Str → Option Int) (v : Yaml) (old : Int) : Reading Int :=
  match v with
  | .scalar s =>
    match parse s with
    | some n => if n > INT_MAX ∨ n < INT_MIN then ⟨old, true⟩ else ⟨n, false⟩
    | none => ⟨old, true⟩
  | _ => ⟨old, true⟩

/-- `ConfigFile.cpp:66-74`, the enumeration. -/
def readTriState (v : Yaml) (old : TriState) : Reading TriState :=
  match v with
  | .scalar s =>
    if s = "true".toList then ⟨.TRUE, false⟩
    else if s = "false".toList then ⟨.FALSE, false⟩
    else ⟨old, true⟩
  | _ => ⟨old, true⟩

/-- A member being read: `get` and `set` are the member. -/
def member {α : Type} (set : ConfigFile → α → ConfigFile) (read : Yaml → ConfigFile → Reading α) :
    Yaml → ConfigFile → Reading ConfigFile :=
  fun v c => let r := read v c; ⟨set c r.value, r.failed⟩

/-- `ConfigFile.cpp:199-213`, `ConfigFile::mapping`: the keys with what is read, in order. -/
def configMembers (parse : Str → Option Int) :
    List (Str × (Yaml → ConfigFile → Reading ConfigFile)) :=
  [("rules".toList, member (fun c x => { c with rules := x })
      fun v _ => readVector readScalarText [] v),
   ("disable-rules".toList, member (fun c x => { c with disableRules := x })
      fun v _ => readVector readScalarText [] v),
   ("rule-paths".toList, member (fun c x => { c with rulePaths := x })
      fun v _ => readVector readScalarText [] v),
   ("rule-configurations".toList, member (fun c x => { c with ruleConfigurations := x })
      fun v _ => readVector readPair ([], []) v),
   ("output".toList, member (fun c x => { c with output := x })
      fun v c => readScalarText v c.output),
   ("report-type".toList, member (fun c x => { c with reportType := x })
      fun v c => readScalarText v c.reportType),
   ("max-priority-1".toList, member (fun c x => { c with maxP1 := x })
      fun v c => readInt parse v c.maxP1),
   ("max-priority-2".toList, member (fun c x => { c with maxP2 := x })
      fun v c => readInt parse v c.maxP2),
   ("max-priority-3".toList, member (fun c x => { c with maxP3 := x })
      fun v c => readInt parse v c.maxP3),
   ("enable-clang-static-analyzer".toList, member (fun c x => { c with clangChecker := x })
      fun v c => readTriState v c.clangChecker),
   ("allow-duplicated-violations".toList,
      member (fun c x => { c with allowDuplicatedViolations := x })
        fun v c => readTriState v c.allowDuplicatedViolations),
   ("enable-global-analysis".toList, member (fun c x => { c with enableGlobalAnalysis := x })
      fun v c => readTriState v c.enableGlobalAnalysis)]

/-- `yin >> *this` (`ConfigFile.cpp:101`) on freshly initialised members; `none` is a text that is
not YAML.  Errors are not asked for. -/
def readDocument (parse : Str → Option Int) (doc : Option Yaml) : ConfigFile :=
  match doc with
  | none => .initial
  | some node =>
    let st := (configMembers parse).foldl (fun st m => mapOptional node m.1 m.2 st) ⟨.initial, false⟩
    (endMapping node ((configMembers parse).map Prod.fst) st).value

end Oclint
