import Verif.Model.Registry

/-!
# Plugin loading

Models `oclint-driver/rules_dlfcn_port.cpp` and `reporters_dlfcn_port.cpp`.

`dlopen` runs the static constructors of a library the first time it is opened; opening it again
only returns the handle.  Simplification: a library is identified by the path text it is opened
with.
-/

namespace Oclint

/-- Directory listings in `readdir` order; `none` when `opendir` fails. -/
abbrev Listing := Str → Option (List Str)

/-- Libraries that were opened so far and the rule registry they filled. -/
structure LoaderState where
  opened : List Str
  registry : Registry
  deriving Repr, DecidableEq

/-- Test `dirp->d_name[0] == '.'` of `rules_dlfcn_port.cpp:17` and `reporters_dlfcn_port.cpp:22`. -/
def isDotEntry (name : Str) : Bool :=
  match name with
  | [] => false
  | c :: _ => c == '.'

/-- `dlopen` of a rule library; `lib` says which rules its static constructors register, or `none`
if it cannot be opened. -/
def openRuleLibrary (lib : Str → Option (List RuleId)) (st : LoaderState) (path : Str) :
    Option LoaderState :=
  match lib path with
  | none => none
  | some rules =>
    if path ∈ st.opened then some st
    else some { opened := st.opened ++ [path], registry := rules.foldl Registry.addRule st.registry }

/-- The `readdir` loop of `rules_dlfcn_port.cpp:15-28`. -/
def loadRuleEntries (lib : Str → Option (List RuleId)) (dir : Str) :
    LoaderState → List Str → Outcome LoaderState
  | st, [] => .ok st
  | st, name :: rest =>
    if isDotEntry name then loadRuleEntries lib dir st rest
    else
      let rulePath := dir ++ "/".toList ++ name
      match openRuleLibrary lib st rulePath with
      | none => .throws ("cannot open dynamic library: ".toList ++ rulePath)
      | some st' => loadRuleEntries lib dir st' rest

/-- `rules_dlfcn_port.cpp:9-31`, `dynamicLoadRules`. -/
def dynamicLoadRules (ls : Listing) (lib : Str → Option (List RuleId)) (st : LoaderState)
    (dir : Str) : Outcome LoaderState :=
  match ls dir with
  | none => .ok st
  | some names => loadRuleEntries lib dir st names

/-- `main.cpp:36-42`, `consumeArgRulesPath`. -/
def consumeArgRulesPath (ls : Listing) (lib : Str → Option (List RuleId)) :
    LoaderState → List Str → Outcome LoaderState
  | st, [] => .ok st
  | st, d :: ds => do
    let st' ← dynamicLoadRules ls lib st d
    consumeArgRulesPath ls lib st' ds

/-- A reporter library: `none` if it lacks the `create` symbol, else the `name()` of the reporter
it creates. -/
abbrev ReporterLibrary := Option Str

/-- The `readdir` loop of `reporters_dlfcn_port.cpp:20-42`.  The result is the path of the selected
library, `none` if the directory has no match.  Calling a missing `create` is a call through a null
pointer. -/
def loadReporterEntries (lib : Str → Option ReporterLibrary) (reportType dir : Str) :
    List Str → Outcome (Option Str)
  | [] => .ok none
  | name :: rest =>
    if isDotEntry name then loadReporterEntries lib reportType dir rest
    else
      let path := dir ++ "/".toList ++ name
      match lib path with
      | none => .throws ("cannot open dynamic library: ".toList ++ path)
      | some none => .ub
      | some (some reporterName) =>
        if reporterName = reportType then .ok (some path)
        else loadReporterEntries lib reportType dir rest

/-- `reporters_dlfcn_port.cpp:12-50`, `loadReporter`. -/
def loadReporter (ls : Listing) (lib : Str → Option ReporterLibrary) (reportType dir : Str) :
    Outcome Str := do
  let selected ←
    match ls dir with
    | none => .ok none
    | some names => loadReporterEntries lib reportType dir names
  match selected with
  | none => .throws ("cannot find dynamic library for report type: ".toList ++ reportType)
  | some path => .ok path

end Oclint
