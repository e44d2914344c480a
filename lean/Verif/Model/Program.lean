import Verif.Model.ConfigLifetime
import Verif.Model.Main

/-!
# The main program, with configuration files whose texts do not live long enough

`Main.lean` takes option processing as if the texts of configuration files were kept; here it is as in
`ConfigLifetime.lean`.
-/

namespace Oclint

/-- `main.cpp:169-219`, `main`; `yaml` is what the YAML parser makes of a text, and the YAML reader of
`m.env` is not used. -/
def refProgram {U σ κ : Type} [DecidableEq κ] (m : Machine U σ κ) (yaml : Str → RefConfig)
    (cli : Option CommandLine) : Outcome ExitCode :=
  match cli with
  | none => .ok .COMMON_OPTIONS_PARSER_ERRORS
  | some cli => do
    let st ← processRefOptions m.env yaml cli
    mainWith m st

end Oclint
