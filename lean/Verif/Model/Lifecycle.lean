import Verif.Model.Driver

/-!
# The lives of compilers

Models `oclint-driver/lib/Driver.cpp:288-418` and `CompilerInstance.cpp:83-111` once more, now with
what happens to each `CompilerInstance` and its actions, as a sequence of events.  Compilers are
numbered as they are created.  What the rules find is left out.  Simplifications: `clearIDTables` and
what `EndSourceFile` does inside Clang are not events; creating the diagnostics of a compiler does not
fail.
-/

namespace Oclint

/-- What happens to a compiler. -/
inductive LifeEvent where
  /-- `new oclint::CompilerInstance()` -/
  | create (compiler : Nat)
  /-- `BeginSourceFile` of an input, and whether it succeeds -/
  | begin (compiler input : Nat) (ok : Bool)
  /-- `Execute` of an input -/
  | execute (compiler input : Nat)
  /-- a rule gets the `ASTContext` of the compiler -/
  | look (compiler : Nat) (rule : RuleId)
  /-- `EndSourceFile` of an input -/
  | endFile (compiler input : Nat)
  /-- `getDiagnostics().getClient()->finish()` -/
  | finish (compiler : Nat)
  /-- `delete` -/
  | delete (compiler : Nat)
  deriving Repr, DecidableEq

/-- A piece of code with its events.  What happened stays when it throws. -/
structure Traced (α : Type) where
  events : List LifeEvent
  result : Outcome α
  deriving Repr, DecidableEq

namespace Traced

def bind {α β : Type} (x : Traced α) (f : α → Traced β) : Traced β :=
  match x.result with
  | .ok a => ⟨x.events ++ (f a).events, (f a).result⟩
  | .throws w => ⟨x.events, .throws w⟩
  | .ub => ⟨x.events, .ub⟩

instance : Monad Traced where
  pure a := ⟨[], .ok a⟩
  bind := bind

/-- A piece of code without events. -/
def calm {α : Type} (x : Outcome α) : Traced α := ⟨[], x⟩

/-- Events. -/
def emit (events : List LifeEvent) : Traced Unit := ⟨events, .ok ()⟩

end Traced

/-- `oclint::CompilerInstance`: its number and `_actions` (by the number of the input). -/
structure Instance where
  id : Nat
  actions : List Nat
  deriving Repr, DecidableEq

/-- The loop `CompilerInstance.cpp:92-102`. -/
def startLoop (c : Instance) : Nat → List Bool → Traced Instance
  | _, [] => pure c
  | input, ok :: rest => do
    Traced.emit [.begin c.id input ok]
    if ok then do
      Traced.emit [.execute c.id input]
      startLoop { c with actions := c.actions ++ [input] } (input + 1) rest
    else startLoop c (input + 1) rest

variable {U σ : Type}

/-- `CompilerInstance.cpp:83-103`, `start`. -/
def startInstance (c : Instance) (r : CompileResult U) : Traced Instance :=
  if !r.hasTarget then pure c else startLoop c 0 r.begins

/-- `CompilerInstance.cpp:105-111`, `end`. -/
def endInstance (c : Instance) : Traced Unit := do
  Traced.emit (c.actions.map fun input => .endFile c.id input)
  Traced.emit [.finish c.id]

/-- `Driver.cpp:224-236`, `newCompilerInstance`. -/
def newInstance (id : Nat) : Traced Instance := do
  Traced.emit [.create id]
  pure ⟨id, []⟩

/-- Body of the loops `Driver.cpp:292-328` and `335-363` up to the invocation, and what
`CompilerInstance::start` will yield: the result and the new current directory. -/
def compileRaw (tc : Toolchain U) (mainExecutable : Str) (checker : Bool) (cwd : Str)
    (job : Str × CompileCommand) : Outcome (CompileResult U × Str) := do
  let adjusted := tc.adjust job.2.commandLine job.1
  let st ← enterDirectory tc (⟨cwd, ResultCollector.empty, ()⟩ : DriverState Unit) job.2.directory
  let argv ← buildArgv mainExecutable adjusted checker
  let cc1 ← getCC1Arguments (tc.build st.cwd argv)
  pure (tc.compile st.cwd cc1, st.cwd)

/-- `Driver.cpp:318`: the unit of a compiler that succeeded. -/
def succeeded (r : CompileResult U) : Option U := if r.errorOccurred then none else r.context

/-- `Driver.cpp:288-329`, `constructCompilers`, with the number of the next compiler and the current
directory.  Each compiler is kept with its unit. -/
def tracedConstruct (tc : Toolchain U) (mainExecutable : Str) :
    Nat → Str → List (Instance × U) → List (Str × CompileCommand) →
      Traced (Nat × Str × List (Instance × U))
  | next, cwd, compilers, [] => pure (next, cwd, compilers)
  | next, cwd, compilers, job :: jobs => do
    let r ← Traced.calm (compileRaw tc mainExecutable false cwd job)
    let c ← newInstance next
    let c ← startInstance c r.1
    tracedConstruct tc mainExecutable (next + 1) r.2
      (compilers ++ ((succeeded r.1).map fun u => (c, u)).toList) jobs

/-- `Driver.cpp:331-364`, `invokeClangStaticAnalyzer`. -/
def tracedChecker (tc : Toolchain U) (mainExecutable : Str) :
    Nat → Str → List (Str × CompileCommand) → Traced (Nat × Str)
  | next, cwd, [] => pure (next, cwd)
  | next, cwd, job :: jobs => do
    let r ← Traced.calm (compileRaw tc mainExecutable true cwd job)
    let c ← newInstance next
    let c ← startInstance c r.1
    endInstance c
    tracedChecker tc mainExecutable (next + 1) r.2 jobs

/-- `RulesetBasedAnalyzer.cpp:29-34`: the rules on the context of a compiler. -/
def tracedRules (a : Analyzer U σ) (compiler : Nat) (u : U) : List RuleId → σ → Traced σ
  | [], s => pure s
  | rule :: rules, s => do
    Traced.emit [.look compiler rule]
    let r ← Traced.calm (a.takeoff rule s u)
    tracedRules a compiler u rules r.1

/-- `RulesetBasedAnalyzer.cpp:23-36`: the rules on each context. -/
def tracedAnalyze (a : Analyzer U σ) : List (Instance × U) → σ → Traced σ
  | [], s => pure s
  | c :: cs, s => do
    let s ← tracedRules a c.1.id c.2 a.filteredRules s
    tracedAnalyze a cs s

/-- The loop `Driver.cpp:385-389`. -/
def tracedRelease : List (Instance × U) → Traced Unit
  | [] => pure ()
  | c :: cs => do
    endInstance c.1
    Traced.emit [.delete c.1.id]
    tracedRelease cs

/-- What a run goes on with: the number of the next compiler, the current directory and the state of
the rules. -/
structure LifeState (σ : Type) where
  next : Nat
  cwd : Str
  rules : σ
  deriving Repr, DecidableEq

/-- `Driver.cpp:366-390`, `invoke`. -/
def tracedInvoke (tc : Toolchain U) (mainExecutable : Str) (a : Analyzer U σ) (st : LifeState σ)
    (jobs : List (Str × CompileCommand)) : Traced (LifeState σ) := do
  let r ← tracedConstruct tc mainExecutable st.next st.cwd [] jobs
  let s ← tracedAnalyze a r.2.2 st.rules
  tracedRelease r.2.2
  pure ⟨r.1, r.2.1, s⟩

/-- The per-file loop `Driver.cpp:407-411`. -/
def tracedInvokeEach (tc : Toolchain U) (mainExecutable : Str) (a : Analyzer U σ) :
    LifeState σ → List (Str × CompileCommand) → Traced (LifeState σ)
  | st, [] => pure st
  | st, job :: jobs => do
    let st ← tracedInvoke tc mainExecutable a st [job]
    tracedInvokeEach tc mainExecutable a st jobs

/-- `Driver.cpp:401-412`. -/
def tracedBothModes (tc : Toolchain U) (mainExecutable : Str) (globalAnalysis : Bool)
    (a : Analyzer U σ) (st : LifeState σ) (jobs : List (Str × CompileCommand)) :
    Traced (LifeState σ) :=
  if globalAnalysis then tracedInvoke tc mainExecutable a st jobs
  else tracedInvokeEach tc mainExecutable a st jobs

/-- `Driver.cpp:414-417`. -/
def tracedSecondPass (tc : Toolchain U) (mainExecutable : Str) (clangChecker : Bool) (st : LifeState σ)
    (jobs : List (Str × CompileCommand)) : Traced (LifeState σ) :=
  if clangChecker then do
    let r ← tracedChecker tc mainExecutable st.next st.cwd jobs
    pure ⟨r.1, r.2, st.rules⟩
  else pure st

/-- `Driver.cpp:392-418`, `Driver::run`. -/
def tracedRun (tc : Toolchain U) (mainExecutable : Str) (globalAnalysis clangChecker : Bool)
    (a : Analyzer U σ) (cwd : Str) (s : σ) (db : Str → List CompileCommand) (sourcePaths : List Str) :
    Traced (LifeState σ) := do
  let jobs := constructCompileCommands tc.absolutePath db sourcePaths
  let st ← tracedBothModes tc mainExecutable globalAnalysis a ⟨0, cwd, s⟩ jobs
  tracedSecondPass tc mainExecutable clangChecker st jobs

end Oclint
