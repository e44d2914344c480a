import Verif.Lemmas.CMakeScaffold
import Verif.Spec.TestLists

/-!
# Reading the lists of tests
-/

namespace Oclint
open Spec
open scoped List

/-! ## Words -/

/-- A word without characters that mean something. -/
def CmWord (x : Str) : Prop := x ≠ [] ∧ ∀ c ∈ x, CmPlain c ∨ c = '.'

theorem cmRead_dotted (done : List CmCommand) (n : Str) (as : List CmArg) (x : Str)
    (hx : ∀ c ∈ x, CmPlain c ∨ c = '.') :
    ∀ w, cmRead ⟨done, .word n as w⟩ x = ⟨done, .word n as (w ++ x)⟩ := by
  induction x with
  | nil => intro w; simp [cmRead]
  | cons c cs ih =>
    intro w
    have h1 : cmRead ⟨done, .word n as w⟩ [c] = ⟨done, .word n as (w ++ [c])⟩ := by
      rcases hx c (by simp) with h | rfl
      · exact cmRead_word done n as [c] (by simpa using h) w
      · rfl
    have h2 := ih (fun c h => hx c (by simp [h])) (w ++ [c])
    rw [show c :: cs = [c] ++ cs from rfl, cmRead_append, h1, h2]
    simp

/-- The command for a test. -/
def testCmd (x : Str) : CmCommand :=
  ⟨chars! "build_test", [⟨x ++ chars! "RuleTest", false⟩, ⟨x ++ chars! "RuleTest.cpp", false⟩]⟩

theorem plain_append {x : Str} (hx : ∀ c ∈ x, CmPlain c) (y : Str) (hy : ∀ c ∈ y, CmPlain c) :
    ∀ c ∈ x ++ y, CmPlain c := by
  intro c hc
  rcases List.mem_append.1 hc with hc | hc
  · exact hx c hc
  · exact hy c hc

theorem adds_test (x : Str) (hx : PlainName x) : Adds (testStep x) [testCmd x] := by
  intro s hs
  have e : testStep x = ['\n'] ++ (chars! "BUILD_TEST(" ++ ((x ++ chars! "RuleTest") ++ (['\n'] ++
      ((x ++ chars! "RuleTest") ++ (chars! ".cpp" ++ chars! ")\n"))))) := by
    simp [testStep, inLines]
  have h1 : cmRead s ['\n'] = ⟨s.done, .between⟩ := cmRead_newline s hs
  have h2 : ∀ done, cmRead ⟨done, .between⟩ (chars! "BUILD_TEST(") =
      ⟨done, .args (chars! "BUILD_TEST") []⟩ := fun _ => rfl
  have h3 : ∀ done n as w, cmRead ⟨done, .word n as w⟩ ['\n'] = ⟨done, .args n (as ++ [⟨w, false⟩])⟩ :=
    fun _ _ _ _ => rfl
  have h4 : ∀ done n as w, cmRead ⟨done, .word n as w⟩ (chars! ".cpp") =
      ⟨done, .word n as (w ++ chars! ".cpp")⟩ :=
    fun done n as w => cmRead_dotted done n as (chars! ".cpp") (by decide +kernel) w
  have h5 : ∀ done as w, cmRead ⟨done, .word (chars! "BUILD_TEST") as w⟩ (chars! ")\n") =
      ⟨done ++ [⟨chars! "build_test", as ++ [⟨w, false⟩]⟩], .between⟩ := fun _ _ _ => rfl
  have p1 : ∀ c ∈ x ++ chars! "RuleTest", CmPlain c := plain_append hx.2 _ (by decide +kernel)
  have p0 : x ++ chars! "RuleTest" ≠ [] := by simp
  rw [e, cmRead_append, h1, cmRead_append, h2, cmRead_append, cmRead_arg _ _ _ _ p0 p1,
    cmRead_append, h3, cmRead_append, cmRead_arg _ _ _ _ p0 p1, cmRead_append, h4, h5]
  refine ⟨rfl, ?_⟩
  simp [testCmd]

/-- The command for a category. -/
def testCategoryCmd (c : Str) : CmCommand := ⟨chars! "add_subdirectory", [⟨c, false⟩]⟩

theorem adds_testCategory (c : Str) (hc : PlainName c) :
    Adds (testCategoryStep c) [testCategoryCmd c] := by
  intro s hs
  have e : testCategoryStep c = ['\n'] ++ (chars! "ADD_SUBDIRECTORY(" ++ (c ++ chars! ")\n")) := by
    simp [testCategoryStep, inLines]
  have h1 : cmRead s ['\n'] = ⟨s.done, .between⟩ := cmRead_newline s hs
  have h2 : ∀ done, cmRead ⟨done, .between⟩ (chars! "ADD_SUBDIRECTORY(") =
      ⟨done, .args (chars! "ADD_SUBDIRECTORY") []⟩ := fun _ => rfl
  have h3 : ∀ done w, cmRead ⟨done, .word (chars! "ADD_SUBDIRECTORY") [] w⟩ (chars! ")\n") =
      ⟨done ++ [testCategoryCmd w], .between⟩ := fun _ _ => rfl
  rw [e, cmRead_append, h1, cmRead_append, h2, cmRead_append, cmRead_arg _ _ _ _ hc.1 hc.2, h3]
  exact ⟨rfl, rfl⟩

theorem cmArg_word (vars : Str → Str) (x : Str) (hx : CmWord x) : cmArg vars ⟨x, false⟩ = some [x] := by
  have h : ∀ y, ¬ CmPlain y → y ≠ '.' → ∀ c ∈ x, c ≠ y := by
    intro y h1 h2 c hc
    rcases hx.2 c hc with h | rfl
    · exact cmPlain_ne h h1
    · exact h2.symm
  have h1 := cmExpand_plain vars x (h '$' (by decide +kernel) (by decide +kernel))
  have h2 := cmElements_plain x (h ';' (by decide +kernel) (by decide +kernel)) []
  rw [List.nil_append, if_neg hx.1] at h2
  simp [cmArg, h1, h2]

theorem testCmd_args (vars : Str → Str) (x : Str) (hx : PlainName x) :
    cmArgsOf vars (testCmd x).args = some [x ++ chars! "RuleTest", x ++ chars! "RuleTest.cpp"] := by
  have w1 : CmWord (x ++ chars! "RuleTest") :=
    ⟨by simp, fun c hc => .inl (plain_append hx.2 _ (by decide +kernel) c hc)⟩
  have w2 : CmWord (x ++ chars! "RuleTest.cpp") := by
    refine ⟨by simp, fun c hc => ?_⟩
    rcases List.mem_append.1 hc with hc | hc
    · exact .inl (hx.2 c hc)
    · exact (by decide +kernel : ∀ c ∈ chars! "RuleTest.cpp", CmPlain c ∨ c = '.') c hc
  rw [testCmd, cmArgsOf, cmArg_word _ _ w1, cmArgsOf, cmArg_word _ _ w2]
  rfl

/-! ## What is to be built, whether or not it can be -/

/-- Folding and then realising is realising and then folding, if this is so for one step. -/
theorem foldlM_realise {S P C : Type} (f : S → C → Option S) (g : P → C → Option P) (h : P → Option S)
    (hs : ∀ p c, ((h p).bind fun s => f s c) = (g p c).bind h) (cs : List C) :
    ∀ p, ((h p).bind fun s => cs.foldlM f s) = (cs.foldlM g p).bind h := by
  induction cs with
  | nil => intro p; cases hp : h p <;> simp [hp]
  | cons c cs ih =>
    intro p
    simp only [List.foldlM_cons, Option.bind_eq_bind]
    rw [← Option.bind_assoc, hs, Option.bind_assoc, Option.bind_assoc]
    congr 1
    funext q
    exact ih q

/-- A program that is wanted; `place` is the directory, as it is below the directory of tests. -/
structure TestItem where
  place : Str
  name : Str
  files : List Str
  deriving DecidableEq

/-- The program of an item. -/
def itemTest (root : Str) (i : TestItem) : TestProgram :=
  ⟨i.name, i.files.map fun f => root ++ i.place ++ '/' :: f⟩

/-- Building it. -/
def checkItem (d : Disk) (root : Str) (tests : List TestProgram) (i : TestItem) :
    Option (List TestProgram) :=
  buildTest d (root ++ i.place) tests (i.name :: i.files)

/-- The item for some arguments. -/
def planTest (place : Str) : List Str → Option TestItem
  | [] => none
  | name :: files => some ⟨place, name, files⟩

theorem planTest_eq (d : Disk) (root place : Str) (t : List TestProgram) (args : List Str) :
    buildTest d (root ++ place) t args = (planTest place args).bind (checkItem d root t) := by
  cases args <;> rfl

/-- What is wanted by the commands of a list. -/
structure ListPlan where
  branch : Option Bool
  vars : Str → Str
  items : List TestItem

/-- A command. -/
def planListStep (cuda : Bool) (place : Str) (s : ListPlan) (c : CmCommand) : Option ListPlan :=
  if c.name = chars! "if" then
    if s.branch = none ∧ c.args = [⟨chars! "TEST_CUDA", false⟩] then some { s with branch := some cuda }
    else none
  else if c.name = chars! "endif" then
    if s.branch = none then none else some { s with branch := none }
  else if c.name = chars! "set" then
    if s.branch = some false then some s
    else (cmArgsOf s.vars c.args).bind fun args => (cmSet s.vars args).map fun v => { s with vars := v }
  else if c.name = chars! "build_test" then
    if s.branch = some false then some s
    else (cmArgsOf s.vars c.args).bind fun args =>
      (planTest place args).map fun i => { s with items := s.items ++ [i] }
  else none

/-- Building what a list wants. -/
def realiseList (d : Disk) (root : Str) (t0 : List TestProgram) (p : ListPlan) : Option TestScope :=
  (p.items.foldlM (checkItem d root) t0).map fun t => ⟨p.branch, p.vars, t⟩

theorem planListStep_realise (cuda : Bool) (d : Disk) (root place : Str) (t0 : List TestProgram)
    (p : ListPlan) (c : CmCommand) :
    ((realiseList d root t0 p).bind fun s => testListCommand cuda d (root ++ place) s c) =
      (planListStep cuda place p c).bind (realiseList d root t0) := by
  obtain ⟨branch, vars, items⟩ := p
  unfold testListCommand planListStep realiseList
  simp only [planTest_eq]
  by_cases h1 : c.name = chars! "if"
  · simp only [if_pos h1]
    by_cases h : branch = none ∧ c.args = [⟨chars! "TEST_CUDA", false⟩]
    · simp only [if_pos h]
      cases hf : items.foldlM (checkItem d root) t0 <;> simp [hf, h]
    · simp only [if_neg h]
      cases hf : items.foldlM (checkItem d root) t0 <;> simp [hf, h]
  · simp only [if_neg h1]
    by_cases h2 : c.name = chars! "endif"
    · simp only [if_pos h2]
      by_cases h : branch = none
      · simp only [if_pos h]
        cases hf : items.foldlM (checkItem d root) t0 <;> simp [hf, h]
      · simp only [if_neg h]
        cases hf : items.foldlM (checkItem d root) t0 <;> simp [hf, h]
    · simp only [if_neg h2]
      by_cases h3 : c.name = chars! "set"
      · simp only [if_pos h3]
        by_cases h : branch = some false
        · simp only [if_pos h]
          cases hf : items.foldlM (checkItem d root) t0 <;> simp [hf, h]
        · simp only [if_neg h]
          cases ha : cmArgsOf vars c.args with
          | none => cases hf : items.foldlM (checkItem d root) t0 <;> simp [hf, h, ha]
          | some args =>
            cases hf : items.foldlM (checkItem d root) t0 <;> cases hs : cmSet vars args <;>
              simp [hf, h, ha, hs]
      · simp only [if_neg h3]
        by_cases h4 : c.name = chars! "build_test"
        · simp only [if_pos h4]
          by_cases h : branch = some false
          · simp only [if_pos h]
            cases hf : items.foldlM (checkItem d root) t0 <;> simp [hf, h]
          · simp only [if_neg h]
            cases ha : cmArgsOf vars c.args with
            | none => cases hf : items.foldlM (checkItem d root) t0 <;> simp [hf, h, ha]
            | some args =>
              cases hp : planTest place args with
              | none => cases hf : items.foldlM (checkItem d root) t0 <;> simp [hf, h, ha, hp]
              | some i =>
                cases hf : items.foldlM (checkItem d root) t0 with
                | none => simp [hp, List.foldlM_append, hf]
                | some t =>
                  cases hc : checkItem d root t i <;>
                    simp [h, ha, hp, List.foldlM_append, hf, hc]
        · simp only [if_neg h4]
          cases items.foldlM (checkItem d root) t0 <;> rfl

/-- What a text wants. -/
def planTestText (cuda : Bool) (place : Str) (vars : Str → Str) (text : Str) : Option (List TestItem) :=
  (cmCommands text).bind fun cs =>
    match cs.foldlM (planListStep cuda place) ⟨none, vars, []⟩ with
    | some ⟨none, _, items⟩ => some items
    | _ => none

theorem readTestList_plan (cuda : Bool) (d : Disk) (root place : Str) (vars : Str → Str)
    (t : List TestProgram) (text : Str) :
    readTestList cuda d (root ++ place) vars t text =
      (planTestText cuda place vars text).bind fun items => items.foldlM (checkItem d root) t := by
  unfold readTestList planTestText
  cases cmCommands text with
  | none => rfl
  | some cs =>
    simp only [Option.bind_some]
    have h := foldlM_realise (testListCommand cuda d (root ++ place)) (planListStep cuda place)
      (realiseList d root t) (planListStep_realise cuda d root place t) cs ⟨none, vars, []⟩
    have e : realiseList d root t ⟨none, vars, []⟩ = some ⟨none, vars, t⟩ := rfl
    rw [e, Option.bind_some] at h
    rw [h]
    cases cs.foldlM (planListStep cuda place) ⟨none, vars, []⟩ with
    | none => rfl
    | some p =>
      obtain ⟨branch, v, items⟩ := p
      simp only [Option.bind_some, realiseList]
      cases branch <;> cases hf : items.foldlM (checkItem d root) t <;> simp [hf]

/-- The item for a class. -/
def classItem (place x : Str) : TestItem := ⟨place, x ++ chars! "RuleTest", [x ++ chars! "RuleTest.cpp"]⟩

theorem planList_tests (cuda : Bool) (place : Str) (xs : List Str) (hx : ∀ x ∈ xs, PlainName x) :
    ∀ (vars : Str → Str) (items : List TestItem),
      (xs.map testCmd).foldlM (planListStep cuda place) ⟨none, vars, items⟩ =
        some ⟨none, vars, items ++ xs.map (classItem place)⟩ := by
  induction xs with
  | nil => intro vars items; simp
  | cons x xs ih =>
    intro vars items
    have h1 : planListStep cuda place ⟨none, vars, items⟩ (testCmd x) =
        some ⟨none, vars, items ++ [classItem place x]⟩ := by
      have n1 : ¬ (testCmd x).name = chars! "if" := by
        show ¬ chars! "build_test" = chars! "if"; decide +kernel
      have n2 : ¬ (testCmd x).name = chars! "endif" := by
        show ¬ chars! "build_test" = chars! "endif"; decide +kernel
      have n3 : ¬ (testCmd x).name = chars! "set" := by
        show ¬ chars! "build_test" = chars! "set"; decide +kernel
      have n4 : (testCmd x).name = chars! "build_test" := rfl
      have n5 : ¬ (none : Option Bool) = some false := nofun
      unfold planListStep
      rw [if_neg n1, if_neg n2, if_neg n3, if_pos n4]
      simp only [if_neg n5, testCmd_args vars x (hx x (by simp)), Option.bind_some]
      rfl
    rw [List.map_cons, List.foldlM_cons, h1, Option.bind_eq_bind, Option.bind_some,
      ih fun y hy => hx y (by simp [hy])]
    simp

theorem planTestText_append (cuda : Bool) (place : Str) (vars : Str → Str) (text : Str)
    (items : List TestItem) (xs : List Str) (h : planTestText cuda place vars text = some items)
    (hx : ∀ x ∈ xs, PlainName x) :
    planTestText cuda place vars (text ++ (xs.map testStep).flatten) =
      some (items ++ xs.map (classItem place)) := by
  unfold planTestText at h ⊢
  cases hc : cmCommands text with
  | none => rw [hc] at h; cases h
  | some cs =>
    rw [hc, Option.bind_some] at h
    have hadds := Adds.flatten testStep (fun x => [testCmd x]) xs fun x hm => adds_test x (hx x hm)
    have hmap : xs.flatMap (fun c => [testCmd c]) = xs.map testCmd := by
      rw [← List.flatMap_singleton' (xs.map testCmd), List.flatMap_map]
    rw [hmap] at hadds
    rw [hadds.commands hc, Option.bind_some, List.foldlM_append]
    cases hp : cs.foldlM (planListStep cuda place) ⟨none, vars, []⟩ with
    | none => rw [hp] at h; cases h
    | some p =>
      rw [hp] at h
      obtain ⟨branch, v, its⟩ := p
      cases branch with
      | some b => cases h
      | none =>
        cases h
        rw [Option.bind_eq_bind, Option.bind_some, planList_tests cuda place xs hx]

/-! ## The list of categories -/

/-- What the list of categories wants. -/
structure TestPlan where
  vars : Str → Str
  items : List TestItem
  added : List Str

/-- A category. -/
def planTestDir (cuda : Bool) (d : Disk) (root : Str) (s : TestPlan) (category : Str) : Option TestPlan :=
  if category = [] ∨ !category.all cmNameChar ∨ s.added.contains category then none
  else
    (d.file (listAt root category)).bind fun text =>
      (planTestText cuda ('/' :: category) s.vars text).map fun is =>
        { s with items := s.items ++ is, added := s.added ++ [category] }

/-- A command. -/
def planTestPlain (cuda : Bool) (d : Disk) (root : Str) (s : TestPlan) (c : CmCommand) :
    Option TestPlan :=
  (cmArgsOf s.vars c.args).bind fun args =>
    if c.name = chars! "set" then (cmSet s.vars args).map fun v => { s with vars := v }
    else if c.name = chars! "add_library" then
      if args = testHelperArgs ∧ (d.file (root ++ chars! "/headers/TestRuleOnCode.cpp")).isSome then some s
      else none
    else if c.name = chars! "build_test" then
      (planTest [] args).map fun i => { s with items := s.items ++ [i] }
    else if c.name = chars! "add_subdirectory" then
      match args with
      | [category] => planTestDir cuda d root s category
      | _ => none
    else none

/-- The same, where the flag is whether a macro is being defined. -/
def planTestRoot (cuda : Bool) (d : Disk) (root : Str) (s : Bool × TestPlan) (c : CmCommand) :
    Option (Bool × TestPlan) :=
  if s.1 then some (!decide (c.name = chars! "endmacro"), s.2)
  else if c.name = chars! "macro" then some (true, s.2)
  else (planTestPlain cuda d root s.2 c).map (false, ·)

/-- Building what is wanted. -/
def realisePlan (d : Disk) (root : Str) (p : TestPlan) : Option TestRoot :=
  (p.items.foldlM (checkItem d root) []).map fun t => ⟨p.vars, t, p.added⟩

theorem planTestDir_realise (cuda : Bool) (d : Disk) (root : Str) (p : TestPlan) (category : Str) :
    ((realisePlan d root p).bind fun s => addTestDirectory cuda d root s category) =
      (planTestDir cuda d root p category).bind (realisePlan d root) := by
  obtain ⟨vars, items, added⟩ := p
  unfold addTestDirectory planTestDir realisePlan
  have e : root ++ '/' :: category ++ chars! "/CMakeLists.txt" = listAt root category := rfl
  simp only [e, readTestList_plan]
  by_cases h : category = [] ∨ (!category.all cmNameChar) = true ∨ added.contains category = true
  · simp only [if_pos h]
    cases items.foldlM (checkItem d root) [] with
    | none => rfl
    | some t => simp only [Option.map_some, Option.bind_some, if_pos h]; rfl
  · simp only [if_neg h]
    cases hf : d.file (listAt root category) with
    | none =>
      cases items.foldlM (checkItem d root) [] with
      | none => rfl
      | some t => simp only [Option.map_some, Option.bind_some, if_neg h]; rfl
    | some text =>
      cases hp : planTestText cuda ('/' :: category) vars text with
      | none =>
        cases items.foldlM (checkItem d root) [] with
        | none => simp [hp]
        | some t => simp only [Option.map_some, Option.bind_some, if_neg h, hp]; rfl
      | some is =>
        simp only [Option.map_some, Option.bind_some, List.foldlM_append, hp]
        cases items.foldlM (checkItem d root) [] with
        | none => rfl
        | some t =>
          simp only [Option.map_some, Option.bind_some, Option.bind_eq_bind, if_neg h, hp]

theorem planTestPlain_realise (cuda : Bool) (d : Disk) (root : Str) (p : TestPlan) (c : CmCommand) :
    ((realisePlan d root p).bind fun s => testRootPlain cuda d root s c) =
      (planTestPlain cuda d root p c).bind (realisePlan d root) := by
  have hd := planTestDir_realise cuda d root p
  obtain ⟨vars, items, added⟩ := p
  unfold testRootPlain planTestPlain
  have hb : ∀ t args, buildTest d root t args = (planTest [] args).bind (checkItem d root t) := by
    intro t args
    have := planTest_eq d root [] t args
    rwa [List.append_nil] at this
  simp only [hb]
  cases ha : cmArgsOf vars c.args with
  | none =>
    unfold realisePlan
    cases hf : items.foldlM (checkItem d root) [] <;> simp [ha]
  | some args =>
    by_cases h1 : c.name = chars! "set"
    · simp only [if_pos h1]
      unfold realisePlan
      cases hf : items.foldlM (checkItem d root) [] <;> cases hs : cmSet vars args <;> simp [hf, ha, hs]
    · simp only [if_neg h1]
      by_cases h2 : c.name = chars! "add_library"
      · simp only [if_pos h2]
        unfold realisePlan
        by_cases h : args = testHelperArgs ∧
            (d.file (root ++ chars! "/headers/TestRuleOnCode.cpp")).isSome = true
        · simp only [Option.bind_some, if_pos h]
          cases items.foldlM (checkItem d root) [] with
          | none => rfl
          | some t => simp only [Option.map_some, Option.bind_some, ha, if_pos h]
        · simp only [Option.bind_some, if_neg h]
          cases items.foldlM (checkItem d root) [] with
          | none => rfl
          | some t => simp only [Option.map_some, Option.bind_some, ha, if_neg h]; rfl
      · simp only [if_neg h2]
        by_cases h3 : c.name = chars! "build_test"
        · simp only [if_pos h3]
          unfold realisePlan
          cases hp : planTest [] args with
          | none => cases hf : items.foldlM (checkItem d root) [] <;> simp [ha, hp]
          | some i =>
            cases hf : items.foldlM (checkItem d root) [] with
            | none => simp [hp, List.foldlM_append, hf]
            | some t =>
              cases hc : checkItem d root t i <;> simp [ha, hp, List.foldlM_append, hf, hc]
        · simp only [if_neg h3]
          by_cases h4 : c.name = chars! "add_subdirectory"
          · simp only [if_pos h4, Option.bind_some]
            match args, ha with
            | [], ha =>
              unfold realisePlan
              cases items.foldlM (checkItem d root) [] with
              | none => rfl
              | some t => simp only [Option.map_some, Option.bind_some, ha]; rfl
            | _ :: _ :: _, ha =>
              unfold realisePlan
              cases items.foldlM (checkItem d root) [] with
              | none => rfl
              | some t => simp only [Option.map_some, Option.bind_some, ha]; rfl
            | [category], ha =>
              simp only
              rw [← hd]
              unfold realisePlan
              cases items.foldlM (checkItem d root) [] with
              | none => rfl
              | some t => simp only [Option.map_some, Option.bind_some, ha]
          · simp only [if_neg h4]
            unfold realisePlan
            cases items.foldlM (checkItem d root) [] with
            | none => rfl
            | some t => simp only [Option.map_some, Option.bind_some, ha]; rfl

theorem planTestRoot_realise (cuda : Bool) (d : Disk) (root : Str) (p : Bool × TestPlan)
    (c : CmCommand) :
    (((realisePlan d root p.2).map (p.1, ·)).bind fun s => testRootCommand cuda d root s c) =
      (planTestRoot cuda d root p c).bind fun q => (realisePlan d root q.2).map (q.1, ·) := by
  obtain ⟨flag, p⟩ := p
  unfold testRootCommand planTestRoot
  cases flag with
  | true =>
    simp only [if_true, Option.bind_some]
    cases realisePlan d root p <;> rfl
  | false =>
    simp only [Bool.false_eq_true, if_false]
    by_cases h1 : c.name = chars! "macro"
    · simp only [if_pos h1, Option.bind_some]
      cases realisePlan d root p with
      | none => rfl
      | some s => simp
    · simp only [if_neg h1]
      have h := planTestPlain_realise cuda d root p c
      cases hp : planTestPlain cuda d root p c with
      | none =>
        rw [hp] at h
        cases hr : realisePlan d root p with
        | none => rfl
        | some s =>
          rw [hr] at h
          simp only [Option.bind_some, Option.bind_none] at h
          simp [h]
      | some q =>
        rw [hp] at h
        simp only [Option.bind_some, Option.map_some] at h ⊢
        rw [← h]
        cases hr : realisePlan d root p with
        | none => rfl
        | some s => simp

/-- What all lists want. -/
def testPlan (cuda : Bool) (d : Disk) (root : Str) : Option TestPlan :=
  (d.file (root ++ chars! "/CMakeLists.txt")).bind fun text =>
    (cmCommands text).bind fun cs =>
      match cs.foldlM (planTestRoot cuda d root) (false, ⟨fun _ => [], [], []⟩) with
      | some (false, p) => some p
      | _ => none

theorem configureTests_plan (cuda : Bool) (d : Disk) (root : Str) :
    configureTests cuda d root = (testPlan cuda d root).bind (realisePlan d root) := by
  unfold configureTests testPlan
  cases d.file (root ++ chars! "/CMakeLists.txt") with
  | none => rfl
  | some text =>
    cases h : cmCommands text with
    | none => simp [h]
    | some cs =>
      have hp := foldlM_realise (testRootCommand cuda d root) (planTestRoot cuda d root)
        (fun q => (realisePlan d root q.2).map (q.1, ·)) (planTestRoot_realise cuda d root) cs
        (false, ⟨fun _ => [], [], []⟩)
      have e : realisePlan d root ⟨fun _ => [], [], []⟩ = some ⟨fun _ => [], [], []⟩ := rfl
      simp only [e, Option.map_some, Option.bind_some] at hp
      simp only [Option.bind_some, h]
      rw [hp]
      cases cs.foldlM (planTestRoot cuda d root) (false, ⟨fun _ => [], [], []⟩) with
      | none => rfl
      | some q =>
        obtain ⟨flag, q⟩ := q
        cases flag <;> simp only [Option.bind_some] <;> cases realisePlan d root q <;> rfl

/-! ## Can it be built? -/

/-- Is there nothing against it by itself? -/
structure TestGood (d : Disk) (root : Str) (i : TestItem) : Prop where
  name : ∀ c ∈ i.name, cmTargetChar c = true
  free : i.name ∉ testProjectTargets
  some : i.files ≠ []
  files : ∀ f ∈ i.files, '/' ∉ f ∧ f ∉ executableWords ∧ d.file (root ++ i.place ++ '/' :: f) ≠ none

theorem checkItem_iff (d : Disk) (root : Str) (t t' : List TestProgram) (i : TestItem) :
    checkItem d root t i = some t' ↔
      TestGood d root i ∧ i.name ∉ t.map (·.name) ∧ t' = t ++ [itemTest root i] := by
  have hcond : (i.name.all cmTargetChar && !testProjectTargets.contains i.name &&
        !(t.map (·.name)).contains i.name && !i.files.isEmpty &&
        i.files.all (fun f => !f.contains '/' && !executableWords.contains f &&
          (d.file (root ++ i.place ++ '/' :: f)).isSome)) = true ↔
      TestGood d root i ∧ i.name ∉ t.map (·.name) := by
    simp only [Bool.and_eq_true, List.all_eq_true, Bool.not_eq_true', List.contains_eq_mem,
      decide_eq_false_iff_not, List.isEmpty_eq_false_iff, Option.isSome_iff_ne_none]
    constructor
    · rintro ⟨⟨⟨⟨h1, h2⟩, h3⟩, h4⟩, h5⟩
      exact ⟨⟨h1, h2, h4, fun f hf => ⟨(h5 f hf).1.1, (h5 f hf).1.2, (h5 f hf).2⟩⟩, h3⟩
    · rintro ⟨⟨h1, h2, h4, h5⟩, h3⟩
      exact ⟨⟨⟨⟨h1, h2⟩, h3⟩, h4⟩, fun f hf => ⟨⟨(h5 f hf).1, (h5 f hf).2.1⟩, (h5 f hf).2.2⟩⟩
  unfold checkItem buildTest
  simp only []
  by_cases h : TestGood d root i ∧ i.name ∉ t.map (·.name)
  · rw [if_pos (hcond.2 h)]
    constructor
    · intro e
      cases e
      exact ⟨h.1, h.2, rfl⟩
    · rintro ⟨-, -, rfl⟩
      rfl
  · rw [if_neg fun e => h (hcond.1 e)]
    constructor
    · nofun
    · rintro ⟨h1, h2, -⟩
      exact absurd ⟨h1, h2⟩ h

theorem checkItems_iff (d : Disk) (root : Str) (items : List TestItem) :
    ∀ t t' : List TestProgram, items.foldlM (checkItem d root) t = some t' ↔
      (∀ i ∈ items, TestGood d root i) ∧ (items.map (·.name)).Nodup ∧
        (∀ i ∈ items, i.name ∉ t.map (·.name)) ∧ t' = t ++ items.map (itemTest root) := by
  induction items with
  | nil => intro t t'; simp [eq_comm]
  | cons i items ih =>
    intro t t'
    rw [List.foldlM_cons]
    have h : ((checkItem d root t i >>= fun t1 => items.foldlM (checkItem d root) t1) = some t') ↔
        ∃ t1, checkItem d root t i = some t1 ∧ items.foldlM (checkItem d root) t1 = some t' := by
      cases checkItem d root t i <;> simp
    rw [h]
    constructor
    · rintro ⟨t1, h1, h2⟩
      obtain ⟨g, n, rfl⟩ := (checkItem_iff d root t t1 i).1 h1
      obtain ⟨g2, n2, f2, rfl⟩ := (ih _ _).1 h2
      refine ⟨?_, ?_, ?_, by simp⟩
      · intro j hj
        rcases List.mem_cons.1 hj with rfl | hj
        · exact g
        · exact g2 j hj
      · simp only [List.map_cons, List.nodup_cons]
        refine ⟨?_, n2⟩
        intro hm
        obtain ⟨j, hj, e⟩ := List.mem_map.1 hm
        exact f2 j hj (by simp [e, itemTest])
      · intro j hj
        rcases List.mem_cons.1 hj with rfl | hj
        · exact n
        · intro hm
          exact f2 j hj (by rw [List.map_append]; exact List.mem_append_left _ hm)
    · rintro ⟨g, n, f, rfl⟩
      simp only [List.map_cons, List.nodup_cons] at n
      refine ⟨t ++ [itemTest root i], (checkItem_iff _ _ _ _ _).2 ⟨g i (by simp), f i (by simp), rfl⟩,
        (ih _ _).2 ⟨fun j hj => g j (by simp [hj]), n.2, ?_, by simp⟩⟩
      intro j hj hm
      rw [List.map_append, List.mem_append] at hm
      rcases hm with hm | hm
      · exact f j (by simp [hj]) hm
      · apply n.1
        rw [List.map_singleton, List.mem_singleton] at hm
        rw [show i.name = (itemTest root i).name from rfl, ← hm]
        exact List.mem_map_of_mem (f := fun i : TestItem => i.name) hj

theorem configureTests_iff (cuda : Bool) (d : Disk) (root : Str) (s : TestRoot) :
    configureTests cuda d root = some s ↔
      ∃ p, testPlan cuda d root = some p ∧ (∀ i ∈ p.items, TestGood d root i) ∧
        (p.items.map (·.name)).Nodup ∧ s = ⟨p.vars, p.items.map (itemTest root), p.added⟩ := by
  rw [configureTests_plan]
  cases testPlan cuda d root with
  | none => simp
  | some p =>
    simp only [Option.bind_some, realisePlan, Option.map_eq_some_iff, checkItems_iff, Option.some.injEq]
    constructor
    · rintro ⟨b, ⟨h1, h2, -, rfl⟩, rfl⟩
      exact ⟨p, rfl, h1, h2, by simp⟩
    · rintro ⟨p, rfl, h1, h2, rfl⟩
      exact ⟨_, ⟨h1, h2, by simp, rfl⟩, by simp⟩

end Oclint
