import Verif.Spec.CMake
import Verif.Lemmas.ScaffoldSeq
import Mathlib.Data.List.Perm.Basic

/-!
# Lemmas about the lists of plug-ins
-/

namespace Oclint
open Spec

/-! ## Reading -/

theorem cmRead_append (s : CmLex) (a b : Str) : cmRead s (a ++ b) = cmRead (cmRead s a) b :=
  List.foldl_append

/-- A character of a plain name. -/
def CmPlain (c : Char) : Prop := c.isAlphanum = true ∨ c = '_'

instance (c : Char) : Decidable (CmPlain c) := inferInstanceAs (Decidable (_ ∨ _))

theorem cmPlain_ne {c x : Char} (h : CmPlain c) (hx : ¬ CmPlain x) : c ≠ x := fun e => hx (e ▸ h)

theorem cmPlain_blank {c : Char} (h : CmPlain c) : cmBlank c = false := by
  simp only [cmBlank, Bool.or_eq_false_iff, decide_eq_false_iff_not]
  exact ⟨⟨cmPlain_ne h (by decide +kernel), cmPlain_ne h (by decide +kernel)⟩,
    cmPlain_ne h (by decide +kernel)⟩

theorem cmPlain_special {c : Char} (h : CmPlain c) : cmSpecial c = false := by
  simp only [cmSpecial, Bool.or_eq_false_iff, decide_eq_false_iff_not]
  exact ⟨⟨⟨cmPlain_ne h (by decide +kernel), cmPlain_ne h (by decide +kernel)⟩,
    cmPlain_ne h (by decide +kernel)⟩, cmPlain_ne h (by decide +kernel)⟩

theorem cmRead_word (done : List CmCommand) (n : Str) (as : List CmArg) (x : Str)
    (hx : ∀ c ∈ x, CmPlain c) : ∀ w, cmRead ⟨done, .word n as w⟩ x = ⟨done, .word n as (w ++ x)⟩ := by
  induction x with
  | nil => intro w; simp [cmRead]
  | cons c cs ih =>
    intro w
    have hc := hx c (by simp)
    have h1 : cmStep ⟨done, .word n as w⟩ c = ⟨done, .word n as (w ++ [c])⟩ := by
      have hn := cmPlain_ne hc (x := '\n') (by decide +kernel)
      have hh := cmPlain_ne hc (x := '#') (by decide +kernel)
      have hp := cmPlain_ne hc (x := ')') (by decide +kernel)
      simp [cmStep, cmPlain_blank hc, cmPlain_special hc, hn, hh, hp]
    have h2 := ih (fun c h => hx c (by simp [h])) (w ++ [c])
    rw [cmRead, List.foldl_cons, h1]
    rw [cmRead] at h2
    rw [h2]
    simp

theorem cmRead_arg (done : List CmCommand) (n : Str) (as : List CmArg) (x : Str) (h0 : x ≠ [])
    (hx : ∀ c ∈ x, CmPlain c) : cmRead ⟨done, .args n as⟩ x = ⟨done, .word n as x⟩ := by
  cases x with
  | nil => exact absurd rfl h0
  | cons c cs =>
    have hc := hx c (by simp)
    have h1 : cmStep ⟨done, .args n as⟩ c = ⟨done, .word n as [c]⟩ := by
      have hn := cmPlain_ne hc (x := '\n') (by decide +kernel)
      have hh := cmPlain_ne hc (x := '#') (by decide +kernel)
      have hp := cmPlain_ne hc (x := ')') (by decide +kernel)
      have hq := cmPlain_ne hc (x := '"') (by decide +kernel)
      simp [cmStep, cmArgs, cmPlain_blank hc, cmPlain_special hc, hn, hh, hp, hq]
    have h2 := cmRead_word done n as cs (fun c h => hx c (by simp [h])) [c]
    rw [cmRead, List.foldl_cons, h1]
    exact h2

theorem cmRead_quoted (done : List CmCommand) (n : Str) (as : List CmArg) (x : Str)
    (hx : ∀ c ∈ x, c ≠ '"' ∧ c ≠ '\\') :
    ∀ w, cmRead ⟨done, .quoted n as w⟩ x = ⟨done, .quoted n as (w ++ x)⟩ := by
  induction x with
  | nil => intro w; simp [cmRead]
  | cons c cs ih =>
    intro w
    obtain ⟨h1, h2⟩ := hx c (by simp)
    have h3 : cmStep ⟨done, .quoted n as w⟩ c = ⟨done, .quoted n as (w ++ [c])⟩ := by
      simp [cmStep, h1, h2]
    have h4 := ih (fun c h => hx c (by simp [h])) (w ++ [c])
    rw [cmRead, List.foldl_cons, h3]
    rw [cmRead] at h4
    rw [h4]
    simp

/-- Between commands, in every sense. -/
def CmMode.outside : CmMode → Bool
  | .between | .after | .comment => true
  | _ => false

theorem cmCommands_eq (text : Str) : cmCommands text =
    if (cmRead ⟨[], .between⟩ text).mode.outside then some (cmRead ⟨[], .between⟩ text).done
    else none := by
  unfold cmCommands
  generalize cmRead ⟨[], .between⟩ text = s
  obtain ⟨done, mode⟩ := s
  cases mode <;> rfl

/-- A new line begins outside. -/
theorem cmRead_newline (s : CmLex) (h : s.mode.outside = true) : cmStep s '\n' = ⟨s.done, .between⟩ := by
  obtain ⟨done, mode⟩ := s
  cases mode <;> first | rfl | simp [CmMode.outside] at h

/-- A text that adds commands wherever a command can begin. -/
def Adds (text : Str) (cs : List CmCommand) : Prop :=
  ∀ s : CmLex, s.mode.outside = true →
    (cmRead s text).mode.outside = true ∧ (cmRead s text).done = s.done ++ cs

theorem Adds.commands {t x : Str} {cs ds : List CmCommand} (h : Adds x ds)
    (ht : cmCommands t = some cs) : cmCommands (t ++ x) = some (cs ++ ds) := by
  rw [cmCommands_eq] at ht ⊢
  rw [cmRead_append]
  split at ht
  · rename_i ho
    obtain ⟨h1, h2⟩ := h _ ho
    rw [if_pos h1, h2]
    cases ht
    rfl
  · cases ht

theorem Adds.nil : Adds [] [] := fun s h => ⟨h, by simp [cmRead]⟩

theorem Adds.append {x y : Str} {cs ds : List CmCommand} (h : Adds x cs) (h' : Adds y ds) :
    Adds (x ++ y) (cs ++ ds) := by
  intro s hs
  obtain ⟨h1, h2⟩ := h s hs
  obtain ⟨h3, h4⟩ := h' _ h1
  rw [cmRead_append]
  exact ⟨h3, by rw [h4, h2, List.append_assoc]⟩

theorem Adds.flatten {α : Type} (f : α → Str) (g : α → List CmCommand) (xs : List α)
    (h : ∀ x ∈ xs, Adds (f x) (g x)) : Adds (xs.map f).flatten (xs.flatMap g) := by
  induction xs with
  | nil => exact Adds.nil
  | cons x xs ih =>
    simp only [List.map_cons, List.flatten_cons, List.flatMap_cons]
    exact (h x (by simp)).append (ih fun y hy => h y (by simp [hy]))

/-- The command for a category. -/
def categoryCmd (c : Str) : CmCommand := ⟨chars! "add_rule_category_directory", [⟨c, false⟩]⟩

theorem adds_category (c : Str) (hc : PlainName c) : Adds (categoryStep c) [categoryCmd c] := by
  intro s hs
  have e : categoryStep c = ['\n'] ++ (chars! "ADD_RULE_CATEGORY_DIRECTORY(" ++ (c ++ chars! ")\n")) := by
    simp [categoryStep, inLines]
  have h1 : cmRead s ['\n'] = ⟨s.done, .between⟩ := cmRead_newline s hs
  have h2 : ∀ done, cmRead ⟨done, .between⟩ (chars! "ADD_RULE_CATEGORY_DIRECTORY(") =
      ⟨done, .args (chars! "ADD_RULE_CATEGORY_DIRECTORY") []⟩ := fun _ => rfl
  have h3 : ∀ done w, cmRead ⟨done, .word (chars! "ADD_RULE_CATEGORY_DIRECTORY") [] w⟩ (chars! ")\n") =
      ⟨done ++ [categoryCmd w], .between⟩ := fun _ _ => rfl
  rw [e, cmRead_append, h1, cmRead_append, h2, cmRead_append, cmRead_arg _ _ _ _ hc.1 hc.2, h3]
  exact ⟨rfl, rfl⟩

/-- The commands for a rule. -/
def ruleCmds (x : Str) : List CmCommand :=
  [⟨chars! "set", [⟨chars! "Build" ++ x ++ chars! "Rule", false⟩, ⟨x, false⟩]⟩,
   ⟨chars! "build_dynamic_rules", [⟨chars! "${Build" ++ x ++ chars! "Rule}", true⟩]⟩]

theorem adds_rule (x : Str) (hx : PlainName x) : Adds (ruleStep x) (ruleCmds x) := by
  intro s hs
  have e : ruleStep x = ['\n'] ++ (chars! "SET(" ++ ((chars! "Build" ++ x ++ chars! "Rule") ++ ([' '] ++
      (x ++ (chars! ")\nBUILD_DYNAMIC_RULES(\"" ++ ((chars! "${Build" ++ x ++ chars! "Rule}") ++
        chars! "\")\n")))))) := by
    simp [ruleStep, inLines]
  have h1 : cmRead s ['\n'] = ⟨s.done, .between⟩ := cmRead_newline s hs
  have h2 : ∀ done, cmRead ⟨done, .between⟩ (chars! "SET(") = ⟨done, .args (chars! "SET") []⟩ :=
    fun _ => rfl
  have h3 : ∀ done n as w, cmRead ⟨done, .word n as w⟩ [' '] = ⟨done, .args n (as ++ [⟨w, false⟩])⟩ :=
    fun _ _ _ _ => rfl
  have h4 : ∀ done as w, cmRead ⟨done, .word (chars! "SET") as w⟩ (chars! ")\nBUILD_DYNAMIC_RULES(\"") =
      ⟨done ++ [⟨chars! "set", as ++ [⟨w, false⟩]⟩], .quoted (chars! "BUILD_DYNAMIC_RULES") [] []⟩ :=
    fun _ _ _ => rfl
  have h5 : ∀ done w, cmRead ⟨done, .quoted (chars! "BUILD_DYNAMIC_RULES") [] w⟩ (chars! "\")\n") =
      ⟨done ++ [⟨chars! "build_dynamic_rules", [⟨w, true⟩]⟩], .between⟩ := fun _ _ => rfl
  have p1 : ∀ c ∈ chars! "Build" ++ x ++ chars! "Rule", CmPlain c := by
    intro c hc
    simp only [List.mem_append] at hc
    rcases hc with (hc | hc) | hc
    · exact (by decide +kernel : ∀ c ∈ chars! "Build", CmPlain c) c hc
    · exact hx.2 c hc
    · exact (by decide +kernel : ∀ c ∈ chars! "Rule", CmPlain c) c hc
  have p2 : ∀ c ∈ chars! "${Build" ++ x ++ chars! "Rule}", c ≠ '"' ∧ c ≠ '\\' := by
    intro c hc
    simp only [List.mem_append] at hc
    rcases hc with (hc | hc) | hc
    · exact (by decide +kernel : ∀ c ∈ chars! "${Build", c ≠ '"' ∧ c ≠ '\\') c hc
    · exact ⟨cmPlain_ne (hx.2 c hc) (by decide +kernel), cmPlain_ne (hx.2 c hc) (by decide +kernel)⟩
    · exact (by decide +kernel : ∀ c ∈ chars! "Rule}", c ≠ '"' ∧ c ≠ '\\') c hc
  rw [e, cmRead_append, h1, cmRead_append, h2, cmRead_append, cmRead_arg _ _ _ _ (by simp) p1,
    cmRead_append, h3, cmRead_append, cmRead_arg _ _ _ _ hx.1 hx.2, cmRead_append, h4, cmRead_append,
    cmRead_quoted _ _ _ _ p2, h5]
  refine ⟨rfl, ?_⟩
  simp [ruleCmds]

/-! ## Arguments -/

theorem cmExpand_cons (vars : Str → Str) (c : Char) (cs : Str) (h : c ≠ '$') :
    cmExpand vars none (c :: cs) = (cmExpand vars none cs).map (c :: ·) := by
  rw [cmExpand]
  intro _ e
  exact absurd e h

theorem cmExpand_plain (vars : Str → Str) (x : Str) (hx : ∀ c ∈ x, c ≠ '$') :
    cmExpand vars none x = some x := by
  induction x with
  | nil => simp [cmExpand]
  | cons c cs ih =>
    rw [cmExpand_cons _ _ _ (hx c (by simp)), ih fun d hd => hx d (by simp [hd])]
    rfl

theorem cmExpand_within (vars : Str → Str) (x : Str) (hx : ∀ c ∈ x, c ≠ '$' ∧ c ≠ '}') :
    ∀ n, cmExpand vars (some n) (x ++ ['}']) = some (vars (n ++ x)) := by
  induction x with
  | nil => intro n; simp [cmExpand]
  | cons c cs ih =>
    intro n
    obtain ⟨h1, h2⟩ := hx c (by simp)
    rw [List.cons_append, cmExpand, if_neg h2, if_neg h1, ih fun d hd => hx d (by simp [hd])]
    simp

theorem cmExpand_reference (vars : Str → Str) (x : Str) (hx : ∀ c ∈ x, c ≠ '$' ∧ c ≠ '}') :
    cmExpand vars none (chars! "${" ++ x ++ ['}']) = some (vars x) := by
  have h := cmExpand_within vars x hx []
  rw [List.nil_append] at h
  rw [← h]
  rfl

theorem cmElements_plain (x : Str) (hx : ∀ c ∈ x, c ≠ ';') :
    ∀ w, cmElements w x = if w ++ x = [] then [] else [w ++ x] := by
  induction x with
  | nil => intro w; simp [cmElements]
  | cons c cs ih =>
    intro w
    rw [cmElements, if_neg (hx c (by simp)), ih fun d hd => hx d (by simp [hd])]
    simp

theorem cmElements_name (x : Str) (hx : PlainName x) : cmElements [] x = [x] := by
  rw [cmElements_plain x fun c hc => cmPlain_ne (hx.2 c hc) (by decide +kernel), List.nil_append,
    if_neg hx.1]

theorem cmArg_plain (vars : Str → Str) (x : Str) (hx : PlainName x) :
    cmArg vars ⟨x, false⟩ = some [x] := by
  simp [cmArg, cmExpand_plain vars x fun c hc => cmPlain_ne (hx.2 c hc) (by decide +kernel),
    cmElements_name x hx]

/-! ## What is to be built, whether or not it can be -/

/-- The names of the rules that a list wants to have built. -/
def planStep (s : (Str → Str) × List Str) (c : CmCommand) : Option ((Str → Str) × List Str) :=
  (cmArgsOf s.1 c.args).bind fun args =>
    if c.name = chars! "set" then (cmSet s.1 args).map fun vars => (vars, s.2)
    else if c.name = chars! "build_dynamic_rules" then
      match args with
      | [names] => some (s.1, s.2 ++ cmElements [] names)
      | _ => none
    else none

theorem category_plan (d : Disk) (dir : Str) (b0 : List Plugin) (cs : List CmCommand) :
    ∀ (vars : Str → Str) (ns : List Str),
      ((ns.foldlM (buildDynamicRule d dir) b0).bind fun b =>
        (cs.foldlM (categoryCommand d dir) ⟨vars, b⟩).map (·.built)) =
      (cs.foldlM planStep (vars, ns)).bind fun p => p.2.foldlM (buildDynamicRule d dir) b0 := by
  induction cs with
  | nil =>
    intro vars ns
    cases h : ns.foldlM (buildDynamicRule d dir) b0 <;> simp [h]
  | cons c cs ih =>
    intro vars ns
    simp only [List.foldlM_cons]
    cases ha : cmArgsOf vars c.args with
    | none =>
      simp [categoryCommand, planStep, ha]
    | some args =>
      by_cases h1 : c.name = chars! "set"
      · cases hs : cmSet vars args with
        | none => simp [categoryCommand, planStep, ha, h1, hs]
        | some vars' =>
          have := ih vars' ns
          simpa [categoryCommand, planStep, ha, h1, hs] using this
      · by_cases h2 : c.name = chars! "build_dynamic_rules"
        · match args, ha with
          | [], ha => simp [categoryCommand, planStep, ha, h2]
          | _ :: _ :: _, ha => simp [categoryCommand, planStep, ha, h2]
          | [names], ha =>
            have := ih vars (ns ++ cmElements [] names)
            rw [List.foldlM_append] at this
            have hne : ¬ chars! "build_dynamic_rules" = chars! "set" := by decide +kernel
            simp only [categoryCommand, planStep, ha, h2, if_neg hne, Option.bind_some, if_true,
              Option.bind_eq_bind, buildDynamicRules] at this ⊢
            rw [← this]
            cases h3 : ns.foldlM (buildDynamicRule d dir) b0 with
            | none => rfl
            | some b => 
              cases h4 : (cmElements [] names).foldlM (buildDynamicRule d dir) b <;> simp [h4]
        · simp [categoryCommand, planStep, ha, h1, h2]

/-- The names that a text wants to have built. -/
def planText (text : Str) : Option (List Str) :=
  (cmCommands text).bind fun cs => (cs.foldlM planStep (fun _ => [], [])).map (·.2)

theorem addCategory_plan (d : Disk) (dir : Str) (b : List Plugin) (text : Str) :
    addCategory d dir (fun _ => []) b text =
      (planText text).bind fun ns => ns.foldlM (buildDynamicRule d dir) b := by
  unfold addCategory planText
  cases cmCommands text with
  | none => rfl
  | some cs =>
    have := category_plan d dir b cs (fun _ => []) []
    simp only [Option.bind_some]
    rw [Option.bind_map]
    simpa using this

theorem planStep_rule (vars : Str → Str) (ns : List Str) (x : Str) (hx : PlainName x)
    (hs : x ∉ setWords) :
    ∃ vars', (ruleCmds x).foldlM planStep (vars, ns) = some (vars', ns ++ [x]) := by
  have p1 : PlainName (chars! "Build" ++ x ++ chars! "Rule") := by
    refine ⟨by simp, ?_⟩
    intro c hc
    simp only [List.mem_append] at hc
    rcases hc with (hc | hc) | hc
    · exact (by decide +kernel : ∀ c ∈ chars! "Build", CmPlain c) c hc
    · exact hx.2 c hc
    · exact (by decide +kernel : ∀ c ∈ chars! "Rule", CmPlain c) c hc
  have hs' : x ≠ chars! "CACHE" ∧ x ≠ chars! "PARENT_SCOPE" := by
    simpa [setWords] using hs
  have e : chars! "${Build" ++ x ++ chars! "Rule}" =
      chars! "${" ++ (chars! "Build" ++ x ++ chars! "Rule") ++ ['}'] := by simp
  have h2 : ∀ vars : Str → Str, cmArgsOf vars
      [⟨chars! "${Build" ++ x ++ chars! "Rule}", true⟩] =
        some [vars (chars! "Build" ++ x ++ chars! "Rule")] := by
    intro vars
    rw [e, cmArgsOf, cmArg, cmExpand_reference]
    · rfl
    · intro c hc
      exact ⟨cmPlain_ne (p1.2 c hc) (by decide +kernel), cmPlain_ne (p1.2 c hc) (by decide +kernel)⟩
  have h1 : cmArgsOf vars [⟨chars! "Build" ++ x ++ chars! "Rule", false⟩, ⟨x, false⟩] =
      some [chars! "Build" ++ x ++ chars! "Rule", x] := by
    rw [cmArgsOf, cmArg_plain _ _ p1, cmArgsOf, cmArg_plain _ _ hx]
    rfl
  have h3 : cmSet vars [chars! "Build" ++ x ++ chars! "Rule", x] =
      some fun y => if y = chars! "Build" ++ x ++ chars! "Rule" then x else vars y := by
    rw [cmSet, if_neg (by simp [hs'.1, hs'.2])]
    rfl
  refine ⟨fun y => if y = chars! "Build" ++ x ++ chars! "Rule" then x else vars y, ?_⟩
  rw [ruleCmds, List.foldlM_cons, planStep]
  simp only [h1, Option.bind_some, if_true, h3, Option.map_some, Option.bind_eq_bind]
  have hne : ¬ chars! "build_dynamic_rules" = chars! "set" := by decide +kernel
  rw [List.foldlM_cons, planStep]
  simp only [h2, Option.bind_some, if_true, if_neg hne, List.foldlM_nil, Option.bind_eq_bind,
    cmElements_name x hx]
  rfl

theorem planStep_rules (xs : List Str) (hx : ∀ x ∈ xs, PlainName x) (hs : ∀ x ∈ xs, x ∉ setWords) :
    ∀ (vars : Str → Str) (ns : List Str),
      ∃ vars', (xs.flatMap ruleCmds).foldlM planStep (vars, ns) = some (vars', ns ++ xs) := by
  induction xs with
  | nil => intro vars ns; exact ⟨vars, by simp⟩
  | cons x xs ih =>
    intro vars ns
    obtain ⟨v1, h1⟩ := planStep_rule vars ns x (hx x (by simp)) (hs x (by simp))
    obtain ⟨v2, h2⟩ := ih (fun y hy => hx y (by simp [hy])) (fun y hy => hs y (by simp [hy])) v1
      (ns ++ [x])
    refine ⟨v2, ?_⟩
    rw [List.flatMap_cons, List.foldlM_append, h1]
    simpa using h2

/-- What `scaffoldRule` appends adds the names to what is built. -/
theorem planText_append (text : Str) (ns xs : List Str) (h : planText text = some ns)
    (hx : ∀ x ∈ xs, PlainName x) (hs : ∀ x ∈ xs, x ∉ setWords) :
    planText (text ++ (xs.map ruleStep).flatten) = some (ns ++ xs) := by
  unfold planText at h ⊢
  cases hc : cmCommands text with
  | none => rw [hc] at h; cases h
  | some cs =>
    rw [hc, Option.bind_some] at h
    rw [(Adds.flatten ruleStep ruleCmds xs fun x hm => adds_rule x (hx x hm)).commands hc,
      Option.bind_some, List.foldlM_append]
    cases hp : cs.foldlM planStep (fun _ => [], []) with
    | none => rw [hp] at h; cases h
    | some p =>
      rw [hp] at h
      obtain ⟨v, h1⟩ := planStep_rules xs hx hs p.1 p.2
      have hn : p.2 = ns := by simpa using h
      rw [← hn]
      have h1' : (xs.flatMap ruleCmds).foldlM planStep p = some (v, p.2 ++ xs) := h1
      rw [Option.bind_eq_bind, Option.bind_some, h1']
      rfl

/-! ## The list of categories -/

/-- What the list of categories wants to have built: categories and names. -/
structure RootPlan where
  items : List (Str × Str)
  added : List Str
  skipped : List Str

/-- The list of a category. -/
def listAt (root category : Str) : Str := root ++ '/' :: category ++ chars! "/CMakeLists.txt"

/-- A category. -/
def planAdd (d : Disk) (root : Str) (s : RootPlan) (category : Str) : Option RootPlan :=
  if category = [] ∨ !category.all cmNameChar then none
  else
    match d.file (listAt root category) with
    | none => some { s with skipped := s.skipped ++ [category] }
    | some text =>
      if s.added.contains category then none
      else (planText text).map fun ns =>
        { s with items := s.items ++ ns.map (category, ·), added := s.added ++ [category] }

/-- A command. -/
def planRootStep (d : Disk) (root : Str) (s : Bool × RootPlan) (c : CmCommand) :
    Option (Bool × RootPlan) :=
  if s.1 then some (!decide (c.name = chars! "endmacro"), s.2)
  else if c.name = chars! "macro" then some (true, s.2)
  else if c.name = chars! "add_rule_category_directory" then
    match cmArgsOf (fun _ => []) c.args with
    | some [category] => (planAdd d root s.2 category).map (false, ·)
    | _ => none
  else none

/-- Building a rule of a category. -/
def buildItem (d : Disk) (root : Str) (b : List Plugin) (i : Str × Str) : Option (List Plugin) :=
  buildDynamicRule d (root ++ '/' :: i.1) b i.2

theorem buildItem_map (d : Disk) (root category : Str) (ns : List Str) : ∀ b,
    (ns.map (category, ·)).foldlM (buildItem d root) b =
      ns.foldlM (buildDynamicRule d (root ++ '/' :: category)) b := by
  induction ns with
  | nil => intro b; rfl
  | cons n ns ih =>
    intro b
    simp only [List.map_cons, List.foldlM_cons]
    congr 1
    funext b'
    exact ih b'

theorem planAdd_eq (d : Disk) (root : Str) (p : RootPlan) (category : Str) :
    ((p.items.foldlM (buildItem d root) []).bind fun b =>
      addRuleCategoryDirectory d root ⟨b, p.added, p.skipped⟩ category) =
    (planAdd d root p category).bind fun q =>
      (q.items.foldlM (buildItem d root) []).map fun b => ⟨b, q.added, q.skipped⟩ := by
  unfold addRuleCategoryDirectory planAdd
  by_cases h1 : category = [] ∨ (!category.all cmNameChar) = true
  · simp only [if_pos h1, Option.bind_none]
    cases p.items.foldlM (buildItem d root) [] <;> rfl
  · simp only [if_neg h1]
    have e : root ++ '/' :: category ++ chars! "/CMakeLists.txt" = listAt root category := rfl
    rw [e]
    cases hf : d.file (listAt root category) with
    | none =>
      simp only [Option.bind_some]
      cases p.items.foldlM (buildItem d root) [] <;> rfl
    | some text =>
      by_cases h2 : p.added.contains category = true
      · simp only [if_pos h2, Option.bind_none]
        cases p.items.foldlM (buildItem d root) [] <;> rfl
      · simp only [if_neg h2, addCategory_plan]
        cases planText text with
        | none =>
          simp only [Option.bind_none, Option.map_none]
          cases p.items.foldlM (buildItem d root) [] <;> rfl
        | some ns =>
          simp only [Option.bind_some, Option.map_some, List.foldlM_append, buildItem_map]
          cases p.items.foldlM (buildItem d root) [] <;> rfl

theorem root_plan (d : Disk) (root : Str) (cs : List CmCommand) : ∀ (flag : Bool) (p : RootPlan),
    ((p.items.foldlM (buildItem d root) []).bind fun b =>
      cs.foldlM (rootCommand d root) (flag, ⟨b, p.added, p.skipped⟩)) =
    (cs.foldlM (planRootStep d root) (flag, p)).bind fun q =>
      (q.2.items.foldlM (buildItem d root) []).map fun b => (q.1, ⟨b, q.2.added, q.2.skipped⟩) := by
  induction cs with
  | nil =>
    intro flag p
    cases h : p.items.foldlM (buildItem d root) [] <;> simp [h]
  | cons c cs ih =>
    intro flag p
    simp only [List.foldlM_cons, Option.bind_eq_bind]
    cases flag with
    | true => exact ih _ p
    | false =>
      by_cases h1 : c.name = chars! "macro"
      · simpa [rootCommand, planRootStep, h1] using ih true p
      · by_cases h2 : c.name = chars! "add_rule_category_directory"
        · have hne : ¬ chars! "add_rule_category_directory" = chars! "macro" := by decide +kernel
          simp only [rootCommand, planRootStep, h2, if_neg hne, if_true, if_false, Bool.false_eq_true]
          generalize cmArgsOf (fun _ => []) c.args = oa
          match oa with
          | none => cases p.items.foldlM (buildItem d root) [] <;> rfl
          | some [] => cases p.items.foldlM (buildItem d root) [] <;> rfl
          | some (_ :: _ :: _) => cases p.items.foldlM (buildItem d root) [] <;> rfl
          | some [category] =>
            have hp := planAdd_eq d root p category
            cases hq : planAdd d root p category with
            | none =>
              rw [hq] at hp
              cases hb : p.items.foldlM (buildItem d root) [] with
              | none =>
                simp only [Option.bind_none]
                rw [hq]
                rfl
              | some b =>
                rw [hb] at hp
                simp only [Option.bind_some, Option.bind_none] at hp ⊢
                rw [hp, hq]
                rfl
            | some q =>
              rw [hq] at hp
              simp only [Option.bind_some] at hp ⊢
              rw [hq, Option.map_some, Option.bind_some, ← ih false q]
              cases hb : p.items.foldlM (buildItem d root) [] with
              | none =>
                rw [hb] at hp
                simp only [Option.bind_none] at hp ⊢
                cases hq2 : q.items.foldlM (buildItem d root) [] with
                | none => rfl
                | some b => rw [hq2] at hp; cases hp
              | some b =>
                rw [hb] at hp
                simp only [Option.bind_some] at hp ⊢
                rw [hp]
                cases q.items.foldlM (buildItem d root) [] <;> rfl
        · simp [rootCommand, planRootStep, h1, h2]

/-- What the whole tree wants to have built. -/
def rootPlan (d : Disk) (root : Str) : Option RootPlan :=
  (d.file (root ++ chars! "/CMakeLists.txt")).bind fun text =>
    (cmCommands text).bind fun cs =>
      match cs.foldlM (planRootStep d root) (false, ⟨[], [], []⟩) with
      | some (false, p) => some p
      | _ => none

theorem configureRules_plan (d : Disk) (root : Str) : configureRules d root =
    (rootPlan d root).bind fun p =>
      (p.items.foldlM (buildItem d root) []).map fun b => ⟨b, p.added, p.skipped⟩ := by
  unfold configureRules rootPlan
  cases d.file (root ++ chars! "/CMakeLists.txt") with
  | none => rfl
  | some text =>
    cases h : cmCommands text with
    | none => simp [h]
    | some cs =>
      have hp := root_plan d root cs false ⟨[], [], []⟩
      simp only [List.foldlM_nil, Option.pure_def, Option.bind_some] at hp
      simp only [Option.bind_some, h]
      rw [hp]
      cases cs.foldlM (planRootStep d root) (false, ⟨[], [], []⟩) with
      | none => rfl
      | some q =>
        obtain ⟨flag, q⟩ := q
        cases flag <;> simp only [Option.bind_some] <;>
          cases q.items.foldlM (buildItem d root) [] <;> rfl

/-! ## Can it be built? -/

/-- The plug-in of an item. -/
def itemPlugin (root : Str) (i : Str × Str) : Plugin :=
  ⟨i.2 ++ chars! "Rule", root ++ '/' :: i.1 ++ '/' :: (i.2 ++ chars! "Rule") ++ chars! ".cpp"⟩

/-- Is there nothing against it by itself? -/
def ItemGood (d : Disk) (root : Str) (i : Str × Str) : Prop :=
  (∀ c ∈ i.2 ++ chars! "Rule", cmTargetChar c = true) ∧ i.2 ++ chars! "Rule" ∉ ruleProjectTargets ∧
    d.file (itemPlugin root i).source ≠ none

theorem buildItem_iff (d : Disk) (root : Str) (b b' : List Plugin) (i : Str × Str) :
    buildItem d root b i = some b' ↔
      ItemGood d root i ∧ (itemPlugin root i).target ∉ b.map (·.target) ∧
        b' = b ++ [itemPlugin root i] := by
  have e : (root ++ '/' :: i.1) ++ '/' :: (i.2 ++ chars! "Rule") ++ chars! ".cpp" =
      (itemPlugin root i).source := by simp [itemPlugin]
  unfold buildItem buildDynamicRule cmAddLibrary
  simp only [e, ItemGood]
  rw [show i.2 ++ chars! "Rule" = (itemPlugin root i).target from rfl]
  have : Plugin.mk (itemPlugin root i).target (itemPlugin root i).source = itemPlugin root i := rfl
  rw [this]
  generalize (itemPlugin root i) = p
  by_cases h1 : ∀ c ∈ p.target, cmTargetChar c = true
  · by_cases h2 : p.target ∈ ruleProjectTargets
    · simp [h2]
    · by_cases h3 : p.target ∈ b.map (·.target)
      · simp only [List.contains_eq_mem, h3, decide_true, Bool.not_true, Bool.and_false,
          Bool.false_and, Bool.false_eq_true, if_false]
        simp
      · cases hf : d.file p.source with
        | none => simp
        | some t =>
          have key : (p.target.all cmTargetChar && !ruleProjectTargets.contains p.target &&
              !(b.map (·.target)).contains p.target && (some t).isSome) = true := by
            rw [List.all_eq_true.2 h1, List.contains_eq_mem, List.contains_eq_mem, decide_eq_false h2,
              decide_eq_false h3]
            rfl
          rw [if_pos key]
          constructor
          · intro h
            cases h
            exact ⟨⟨h1, h2, nofun⟩, h3, rfl⟩
          · rintro ⟨-, -, rfl⟩
            rfl
  · have : p.target.all cmTargetChar = false := by
      rw [← Bool.not_eq_true, List.all_eq_true]; exact h1
    simp only [this, Bool.false_and, Bool.false_eq_true, if_false]
    simp only [h1, false_and, iff_false]
    nofun

theorem buildItems_iff (d : Disk) (root : Str) (items : List (Str × Str)) :
    ∀ b b' : List Plugin, items.foldlM (buildItem d root) b = some b' ↔
      (∀ i ∈ items, ItemGood d root i) ∧ (items.map fun i => (itemPlugin root i).target).Nodup ∧
        (∀ i ∈ items, (itemPlugin root i).target ∉ b.map (·.target)) ∧
        b' = b ++ items.map (itemPlugin root) := by
  induction items with
  | nil => intro b b'; simp [eq_comm]
  | cons i items ih =>
    intro b b'
    rw [List.foldlM_cons]
    have h : ((buildItem d root b i >>= fun b1 => items.foldlM (buildItem d root) b1) = some b') ↔
        ∃ b1, buildItem d root b i = some b1 ∧ items.foldlM (buildItem d root) b1 = some b' := by
      cases buildItem d root b i <;> simp
    rw [h]
    constructor
    · rintro ⟨b1, h1, h2⟩
      obtain ⟨g, n, rfl⟩ := (buildItem_iff d root b b1 i).1 h1
      obtain ⟨g2, n2, f2, rfl⟩ := (ih _ _).1 h2
      refine ⟨?_, ?_, ?_, by simp⟩
      · intro j hj
        rcases List.mem_cons.1 hj with rfl | hj
        · exact g
        · exact g2 j hj
      · simp only [List.map_cons, List.nodup_cons]
        refine ⟨?_, n2⟩
        intro hm
        obtain ⟨j, hj, e⟩ := List.mem_map.1 hm
        exact f2 j hj (by simp [e])
      · intro j hj
        rcases List.mem_cons.1 hj with rfl | hj
        · exact n
        · intro hm
          exact f2 j hj (by rw [List.map_append]; exact List.mem_append_left _ hm)
    · rintro ⟨g, n, f, rfl⟩
      simp only [List.map_cons, List.nodup_cons] at n
      refine ⟨b ++ [itemPlugin root i], (buildItem_iff _ _ _ _ _).2 ⟨g i (by simp), f i (by simp), rfl⟩,
        (ih _ _).2 ⟨fun j hj => g j (by simp [hj]), n.2, ?_, by simp⟩⟩
      intro j hj hm
      rw [List.map_append, List.mem_append] at hm
      rcases hm with hm | hm
      · exact f j (by simp [hj]) hm
      · apply n.1
        rw [List.map_singleton, List.mem_singleton] at hm
        rw [← hm]
        exact List.mem_map_of_mem (f := fun i => (itemPlugin root i).target) hj

theorem configureRules_iff (d : Disk) (root : Str) (s : CmState) : configureRules d root = some s ↔
    ∃ p, rootPlan d root = some p ∧ (∀ i ∈ p.items, ItemGood d root i) ∧
      (p.items.map fun i => (itemPlugin root i).target).Nodup ∧
      s = ⟨p.items.map (itemPlugin root), p.added, p.skipped⟩ := by
  rw [configureRules_plan]
  cases rootPlan d root with
  | none => simp
  | some p =>
    simp only [Option.bind_some, Option.map_eq_some_iff, buildItems_iff, Option.some.injEq]
    constructor
    · rintro ⟨b, ⟨h1, h2, -, rfl⟩, rfl⟩
      exact ⟨p, rfl, h1, h2, by simp⟩
    · rintro ⟨p, rfl, h1, h2, rfl⟩
      exact ⟨_, ⟨h1, h2, by simp, rfl⟩, by simp⟩

end Oclint
