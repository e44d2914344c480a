import Verif.Spec.CommandLine
import Mathlib.Data.List.Basic
import Mathlib.Data.List.Infix
import Mathlib.Tactic.SplitIfs
import Mathlib.Tactic.Ring

/-!
# The words of the command line
-/

namespace Oclint
open Spec

/-! ## The table -/

/-- The name of an option that takes a value. -/
def Opt.name : Opt → Str
  | .output => chars! "o"
  | .reportType => chars! "report-type"
  | .rulesPath => chars! "R"
  | .ruleConfiguration => chars! "rc"
  | .enabledRules => chars! "rule"
  | .disabledRules => chars! "disable-rule"
  | .listEnabledRules => chars! "list-enabled-rules"
  | .maxP1 => chars! "max-priority-1"
  | .maxP2 => chars! "max-priority-2"
  | .maxP3 => chars! "max-priority-3"
  | .globalAnalysis => chars! "enable-global-analysis"
  | .clangChecker => chars! "enable-clang-static-analyzer"
  | .duplications => chars! "allow-duplicated-violations"
  | .verbose => chars! "verbose"
  | .buildPath => chars! "p"
  | .argsAfter => chars! "extra-arg"
  | .argsBefore => chars! "extra-arg-before"
  | .help => []
  | .version => []

theorem mem_of_lookup {n : Str} {o : Opt} : ∀ {l : List (Str × Opt)}, l.lookup n = some o → (n, o) ∈ l
  | [], h => by cases h
  | (k, v) :: l, h => by
    rw [List.lookup_cons] at h
    by_cases hk : n == k
    · rw [hk] at h
      cases h
      rw [eq_of_beq hk]
      exact List.mem_cons_self
    · rw [Bool.not_eq_true] at hk
      rw [hk] at h
      exact List.mem_cons_of_mem _ (mem_of_lookup h)

theorem table_lookup : ∀ p ∈ optionNames, optionNames.lookup p.1 = some p.2 := by decide +kernel

theorem table_noEq : ∀ p ∈ optionNames, '=' ∉ p.1 := by decide +kernel

theorem table_ne : ∀ p ∈ optionNames, p.1 ≠ [] := by decide +kernel

theorem table_noR : ∀ p ∈ optionNames, p.1.head? = some 'R' → p = (chars! "R", .rulesPath) := by decide +kernel

theorem table_prefix : ∀ p ∈ optionNames, p.2.isPrefix = true → p = (chars! "R", .rulesPath) := by
  decide +kernel

theorem table_names : ∀ p ∈ optionNames, p.1 ∈ valueNames ++ switchNames ++ printNames := by decide +kernel

theorem table_value : ∀ p ∈ optionNames, p.2.kind = .text ∨ p.2.kind = .number →
    p.1 ∈ valueNames ∧ p.1 = p.2.name := by decide +kernel

theorem table_flag : ∀ p ∈ optionNames, p.2.kind = .flag → p.1 ∈ switchNames ∧ p.1 = p.2.name := by
  decide +kernel

theorem table_printer : ∀ p ∈ optionNames, p.2.kind = .printer → p.1 ∈ printNames := by decide +kernel

/-- The option of a name. -/
def optOf (n : Str) : Opt := (optionNames.lookup n).getD .help

theorem names_value : ∀ n ∈ valueNames, (n, optOf n) ∈ optionNames ∧
    ((optOf n).kind = .text ∨ (optOf n).kind = .number) ∧ (optOf n).name = n := by decide +kernel

theorem names_switch : ∀ n ∈ switchNames, (n, optOf n) ∈ optionNames ∧ (optOf n).kind = .flag ∧
    (optOf n).name = n := by decide +kernel

theorem names_print : ∀ n ∈ printNames, (n, optOf n) ∈ optionNames ∧ (optOf n).kind = .printer := by
  decide +kernel

theorem optOf_name (o : Opt) (h : o.kind ≠ .printer) : optOf o.name = o := by
  cases o <;> first | rfl | exact absurd rfl h

/-! ## Words -/

theorem dashed_without {w rest : Str} (h : Dashed w rest) : withoutDashes w = rest := by
  obtain ⟨hne, ⟨rfl, hh⟩ | rfl⟩ := h
  · cases rest with
    | nil => exact absurd rfl hne
    | cons c cs =>
      by_cases hc : c = '-'
      · subst hc; exact absurd rfl hh
      · unfold withoutDashes
        split
        · rename_i heq
          cases heq
          exact absurd rfl hc
        · rename_i heq
          cases heq
          rfl
        · rename_i heq
          cases heq
  · rfl

theorem dashed_option {w rest : Str} (h : Dashed w rest) : isPositional w = false ∧ w ≠ chars! "--" := by
  obtain ⟨hne, ⟨rfl, hh⟩ | rfl⟩ := h
  · cases rest with
    | nil => exact absurd rfl hne
    | cons c cs =>
      refine ⟨rfl, fun e => hh ?_⟩
      cases e
      rfl
  · cases rest with
    | nil => exact absurd rfl hne
    | cons c cs => exact ⟨rfl, nofun⟩

theorem option_dashed {w : Str} (h : isPositional w = false) (h' : w ≠ chars! "--") :
    Dashed w (withoutDashes w) := by
  match w with
  | [] => cases h
  | [_] => cases h
  | a :: b :: t =>
    have ha : a = '-' := by
      unfold isPositional at h
      simpa using h
    subst ha
    by_cases hb : b = '-'
    · subst hb
      refine ⟨?_, .inr rfl⟩
      cases t with
      | nil => exact absurd rfl h'
      | cons c cs => nofun
    · have e : withoutDashes ('-' :: b :: t) = b :: t := by
        unfold withoutDashes
        split
        · rename_i heq; cases heq; exact absurd rfl hb
        · rename_i heq; cases heq; rfl
        · rename_i heq; cases heq
      rw [e]
      exact ⟨nofun, .inl ⟨rfl, fun e => hb (Option.some.inj e)⟩⟩

theorem isPositional_iff (w : Str) : isPositional w = true ↔ IsSource w := by
  unfold IsSource
  match w with
  | [] => exact ⟨fun _ => .inl nofun, fun _ => rfl⟩
  | [c] =>
    refine ⟨fun _ => ?_, fun _ => rfl⟩
    by_cases hc : c = '-'
    · subst hc; exact .inr rfl
    · exact .inl fun e => hc (Option.some.inj e)
  | a :: b :: t =>
    unfold isPositional
    rw [decide_eq_true_eq]
    constructor
    · intro h; exact .inl fun e => h (Option.some.inj e)
    · rintro (h | h)
      · intro e; subst e; exact h rfl
      · cases h

/-! ## Looking up -/

theorem span_noEq {arg : Str} (h : '=' ∉ arg) : arg.span (fun c => decide (c ≠ '=')) = (arg, []) := by
  rw [List.span_eq_takeWhile_dropWhile]
  have : ∀ c ∈ arg, decide (c ≠ '=') = true := by
    intro c hc; rw [decide_eq_true_eq]; rintro rfl; exact h hc
  have h1 := List.takeWhile_append_of_pos (l₂ := []) this
  have h2 := List.dropWhile_append_of_pos (l₂ := []) this
  rw [List.append_nil] at h1 h2
  rw [h1, h2]
  simp

theorem span_eq {name v : Str} (h : '=' ∉ name) :
    (name ++ '=' :: v).span (fun c => decide (c ≠ '=')) = (name, '=' :: v) := by
  rw [List.span_eq_takeWhile_dropWhile]
  have : ∀ c ∈ name, decide (c ≠ '=') = true := by
    intro c hc; rw [decide_eq_true_eq]; rintro rfl; exact h hc
  rw [List.takeWhile_append_of_pos this, List.dropWhile_append_of_pos this]
  simp

theorem lookupOption_name {name : Str} {o : Opt} (h : (name, o) ∈ optionNames) :
    lookupOption name = some (o, none) := by
  unfold lookupOption
  rw [if_neg (table_ne _ h), span_noEq (table_noEq _ h)]
  have := table_lookup _ h
  simp only [this, Option.map_some]

theorem lookupOption_assigned {name v : Str} {o : Opt} (h : (name, o) ∈ optionNames) :
    lookupOption (name ++ '=' :: v) = some (o, some v) := by
  unfold lookupOption
  rw [if_neg (by simp), span_eq (table_noEq _ h)]
  have := table_lookup _ h
  simp only [this, Option.map_some]

theorem lookupOption_some {arg : Str} {o : Opt} {v : Option Str} (h : lookupOption arg = some (o, v)) :
    (v = none ∧ (arg, o) ∈ optionNames) ∨ ∃ name t, v = some t ∧ arg = name ++ '=' :: t ∧
      (name, o) ∈ optionNames := by
  unfold lookupOption at h
  split_ifs at h with hn
  by_cases hc : '=' ∈ arg
  · obtain ⟨a, b, rfl, ha⟩ := List.append_of_mem hc |> fun _ => List.eq_append_cons_of_mem hc
    rw [span_eq ha] at h
    obtain ⟨o', ho, he⟩ := Option.map_eq_some_iff.1 h
    cases he
    exact .inr ⟨a, b, rfl, rfl, mem_of_lookup ho⟩
  · rw [span_noEq hc] at h
    obtain ⟨o', ho, he⟩ := Option.map_eq_some_iff.1 h
    cases he
    exact .inl ⟨rfl, mem_of_lookup ho⟩

theorem prefixLoop_none {arg : Str} (h : arg.head? ≠ some 'R') : ∀ n, prefixLoop arg n = none := by
  intro n
  induction n with
  | zero => rfl
  | succ n ih =>
    rw [prefixLoop]
    cases ho : optionNames.lookup (arg.take (n + 1)) with
    | none => exact ih
    | some o =>
      dsimp only
      rw [if_neg]
      · exact ih
      · intro hp
        have hm := mem_of_lookup ho
        have := table_prefix _ hm hp
        cases arg with
        | nil => cases this
        | cons c cs =>
          have e : c :: List.take n cs = chars! "R" := congrArg Prod.fst this
          exact h (congrArg some (List.cons.inj e).1)

theorem prefixLoop_R {c : Char} {t : Str} (hc : c ≠ '=') : ∀ n,
    prefixLoop ('R' :: c :: t) (n + 1) = some (.rulesPath, some (c :: t)) := by
  intro n
  induction n with
  | zero =>
    rw [prefixLoop]
    have : optionNames.lookup (('R' :: c :: t).take (0 + 1)) = some .rulesPath := by
      rw [show ('R' :: c :: t).take (0 + 1) = chars! "R" from rfl]; decide +kernel
    rw [this]
    simp [Opt.isPrefix, hc]
  | succ n ih =>
    rw [prefixLoop]
    cases ho : optionNames.lookup (('R' :: c :: t).take (n + 1 + 1)) with
    | none => exact ih
    | some o =>
      have hm := mem_of_lookup ho
      have := congrArg Prod.fst (table_noR _ hm rfl)
      cases this

theorem lookupWord_name {w name : Str} {o : Opt} (hw : Dashed w name) (h : (name, o) ∈ optionNames) :
    lookupWord w = some (o, none) := by
  unfold lookupWord; rw [dashed_without hw, lookupOption_name h]

theorem lookupWord_assigned {w name v : Str} {o : Opt} (hw : Dashed w (name ++ '=' :: v))
    (h : (name, o) ∈ optionNames) : lookupWord w = some (o, some v) := by
  unfold lookupWord; rw [dashed_without hw, lookupOption_assigned h]

theorem lookupOption_R {c : Char} {t : Str} (hc : c ≠ '=') : lookupOption ('R' :: c :: t) = none := by
  cases h : lookupOption ('R' :: c :: t) with
  | none => rfl
  | some r =>
    obtain ⟨o, v⟩ := r
    rcases lookupOption_some h with ⟨-, hm⟩ | ⟨name, s, -, ha, hm⟩
    · have := congrArg Prod.fst (table_noR _ hm rfl)
      cases this
    · cases name with
      | nil => exact absurd rfl (table_ne _ hm)
      | cons a name =>
        have ha' := List.cons.inj ha
        have := congrArg Prod.fst (table_noR _ hm (by rw [← ha'.1]; rfl))
        have e : name = [] := (List.cons.inj this).2
        rw [e] at ha'
        exact absurd (List.cons.inj ha'.2).1 hc

theorem lookupWord_joined {w : Str} {c : Char} {t : Str} (hw : Dashed w ('R' :: c :: t)) (hc : c ≠ '=') :
    lookupWord w = some (.rulesPath, some (c :: t)) := by
  unfold lookupWord
  rw [dashed_without hw, lookupOption_R hc]
  unfold lookupPrefixed
  rw [if_neg (by simp)]
  exact prefixLoop_R hc _

theorem lookupWord_unheard {w rest : Str} (hw : Dashed w rest) (h : Unheard rest) :
    lookupWord w = none := by
  unfold lookupWord
  rw [dashed_without hw]
  have : lookupOption rest = none := by
    cases hl : lookupOption rest with
    | none => rfl
    | some r =>
      obtain ⟨o, v⟩ := r
      rcases lookupOption_some hl with ⟨-, hm⟩ | ⟨name, s, -, ha, hm⟩
      · exact absurd rfl (h.1 _ (table_names _ hm)).1
      · refine absurd ?_ (h.1 _ (table_names _ hm)).2
        rw [ha]
        exact ⟨s, by simp⟩
  rw [this]
  dsimp only
  unfold lookupPrefixed
  split_ifs
  · rfl
  · exact prefixLoop_none h.2 _

theorem lookupWord_cases {w rest : Str} (hw : Dashed w rest) :
    (∃ o, (rest, o) ∈ optionNames) ∨ (∃ name o v, rest = name ++ '=' :: v ∧ (name, o) ∈ optionNames) ∨
      (∃ c t, rest = 'R' :: c :: t ∧ c ≠ '=') ∨ Unheard rest := by
  by_cases h1 : ∃ o, (rest, o) ∈ optionNames
  · exact .inl h1
  by_cases h2 : ∃ name o v, rest = name ++ '=' :: v ∧ (name, o) ∈ optionNames
  · exact .inr (.inl h2)
  by_cases h3 : rest.head? = some 'R'
  · cases rest with
    | nil => cases h3
    | cons a t =>
      cases h3
      cases t with
      | nil => exact absurd ⟨.rulesPath, by decide +kernel⟩ h1
      | cons c t =>
        by_cases hc : c = '='
        · subst hc
          exact absurd ⟨chars! "R", .rulesPath, t, rfl, by decide +kernel⟩ h2
        · exact .inr (.inr (.inl ⟨c, t, rfl, hc⟩))
  · refine .inr (.inr (.inr ⟨fun name hn => ?_, h3⟩))
    have hm : (name, optOf name) ∈ optionNames := by
      rcases List.mem_append.1 hn with hn | hn
      · rcases List.mem_append.1 hn with hn | hn
        · exact (names_value _ hn).1
        · exact (names_switch _ hn).1
      · exact (names_print _ hn).1
    refine ⟨?_, ?_⟩
    · rintro rfl; exact h1 ⟨_, hm⟩
    · rintro ⟨v, rfl⟩; exact h2 ⟨name, _, v, by simp, hm⟩

/-! ## Reading -/

/-- What the words say. -/
def readFn : List Str → List LineItem
  | [] => []
  | w :: ws =>
    if isPositional w then .source w :: readFn ws
    else if w = chars! "--" then ws.map .source
    else
      match lookupWord w with
      | none => .wrong :: readFn ws
      | some (o, value) =>
        match o.kind, value with
        | .printer, some _ => .wrong :: readFn ws
        | .printer, none => [.print]
        | .flag, value => .option o.name (value.getD []) :: readFn ws
        | _, some v => .option o.name v :: readFn ws
        | _, none =>
          match ws with
          | [] => [.wrong]
          | v :: ws => .option o.name v :: readFn ws

theorem readFn_source {w : Str} (ws : List Str) (h : isPositional w = true) :
    readFn (w :: ws) = .source w :: readFn ws := by
  rw [readFn.eq_def]
  dsimp only
  rw [if_pos h]

theorem readFn_rest (ws : List Str) : readFn (chars! "--" :: ws) = ws.map .source := by
  cases ws <;> rfl

theorem says_readFn {ws : List Str} {said : List LineItem} (h : WordsSay ws said) : readFn ws = said := by
  induction h with
  | nil => rfl
  | source hw _ ih => rw [readFn_source _ ((isPositional_iff _).2 hw), ih]
  | rest ws => exact readFn_rest ws
  | @assigned w name text ws said hw hn hs ih =>
    obtain ⟨h1, h2⟩ := dashed_option hw
    rcases List.mem_append.1 hn with hn | hn
    · obtain ⟨hm, hk, he⟩ := names_value _ hn
      rw [readFn.eq_def]
      dsimp only
      rw [h1, if_neg (by simp), if_neg h2, lookupWord_assigned hw hm]
      dsimp only
      rcases hk with hk | hk <;> rw [hk, he, ih]
    · obtain ⟨hm, hk, he⟩ := names_switch _ hn
      rw [readFn.eq_def]
      dsimp only
      rw [h1, if_neg (by simp), if_neg h2, lookupWord_assigned hw hm]
      dsimp only
      rw [hk, he, ih]
      rfl
  | @switch w name ws said hw hn hs ih =>
    obtain ⟨h1, h2⟩ := dashed_option hw
    obtain ⟨hm, hk, he⟩ := names_switch _ hn
    rw [readFn.eq_def]
    dsimp only
    rw [h1, if_neg (by simp), if_neg h2, lookupWord_name hw hm]
    dsimp only
    rw [hk, he, ih]
    rfl
  | @separate w name text ws said hw hn hs ih =>
    obtain ⟨h1, h2⟩ := dashed_option hw
    obtain ⟨hm, hk, he⟩ := names_value _ hn
    rw [readFn.eq_def]
    dsimp only
    rw [h1, if_neg (by simp), if_neg h2, lookupWord_name hw hm]
    dsimp only
    rcases hk with hk | hk <;> rw [hk, he, ih]
  | @joined w c text ws said hw hc hs ih =>
    obtain ⟨h1, h2⟩ := dashed_option hw
    rw [readFn.eq_def]
    dsimp only
    rw [h1, if_neg (by simp), if_neg h2, lookupWord_joined hw hc]
    dsimp only [Opt.kind]
    rw [ih]
    rfl
  | @print w name ws hw hn =>
    obtain ⟨h1, h2⟩ := dashed_option hw
    obtain ⟨hm, hk⟩ := names_print _ hn
    rw [readFn.eq_def]
    dsimp only
    rw [h1, if_neg (by simp), if_neg h2, lookupWord_name hw hm]
    dsimp only
    rw [hk]
  | @noValue w name text ws said hw hn hs ih =>
    obtain ⟨h1, h2⟩ := dashed_option hw
    obtain ⟨hm, hk⟩ := names_print _ hn
    rw [readFn.eq_def]
    dsimp only
    rw [h1, if_neg (by simp), if_neg h2, lookupWord_assigned hw hm]
    dsimp only
    rw [hk, ih]
  | @missing w name hw hn =>
    obtain ⟨h1, h2⟩ := dashed_option hw
    obtain ⟨hm, hk, he⟩ := names_value _ hn
    rw [readFn.eq_def]
    dsimp only
    rw [h1, if_neg (by simp), if_neg h2, lookupWord_name hw hm]
    dsimp only
    rcases hk with hk | hk <;> rw [hk]
  | @unknown w rest ws said hw hu hs ih =>
    obtain ⟨h1, h2⟩ := dashed_option hw
    rw [readFn.eq_def]
    dsimp only
    rw [h1, if_neg (by simp), if_neg h2, lookupWord_unheard hw hu]
    dsimp only
    rw [ih]

theorem readFn_says : ∀ (n : Nat) (ws : List Str), ws.length ≤ n → ∃ said, WordsSay ws said := by
  intro n
  induction n with
  | zero =>
    intro ws h
    cases ws with
    | nil => exact ⟨_, .nil⟩
    | cons w ws => simp at h
  | succ n ih =>
    intro ws h
    cases ws with
    | nil => exact ⟨_, .nil⟩
    | cons w ws =>
      have hl : ws.length ≤ n := by simpa using h
      obtain ⟨said, hs⟩ := ih ws hl
      by_cases hp : isPositional w = true
      · exact ⟨_, .source ((isPositional_iff _).1 hp) hs⟩
      by_cases hd : w = chars! "--"
      · subst hd; exact ⟨_, .rest ws⟩
      have hw := option_dashed (by simpa using hp) hd
      rcases lookupWord_cases hw with ⟨o, hm⟩ | ⟨name, o, v, he, hm⟩ | ⟨c, t, he, hc⟩ | hu
      · cases hk : o.kind with
        | flag => exact ⟨_, .switch hw (table_flag _ hm hk).1 hs⟩
        | printer => exact ⟨_, .print ws hw (table_printer _ hm hk)⟩
        | text =>
          have hn := (table_value _ hm (.inl hk)).1
          cases ws with
          | nil => exact ⟨_, .missing hw hn⟩
          | cons v ws =>
            obtain ⟨said, hs⟩ := ih ws (by simp at hl; omega)
            exact ⟨_, .separate hw hn hs⟩
        | number =>
          have hn := (table_value _ hm (.inr hk)).1
          cases ws with
          | nil => exact ⟨_, .missing hw hn⟩
          | cons v ws =>
            obtain ⟨said, hs⟩ := ih ws (by simp at hl; omega)
            exact ⟨_, .separate hw hn hs⟩
      · rw [he] at hw
        cases hk : o.kind with
        | flag => exact ⟨_, .assigned hw (List.mem_append_right _ (table_flag _ hm hk).1) hs⟩
        | printer => exact ⟨_, .noValue hw (table_printer _ hm hk) hs⟩
        | text => exact ⟨_, .assigned hw (List.mem_append_left _ (table_value _ hm (.inl hk)).1) hs⟩
        | number => exact ⟨_, .assigned hw (List.mem_append_left _ (table_value _ hm (.inr hk)).1) hs⟩
      · rw [he] at hw
        exact ⟨_, .joined hw hc hs⟩
      · exact ⟨_, .unknown hw hu hs⟩

theorem says_iff (ws : List Str) (said : List LineItem) : WordsSay ws said ↔ said = readFn ws := by
  constructor
  · intro h; exact (says_readFn h).symm
  · rintro rfl
    obtain ⟨said, h⟩ := readFn_says _ ws (Nat.le_refl _)
    rwa [says_readFn h]

/-- One thing after the other. -/
def runItems : ClState → List LineItem → Option ClState
  | st, [] => some st
  | st, .source p :: rest => runItems { st with positionals := st.positionals ++ [p] } rest
  | st, .option n t :: rest => runItems (provideValue st (optOf n) t) rest
  | _, .print :: _ => none
  | st, .wrong :: rest => runItems st.fail rest

theorem runItems_sources (ws : List Str) : ∀ st : ClState,
    runItems st (ws.map .source) = some { st with positionals := st.positionals ++ ws } := by
  induction ws with
  | nil => intro st; simp [runItems]
  | cons w ws ih => intro st; rw [List.map_cons, runItems, ih]; simp

theorem parseWords_eq : ∀ (n : Nat) (ws : List Str), ws.length ≤ n → ∀ st,
    parseWords st ws = runItems st (readFn ws) := by
  intro n
  induction n with
  | zero =>
    intro ws h st
    cases ws with
    | nil => rfl
    | cons w ws => simp at h
  | succ n ih =>
    intro ws h st
    cases ws with
    | nil => rfl
    | cons w ws =>
      have hl : ws.length ≤ n := by simpa using h
      rw [parseWords.eq_def, readFn.eq_def]
      dsimp only
      by_cases hp : isPositional w = true
      · rw [if_pos hp, if_pos hp, ih ws hl]; rfl
      rw [if_neg hp, if_neg hp]
      by_cases hd : w = chars! "--"
      · rw [if_pos hd, if_pos hd, runItems_sources]
      rw [if_neg hd, if_neg hd]
      cases hw : lookupWord w with
      | none => dsimp only; rw [ih ws hl]; rfl
      | some r =>
        obtain ⟨o, v⟩ := r
        dsimp only
        have hopt := optOf_name o
        cases hk : o.kind with
        | printer =>
          cases v with
          | none => rfl
          | some v => dsimp only; rw [ih ws hl]; rfl
        | flag =>
          dsimp only
          rw [runItems, hopt (by rw [hk]; nofun), ih ws hl]
        | text =>
          cases v with
          | some v => dsimp only; rw [runItems, hopt (by rw [hk]; nofun), ih ws hl]
          | none =>
            cases ws with
            | nil => rfl
            | cons v ws =>
              dsimp only
              rw [runItems, hopt (by rw [hk]; nofun), ih ws (by simp at hl; omega)]
        | number =>
          cases v with
          | some v => dsimp only; rw [runItems, hopt (by rw [hk]; nofun), ih ws hl]
          | none =>
            cases ws with
            | nil => rfl
            | cons v ws =>
              dsimp only
              rw [runItems, hopt (by rw [hk]; nofun), ih ws (by simp at hl; omega)]

/-! ## What has been given -/

def stepItem (st : ClState) : LineItem → ClState
  | .source p => { st with positionals := st.positionals ++ [p] }
  | .option n t => provideValue st (optOf n) t
  | .print => st
  | .wrong => st.fail

theorem runItems_fold (said : List LineItem) : ∀ st, .print ∉ said →
    runItems st said = some (said.foldl stepItem st) := by
  induction said with
  | nil => intro st _; rfl
  | cons x said ih =>
    intro st h
    have h' : .print ∉ said := fun hm => h (List.mem_cons_of_mem _ hm)
    cases x with
    | print => exact absurd List.mem_cons_self h
    | source p => rw [runItems, ih _ h']; rfl
    | option n t => rw [runItems, ih _ h']; rfl
    | wrong => rw [runItems, ih _ h']; rfl

theorem runItems_print (said : List LineItem) : ∀ st, .print ∈ said → runItems st said = none := by
  induction said with
  | nil => intro st h; cases h
  | cons x said ih =>
    intro st h
    cases x with
    | print => rfl
    | source p => rw [runItems]; exact ih _ (by simpa using h)
    | option n t => rw [runItems]; exact ih _ (by simpa using h)
    | wrong => rw [runItems]; exact ih _ (by simpa using h)

/-- The texts for an option. -/
def givenOpt (o : Opt) (said : List LineItem) : List Str :=
  said.filterMap fun s => match s with
    | .option n text => if optOf n = o then some text else none
    | _ => none

/-- Nothing is wrong. -/
structure Fine (said : List LineItem) : Prop where
  noWrong : .wrong ∉ said
  parse : ∀ o, ∀ t ∈ givenOpt o said, parseValue o.kind t ≠ none
  once : ∀ o, o.isList = false → (givenOpt o said).length ≤ 1

structure Taken (said : List LineItem) (st : ClState) : Prop where
  positionals : st.positionals = sourcesSaid said
  fine : st.failed = false → Fine said ∧ ∀ o, (givenOpt o said).map (parseValue o.kind) =
    (st.values o).map some
  ok : Fine said → st.failed = false

theorem givenOpt_append (o : Opt) (a b : List LineItem) :
    givenOpt o (a ++ b) = givenOpt o a ++ givenOpt o b := List.filterMap_append

theorem Fine.init {a b : List LineItem} (h : Fine (a ++ b)) : Fine a where
  noWrong hm := h.noWrong (List.mem_append_left _ hm)
  parse o t ht := h.parse o t (by rw [givenOpt_append]; exact List.mem_append_left _ ht)
  once o ho := by
    have := h.once o ho
    rw [givenOpt_append, List.length_append] at this
    omega

theorem taken_fold (said : List LineItem) (hp : .print ∉ said) :
    Taken said (said.foldl stepItem ClState.start) := by
  induction said using List.reverseRecOn with
  | nil =>
    refine ⟨rfl, fun _ => ⟨⟨List.not_mem_nil, ?_, fun _ _ => Nat.zero_le _⟩, fun _ => rfl⟩, fun _ => rfl⟩
    intro o t ht
    cases ht
  | append_singleton said x ih =>
    have ih := ih fun hm => hp (List.mem_append_left _ hm)
    rw [List.foldl_concat]
    generalize said.foldl stepItem ClState.start = st at ih
    have hsrc : ∀ y, sourcesSaid (said ++ [y]) = sourcesSaid said ++ sourcesSaid [y] :=
      fun _ => List.filterMap_append
    have same : (∀ o, givenOpt o [x] = []) → .wrong ≠ x → Fine said → Fine (said ++ [x]) := by
      intro hg hx hf
      refine ⟨?_, ?_, ?_⟩
      · intro hm
        rcases List.mem_append.1 hm with hm | hm
        · exact hf.noWrong hm
        · exact hx (List.mem_singleton.1 hm)
      · intro o t ht
        rw [givenOpt_append, hg o, List.append_nil] at ht
        exact hf.parse o t ht
      · intro o ho
        rw [givenOpt_append, hg o, List.append_nil]
        exact hf.once o ho
    cases x with
    | print => exact absurd (List.mem_append_right _ List.mem_cons_self) hp
    | wrong =>
      refine ⟨?_, nofun, fun hf => absurd (List.mem_append_right _ List.mem_cons_self) hf.noWrong⟩
      rw [hsrc]
      exact ih.positionals.trans (List.append_nil _).symm
    | source p =>
      refine ⟨?_, ?_, fun hf => ih.ok hf.init⟩
      · rw [hsrc, ← ih.positionals]; rfl
      · intro hf
        obtain ⟨h1, h2⟩ := ih.fine hf
        refine ⟨same (fun _ => rfl) nofun h1, fun o => ?_⟩
        rw [givenOpt_append]
        have : givenOpt o [.source p] = [] := rfl
        rw [this, List.append_nil]
        exact h2 o
    | option n t =>
      have hg : ∀ o, givenOpt o [.option n t] = if optOf n = o then [t] else [] := by
        intro o
        unfold givenOpt
        by_cases h : optOf n = o <;> simp [h]
      generalize hn : optOf n = q at hg
      have hpos : ∀ st' : ClState, st'.positionals = st.positionals →
          st'.positionals = sourcesSaid (said ++ [.option n t]) := by
        intro st' h
        rw [hsrc, h, ih.positionals]
        exact (List.append_nil _).symm
      unfold stepItem provideValue
      dsimp only
      rw [hn]
      by_cases hone : q.isList = false ∧ st.values q ≠ []
      · rw [if_pos hone]
        refine ⟨hpos _ rfl, nofun, fun hf => ?_⟩
        have h1 := ih.ok hf.init
        have h2 := (ih.fine h1).2 q
        have h3 := hf.once q hone.1
        rw [givenOpt_append, hg, if_pos rfl, List.length_append] at h3
        have h4 := congrArg List.length h2
        rw [List.length_map, List.length_map] at h4
        have h5 : 0 < (st.values q).length := List.length_pos_iff.2 hone.2
        rw [List.length_singleton] at h3
        omega
      · rw [if_neg hone]
        cases hv : parseValue q.kind t with
        | none =>
          refine ⟨hpos _ rfl, nofun, fun hf => ?_⟩
          exact absurd hv (hf.parse q t (by rw [givenOpt_append, hg, if_pos rfl]; simp))
        | some v =>
          refine ⟨hpos _ rfl, ?_, fun hf => ih.ok hf.init⟩
          intro hf
          obtain ⟨h1, h2⟩ := ih.fine hf
          refine ⟨⟨?_, ?_, ?_⟩, ?_⟩
          · intro hm
            rcases List.mem_append.1 hm with hm | hm
            · exact h1.noWrong hm
            · cases List.mem_singleton.1 hm
          · intro o s hs
            rw [givenOpt_append, hg] at hs
            rcases List.mem_append.1 hs with hs | hs
            · exact h1.parse o s hs
            · split_ifs at hs with hq
              · rw [List.mem_singleton.1 hs, ← hq, hv]; nofun
              · cases hs
          · intro o ho
            rw [givenOpt_append, hg]
            by_cases hq : q = o
            · subst hq
              have h4 := congrArg List.length (h2 q)
              rw [List.length_map, List.length_map] at h4
              have h5 : st.values q = [] := by
                by_contra hc; exact hone ⟨ho, hc⟩
              rw [h5] at h4
              simp at h4
              simp [h4]
            · rw [if_neg hq, List.append_nil]
              exact h1.once o ho
          · intro o
            rw [givenOpt_append, hg, List.map_append, h2 o]
            by_cases hq : q = o
            · subst hq; simp [hv]
            · have hq' : ¬ o = q := fun e => hq e.symm
              simp [hq, hq']

/-! ## Texts of values -/

theorem parseClBool_iff (t : Str) (b : Bool) : parseClBool t = some b ↔ SwitchText t b := by
  unfold parseClBool SwitchText
  constructor
  · intro h
    split_ifs at h with h1 h2
    · cases h; exact .inl ⟨rfl, by simpa using h1⟩
    · cases h; exact .inr ⟨rfl, by simpa using h2⟩
  · rintro (⟨rfl, h⟩ | ⟨rfl, h⟩)
    · rw [if_pos (by simpa using h)]
    · have h' : t = chars! "false" ∨ t = chars! "FALSE" ∨ t = chars! "False" ∨ t = chars! "0" := by
        simpa using h
      rw [if_neg (by rcases h' with rfl | rfl | rfl | rfl <;> decide), if_pos h']

theorem digitValue_iff (c : Char) (d : Nat) : digitValue c = some d ↔ IsDigit c d := by
  unfold digitValue IsDigit
  have e0 : '0'.toNat = 48 := rfl
  have e1 : 'a'.toNat = 97 := rfl
  have e2 : 'A'.toNat = 65 := rfl
  rw [e0, e1, e2]
  have lt : ∀ {a b : Char}, a ≤ b → a.toNat ≤ b.toNat := fun h => h
  constructor
  · intro h
    split_ifs at h with h1 h2 h3
    · cases h; exact .inl ⟨h1.1, h1.2, rfl⟩
    · cases h; exact .inr (.inl ⟨h2.1, h2.2, rfl⟩)
    · cases h; exact .inr (.inr ⟨h3.1, h3.2, rfl⟩)
  · rintro (⟨h1, h2, rfl⟩ | ⟨h1, h2, rfl⟩ | ⟨h1, h2, rfl⟩)
    · rw [if_pos ⟨h1, h2⟩]
    · have n1 : ¬ ('0' ≤ c ∧ c ≤ '9') := by
        rintro ⟨_, h⟩
        have := Nat.le_trans (lt h1) (lt h)
        revert this; decide
      rw [if_neg n1, if_pos ⟨h1, h2⟩]
    · have n1 : ¬ ('0' ≤ c ∧ c ≤ '9') := by
        rintro ⟨_, h⟩
        have := Nat.le_trans (lt h1) (lt h)
        revert this; decide
      have n2 : ¬ ('a' ≤ c ∧ c ≤ 'z') := by
        rintro ⟨h, _⟩
        have := Nat.le_trans (lt h) (lt h2)
        revert this; decide
      rw [if_neg n1, if_neg n2, if_pos ⟨h1, h2⟩]

/-- Digits behind a number. -/
inductive Behind (radix : Nat) : Nat → Str → Nat → Prop where
  | nil (n : Nat) : Behind radix n [] n
  | cons {acc c d cs n} : IsDigit c d → d < radix → Behind radix (acc * radix + d) cs n →
      Behind radix acc (c :: cs) n

theorem Behind.le {radix acc n : Nat} {s : Str} (hr : 0 < radix) (h : Behind radix acc s n) : acc ≤ n := by
  induction h with
  | nil n => exact Nat.le_refl _
  | cons _ _ _ ih => exact Nat.le_trans (Nat.le_trans (Nat.le_mul_of_pos_right _ hr) (Nat.le_add_right _ _)) ih

theorem Behind.snoc {radix acc n : Nat} {s : Str} {c : Char} {d : Nat} (h : Behind radix acc s n)
    (hc : IsDigit c d) (hd : d < radix) : Behind radix acc (s ++ [c]) (n * radix + d) := by
  induction h with
  | nil n => exact .cons hc hd (.nil _)
  | cons h1 h2 _ ih => exact .cons h1 h2 ih

theorem behind_of_inRadix {radix n : Nat} {s : Str} (h : InRadix radix s n) : s ≠ [] ∧ Behind radix 0 s n := by
  induction h with
  | @one c d hc hd =>
    refine ⟨nofun, .cons hc hd ?_⟩
    rw [Nat.zero_mul, Nat.zero_add]
    exact .nil _
  | more _ hc hd ih => exact ⟨by simp, ih.2.snoc hc hd⟩

theorem inRadix_behind {radix acc n : Nat} {s t : Str} (h : Behind radix acc t n) :
    InRadix radix s acc → InRadix radix (s ++ t) n := by
  induction h generalizing s with
  | nil n => intro hs; rwa [List.append_nil]
  | @cons acc c d cs n hc hd _ ih =>
    intro hs
    have := ih (.more hs hc hd)
    rwa [List.append_assoc] at this

theorem inRadix_iff {radix n : Nat} {s : Str} : InRadix radix s n ↔ s ≠ [] ∧ Behind radix 0 s n := by
  refine ⟨behind_of_inRadix, ?_⟩
  rintro ⟨hs, h⟩
  cases h with
  | nil => exact absurd rfl hs
  | @cons _ c d cs _ hc hd h =>
    rw [Nat.zero_mul, Nat.zero_add] at h
    exact inRadix_behind (s := [c]) h (.one hc hd)

theorem wrap_check {radix acc d : Nat} (h2 : 2 ≤ radix) (h36 : radix ≤ 36) (hd : d < radix) :
    ¬ (acc * radix + d) % 2 ^ 64 / radix < acc ↔ acc * radix + d < 2 ^ 64 := by
  constructor
  · intro h
    by_contra hc
    apply h
    rw [Nat.div_lt_iff_lt_mul (by omega)]
    have := Nat.mod_lt (acc * radix + d) (show 0 < 2 ^ 64 by decide)
    have e := Nat.mod_add_div (acc * radix + d) (2 ^ 64)
    have : 1 ≤ (acc * radix + d) / 2 ^ 64 := by
      rw [Nat.le_div_iff_mul_le (by decide)]; omega
    omega
  · intro h
    rw [Nat.mod_eq_of_lt h, Nat.not_lt, Nat.le_div_iff_mul_le (by omega)]
    omega

theorem unsignedLoop_iff {radix : Nat} (h2 : 2 ≤ radix) (h36 : radix ≤ 36) (s : Str) : ∀ {acc n : Nat},
    acc < 2 ^ 64 → (unsignedLoop radix acc s = some n ↔ Behind radix acc s n ∧ n < 2 ^ 64) := by
  induction s with
  | nil =>
    intro acc n ha
    unfold unsignedLoop
    constructor
    · intro h; cases h; exact ⟨.nil _, ha⟩
    · rintro ⟨h, _⟩; cases h; rfl
  | cons c cs ih =>
    intro acc n ha
    unfold unsignedLoop
    constructor
    · intro h
      cases hc : digitValue c with
      | none => rw [hc] at h; cases h
      | some d =>
        rw [hc] at h
        dsimp only at h
        split_ifs at h with h3 h4
        have hd : d < radix := Nat.lt_of_not_le h3
        have hw := (wrap_check h2 h36 hd).1 h4
        rw [Nat.mod_eq_of_lt hw] at h
        have := (ih hw).1 h
        exact ⟨.cons ((digitValue_iff _ _).1 hc) hd this.1, this.2⟩
    · rintro ⟨h, hn⟩
      cases h with
      | @cons _ _ d _ _ hc hd h =>
        rw [(digitValue_iff _ _).2 hc]
        dsimp only
        have hw := Nat.lt_of_le_of_lt (h.le (by omega)) hn
        rw [if_neg (Nat.not_le.2 hd), if_neg ((wrap_check h2 h36 hd).2 hw), Nat.mod_eq_of_lt hw]
        exact (ih hw).2 ⟨h, hn⟩

theorem sense_radix (s : Str) : 2 ≤ (autoSenseRadix s).1 ∧ (autoSenseRadix s).1 ≤ 36 := by
  unfold autoSenseRadix
  split
  · exact ⟨by decide, by decide⟩
  · split
    · exact ⟨by show 2 ≤ 10; decide, by show 10 ≤ 36; decide⟩
    · split_ifs <;> (dsimp only; omega)

theorem parseUnsigned_iff (s : Str) (n : Nat) : parseUnsigned s = some n ↔
    InRadix (autoSenseRadix s).1 (autoSenseRadix s).2 n ∧ n < 2 ^ 64 := by
  unfold parseUnsigned
  dsimp only
  have hr := sense_radix s
  rw [inRadix_iff]
  by_cases he : (autoSenseRadix s).2 = []
  · rw [if_pos he]
    exact ⟨nofun, fun h => absurd he h.1.1⟩
  · rw [if_neg he, unsignedLoop_iff hr.1 hr.2 _ (by decide)]
    exact ⟨fun h => ⟨⟨he, h.1⟩, h.2⟩, fun h => ⟨h.1.2, h.2⟩⟩

theorem not_inRadix_nil {radix n : Nat} : ¬ InRadix radix [] n := fun h => (inRadix_iff.1 h).1 rfl

/-- The first character is a digit. -/
theorem inRadix_head {radix n : Nat} {c : Char} {s : Str} (h : InRadix radix (c :: s) n) :
    ∃ d, digitValue c = some d ∧ d < radix := by
  have := (inRadix_iff.1 h).2
  cases this with
  | cons hc hd _ => exact ⟨_, (digitValue_iff _ _).2 hc, hd⟩

theorem no_sign {radix n : Nat} {c : Char} {s : Str} (hr : radix ≤ 10)
    (hc : c ∈ [ 'x', 'X', 'b', 'B', 'o' ]) : ¬ InRadix radix (c :: s) n := by
  intro h
  obtain ⟨d, hd, hlt⟩ := inRadix_head h
  have : ∀ c ∈ [ 'x', 'X', 'b', 'B', 'o' ], ∀ d, digitValue c = some d → 10 < d := by
    intro c hc d hd
    simp only [List.mem_cons, List.not_mem_nil, or_false] at hc
    rcases hc with rfl | rfl | rfl | rfl | rfl <;>
      (have e := Option.some.inj hd; subst e; decide)
  have := this c hc d hd
  omega

theorem number_iff (s : Str) (n : Nat) :
    InRadix (autoSenseRadix s).1 (autoSenseRadix s).2 n ↔ NumberText s n := by
  have hsign : ∀ {p : Str × Nat}, p ∈ radixSigns → ∃ c, p.1 = ['0', c] ∧ c ∈ [ 'x', 'X', 'b', 'B', 'o' ] := by
    intro p hp
    unfold radixSigns at hp
    simp only [List.mem_cons, List.not_mem_nil, or_false] at hp
    rcases hp with rfl | rfl | rfl | rfl | rfl <;> exact ⟨_, rfl, by decide⟩
  match s with
  | [] =>
    constructor
    · intro h; exact absurd h not_inRadix_nil
    · rintro (⟨sg, r, ds, hm, he, _⟩ | ⟨ds, he, _⟩ | ⟨_, h⟩)
      · obtain ⟨c, hc, _⟩ := hsign hm
        dsimp only at hc
        rw [hc] at he
        cases he
      · cases he
      · exact absurd h not_inRadix_nil
  | [a] =>
    constructor
    · intro h
      refine .inr (.inr ⟨?_, h⟩)
      by_cases ha : a = '0'
      · subst ha; exact .inl rfl
      · exact .inr fun e => ha (Option.some.inj e)
    · rintro (⟨sg, r, ds, hm, he, _⟩ | ⟨ds, he, h⟩ | ⟨_, h⟩)
      · obtain ⟨c, hc, _⟩ := hsign hm
        dsimp only at hc
        rw [hc] at he
        cases he
      · cases he
        exact absurd h not_inRadix_nil
      · exact h
  | a :: b :: u =>
    by_cases ha : a = '0'
    · subst ha
      by_cases hx : b = 'x' ∨ b = 'X'
      · have e : autoSenseRadix ('0' :: b :: u) = (16, u) := by
          unfold autoSenseRadix; dsimp only; rw [if_pos ⟨rfl, hx⟩]
        rw [e]
        constructor
        · intro h
          rcases hx with rfl | rfl
          · exact .inl ⟨_, 16, u, .head _, rfl, h⟩
          · exact .inl ⟨_, 16, u, .tail _ (.head _), rfl, h⟩
        · rintro (⟨sg, r, ds, hm, he, h⟩ | ⟨ds, he, h⟩ | ⟨h | h, _⟩)
          · unfold radixSigns at hm
            simp only [List.mem_cons, Prod.mk.injEq, List.not_mem_nil, or_false] at hm
            rcases hm with ⟨rfl, rfl⟩ | ⟨rfl, rfl⟩ | ⟨rfl, rfl⟩ | ⟨rfl, rfl⟩ | ⟨rfl, rfl⟩ <;>
              (injection he with _ he; injection he with he1 he2; subst he2; subst he1)
            · exact h
            · exact h
            all_goals (exfalso; revert hx; decide)
          · cases he
            exact absurd h (no_sign (by decide) (by rcases hx with rfl | rfl <;> decide))
          · cases h
          · exact absurd rfl h
      by_cases hb : b = 'b' ∨ b = 'B'
      · have e : autoSenseRadix ('0' :: b :: u) = (2, u) := by
          unfold autoSenseRadix; dsimp only; rw [if_neg (fun h => hx h.2), if_pos ⟨rfl, hb⟩]
        rw [e]
        constructor
        · intro h
          rcases hb with rfl | rfl
          · exact .inl ⟨_, 2, u, .tail _ (.tail _ (.head _)), rfl, h⟩
          · exact .inl ⟨_, 2, u, .tail _ (.tail _ (.tail _ (.head _))), rfl, h⟩
        · rintro (⟨sg, r, ds, hm, he, h⟩ | ⟨ds, he, h⟩ | ⟨h | h, _⟩)
          · unfold radixSigns at hm
            simp only [List.mem_cons, Prod.mk.injEq, List.not_mem_nil, or_false] at hm
            rcases hm with ⟨rfl, rfl⟩ | ⟨rfl, rfl⟩ | ⟨rfl, rfl⟩ | ⟨rfl, rfl⟩ | ⟨rfl, rfl⟩ <;>
              (injection he with _ he; injection he with he1 he2; subst he2; subst he1)
            · exfalso; revert hb; decide
            · exfalso; revert hb; decide
            · exact h
            · exact h
            · exfalso; revert hb; decide
          · cases he
            exact absurd h (no_sign (by decide) (by rcases hb with rfl | rfl <;> decide))
          · cases h
          · exact absurd rfl h
      by_cases ho : b = 'o'
      · subst ho
        have e : autoSenseRadix ('0' :: 'o' :: u) = (8, u) := rfl
        rw [e]
        constructor
        · intro h
          exact .inl ⟨_, 8, u, .tail _ (.tail _ (.tail _ (.tail _ (.head _)))), rfl, h⟩
        · rintro (⟨sg, r, ds, hm, he, h⟩ | ⟨ds, he, h⟩ | ⟨h | h, _⟩)
          · unfold radixSigns at hm
            simp only [List.mem_cons, Prod.mk.injEq, List.not_mem_nil, or_false] at hm
            rcases hm with ⟨rfl, rfl⟩ | ⟨rfl, rfl⟩ | ⟨rfl, rfl⟩ | ⟨rfl, rfl⟩ | ⟨rfl, rfl⟩ <;>
              (injection he with _ he; injection he with he1 he2)
            · exact absurd he1 (by decide)
            · exact absurd he1 (by decide)
            · exact absurd he1 (by decide)
            · exact absurd he1 (by decide)
            · rw [he2]; exact h
          · cases he
            exact absurd h (no_sign (by decide) (by decide))
          · cases h
          · exact absurd rfl h
      have hnm : ∀ {sg : Str} {r : Nat} {ds : Str}, (sg, r) ∈ radixSigns → '0' :: b :: u ≠ sg ++ ds := by
        intro sg r ds hm he
        obtain ⟨c, hc, hcm⟩ := hsign hm
        dsimp only at hc
        rw [hc] at he
        injection he with _ he
        injection he with he _
        subst he
        simp only [List.mem_cons, List.not_mem_nil, or_false] at hcm
        rcases hcm with rfl | rfl | rfl | rfl | rfl
        · exact hx (.inl rfl)
        · exact hx (.inr rfl)
        · exact hb (.inl rfl)
        · exact hb (.inr rfl)
        · exact ho rfl
      by_cases hd : '0' ≤ b ∧ b ≤ '9'
      · have e : autoSenseRadix ('0' :: b :: u) = (8, b :: u) := by
          unfold autoSenseRadix; dsimp only
          rw [if_neg (fun h => hx h.2), if_neg (fun h => hb h.2), if_neg (fun h => ho h.2), if_pos ⟨rfl, hd⟩]
        rw [e]
        constructor
        · intro h; exact .inr (.inl ⟨_, rfl, h⟩)
        · rintro (⟨sg, r, ds, hm, he, h⟩ | ⟨ds, he, h⟩ | ⟨h | h, _⟩)
          · exact absurd he (hnm hm)
          · cases he; exact h
          · cases h
          · exact absurd rfl h
      · have e : autoSenseRadix ('0' :: b :: u) = (10, '0' :: b :: u) := by
          unfold autoSenseRadix; dsimp only
          rw [if_neg (fun h => hx h.2), if_neg (fun h => hb h.2), if_neg (fun h => ho h.2),
            if_neg (fun h => hd h.2)]
        rw [e]
        have nodig : ∀ {d : Nat}, digitValue b = some d → 10 ≤ d := by
          intro d h
          unfold digitValue at h
          rw [if_neg hd] at h
          split_ifs at h <;> (cases h; omega)
        constructor
        · intro h
          exfalso
          have h2 := (inRadix_iff.1 h).2
          cases h2 with
          | cons _ _ h2 =>
            cases h2 with
            | cons hc hd _ =>
              have := nodig ((digitValue_iff _ _).2 hc)
              omega
        · rintro (⟨sg, r, ds, hm, he, h⟩ | ⟨ds, he, h⟩ | ⟨h | h, _⟩)
          · exact absurd he (hnm hm)
          · cases he
            obtain ⟨d, h1, h2⟩ := inRadix_head h
            have := nodig h1
            omega
          · cases h
          · exact absurd rfl h
    · have e : autoSenseRadix (a :: b :: u) = (10, a :: b :: u) := by
        unfold autoSenseRadix; dsimp only
        rw [if_neg (fun h => ha h.1), if_neg (fun h => ha h.1), if_neg (fun h => ha h.1),
          if_neg (fun h => ha h.1)]
      rw [e]
      constructor
      · intro h; exact .inr (.inr ⟨.inr fun e => ha (Option.some.inj e), h⟩)
      · rintro (⟨sg, r, ds, hm, he, h⟩ | ⟨ds, he, h⟩ | ⟨_, h⟩)
        · obtain ⟨c, hc, _⟩ := hsign hm
          dsimp only at hc
          rw [hc] at he
          injection he with he _
          exact absurd he ha
        · injection he with he _
          exact absurd he ha
        · exact h

theorem number_noMinus {t : Str} {n : Nat} : ¬ NumberText ('-' :: t) n := by
  intro h
  have h := (number_iff _ _).2 h
  have e : autoSenseRadix ('-' :: t) = (10, '-' :: t) := by
    unfold autoSenseRadix
    cases t with
    | nil => rfl
    | cons b u =>
      dsimp only
      rw [if_neg (fun h => absurd h.1 (by decide)), if_neg (fun h => absurd h.1 (by decide)),
        if_neg (fun h => absurd h.1 (by decide)), if_neg (fun h => absurd h.1 (by decide))]
  rw [e] at h
  obtain ⟨d, hd, _⟩ := inRadix_head h
  exact absurd hd (by
    have : digitValue '-' = none := by decide
    rw [this]; nofun)

theorem parseClInt_iff (t : Str) (z : Int) : parseClInt t = some z ↔ IntText t z := by
  have hmin : INT_MIN = -2147483648 := rfl
  unfold parseClInt IntText IsInt32
  by_cases hm : ∃ u, t = '-' :: u
  · obtain ⟨u, rfl⟩ := hm
    have e : parseSigned ('-' :: u) = match parseUnsigned u with
      | some n => if n > 2 ^ 63 then none else some (-(n : Int))
      | none => none := rfl
    rw [e]
    constructor
    · intro h
      cases hu : parseUnsigned u with
      | none => rw [hu] at h; cases h
      | some n =>
        rw [hu] at h
        dsimp only at h
        split_ifs at h with h1
        dsimp only at h
        split_ifs at h with h2
        cases h
        refine ⟨by omega, n, .inr ⟨u, rfl, (number_iff _ _).1 ((parseUnsigned_iff _ _).1 hu).1, rfl⟩⟩
    · rintro ⟨hz, n, ⟨h, _⟩ | ⟨u', he, h, rfl⟩⟩
      · exact absurd h number_noMinus
      · injection he with _ he
        subst he
        have : n ≤ 2147483648 := by omega
        rw [(parseUnsigned_iff _ _).2 ⟨(number_iff _ _).2 h, by omega⟩]
        dsimp only
        rw [if_neg (by omega)]
        dsimp only
        rw [if_neg (by omega)]
  · have e : parseSigned t = match parseUnsigned t with
      | some n => if n ≥ 2 ^ 63 then none else some (n : Int)
      | none => none := by
      unfold parseSigned
      split
      · exact absurd ⟨_, rfl⟩ hm
      · rfl
    rw [e]
    constructor
    · intro h
      cases hu : parseUnsigned t with
      | none => rw [hu] at h; cases h
      | some n =>
        rw [hu] at h
        dsimp only at h
        split_ifs at h with h1
        dsimp only at h
        split_ifs at h with h2
        cases h
        exact ⟨by omega, n, .inl ⟨(number_iff _ _).1 ((parseUnsigned_iff _ _).1 hu).1, rfl⟩⟩
    · rintro ⟨hz, n, ⟨h, rfl⟩ | ⟨u', he, h, rfl⟩⟩
      · rw [(parseUnsigned_iff _ _).2 ⟨(number_iff _ _).2 h, by omega⟩]
        dsimp only
        rw [if_neg (by omega)]
        dsimp only
        rw [if_neg (by omega)]
      · exact absurd ⟨_, he⟩ hm

/-! ## Meaning -/

theorem switch_functional (t : Str) (a b : Bool) (ha : SwitchText t a) (hb : SwitchText t b) : a = b :=
  Option.some.inj (((parseClBool_iff _ _).2 ha).symm.trans ((parseClBool_iff _ _).2 hb))

theorem int_functional (t : Str) (a b : Int) (ha : IntText t a) (hb : IntText t b) : a = b :=
  Option.some.inj (((parseClInt_iff _ _).2 ha).symm.trans ((parseClInt_iff _ _).2 hb))

theorem once_unique {α : Type} {texts : List Str} {P : Str → α → Prop} {v w : Option α}
    (hP : ∀ t a b, P t a → P t b → a = b) (hv : Once texts P v) (hw : Once texts P w) : v = w := by
  rcases hv with ⟨h1, rfl⟩ | ⟨t, a, h1, h2, rfl⟩
  · rcases hw with ⟨_, rfl⟩ | ⟨t', a', h1', _, rfl⟩
    · rfl
    · rw [h1] at h1'; cases h1'
  · rcases hw with ⟨h1', rfl⟩ | ⟨t', a', h1', h2', rfl⟩
    · rw [h1] at h1'; cases h1'
    · rw [h1] at h1'
      cases h1'
      rw [hP _ _ _ h2 h2']

theorem switched_unique {texts : List Str} {v w : Bool} (hv : Switched texts v) (hw : Switched texts w) :
    v = w := by
  obtain ⟨a, ha, rfl⟩ := hv
  obtain ⟨b, hb, rfl⟩ := hw
  have e := once_unique switch_functional ha hb
  subst e
  rfl

theorem means_unique {said : List LineItem} {a b : ParsedLine} (ha : Means said a) (hb : Means said b)
    (hf : a.fixed = b.fixed) : a = b := by
  have eqs : ∀ t v w : Str, t = v → t = w → v = w := fun _ _ _ h1 h2 => h1.symm.trans h2
  obtain ⟨⟨_, _, _, _, _, _, _, _, _, _, _, _, _, _⟩, _, _, _, _, _⟩ := a
  obtain ⟨⟨_, _, _, _, _, _, _, _, _, _, _, _, _, _⟩, _, _, _, _, _⟩ := b
  have h1 := ha.sources.trans hb.sources.symm
  have h2 := once_unique eqs ha.output hb.output
  have h3 := once_unique eqs ha.reportType hb.reportType
  have h4 := ha.rulesPath.trans hb.rulesPath.symm
  have h5 := ha.ruleConfiguration.trans hb.ruleConfiguration.symm
  have h6 := ha.enabledRules.trans hb.enabledRules.symm
  have h7 := ha.disabledRules.trans hb.disabledRules.symm
  have h8 := switched_unique ha.listEnabledRules hb.listEnabledRules
  have h9 := once_unique int_functional ha.maxP1 hb.maxP1
  have h10 := once_unique int_functional ha.maxP2 hb.maxP2
  have h11 := once_unique int_functional ha.maxP3 hb.maxP3
  have h12 := once_unique switch_functional ha.globalAnalysis hb.globalAnalysis
  have h13 := once_unique switch_functional ha.clangChecker hb.clangChecker
  have h14 := once_unique switch_functional ha.duplications hb.duplications
  have h15 := switched_unique ha.verbose hb.verbose
  have h16 := once_unique eqs ha.buildPath hb.buildPath
  have h17 := ha.argsAfter.trans hb.argsAfter.symm
  have h18 := ha.argsBefore.trans hb.argsBefore.symm
  dsimp only at *
  subst h1 h2 h3 h4 h5 h6 h7 h8 h9 h10 h11 h12 h13 h14 h15 h16 h17 h18 hf
  rfl

/-- The options said are known. -/
def KnownSaid (said : List LineItem) : Prop := ∀ n t, .option n t ∈ said → n ∈ valueNames ++ switchNames

theorem says_known {ws : List Str} {said : List LineItem} (h : WordsSay ws said) : KnownSaid said := by
  induction h with
  | nil => intro n t hm; cases hm
  | source _ _ ih => intro n t hm; rcases List.mem_cons.1 hm with h | h; cases h; exact ih n t h
  | rest ws =>
    intro n t hm
    obtain ⟨_, _, h⟩ := List.mem_map.1 hm
    cases h
  | assigned _ hn _ ih =>
    intro n t hm
    rcases List.mem_cons.1 hm with h | h
    · cases h; exact hn
    · exact ih n t h
  | switch _ hn _ ih =>
    intro n t hm
    rcases List.mem_cons.1 hm with h | h
    · cases h; exact List.mem_append_right _ hn
    · exact ih n t h
  | separate _ hn _ ih =>
    intro n t hm
    rcases List.mem_cons.1 hm with h | h
    · cases h; exact List.mem_append_left _ hn
    · exact ih n t h
  | joined _ _ _ ih =>
    intro n t hm
    rcases List.mem_cons.1 hm with h | h
    · cases h; decide
    · exact ih n t h
  | print ws _ _ => intro n t hm; cases List.mem_singleton.1 hm
  | noValue _ _ _ ih => intro n t hm; rcases List.mem_cons.1 hm with h | h; cases h; exact ih n t h
  | missing _ _ => intro n t hm; cases List.mem_singleton.1 hm
  | unknown _ _ _ ih => intro n t hm; rcases List.mem_cons.1 hm with h | h; cases h; exact ih n t h

theorem known_option {n : Str} (h : n ∈ valueNames ++ switchNames) :
    (optOf n).kind ≠ .printer ∧ (optOf n).name = n := by
  rcases List.mem_append.1 h with h | h
  · obtain ⟨_, h1 | h1, h2⟩ := names_value n h <;> exact ⟨by rw [h1]; nofun, h2⟩
  · obtain ⟨_, h1, h2⟩ := names_switch n h
    exact ⟨by rw [h1]; nofun, h2⟩

theorem given_eq {said : List LineItem} (hk : KnownSaid said) {o : Opt} (ho : o.kind ≠ .printer) :
    given o.name said = givenOpt o said := by
  unfold given givenOpt
  refine List.filterMap_congr fun x hx => ?_
  cases x with
  | option n t =>
    dsimp only
    have h2 := (known_option (hk n t hx)).2
    by_cases h : optOf n = o
    · rw [if_pos h, if_pos (by rw [← h, h2])]
    · rw [if_neg h, if_neg]
      intro hn
      exact h (by rw [hn, optOf_name o ho])
  | _ => rfl

theorem given_printer {said : List LineItem} (hk : KnownSaid said) {o : Opt} (ho : o.kind = .printer) :
    givenOpt o said = [] := by
  unfold givenOpt
  rw [List.filterMap_eq_nil_iff]
  intro x hx
  cases x with
  | option n t =>
    dsimp only
    rw [if_neg]
    intro h
    exact (known_option (hk n t hx)).1 (by rw [h, ho])
  | _ => rfl

/-! ### From the variables -/

theorem texts_taken {texts : List Str} {vs : List ClValue}
    (h : texts.map (parseValue .text) = vs.map some) : textValues vs = texts := by
  have : vs = texts.map .text := by
    have h' : (texts.map ClValue.text).map some = vs.map some := by
      rw [← h, List.map_map]; rfl
    exact ((List.map_injective_iff.2 (Option.some_injective _)) h').symm
  rw [this]
  unfold textValues
  rw [List.filterMap_map]
  exact List.filterMap_some

theorem once_text {texts : List Str} {vs : List ClValue} (hl : texts.length ≤ 1)
    (h : texts.map (parseValue .text) = vs.map some) : Once texts Eq (textValues vs).head? := by
  rw [texts_taken h]
  match texts, hl with
  | [], _ => exact .inl ⟨rfl, rfl⟩
  | [t], _ => exact .inr ⟨t, t, rfl, rfl, rfl⟩

theorem once_flag {texts : List Str} {vs : List ClValue} (hl : texts.length ≤ 1)
    (h : texts.map (parseValue .flag) = vs.map some) : Once texts SwitchText (flagValues vs).head? := by
  match texts, hl with
  | [], _ =>
    cases vs with
    | nil => exact .inl ⟨rfl, rfl⟩
    | cons v vs => cases h
  | [t], _ =>
    cases vs with
    | nil => cases h
    | cons v vs =>
      rw [List.map_cons, List.map_cons] at h
      injection h with h1 _
      change (parseClBool t).map ClValue.flag = some v at h1
      cases hb : parseClBool t with
      | none => rw [hb] at h1; cases h1
      | some b =>
        rw [hb] at h1
        cases h1
        exact .inr ⟨t, b, rfl, (parseClBool_iff _ _).1 hb, rfl⟩

theorem once_number {texts : List Str} {vs : List ClValue} (hl : texts.length ≤ 1)
    (h : texts.map (parseValue .number) = vs.map some) : Once texts IntText (numberValues vs).head? := by
  match texts, hl with
  | [], _ =>
    cases vs with
    | nil => exact .inl ⟨rfl, rfl⟩
    | cons v vs => cases h
  | [t], _ =>
    cases vs with
    | nil => cases h
    | cons v vs =>
      rw [List.map_cons, List.map_cons] at h
      injection h with h1 _
      change (parseClInt t).map ClValue.number = some v at h1
      cases hb : parseClInt t with
      | none => rw [hb] at h1; cases h1
      | some b =>
        rw [hb] at h1
        cases h1
        exact .inr ⟨t, b, rfl, (parseClInt_iff _ _).1 hb, rfl⟩

theorem means_result {said : List LineItem} {st : ClState} (hk : KnownSaid said) (ht : Taken said st)
    (hf : st.failed = false) (hs : st.positionals ≠ []) (fixed : Option (List Str)) :
    Means said (st.result fixed) := by
  obtain ⟨hfine, hv⟩ := ht.fine hf
  have hg : ∀ o : Opt, o.kind ≠ .printer → given o.name said = givenOpt o said := fun o => given_eq hk
  exact
    { nothingWrong := hfine.noWrong
      someSource := by rw [← ht.positionals]; exact hs
      sources := ht.positionals
      output := (hg .output nofun).symm ▸ once_text (hfine.once .output rfl) (hv .output)
      reportType := (hg .reportType nofun).symm ▸ once_text (hfine.once .reportType rfl) (hv .reportType)
      rulesPath := (hg .rulesPath nofun).symm ▸ texts_taken (hv .rulesPath)
      ruleConfiguration := (hg .ruleConfiguration nofun).symm ▸ texts_taken (hv .ruleConfiguration)
      enabledRules := (hg .enabledRules nofun).symm ▸ texts_taken (hv .enabledRules)
      disabledRules := (hg .disabledRules nofun).symm ▸ texts_taken (hv .disabledRules)
      listEnabledRules := ⟨_, (hg .listEnabledRules nofun).symm ▸
        once_flag (hfine.once .listEnabledRules rfl) (hv .listEnabledRules), rfl⟩
      maxP1 := (hg .maxP1 nofun).symm ▸ once_number (hfine.once .maxP1 rfl) (hv .maxP1)
      maxP2 := (hg .maxP2 nofun).symm ▸ once_number (hfine.once .maxP2 rfl) (hv .maxP2)
      maxP3 := (hg .maxP3 nofun).symm ▸ once_number (hfine.once .maxP3 rfl) (hv .maxP3)
      globalAnalysis := (hg .globalAnalysis nofun).symm ▸
        once_flag (hfine.once .globalAnalysis rfl) (hv .globalAnalysis)
      clangChecker := (hg .clangChecker nofun).symm ▸
        once_flag (hfine.once .clangChecker rfl) (hv .clangChecker)
      duplications := (hg .duplications nofun).symm ▸
        once_flag (hfine.once .duplications rfl) (hv .duplications)
      verbose := ⟨_, (hg .verbose nofun).symm ▸ once_flag (hfine.once .verbose rfl) (hv .verbose), rfl⟩
      buildPath := (hg .buildPath nofun).symm ▸ once_text (hfine.once .buildPath rfl) (hv .buildPath)
      argsAfter := (hg .argsAfter nofun).symm ▸ texts_taken (hv .argsAfter)
      argsBefore := (hg .argsBefore nofun).symm ▸ texts_taken (hv .argsBefore) }

theorem once_length {α : Type} {texts : List Str} {P : Str → α → Prop} {v : Option α} (h : Once texts P v) :
    texts.length ≤ 1 := by
  rcases h with ⟨rfl, _⟩ | ⟨t, _, rfl, _⟩
  · exact Nat.zero_le _
  · exact Nat.le_refl _

theorem once_parses {α : Type} {texts : List Str} {P : Str → α → Prop} {v : Option α} (h : Once texts P v) :
    ∀ t ∈ texts, ∃ a, P t a := by
  intro t ht
  rcases h with ⟨rfl, _⟩ | ⟨t', a, rfl, hp, _⟩
  · cases ht
  · rw [List.mem_singleton.1 ht]; exact ⟨a, hp⟩

theorem fine_of_means {said : List LineItem} {line : ParsedLine} (hk : KnownSaid said) (h : Means said line) :
    Fine said := by
  have hg : ∀ o : Opt, o.kind ≠ .printer → given o.name said = givenOpt o said := fun o => given_eq hk
  have hb : ∀ {texts : List Str} {v : Option Bool}, Once texts SwitchText v → ∀ t ∈ texts,
      parseValue .flag t ≠ none := by
    intro texts v ho t ht
    obtain ⟨b, hb⟩ := once_parses ho t ht
    change (parseClBool t).map ClValue.flag ≠ none
    rw [(parseClBool_iff _ _).2 hb]
    nofun
  have hz : ∀ {texts : List Str} {v : Option Int}, Once texts IntText v → ∀ t ∈ texts,
      parseValue .number t ≠ none := by
    intro texts v ho t ht
    obtain ⟨b, hb⟩ := once_parses ho t ht
    change (parseClInt t).map ClValue.number ≠ none
    rw [(parseClInt_iff _ _).2 hb]
    nofun
  obtain ⟨l1, hl1, _⟩ := h.listEnabledRules
  obtain ⟨l2, hl2, _⟩ := h.verbose
  refine ⟨h.nothingWrong, ?_, ?_⟩
  · intro o
    cases o with
    | output => intro t _; nofun
    | reportType => intro t _; nofun
    | rulesPath => intro t _; nofun
    | ruleConfiguration => intro t _; nofun
    | enabledRules => intro t _; nofun
    | disabledRules => intro t _; nofun
    | listEnabledRules => rw [← hg .listEnabledRules nofun]; exact hb hl1
    | maxP1 => rw [← hg .maxP1 nofun]; exact hz h.maxP1
    | maxP2 => rw [← hg .maxP2 nofun]; exact hz h.maxP2
    | maxP3 => rw [← hg .maxP3 nofun]; exact hz h.maxP3
    | globalAnalysis => rw [← hg .globalAnalysis nofun]; exact hb h.globalAnalysis
    | clangChecker => rw [← hg .clangChecker nofun]; exact hb h.clangChecker
    | duplications => rw [← hg .duplications nofun]; exact hb h.duplications
    | verbose => rw [← hg .verbose nofun]; exact hb hl2
    | buildPath => intro t _; nofun
    | argsAfter => intro t _; nofun
    | argsBefore => intro t _; nofun
    | help => rw [given_printer hk rfl]; intro t ht; cases ht
    | version => rw [given_printer hk rfl]; intro t ht; cases ht
  · intro o ho
    cases o with
    | output => rw [← hg .output nofun]; exact once_length h.output
    | reportType => rw [← hg .reportType nofun]; exact once_length h.reportType
    | listEnabledRules => rw [← hg .listEnabledRules nofun]; exact once_length hl1
    | maxP1 => rw [← hg .maxP1 nofun]; exact once_length h.maxP1
    | maxP2 => rw [← hg .maxP2 nofun]; exact once_length h.maxP2
    | maxP3 => rw [← hg .maxP3 nofun]; exact once_length h.maxP3
    | globalAnalysis => rw [← hg .globalAnalysis nofun]; exact once_length h.globalAnalysis
    | clangChecker => rw [← hg .clangChecker nofun]; exact once_length h.clangChecker
    | duplications => rw [← hg .duplications nofun]; exact once_length h.duplications
    | verbose => rw [← hg .verbose nofun]; exact once_length hl2
    | buildPath => rw [← hg .buildPath nofun]; exact once_length h.buildPath
    | help => rw [given_printer hk rfl]; exact Nat.zero_le _
    | version => rw [given_printer hk rfl]; exact Nat.zero_le _
    | _ => cases ho

/-! ## Lines -/

theorem parted_iff (args before : List Str) (fixed : Option (List Str)) : Parted args before fixed ↔
    before = args.takeWhile (fun w => decide (w ≠ chars! "--")) ∧
      fixed = fixedArgs args := by
  unfold fixedArgs
  have hd : ∀ {l : List Str}, chars! "--" ∉ l → ∀ w ∈ l, decide (w ≠ chars! "--") = true := by
    intro l h w hw
    rw [decide_eq_true_eq]
    intro e
    exact h (e ▸ hw)
  constructor
  · rintro ⟨h, ⟨rfl, rfl⟩ | ⟨rest, rfl, rfl⟩⟩
    · have h1 := List.takeWhile_append_of_pos (l₂ := []) (hd h)
      have h2 := List.dropWhile_append_of_pos (l₂ := []) (hd h)
      rw [List.append_nil] at h1 h2
      rw [h1, h2]
      exact ⟨(List.append_nil _).symm, rfl⟩
    · rw [List.takeWhile_append_of_pos (hd h), List.dropWhile_append_of_pos (hd h)]
      exact ⟨(List.append_nil _).symm, rfl⟩
  · rintro ⟨rfl, rfl⟩
    have hn : chars! "--" ∉ args.takeWhile (fun w => decide (w ≠ chars! "--")) := by
      intro h
      have := List.all_takeWhile (l := args) (p := fun w => decide (w ≠ chars! "--"))
      have := List.all_eq_true.1 this _ h
      exact absurd rfl (of_decide_eq_true this)
    refine ⟨hn, ?_⟩
    have e := List.takeWhile_append_dropWhile (p := fun w => decide (w ≠ chars! "--")) (l := args)
    cases hdw : args.dropWhile fun w => decide (w ≠ chars! "--") with
    | nil =>
      rw [hdw, List.append_nil] at e
      exact .inl ⟨e.symm, rfl⟩
    | cons x rest =>
      have hx : x = chars! "--" := by
        have := List.head?_dropWhile_not (fun w => decide (w ≠ chars! "--")) args
        rw [hdw] at this
        simpa using this
      rw [hdw, hx] at e
      exact .inr ⟨rest, e.symm, rfl⟩

/-- What becomes of a reading. -/
theorem words_outcome (ws : List Str) (fixed : Option (List Str)) :
    (.print ∈ readFn ws ∧ parseWords ClState.start ws = none) ∨
    (.print ∉ readFn ws ∧ ∃ st, parseWords ClState.start ws = some st ∧
      (((st.failed || st.positionals.isEmpty) = true ∧ ∀ line, ¬ Means (readFn ws) line) ∨
        ((st.failed || st.positionals.isEmpty) = false ∧ Means (readFn ws) (st.result fixed)))) := by
  rw [parseWords_eq _ ws (Nat.le_refl _)]
  have hk := says_known ((says_iff ws _).2 rfl)
  by_cases hp : .print ∈ readFn ws
  · exact .inl ⟨hp, runItems_print _ _ hp⟩
  · refine .inr ⟨hp, _, runItems_fold _ _ hp, ?_⟩
    have ht := taken_fold _ hp
    generalize (readFn ws).foldl stepItem ClState.start = st at ht
    cases hb : (st.failed || st.positionals.isEmpty) with
    | true =>
      refine .inl ⟨rfl, fun line h => ?_⟩
      rw [Bool.or_eq_true] at hb
      rcases hb with hb | hb
      · rw [ht.ok (fine_of_means hk h)] at hb
        cases hb
      · rw [List.isEmpty_iff] at hb
        exact h.someSource (ht.positionals ▸ hb)
    | false =>
      rw [Bool.or_eq_false_iff] at hb
      refine .inr ⟨rfl, means_result hk ht hb.1 ?_ fixed⟩
      intro hc
      rw [hc] at hb
      cases hb.2

end Oclint
