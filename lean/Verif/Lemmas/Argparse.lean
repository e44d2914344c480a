import Verif.Spec.Argparse
import Verif.Lemmas.Registry

/-!
# Lemmas about reading command lines
-/

namespace Oclint

open Spec

variable {σ : Type}

theorem find_of_mem {p : ArgParser σ} (h : Tidy p) {n : Str} {a : OptAction σ}
    (hm : (n, a) ∈ p.options) : p.find n = some a := by
  have hn := h.once
  unfold ArgParser.find
  revert hn hm
  generalize p.options = l
  intro hm hn
  induction l with
  | nil => cases hm
  | cons o l ih =>
    rw [List.map_cons, List.nodup_cons] at hn
    rcases List.mem_cons.1 hm with rfl | hm
    · simp
    · have : o.1 ≠ n := fun he => hn.1 (he ▸ List.mem_map_of_mem (f := (·.1)) hm)
      rw [List.find?_cons_of_neg (by simpa using this)]
      exact ih hm hn.2

theorem find_none {p : ArgParser σ} {n : Str} (h : ∀ o ∈ p.options, o.1 ≠ n) : p.find n = none := by
  unfold ArgParser.find
  rw [List.find?_eq_none.2]
  · rfl
  · intro o ho; simpa using h o ho

theorem mem_of_find {p : ArgParser σ} {n : Str} {a : OptAction σ} (h : p.find n = some a) :
    (n, a) ∈ p.options := by
  unfold ArgParser.find at h
  cases hf : p.options.find? fun o => decide (o.1 = n) with
  | none => rw [hf] at h; cases h
  | some o =>
    rw [hf] at h
    have h1 := List.mem_of_find?_eq_some hf
    have h2 := List.find?_some hf
    simp only [decide_eq_true_eq] at h2
    simp only [Option.map_some, Option.some.injEq] at h
    obtain ⟨n', a'⟩ := o
    subst h2 h
    exact h1

/-! ## Kinds of words -/

theorem partitionEq_joined {n : Str} (v : Str) (h : '=' ∉ n) : partitionEq (n ++ '=' :: v) = some (n, v) := by
  have h1 : ∀ c ∈ n, decide (c ≠ '=') = true := fun c hc => by
    rw [decide_eq_true_eq]; rintro rfl; exact h hc
  unfold partitionEq
  rw [if_pos (by simp)]
  rw [List.takeWhile_append_of_pos h1, List.dropWhile_append_of_pos h1]
  simp

theorem parse_name {p : ArgParser σ} (h : Tidy p) {n : Str} {a : OptAction σ} (hm : (n, a) ∈ p.options) :
    parseOptional p n = some (.option ⟨a, n, [], none⟩) := by
  have hd := h.dash _ hm
  cases n with
  | nil => cases hd
  | cons c r =>
    obtain rfl : c = '-' := by simpa using hd
    unfold parseOptional
    simp only [find_of_mem h hm]

theorem parse_joined {p : ArgParser σ} (h : Tidy p) {n : Str} {a : OptAction σ} (hm : (n, a) ∈ p.options)
    (v : Str) : parseOptional p (n ++ '=' :: v) = some (.option ⟨a, n, ['='], some v⟩) := by
  have hd := h.dash _ hm
  have he := h.noEq _ hm
  have hn : p.find (n ++ '=' :: v) = none := find_none fun o ho hc => h.noEq o ho (hc ▸ by simp)
  have hp := partitionEq_joined v he
  have hf := find_of_mem h hm
  cases n with
  | nil => cases hd
  | cons c r =>
    obtain rfl : c = '-' := by simpa using hd
    have hr : r ++ '=' :: v ≠ [] := by simp
    rw [List.cons_append] at hn hp ⊢
    unfold parseOptional
    simp only [hn, hp, hr, if_false, Option.bind_some, hf, Option.map_some]

theorem parse_number {p : ArgParser σ} (h : Tidy p) (n : Nat) :
    parseOptional p ('-' :: decimal n) = some (.arg ('-' :: decimal n)) := by
  have hd := decimal_all_digits n
  have hn := decimal_ne_nil n
  revert hd hn
  generalize decimal n = ds
  intro hd hn
  obtain ⟨c, cs, rfl⟩ := List.exists_cons_of_ne_nil hn
  have hc := hd c List.mem_cons_self
  have hno : ∀ o ∈ p.options, o.1[1]? ≠ some c := fun o ho he => by
    have := h.noDigit o ho c he
    rw [hc] at this; cases this
  have hf : p.find ('-' :: c :: cs) = none := find_none fun o ho he => hno o ho (by rw [he]; rfl)
  have he : '=' ∉ '-' :: c :: cs := by
    intro he
    rcases List.mem_cons.1 he with he | he
    · cases he
    · exact absurd (hd _ he) (by decide)
  have hp : partitionEq ('-' :: c :: cs) = none := by unfold partitionEq; rw [if_neg he]
  have hm : shortMatches p ('-' :: c :: cs) = [] := by
    unfold shortMatches
    rw [List.filterMap_eq_nil_iff]
    intro o ho
    rw [if_neg, if_neg]
    · intro hpre
      obtain ⟨t, ht⟩ := List.isPrefixOf_iff_prefix.1 hpre
      exact hno o ho (by rw [← ht]; rfl)
    · intro ht
      exact hno o ho (by rw [ht]; rfl)
  have hcd : c ≠ '-' := by rintro rfl; cases hc
  have hl : looksNegative ('-' :: c :: cs) = true := by
    have hg : (c :: cs).getLast? ≠ some '\n' := fun hg => by
      have := hd _ (List.mem_of_getLast? hg)
      cases this
    unfold looksNegative
    simp only [if_neg hg]
    simp only [Bool.or_eq_true]
    left
    simp only [Bool.and_eq_true, List.all_eq_true]
    exact ⟨by simp, hd⟩
  unfold parseOptional
  simp [hf, hp, hm, hl, hcd]

theorem parse_plain {p : ArgParser σ} (ht : Tidy p) {w : Str} (h : Plain w) :
    parseOptional p w = some (.arg w) := by
  rcases h with h | ⟨n, rfl⟩
  · cases w with
    | nil => rfl
    | cons c r =>
      have : c ≠ '-' := by simpa using h
      unfold parseOptional
      split
      · rfl
      · rename_i heq; cases heq; exact absurd rfl this
      · rfl
  · exact parse_number ht n

/-- The kinds of the words of something that is said. -/
def saidTokens (p : ArgParser σ) : Phrase → List (ArgToken σ)
  | .flag n => ((p.find n).map fun a => ArgToken.option ⟨a, n, [], none⟩).toList
  | .apart n v => ((p.find n).map fun a => ArgToken.option ⟨a, n, [], none⟩).toList ++ [.arg v]
  | .joined n v => ((p.find n).map fun a => ArgToken.option ⟨a, n, ['='], some v⟩).toList
  | .bare v => [.arg v]

theorem plain_ne {w : Str} (h : Plain w) : w ≠ ['-', '-'] := by
  rintro rfl
  rcases h with h | ⟨n, h⟩
  · exact h rfl
  · have := decimal_all_digits n '-' (by simp only [List.cons.injEq, true_and] at h; rw [← h]; simp)
    cases this

theorem classify_cons {p : ArgParser σ} {w : Str} {t : ArgToken σ} (ws : List Str) (hne : w ≠ ['-', '-'])
    (h : parseOptional p w = some t) : classify p (w :: ws) = (classify p ws).map (t :: ·) := by
  rw [classify, if_neg hne, h]; rfl

theorem classify_said {p : ArgParser σ} (h : Tidy p) {s : Phrase} {e : σ → Option σ} (hm : PhraseMeans p s e)
    (ws : List Str) : classify p (s.words ++ ws) = (classify p ws).map (saidTokens p s ++ ·) := by
  cases hm with
  | flag hm =>
    simp only [Phrase.words, List.singleton_append, saidTokens, find_of_mem h hm, Option.map_some,
      Option.toList_some]
    exact classify_cons ws (h.notDashes _ hm) (parse_name h hm)
  | apart hm hv =>
    simp only [Phrase.words, List.cons_append, List.nil_append, saidTokens, find_of_mem h hm, Option.map_some,
      Option.toList_some]
    rw [classify_cons _ (h.notDashes _ hm) (parse_name h hm), classify_cons _ (plain_ne hv) (parse_plain h hv)]
    simp [Function.comp_def]
  | joined hm =>
    simp only [Phrase.words, List.singleton_append, saidTokens, find_of_mem h hm, Option.map_some,
      Option.toList_some]
    refine classify_cons ws ?_ (parse_joined h hm _)
    intro he
    have := congrArg ('=' ∈ ·) he
    simp at this
  | bare _ hv =>
    simp only [Phrase.words, List.singleton_append, saidTokens]
    exact classify_cons ws (plain_ne hv) (parse_plain h hv)

/-- The kinds of the words at the end. -/
def lastTokens : Option Str → List (ArgToken σ)
  | none => []
  | some v => [.dashes, .arg v]

theorem classify_spoken {p : ArgParser σ} (h : Tidy p) {said : List Phrase} {es : List (σ → Option σ)}
    (hm : List.Forall₂ (PhraseMeans p) said es) (last : Option Str) :
    classify p (spoken said last) = some (said.flatMap (saidTokens p) ++ lastTokens last) := by
  unfold spoken
  induction hm with
  | nil =>
    cases last with
    | none => rfl
    | some v => simp [classify, lastTokens]
  | cons h1 _ ih =>
    rw [List.flatMap_cons, List.append_assoc, classify_said h h1, ih]
    simp

/-! ## Acting on words -/

theorem explicit_value (p : ArgParser σ) (b : Bool) (f : Str → σ → Option σ) (sep v : Str) :
    explicitActions p b (.value f) sep v = some ([(.value f, v)], .done) := by
  cases v <;> rfl

theorem takeOptions_extras (st : ParseState σ) (acts : List (OptAction σ × Str)) {st' : ParseState σ}
    (h : takeOptions st acts = .ok st') : st'.extras = st.extras ∧ st'.waiting = st.waiting := by
  induction acts generalizing st with
  | nil => cases h; exact ⟨rfl, rfl⟩
  | cons a acts ih =>
    obtain ⟨a, w⟩ := a
    cases a with
    | flag f => have := ih _ h; exact this
    | value f =>
      rw [takeOptions] at h
      split at h
      · have := ih _ h; exact this
      · cases h
    | help => cases h

theorem takeOptions_error (st : ParseState σ) (acts : List (OptAction σ × Str)) {r : ParseResult σ}
    (h : takeOptions st acts = .error r) (s : σ) : r ≠ .parsed s := by
  induction acts generalizing st with
  | nil => cases h
  | cons a acts ih =>
    obtain ⟨a, w⟩ := a
    cases a with
    | flag f => exact ih _ h
    | value f =>
      rw [takeOptions] at h
      split at h
      · exact ih _ h
      · cases h; nofun
    | help => cases h; nofun

theorem takePositional_error {st : ParseState σ} {q : Positional σ} {w : Str} {r : ParseResult σ}
    (h : takePositional st q w = .error r) (s : σ) : r ≠ .parsed s := by
  unfold takePositional at h
  split at h
  · cases h
  · cases h; nofun

theorem after_options {st : ParseState σ} {acts : List (OptAction σ × Str)} {k : ParseState σ → ParseResult σ}
    {s : σ} (h : afterAction (takeOptions st acts) k = .parsed s) :
    ∃ st', takeOptions st acts = .ok st' ∧ k st' = .parsed s := by
  cases he : takeOptions st acts with
  | ok st' => rw [he] at h; exact ⟨st', rfl, h⟩
  | error r => rw [he] at h; exact absurd h (takeOptions_error st acts he s)

theorem after_positional {st : ParseState σ} {q : Positional σ} {w : Str} {k : ParseState σ → ParseResult σ}
    {s : σ} (h : afterAction (takePositional st q w) k = .parsed s) :
    ∃ s', q.set w st.space = some s' ∧ k ⟨s', none, st.extras⟩ = .parsed s := by
  unfold takePositional at h
  cases he : q.set w st.space with
  | some s' => rw [he] at h; exact ⟨s', rfl, h⟩
  | none => rw [he] at h; cases h

/-- If a command line is accepted, something was done with every word. -/
theorem consume_extras (p : ArgParser σ) (ts : List (ArgToken σ)) (st : ParseState σ) (s : σ)
    (h : consume p ts st = .parsed s) : st.extras = false ∧ ArgToken.unknown ∉ ts := by
  fun_induction consume p ts st
  case case1 st =>
    unfold finishParse at h
    split at h
    · cases h
    · rename_i hn
      simp only [Bool.or_eq_true, not_or, Bool.not_eq_true] at hn
      exact ⟨hn.2, by simp⟩
  case case2 ih => exact absurd (ih h).1 (by simp)
  case case3 st _ _ ih =>
    obtain ⟨s', _, hk⟩ := after_positional h
    split at hk
    · have := ih _ hk; simp_all
    · have := ih ⟨s', none, st.extras⟩; simp_all
  case case4 ih => exact absurd (ih h).1 (by simp)
  case case5 ih =>
    obtain ⟨s', _, hk⟩ := after_positional h
    have := ih _ hk
    simp_all
  case case6 ih => exact absurd (ih h).1 (by simp)
  case case7 ih => have := ih h; simp_all
  case case8 ih => exact absurd (ih h).1 (by simp)
  case case9 => cases h
  case case10 ih =>
    obtain ⟨st', hs, hk⟩ := after_options h
    have := ih _ hk
    have := takeOptions_extras _ _ hs
    simp_all
  case case11 ih =>
    obtain ⟨st', hs, hk⟩ := after_options h
    have := ih _ hk
    have := takeOptions_extras _ _ hs
    simp_all
  case case12 ih =>
    obtain ⟨st', hs, hk⟩ := after_options h
    have := ih _ hk
    have := takeOptions_extras _ _ hs
    simp_all
  case case13 => cases h
  case case14 ih =>
    obtain ⟨st', hs, hk⟩ := after_options h
    have := ih _ hk
    have := takeOptions_extras _ _ hs
    simp_all
  case case15 ih =>
    obtain ⟨st', hs, hk⟩ := after_options h
    have := ih _ hk
    have := takeOptions_extras _ _ hs
    simp_all
  case case16 => cases h
  case case17 ih =>
    obtain ⟨st', hs, hk⟩ := after_options h
    have := ih _ hk
    have := takeOptions_extras _ _ hs
    simp_all

/-! ## What stays true -/

/-- Something that is true whatever a command line says; `A` is what is known of the arguments. -/
structure Keeps (p : ArgParser σ) (I : ParseState σ → Prop) (A : Str → Prop) : Prop where
  flag : ∀ {n f st}, (n, OptAction.flag f) ∈ p.options → I st → I { st with space := f st.space }
  value : ∀ {n f w s' st}, (n, OptAction.value f) ∈ p.options → I st → f w st.space = some s' →
    I { st with space := s' }
  extras : ∀ {st}, I st → I { st with extras := true }
  pos : ∀ {q w s' st}, st.waiting = some q → A w → I st → q.set w st.space = some s' →
    I ⟨s', none, st.extras⟩
  skip : ∀ {q st}, st.waiting = some q → q.required = false → I st → I { st with waiting := none }

/-- An action of the parser. -/
def OwnAction (p : ArgParser σ) (a : OptAction σ) : Prop := ∃ n, (n, a) ∈ p.options

theorem explicit_own {p : ArgParser σ} {b : Bool} {a : OptAction σ} {sep arg : Str}
    {r : List (OptAction σ × Str) × OptionEnd σ} (ha : OwnAction p a)
    (h : explicitActions p b a sep arg = some r) :
    (∀ x ∈ r.1, OwnAction p x.1) ∧ ∀ c, r.2 = .more c → OwnAction p c := by
  fun_induction explicitActions p b a sep arg generalizing r
  case case1 => cases h; simp_all
  case case2 => cases h
  case case3 => cases h
  case case4 => cases h; simp_all
  case case5 b hb =>
    cases h
    refine ⟨by simp_all, fun c hc => ?_⟩
    cases hc
    exact ⟨_, mem_of_find hb⟩
  case case6 b hb d ds ih =>
    rw [Option.map_eq_some_iff] at h
    obtain ⟨r', hr, rfl⟩ := h
    have hb' : OwnAction p b := ⟨_, mem_of_find hb⟩
    split at hr
    · split at hr
      · cases hr; simp_all
      · cases hr
    · have := ih hb' hr
      refine ⟨?_, this.2⟩
      simp only [List.mem_cons]
      rintro x (rfl | hx)
      · exact ha
      · exact this.1 x hx
  case case7 => cases h

theorem takeOptions_keeps {p : ArgParser σ} {I : ParseState σ → Prop} {A : Str → Prop} (hk : Keeps p I A)
    {acts : List (OptAction σ × Str)} (ho : ∀ x ∈ acts, OwnAction p x.1) {st st' : ParseState σ}
    (hi : I st) (h : takeOptions st acts = .ok st') : I st' := by
  induction acts generalizing st with
  | nil => cases h; exact hi
  | cons a acts ih =>
    obtain ⟨n, hn⟩ := ho a (by simp)
    obtain ⟨a, w⟩ := a
    have ho' : ∀ x ∈ acts, OwnAction p x.1 := fun x hx => ho x (by simp [hx])
    cases a with
    | flag f => exact ih ho' (hk.flag hn hi) h
    | value f =>
      rw [takeOptions] at h
      split at h
      · rename_i he; exact ih ho' (hk.value hn hi he) h
      · cases h
    | help => cases h

theorem consume_keeps {p : ArgParser σ} {I : ParseState σ → Prop} {A : Str → Prop} (hk : Keeps p I A)
    (ts : List (ArgToken σ)) (ho : ∀ o, ArgToken.option o ∈ ts → OwnAction p o.action)
    (ha : ∀ w, ArgToken.arg w ∈ ts → A w) (st : ParseState σ) (hi : I st) {s : σ}
    (h : consume p ts st = .parsed s) :
    ∃ st', I st' ∧ st'.space = s ∧ (st'.waiting.map (·.required)).getD false = false := by
  fun_induction consume p ts st
  case case1 st =>
    unfold finishParse at h
    split at h
    · cases h
    · rename_i hn
      simp only [Bool.or_eq_true, not_or, Bool.not_eq_true] at hn
      cases h
      exact ⟨st, hi, rfl, hn.1⟩
  case case2 ih => exact ih (by simp_all) (by simp_all) (hk.extras hi) h
  case case3 st _ hw ih =>
    obtain ⟨s', hs, h⟩ := after_positional h
    have hi' := hk.pos hw (ha _ (by simp)) hi hs
    split at h
    · exact ih _ (by simp_all) (by simp_all) hi' h
    · have := ih ⟨s', none, st.extras⟩; simp_all
  case case4 ih => exact ih (by simp_all) (by simp_all) (hk.extras hi) h
  case case5 hw ih =>
    obtain ⟨s', hs, h⟩ := after_positional h
    exact ih _ (by simp_all) (by simp_all) (hk.pos hw (ha _ (by simp)) hi hs) h
  case case6 ih => exact ih (by simp_all) (by simp_all) (hk.extras hi) h
  case case7 hw hr ih => exact ih (by simp_all) (by simp_all) (hk.skip hw (by simpa using hr) hi) h
  case case8 ih => exact ih (by simp_all) (by simp_all) (hk.extras hi) h
  case case9 => cases h
  case case10 he ih =>
    obtain ⟨st', hs, h⟩ := after_options h
    exact ih _ (by simp_all) (by simp_all)
      (takeOptions_keeps hk (explicit_own (ho _ (by simp)) he).1 hi hs) h
  case case11 he ih =>
    obtain ⟨st', hs, h⟩ := after_options h
    exact ih _ (by simp_all) (by simp_all)
      (takeOptions_keeps hk (explicit_own (ho _ (by simp)) he).1 (hk.extras hi) hs) h
  case case12 he ts w ih =>
    obtain ⟨st', hs, h⟩ := after_options h
    have hx := explicit_own (ho _ (by simp)) he
    have hm := hx.2 _ rfl
    exact ih _ (by simp_all) (by simp_all)
      (takeOptions_keeps hk (by simp only [List.mem_append, List.mem_singleton]; rintro x (hx' | rfl); exacts [hx.1 x hx', hm]) hi hs) h
  case case13 => cases h
  case case14 he ih =>
    obtain ⟨st', hs, h⟩ := after_options h
    have hx := explicit_own (ho _ (by simp)) he
    have hm := hx.2 _ rfl
    exact ih _ (by simp_all) (by simp_all)
      (takeOptions_keeps hk (by simp only [List.mem_append, List.mem_singleton]; rintro x (hx' | rfl); exacts [hx.1 x hx', hm]) hi hs) h
  case case15 he ih =>
    obtain ⟨st', hs, h⟩ := after_options h
    have hm := ho _ List.mem_cons_self
    exact ih _ (by simp_all) (by simp_all)
      (takeOptions_keeps hk (by simp only [List.mem_singleton]; rintro x rfl; exact he ▸ hm) hi hs) h
  case case16 => cases h
  case case17 ih =>
    obtain ⟨st', hs, h⟩ := after_options h
    have hm := ho _ List.mem_cons_self
    exact ih _ (by simp_all) (by simp_all)
      (takeOptions_keeps hk (by simp only [List.mem_singleton]; rintro x rfl; exact hm) hi hs) h

/-! ## Something done before everything else -/

/-- A change that every option and the positional argument leave alone. -/
structure LeavesAlone (p : ArgParser σ) (g : σ → σ) : Prop where
  flag : ∀ {n f}, (n, OptAction.flag f) ∈ p.options → ∀ s, f (g s) = g (f s)
  value : ∀ {n f}, (n, OptAction.value f) ∈ p.options → ∀ w s, f w (g s) = (f w s).map g
  pos : ∀ {q}, p.positional = some q → ∀ w s, q.set w (g s) = (q.set w s).map g

/-- A change of the namespace. -/
def ParseState.change (g : σ → σ) (st : ParseState σ) : ParseState σ := { st with space := g st.space }

theorem takeOptions_apart {p : ArgParser σ} {g : σ → σ} (hg : LeavesAlone p g) {acts : List (OptAction σ × Str)}
    (ho : ∀ x ∈ acts, OwnAction p x.1) (st : ParseState σ) (k : ParseState σ → ParseResult σ)
    (hk : ∀ st', st'.waiting = st.waiting → k (st'.change g) = onRequest g (k st')) :
    afterAction (takeOptions (st.change g) acts) k = onRequest g (afterAction (takeOptions st acts) k) := by
  induction acts generalizing st with
  | nil => exact hk st rfl
  | cons a acts ih =>
    obtain ⟨n, hn⟩ := ho a (by simp)
    obtain ⟨a, w⟩ := a
    have ho' : ∀ x ∈ acts, OwnAction p x.1 := fun x hx => ho x (by simp [hx])
    cases a with
    | flag f =>
      have := ih ho' { st with space := f st.space } hk
      simp only [takeOptions, ParseState.change, hg.flag hn] at this ⊢
      exact this
    | value f =>
      simp only [takeOptions, ParseState.change, hg.value hn]
      cases f w st.space with
      | none => rfl
      | some s' => exact ih ho' { st with space := s' } hk
    | help => rfl

theorem takePositional_apart {p : ArgParser σ} {g : σ → σ} (hg : LeavesAlone p g) {q : Positional σ}
    (hq : p.positional = some q) (w : Str) (st : ParseState σ) (k : ParseState σ → ParseResult σ)
    (hk : ∀ st', st'.waiting = none → k (st'.change g) = onRequest g (k st')) :
    afterAction (takePositional (st.change g) q w) k = onRequest g (afterAction (takePositional st q w) k) := by
  simp only [takePositional, ParseState.change, hg.pos hq]
  cases q.set w st.space with
  | none => rfl
  | some s' => exact hk ⟨s', none, st.extras⟩ rfl

theorem finish_apart (g : σ → σ) (st : ParseState σ) :
    finishParse (st.change g) = onRequest g (finishParse st) := by
  unfold finishParse ParseState.change
  simp only []
  split <;> rfl

theorem change_waiting (g : σ → σ) (st : ParseState σ) : (st.change g).waiting = st.waiting := rfl

theorem consume_apart {p : ArgParser σ} {g : σ → σ} (hg : LeavesAlone p g) (ts : List (ArgToken σ))
    (ho : ∀ o, ArgToken.option o ∈ ts → OwnAction p o.action) (st : ParseState σ)
    (hw : ∀ q, st.waiting = some q → p.positional = some q) :
    consume p ts (st.change g) = onRequest g (consume p ts st) := by
  fun_induction consume p ts st
  case case1 st => rw [consume]; exact finish_apart g st
  case case2 ih => rw [consume]; exact ih (by simp_all) (by simp_all)
  case case3 hq ih =>
    rw [consume.eq_def]
    simp only [change_waiting, hq]
    refine takePositional_apart hg (hw _ hq) _ _ _ fun st' h' => ?_
    have ih := ih st'
    split at ih <;> simp_all
  case case4 hq ih =>
    rw [consume.eq_def]
    simp only [change_waiting, hq]
    rw [hq] at ih
    exact ih (by simp_all) (by simp_all)
  case case5 hq ih =>
    rw [consume.eq_def]
    simp only [change_waiting, hq]
    exact takePositional_apart hg (hw _ hq) _ _ _ fun st' h' => ih st' (by simp_all) (by simp_all)
  case case6 hn hq hr ih =>
    rw [consume.eq_def]
    simp only [change_waiting, hq]
    rw [if_pos hr]
    rw [hq] at ih
    exact ih (by simp_all) (by simp_all)
  case case7 hn hq hr ih =>
    rw [consume.eq_def]
    simp only [change_waiting, hq]
    rw [if_neg hr]
    exact ih (by simp_all) (by simp_all)
  case case8 hq ih =>
    rw [consume.eq_def]
    simp only [change_waiting, hq]
    rw [hq] at ih
    exact ih (by simp_all) (by simp_all)
  case case9 he hx => rw [consume.eq_def]; simp only [he, hx]; rfl
  case case10 he acts hx ih =>
    rw [consume.eq_def]; simp only [he, hx]
    exact takeOptions_apart hg (explicit_own (ho _ List.mem_cons_self) hx).1 _ _ fun st' h' =>
      ih st' (by simp_all) (by simp_all)
  case case11 he acts hx ih =>
    rw [consume.eq_def]; simp only [he, hx]
    exact takeOptions_apart hg (explicit_own (ho _ List.mem_cons_self) hx).1
      { space := _, waiting := _, extras := true } _ fun st' h' =>
        ih st' (by simp_all) fun q hq => hw q (h'.symm.trans hq)
  case case12 he acts f hx w ts ih =>
    rw [consume.eq_def]; simp only [he, hx]
    have hy := explicit_own (ho _ List.mem_cons_self) hx
    have hm := hy.2 _ rfl
    exact takeOptions_apart hg (by simp only [List.mem_append, List.mem_singleton]; rintro x (hx' | rfl); exacts [hy.1 x hx', hm]) _ _ fun st' h' =>
      ih st' (by simp_all) (by simp_all)
  case case13 he acts f hx hn =>
    rw [consume.eq_def]; simp only [he, hx]
    rfl
  case case14 he acts a hn hx ih =>
    rw [consume.eq_def]; simp only [he, hx]
    have hy := explicit_own (ho _ List.mem_cons_self) hx
    have hm := hy.2 _ rfl
    exact takeOptions_apart hg (by simp only [List.mem_append, List.mem_singleton]; rintro x (hx' | rfl); exacts [hy.1 x hx', hm]) _ _ fun st' h' =>
      ih st' (by simp_all) (by simp_all)
  case case15 he f w ts ha ih =>
    rw [consume.eq_def]; simp only [he, ha]
    have hm := ho _ List.mem_cons_self
    exact takeOptions_apart hg (by simp only [List.mem_singleton]; rintro x rfl; exact ha ▸ hm) _ _ fun st' h' =>
      ih st' (by simp_all) (by simp_all)
  case case16 he f ha hn =>
    rw [consume.eq_def]; simp only [he, ha]
    rfl
  case case17 he ts hn ha ih =>
    rw [consume.eq_def]; simp only [he]
    have hm := ho _ List.mem_cons_self
    exact takeOptions_apart hg (by simp only [List.mem_singleton]; rintro x rfl; exact hm) _ _ fun st' h' =>
      ih st' (by simp_all) (by simp_all)

/-! ## Words and their kinds -/

theorem parseOptional_own {p : ArgParser σ} {w : Str} {o : FoundOption σ}
    (h : parseOptional p w = some (.option o)) : OwnAction p o.action := by
  unfold parseOptional at h
  split at h
  · cases h
  · split at h
    · rename_i hf; cases h; exact ⟨_, mem_of_find hf⟩
    · split at h
      · cases h
      · split at h
        · rename_i ho
          cases h
          simp only [Option.bind_eq_some_iff, Option.map_eq_some_iff] at ho
          obtain ⟨q, _, a, hf, rfl⟩ := ho
          exact ⟨_, mem_of_find hf⟩
        · split at h
          · rename_i o' hl
            cases h
            have hm : o ∈ [o] := by simp
            rw [← hl] at hm
            split at hm
            · unfold longMatches at hm
              split at hm <;>
              · simp only [List.mem_map, List.mem_filter] at hm
                obtain ⟨x, hx, rfl⟩ := hm
                exact ⟨x.1, hx.1⟩
            · unfold shortMatches at hm
              rw [List.mem_filterMap] at hm
              obtain ⟨x, hx, hm⟩ := hm
              split at hm
              · cases hm; exact ⟨x.1, hx⟩
              · split at hm
                · cases hm; exact ⟨x.1, hx⟩
                · cases hm
          · cases h
          · split at h
            · cases h
            · split at h <;> cases h
  · cases h

theorem parseOptional_arg {p : ArgParser σ} {w v : Str} (h : parseOptional p w = some (.arg v)) : v = w := by
  unfold parseOptional at h
  split at h
  · cases h; rfl
  · split at h
    · cases h
    · split at h
      · cases h; rfl
      · split at h
        · cases h
        · split at h
          · cases h
          · cases h
          · split at h
            · cases h; rfl
            · split at h
              · cases h; rfl
              · cases h
  · cases h; rfl

theorem classify_tokens {p : ArgParser σ} {ws : List Str} {ts : List (ArgToken σ)}
    (h : classify p ws = some ts) : (∀ o, ArgToken.option o ∈ ts → OwnAction p o.action)
      ∧ ∀ w, ArgToken.arg w ∈ ts → w ∈ ws := by
  induction ws generalizing ts with
  | nil => cases h; exact ⟨nofun, nofun⟩
  | cons w ws ih =>
    rw [classify] at h
    split at h
    · cases h
      refine ⟨fun o ho => ?_, fun v hv => ?_⟩
      · simp at ho
      · simp only [List.mem_cons, reduceCtorEq, List.mem_map, ArgToken.arg.injEq, exists_eq_right, false_or] at hv
        exact List.mem_cons_of_mem _ hv
    · simp only [Option.bind_eq_some_iff, Option.map_eq_some_iff] at h
      obtain ⟨t, ht, ts', hts, rfl⟩ := h
      have := ih hts
      refine ⟨fun o ho => ?_, fun v hv => ?_⟩
      · rcases List.mem_cons.1 ho with rfl | ho
        · exact parseOptional_own ht
        · exact this.1 o ho
      · rcases List.mem_cons.1 hv with rfl | hv
        · rw [parseOptional_arg ht]; exact List.mem_cons_self
        · exact List.mem_cons_of_mem _ (this.2 v hv)

theorem classify_unknown {p : ArgParser σ} {pre post : List Str} {w : Str} {ts : List (ArgToken σ)}
    (hp : ['-', '-'] ∉ pre) (hw : w ≠ ['-', '-']) (hu : parseOptional p w = some .unknown)
    (h : classify p (pre ++ w :: post) = some ts) : ArgToken.unknown ∈ ts := by
  induction pre generalizing ts with
  | nil =>
    rw [List.nil_append, classify, if_neg hw, hu] at h
    simp only [Option.bind_some, Option.map_eq_some_iff] at h
    obtain ⟨ts', _, rfl⟩ := h
    exact List.mem_cons_self
  | cons v pre ih =>
    rw [List.mem_cons, not_or] at hp
    rw [List.cons_append, classify, if_neg (fun he => hp.1 he.symm)] at h
    simp only [Option.bind_eq_some_iff, Option.map_eq_some_iff] at h
    obtain ⟨t, _, ts', hts, rfl⟩ := h
    exact List.mem_cons_of_mem _ (ih hp.2 hts)

/-! ## What is said -/

theorem means_token {p : ArgParser σ} (h : Tidy p) {s : Phrase} {e : σ → Option σ} (hm : PhraseMeans p s e) :
    ∃ t ts, saidTokens p s = t :: ts ∧ t ≠ .dashes := by
  cases hm with
  | flag hm => simp [saidTokens, find_of_mem h hm]
  | apart hm _ => simp [saidTokens, find_of_mem h hm]
  | joined hm => simp [saidTokens, find_of_mem h hm]
  | bare _ _ => simp [saidTokens]

/-- After the argument that has no name. -/
theorem consume_rest {p : ArgParser σ} (h : Tidy p) {said : List Phrase} {es : List (σ → Option σ)}
    (hm : List.Forall₂ (PhraseMeans p) said es) (last : Option Str) (s : σ) (x : Bool) :
    (match said.flatMap (saidTokens p) ++ lastTokens last with
      | .dashes :: ts => consume p ts ⟨s, none, x⟩
      | ts => consume p ts ⟨s, none, x⟩) =
    consume p (said.flatMap (saidTokens p) ++ lastTokens last) ⟨s, none, x⟩ := by
  cases hm with
  | nil =>
    cases last with
    | none => rfl
    | some v => simp [lastTokens, consume, finishParse]
  | cons h1 _ =>
    obtain ⟨t, ts, ht, hn⟩ := means_token h h1
    rw [List.flatMap_cons, ht, List.cons_append, List.cons_append]
    split
    · rename_i he; cases he; exact absurd rfl hn
    · rfl

/-- Words that say something, from a state. -/
theorem consume_said {p : ArgParser σ} (h : Tidy p) {said : List Phrase} {es : List (σ → Option σ)}
    (hm : List.Forall₂ (PhraseMeans p) said es) (last : Option Str) (st : ParseState σ)
    (hw : st.waiting = p.positional ∨ st.waiting = none) :
    consume p (said.flatMap (saidTokens p) ++ lastTokens last) st =
      if (!st.extras && countOk st.waiting (bareCount said last)) = true then
        ofRequest (obeyAll (es ++ lastEffect p.positional last) st.space)
      else .refused := by
  induction hm generalizing st with
  | nil =>
    obtain ⟨s, w, x⟩ := st
    simp only at hw
    cases last with
    | none =>
      cases w <;> cases x <;>
        simp [consume, lastTokens, finishParse, countOk, bareCount, obeyAll, lastEffect, ofRequest]
      rename_i q
      cases q.required <;> rfl
    | some v =>
      cases w with
      | none => simp [consume, lastTokens, finishParse, countOk, bareCount]
      | some q =>
        have hq : p.positional = some q := by simpa [eq_comm] using hw
        simp only [List.flatMap_nil, List.nil_append, lastTokens, consume, takePositional, countOk, bareCount,
          lastEffect, hq, obeyAll]
        cases q.set v s with
        | none => cases x <;> rfl
        | some s' => cases x <;> rfl
  | @cons a e said es h1 hr ih =>
    obtain ⟨s, w, x⟩ := st
    simp only at hw ih ⊢
    rw [List.flatMap_cons, List.append_assoc]
    cases h1 with
    | flag hm =>
      simp only [saidTokens, find_of_mem h hm, Option.map_some, Option.toList_some, List.singleton_append]
      rw [consume.eq_def]
      simp only [takeOptions, afterAction]
      rw [ih _ hw]
      rfl
    | apart hm hv =>
      rename_i n v f
      simp only [saidTokens, find_of_mem h hm, Option.map_some, Option.toList_some, List.cons_append,
        List.nil_append]
      rw [consume.eq_def]
      simp only [takeOptions, obeyAll]
      cases f v s with
      | none => simp only [afterAction, Option.bind_none, ofRequest, ite_self]
      | some s' =>
        simp only [afterAction, Option.bind_some]
        rw [ih _ hw]
        rfl
    | joined hm =>
      rename_i n v f
      simp only [saidTokens, find_of_mem h hm, Option.map_some, Option.toList_some, List.cons_append,
        List.nil_append]
      rw [consume.eq_def]
      simp only [explicit_value, takeOptions, obeyAll]
      cases f v s with
      | none => simp only [afterAction, Option.bind_none, ofRequest, ite_self]
      | some s' =>
        simp only [afterAction, Option.bind_some]
        rw [ih _ hw]
        rfl
    | bare hq hv =>
      rename_i v q
      have hc : bareCount (.bare v :: said) last = bareCount said last + 1 := by
        rw [bareCount, bareCount, List.filter_cons_of_pos rfl, List.length_cons]; omega
      simp only [saidTokens, List.cons_append, List.nil_append, hc]
      cases w with
      | none =>
        rw [consume.eq_def]
        simp only
        rw [ih _ (Or.inr rfl)]
        simp [countOk]
      | some q' =>
        have hq' : p.positional = some q' := by simpa [eq_comm] using hw
        obtain rfl : q = q' := by rw [hq] at hq'; exact Option.some.inj hq'
        rw [consume.eq_def]
        simp only [takePositional, obeyAll]
        cases q.set v s with
        | none => simp only [afterAction, Option.bind_none, ofRequest, ite_self]
        | some s' =>
          simp only [afterAction, Option.bind_some]
          refine Eq.trans (consume_rest h hr last s' x) ?_
          rw [ih _ (Or.inr rfl)]
          simp [countOk]

end Oclint
