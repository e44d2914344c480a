import Verif.Spec.Scaffold
import Verif.Lemmas.Registry

/-!
# Lemmas about the scaffolding scripts
-/

namespace Oclint
open Spec

/-! ### Replacing -/

/-- No `{{`, and no `{` at the end. -/
def NoMark : Str → Prop
  | [] => True
  | [c] => c ≠ '{'
  | c :: d :: cs => ¬ (c = '{' ∧ d = '{') ∧ NoMark (d :: cs)

theorem noMark_tail {c : Char} {cs : Str} (h : NoMark (c :: cs)) : NoMark cs := by
  cases cs with
  | nil => trivial
  | cons d cs => exact h.2

theorem noMark_of_braceless (s : Str) (h : Braceless s) : NoMark s := by
  induction s with
  | nil => trivial
  | cons c cs ih =>
    have hc : c ≠ '{' := fun e => h (by simp [e])
    have hcs : Braceless cs := fun e => h (List.mem_cons_of_mem _ e)
    cases cs with
    | nil => exact hc
    | cons d cs => exact ⟨fun e => hc e.1, ih hcs⟩

theorem wildcard_eq (key : Str) : wildcard key = '{' :: '{' :: (key ++ ['}', '}']) := rfl

theorem replaceFrom_noMark (key new : Str) (t rest : Str) (h : NoMark t) :
    pyReplaceFrom (wildcard key) new 0 (t ++ rest) =
      t ++ pyReplaceFrom (wildcard key) new 0 rest := by
  induction t with
  | nil => rfl
  | cons c cs ih =>
    have hno : (wildcard key).isPrefixOf (c :: cs ++ rest) = false := by
      cases hp : (wildcard key).isPrefixOf (c :: cs ++ rest) with
      | false => rfl
      | true =>
        exfalso
        rw [wildcard_eq] at hp
        simp only [List.cons_append, List.isPrefixOf, Bool.and_eq_true, beq_iff_eq] at hp
        cases cs with
        | nil => exact h hp.1.symm
        | cons d cs =>
          simp only [List.cons_append, List.isPrefixOf, Bool.and_eq_true, beq_iff_eq] at hp
          exact h.1 ⟨hp.1.symm, hp.2.1.symm⟩
    rw [List.cons_append, pyReplaceFrom]
    rw [List.cons_append] at hno
    rw [hno, if_neg (by simp), ih (noMark_tail h)]
    rfl

theorem replaceFrom_skip (old new u rest : Str) :
    pyReplaceFrom old new u.length (u ++ rest) = pyReplaceFrom old new 0 rest := by
  induction u with
  | nil => rfl
  | cons c cs ih => exact ih

theorem replaceFrom_hit (key new rest : Str) :
    pyReplaceFrom (wildcard key) new 0 (wildcard key ++ rest) =
      new ++ pyReplaceFrom (wildcard key) new 0 rest := by
  have hp : (wildcard key).isPrefixOf (wildcard key ++ rest) = true := by
    rw [List.isPrefixOf_iff_prefix]; exact List.prefix_append _ _
  obtain ⟨c, cs, hw⟩ : ∃ c cs, wildcard key = c :: cs := ⟨_, _, rfl⟩
  have hlen : (wildcard key).length - 1 = cs.length := by rw [hw]; rfl
  rw [show wildcard key ++ rest = c :: (cs ++ rest) by rw [hw]; rfl] at hp ⊢
  rw [pyReplaceFrom, hp, if_pos rfl, hlen, replaceFrom_skip]

theorem noMark_middle (key : Str) (h : '{' ∉ key) : NoMark ('{' :: (key ++ ['}', '}'])) := by
  have h1 : NoMark (key ++ ['}', '}']) := by
    apply noMark_of_braceless
    simp only [Braceless, List.mem_append, List.mem_cons, List.not_mem_nil, or_false, not_or]
    exact ⟨h, by decide, by decide⟩
  cases key with
  | nil => exact ⟨by decide, h1⟩
  | cons c cs => exact ⟨fun e => h (by simp [e.2]), h1⟩

theorem eq_of_until {x : Char} {a b s t : Str} (ha : x ∉ a) (hb : x ∉ b)
    (h : a ++ x :: s = b ++ x :: t) : a = b ∧ s = t := by
  induction a generalizing b with
  | nil =>
    cases b with
    | nil => simpa using h
    | cons c b => simp only [List.nil_append, List.cons_append, List.cons.injEq] at h
                  exact absurd (by simp [h.1]) hb
  | cons c a ih =>
    cases b with
    | nil => simp only [List.nil_append, List.cons_append, List.cons.injEq] at h
             exact absurd (by simp [h.1]) ha
    | cons d b =>
      simp only [List.cons_append, List.cons.injEq] at h
      have := ih (fun e => ha (List.mem_cons_of_mem _ e)) (fun e => hb (List.mem_cons_of_mem _ e)) h.2
      exact ⟨by rw [h.1, this.1], this.2⟩

/-- A key of a wildcard. -/
def KeyText (k : Str) : Prop := '{' ∉ k ∧ '}' ∉ k

theorem replaceFrom_miss (key k new rest : Str) (hkey : KeyText key) (hk : KeyText k)
    (hne : k ≠ key) :
    pyReplaceFrom (wildcard key) new 0 (wildcard k ++ rest) =
      wildcard k ++ pyReplaceFrom (wildcard key) new 0 rest := by
  have hno : (wildcard key).isPrefixOf (wildcard k ++ rest) = false := by
    cases hp : (wildcard key).isPrefixOf (wildcard k ++ rest) with
    | false => rfl
    | true =>
      exfalso
      rw [List.isPrefixOf_iff_prefix] at hp
      obtain ⟨u, hu⟩ := hp
      simp only [wildcard_eq, List.cons_append, List.append_assoc, List.cons.injEq, true_and] at hu
      exact hne (eq_of_until hkey.2 hk.2 hu).1.symm
  have := replaceFrom_noMark key new ('{' :: (k ++ ['}', '}'])) rest (noMark_middle k hk.1)
  rw [wildcard_eq k] at hno ⊢
  rw [List.cons_append, pyReplaceFrom]
  rw [List.cons_append] at hno
  rw [hno, if_neg (by simp), this]
  rfl

/-- A piece of a text being filled in. -/
def Token (t : Str) : Prop := NoMark t ∨ ∃ k, KeyText k ∧ t = wildcard k

theorem noMark_not_wildcard {t key : Str} (h : NoMark t) : t ≠ wildcard key := by
  rintro rfl
  rw [wildcard_eq] at h
  exact h.1 ⟨rfl, rfl⟩

theorem wildcard_inj {a b : Str} (h : wildcard a = wildcard b) : a = b := by
  simpa [wildcard_eq] using h

/-- Replacing a wildcard replaces the pieces that are this wildcard. -/
theorem replace_tokens (key new : Str) (hkey : KeyText key) (ts : List Str)
    (h : ∀ t ∈ ts, Token t) :
    pyReplace ts.flatten (wildcard key) new =
      (ts.map fun t => if t = wildcard key then new else t).flatten := by
  unfold pyReplace
  induction ts with
  | nil => rfl
  | cons t ts ih =>
    have ih := ih fun t ht => h t (List.mem_cons_of_mem _ ht)
    simp only [List.flatten_cons, List.map_cons]
    rcases h t (by simp) with hn | ⟨k, hk, rfl⟩
    · rw [replaceFrom_noMark _ _ _ _ hn, ih, if_neg (noMark_not_wildcard hn)]
    · by_cases hkk : k = key
      · subst hkk
        rw [replaceFrom_hit, ih, if_pos rfl]
      · rw [replaceFrom_miss _ _ _ _ hkey hk hkk, ih, if_neg fun e => hkk (wildcard_inj e)]

/-! ### Lines -/

theorem replaceFrom_line (old new : Str) (hold : old ≠ []) (hn : '\n' ∉ old) (b a : Str) :
    ∀ k, k ≤ a.length →
      (∃ s, pyReplaceFrom old new k (a ++ ['\n']) = s ++ ['\n']) ∧
      pyReplaceFrom old new k (a ++ '\n' :: b) =
        pyReplaceFrom old new k (a ++ ['\n']) ++ pyReplaceFrom old new 0 b := by
  induction a with
  | nil =>
    intro k hk
    obtain rfl : k = 0 := by simpa using hk
    have hno : ∀ r, old.isPrefixOf ('\n' :: r) = false := by
      intro r
      cases old with
      | nil => exact absurd rfl hold
      | cons c cs =>
        have : c ≠ '\n' := fun e => hn (by simp [e])
        simp [List.isPrefixOf, this]
    simp only [List.nil_append, pyReplaceFrom, hno, Bool.false_eq_true, if_false]
    exact ⟨⟨[], rfl⟩, rfl⟩
  | cons c a ih =>
    intro k hk
    cases k with
    | succ k =>
      simp only [List.cons_append, pyReplaceFrom]
      exact ih k (by simpa using hk)
    | zero =>
      have hpre : old.isPrefixOf (c :: a ++ '\n' :: b) = old.isPrefixOf (c :: a ++ ['\n']) := by
        rw [Bool.eq_iff_iff, List.isPrefixOf_iff_prefix, List.isPrefixOf_iff_prefix]
        constructor
        · intro h
          by_cases hl : old.length ≤ (c :: a ++ ['\n']).length
          · refine List.prefix_of_prefix_length_le h ?_ hl
            exact ⟨b, by simp⟩
          · exfalso
            apply hn
            have h' : (c :: a ++ ['\n']) <+: old :=
              List.prefix_of_prefix_length_le ⟨b, by simp⟩ h (by omega)
            exact h'.subset (by simp)
        · intro h
          exact h.trans ⟨b, by simp⟩
      rw [List.cons_append] at hpre
      rw [List.cons_append] at hpre
      simp only [List.cons_append, pyReplaceFrom, hpre]
      by_cases hp : old.isPrefixOf (c :: (a ++ ['\n'])) = true
      · rw [if_pos hp, if_pos hp]
        have hl : old.length - 1 ≤ a.length := by
          rw [List.isPrefixOf_iff_prefix] at hp
          by_contra hcon
          have hlen := hp.length_le
          simp only [List.length_cons, List.length_append, List.length_nil] at hlen
          have heq : old = c :: (a ++ ['\n']) := hp.eq_of_length (by simp; omega)
          exact hn (by rw [heq]; simp)
        obtain ⟨⟨s, hs⟩, h2⟩ := ih _ hl
        exact ⟨⟨new ++ s, by rw [hs, List.append_assoc]⟩, by rw [h2, List.append_assoc]⟩
      · rw [if_neg hp, if_neg hp]
        obtain ⟨⟨s, hs⟩, h2⟩ := ih 0 (by omega)
        exact ⟨⟨c :: s, by rw [hs]; rfl⟩, by rw [h2]; rfl⟩

theorem replace_line (old new : Str) (hold : old ≠ []) (hn : '\n' ∉ old) (a b : Str) :
    (∃ s, pyReplace (a ++ ['\n']) old new = s ++ ['\n']) ∧
    pyReplace (a ++ ['\n'] ++ b) old new = pyReplace (a ++ ['\n']) old new ++ pyReplace b old new := by
  have := replaceFrom_line old new hold hn b a 0 (by omega)
  simpa [pyReplace] using this

theorem replaceAll_line (ws : List (Str × Str)) (hw : ∀ w ∈ ws, '\n' ∉ w.1) (a b : Str) :
    (∃ s, replaceAll (a ++ ['\n']) ws = s ++ ['\n']) ∧
    replaceAll (a ++ ['\n'] ++ b) ws = replaceAll (a ++ ['\n']) ws ++ replaceAll b ws := by
  induction ws generalizing a b with
  | nil => exact ⟨⟨a, rfl⟩, rfl⟩
  | cons w ws ih =>
    have hn : '\n' ∉ wildcard w.1 := by
      rw [wildcard_eq]
      simp only [List.mem_cons, List.mem_append, List.not_mem_nil, or_false, not_or]
      exact ⟨by decide, by decide, hw w (by simp), by decide, by decide⟩
    obtain ⟨⟨s, hs⟩, h2⟩ := replace_line (wildcard w.1) w.2 (by simp [wildcard_eq]) hn a b
    have ih := ih (fun w hw' => hw w (List.mem_cons_of_mem _ hw')) s (pyReplace b (wildcard w.1) w.2)
    simp only [replaceAll, List.foldl_cons] at ih ⊢
    rw [h2, hs]
    exact ih

theorem pyLinesFrom_flatten (line s : Str) : (pyLinesFrom line s).flatten = line ++ s := by
  induction s generalizing line with
  | nil =>
    unfold pyLinesFrom
    split
    · next h => simp [h]
    · simp
  | cons c cs ih =>
    unfold pyLinesFrom
    split
    · simp [ih]
    · simp [ih]

/-- All lines but the last end with a line break. -/
theorem pyLinesFrom_lines (line s : Str) (hl : '\n' ∉ line) :
    (∀ l ∈ pyLinesFrom line s, l ≠ [] ∧ '\n' ∉ l.dropLast) ∧
      ∀ l ∈ (pyLinesFrom line s).dropLast, l.getLast? = some '\n' := by
  induction s generalizing line with
  | nil =>
    unfold pyLinesFrom
    split
    · simp
    · next h =>
      refine ⟨?_, by simp⟩
      simp only [List.mem_singleton, forall_eq]
      exact ⟨h, fun e => hl (List.dropLast_subset _ e)⟩
  | cons c cs ih =>
    unfold pyLinesFrom
    split
    · next h =>
      have ih := ih [] (by simp)
      refine ⟨?_, ?_⟩
      · intro l hm
        rcases List.mem_cons.1 hm with rfl | hm
        · exact ⟨by simp, by simpa using hl⟩
        · exact ih.1 l hm
      · intro l hm
        cases hr : pyLinesFrom [] cs with
        | nil => rw [hr] at hm; simp at hm
        | cons x xs =>
          rw [hr, List.dropLast_cons_cons] at hm
          rcases List.mem_cons.1 hm with rfl | hm
          · simp [h]
          · exact ih.2 l (by rw [hr]; exact hm)
    · next h =>
      exact ih (line ++ [c]) (by simp [hl, Ne.symm h])

theorem pyLines_linesOf (s : Str) : LinesOf s (pyLines s) :=
  ⟨pyLinesFrom_flatten [] s, pyLinesFrom_lines [] s (by simp)⟩

theorem replaceRule_line (r : RuleDict) (nodes a b : Str) :
    replaceRuleWildcards (a ++ ['\n'] ++ b) r nodes =
      replaceRuleWildcards (a ++ ['\n']) r nodes ++ replaceRuleWildcards b r nodes := by
  obtain ⟨⟨s, hs⟩, h2⟩ := replaceAll_line (ruleWildcards r)
    (by
      intro w hw
      have : w.1 ∈ (ruleWildcards r).map Prod.fst := List.mem_map_of_mem hw
      have hall : ∀ k ∈ ["RULE_CLASS_NAME".toList, "RULE_NAME".toList, "RULE_PRIORITY".toList,
          "RULE_CATEGORY".toList, "RULE_NAME".toList, "OCLINT_VERSION".toList], '\n' ∉ k := by
        decide +kernel
      exact hall _ this) a b
  unfold replaceRuleWildcards
  rw [h2, hs]
  exact (replace_line _ nodes (by decide +kernel) (by decide +kernel) s _).2

/-- What is done line by line could be done with the whole text. -/
theorem foldl_lines (f : Str → Str) (h0 : f [] = [])
    (h : ∀ a b, f (a ++ ['\n'] ++ b) = f (a ++ ['\n']) ++ f b) (lines : List Str)
    (hl : ∀ l ∈ lines.dropLast, l.getLast? = some '\n') (acc : Str) :
    lines.foldl (fun out line => out ++ f line) acc = acc ++ f lines.flatten := by
  induction lines generalizing acc with
  | nil => simp [h0]
  | cons l ls ih =>
    cases ls with
    | nil => simp
    | cons m ls =>
      rw [List.foldl_cons, ih (fun x hx => hl x (by rw [List.dropLast_cons_cons]; exact List.mem_cons_of_mem _ hx))]
      have hlast := hl l (by simp [List.dropLast_cons_cons])
      obtain ⟨a, rfl⟩ : ∃ a, l = a ++ ['\n'] := by
        rcases List.getLast?_eq_some_iff.1 hlast with ⟨a, ha⟩
        exact ⟨a, ha⟩
      rw [List.append_assoc, ← h]
      rfl

theorem replaceRule_nil (r : RuleDict) (nodes : Str) : replaceRuleWildcards [] r nodes = [] := rfl

theorem expandTemplate_eq (home : Str) (d : Disk) (r : RuleDict) (template nodes : Str)
    (hn : visitAstNodes home d = some nodes) :
    expandTemplate home d r template = some (replaceRuleWildcards template r nodes) := by
  have hl := pyLines_linesOf template
  have hf := foldl_lines (fun l => replaceRuleWildcards l r nodes) (replaceRule_nil r nodes)
    (replaceRule_line r nodes) (pyLines template) hl.2.2 []
  unfold expandTemplate
  rw [hn]
  rw [hl.1] at hf
  cases hp : pyLines template with
  | nil =>
    rw [hp] at hf
    simp only [List.foldl_nil, List.nil_append] at hf
    simp only [← hf]
  | cons l ls =>
    rw [hp] at hf
    simp only
    rw [hf]
    rfl

/-! ### Expressions -/

theorem colon_prefix (s : Str) :
    " :".toList.isPrefixOf s = true ↔ ∃ rest, s = " :".toList ++ rest := by
  rw [List.isPrefixOf_iff_prefix]
  constructor
  · rintro ⟨r, hr⟩; exact ⟨r, hr.symm⟩
  · rintro ⟨r, hr⟩; exact ⟨r, hr.symm⟩

/-- Texts without line breaks that ` :` follows. -/
def BeforeColon (s p : Str) : Prop := '\n' ∉ p ∧ ∃ rest, s = p ++ " :".toList ++ rest

theorem longestBefore_spec (s : Str) :
    match longestBefore s with
    | some p => BeforeColon s p ∧ ∀ p', BeforeColon s p' → p'.length ≤ p.length
    | none => ∀ p', ¬ BeforeColon s p' := by
  induction s with
  | nil =>
    simp only [longestBefore]
    rintro p' ⟨-, rest, h⟩
    have := congrArg List.length h
    simp at this
  | cons c cs ih =>
    unfold longestBefore
    have hcons : ∀ p', BeforeColon (c :: cs) p' →
        p' = [] ∨ ∃ q, p' = c :: q ∧ c ≠ '\n' ∧ BeforeColon cs q := by
      rintro p' ⟨hn, rest, h⟩
      cases p' with
      | nil => exact Or.inl rfl
      | cons x q =>
        simp only [List.cons_append, List.cons.injEq] at h
        refine Or.inr ⟨q, by rw [h.1], ?_, ?_, rest, h.2⟩
        · rintro rfl; exact hn (List.mem_cons.2 (Or.inl h.1))
        · exact fun e => hn (List.mem_cons_of_mem _ e)
    have hnil : BeforeColon (c :: cs) [] ↔ " :".toList.isPrefixOf (c :: cs) = true := by
      rw [colon_prefix]
      simp [BeforeColon]
    generalize hr : (if c = '\n' then none else longestBefore cs) = r
    cases r with
    | some p =>
      simp only
      have hc : c ≠ '\n' := by rintro rfl; simp at hr
      rw [if_neg hc] at hr
      rw [hr] at ih
      refine ⟨⟨?_, ?_⟩, ?_⟩
      · simpa [Ne.symm hc] using ih.1.1
      · obtain ⟨-, rest, h⟩ := ih.1
        exact ⟨rest, by rw [h]; rfl⟩
      · intro p' hp'
        rcases hcons p' hp' with rfl | ⟨q, rfl, -, hq⟩
        · simp
        · simpa using ih.2 q hq
    | none =>
      simp only
      have hno : ∀ q, c ≠ '\n' → ¬ BeforeColon cs q := by
        intro q hc
        rw [if_neg hc] at hr
        rw [hr] at ih
        exact ih q
      cases hb : " :".toList.isPrefixOf (c :: cs) with
      | true =>
        rw [if_pos rfl]
        refine ⟨hnil.2 hb, ?_⟩
        intro p' hp'
        rcases hcons p' hp' with rfl | ⟨q, rfl, hc, hq⟩
        · simp
        · exact absurd hq (hno q hc)
      | false =>
        rw [if_neg (by simp)]
        intro p' hp'
        rcases hcons p' hp' with rfl | ⟨q, rfl, hc, hq⟩
        · rw [hnil, hb] at hp'; cases hp'
        · exact absurd hq (hno q hc)

theorem someBefore_spec (s : Str) :
    match someBefore s with
    | some p => (p ≠ [] ∧ BeforeColon s p) ∧ ∀ p', p' ≠ [] → BeforeColon s p' → p'.length ≤ p.length
    | none => ∀ p', p' ≠ [] → ¬ BeforeColon s p' := by
  cases s with
  | nil =>
    simp only [someBefore]
    rintro p' - ⟨-, rest, h⟩
    have := congrArg List.length h
    simp at this
  | cons c cs =>
    have ih := longestBefore_spec cs
    have hcons : ∀ p', p' ≠ [] → BeforeColon (c :: cs) p' →
        ∃ q, p' = c :: q ∧ c ≠ '\n' ∧ BeforeColon cs q := by
      rintro p' hne ⟨hn, rest, h⟩
      cases p' with
      | nil => exact absurd rfl hne
      | cons x q =>
        simp only [List.cons_append, List.cons.injEq] at h
        refine ⟨q, by rw [h.1], ?_, ?_, rest, h.2⟩
        · rintro rfl; exact hn (List.mem_cons.2 (Or.inl h.1))
        · exact fun e => hn (List.mem_cons_of_mem _ e)
    have hsb : someBefore (c :: cs) =
      if c = '\n' then none else (longestBefore cs).map (c :: ·) := rfl
    rw [hsb]
    by_cases hc : c = '\n'
    · rw [if_pos hc]
      intro p' hne hp'
      obtain ⟨q, -, hc', -⟩ := hcons p' hne hp'
      exact hc' hc
    · rw [if_neg hc]
      cases hl : longestBefore cs with
      | none =>
        rw [hl] at ih
        intro p' hne hp'
        obtain ⟨q, -, -, hq⟩ := hcons p' hne hp'
        exact ih q hq
      | some p =>
        rw [hl] at ih
        simp only [Option.map_some]
        refine ⟨⟨by simp, ?_, ?_⟩, ?_⟩
        · simpa [Ne.symm hc] using ih.1.1
        · obtain ⟨-, rest, h⟩ := ih.1
          exact ⟨rest, by rw [h]; rfl⟩
        · intro p' hne hp'
          obtain ⟨q, rfl, -, hq⟩ := hcons p' hne hp'
          simpa using ih.2 q hq

theorem defHere_spec (s : Str) :
    match defHere s with
    | some g => DefAt s g ∧ ∀ g', DefAt s g' → g'.length ≤ g.length
    | none => ∀ g', ¬ DefAt s g' := by
  unfold defHere
  cases hp : "def ".toList.isPrefixOf s with
  | false =>
    rw [if_neg (by simp)]
    rintro g' ⟨-, -, rest, h⟩
    have : "def ".toList.isPrefixOf s = true := by
      rw [List.isPrefixOf_iff_prefix, h]
      exact ⟨g' ++ " :".toList ++ rest, by simp only [List.append_assoc]⟩
    rw [hp] at this; cases this
  | true =>
    rw [if_pos rfl]
    rw [List.isPrefixOf_iff_prefix] at hp
    obtain ⟨t, rfl⟩ := hp
    have hd : ("def ".toList ++ t).drop 4 = t := by
      rw [List.drop_append_of_le_length (by decide +kernel)]
      have : List.drop 4 "def ".toList = [] := by decide +kernel
      rw [this]; rfl
    rw [hd]
    have hiff : ∀ g, DefAt ("def ".toList ++ t) g ↔ g ≠ [] ∧ BeforeColon t g := by
      intro g
      unfold DefAt BeforeColon
      refine and_congr_right fun _ => and_congr_right fun _ => ?_
      refine exists_congr fun rest => ?_
      rw [List.append_assoc, List.append_assoc, List.append_cancel_left_eq, List.append_assoc]
    have hs := someBefore_spec t
    cases hb : someBefore t with
    | none =>
      rw [hb] at hs
      intro g' hg'
      have := (hiff g').1 hg'
      exact hs g' this.1 this.2
    | some g =>
      rw [hb] at hs
      refine ⟨(hiff g).2 hs.1, ?_⟩
      intro g' hg'
      have := (hiff g').1 hg'
      exact hs.2 g' this.1 this.2

theorem defAt_nil (g : Str) : ¬ DefAt [] g := by
  rintro ⟨-, -, rest, h⟩
  have := congrArg List.length h
  simp at this

theorem searchDef_some (s : Str) (g : Str) (h : searchDef s = some g) : Captures s g := by
  induction s with
  | nil => cases h
  | cons c cs ih =>
    unfold searchDef at h
    have hs := defHere_spec (c :: cs)
    cases hd : defHere (c :: cs) with
    | some g' =>
      rw [hd] at h hs
      cases h
      exact ⟨[], c :: cs, rfl, hs.1, hs.2, fun b s' _ hb => by simp at hb⟩
    | none =>
      rw [hd] at h hs
      obtain ⟨before, s', rfl, h1, h2, h3⟩ := ih h
      refine ⟨c :: before, s', rfl, h1, h2, ?_⟩
      intro b t hbt hlt g'
      cases b with
      | nil =>
        simp only [List.nil_append] at hbt
        rw [← hbt]
        exact hs g'
      | cons x b =>
        simp only [List.cons_append, List.cons.injEq] at hbt
        exact h3 b t hbt.2 (by simpa using hlt) g'

theorem searchDef_none (s : Str) (h : searchDef s = none) (b t : Str) (hb : s = b ++ t) (g : Str) :
    ¬ DefAt t g := by
  induction s generalizing b with
  | nil =>
    obtain ⟨-, rfl⟩ : b = [] ∧ t = [] := by simpa using hb.symm
    exact defAt_nil g
  | cons c cs ih =>
    unfold searchDef at h
    have hs := defHere_spec (c :: cs)
    cases hd : defHere (c :: cs) with
    | some g' => rw [hd] at h; cases h
    | none =>
      rw [hd] at h hs
      cases b with
      | nil =>
        simp only [List.nil_append] at hb
        rw [← hb]
        exact hs g
      | cons x b =>
        simp only [List.cons_append, List.cons.injEq] at hb
        exact ih h b hb.2

theorem captures_unique {s g g' : Str} (h : Captures s g) (h' : Captures s g') : g = g' := by
  obtain ⟨b, t, hs, h1, h2, h3⟩ := h
  obtain ⟨b', t', hs', h1', h2', h3'⟩ := h'
  have hlen : b.length = b'.length := by
    rcases Nat.lt_trichotomy b.length b'.length with hl | hl | hl
    · exact absurd h1 (h3' b t hs hl g)
    · exact hl
    · exact absurd h1' (h3 b' t' hs' hl g')
  have heq : b ++ t = b' ++ t' := by rw [← hs, hs']
  obtain ⟨rfl, rfl⟩ := List.append_inj heq hlen
  have hl : g.length = g'.length := Nat.le_antisymm (h2' g h1) (h2 g' h1')
  obtain ⟨-, -, r, hr⟩ := h1
  obtain ⟨-, -, r', hr'⟩ := h1'
  rw [hr] at hr'
  simp only [List.append_assoc] at hr'
  rw [List.append_cancel_left_eq] at hr'
  exact (List.append_inj hr' hl).1

theorem searchDef_iff (s g : Str) : searchDef s = some g ↔ Captures s g := by
  constructor
  · exact searchDef_some s g
  · intro h
    cases hd : searchDef s with
    | none =>
      obtain ⟨b, t, hs, h1, -⟩ := h
      exact absurd h1 (searchDef_none s hd b t hs g)
    | some g' => rw [captures_unique (searchDef_some s g' hd) h]

theorem codeBlock_eq (node : Str) : codeBlock node = blockOf node := by
  unfold codeBlock blockOf inLines
  simp only [List.flatMap_cons, List.flatMap_nil, List.append_nil]
  have h1 : "\n    /* Visit ".toList = ['\n'] ++ "    /* Visit ".toList := by decide +kernel
  have h2 : " *node)\n".toList = " *node)".toList ++ ['\n'] := by decide +kernel
  have h3 : "    {\n        return true;\n    }\n".toList = "    {".toList ++ ['\n'] ++
    "        return true;".toList ++ ['\n'] ++ "    }".toList ++ ['\n'] := by decide +kernel
  have h4 : "     */\n".toList = "     */".toList ++ ['\n'] := by decide +kernel
  have h5 : "\n".toList = ['\n'] := by decide +kernel
  rw [h1, h2, h3, h4, h5]
  simp only [List.append_assoc, List.nil_append]

theorem blocksOf_fold (suffix : Str) (lines : List Str) :
    ∃ text, BlocksOf suffix lines text ∧ ∀ acc,
      lines.foldl (fun acc l => acc ++ generateCodeBlock l suffix) acc = acc ++ text := by
  induction lines with
  | nil => exact ⟨[], .nil, fun acc => by simp⟩
  | cons l ls ih =>
    obtain ⟨text, h1, h2⟩ := ih
    cases hs : searchDef l with
    | none =>
      refine ⟨text, .other (fun g hg => ?_) h1, fun acc => ?_⟩
      · rw [← searchDef_iff, hs] at hg; cases hg
      · rw [List.foldl_cons, h2]
        simp [generateCodeBlock, hs]
    | some g =>
      refine ⟨blockOf (g ++ suffix) ++ text, .node ((searchDef_iff l g).1 hs) h1, fun acc => ?_⟩
      rw [List.foldl_cons, h2]
      simp [generateCodeBlock, hs, codeBlock_eq]

/-! ### Names -/

theorem toLower_facts (c : Char) (h : c.isUpper = true) :
    c.toLower.isLower = true ∧ c.toLower.toUpper = c ∧ c.isAlpha = true ∧ c.toLower ≠ '{' := by
  revert h
  refine ascii_cases (P := fun c => c.isUpper = true → c.toLower.isLower = true ∧
    c.toLower.toUpper = c ∧ c.isAlpha = true ∧ c.toLower ≠ '{') (by decide) ?_ c
  intro c hc h
  rw [not_upper_of_big c hc] at h
  cases h

theorem subCapitals_cons (c : Char) (cs : Str) :
    subCapitals (c :: cs) =
      (if c.isUpper then [' ', c.toLower] else [c]) ++ subCapitals cs := rfl

theorem identifierLoop_subCapitals (s : Str) (prev : Char) (hp : prev.isAlpha = true)
    (hs : ∀ c ∈ s, c.isAlpha = true) :
    (identifierLoop prev (subCapitals s)).filter Char.isAlpha = s := by
  induction s generalizing prev with
  | nil => rfl
  | cons c cs ih =>
    have hc := hs c (by simp)
    have hcs : ∀ c ∈ cs, c.isAlpha = true := fun c h => hs c (List.mem_cons_of_mem _ h)
    rw [subCapitals_cons]
    cases hu : c.isUpper with
    | true =>
      obtain ⟨h1, h2, -, -⟩ := toLower_facts c hu
      have hsp : (' ').isLower = false := by decide
      have hsa : (' ').isAlpha = false := by decide
      simp only [if_true, List.cons_append, List.nil_append, identifierLoop, hsp, Bool.and_false,
        Bool.false_eq_true, if_false, hsa, Bool.not_false, Bool.true_and, h1, h2]
      rw [List.filter_cons_of_neg (by simp [hsa]), List.filter_cons_of_pos hc, ih c hc hcs]
    | false =>
      simp only [Bool.false_eq_true, if_false, List.cons_append, List.nil_append, identifierLoop, hp,
        Bool.not_true, Bool.false_and]
      rw [List.filter_cons_of_pos hc, ih c hc hcs]

theorem identifierLoop_letters (s : Str) (prev : Char) :
    ((identifierLoop prev s).filter Char.isAlpha).length = (s.filter Char.isAlpha).length := by
  induction s generalizing prev with
  | nil => rfl
  | cons c cs ih =>
    simp only [identifierLoop]
    have ha : (if !prev.isAlpha && c.isLower then c.toUpper else c).isAlpha = c.isAlpha := by
      split
      · exact toUpper_isAlpha c
      · rfl
    cases hc : c.isAlpha with
    | true =>
      rw [List.filter_cons_of_pos (by rw [ha, hc]), List.filter_cons_of_pos hc]
      simp [ih]
    | false =>
      rw [List.filter_cons_of_neg (by rw [ha, hc]; simp), List.filter_cons_of_neg (by simp [hc])]
      exact ih _

theorem identifier_letters (s : Str) :
    (identifier s).length = (s.filter Char.isAlpha).length := by
  cases s with
  | nil => rfl
  | cons c cs =>
    have e : identifier (c :: cs) =
      (c.toUpper :: identifierLoop c.toUpper cs).filter Char.isAlpha := rfl
    rw [e]
    cases hc : c.isAlpha with
    | true =>
      rw [List.filter_cons_of_pos (by rw [toUpper_isAlpha, hc]), List.filter_cons_of_pos hc]
      simp [identifierLoop_letters]
    | false =>
      rw [List.filter_cons_of_neg (by rw [toUpper_isAlpha, hc]; simp),
        List.filter_cons_of_neg (by simp [hc])]
      exact identifierLoop_letters _ _

theorem subCapitals_letters (s : Str) :
    ((subCapitals s).filter Char.isAlpha).length ≤ s.length := by
  induction s with
  | nil => simp [subCapitals]
  | cons c cs ih =>
    rw [subCapitals_cons, List.filter_append, List.length_append]
    have : ((if c.isUpper then [' ', c.toLower] else [c]).filter Char.isAlpha).length ≤ 1 := by
      split
      · have hsa : (' ').isAlpha = false := by decide
        rw [List.filter_cons_of_neg (by simp [hsa])]
        exact List.length_filter_le _ _
      · exact List.length_filter_le _ _
    simp only [List.length_cons]
    omega

theorem identifier_all_letters (s : Str) : ∀ c ∈ identifier s, c.isAlpha = true := by
  intro c hc
  unfold identifier at hc
  cases s with
  | nil => cases hc
  | cons d ds => exact (List.mem_filter.1 hc).2

theorem default_identifier_iff (cls : Str) :
    identifier (nameOrDefault [] cls) = cls ↔ ClassWord cls := by
  unfold nameOrDefault
  rw [if_pos rfl]
  constructor
  · intro h
    refine ⟨fun c hc => identifier_all_letters _ c (by rw [h]; exact hc), ?_⟩
    intro c hc
    cases cls with
    | nil => cases hc
    | cons d ds =>
      simp only [List.head?_cons, Option.some.injEq] at hc
      subst hc
      cases hu : d.isUpper with
      | true => rfl
      | false =>
        exfalso
        rw [subCapitals_cons, hu] at h
        simp only [Bool.false_eq_true, if_false, List.cons_append, List.nil_append,
          List.drop_succ_cons, List.drop_zero] at h
        have h1 := identifier_letters (subCapitals ds)
        have h2 := subCapitals_letters ds
        rw [h] at h1
        simp only [List.length_cons] at h1
        omega
  · rintro ⟨ha, hu⟩
    cases cls with
    | nil => rfl
    | cons d ds =>
      have hd := hu d rfl
      obtain ⟨h1, h2, h3, -⟩ := toLower_facts d hd
      rw [subCapitals_cons, hd]
      simp only [if_true, List.cons_append, List.nil_append, List.drop_succ_cons, List.drop_zero]
      unfold identifier
      simp only [h2]
      rw [List.filter_cons_of_pos h3,
        identifierLoop_subCapitals ds d h3 fun c hc => ha c (List.mem_cons_of_mem _ hc)]

theorem subCapitals_small (s : Str) (h : ∀ c ∈ s, c.isUpper = false) : subCapitals s = s := by
  induction s with
  | nil => rfl
  | cons c cs ih =>
    rw [subCapitals_cons, h c (by simp), ih fun c hc => h c (List.mem_cons_of_mem _ hc)]
    rfl

theorem subCapitals_append (s t : Str) : subCapitals (s ++ t) = subCapitals s ++ subCapitals t := by
  simp [subCapitals]

theorem subCapitals_words (ws : List Str) (h : ∀ w ∈ ws, CapitalWord w) :
    subCapitals ws.flatten = (ws.map fun w => ' ' :: uncapital w).flatten := by
  induction ws with
  | nil => rfl
  | cons w ws ih =>
    rw [List.flatten_cons, subCapitals_append, ih fun w hw => h w (List.mem_cons_of_mem _ hw)]
    obtain ⟨c, cs, rfl, hc, hcs⟩ := h w (by simp)
    rw [subCapitals_cons, hc, subCapitals_small cs hcs]
    rfl

theorem flatten_spaced (w : Str) (ws : List Str) :
    ((w :: ws).map fun w => ' ' :: w).flatten = ' ' :: List.intercalate [' '] (w :: ws) := by
  induction ws generalizing w with
  | nil => simp [List.intercalate]
  | cons x ws ih =>
    rw [List.map_cons, List.flatten_cons, ih x]
    simp [List.intercalate]

theorem default_name_words (ws : List Str) (h : ∀ w ∈ ws, CapitalWord w) :
    nameOrDefault [] ws.flatten = List.intercalate [' '] (ws.map uncapital) := by
  unfold nameOrDefault
  rw [if_pos rfl, subCapitals_words ws h]
  cases ws with
  | nil => rfl
  | cons w ws =>
    have := flatten_spaced (uncapital w) (ws.map uncapital)
    simp only [List.map_cons, List.map_map] at this ⊢
    rw [show (fun w => ' ' :: uncapital w) = (fun w => ' ' :: w) ∘ uncapital from rfl, this]
    rfl

theorem subCapitals_braceless (s : Str) (h : Braceless s) : Braceless (subCapitals s) := by
  intro hm
  unfold subCapitals at hm
  rw [List.mem_flatMap] at hm
  obtain ⟨c, hc, hm⟩ := hm
  split at hm
  · next hu =>
    simp only [lowerAddSpace, List.mem_cons, List.not_mem_nil, or_false] at hm
    rcases hm with hm | hm
    · exact absurd hm (by decide)
    · exact (toLower_facts c hu).2.2.2 hm.symm
  · simp only [List.mem_singleton] at hm
    exact h (by rw [hm]; exact hc)

end Oclint
