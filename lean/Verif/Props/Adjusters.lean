import Verif.Model.Adjusters
import Verif.Spec.Adjusters
import Verif.Props.Run

/-!
# C117: the words of a compile command that reach Clang
-/

namespace Oclint
open Spec

theorem isPrefixOf_iff_prefix (a b : Str) : a.isPrefixOf b = true ↔ a <+: b := List.isPrefixOf_iff_prefix

/-- The loop of the output adjuster from a word on. -/
theorem stripOutputLoop_spec (n : Nat) : ∀ (done rest adjusted : List Str), rest.length ≤ n →
    ∃ vs, WithoutOutput rest vs ∧ stripOutputLoop (done ++ rest) done.length adjusted = adjusted ++ vs := by
  induction n with
  | zero =>
    intro done rest adjusted h
    obtain rfl : rest = [] := List.length_eq_zero_iff.1 (by omega)
    refine ⟨[], .nil, ?_⟩
    rw [stripOutputLoop]
    split
    · simp
    · rename_i h'; simp at h'
  | succ n ih =>
    intro done rest adjusted h
    match rest, h with
    | [], _ =>
      refine ⟨[], .nil, ?_⟩
      rw [stripOutputLoop]
      split
      · simp
      · rename_i h'; simp at h'
    | w :: ws, h =>
      rw [stripOutputLoop]
      split
      · rename_i h'; simp at h'
      · rename_i arg h'
        obtain rfl : arg = w := by simpa using h'.symm
        dsimp only
        by_cases ho : arg = chars! "-o"
        · subst ho
          rw [if_pos rfl, if_pos (by decide)]
          match ws, h with
          | [], _ =>
            refine ⟨[], .dangling, ?_⟩
            rw [stripOutputLoop]
            split
            · simp
            · rename_i h''
              rw [List.getElem?_eq_none (by simp)] at h''
              cases h''
          | f :: ws, h =>
            obtain ⟨vs, hv, e⟩ := ih (done ++ [chars! "-o", f]) ws adjusted (by simp at h; omega)
            refine ⟨vs, .separate hv, ?_⟩
            rw [← e]
            simp
        · rw [if_neg ho]
          have hstep := fun a => ih (done ++ [arg]) ws a (by simp at h; omega)
          by_cases hp : OutputWord arg
          · rw [if_pos ((isPrefixOf_iff_prefix _ _).2 hp)]
            obtain ⟨vs, hv, e⟩ := hstep adjusted
            refine ⟨vs, .joined hp ho hv, ?_⟩
            rw [← e]; simp
          · rw [if_neg (fun h => hp ((isPrefixOf_iff_prefix _ _).1 h))]
            obtain ⟨vs, hv, e⟩ := hstep (adjusted ++ [arg])
            refine ⟨arg :: vs, .keep hp hv, ?_⟩
            rw [List.append_assoc] at e
            simp only [List.append_assoc, List.cons_append, List.nil_append] at e ⊢
            rw [← e]; simp

theorem withoutOutput_unique {ws vs : List Str} (h : WithoutOutput ws vs) :
    ∀ {us : List Str}, WithoutOutput ws us → us = vs := by
  have ho : OutputWord (chars! "-o") := List.prefix_rfl
  induction h with
  | nil => intro us h; cases h; rfl
  | keep hw _ ih =>
    intro us h
    cases h with
    | keep _ h => rw [ih h]
    | joined h => exact absurd h hw
    | separate => exact absurd ho hw
    | dangling => exact absurd ho hw
  | joined hw hn _ ih =>
    intro us h
    cases h with
    | keep h => exact absurd hw h
    | joined _ _ h => exact ih h
    | separate => exact absurd rfl hn
    | dangling => exact absurd rfl hn
  | separate _ ih =>
    intro us h
    cases h with
    | keep h => exact absurd ho h
    | joined _ h => exact absurd rfl h
    | separate h => exact ih h
  | dangling =>
    intro us h
    cases h with
    | keep h => exact absurd ho h
    | joined _ h => exact absurd rfl h
    | dangling => rfl

theorem stripOutput_iff (ws vs : List Str) : stripOutput ws = vs ↔ WithoutOutput ws vs := by
  obtain ⟨us, hu, e⟩ := stripOutputLoop_spec ws.length [] ws [] le_rfl
  have e' : stripOutput ws = us := by simpa [stripOutput] using e
  rw [e']
  exact ⟨fun h => h ▸ hu, fun h => withoutOutput_unique h hu⟩

/-- One turn of the syntax adjuster's loop. -/
theorem syntaxOnlyStep_cases (vs : List Str) (b : Bool) (w : Str) :
    (TempsWord w ∧ syntaxOnlyStep (vs, b) w = (vs, b)) ∨
    (¬ TempsWord w ∧ ¬ ColourWord w ∧
      syntaxOnlyStep (vs, b) w = (vs ++ [w], b || decide (w = chars! "-fsyntax-only"))) ∨
    (ColourWord w ∧ ¬ TempsWord w ∧ ∃ us, vs = us ++ [chars! "-Xclang"] ∧
      syntaxOnlyStep (vs, b) w = (us, b || decide (w = chars! "-fsyntax-only"))) ∨
    (ColourWord w ∧ ¬ TempsWord w ∧ vs.getLast? ≠ some (chars! "-Xclang") ∧
      syntaxOnlyStep (vs, b) w = (vs, b || decide (w = chars! "-fsyntax-only"))) := by
  unfold syntaxOnlyStep
  by_cases ht : TempsWord w
  · left
    refine ⟨ht, if_pos ?_⟩
    rcases ht with h | h
    · rw [(isPrefixOf_iff_prefix _ _).2 h]; rfl
    · rw [(isPrefixOf_iff_prefix _ _).2 h]; simp
  · right
    rw [if_neg (by
      intro h
      rw [Bool.or_eq_true] at h
      rcases h with h | h
      · exact ht (.inl ((isPrefixOf_iff_prefix _ _).1 h))
      · exact ht (.inr ((isPrefixOf_iff_prefix _ _).1 h)))]
    by_cases hc : ColourWord w
    · right
      rw [if_neg (by
        intro h
        rw [Bool.and_eq_true, Bool.not_eq_true', Bool.not_eq_true'] at h
        rcases hc with h' | h'
        · rw [(isPrefixOf_iff_prefix _ _).2 h'] at h; cases h.1
        · rw [(isPrefixOf_iff_prefix _ _).2 h'] at h; cases h.2)]
      by_cases hx : vs.getLast? = some (chars! "-Xclang")
      · left
        obtain ⟨us, rfl⟩ := List.getLast?_eq_some_iff.1 hx
        refine ⟨hc, ht, us, rfl, ?_⟩
        rw [if_pos (by simp)]
        simp
      · right
        refine ⟨hc, ht, hx, ?_⟩
        rw [if_neg hx]
    · left
      refine ⟨ht, hc, ?_⟩
      rw [if_pos]
      rw [Bool.and_eq_true, Bool.not_eq_true', Bool.not_eq_true']
      constructor
      · exact Bool.eq_false_iff.2 fun h => hc (.inl ((isPrefixOf_iff_prefix _ _).1 h))
      · exact Bool.eq_false_iff.2 fun h => hc (.inr ((isPrefixOf_iff_prefix _ _).1 h))

theorem not_colour_temps {w : Str} (h : ColourWord w) : ¬ TempsWord w := by
  rintro (h' | h') <;> rcases h with h | h <;>
    obtain ⟨a, rfl⟩ := h <;> obtain ⟨b, e⟩ := h' <;> simp at e

theorem syntaxOnly_not_colour {w : Str} (h : ColourWord w) : w ≠ chars! "-fsyntax-only" := by
  rintro rfl
  rcases h with h | h <;> exact absurd ((isPrefixOf_iff_prefix _ _).2 h) (by decide)

theorem syntaxOnly_not_temps {w : Str} (h : TempsWord w) : w ≠ chars! "-fsyntax-only" := by
  rintro rfl
  rcases h with h | h <;> exact absurd ((isPrefixOf_iff_prefix _ _).2 h) (by decide)

/-- The loop of the syntax adjuster. -/
theorem syntaxOnly_fold (ws : List Str) : ∃ vs, WithoutColours ws vs ∧
    ws.foldl syntaxOnlyStep ([], false) = (vs, decide (chars! "-fsyntax-only" ∈ vs)) := by
  induction ws using List.reverseRecOn with
  | nil => exact ⟨[], .nil, by simp⟩
  | append_singleton ws w ih =>
    obtain ⟨vs, hv, e⟩ := ih
    rw [List.foldl_append, e, List.foldl_cons, List.foldl_nil]
    rcases syntaxOnlyStep_cases vs (decide (chars! "-fsyntax-only" ∈ vs)) w with
      ⟨ht, h⟩ | ⟨ht, hc, h⟩ | ⟨hc, _, us, rfl, h⟩ | ⟨hc, _, hx, h⟩
    · exact ⟨vs, .temps hv ht, h⟩
    · refine ⟨vs ++ [w], .keep hv ht hc, ?_⟩
      rw [h]
      congr 1
      rw [Bool.eq_iff_iff, Bool.or_eq_true, decide_eq_true_eq, decide_eq_true_eq, decide_eq_true_eq,
        List.mem_append, List.mem_singleton, @eq_comm _ w]
    · refine ⟨us, .passedOn hv hc, ?_⟩
      rw [h]
      congr 1
      have := syntaxOnly_not_colour hc
      rw [Bool.eq_iff_iff]
      simp [this]
    · refine ⟨vs, .colour hv hc hx, ?_⟩
      rw [h]
      congr 1
      have := syntaxOnly_not_colour hc
      rw [Bool.eq_iff_iff]
      simp [this]

theorem withoutColours_unique {ws vs : List Str} (h : WithoutColours ws vs) :
    ∀ {us : List Str}, WithoutColours ws us → us = vs := by
  induction h with
  | nil =>
    intro us h
    generalize e : ([] : List Str) = ws at h
    cases h with
    | nil => rfl
    | keep => simp at e
    | temps => simp at e
    | passedOn => simp at e
    | colour => simp at e
  | @keep w ws vs _ ht hc ih =>
    intro us h
    generalize e : ws ++ [w] = zs at h
    cases h with
    | nil => simp at e
    | keep h _ _ => obtain ⟨rfl, rfl⟩ := List.append_singleton_inj.1 e; rw [ih h]
    | temps _ h => obtain ⟨rfl, rfl⟩ := List.append_singleton_inj.1 e; exact absurd h ht
    | passedOn _ h => obtain ⟨rfl, rfl⟩ := List.append_singleton_inj.1 e; exact absurd h hc
    | colour _ h => obtain ⟨rfl, rfl⟩ := List.append_singleton_inj.1 e; exact absurd h hc
  | @temps w ws vs _ ht ih =>
    intro us h
    generalize e : ws ++ [w] = zs at h
    cases h with
    | nil => simp at e
    | keep _ h => obtain ⟨rfl, rfl⟩ := List.append_singleton_inj.1 e; exact absurd ht h
    | temps h _ => obtain ⟨rfl, rfl⟩ := List.append_singleton_inj.1 e; exact ih h
    | passedOn _ h => obtain ⟨rfl, rfl⟩ := List.append_singleton_inj.1 e; exact absurd ht (not_colour_temps h)
    | colour _ h => obtain ⟨rfl, rfl⟩ := List.append_singleton_inj.1 e; exact absurd ht (not_colour_temps h)
  | @passedOn w ws vs _ hc ih =>
    intro us h
    generalize e : ws ++ [w] = zs at h
    cases h with
    | nil => simp at e
    | keep _ _ h => obtain ⟨rfl, rfl⟩ := List.append_singleton_inj.1 e; exact absurd hc h
    | temps _ h => obtain ⟨rfl, rfl⟩ := List.append_singleton_inj.1 e; exact absurd h (not_colour_temps hc)
    | passedOn h _ =>
      obtain ⟨rfl, rfl⟩ := List.append_singleton_inj.1 e
      exact (List.append_singleton_inj.1 (ih h)).1
    | colour h _ hx =>
      obtain ⟨rfl, rfl⟩ := List.append_singleton_inj.1 e
      exact absurd (by rw [ih h]; simp) hx
  | @colour w ws vs _ hc hx ih =>
    intro us h
    generalize e : ws ++ [w] = zs at h
    cases h with
    | nil => simp at e
    | keep _ _ h => obtain ⟨rfl, rfl⟩ := List.append_singleton_inj.1 e; exact absurd hc h
    | temps _ h => obtain ⟨rfl, rfl⟩ := List.append_singleton_inj.1 e; exact absurd h (not_colour_temps hc)
    | passedOn h _ =>
      obtain ⟨rfl, rfl⟩ := List.append_singleton_inj.1 e
      exact absurd (by rw [← ih h]; simp) hx
    | colour h _ _ => obtain ⟨rfl, rfl⟩ := List.append_singleton_inj.1 e; exact ih h

theorem keptWords_unique {ws vs us : List Str} (h : KeptWords ws vs) (h' : KeptWords ws us) : us = vs := by
  obtain ⟨m, h1, h2⟩ := h
  obtain ⟨n, g1, g2⟩ := h'
  obtain rfl := withoutOutput_unique h1 g1
  exact withoutColours_unique h2 g2

theorem adjusted_unique {d : Bool} {ws vs us : List Str} (h : Adjusted d ws vs) (h' : Adjusted d ws us) :
    us = vs := by
  cases h with
  | given hk hm =>
    cases h' with
    | given gk gm => exact keptWords_unique hk gk
    | added gk gm => rw [keptWords_unique hk gk] at gm; exact absurd hm gm
  | @added b a hk hm hp =>
    cases h' with
    | given gk gm => rw [keptWords_unique hk gk] at gm; exact absurd gm hm
    | @added b' a' gk gm gp =>
      have e := keptWords_unique hk gk
      have key : ∀ {x y x' y' : List Str}, x' ++ y' = x ++ y →
          (y = [] ∧ (d = true → chars! "--" ∉ x) ∨
            d = true ∧ chars! "--" ∉ x ∧ y.head? = some (chars! "--")) →
          (y' = [] ∧ (d = true → chars! "--" ∉ x') ∨
            d = true ∧ chars! "--" ∉ x' ∧ y'.head? = some (chars! "--")) →
          x'.length < x.length → False := by
        intro x y x' y' e h h' hl
        obtain ⟨t, rfl⟩ : x' <+: x := by
          have : x' <+: x ++ y := ⟨y', e⟩
          exact List.prefix_of_prefix_length_le this (List.prefix_append _ _) (by omega)
        rw [List.append_assoc] at e
        have e := List.append_cancel_left e
        subst e
        match t, hl with
        | [], hl => simp at hl
        | c :: t, hl =>
          rcases h' with ⟨h', _⟩ | ⟨hd, _, h'⟩
          · simp at h'
          · simp only [List.cons_append, List.head?_cons, Option.some.injEq] at h'
            rcases h with ⟨_, h⟩ | ⟨_, h, _⟩
            · exact h hd (by simp [h'])
            · exact h (by simp [h'])
      have hl : b'.length = b.length := by
        rcases Nat.lt_trichotomy b'.length b.length with h | h | h
        · exact (key e hp gp h).elim
        · exact h
        · exact (key e.symm gp hp h).elim
      obtain ⟨rfl, rfl⟩ := List.append_inj e hl
      rfl

theorem insertAtEnd_spec (d : Bool) (extra : Str) (args : List Str) : ∃ before after,
    args = before ++ after ∧ insertAtEnd d extra args = before ++ extra :: after ∧
    (after = [] ∧ (d = true → chars! "--" ∉ before) ∨
      d = true ∧ chars! "--" ∉ before ∧ after.head? = some (chars! "--")) := by
  unfold insertAtEnd
  cases d with
  | false =>
    refine ⟨args, [], by simp, ?_, .inl ⟨rfl, nofun⟩⟩
    simp
  | true =>
    refine ⟨_, _, (List.take_append_drop (args.findIdx fun w => decide (w = chars! "--")) args).symm,
      by simp, ?_⟩
    have hn : chars! "--" ∉ args.take (args.findIdx fun w => decide (w = chars! "--")) := by
      intro h
      obtain ⟨i, hi, e⟩ := List.getElem_of_mem h
      rw [List.getElem_take] at e
      rw [List.length_take] at hi
      have := List.not_of_lt_findIdx (p := fun w => decide (w = chars! "--")) (xs := args) (i := i) (by omega)
      simp [e] at this
    by_cases hl : (args.findIdx fun w => decide (w = chars! "--")) < args.length
    · right
      refine ⟨rfl, hn, ?_⟩
      rw [List.head?_drop, List.getElem?_eq_getElem hl]
      have := List.findIdx_getElem (w := hl)
      simpa using this
    · left
      exact ⟨List.drop_eq_nil_of_le (by omega), fun _ => hn⟩

/-- **C117** the two adjusters keep the words they should keep, and there is always a `-fsyntax-only`. -/
theorem C117_adjusted (dashes : Bool) (ws vs : List Str) (file : Str) :
    adjustArguments dashes ws file = vs ↔ Adjusted dashes ws vs := by
  have key : Adjusted dashes ws (adjustArguments dashes ws file) := by
    have ho : WithoutOutput ws (stripOutput ws) := (stripOutput_iff _ _).1 rfl
    obtain ⟨us, hu, e⟩ := syntaxOnly_fold (stripOutput ws)
    unfold adjustArguments syntaxOnly
    rw [e]
    dsimp only
    by_cases hm : chars! "-fsyntax-only" ∈ us
    · rw [if_neg (by simp only [hm]; decide)]
      exact .given ⟨_, ho, hu⟩ hm
    · rw [if_pos (by simp only [hm]; decide)]
      obtain ⟨b, a, e, e', hp⟩ := insertAtEnd_spec dashes (chars! "-fsyntax-only") us
      rw [e']
      exact .added (e ▸ ⟨_, ho, hu⟩) (e ▸ hm) hp
  exact ⟨fun h => h ▸ key, fun h => adjusted_unique h key⟩


/-- A word that does not begin with a dash. -/
theorem plain_word {w : Str} (h : w.head? ≠ some '-') :
    ¬ OutputWord w ∧ ¬ TempsWord w ∧ ¬ ColourWord w ∧ w ≠ chars! "-o" ∧ w ≠ chars! "-Xclang" ∧
      w ≠ chars! "--" ∧ w ≠ chars! "-fsyntax-only" := by
  have key : ∀ p : Str, p.head? = some '-' → ¬ p <+: w := by
    intro p hp hw
    obtain ⟨t, rfl⟩ := hw
    cases p with
    | nil => cases hp
    | cons c p => exact h hp
  refine ⟨key _ rfl, ?_, ?_, ?_, ?_, ?_, ?_⟩
  · rintro (h | h) <;> exact key _ rfl h
  · rintro (h | h) <;> exact key _ rfl h
  all_goals rintro rfl; exact h rfl

/-- The program of a command stays in front. -/
theorem withoutColours_cons {p : Str} (hp : p.head? ≠ some '-') {zs vs : List Str}
    (h : WithoutColours zs vs) : ∀ ws, zs = p :: ws → ∃ us, vs = p :: us := by
  obtain ⟨_, ht, hc, _, hx, _, _⟩ := plain_word hp
  have split : ∀ {ws zs : List Str} {w : Str}, ws ++ [w] = p :: zs →
      (ws = [] ∧ w = p) ∨ ∃ ws', ws = p :: ws' := by
    intro ws zs w e
    cases ws with
    | nil => simp at e; exact .inl ⟨rfl, e.1⟩
    | cons a ws => simp at e; exact .inr ⟨ws, by rw [e.1]⟩
  have hnil : ∀ {vs : List Str}, WithoutColours [] vs → vs = [] := fun h =>
    withoutColours_unique .nil h
  induction h with
  | nil => intro ws e; cases e
  | keep h _ _ ih =>
    intro ws e
    rcases split e with ⟨rfl, rfl⟩ | ⟨ws', rfl⟩
    · rw [hnil h]; exact ⟨[], rfl⟩
    · obtain ⟨us, rfl⟩ := ih ws' rfl
      exact ⟨us ++ [_], rfl⟩
  | temps _ h ih =>
    intro ws e
    rcases split e with ⟨rfl, rfl⟩ | ⟨ws', rfl⟩
    · exact absurd h ht
    · exact ih ws' rfl
  | @passedOn w' ws0 vs0 _ h ih =>
    intro ws e
    rcases split e with ⟨rfl, rfl⟩ | ⟨ws', rfl⟩
    · exact absurd h hc
    · obtain ⟨us, e⟩ := ih ws' rfl
      cases vs0 with
      | nil => simp at e; exact absurd e.1.symm hx
      | cons a vs => simp at e; exact ⟨vs, by rw [e.1]⟩
  | colour _ h _ ih =>
    intro ws e
    rcases split e with ⟨rfl, rfl⟩ | ⟨ws', rfl⟩
    · exact absurd h hc
    · exact ih ws' rfl

/-- Every command has kept words. -/
theorem keptWords_exists (ws : List Str) : ∃ vs, KeptWords ws vs := by
  obtain ⟨us, hu, _⟩ := syntaxOnly_fold (stripOutput ws)
  exact ⟨us, _, (stripOutput_iff _ _).1 rfl, hu⟩

theorem keptWords_cons {p : Str} (hp : p.head? ≠ some '-') {ws vs : List Str}
    (h : KeptWords (p :: ws) vs) : ∃ kept, vs = p :: kept := by
  obtain ⟨mid, h1, h2⟩ := h
  cases h1 with
  | keep _ h => exact withoutColours_cons hp h2 _ rfl
  | joined h => exact absurd h (plain_word hp).1
  | separate => exact absurd rfl hp
  | dangling => exact absurd rfl hp

/-- The adjusted words of a command, by whether `-fsyntax-only` is added at the end. -/
theorem adjusted_cases {dashes : Bool} {p : Str} (hp : p.head? ≠ some '-') {ws kept : List Str}
    (hk : KeptWords (p :: ws) (p :: kept)) :
    (chars! "-fsyntax-only" ∈ kept ∧ Adjusted dashes (p :: ws) (p :: kept)) ∨
    (chars! "-fsyntax-only" ∉ kept ∧ (dashes = true → chars! "--" ∉ kept) ∧
      Adjusted dashes (p :: ws) (p :: (kept ++ [chars! "-fsyntax-only"]))) ∨
    (chars! "-fsyntax-only" ∉ kept ∧ dashes = true ∧ ∃ before after, kept = before ++ chars! "--" :: after ∧
      chars! "--" ∉ before ∧
      Adjusted dashes (p :: ws) (p :: (before ++ chars! "-fsyntax-only" :: chars! "--" :: after))) := by
  obtain ⟨_, _, _, _, _, hd, hs⟩ := plain_word hp
  by_cases hm : chars! "-fsyntax-only" ∈ kept
  · exact .inl ⟨hm, .given hk (List.mem_cons_of_mem _ hm)⟩
  right
  have hm' : chars! "-fsyntax-only" ∉ p :: kept := by
    rw [List.mem_cons, not_or]; exact ⟨fun h => hs h.symm, hm⟩
  by_cases hdash : dashes = true ∧ chars! "--" ∈ kept
  · right
    obtain ⟨before, after, e, hb⟩ := List.eq_append_cons_of_mem hdash.2
    refine ⟨hm, hdash.1, before, after, e, hb, ?_⟩
    subst e
    refine Adjusted.added (before := p :: before) (after := chars! "--" :: after) hk hm'
      (.inr ⟨hdash.1, ?_, rfl⟩)
    rw [List.mem_cons, not_or]
    exact ⟨fun h => hd h.symm, hb⟩
  · left
    have hn : dashes = true → chars! "--" ∉ kept := fun h h' => hdash ⟨h, h'⟩
    refine ⟨hm, hn, ?_⟩
    have hn' : dashes = true → chars! "--" ∉ p :: kept := by
      intro h
      rw [List.mem_cons, not_or]
      exact ⟨fun h => hd h.symm, hn h⟩
    have hk' : KeptWords (p :: ws) ((p :: kept) ++ []) := by simpa using hk
    exact Adjusted.added (before := p :: kept) (after := []) hk' (by simpa using hm') (.inl ⟨rfl, hn'⟩)

/-- What both passes hand to Clang's driver: all adjusted words but `-gmodules`; in the checker pass
the last one is missing, whatever it is. -/
theorem C117_passes (dashes : Bool) (exe p file : Str) (hexe : exe ≠ "-gmodules".toList)
    (hp : p.head? ≠ some '-') (ws : List Str) : ∃ words last,
    Adjusted dashes (p :: ws) (p :: (words ++ [last])) ∧
    buildArgv exe (adjustArguments dashes (p :: ws) file) false =
      .ok (exe :: ((words ++ [last]).filter fun a => decide (a ≠ "-gmodules".toList)) ++
        ["-D__OCLINT__".toList]) ∧
    buildArgv exe (adjustArguments dashes (p :: ws) file) true =
      .ok (exe :: "--analyze".toList :: (words.filter fun a => decide (a ≠ "-gmodules".toList)) ++
        ["-D__OCLINT__".toList]) := by
  obtain ⟨vs, hk⟩ := keptWords_exists (p :: ws)
  obtain ⟨kept, rfl⟩ := keptWords_cons hp hk
  have key : ∃ words last, Adjusted dashes (p :: ws) (p :: (words ++ [last])) := by
    rcases adjusted_cases (dashes := dashes) hp hk with ⟨hm, ha⟩ | ⟨_, _, ha⟩ | ⟨_, _, b, a, _, _, ha⟩
    · rcases List.eq_nil_or_concat kept with rfl | ⟨words, last, rfl⟩
      · cases hm
      · rw [List.concat_eq_append] at ha; exact ⟨words, last, ha⟩
    · exact ⟨_, _, ha⟩
    · rcases List.eq_nil_or_concat (chars! "--" :: a) with h | ⟨words, last, h⟩
      · cases h
      · rw [h, List.concat_eq_append] at ha
        refine ⟨b ++ chars! "-fsyntax-only" :: words, last, ?_⟩
        simpa using ha
  obtain ⟨words, last, ha⟩ := key
  refine ⟨words, last, ha, ?_, ?_⟩
  · rw [(C117_adjusted _ _ _ _).2 ha]
    exact C22_normal_command_line exe p _ hexe
  · rw [(C117_adjusted _ _ _ _).2 ha]
    exact C22_checker_command_line exe p last words

/-- **C117** (partial) if the command has no `-fsyntax-only` of its own, nor, for a Clang that looks for it, a `--`, the
checker pass hands over the words of the first pass with `--analyze` in place of `-fsyntax-only`. -/
theorem C117_checker_partial (dashes : Bool) (exe p file : Str) (hexe : exe ≠ "-gmodules".toList)
    (hp : p.head? ≠ some '-') (ws kept : List Str) (hk : KeptWords (p :: ws) (p :: kept))
    (hs : chars! "-fsyntax-only" ∉ kept) (hd : dashes = true → chars! "--" ∉ kept) :
    buildArgv exe (adjustArguments dashes (p :: ws) file) false =
      .ok (exe :: (kept.filter fun a => decide (a ≠ "-gmodules".toList)) ++
        [chars! "-fsyntax-only", "-D__OCLINT__".toList]) ∧
    buildArgv exe (adjustArguments dashes (p :: ws) file) true =
      .ok (exe :: "--analyze".toList :: (kept.filter fun a => decide (a ≠ "-gmodules".toList)) ++
        ["-D__OCLINT__".toList]) := by
  have ha : Adjusted dashes (p :: ws) (p :: (kept ++ [chars! "-fsyntax-only"])) := by
    rcases adjusted_cases (dashes := dashes) hp hk with ⟨hm, _⟩ | ⟨_, _, ha⟩ | ⟨_, h, b, a, e, _⟩
    · exact absurd hm hs
    · exact ha
    · exact absurd (by rw [e]; simp) (hd h)
  rw [(C117_adjusted _ _ _ _).2 ha]
  refine ⟨?_, C22_checker_command_line exe p _ kept⟩
  rw [C22_normal_command_line exe p _ hexe, List.filter_append]
  have : ([chars! "-fsyntax-only"].filter fun a => decide (a ≠ "-gmodules".toList)) =
      [chars! "-fsyntax-only"] := by decide +kernel
  rw [this, List.cons_append, List.cons_append, List.append_assoc]
  rfl

/-- **C117** the checker pass hands over all words of the first pass, apart from `-fsyntax-only`,
exactly in these cases. -/
theorem C117_checker_iff (dashes : Bool) (exe p file : Str) (hexe : exe ≠ "-gmodules".toList)
    (hp : p.head? ≠ some '-') (ws kept : List Str) (hk : KeptWords (p :: ws) (p :: kept)) :
    (∃ first checker,
      buildArgv exe (adjustArguments dashes (p :: ws) file) false = .ok first ∧
      buildArgv exe (adjustArguments dashes (p :: ws) file) true = .ok checker ∧
      ∀ w, w ≠ chars! "-fsyntax-only" → ("--analyze".toList :: first).count w = checker.count w) ↔
    (chars! "-fsyntax-only" ∉ kept ∧ (dashes = true → chars! "--" ∉ kept)) ∨
      kept.getLast? = some (chars! "-fsyntax-only") ∨ kept.getLast? = some "-gmodules".toList := by
  generalize hg : "-gmodules".toList = g at *
  have hgs : chars! "-fsyntax-only" ≠ g := by rw [← hg]; decide +kernel
  generalize hsy : chars! "-fsyntax-only" = sy at *
  obtain ⟨words, last, ha, hf, hc⟩ := C117_passes dashes exe p file (hg ▸ hexe) hp ws
  rw [hf, hc]
  rw [hg]
  generalize "--analyze".toList = an
  generalize "-D__OCLINT__".toList = dd
  have hcount : (∃ first checker, Outcome.ok (exe :: ((words ++ [last]).filter fun a => decide (a ≠ g)) ++ [dd]) = .ok first ∧
      Outcome.ok (exe :: an :: (words.filter fun a => decide (a ≠ g)) ++ [dd]) = .ok checker ∧
      ∀ w, w ≠ sy → (an :: first).count w = checker.count w) ↔ last = sy ∨ last = g := by
    constructor
    · rintro ⟨f, c, hf, hc, h⟩
      cases hf; cases hc
      by_contra hn
      rw [not_or] at hn
      have := h last hn.1
      simp [List.filter_append, List.count_cons, List.count_append, hn.2] at this
      omega
    · intro h
      refine ⟨_, _, rfl, rfl, fun w hw => ?_⟩
      rcases h with rfl | rfl
      · simp [List.filter_append, List.count_cons, List.count_append, hgs, Ne.symm hw]
        omega
      · simp [List.filter_append, List.count_cons, List.count_append]
        omega
  rw [hcount]
  have hl : ∀ {a b : List Str} {x y : Str}, p :: (a ++ [x]) = p :: (b ++ [y]) → x = y := by
    intro a b x y e
    have := List.cons.inj e
    exact (List.append_singleton_inj.1 this.2).2
  rcases adjusted_cases (dashes := dashes) hp hk with ⟨hm, ha'⟩ | ⟨hm, hd, ha'⟩ | ⟨hm, hd, b, a, e, hb, ha'⟩
  · rw [hsy] at hm
    have e := adjusted_unique ha ha'
    have e : kept = words ++ [last] := (List.cons.inj e).2
    subst e
    simp only [List.getLast?_append, List.getLast?_singleton, Option.some_or, Option.some.injEq]
    tauto
  · rw [hsy] at hm ha'
    have e := hl (adjusted_unique ha ha')
    have hd' : dashes = true → chars! "--" ∉ kept := hd
    tauto
  · rw [hsy] at hm ha'
    have e' := (List.cons.inj (adjusted_unique ha ha')).2
    have hlast : (chars! "--" :: a).getLast? = some last := by
      have := congrArg List.getLast? e'
      rw [List.getLast?_append, List.getLast?_cons_cons, List.getLast?_append] at this
      rw [List.getLast?_eq_some_getLast (List.cons_ne_nil _ _)] at this ⊢
      simpa using this
    have hk' : kept.getLast? = some last := by
      rw [e, List.getLast?_append, hlast]; rfl
    rw [hk']
    have hmem : chars! "--" ∈ kept := by rw [e]; simp
    simp only [Option.some.injEq]
    tauto

/-- **C117** a source at the end of a command is kept if it is not the file of a `-o`. -/
theorem C117_source_kept (p src : Str) (hp : p.head? ≠ some '-') (hsrc : src.head? ≠ some '-')
    (pre : List Str) (ho : pre.getLast? ≠ some (chars! "-o")) :
    ∃ kept, KeptWords (p :: (pre ++ [src])) (p :: (kept ++ [src])) := by
  obtain ⟨h1, h2, h3, h4, h5, h6, h7⟩ := plain_word hsrc
  have hout : ∀ n, ∀ ws : List Str, ws.length ≤ n → ws.getLast? ≠ some (chars! "-o") →
      ∃ vs, WithoutOutput (ws ++ [src]) (vs ++ [src]) := by
    intro n
    induction n with
    | zero =>
      intro ws hl _
      obtain rfl : ws = [] := List.length_eq_zero_iff.1 (by omega)
      exact ⟨[], .keep h1 .nil⟩
    | succ n ih =>
      intro ws hl hlast
      match ws, hl, hlast with
      | [], _, _ => exact ⟨[], .keep h1 .nil⟩
      | w :: ws, hl, hlast =>
        have hl' : ws.length ≤ n := by simpa using hl
        by_cases hw : w = chars! "-o"
        · subst hw
          match ws, hl', hlast with
          | [], _, hlast => exact absurd rfl hlast
          | f :: ws, hl', hlast =>
            by_cases hws : ws.getLast? = some (chars! "-o")
            · exfalso
              apply hlast
              rw [List.getLast?_cons_cons]
              match ws, hws with
              | b :: ws, hws => rwa [List.getLast?_cons_cons]
            · obtain ⟨vs, h⟩ := ih ws (by simp at hl'; omega) hws
              exact ⟨vs, .separate h⟩
        · have hws : ws.getLast? ≠ some (chars! "-o") := by
            intro h
            apply hlast
            match ws, h with
            | b :: ws, h => rwa [List.getLast?_cons_cons]
          obtain ⟨vs, h⟩ := ih ws hl' hws
          by_cases hq : OutputWord w
          · exact ⟨vs, .joined hq hw h⟩
          · exact ⟨w :: vs, .keep hq h⟩
  obtain ⟨vs, hv⟩ := hout _ pre le_rfl ho
  obtain ⟨us, hu, _⟩ := syntaxOnly_fold (p :: vs)
  obtain ⟨kept, rfl⟩ := withoutColours_cons hp hu _ rfl
  refine ⟨kept, p :: (vs ++ [src]), .keep (plain_word hp).1 hv, ?_⟩
  exact WithoutColours.keep (ws := p :: vs) (vs := p :: kept) hu h2 h3

/-- **C117** (partial) `__OCLINT__` is defined in both passes if the command has no `--`. -/
theorem C117_macro_partial (dashes checker : Bool) (exe p file : Str) (hexe : exe ≠ "-gmodules".toList)
    (hdash : exe ≠ chars! "--") (hp : p.head? ≠ some '-') (ws kept : List Str)
    (hk : KeptWords (p :: ws) (p :: kept)) (hn : chars! "--" ∉ kept) :
    ∃ argv, buildArgv exe (adjustArguments dashes (p :: ws) file) checker = .ok argv ∧
      ReadAsOption argv "-D__OCLINT__".toList := by
  obtain ⟨words, last, ha, hf, hc⟩ := C117_passes dashes exe p file hexe hp ws
  have hw : chars! "--" ∉ words ++ [last] := by
    rcases adjusted_cases (dashes := dashes) hp hk with ⟨_, ha'⟩ | ⟨_, _, ha'⟩ | ⟨_, _, b, a, e, _⟩
    · rw [← (List.cons.inj (adjusted_unique ha ha')).2]; exact hn
    · rw [← (List.cons.inj (adjusted_unique ha ha')).2, List.mem_append, not_or]
      exact ⟨hn, by decide⟩
    · exact absurd (by rw [e]; simp) hn
  have ha : chars! "--" ≠ "--analyze".toList := by decide +kernel
  cases checker with
  | false =>
    refine ⟨_, hf, _, [], rfl, ?_⟩
    intro h
    rw [List.mem_cons] at h
    rcases h with h | h
    · exact hdash h.symm
    · exact hw (List.mem_filter.1 h).1
  | true =>
    refine ⟨_, hc, _, [], rfl, ?_⟩
    intro h
    rw [List.mem_cons, List.mem_cons] at h
    rcases h with h | h | h
    · exact hdash h.symm
    · exact ha h
    · exact hw (List.mem_append_left _ (List.mem_filter.1 h).1)

theorem keptWords_of_fold {ws vs : List Str}
    (h : ((stripOutput ws).foldl syntaxOnlyStep ([], false)).1 = vs) : KeptWords ws vs := by
  obtain ⟨us, hu, e⟩ := syntaxOnly_fold (stripOutput ws)
  rw [e] at h
  exact ⟨_, (stripOutput_iff _ _).1 rfl, h ▸ hu⟩

theorem readAsOption_cons (x w : Str) (xs : List Str) :
    ReadAsOption (x :: xs) w ↔ x = w ∨ (x ≠ chars! "--" ∧ ReadAsOption xs w) := by
  constructor
  · rintro ⟨b, a, e, h⟩
    cases b with
    | nil => exact .inl (List.cons.inj e).1
    | cons y b =>
      obtain ⟨rfl, rfl⟩ := List.cons.inj e
      rw [List.mem_cons, not_or] at h
      exact .inr ⟨fun h' => h.1 h'.symm, b, a, rfl, h.2⟩
  · rintro (rfl | ⟨hx, b, a, rfl, h⟩)
    · exact ⟨[], xs, rfl, nofun⟩
    · refine ⟨x :: b, a, rfl, ?_⟩
      rw [List.mem_cons, not_or]
      exact ⟨fun h' => hx h'.symm, h⟩

/-- **C117** what goes wrong: a command with `-fsyntax-only` loses its source in the checker pass; one
with `--` does so with a Clang that looks for `--`, and `-D__OCLINT__` is then no option in the first
pass; and a word is taken for an output only because it begins with `-o`. -/
theorem C117_witness (dashes : Bool) :
    buildArgv (chars! "oclint") (adjustArguments dashes
        [chars! "clang", chars! "-fsyntax-only", chars! "a.c"] []) true =
      .ok [chars! "oclint", chars! "--analyze", chars! "-fsyntax-only", chars! "-D__OCLINT__"] ∧
    buildArgv (chars! "oclint") (adjustArguments true [chars! "clang", chars! "--", chars! "a.c"] []) true =
      .ok [chars! "oclint", chars! "--analyze", chars! "-fsyntax-only", chars! "--",
        chars! "-D__OCLINT__"] ∧
    buildArgv (chars! "oclint") (adjustArguments true [chars! "clang", chars! "--", chars! "a.c"] []) false =
      .ok [chars! "oclint", chars! "-fsyntax-only", chars! "--", chars! "a.c", chars! "-D__OCLINT__"] ∧
    ¬ ReadAsOption [chars! "oclint", chars! "-fsyntax-only", chars! "--", chars! "a.c",
      chars! "-D__OCLINT__"] (chars! "-D__OCLINT__") ∧
    KeptWords [chars! "clang", chars! "-objcmt-migrate-all", chars! "a.m"] [chars! "clang", chars! "a.m"] := by
  refine ⟨by cases dashes <;> decide +kernel, by decide +kernel, by decide +kernel, ?_, ?_⟩
  · rw [readAsOption_cons, readAsOption_cons, readAsOption_cons]
    rintro (h | ⟨_, h | ⟨_, h | ⟨h, _⟩⟩⟩)
    · exact absurd h (by decide)
    · exact absurd h (by decide)
    · exact absurd h (by decide)
    · exact h rfl
  · exact keptWords_of_fold (by decide +kernel)

/-- **C117** (partial) the same of the passes of a run: what Clang compiles of such a job. -/
theorem C117_run_partial {U : Type} (tc : Toolchain U) (dashes : Bool) (htc : tc.adjust = adjustArguments dashes)
    (exe p cwd cwd' : Str) (hexe : exe ≠ "-gmodules".toList) (hp : p.head? ≠ some '-')
    (job : Str × CompileCommand) (ws kept : List Str) (hj : job.2.commandLine = p :: ws)
    (hk : KeptWords (p :: ws) (p :: kept)) (hs : chars! "-fsyntax-only" ∉ kept)
    (hd : dashes = true → chars! "--" ∉ kept) (r : CompileResult U) :
    (Compiles tc exe false cwd job r cwd' ↔ ∃ dir cc1, JobDirectory job dir ∧
      tc.chdir cwd dir = some cwd' ∧ r = tc.compile cwd' cc1 ∧
      FrontEnd (tc.build cwd' (exe :: (kept.filter fun a => decide (a ≠ "-gmodules".toList)) ++
        [chars! "-fsyntax-only", "-D__OCLINT__".toList])) cc1) ∧
    (Compiles tc exe true cwd job r cwd' ↔ ∃ dir cc1, JobDirectory job dir ∧
      tc.chdir cwd dir = some cwd' ∧ r = tc.compile cwd' cc1 ∧
      FrontEnd (tc.build cwd' (exe :: "--analyze".toList ::
        (kept.filter fun a => decide (a ≠ "-gmodules".toList)) ++ ["-D__OCLINT__".toList])) cc1) := by
  obtain ⟨h1, h2⟩ := C117_checker_partial dashes exe p job.1 hexe hp ws kept hk hs hd
  have key : ∀ checker argv, buildArgv exe (adjustArguments dashes (p :: ws) job.1) checker = .ok argv →
      (Compiles tc exe checker cwd job r cwd' ↔ ∃ dir cc1, JobDirectory job dir ∧
        tc.chdir cwd dir = some cwd' ∧ r = tc.compile cwd' cc1 ∧ FrontEnd (tc.build cwd' argv) cc1) := by
    intro checker argv h
    have hc : ClangCall exe checker (tc.adjust job.2.commandLine job.1) argv := by
      rw [htc, hj]; exact (buildArgv_iff _ _ _ _).1 h
    constructor
    · intro h
      cases h with
      | mk dir _ argv' cc1 h1 h2 h3 h4 =>
        obtain rfl := clangCall_unique hc h3
        exact ⟨dir, cc1, h1, h2, rfl, h4⟩
    · rintro ⟨dir, cc1, h1, h2, rfl, h4⟩
      exact .mk dir cwd' argv cc1 h1 h2 hc h4
  exact ⟨key _ _ h1, key _ _ h2⟩

/-! Cases -/

/-- A usual command of a compilation database. -/
example : KeptWords
    [chars! "cc", chars! "-Ifoo", chars! "-Xclang", chars! "-fcolor-diagnostics", chars! "-o", chars! "a.o",
      chars! "-save-temps=obj", chars! "-c", chars! "a.c"]
    [chars! "cc", chars! "-Ifoo", chars! "-c", chars! "a.c"] := keptWords_of_fold (by decide +kernel)

/-- Two colour words take two `-Xclang`. -/
example : KeptWords
    [chars! "cc", chars! "-Xclang", chars! "-Xclang", chars! "-fcolor-diagnostics",
      chars! "-fdiagnostics-color=always", chars! "a.c"]
    [chars! "cc", chars! "a.c"] := keptWords_of_fold (by decide +kernel)

end Oclint
