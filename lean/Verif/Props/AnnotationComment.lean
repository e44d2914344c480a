import Verif.Spec.AnnotationComment
import Verif.Props.Cocoa

/-!
# C28, C81: the comments of annotations
-/

namespace Oclint
open Spec

theorem actionName_bracket (action rule : Str) :
    '[' ∈ "oclint:".toList ++ (action ++ "[".toList ++ rule ++ "]".toList) := by
  simp only [List.mem_append]; exact Or.inr (Or.inl (Or.inl (Or.inr (by decide))))

theorem commentIn_unique {tail : Str} {c c' : Option Str} (h : CommentIn tail c) (h' : CommentIn tail c') :
    c = c' := by
  have split : ∀ {p p' r r' : Str}, '[' ∉ p → '[' ∉ p' → p ++ '[' :: r = p' ++ '[' :: r' → r = r' := by
    intro p
    induction p with
    | nil =>
      intro p' r r' _ h' e
      cases p' with
      | nil => exact (List.cons.inj e).2
      | cons x p' => exact absurd (List.mem_cons.2 (.inl (List.cons.inj e).1)) h'
    | cons x p ih =>
      intro p' r r' h h' e
      cases p' with
      | nil => exact absurd (List.mem_cons.2 (.inl (List.cons.inj e).1.symm)) h
      | cons y p' =>
        exact ih (fun h1 => h (List.mem_cons_of_mem _ h1)) (fun h1 => h' (List.mem_cons_of_mem _ h1))
          (List.cons.inj e).2
  have clash : ∀ {pre comment : Str}, '[' ∉ pre → ¬ ('[' ∉ pre ++ '[' :: comment ++ [']'] ∨
      ∃ p rest, '[' ∉ p ∧ pre ++ '[' :: comment ++ [']'] = p ++ '[' :: rest ∧ rest.getLast? ≠ some ']') := by
    intro pre comment hp h
    rcases h with h | ⟨p, rest, hp', e, hl⟩
    · exact h (by simp)
    · rw [List.append_assoc, List.cons_append] at e
      have := split hp hp' e
      exact hl (by rw [← this]; simp)
  generalize e : tail = t at h'
  cases h with
  | given pre comment hp =>
    cases h' with
    | given pre' comment' hp' =>
      rw [List.append_assoc, List.cons_append, List.append_assoc, List.cons_append] at e
      have := split hp hp' e
      rw [(List.append_singleton_inj.1 this).1]
    | missing _ h' => exact absurd (e ▸ h') (clash hp)
  | missing _ h =>
    cases h' with
    | given pre comment hp => exact absurd (e ▸ h) (clash hp)
    | missing => rfl

/-- The comment of one annotation. -/
theorem annotation_comment (name tail : Str) (h : '[' ∈ name) : ∃ c,
    CommentIn tail c ∧ attributeHasAnnotation (name ++ tail) name = some c := by
  by_cases hc : ∃ pre comment, '[' ∉ pre ∧ tail = pre ++ '[' :: comment ++ [']']
  · obtain ⟨pre, comment, hp, rfl⟩ := hc
    refine ⟨some comment, .given pre comment hp, ?_⟩
    have := attributeHasAnnotation_comment name pre comment h hp
    rw [← this]
    simp only [List.append_assoc]
  · refine ⟨none, .missing tail ?_, attributeHasAnnotation_no_comment _ _ h hc⟩
    by_cases hm : '[' ∈ tail
    · right
      obtain ⟨pre, rest, e, hp⟩ := List.eq_append_cons_of_mem hm
      refine ⟨pre, rest, hp, e, fun hl => hc ?_⟩
      obtain ⟨init, rfl⟩ := List.getLast?_eq_some_iff.1 hl
      exact ⟨pre, init, hp, by rw [e]; simp⟩
    · exact .inl hm

theorem baseAction_eq_none (anns : List Str) (action rule : Str) :
    baseDeclHasActionAttribute (some anns) action rule = none ↔ NoneNames action rule anns := by
  rw [← Option.not_isSome_iff_eq_none, baseAction_isSome]
  exact ⟨fun h a ha hn => h ⟨a, ha, hn⟩, fun h ⟨a, ha, hn⟩ => h a ha hn⟩

theorem baseAction_eq_some (anns : List Str) (action rule : Str) (c : Option Str) :
    baseDeclHasActionAttribute (some anns) action rule = some c ↔ FirstNames action rule anns c := by
  have hn : ∀ tail, "oclint:".toList ++ action ++ "[".toList ++ rule ++ "]".toList ++ tail =
      ("oclint:".toList ++ (action ++ "[".toList ++ rule ++ "]".toList)) ++ tail := by
    intro tail; simp only [List.append_assoc]
  change (anns.findSome? fun a => attributeHasAnnotation a
    ("oclint:".toList ++ (action ++ "[".toList ++ rule ++ "]".toList))) = some c ↔ _
  have hnames := names_iff action rule
  have hb := actionName_bracket action rule
  unfold FirstNames NoneNames
  simp only [hn]
  generalize "oclint:".toList ++ (action ++ "[".toList ++ rule ++ "]".toList) = name at hnames hb ⊢
  rw [List.findSome?_eq_some_iff]
  constructor
  · rintro ⟨before, a, after, e, h, hbefore⟩
    have ha : (attributeHasAnnotation a name).isSome := by rw [h]; rfl
    obtain ⟨tail, rfl⟩ := (attributeHasAnnotation_bracket _ _ hb).1 ha
    obtain ⟨c', hc', h'⟩ := annotation_comment name tail hb
    rw [h] at h'
    cases h'
    refine ⟨before, tail, after, e, fun b hb' hn => ?_, hc'⟩
    have := (hnames b).2 hn
    rw [hbefore b hb'] at this
    cases this
  · rintro ⟨before, tail, after, e, hbefore, hc⟩
    obtain ⟨c', hc', h'⟩ := annotation_comment name tail hb
    refine ⟨before, _, after, e, ?_, fun b hb' => ?_⟩
    · rw [h', commentIn_unique hc hc']
    · rw [← Option.not_isSome_iff_eq_none, hnames]
      exact hbefore b hb'

theorem propertyAction_none {acc : Bool} {prop : Option (List Str)} {action rule : Str} :
    (if acc = true then baseDeclHasActionAttribute prop action rule else none) = none ↔
      ∀ p, acc = true → prop = some p → NoneNames action rule p := by
  cases acc with
  | false => exact ⟨fun _ _ h => (by cases h), fun _ => rfl⟩
  | true =>
    rw [if_pos rfl]
    cases prop with
    | none => exact ⟨fun _ _ _ h => (by cases h), fun _ => rfl⟩
    | some q =>
      rw [baseAction_eq_none]
      exact ⟨fun h p _ e => by cases e; exact h, fun h => h q rfl rfl⟩

theorem commentOf_sound {action rule : Str} {d : DeclInfo} {c : Option Str} (h : CommentOf action rule d c) :
    declHasActionAttribute action rule d = some c := by
  induction h with
  | own d c h =>
    have h := (baseAction_eq_some _ _ _ _).2 h
    cases d with
    | plain anns => rw [declHasActionAttribute]; exact h
    | method anns acc prop ctx cats =>
      change baseDeclHasActionAttribute (some anns) action rule = some c at h
      rw [declHasActionAttribute.eq_def]
      simp only [h]
  | property anns prop ctx cats c h1 h2 =>
    rw [declHasActionAttribute.eq_def]
    simp only [(baseAction_eq_none _ _ _).2 h1, if_true, (baseAction_eq_some _ _ _ _).2 h2]
  | protocol anns acc prop look cats c h1 h2 h3 =>
    rw [declHasActionAttribute, (baseAction_eq_none _ _ _).2 h1]
    simp only
    rw [propertyAction_none.2 h2]
    exact (baseAction_eq_some _ _ _ _).2 h3
  | category anns acc prop before d after c h1 h2 h3 _ ih =>
    rw [declHasActionAttribute, (baseAction_eq_none _ _ _).2 h1]
    simp only
    rw [propertyAction_none.2 h2]
    simp only
    clear h1 h2
    induction before with
    | nil => rw [List.nil_append, categoriesHaveActionAttribute, ih]
    | cons e before ihb =>
      have hrest := ihb fun x hx => h3 x (List.mem_cons_of_mem _ hx)
      cases e with
      | none => rw [List.cons_append, categoriesHaveActionAttribute]; exact hrest
      | some e =>
        have he : declHasActionAttribute action rule e = none := by
          rw [← Option.not_isSome_iff_eq_none, declHasAction_iff]
          exact h3 e List.mem_cons_self
        rw [List.cons_append, categoriesHaveActionAttribute, he]
        exact hrest

mutual

theorem commentOf_complete (action rule : Str) (d : DeclInfo) (c : Option Str)
    (h : declHasActionAttribute action rule d = some c) : CommentOf action rule d c := by
  match d with
  | .plain anns =>
    rw [declHasActionAttribute] at h
    exact .own _ _ ((baseAction_eq_some _ _ _ _).1 h)
  | .method anns acc prop ctx cats =>
    rw [declHasActionAttribute.eq_def] at h
    simp only at h
    rcases hb : baseDeclHasActionAttribute (some anns) action rule with _ | c'
    · rw [hb] at h
      simp only at h
      have h1 := (baseAction_eq_none _ _ _).1 hb
      rcases hp : (if acc = true then baseDeclHasActionAttribute prop action rule else none) with _ | c'
      · rw [hp] at h
        simp only at h
        have h2 := propertyAction_none.1 hp
        match ctx, h with
        | .protocol (some look), h => exact .protocol _ _ _ _ _ _ h1 h2 ((baseAction_eq_some _ _ _ _).1 h)
        | .classWithInterface, h =>
          obtain ⟨before, d, after, e, h3, h4⟩ := commentOf_categories action rule cats c h
          rw [e]
          exact .category _ _ _ _ _ _ _ h1 h2 h3 h4
      · rw [hp] at h
        cases h
        match acc, prop, hp with
        | true, some p, hp =>
          rw [if_pos rfl] at hp
          exact .property _ _ _ _ _ h1 ((baseAction_eq_some _ _ _ _).1 hp)
    · rw [hb] at h
      cases h
      exact .own _ _ ((baseAction_eq_some _ _ _ _).1 hb)

theorem commentOf_categories (action rule : Str) (cats : List (Option DeclInfo)) (c : Option Str)
    (h : categoriesHaveActionAttribute action rule cats = some c) :
    ∃ before d after, cats = before ++ some d :: after ∧
      (∀ e, some e ∈ before → ¬ Requested action rule e) ∧ CommentOf action rule d c := by
  match cats with
  | [] => rw [categoriesHaveActionAttribute] at h; cases h
  | none :: rest =>
    rw [categoriesHaveActionAttribute] at h
    obtain ⟨before, d, after, e, h3, h4⟩ := commentOf_categories action rule rest c h
    refine ⟨none :: before, d, after, by rw [e]; rfl, fun x hx => ?_, h4⟩
    rcases List.mem_cons.1 hx with hx | hx
    · cases hx
    · exact h3 x hx
  | some d :: rest =>
    rw [categoriesHaveActionAttribute] at h
    rcases hd : declHasActionAttribute action rule d with _ | c'
    · rw [hd] at h
      obtain ⟨before, d', after, e, h3, h4⟩ := commentOf_categories action rule rest c h
      refine ⟨some d :: before, d', after, by rw [e]; rfl, fun x hx => ?_, h4⟩
      rcases List.mem_cons.1 hx with hx | hx
      · cases hx
        rw [← declHasAction_iff, hd]
        exact nofun
      · exact h3 x hx
    · rw [hd] at h
      cases h
      exact ⟨[], d, rest, rfl, nofun, commentOf_complete action rule d c hd⟩

end

/-- **C28.** Which annotation counts and which comment it carries. -/
theorem C28_comment_of (action rule : Str) (d : DeclInfo) (c : Option Str) :
    declHasActionAttribute action rule d = some c ↔ CommentOf action rule d c :=
  ⟨commentOf_complete action rule d c, commentOf_sound⟩

/-- **C81.** What the rule says, with the comment of the annotation that counts as advice. -/
theorem C81_comment (c : AnyCall) (t : Str) : t ∈ prohibitedCallVisit c ↔
    ∃ what name d comment hint, Calls c what name d ∧
      CommentOf "enforce".toList "prohibited method".toList d comment ∧ AdviceOf comment hint ∧
      t = "calling prohibited ".toList ++ what ++ [' '] ++ name ++ hint := by
  rw [C81_exact]
  have hadvice : ∀ comment hint, AdviceOf comment hint ↔ hint = advice (some comment) := by
    intro comment hint
    constructor
    · intro h
      cases h with
      | absent => rfl
      | blank => rfl
      | given c hc => exact (if_neg hc).symm
    · rintro rfl
      match comment with
      | none => exact .absent
      | some [] => exact .blank
      | some (x :: xs) => exact .given _ (List.cons_ne_nil _ _)
  constructor
  · rintro ⟨what, name, d, h1, h2, h3⟩
    rw [← C28_enforce] at h2
    obtain ⟨comment, hc⟩ := Option.isSome_iff_exists.1 h2
    rw [hc] at h3
    exact ⟨what, name, d, comment, _, h1, (C28_comment_of _ _ _ _).1 hc, (hadvice _ _).2 rfl, h3⟩
  · rintro ⟨what, name, d, comment, hint, h1, h2, h3, h4⟩
    have hc : declHasEnforceAttribute d "prohibited method".toList = some comment :=
      (C28_comment_of _ _ _ _).2 h2
    refine ⟨what, name, d, h1, (C28_enforce _ _).1 (by rw [hc]; rfl), ?_⟩
    rw [hc, h4, (hadvice _ _).1 h3]

/-- An accessor without annotations takes the comment of its property. -/
example : "calling prohibited method setX: instead use x".toList ∈ prohibitedCallVisit
    (.message "setX:".toList (some (.method [] true
      (some ["oclint:enforce[prohibited method][x]".toList]) .classWithInterface []))) := by
  decide +kernel

end Oclint
