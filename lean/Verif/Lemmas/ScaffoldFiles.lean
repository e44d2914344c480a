import Verif.Lemmas.Scaffold

/-!
# Lemmas about the files of the scaffolding scripts
-/

namespace Oclint
open Spec

/-! ### Filling in -/

instance noMarkDecidable : (s : Str) → Decidable (NoMark s)
  | [] => isTrue trivial
  | [c] => inferInstanceAs (Decidable (c ≠ '{'))
  | c :: d :: cs =>
    have := noMarkDecidable (d :: cs)
    inferInstanceAs (Decidable (¬ (c = '{' ∧ d = '{') ∧ NoMark (d :: cs)))

/-- Texts of a template have no marks. -/
def textOk : Part → Prop
  | .text s => NoMark s
  | .value _ => True

instance (p : Part) : Decidable (textOk p) := by
  cases p <;> unfold textOk <;> infer_instance

theorem replace_fill (parts : List Part) (hp : ∀ p ∈ parts, textOk p) (v : Field → Str)
    (hv : ∀ f, Token (v f)) (key new : Str) (hkey : KeyText key) :
    pyReplace (fill v parts) (wildcard key) new =
      fill (fun f => if v f = wildcard key then new else v f) parts := by
  unfold fill
  rw [replace_tokens key new hkey, List.map_map]
  · congr 1
    apply List.map_congr_left
    intro p hm
    cases p with
    | text s => exact if_neg (noMark_not_wildcard (hp _ hm))
    | value f => rfl
  · intro t ht
    obtain ⟨p, hm, rfl⟩ := List.mem_map.1 ht
    cases p with
    | text s => exact Or.inl (hp _ hm)
    | value f => exact hv f

/-- Some values, wildcards for the others. -/
def stage (keyOf : Field → Str) (v : Field → Str) (done : List Field) (f : Field) : Str :=
  if f ∈ done then v f else wildcard (keyOf f)

theorem replace_stage (keyOf : Field → Str) (hinj : ∀ f g, keyOf f = keyOf g → f = g)
    (hk : ∀ f, KeyText (keyOf f)) (parts : List Part) (hp : ∀ p ∈ parts, textOk p)
    (v : Field → Str) (done : List Field) (hd : ∀ f ∈ done, NoMark (v f)) (g : Field) :
    pyReplace (fill (stage keyOf v done) parts) (wildcard (keyOf g)) (v g) =
      fill (stage keyOf v (g :: done)) parts := by
  rw [replace_fill parts hp _ ?_ _ _ (hk g)]
  · congr 1
    funext f
    unfold stage
    by_cases hf : f ∈ done
    · rw [if_pos hf, if_neg (noMark_not_wildcard (hd f hf)), if_pos (List.mem_cons_of_mem _ hf)]
    · rw [if_neg hf]
      by_cases hfg : f = g
      · subst hfg
        rw [if_pos rfl, if_pos (by simp)]
      · rw [if_neg fun e => hfg (hinj _ _ (wildcard_inj e)), if_neg (by simp [hfg, hf])]
  · intro f
    unfold stage
    split
    · next hf => exact Or.inl (hd f hf)
    · exact Or.inr ⟨_, hk f, rfl⟩

/-- The keys of `scaffoldRule`. -/
def ruleKey : Field → Str
  | .className => "RULE_CLASS_NAME".toList
  | .name => "RULE_NAME".toList
  | .priority => "RULE_PRIORITY".toList
  | .category => "RULE_CATEGORY".toList
  | .version => "OCLINT_VERSION".toList
  | .visits => "VISIT_AST_NODE_BLOCK".toList

theorem ruleKey_inj : ∀ f g, ruleKey f = ruleKey g → f = g := by
  intro f g
  cases f <;> cases g <;> decide +kernel

theorem ruleKey_text : ∀ f, KeyText (ruleKey f) := by
  intro f
  unfold KeyText
  cases f <;> decide +kernel

theorem visits_wildcard : "{{VISIT_AST_NODE_BLOCK}}".toList = wildcard (ruleKey .visits) := by
  decide +kernel

/-- The texts to fill in, of a dictionary. -/
def dictFields (r : RuleDict) (nodes : Str) : Field → Str
  | .className => r.className
  | .name => r.name
  | .priority => r.priority
  | .category => r.category
  | .version => r.version
  | .visits => nodes

theorem replaceAll_stage (keyOf : Field → Str) (hinj : ∀ f g, keyOf f = keyOf g → f = g)
    (hk : ∀ f, KeyText (keyOf f)) (parts : List Part) (hp : ∀ p ∈ parts, textOk p)
    (v : Field → Str) (fs : List Field) (done : List Field) (hd : ∀ f ∈ done, NoMark (v f))
    (hf : ∀ f ∈ fs, NoMark (v f)) :
    replaceAll (fill (stage keyOf v done) parts) (fs.map fun f => (keyOf f, v f)) =
      fill (stage keyOf v (fs.reverse ++ done)) parts := by
  induction fs generalizing done with
  | nil => rfl
  | cons g fs ih =>
    have hg : ∀ f ∈ g :: done, NoMark (v f) := by
      intro f hm
      rcases List.mem_cons.1 hm with rfl | hm
      · exact hf _ (by simp)
      · exact hd f hm
    have := ih (g :: done) hg fun f hm => hf f (List.mem_cons_of_mem _ hm)
    unfold replaceAll at this ⊢
    rw [List.map_cons, List.foldl_cons, replace_stage keyOf hinj hk parts hp v done hd g, this]
    simp only [List.reverse_cons, List.append_assoc, List.singleton_append]

/-- The fields in the order in which `scaffoldRule` fills them in. -/
def ruleFieldOrder : List Field := [.className, .name, .priority, .category, .name, .version]

theorem ruleWildcards_eq (r : RuleDict) (nodes : Str) :
    ruleWildcards r = ruleFieldOrder.map fun f => (ruleKey f, dictFields r nodes f) := rfl

theorem replaceRule_fill (parts : List Part) (hp : ∀ p ∈ parts, textOk p) (r : RuleDict) (nodes : Str)
    (h1 : NoMark r.className) (h2 : NoMark r.name) (h3 : NoMark r.priority) (h4 : NoMark r.category)
    (h5 : NoMark r.version) :
    replaceRuleWildcards (fill (fun f => wildcard (ruleKey f)) parts) r nodes =
      fill (dictFields r nodes) parts := by
  have hv : ∀ f ∈ ruleFieldOrder, NoMark (dictFields r nodes f) := by
    intro f hf
    cases f with
    | className => exact h1
    | name => exact h2
    | priority => exact h3
    | category => exact h4
    | version => exact h5
    | visits => exact absurd hf (by decide)
  have e0 : (fun f => wildcard (ruleKey f)) = stage ruleKey (dictFields r nodes) [] := by
    funext f; simp [stage]
  unfold replaceRuleWildcards
  rw [e0, visits_wildcard, ruleWildcards_eq r nodes,
    replaceAll_stage ruleKey ruleKey_inj ruleKey_text parts hp _ _ [] (by simp) hv]
  have := replace_stage ruleKey ruleKey_inj ruleKey_text parts hp (dictFields r nodes)
    (ruleFieldOrder.reverse ++ []) (by
      intro f hf
      rw [List.append_nil, List.mem_reverse] at hf
      exact hv f hf) .visits
  refine Eq.trans this ?_
  congr 1
  funext f
  cases f <;> rfl

theorem ruleParts_ok (kind : TemplateKind) : ∀ p ∈ ruleParts kind, textOk p := by
  cases kind <;> decide +kernel

theorem ruleTestParts_ok : ∀ p ∈ ruleTestParts, textOk p := by decide +kernel

theorem ruleTemplate_eq (kind : TemplateKind) :
    ruleTemplate kind = fill (fun f => wildcard (ruleKey f)) (ruleParts kind) := by
  cases kind <;> decide +kernel

theorem ruleTestTemplate_eq :
    ruleTestTemplate = fill (fun f => wildcard (ruleKey f)) ruleTestParts := by
  decide +kernel

/-- The keys of `scaffoldReporter`; the others do not occur. -/
def reporterKey : Field → Str
  | .className => "REPORTER_CLASS_NAME".toList
  | .name => "REPORTER_NAME".toList
  | .priority => "3".toList
  | .category => "4".toList
  | .version => "5".toList
  | .visits => "6".toList

theorem reporterKey_inj : ∀ f g, reporterKey f = reporterKey g → f = g := by
  intro f g
  cases f <;> cases g <;> decide +kernel

theorem reporterKey_text : ∀ f, KeyText (reporterKey f) := by
  intro f
  unfold KeyText
  cases f <;> decide +kernel

/-- Only class and name are to be filled in. -/
def classOrName : Part → Prop
  | .text _ => True
  | .value f => f = .className ∨ f = .name

instance (p : Part) : Decidable (classOrName p) := by
  cases p <;> unfold classOrName <;> infer_instance

theorem fill_congr (parts : List Part) (v w : Field → Str)
    (h : ∀ p ∈ parts, classOrName p) (h1 : v .className = w .className) (h2 : v .name = w .name) :
    fill v parts = fill w parts := by
  unfold fill
  congr 1
  apply List.map_congr_left
  intro p hm
  have := h p hm
  cases p with
  | text s => rfl
  | value f =>
    rcases this with rfl | rfl
    · exact h1
    · exact h2

theorem replaceReporter_fill (parts : List Part) (hp : ∀ p ∈ parts, textOk p)
    (hc : ∀ p ∈ parts, classOrName p) (v : Field → Str) (h1 : NoMark (v .className)) :
    replaceReporterWildcards (fill (fun f => wildcard (reporterKey f)) parts) (v .className)
      (v .name) = fill v parts := by
  have step := replace_stage reporterKey reporterKey_inj reporterKey_text parts hp v
  have e0 : (fun f => wildcard (reporterKey f)) = stage reporterKey v [] := by
    funext f; simp [stage]
  have w1 : "{{REPORTER_CLASS_NAME}}".toList = wildcard (reporterKey .className) := by decide +kernel
  have w2 : "{{REPORTER_NAME}}".toList = wildcard (reporterKey .name) := by decide +kernel
  unfold replaceReporterWildcards
  rw [e0, w1, w2, step [] (by simp) .className,
    step [.className] (by intro f hf; simp only [List.mem_singleton] at hf; subst hf; exact h1) .name]
  exact fill_congr parts _ _ hc rfl rfl

theorem reporterParts_ok :
    (∀ p ∈ reporterParts, textOk p) ∧ ∀ p ∈ reporterParts, classOrName p := by decide +kernel
theorem reporterTestParts_ok :
    (∀ p ∈ reporterTestParts, textOk p) ∧ ∀ p ∈ reporterTestParts, classOrName p := by
  decide +kernel

theorem reporterTemplate_eq :
    reporterTemplate = fill (fun f => wildcard (reporterKey f)) reporterParts := by decide +kernel
theorem reporterTestTemplate_eq :
    reporterTestTemplate = fill (fun f => wildcard (reporterKey f)) reporterTestParts := by
  decide +kernel

end Oclint
