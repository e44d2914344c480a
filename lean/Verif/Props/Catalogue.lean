import Verif.Spec.Catalogue
import Verif.Props.Main
import Verif.Props.Registry
import Verif.Props.Suppress
import Verif.Props.SourceLines
import Verif.Props.ReportLimits
import Verif.Model.ShortNames
import Verif.Model.RulesSwitch
import Verif.Model.Thresholds

/-!
# Property C94: the rules that are shipped
-/

namespace Oclint
open Spec

theorem shipped_get (r : RuleId) (h : IsShipped r) :
    ∃ s, shippedRules[r]? = some s ∧ s ∈ shippedRules ∧ shippedRule? r = some s := by
  have h' : r < shippedRules.length := h
  exact ⟨shippedRules[r], List.getElem?_eq_getElem h', List.getElem_mem h',
    List.getElem?_eq_getElem h'⟩

/-- A projection without duplicates tells the rules apart. -/
theorem shipped_inj {α : Type} (f : ShippedRule → α) (g : RuleId → α)
    (hg : ∀ r s, shippedRule? r = some s → g r = f s) (hn : (shippedRules.map f).Nodup)
    (r r' : RuleId) (h : IsShipped r) (h' : IsShipped r') (e : g r = g r') : r = r' := by
  obtain ⟨s, h1, _, h3⟩ := shipped_get r h
  obtain ⟨s', h1', _, h3'⟩ := shipped_get r' h'
  rw [hg r s h3, hg r' s' h3'] at e
  have hl : r < (shippedRules.map f).length := by rw [List.length_map]; exact h
  have hl' : r' < (shippedRules.map f).length := by rw [List.length_map]; exact h'
  refine (List.Nodup.getElem_inj_iff hn (hi := hl) (hj := hl')).1 ?_
  have e1 : shippedRules[r]'h = s := by
    have := List.getElem?_eq_getElem (show r < shippedRules.length from h)
    rw [h1] at this; exact (Option.some.inj this).symm
  have e2 : shippedRules[r']'h' = s' := by
    have := List.getElem?_eq_getElem (show r' < shippedRules.length from h')
    rw [h1'] at this; exact (Option.some.inj this).symm
  rw [List.getElem_map, List.getElem_map]
  exact (congrArg f e1).trans (e.trans (congrArg f e2).symm)

/-! ## Names -/

theorem names_nodup : (shippedRules.map ShippedRule.name).Nodup := by decide +kernel

theorem identifiers_nodup : (shippedRules.map ShippedRule.identifier).Nodup := by decide +kernel

theorem attributes_nodup : (shippedRules.map ShippedRule.attributeName).Nodup := by decide +kernel

theorem shippedIdentifier_eq (r : RuleId) (s : ShippedRule) (h : shippedRule? r = some s) :
    shippedIdentifier r = s.identifier := by
  unfold shippedIdentifier; rw [h]

theorem shippedAttribute_eq (r : RuleId) (s : ShippedRule) (h : shippedRule? r = some s) :
    shippedAttribute r = s.attributeName := by
  unfold shippedAttribute; rw [h]

theorem shippedInfo_eq (r : RuleId) (s : ShippedRule) (h : shippedRule? r = some s) :
    shippedInfo r = s.info := by
  unfold shippedInfo; rw [h]

/-- **C94.** No two shipped rules share a name, an identifier or an attribute name. -/
theorem C94_distinct (r r' : RuleId) (h : IsShipped r) (h' : IsShipped r')
    (e : (shippedInfo r).name = (shippedInfo r').name ∨ shippedIdentifier r = shippedIdentifier r' ∨
      shippedAttribute r = shippedAttribute r') : r = r' := by
  rcases e with e | e | e
  · exact shipped_inj ShippedRule.name (fun r => (shippedInfo r).name)
      (fun r s hs => by simp only [shippedInfo_eq r s hs]; rfl) names_nodup r r' h h' e
  · exact shipped_inj _ _ shippedIdentifier_eq identifiers_nodup r r' h h' e
  · exact shipped_inj _ _ shippedAttribute_eq attributes_nodup r r' h h' e

/-- **C94.** The identifiers are non-empty words of letters, so that they can be given on a command line
and listed in a configuration file; the names and categories are plain text. -/
theorem C94_plain (r : RuleId) (h : IsShipped r) :
    (shippedIdentifier r ≠ [] ∧ ∀ c ∈ shippedIdentifier r, c.isAlpha = true) ∧
      (shippedInfo r).name ≠ [] ∧ PlainWords (shippedInfo r).name ∧ PlainWords (shippedAttribute r) ∧
      (shippedInfo r).category ≠ [] ∧ ∀ c ∈ (shippedInfo r).category, c.isLower = true := by
  obtain ⟨s, _, hm, hs⟩ := shipped_get r h
  rw [shippedIdentifier_eq r s hs, shippedInfo_eq r s hs, shippedAttribute_eq r s hs]
  have key : ∀ s ∈ shippedRules, (s.identifier ≠ [] ∧ ∀ c ∈ s.identifier, c.isAlpha = true) ∧
      s.name ≠ [] ∧ (∀ c ∈ s.name, c.isAlpha = true ∨ c = ' ' ∨ c = '-' ∨ c = '/') ∧
      (∀ c ∈ s.attributeName, c.isAlpha = true ∨ c = ' ' ∨ c = '-' ∨ c = '/') ∧
      s.category ≠ [] ∧ ∀ c ∈ s.category, c.isLower = true := by decide +kernel
  exact key s hm

/-- **C94.** The documentation's link to the source, made of the category and the file name, points to
the file the rule is in. -/
theorem C94_source : ∀ s ∈ shippedRules, s.category = s.directory ∧ s.fileName = s.source := by
  decide +kernel

/-- The long line rule reads lines, every other rule walks the tree. -/
theorem C94_kinds : ∀ s ∈ shippedRules, s.kind = .lines ↔ s.name = "long line".toList := by
  decide +kernel

/-- The rules are those that the unit tests know, with the names, priorities and categories that these
demand. -/
theorem C94_tested :
    (shippedRules.map fun s => (s.name, s.priority, s.category)).Perm testedRules := by
  decide +kernel

/-- A rule is known by the name of its source file, with exceptions. -/
theorem C94_identifiers : ∀ s ∈ shippedRules,
    (s.source = s.identifier ++ chars! "Rule.cpp" ∧ ∀ e ∈ otherIdentifiers, e.1 ≠ s.name) ∨
      (s.name, s.identifier) ∈ otherIdentifiers := by
  decide +kernel

/-- A rule is suppressed by its name, with exceptions. -/
theorem C94_attributes : ∀ s ∈ shippedRules,
    (s.attributeName = s.name ∧ ∀ e ∈ otherAttributes, e.1 ≠ s.name) ∨
      (s.name, s.attributeName) ∈ otherAttributes := by
  decide +kernel

/-! ## Selecting rules -/

theorem lastRequest_shipped (asked : List (Bool × RuleId)) (hq : ∀ q ∈ asked, IsShipped q.2)
    (r : RuleId) (h : IsShipped r) :
    lastRequest (asked.map fun q => ⟨q.1, shippedIdentifier q.2⟩) (shippedIdentifier r) =
      lastAsked asked r := by
  unfold lastRequest lastAsked
  have hq' : ∀ q ∈ asked.reverse, IsShipped q.2 := fun q hm => hq q (List.mem_reverse.1 hm)
  rw [← List.map_reverse]
  generalize asked.reverse = l at hq'
  induction l with
  | nil => rfl
  | cons q l ih =>
    rw [List.map_cons, List.find?_cons, List.find?_cons]
    have hiff : shippedIdentifier q.2 = shippedIdentifier r ↔ q.2 = r :=
      ⟨fun e => C94_distinct _ _ (hq' q (by simp)) h (.inr (.inl e)), fun e => by rw [e]⟩
    by_cases e : q.2 = r
    · simp [e]
    · have e' : ¬ shippedIdentifier q.2 = shippedIdentifier r := fun x => e (hiff.1 x)
      simp only [e, e', decide_false]
      exact ih fun q hm => hq' q (by simp [hm])

theorem lastRequest_some (reqs : List Request) (n : Str) (b : Bool) (h : lastRequest reqs n = some b) :
    ∃ q ∈ reqs, q.name = n := by
  unfold lastRequest at h
  obtain ⟨q, hq, _⟩ := Option.map_eq_some_iff.1 h
  exact ⟨q, List.mem_reverse.1 (List.mem_of_find?_eq_some hq), of_decide_eq_true (List.find?_some hq :)⟩

theorem lastAsked_some (asked : List (Bool × RuleId)) (r : RuleId) (b : Bool)
    (h : lastAsked asked r = some b) : ∃ q ∈ asked, q.2 = r := by
  unfold lastAsked at h
  obtain ⟨q, hq, _⟩ := Option.map_eq_some_iff.1 h
  exact ⟨q, List.mem_reverse.1 (List.mem_of_find?_eq_some hq), of_decide_eq_true (List.find?_some hq :)⟩

/-- **C94.** Whatever shipped rules are loaded, in whatever order, and whatever is asked for and against
by identifier: the rules that run are the loaded ones that are wanted, in the order of loading.  A request
for or against one rule never touches another. -/
theorem C94_select (asked : List (Bool × RuleId)) (hq : ∀ q ∈ asked, IsShipped q.2)
    (load : List RuleId) (hl : ∀ r ∈ load, IsShipped r) :
    ∃ run, (filterAfter (asked.map fun q => ⟨q.1, shippedIdentifier q.2⟩)).filteredRules
        (registryAfter load) shippedIdentifier = .ok run ∧
      run.Sublist load ∧ ∀ r, r ∈ run ↔ r ∈ load ∧ Wanted asked r := by
  obtain ⟨run, h1, h2, h3⟩ := C11_last_request_wins
    (asked.map fun q => ⟨q.1, shippedIdentifier q.2⟩) load shippedIdentifier
  refine ⟨run, h1, h2, fun r => ?_⟩
  rw [h3]
  refine and_congr_right fun hr => ?_
  unfold Selected Wanted
  rw [lastRequest_shipped asked hq r (hl r hr)]
  refine and_congr_right fun _ => ?_
  have : (∃ n, lastRequest (asked.map fun q => ⟨q.1, shippedIdentifier q.2⟩) n = some true) ↔
      ∃ r', lastAsked asked r' = some true := by
    constructor
    · rintro ⟨n, hn⟩
      obtain ⟨q, hqm, hqn⟩ := lastRequest_some _ _ _ hn
      obtain ⟨q', hq', rfl⟩ := List.mem_map.1 hqm
      refine ⟨q'.2, ?_⟩
      rw [← lastRequest_shipped asked hq q'.2 (hq q' hq')]
      simp only at hqn
      rw [hqn]; exact hn
    · rintro ⟨r', hr'⟩
      obtain ⟨q', hq', e⟩ := lastAsked_some _ _ _ hr'
      refine ⟨shippedIdentifier r', ?_⟩
      rw [lastRequest_shipped asked hq r' (e ▸ hq q' hq')]
      exact hr'
  rw [this]

/-- **C94.** Asking against one rule removes that rule and no other; asking for one rule leaves it
alone. -/
theorem C94_one (r : RuleId) (h : IsShipped r) (load : List RuleId) (hl : ∀ r ∈ load, IsShipped r) :
    (filterAfter [⟨false, shippedIdentifier r⟩]).filteredRules (registryAfter load) shippedIdentifier =
        .ok (load.filter fun r' => decide (r' ≠ r)) ∧
      (filterAfter [⟨true, shippedIdentifier r⟩]).filteredRules (registryAfter load) shippedIdentifier =
        .ok (load.filter fun r' => decide (r' = r)) := by
  have key : ∀ b : Bool, ∀ r' ∈ load,
      (filterAfter [⟨b, shippedIdentifier r⟩]).accepts (shippedIdentifier r') =
        decide (if b then r' = r else r' ≠ r) := by
    intro b r' hr'
    rw [Bool.eq_iff_iff, accepts_iff, decide_eq_true_iff]
    have e := lastRequest_shipped [(b, r)] (by simpa using h) r' (hl r' hr')
    have e2 : ∀ x, lastRequest [⟨b, shippedIdentifier r⟩] x =
        if shippedIdentifier r = x then some b else none := by
      intro x
      unfold lastRequest
      by_cases hx : shippedIdentifier r = x <;> simp [hx]
    have e3 : lastAsked [(b, r)] r' = if r = r' then some b else none := by
      unfold lastAsked
      by_cases hx : r = r' <;> simp [hx]
    simp only [List.map_cons, List.map_nil] at e
    unfold Selected
    rw [e, e3]
    cases b with
    | false =>
      simp only [e2]
      by_cases hx : r = r'
      · simp [hx]
      · simp [hx, Ne.symm hx]
    | true =>
      simp only [e2]
      by_cases hx : r = r'
      · simp [hx]
      · simp [hx, Ne.symm hx]
  refine ⟨?_, ?_⟩
  · rw [filteredRules_eq]
    exact congrArg Outcome.ok (List.filter_congr fun r' hr' => key false r' hr')
  · rw [filteredRules_eq]
    exact congrArg Outcome.ok (List.filter_congr fun r' hr' => key true r' hr')

/-- The dead code rule (number 7) is switched off among three; the load order is kept. -/
example : (filterAfter [⟨false, "DeadCode".toList⟩]).filteredRules (registryAfter [63, 7, 0])
    shippedIdentifier = .ok [63, 0] := by decide +kernel

/-- An overridden identifier is the one that counts. -/
example : (filterAfter [⟨true, "HighNPathComplexity".toList⟩]).filteredRules
      (registryAfter ((List.range shippedRules.length))) shippedIdentifier = .ok [65] ∧
    (shippedInfo 65).name = "high npath complexity".toList := by decide +kernel

/-! ## Suppressing rules -/

theorem not_bracket (r : RuleId) (h : IsShipped r) : ']' ∉ shippedAttribute r := by
  intro hm
  have := (C94_plain r h).2.2.2.1 _ hm
  revert this
  decide

/-- **C94.** A declaration annotated against some shipped rules silences exactly these. -/
theorem C94_suppress (rs : List RuleId) (hrs : ∀ r ∈ rs, IsShipped r) (r : RuleId)
    (h : IsShipped r) :
    markedAsSuppress (.plain (rs.map suppressText)) (some (shippedAttribute r)) = true ↔ r ∈ rs := by
  rw [markedAsSuppress_iff]
  have pre : "oclint:suppress[".toList = "oclint:".toList ++ "suppress".toList ++ "[".toList := by
    decide +kernel
  constructor
  · rintro (h1 | h1)
    · obtain ⟨r', _, e⟩ := List.mem_map.1 h1
      have := congrArg List.length e
      unfold suppressText at this
      have l1 : "oclint:suppress[".toList.length = 16 := by decide +kernel
      have l2 : "oclint:suppress".toList.length = 15 := by decide +kernel
      rw [List.length_append, List.length_append, l1, l2] at this
      omega
    · cases h1 with
      | own _ a h2 h3 =>
        obtain ⟨r', hr', e⟩ := List.mem_map.1 (show a ∈ rs.map suppressText from h2)
        have h4 : Names "suppress".toList (shippedAttribute r') a := by
          refine ⟨[], ?_⟩
          rw [← e, List.append_nil]
          unfold suppressText
          rw [pre]
        have := C28_one_rule _ _ _ a (not_bracket r h) (not_bracket r' (hrs r' hr')) h3 h4
        rw [C94_distinct r r' h (hrs r' hr') (.inr (.inr this))]
        exact hr'
  · intro h1
    refine .inr (.own _ (suppressText r) (List.mem_map.2 ⟨r, h1, rfl⟩) ⟨[], ?_⟩)
    rw [List.append_nil]
    unfold suppressText
    rw [pre]

example : suppressText 18 = "oclint:suppress[base method]".toList ∧
    (shippedInfo 18).name = "missing call to base method".toList ∧
    markedAsSuppress (.plain [suppressText 18]) (some (shippedAttribute 18)) = true ∧
    markedAsSuppress (.plain [suppressText 18]) (some (shippedAttribute 21)) = false := by
  decide +kernel

/-! ## Counting violations -/

theorem shipped_priority (r : RuleId) (h : IsShipped r) :
    (Unlimited r → shippedPriority r = 10) ∧
    (¬ Unlimited r → shippedPriority r = 1 ∨ shippedPriority r = 2 ∨ shippedPriority r = 3) := by
  obtain ⟨s, _, hm, hs⟩ := shipped_get r h
  unfold shippedPriority Unlimited
  rw [shippedInfo_eq r s hs]
  have key : ∀ s ∈ shippedRules, (s.name = chars! "branch divergence" → s.priority = 10) ∧
      (¬ s.name = chars! "branch divergence" →
        s.priority = 1 ∨ s.priority = 2 ∨ s.priority = 3) := by decide +kernel
  exact key s hm

/-- **C94.** Every violation of a shipped rule other than `branch divergence` is counted against exactly
one of the three limits. -/
theorem C94_counted_partial (vs : List Violation)
    (h : ∀ v ∈ vs, ∃ r, v.rule = some r ∧ IsShipped r) :
    countWithPriority shippedPriority 1 vs + countWithPriority shippedPriority 2 vs +
        countWithPriority shippedPriority 3 vs =
      (vs.filter fun v => decide (∀ r, v.rule = some r → ¬ Unlimited r)).length := by
  induction vs with
  | nil => rfl
  | cons v vs ih =>
    have iht := ih fun w hw => h w (by simp [hw])
    obtain ⟨r, hr, hs⟩ := h v (by simp)
    have hp := shipped_priority r hs
    have e : ∀ p, countWithPriority shippedPriority p (v :: vs) =
        (if shippedPriority r = p then 1 else 0) + countWithPriority shippedPriority p vs := by
      intro p
      by_cases hx : shippedPriority r = p <;>
        simp [countWithPriority, hr, hx, Nat.add_comm]
    rw [e, e, e, List.filter_cons]
    by_cases hu : Unlimited r
    · replace hp := hp.1 hu
      have : ¬ (∀ r', v.rule = some r' → ¬ Unlimited r') := fun x => x r hr hu
      simp only [this, decide_false]
      rw [hp]
      simpa using iht
    · replace hp := hp.2 hu
      have : ∀ r', v.rule = some r' → ¬ Unlimited r' := by
        intro r' hr'
        rw [hr] at hr'
        cases hr'
        exact hu
      have hd : decide (∀ r', v.rule = some r' → ¬ Unlimited r') = true := decide_eq_true this
      simp only [hd, if_true, List.length_cons, ← iht]
      rcases hp with hp | hp | hp <;> rw [hp] <;> simp <;> omega

/-- **C94, the missing part.** `branch divergence` has priority 10: no limit, however low, is ever exceeded
by its violations, however many. -/
theorem C94_unlimited_witness :
    (∃ r, IsShipped r ∧ Unlimited r) ∧
    ∀ (st : OptionState) (a : Answers), a .errors = [] →
      (∀ v ∈ a .violations, ∃ r, v.rule = some r ∧ IsShipped r ∧ Unlimited r) →
      0 ≤ st.argMaxP1.value → 0 ≤ st.argMaxP2.value → 0 ≤ st.argMaxP3.value →
      handleExit shippedPriority st a = .ok .SUCCESS := by
  refine ⟨⟨35, by unfold IsShipped; decide +kernel, by decide +kernel⟩, ?_⟩
  intro st a he hv h1 h2 h3
  have hr : ∀ v ∈ a .violations, v.rule ≠ none := by
    intro v hm
    obtain ⟨r, hr, _⟩ := hv v hm
    rw [hr]; simp
  refine (C18_gate shippedPriority st a hr he).1.2 ?_
  have hz : ∀ p : Int, p ≠ 10 → countWithPriority shippedPriority p (a .violations) = 0 := by
    intro p hp
    unfold countWithPriority
    rw [List.length_eq_zero_iff, List.filter_eq_nil_iff]
    intro v hm
    obtain ⟨r, hr, hs, hu⟩ := hv v hm
    have := (shipped_priority r hs).1 hu
    rw [hr]
    simp only [Option.map_some, this, decide_eq_true_eq]
    intro x
    exact hp (Option.some.inj x).symm
  rw [hz 1 (by decide), hz 2 (by decide), hz 3 (by decide)]
  exact ⟨h1, h2, h3⟩

/-- Two violations of the dead code rule and one of branch divergence: two are counted. -/
example : countWithPriority shippedPriority 2 [⟨some 7, [], 1, 1, 1, 1, []⟩,
    ⟨some 35, [], 1, 1, 1, 1, []⟩, ⟨some 7, [], 2, 1, 2, 1, []⟩] = 2 := by decide +kernel

/-! ## Reporting violations -/

/-- **C94.** The names and categories of the shipped rules never disturb a report: whether a violation
can be read back from a report depends on its path and its message only. -/
theorem C94_reports (v : Violation) (r : RuleId) (hr : v.rule = some r) (h : IsShipped r) :
    (LineClean shippedInfo v ↔ ':' ∉ v.path ∧ '\n' ∉ v.path ∧ '\n' ∉ v.message) ∧
      (JsonClean shippedInfo v ↔ JsonSafe v.path ∧ JsonSafe v.message) ∧
      (XmlClean shippedInfo v ↔ XmlSafe v.path ∧ XmlSafe v.message) ∧
      (PmdClean shippedInfo v ↔ XmlSafe v.path ∧ v.message.all xmlChar = true) ∧
      (HtmlClean shippedInfo v ↔ HtmlSafe v.path ∧ HtmlSafe v.message) ∧
      PmdPriority shippedInfo v := by
  obtain ⟨s, _, hm, hs⟩ := shipped_get r h
  have hi := shippedInfo_eq r s hs
  have k1 : ∀ s ∈ shippedRules, '[' ∉ s.name ∧ '\n' ∉ s.name ∧ '|' ∉ s.category ∧
      '\n' ∉ s.category := by decide +kernel
  have k2 : ∀ s ∈ shippedRules, (∀ c ∈ s.name, c ≠ '"' ∧ c ≠ '\\' ∧ 32 ≤ c.toNat) ∧
      ∀ c ∈ s.category, c ≠ '"' ∧ c ≠ '\\' ∧ 32 ≤ c.toNat := by decide +kernel
  have k3 : ∀ s ∈ shippedRules, (∀ c ∈ s.name, c ≠ '<' ∧ c ≠ '&' ∧ c ≠ '"' ∧ 32 ≤ c.toNat) ∧
      ∀ c ∈ s.category, c ≠ '<' ∧ c ≠ '&' ∧ c ≠ '"' ∧ 32 ≤ c.toNat := by decide +kernel
  have k4 : ∀ s ∈ shippedRules, (∀ c ∈ s.name, c ≠ '<' ∧ c ≠ '&' ∧ xmlChar c = true) ∧
      ∀ c ∈ s.category, c ≠ '<' ∧ c ≠ '&' ∧ xmlChar c = true := by decide +kernel
  have k5 : ∀ s ∈ shippedRules, -1073741823 ≤ s.priority ∧ s.priority ≤ 1073741823 := by
    decide +kernel
  have one : ∀ P : RuleId → Prop, (∀ r', v.rule = some r' → P r') ↔ P r := by
    intro P
    rw [hr]
    exact ⟨fun x => x r rfl, fun x r' e => by cases e; exact x⟩
  refine ⟨?_, ?_, ?_, ?_, ?_, ?_⟩
  · unfold LineClean
    constructor
    · rintro ⟨_, _, a, b, c, _⟩
      exact ⟨a, b, c⟩
    · rintro ⟨a, b, c⟩
      have k := k1 s hm
      refine ⟨r, hr, a, b, c, ?_⟩
      rw [hi]
      exact k
  · unfold JsonClean
    rw [one, hi]
    exact ⟨fun x => ⟨x.1, x.2.1⟩, fun x => ⟨x.1, x.2, k2 s hm⟩⟩
  · unfold XmlClean
    rw [one, hi]
    exact ⟨fun x => ⟨x.1, x.2.1⟩, fun x => ⟨x.1, x.2, k3 s hm⟩⟩
  · unfold PmdClean
    rw [one, hi]
    exact ⟨fun x => ⟨x.1, x.2.1⟩, fun x => ⟨x.1, x.2, k3 s hm⟩⟩
  · unfold HtmlClean
    rw [one, hi]
    exact ⟨fun x => ⟨x.1, x.2.1⟩, fun x => ⟨x.1, x.2, k4 s hm⟩⟩
  · unfold PmdPriority
    rw [one, hi]
    exact k5 s hm

example : (shippedInfo 40).name = "empty do/while statement".toList ∧
    (shippedInfo 40).category = "empty".toList ∧ (shippedInfo 40).priority = 2 := by decide +kernel

/-! ## Languages -/

theorem shipped_masks : ∀ s ∈ shippedRules,
    (∀ l : Language, s.supportedLanguages.getLsbD l.bit = true ↔ MeantFor s.name l) ∧
    (s.cudaAttrs.getLsbD 0 = true ↔ s.name ≠ chars! "branch divergence") ∧
    (s.cudaAttrs.getLsbD 1 = true ↔
      s.name = chars! "branch divergence" ∨ s.name = chars! "high cyclomatic complexity") := by
  have key : ∀ s ∈ shippedRules,
      (∀ l ∈ [Language.c, .cxx, .objC], s.supportedLanguages.getLsbD l.bit = true ↔ MeantFor s.name l) ∧
      (s.cudaAttrs.getLsbD 0 = true ↔ s.name ≠ chars! "branch divergence") ∧
      (s.cudaAttrs.getLsbD 1 = true ↔
        s.name = chars! "branch divergence" ∨ s.name = chars! "high cyclomatic complexity") := by
    decide +kernel
  intro s hs
  refine ⟨fun l => (key s hs).1 l (by cases l <;> simp), (key s hs).2⟩

open Classical in
/-- **C94.** Outside CUDA a shipped rule is shown the declarations of a file exactly when it is meant for
the file's language; `branch divergence` never is. -/
theorem C94_languages (s : ShippedRule) (hs : s ∈ shippedRules) (o : LangOpts) (tu : List TopDecl)
    (hc : o.cuda = false) :
    visitorApply o s.supportedLanguages s.cudaAttrs tu =
      if (∃ l, InLanguage o l ∧ MeantFor s.name l) ∧ s.name ≠ chars! "branch divergence" then
        .setUp :: ((tu.filter fun d => decide (InMain d)).map fun d => .traverse d.id)
          ++ [.tearDown]
      else [] := by
  obtain ⟨h1, h2, _⟩ := shipped_masks s hs
  rw [C30_plain_unit o _ _ tu hc]
  simp only [h1, h2]

/-- **C94.** In a CUDA file the kernels are shown to `branch divergence` and `high cyclomatic complexity`
only, the other functions to every rule but `branch divergence`, and everything else to every rule,
whatever language it is meant for. -/
theorem C94_cuda (s : ShippedRule) (hs : s ∈ shippedRules) (o : LangOpts) (tu : List TopDecl)
    (hc : o.cuda = true) (d : TopDecl) (hd : d ∈ tu) (hi : ∀ d' ∈ tu, d'.id = d.id → d' = d) :
    VisitEvent.traverse d.id ∈ visitorApply o s.supportedLanguages s.cudaAttrs tu ↔
      InMain d ∧ (d.isFunction = true →
        if d.hasCUDAGlobal then
          s.name = chars! "branch divergence" ∨ s.name = chars! "high cyclomatic complexity"
        else s.name ≠ chars! "branch divergence") := by
  classical
  obtain ⟨_, h2, h3⟩ := shipped_masks s hs
  rw [C30_cuda_unit o _ _ tu hc]
  simp only [List.cons_append, List.mem_cons, List.mem_append, List.mem_map, List.mem_filter,
    List.not_mem_nil, or_false, reduceCtorEq, false_or, decide_eq_true_eq, VisitEvent.traverse.injEq]
  have hw : WantsCUDA s.cudaAttrs d ↔ (d.isFunction = true →
        if d.hasCUDAGlobal then
          s.name = chars! "branch divergence" ∨ s.name = chars! "high cyclomatic complexity"
        else s.name ≠ chars! "branch divergence") := by
    unfold WantsCUDA
    cases d.hasCUDAGlobal with
    | false => simp only [Bool.false_eq_true, if_false, h2]
    | true => simp only [if_true, h3]
  rw [← hw]
  constructor
  · rintro ⟨d', ⟨hm, hin⟩, e⟩
    rw [← hi d' hm e]
    exact hin
  · intro hin
    exact ⟨d, ⟨hd, hin⟩, rfl⟩

/-- **C94.** No shipped rule is useless: each is meant for some language, or for CUDA. -/
theorem C94_useful (s : ShippedRule) (hs : s ∈ shippedRules) :
    (∃ l, MeantFor s.name l) ∧
      (s.name ≠ chars! "branch divergence" → ∃ o : LangOpts, o.cuda = false ∧
        ∀ tu d, d ∈ tu → InMain d →
          VisitEvent.traverse d.id ∈ visitorApply o s.supportedLanguages s.cudaAttrs tu) := by
  have key : ∀ s ∈ shippedRules, ∃ l ∈ [Language.c, .cxx, .objC], MeantFor s.name l := by
    decide +kernel
  obtain ⟨l, _, hl⟩ := key s hs
  refine ⟨⟨l, hl⟩, fun hb => ?_⟩
  have : ∃ o : LangOpts, o.cuda = false ∧ InLanguage o l := by
    cases l with
    | c => exact ⟨⟨false, false, true, false⟩, rfl, .c rfl rfl rfl⟩
    | cxx => exact ⟨⟨false, true, true, false⟩, rfl, .cxx rfl rfl⟩
    | objC => exact ⟨⟨true, false, true, false⟩, rfl, .objC rfl⟩
  obtain ⟨o, hc, ho⟩ := this
  refine ⟨o, hc, fun tu d hd hm => ?_⟩
  rw [C94_languages s hs o tu hc, if_pos ⟨⟨l, ho, hl⟩, hb⟩]
  simp only [List.cons_append, List.mem_cons, List.mem_append, List.mem_map, List.mem_filter]
  exact .inr (.inl ⟨d, ⟨hd, by simpa using hm⟩, rfl⟩)

/-! ## Thresholds -/

theorem default_read (cfg : Configurations) (key value : Str) (d : Int) (h : cfg.hasKey key = false)
    (hv : atoi value = .ok d) :
    cfg.intForKey key d = .ok (d, cfg) ∧
      (cfg.addConfiguration key value).intForKey key d =
        .ok (d, cfg.addConfiguration key value) := by
  rw [hasKey_eq] at h
  refine ⟨?_, ?_⟩
  · rw [intForKey_eq]
    cases hc : cfgLookup cfg key with
    | none => rfl
    | some v => rw [hc] at h; cases h
  · rw [intForKey_eq, cfgLookup_add, if_pos rfl]
    simp only [hv]
    rfl

/-- A shipped rule documents the key with a text that names the default. -/
theorem stated {α : Type} (rule key before value : Str) (f : Configurations → α)
    (hd : ∃ s ∈ shippedRules, s.name = rule ∧
      (key, before ++ "default value is ".toList ++ value ++ ".".toList) ∈ s.thresholds)
    (hv : value ≠ [] ∧ ∀ c ∈ value, c.isDigit = true)
    (hf : ∀ cfg : Configurations, cfg.hasKey key = false →
      f cfg = f (cfg.addConfiguration key value)) : DefaultAsStated rule key f := by
  obtain ⟨s, h1, h2, h3⟩ := hd
  exact ⟨s, h1, h2, _, value, h3, ⟨⟨before, rfl⟩, hv⟩, hf⟩

theorem visitAll_congr (f g : Construct → Outcome (Option Str)) (h : ∀ c, f c = g c)
    (cs : List Construct) : visitAll f cs = visitAll g cs := by
  have : f = g := funext h
  rw [this]

theorem metric_visit_default (rule : MetricRule) (cfg : Configurations) (key value : Str)
    (hset : metricSetUp cfg rule = metricSetUp (cfg.addConfiguration key value) rule)
    (hvis : ∀ stored c, metricVisit cfg stored rule c =
      metricVisit (cfg.addConfiguration key value) stored rule c) :
    metricRule cfg rule = metricRule (cfg.addConfiguration key value) rule := by
  funext cs
  unfold metricRule
  rw [hset]
  congr 1
  funext stored
  exact visitAll_congr _ _ (hvis stored) cs

/-- **C94.** The default that the documentation of a rule states is the one the rule uses: leaving the
threshold unset and setting it to the stated value come to the same. -/
theorem C94_defaults :
    DefaultAsStated "high cyclomatic complexity".toList "CYCLOMATIC_COMPLEXITY".toList
        (fun cfg => metricRule cfg .cyclomatic) ∧
      DefaultAsStated "high npath complexity".toList "NPATH_COMPLEXITY".toList
        (fun cfg => metricRule cfg .npath) ∧
      DefaultAsStated "high ncss method".toList "NCSS_METHOD".toList
        (fun cfg => metricRule cfg .ncss) ∧
      DefaultAsStated "deep nested block".toList "NESTED_BLOCK_DEPTH".toList
        (fun cfg => metricRule cfg .depth) ∧
      DefaultAsStated "long method".toList "LONG_METHOD".toList
        (fun cfg => metricRule cfg .longMethod) ∧
      DefaultAsStated "long class".toList "LONG_CLASS".toList
        (fun cfg => metricRule cfg .longClass) ∧
      DefaultAsStated "too many fields".toList "TOO_MANY_FIELDS".toList
        (fun cfg => metricRule cfg .fields) ∧
      DefaultAsStated "too many methods".toList "TOO_MANY_METHODS".toList
        (fun cfg => metricRule cfg .methods) ∧
      DefaultAsStated "too many parameters".toList "TOO_MANY_PARAMETERS".toList
        (fun cfg => metricRule cfg .parameters) ∧
      DefaultAsStated "long variable name".toList "LONG_VARIABLE_NAME".toList
        (fun cfg => metricRule cfg .longName) ∧
      DefaultAsStated "short variable name".toList "SHORT_VARIABLE_NAME".toList shortNameRule ∧
      DefaultAsStated "long line".toList "LONG_LINE".toList
        (fun cfg apple rule u st line text => longLineEachLine apple cfg rule u st line text) ∧
      DefaultAsStated "too few branches in switch statement".toList
        "MINIMUM_CASES_IN_SWITCH".toList tooFewBranchesVisit := by
  refine ⟨?_, ?_, ?_, ?_, ?_, ?_, ?_, ?_, ?_, ?_, ?_, ?_, ?_⟩
  · refine stated _ _ "The cyclomatic complexity reporting threshold, ".toList "10".toList _ (by decide +kernel) (by decide +kernel)
      fun cfg h => ?_
    obtain ⟨e1, e2⟩ := default_read cfg _ "10".toList 10 h (by decide +kernel)
    refine metric_visit_default _ cfg _ _ rfl fun stored c => ?_
    cases c <;> first | rfl | (unfold metricVisit cyclomaticApply; rw [e1, e2]; rfl)
  · refine stated _ _ "The NPath complexity reporting threshold, ".toList "200".toList _ (by decide +kernel) (by decide +kernel)
      fun cfg h => ?_
    obtain ⟨e1, e2⟩ := default_read cfg _ "200".toList 200 h (by decide +kernel)
    refine metric_visit_default _ cfg _ _ rfl fun stored c => ?_
    cases c <;> first | rfl | (unfold metricVisit npathApply; rw [e1, e2]; rfl)
  · refine stated _ _ "The high NCSS method reporting threshold, ".toList "30".toList _ (by decide +kernel) (by decide +kernel)
      fun cfg h => ?_
    obtain ⟨e1, e2⟩ := default_read cfg _ "30".toList 30 h (by decide +kernel)
    refine metric_visit_default _ cfg _ _ rfl fun stored c => ?_
    cases c <;> first | rfl | (unfold metricVisit ncssApply; rw [e1, e2]; rfl)
  · refine stated _ _ "The depth of a block or compound statement reporting threshold, ".toList "5".toList _ (by decide +kernel) (by decide +kernel)
      fun cfg h => ?_
    obtain ⟨e1, e2⟩ := default_read cfg _ "5".toList 5 h (by decide +kernel)
    refine metric_visit_default _ cfg _ _ rfl fun stored c => ?_
    cases c <;> first | rfl | (unfold metricVisit depthApply; rw [e1, e2]; rfl)
  · refine stated _ _ "The long method reporting threshold, ".toList "50".toList _ (by decide +kernel) (by decide +kernel)
      fun cfg h => ?_
    obtain ⟨e1, e2⟩ := default_read cfg _ "50".toList 50 h (by decide +kernel)
    refine metric_visit_default _ cfg _ _ rfl fun stored c => ?_
    cases c <;> first | rfl | (unfold metricVisit longMethodApply; rw [e1, e2]; rfl)
  · refine stated _ _ "The class size reporting threshold, ".toList "1000".toList _ (by decide +kernel) (by decide +kernel)
      fun cfg h => ?_
    obtain ⟨e1, e2⟩ := default_read cfg _ "1000".toList 1000 h (by decide +kernel)
    refine metric_visit_default _ cfg _ _ ?_ fun stored c => by cases c <;> rfl
    unfold metricSetUp
    rw [e1, e2]
    rfl
  · refine stated _ _ "The reporting threshold for too many fields, ".toList "20".toList _ (by decide +kernel) (by decide +kernel)
      fun cfg h => ?_
    obtain ⟨e1, e2⟩ := default_read cfg _ "20".toList 20 h (by decide +kernel)
    refine metric_visit_default _ cfg _ _ ?_ fun stored c => by cases c <;> rfl
    unfold metricSetUp
    rw [e1, e2]
    rfl
  · refine stated _ _ "The reporting threshold for too many methods, ".toList "30".toList _ (by decide +kernel) (by decide +kernel)
      fun cfg h => ?_
    obtain ⟨e1, e2⟩ := default_read cfg _ "30".toList 30 h (by decide +kernel)
    refine metric_visit_default _ cfg _ _ ?_ fun stored c => by cases c <;> rfl
    unfold metricSetUp
    rw [e1, e2]
    rfl
  · refine stated _ _ "The reporting threshold for too many parameters, ".toList "10".toList _ (by decide +kernel) (by decide +kernel)
      fun cfg h => ?_
    obtain ⟨e1, e2⟩ := default_read cfg _ "10".toList 10 h (by decide +kernel)
    refine metric_visit_default _ cfg _ _ ?_ fun stored c => by cases c <;> rfl
    unfold metricSetUp
    rw [e1, e2]
    rfl
  · refine stated _ _ "The long variable name reporting threshold, ".toList "20".toList _ (by decide +kernel) (by decide +kernel)
      fun cfg h => ?_
    obtain ⟨e1, e2⟩ := default_read cfg _ "20".toList 20 h (by decide +kernel)
    refine metric_visit_default _ cfg _ _ rfl fun stored c => ?_
    cases c <;> first | rfl | (unfold metricVisit longNameVisit; rw [e1, e2]; rfl)
  · refine stated _ _ "The short variable name reporting threshold, ".toList
      "3".toList _ (by decide +kernel) (by decide +kernel) fun cfg h => ?_
    obtain ⟨e1, e2⟩ := default_read cfg _ "3".toList 3 h (by decide +kernel)
    funext stack roots
    show _ = _
    unfold shortNameRule
    rw [e1, e2]
    rfl
  · refine stated _ _ "The long line reporting threshold, ".toList
      "100".toList _ (by decide +kernel) (by decide +kernel) fun cfg h => ?_
    obtain ⟨e1, e2⟩ := default_read cfg _ "100".toList 100 h (by decide +kernel)
    funext apple rule u st line text
    show _ = _
    unfold longLineEachLine
    rw [e1, e2]
    rfl
  · refine stated _ _ "The reporting threshold for count of case statements in a switch statement, ".toList
      "3".toList _ (by decide +kernel) (by decide +kernel) fun cfg h => ?_
    obtain ⟨e1, e2⟩ := default_read cfg _ "3".toList 3 h (by decide +kernel)
    funext s
    show _ = _
    unfold tooFewBranchesVisit
    rw [e1, e2]
    rfl

/-- **C94.** These are all the thresholds that are documented. -/
theorem C94_documented :
    (shippedRules.flatMap fun s => s.thresholds.map fun t => (s.name, t.1)) =
      [("too few branches in switch statement".toList, "MINIMUM_CASES_IN_SWITCH".toList),
        ("long variable name".toList, "LONG_VARIABLE_NAME".toList),
        ("short variable name".toList, "SHORT_VARIABLE_NAME".toList),
        ("high cyclomatic complexity".toList, "CYCLOMATIC_COMPLEXITY".toList),
        ("long class".toList, "LONG_CLASS".toList),
        ("long line".toList, "LONG_LINE".toList),
        ("long method".toList, "LONG_METHOD".toList),
        ("high npath complexity".toList, "NPATH_COMPLEXITY".toList),
        ("high ncss method".toList, "NCSS_METHOD".toList),
        ("deep nested block".toList, "NESTED_BLOCK_DEPTH".toList),
        ("too many fields".toList, "TOO_MANY_FIELDS".toList),
        ("too many methods".toList, "TOO_MANY_METHODS".toList),
        ("too many parameters".toList, "TOO_MANY_PARAMETERS".toList)] := by decide +kernel

end Oclint
