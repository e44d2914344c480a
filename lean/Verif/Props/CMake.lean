import Verif.Lemmas.CMakeScaffold
import Verif.Props.Scaffold
import Verif.Model.Catalogue

/-!
# C118: which plug-ins are built
-/

namespace Oclint
open Spec

/-! ## Paths -/

theorem listAt_eq (home c : Str) : listAt (rulesPlace home) c = listsIn (rulesDir home c) := by
  rw [listsIn_eq, rulesDir_eq]
  simp [listAt, rulesPlace, RR]

theorem rootAt_eq (home : Str) : rulesPlace home ++ chars! "/CMakeLists.txt" = rulesRootLists home := by
  rw [rulesRootLists_eq, listsIn_eq]
  simp [rulesPlace, RR]

theorem itemPlugin_eq (home c x : Str) : itemPlugin (rulesPlace home) (c, x) =
    ⟨x ++ "Rule".toList, ruleSource home c x⟩ := by
  rw [ruleSource_eq, rulesDir_eq]
  simp [itemPlugin, rulesPlace, RR]

/-! ## Scaffolding -/

theorem listed_plain {r : RuleRequest} (h : ListedRequest r) : PlainRequest r := by
  have hn : ∀ s : Str, PlainName s → ∀ x, ¬ CmPlain x → x ∉ s := fun s hs x hx hm => hx (hs.2 x hm)
  exact ⟨⟨h.category.1, hn _ h.category _ (by decide +kernel), hn _ h.category _ (by decide +kernel)⟩,
    ⟨hn _ h.className _ (by decide +kernel), hn _ h.className _ (by decide +kernel)⟩, h.name⟩

theorem scaffoldAll_checkout {home : Str} {stmts decls visits : Str} (hv : VisitsOf stmts decls visits)
    (rs : List RuleRequest) : ∀ {d d' : Disk}, Checkout home d stmts decls →
    (∀ r ∈ rs, PlainRequest r) → (∀ r ∈ rs, Unobstructed home d r) →
    scaffoldAll home d rs = ⟨d', none⟩ → Checkout home d' stmts decls := by
  induction rs with
  | nil => intro d d' hc _ _ h; cases h; exact hc
  | cons r rs ih =>
    intro d d' hc hp hu h
    have hr := hp r (by simp)
    have hur := hu r (by simp)
    have hps : ∀ q ∈ rs, PlainRequest q := fun q hq => hp q (List.mem_cons_of_mem _ hq)
    obtain ⟨d1, e1, s1⟩ := scaffoldRule_run home d stmts decls visits hc hv r hr hur
    rw [scaffoldAll, e1] at h
    exact ih (checkout_next hr hc hur s1) hps (fun q hq =>
      unobstructed_next (hps q hq) hr hc (hu q (List.mem_cons_of_mem _ hq)) s1) h

theorem listsRel_of {home : Str} {d d' : Disk} {rs : List RuleRequest} {visits : Str}
    (hr : ∀ r ∈ rs, PlainRequest r) (h : ScaffoldedAll home d rs visits d') :
    ListsRel (rulesPlace home) rs d d' := by
  have hin : ∀ c ∈ rs.map (·.category), d'.file (listsIn (rulesDir home c)) =
      some (contents d (listsIn (rulesDir home c)) ++ ((askedIn rs c).map ruleStep).flatten) := by
    intro c hc
    obtain ⟨r, hm, rfl⟩ := List.mem_map.1 hc
    rw [h.lists r hm, askedIn, List.map_map]
    rfl
  have hout : ∀ c, c ≠ [] → c.all cmNameChar = true → c ∉ rs.map (·.category) →
      d'.file (listsIn (rulesDir home c)) = d.file (listsIn (rulesDir home c)) := by
    intro c h0 h1 hc
    apply h.others
    intro r hm hw
    exact hc (List.mem_map.2 ⟨r, hm,
      lists_written (r := { className := [], category := c }) (hr r hm) (nameChars_plain h1 h0) hw⟩)
  constructor
  · intro c text h0 h1 hf
    rw [listAt_eq] at hf ⊢
    by_cases hc : c ∈ rs.map (·.category)
    · rw [hin c hc, contents, hf]
      rfl
    · have e : askedIn rs c = [] := by
        unfold askedIn
        rw [List.map_eq_nil_iff, List.filter_eq_nil_iff]
        intro r hm
        have : r.category ≠ c := fun e => hc (List.mem_map.2 ⟨r, hm, e⟩)
        simpa using this
      rw [hout c h0 h1 hc, hf, e]
      simp
  · intro c h0 h1 hc hf
    rw [listAt_eq] at hf ⊢
    rw [hout c h0 h1 hc, hf]
  · intro c hc hf
    rw [listAt_eq] at hf ⊢
    rw [hin c hc, contents, hf]
    rfl

theorem last_request {rs : List RuleRequest} {r : RuleRequest} (h : r ∈ rs) :
    ∃ a q b, rs = a ++ q :: b ∧ SameClass q r ∧ ∀ x ∈ b, ¬ SameClass x q := by
  induction rs with
  | nil => cases h
  | cons s rs ih =>
    by_cases hm : ∃ x ∈ rs, SameClass x r
    · have : ∃ x, x ∈ rs ∧ SameClass x r := hm
      clear ih
      induction rs generalizing s with
      | nil => obtain ⟨x, hx, -⟩ := hm; cases hx
      | cons t rs ih2 =>
        by_cases hm2 : ∃ x ∈ rs, SameClass x r
        · obtain ⟨a, q, b, e, h1, h2⟩ := ih2 r (by simp) hm2 hm2
          by_cases ha : a = []
          · subst ha
            rw [List.nil_append] at e
            cases e
            obtain ⟨x, hx, hs⟩ := hm2
            exact absurd ⟨hs.1.trans h1.1.symm, hs.2.trans h1.2.symm⟩ (h2 x hx)
          · obtain ⟨y, a, rfl⟩ := List.exists_cons_of_ne_nil ha
            rw [List.cons_append] at e
            cases e
            exact ⟨s :: t :: a, q, b, rfl, h1, h2⟩
        · obtain ⟨x, hx, hs⟩ := hm
          rcases List.mem_cons.1 hx with rfl | hx
          · exact ⟨[s], x, rs, rfl, hs, fun y hy hxy =>
              hm2 ⟨y, hy, hxy.1.trans hs.1, hxy.2.trans hs.2⟩⟩
          · exact absurd ⟨x, hx, hs⟩ hm2
    · rcases List.mem_cons.1 h with rfl | h
      · exact ⟨[], r, rs, rfl, ⟨rfl, rfl⟩, fun x hx hs => hm ⟨x, hx, hs⟩⟩
      · exact absurd ⟨r, h, rfl, rfl⟩ hm

/-- The sources of rules stay, and those that are asked for come. -/
theorem sources_present {home : Str} {d d' : Disk} {rs : List RuleRequest} {visits : Str}
    (h : ScaffoldedAll home d rs visits d') :
    (∀ r ∈ rs, d'.file (ruleSource home r.category r.className) ≠ none) ∧
      ∀ x, RR home ++ x ≠ rulesRootLists home → d.file (RR home ++ x) ≠ none →
        d'.file (RR home ++ x) ≠ none := by
  have h1 : ∀ r ∈ rs, d'.file (ruleSource home r.category r.className) ≠ none := by
    intro r hm
    obtain ⟨a, q, b, e, hs, hb⟩ := last_request hm
    have := h.rule a q b e hb
    rw [hs.1, hs.2] at this
    rw [this]
    nofun
  refine ⟨h1, ?_⟩
  intro x hx hd
  by_cases hw : ∃ r ∈ rs, RR home ++ x ∈ writtenBy home r
  · obtain ⟨r, hm, hw⟩ := hw
    rcases written_rules hw with e | e | e
    · rw [e]; exact h1 r hm
    · rw [e, h.lists r hm]; nofun
    · exact absurd e hx
  · rw [h.others _ fun r hm hw' => hw ⟨r, hm, hw'⟩]
    exact hd

/-- **C118.** In a tree whose rules can be built, whatever rules are scaffolded: if no two rules get the
same name, everything can be built afterwards, what was built before and one plug-in for each request.
If two do, whatever their categories, nothing can be built any more.  What is assumed is that the
categories that have a list are built, and that no category is waiting for one. -/
theorem C118_scaffolded (home : Str) (d : Disk) (stmts decls visits : Str)
    (hc : Checkout home d stmts decls) (hv : VisitsOf stmts decls visits) (rs : List RuleRequest)
    (hr : ∀ r ∈ rs, ListedRequest r) (hu : ∀ r ∈ rs, Unobstructed home d r)
    (s : CmState) (hb : configureRules d (rulesPlace home) = some s)
    (hs : ∀ r ∈ rs, r.category ∉ s.skipped)
    (ha : ∀ r ∈ rs, Present d (listsIn (rulesDir home r.category)) → r.category ∈ s.added) :
    ∃ d', scaffoldAll home d rs = ⟨d', none⟩ ∧
      (FreshNames s.built rs → ∃ s', configureRules d' (rulesPlace home) = some s' ∧
        s'.built.Perm (s.built ++ rs.map (requestedPlugin home)) ∧
        s.added <+: s'.added ∧ s'.skipped = s.skipped) ∧
      (¬ FreshNames s.built rs → configureRules d' (rulesPlace home) = none) := by
  have hp : ∀ r ∈ rs, PlainRequest r := fun r h => listed_plain (hr r h)
  obtain ⟨d', hd, h⟩ := C97_sequence home d stmts decls visits hc hv rs hp hu
  refine ⟨d', hd, ?_⟩
  have hc' := scaffoldAll_checkout hv rs hc hp hu hd
  have hl := listsRel_of hp h
  obtain ⟨p, hpl, hg, hn, rfl⟩ := (configureRules_iff d _ s).1 hb
  obtain ⟨text, ht⟩ := Option.ne_none_iff_exists'.1 hc.rulesLists
  obtain ⟨text', ht'⟩ := Option.ne_none_iff_exists'.1 hc'.rulesLists
  obtain ⟨new, -, hnd, hnew, hroot⟩ := h.roots
  rw [contents, contents, ht, ht'] at hroot
  simp only [Option.getD_some] at hroot
  obtain ⟨p', hpl', hadd, hskip, hitems⟩ := rootPlan_rel hr hl (text := text)
    (by rw [rootAt_eq]; exact ht) new hnd (by
      intro c
      rw [hnew, listAt_eq]
      refine and_congr_right fun _ => ?_
      constructor
      · intro hno
        by_contra hne
        exact hno (Option.ne_none_iff_exists'.1 hne)
      · rintro hno ⟨t, hpres⟩
        rw [hno] at hpres
        cases hpres)
    (by rw [rootAt_eq, ht', hroot]) hpl
    (by
      intro c hcs hm
      obtain ⟨r, hrm, rfl⟩ := List.mem_map.1 hm
      exact hs r hrm hcs)
    (by
      intro r hrm hne
      rw [listAt_eq] at hne
      exact ha r hrm (Option.ne_none_iff_exists'.1 hne))
  obtain ⟨src1, src2⟩ := sources_present h
  have hmapp : rs.map (requestedPlugin home) =
      (rs.map fun r => (r.category, r.className)).map (itemPlugin (rulesPlace home)) := by
    rw [List.map_map]
    apply List.map_congr_left
    intro r _
    rw [Function.comp, itemPlugin_eq]
    rfl
  have hperm : (p'.items.map (itemPlugin (rulesPlace home))).Perm
      (p.items.map (itemPlugin (rulesPlace home)) ++ rs.map (requestedPlugin home)) := by
    rw [hmapp, ← List.map_append]
    exact hitems.map _
  have hnodup : (p'.items.map fun i => (itemPlugin (rulesPlace home) i).target).Nodup ↔
      (rs.map (·.className)).Nodup ∧ ∀ r ∈ rs, ∀ x ∈ p.items.map (itemPlugin (rulesPlace home)),
        x.target ≠ r.className ++ "Rule".toList := by
    have e1 : (p'.items.map fun i => (itemPlugin (rulesPlace home) i).target).Perm
        ((p.items.map fun i => (itemPlugin (rulesPlace home) i).target) ++
          rs.map fun r => r.className ++ "Rule".toList) := by
      have := hperm.map Plugin.target
      rw [List.map_append, List.map_map, List.map_map, List.map_map] at this
      exact this
    rw [e1.nodup_iff, List.nodup_append]
    have e2 : (rs.map fun r => r.className ++ "Rule".toList).Nodup ↔ (rs.map (·.className)).Nodup := by
      have e3 : (rs.map fun r => r.className ++ "Rule".toList) =
          (rs.map (·.className)).map (· ++ "Rule".toList) := by
        rw [List.map_map]
        rfl
      rw [e3]
      exact List.nodup_map_iff fun a b e => List.append_cancel_right e
    rw [e2]
    constructor
    · rintro ⟨-, h1, h2⟩
      refine ⟨h1, ?_⟩
      intro r hrm x hx
      obtain ⟨i, hi, rfl⟩ := List.mem_map.1 hx
      exact h2 _ (List.mem_map.2 ⟨i, hi, rfl⟩) _ (List.mem_map.2 ⟨r, hrm, rfl⟩)
    · rintro ⟨h1, h2⟩
      refine ⟨hn, h1, ?_⟩
      intro a ha b hb
      obtain ⟨i, hi, rfl⟩ := List.mem_map.1 ha
      obtain ⟨r, hrm, rfl⟩ := List.mem_map.1 hb
      exact h2 r hrm _ (List.mem_map.2 ⟨i, hi, rfl⟩)
  have hold : ∀ i ∈ p.items, ItemGood d' (rulesPlace home) i := by
    intro i hi
    obtain ⟨g1, g2, g3⟩ := hg i hi
    refine ⟨g1, g2, ?_⟩
    have e : (itemPlugin (rulesPlace home) i).source = RR home ++ ('/' :: (i.1 ++ '/' ::
        ((i.2 ++ chars! "Rule") ++ chars! ".cpp"))) := by
      simp [itemPlugin, rulesPlace, RR]
    rw [e] at g3 ⊢
    apply src2 _ _ g3
    rw [rulesRootLists_eq, listsIn_eq]
    intro e
    have e' : (RR home ++ '/' :: (i.1 ++ '/' :: (i.2 ++ chars! "Rule.cp"))) ++ ['p'] =
        (RR home ++ chars! "/CMakeLists.tx") ++ ['t'] := by simpa using e
    have := (List.append_inj' e' rfl).2
    simp at this
  have hnewGood : ∀ r ∈ rs, ItemGood d' (rulesPlace home) (r.category, r.className) ↔
      r.className ≠ "OCLintAbstract".toList := by
    intro r hrm
    have h1 : ∀ c ∈ r.className ++ chars! "Rule", cmTargetChar c = true := by
      intro c hcm
      rcases List.mem_append.1 hcm with hcm | hcm
      · rcases (hr r hrm).className.2 c hcm with h | rfl
        · simp only [Char.isAlphanum, Bool.or_eq_true] at h
          simp only [cmTargetChar, Bool.or_eq_true]
          tauto
        · decide +kernel
      · exact (by decide +kernel : ∀ c ∈ chars! "Rule", cmTargetChar c = true) c hcm
    have h2 : r.className ++ chars! "Rule" ∉ ruleProjectTargets ↔
        r.className ≠ "OCLintAbstract".toList := by
      apply not_congr
      constructor
      · intro hm
        simp only [ruleProjectTargets, List.mem_cons, List.not_mem_nil, or_false] at hm
        rcases hm with hm | hm | hm
        · have : chars! "OCLintAbstractRule" = "OCLintAbstract".toList ++ chars! "Rule" := by
            decide +kernel
          rw [this] at hm
          exact List.append_cancel_right hm
        · have := congrArg List.getLast? hm
          simp at this
        · have := congrArg List.getLast? hm
          simp at this
      · intro e
        rw [e]
        decide +kernel
    constructor
    · rintro ⟨-, g, -⟩
      exact h2.1 g
    · intro hne
      refine ⟨h1, h2.2 hne, ?_⟩
      rw [itemPlugin_eq]
      exact src1 r hrm
  have hgood : (∀ i ∈ p'.items, ItemGood d' (rulesPlace home) i) ↔
      ∀ r ∈ rs, r.className ≠ "OCLintAbstract".toList := by
    constructor
    · intro hall r hrm
      exact (hnewGood r hrm).1 (hall _ (hitems.mem_iff.2
        (List.mem_append_right _ (List.mem_map.2 ⟨r, hrm, rfl⟩))))
    · intro hall i hi
      rcases List.mem_append.1 (hitems.mem_iff.1 hi) with hi | hi
      · exact hold i hi
      · obtain ⟨r, hrm, rfl⟩ := List.mem_map.1 hi
        exact (hnewGood r hrm).2 (hall r hrm)
  constructor
  · rintro ⟨f1, f2, f3⟩
    exact ⟨_, (configureRules_iff d' _ _).2 ⟨p', hpl', hgood.2 f3, hnodup.2 ⟨f1, f2⟩, rfl⟩, hperm,
      by simp only [hadd]; exact List.prefix_append _ _, hskip⟩
  · intro hf
    cases hcf : configureRules d' (rulesPlace home) with
    | none => rfl
    | some s' =>
      obtain ⟨q, hq, g1, g2, -⟩ := (configureRules_iff d' _ s').1 hcf
      rw [hpl'] at hq
      cases hq
      obtain ⟨f1, f2⟩ := hnodup.1 g2
      exact absurd ⟨f1, f2, hgood.1 g1⟩ hf

/-! ## The rules of the repository -/

/-- Is a macro being defined after these commands?  Nothing if there is another command. -/
def macroFlag (flag : Bool) (c : CmCommand) : Option Bool :=
  if flag then some (!decide (c.name = chars! "endmacro"))
  else if c.name = chars! "macro" then some true else none

theorem planRoot_macros (d : Disk) (root : Str) (p : RootPlan) (cs : List CmCommand) :
    ∀ f f', cs.foldlM macroFlag f = some f' →
      cs.foldlM (planRootStep d root) (f, p) = some (f', p) := by
  induction cs with
  | nil => intro f f' h; cases h; rfl
  | cons c cs ih =>
    intro f f' h
    rw [List.foldlM_cons] at h ⊢
    obtain ⟨g, h1, h2⟩ := Option.bind_eq_some_iff.1 h
    have : planRootStep d root (f, p) c = some (g, p) := by
      unfold macroFlag at h1
      unfold planRootStep
      cases f with
      | true => cases h1; rfl
      | false =>
        simp only [Bool.false_eq_true, if_false] at h1 ⊢
        split at h1
        · rename_i hm
          cases h1
          rw [if_pos hm]
        · cases h1
    rw [this]
    exact ih g f' h2

theorem planRoot_lists (d : Disk) (root : Str) (xs : List (Str × Str × List Str)) : ∀ {p : RootPlan},
    (∀ x ∈ xs, PlainName x.1 ∧ d.file (listAt root x.1) = some x.2.1 ∧
      planText x.2.1 = some x.2.2) →
    (p.added ++ xs.map (·.1)).Nodup →
    (xs.map fun x => categoryCmd x.1).foldlM (planRootStep d root) (false, p) =
      some (false, ⟨p.items ++ xs.flatMap (fun x => x.2.2.map (x.1, ·)), p.added ++ xs.map (·.1),
        p.skipped⟩) := by
  induction xs with
  | nil => intro p _ _; simp
  | cons x xs ih =>
    intro p hn hd
    obtain ⟨hpc, h1, h2⟩ := hn x (by simp)
    have hne : ¬ chars! "add_rule_category_directory" = chars! "macro" := by decide +kernel
    have hx : x.1 ∉ p.added := by
      intro hm
      exact (List.nodup_append.1 hd).2.2 _ hm _ (by simp) rfl
    have hs : planRootStep d root (false, p) (categoryCmd x.1) = some (false,
        ⟨p.items ++ x.2.2.map (x.1, ·), p.added ++ [x.1], p.skipped⟩) := by
      have ha : cmArgsOf (fun _ => []) [⟨x.1, false⟩] = some [x.1] := by
        rw [cmArgsOf, cmArg_plain _ _ hpc]
        rfl
      simp only [planRootStep, categoryCmd, if_neg hne, if_true, ha, Bool.false_eq_true, if_false]
      rw [planAdd, if_neg (by
        rintro (h | h)
        · exact hpc.1 h
        · rw [plain_nameChars hpc] at h; cases h)]
      rw [h1]
      simp only
      rw [if_neg (by simpa using hx), h2]
      rfl
    rw [List.map_cons, List.foldlM_cons, hs]
    have := ih (p := ⟨p.items ++ x.2.2.map (x.1, ·), p.added ++ [x.1], p.skipped⟩)
      (fun x hx => hn x (by simp [hx])) (by simpa using hd)
    rw [Option.bind_eq_bind, Option.bind_some, this]
    simp

/-- The categories with their lists and what these want to have built. -/
def shippedLists : List (Str × Str × List Str) :=
  categoryLists.map fun c => (c.1, cmText c.2, (planText (cmText c.2)).getD [])

/-- The definitions of the macros. -/
def macroCommands : List CmCommand :=
  ((cmCommands (cmText rootLines)).getD []).take 23

theorem root_commands : cmCommands (cmText rootLines) =
    some (macroCommands ++ shippedLists.map fun x => categoryCmd x.1) := by
  decide +kernel

theorem macro_commands : macroCommands.foldlM macroFlag false = some false := by
  decide +kernel

instance (s : Str) : Decidable (PlainName s) := inferInstanceAs (Decidable (_ ∧ ∀ c ∈ s, _))

theorem shipped_lists : ∀ x ∈ shippedLists, PlainName x.1 ∧ planText x.2.1 = some x.2.2 := by
  decide +kernel

/-- Everything that is to be built. -/
def shippedItems : List (Str × Str) := shippedLists.flatMap fun x => x.2.2.map (x.1, ·)

theorem shipped_rootPlan {root : Str} {sources : List (Str × Str)} {d : Disk}
    (h : ShippedDisk root sources d) :
    rootPlan d root = some ⟨shippedItems, categoryLists.map (·.1), []⟩ := by
  unfold rootPlan
  have ht : d.file (root ++ chars! "/CMakeLists.txt") = some (cmText rootLines) := h.top
  rw [ht, Option.bind_some, root_commands, Option.bind_some, List.foldlM_append,
    planRoot_macros d root _ _ false false macro_commands, Option.bind_eq_bind, Option.bind_some,
    planRoot_lists d root shippedLists]
  · simp only [List.nil_append]
    rw [show shippedLists.map (·.1) = categoryLists.map (·.1) by
      rw [shippedLists, List.map_map]; rfl]
    rfl
  · intro x hx
    obtain ⟨h1, h2⟩ := shipped_lists x hx
    refine ⟨h1, ?_, h2⟩
    obtain ⟨c, hc, rfl⟩ := List.mem_map.1 hx
    have := h.lists c hc
    rw [← this]
    congr 1
    simp [listAt]
  · decide +kernel

/-- Where the rules are. -/
def ruleSources : List (Str × Str) := shippedRules.map fun s => (s.directory, s.source)

theorem shipped_items : (∀ i ∈ shippedItems, ∃ s ∈ shippedRules, s.name ≠ chars! "feature envy" ∧
      s.directory = i.1 ∧ s.source = i.2 ++ chars! "Rule.cpp") ∧
    (∀ s ∈ shippedRules, s.name ≠ chars! "feature envy" → ∃ i ∈ shippedItems,
      s.directory = i.1 ∧ s.source = i.2 ++ chars! "Rule.cpp") ∧
    (shippedItems.map (·.2)).Nodup ∧
    (∀ i ∈ shippedItems, (∀ c ∈ i.2 ++ chars! "Rule", cmTargetChar c = true) ∧
      i.2 ++ chars! "Rule" ∉ ruleProjectTargets) := by
  decide +kernel

/-- **C118, what holds of it.** From the lists of the repository CMake builds one plug-in for every source
of a rule other than `feature envy`, under the name of the source, and nothing else. -/
theorem C118_built_partial (root : Str) (d : Disk) (h : ShippedDisk root ruleSources d) :
    ∃ built, configureRules d root = some ⟨built, categoryLists.map (·.1), []⟩ ∧
      (built.map (·.target)).Nodup ∧
      ∀ p, p ∈ built ↔ ∃ s ∈ shippedRules, s.name ≠ "feature envy".toList ∧
        p.source = root ++ "/".toList ++ s.directory ++ "/".toList ++ s.source ∧
        p.target ++ ".cpp".toList = s.source := by
  obtain ⟨i1, i2, i3, i4⟩ := shipped_items
  have hfe : "feature envy".toList = chars! "feature envy" := by decide +kernel
  have hsrc : ∀ (i : Str × Str) (s : ShippedRule), s.directory = i.1 →
      s.source = i.2 ++ chars! "Rule.cpp" → (itemPlugin root i).source =
        root ++ "/".toList ++ s.directory ++ "/".toList ++ s.source ∧
      (itemPlugin root i).target ++ ".cpp".toList = s.source := by
    intro i s h1 h2
    rw [h1, h2]
    constructor <;> simp [itemPlugin]
  have hn : (shippedItems.map fun i => (itemPlugin root i).target).Nodup := by
    have e : (shippedItems.map fun i => (itemPlugin root i).target) =
        (shippedItems.map (·.2)).map (· ++ chars! "Rule") := by
      rw [List.map_map]
      rfl
    rw [e]
    exact i3.map fun a b e => List.append_cancel_right e
  have hplan := shipped_rootPlan h
  generalize shippedItems = items at i1 i2 i3 i4 hn hplan ⊢
  refine ⟨items.map (itemPlugin root), (configureRules_iff d root _).2
    ⟨_, hplan, ?_, hn, rfl⟩, ?_, ?_⟩
  · intro i hi
    obtain ⟨s, hs, -, h1, h2⟩ := i1 i hi
    refine ⟨(i4 i hi).1, (i4 i hi).2, ?_⟩
    rw [(hsrc i s h1 h2).1]
    exact h.sources (s.directory, s.source) (List.mem_map.2 ⟨s, hs, rfl⟩)
  · rw [List.map_map]
    exact hn
  · intro p
    rw [hfe]
    constructor
    · intro hp
      obtain ⟨i, hi, rfl⟩ := List.mem_map.1 hp
      obtain ⟨s, hs, hne, h1, h2⟩ := i1 i hi
      exact ⟨s, hs, hne, hsrc i s h1 h2⟩
    · rintro ⟨s, hs, hne, h1, h2⟩
      obtain ⟨i, hi, h3, h4⟩ := i2 s hs hne
      obtain ⟨h5, h6⟩ := hsrc i s h3 h4
      refine List.mem_map.2 ⟨i, hi, ?_⟩
      have ht := List.append_cancel_right (h6.trans h2.symm)
      have hs' := h5.trans h1.symm
      obtain ⟨t, so⟩ := p
      simp only at ht hs'
      rw [← ht, ← hs']

/-- **C118, the missing part.** The source of `feature envy` is among the others, but it is not built:
its line in the list is a comment. -/
theorem C118_witness (root : Str) (d : Disk) (h : ShippedDisk root ruleSources d) (s : CmState)
    (hb : configureRules d root = some s) :
    ("design".toList, "FeatureEnvyRule.cpp".toList) ∈ ruleSources ∧
      ∀ p ∈ s.built, p.target ≠ "FeatureEnvyRule".toList ∧
        p.source ≠ root ++ "/design/FeatureEnvyRule.cpp".toList := by
  have hin : ("design".toList, "FeatureEnvyRule.cpp".toList) ∈ ruleSources := by decide +kernel
  refine ⟨hin, ?_⟩
  obtain ⟨built, h1, -, h2⟩ := C118_built_partial root d h
  rw [hb] at h1
  cases h1
  intro p hp
  obtain ⟨r, hr, hne, h3, h4⟩ := (h2 p).1 hp
  have hall : ∀ s ∈ shippedRules, s.source = "FeatureEnvyRule.cpp".toList →
      s.name = "feature envy".toList := by decide +kernel
  have ht : p.target ≠ "FeatureEnvyRule".toList := by
    intro e
    rw [e] at h4
    exact hne (hall r hr (h4.symm.trans (by decide +kernel)))
  refine ⟨ht, ?_⟩
  intro e
  rw [e] at h3
  have e2 : "/design/FeatureEnvyRule.cpp".toList = "/".toList ++ ("design".toList ++
    ("/".toList ++ "FeatureEnvyRule.cpp".toList)) := by decide +kernel
  rw [e2, List.append_assoc, List.append_assoc, List.append_assoc] at h3
  have h3 := List.append_cancel_left (List.append_cancel_left h3)
  have hd : ∀ s ∈ shippedRules, "design".toList ++ ("/".toList ++ "FeatureEnvyRule.cpp".toList) =
      s.directory ++ ("/".toList ++ s.source) → s.name = "feature envy".toList := by decide +kernel
  exact hne (hd r hr h3)

/-- On the disk of the examples nothing is built; two rules can be scaffolded and built, ... -/
example : configureRules exampleDisk (rulesPlace "h".toList) = some ⟨[], [], ["basic".toList]⟩ ∧
    (configureRules (scaffoldAll "h".toList exampleDisk [{ className := "LongLine".toList },
        { className := "Short".toList, category := "mine".toList }]).disk (rulesPlace "h".toList)).map
      (fun s => (s.built.map (·.source), s.added)) =
      some (["h/../oclint-rules/rules/custom/LongLineRule.cpp".toList,
        "h/../oclint-rules/rules/mine/ShortRule.cpp".toList], ["custom".toList, "mine".toList]) := by
  decide +kernel

/-- ... but not if they have the same name, even in two categories, and not in a category that has been
waiting. -/
example : configureRules (scaffoldAll "h".toList exampleDisk [{ className := "LongLine".toList },
        { className := "LongLine".toList, category := "mine".toList }]).disk
      (rulesPlace "h".toList) = none ∧
    configureRules (scaffoldAll "h".toList exampleDisk
        [{ className := "LongLine".toList, category := "basic".toList }]).disk
      (rulesPlace "h".toList) = none := by
  decide +kernel

/-- The hypotheses of `C118_scaffolded` can be satisfied. -/
example : ∃ d' s', scaffoldAll "h".toList exampleDisk [{ className := "LongLine".toList }] = ⟨d', none⟩ ∧
    configureRules d' (rulesPlace "h".toList) = some s' ∧
    s'.built.Perm [⟨"LongLineRule".toList, "h/../oclint-rules/rules/custom/LongLineRule.cpp".toList⟩] := by
  obtain ⟨visits, hv, -⟩ := C96_visits_unique "def IfStmt : StmtNode<Stmt>;\n".toList
    "def Var : DDecl<Named>;\n".toList
  have hl : ListedRequest { className := "LongLine".toList } := by
    constructor
    · decide +kernel
    · decide +kernel
    · decide +kernel
    · unfold Braceless; decide +kernel
  obtain ⟨d', h1, h2, -⟩ := C118_scaffolded _ _ _ _ _ exampleCheckout hv [{ className := "LongLine".toList }]
    (by
      intro r hr
      rw [List.mem_singleton] at hr
      rw [hr]
      exact hl)
    (by
      intro r hr
      rw [List.mem_singleton] at hr
      rw [hr]
      exact exampleFree) ⟨[], [], ["basic".toList]⟩ (by decide +kernel)
    (by
      intro r hr
      rw [List.mem_singleton] at hr
      rw [hr]
      decide +kernel)
    (by
      intro r hr
      rw [List.mem_singleton] at hr
      rw [hr]
      rintro ⟨t, ht⟩
      exact absurd (ht.symm.trans (by decide +kernel : _ = none)) (Option.some_ne_none t))
  obtain ⟨s', h3, h4, -⟩ := h2 ⟨by decide +kernel, by simp, by decide +kernel⟩
  exact ⟨d', s', h1, h3, h4.trans (List.Perm.of_eq (by decide +kernel))⟩

/-! ## Reporters -/

/-- What a list wants to have and what can be built does not change when files are added. -/
theorem reporterFold_mono {cmd suffix : Str} {d d' : Disk} {root : Str}
    (h : ∀ p, d.file p ≠ none → d'.file p ≠ none) (cs : List CmCommand) :
    ∀ {s t : Bool × List Plugin}, cs.foldlM (namedCommand cmd suffix d root) s = some t →
      cs.foldlM (namedCommand cmd suffix d' root) s = some t := by
  induction cs with
  | nil => intro s t hs; exact hs
  | cons c cs ih =>
    intro s t hs
    rw [List.foldlM_cons] at hs ⊢
    obtain ⟨u, h1, h2⟩ := Option.bind_eq_some_iff.1 hs
    have : namedCommand cmd suffix d' root s c = some u := by
      unfold namedCommand at h1 ⊢
      split
      · rename_i hf
        rw [if_pos hf] at h1
        exact h1
      · rename_i hf
        rw [if_neg hf] at h1
        split
        · rename_i hm
          rw [if_pos hm] at h1
          exact h1
        · rename_i hm
          rw [if_neg hm] at h1
          split
          · rename_i hb
            rw [if_pos hb] at h1
            generalize cmArgsOf (fun _ => []) c.args = oa at h1 ⊢
            match oa, h1 with
            | none, h1 => cases h1
            | some [], h1 => cases h1
            | some (_ :: _ :: _), h1 => cases h1
            | some [name], h1 =>
              obtain ⟨b, hb, rfl⟩ := Option.map_eq_some_iff.1 h1
              refine Option.map_eq_some_iff.2 ⟨b, ?_, rfl⟩
              unfold cmAddLibrary at hb ⊢
              simp only at hb ⊢
              split at hb
              · rename_i hc
                cases hb
                rw [if_pos]
                simp only [Bool.and_eq_true] at hc ⊢
                refine ⟨hc.1, ?_⟩
                rw [Option.isSome_iff_ne_none]
                exact h _ (Option.isSome_iff_ne_none.1 hc.2)
              · cases hb
          · rename_i hb
            rw [if_neg hb] at h1
            exact h1
    rw [this]
    exact ih h2

/-- What is built is there. -/
theorem reporterFold_sources {cmd suffix : Str} {d : Disk} {root : Str} (cs : List CmCommand) :
    ∀ {s t : Bool × List Plugin}, cs.foldlM (namedCommand cmd suffix d root) s = some t →
      (∀ p ∈ s.2, p.source = root ++ '/' :: p.target ++ chars! ".cpp" ∧ d.file p.source ≠ none) →
      ∀ p ∈ t.2, p.source = root ++ '/' :: p.target ++ chars! ".cpp" ∧ d.file p.source ≠ none := by
  induction cs with
  | nil => intro s t hs h; cases hs; exact h
  | cons c cs ih =>
    intro s t hs h
    rw [List.foldlM_cons] at hs
    obtain ⟨u, h1, h2⟩ := Option.bind_eq_some_iff.1 hs
    refine ih h2 ?_
    unfold namedCommand at h1
    split at h1
    · cases h1; exact h
    · split at h1
      · cases h1; exact h
      · split at h1
        · generalize cmArgsOf (fun _ => []) c.args = oa at h1
          match oa, h1 with
          | none, h1 => cases h1
          | some [], h1 => cases h1
          | some (_ :: _ :: _), h1 => cases h1
          | some [name], h1 =>
            obtain ⟨b, hb, rfl⟩ := Option.map_eq_some_iff.1 h1
            unfold cmAddLibrary at hb
            simp only at hb
            split at hb
            · rename_i hc
              cases hb
              simp only [Bool.and_eq_true] at hc
              intro p hp
              rcases List.mem_append.1 hp with hp | hp
              · exact h p hp
              · rw [List.mem_singleton] at hp
                rw [hp]
                exact ⟨rfl, Option.isSome_iff_ne_none.1 hc.2⟩
            · cases hb
        · split at h1
          · generalize cmArgsOf (fun _ => []) c.args = oa at h1
            match oa, h1 with
            | none, h1 => cases h1
            | some [], h1 => cases h1
            | some (target :: _), h1 =>
              simp only at h1
              split at h1
              · cases h1; exact h
              · cases h1
          · cases h1

/-- The command for a class. -/
def namedCmd (cmd x : Str) : CmCommand := ⟨cmd, [⟨x, false⟩]⟩

theorem adds_reporter (x : Str) (hx : PlainName x) :
    Adds (reporterStep x) [namedCmd (chars! "build_dynamic_reporter") x] := by
  intro s hs
  have e : reporterStep x = ['\n'] ++ (chars! "BUILD_DYNAMIC_REPORTER(" ++ (x ++ chars! ")\n")) := by
    simp [reporterStep, inLines]
  have h1 : cmRead s ['\n'] = ⟨s.done, .between⟩ := cmRead_newline s hs
  have h2 : ∀ done, cmRead ⟨done, .between⟩ (chars! "BUILD_DYNAMIC_REPORTER(") =
      ⟨done, .args (chars! "BUILD_DYNAMIC_REPORTER") []⟩ := fun _ => rfl
  have h3 : ∀ done w, cmRead ⟨done, .word (chars! "BUILD_DYNAMIC_REPORTER") [] w⟩ (chars! ")\n") =
      ⟨done ++ [namedCmd (chars! "build_dynamic_reporter") w], .between⟩ := fun _ _ => rfl
  rw [e, cmRead_append, h1, cmRead_append, h2, cmRead_append, cmRead_arg _ _ _ _ hx.1 hx.2, h3]
  exact ⟨rfl, rfl⟩

theorem plainName_append {x : Str} (hx : PlainName x) (y : Str) (hy : ∀ c ∈ y, CmPlain c) :
    PlainName (x ++ y) := by
  refine ⟨by simp [hx.1], fun c hc => ?_⟩
  rcases List.mem_append.1 hc with hc | hc
  · exact hx.2 c hc
  · exact hy c hc

theorem adds_reporterTest (x : Str) (hx : PlainName x) :
    Adds (reporterTestStep x) [namedCmd (chars! "build_test") (x ++ chars! "ReporterTest")] := by
  intro s hs
  have e : reporterTestStep x = ['\n'] ++ (chars! "BUILD_TEST(" ++
      ((x ++ chars! "ReporterTest") ++ chars! ")\n")) := by
    simp [reporterTestStep, inLines]
  have h1 : cmRead s ['\n'] = ⟨s.done, .between⟩ := cmRead_newline s hs
  have h2 : ∀ done, cmRead ⟨done, .between⟩ (chars! "BUILD_TEST(") =
      ⟨done, .args (chars! "BUILD_TEST") []⟩ := fun _ => rfl
  have h3 : ∀ done w, cmRead ⟨done, .word (chars! "BUILD_TEST") [] w⟩ (chars! ")\n") =
      ⟨done ++ [namedCmd (chars! "build_test") w], .between⟩ := fun _ _ => rfl
  have hp := plainName_append hx (chars! "ReporterTest") (by decide +kernel)
  rw [e, cmRead_append, h1, cmRead_append, h2, cmRead_append, cmRead_arg _ _ _ _ hp.1 hp.2, h3]
  exact ⟨rfl, rfl⟩

theorem plain_target {x : Str} (hx : PlainName x) : x.all cmTargetChar = true := by
  rw [List.all_eq_true]
  intro c hcm
  rcases hx.2 c hcm with h | rfl
  · simp only [Char.isAlphanum, Bool.or_eq_true] at h
    simp only [cmTargetChar, Bool.or_eq_true]
    tauto
  · decide +kernel

/-- What is added to a list for a class that it does not have is built in addition. -/
theorem named_next {cmd suffix : Str} (hcmd : cmd ≠ chars! "macro") {d d' : Disk} {root x text more : Str}
    (hx : PlainName x) (hxs : PlainName (x ++ suffix)) {built : List Plugin}
    (hb : configureNamed cmd suffix d root = some built)
    (hmono : ∀ p, d.file p ≠ none → d'.file p ≠ none)
    (hl : d.file (root ++ chars! "/CMakeLists.txt") = some text)
    (hl' : d'.file (root ++ chars! "/CMakeLists.txt") = some (text ++ more))
    (hm : Adds more [namedCmd cmd x])
    (n1 : d.file (root ++ '/' :: (x ++ suffix) ++ chars! ".cpp") = none)
    (n2 : d'.file (root ++ '/' :: (x ++ suffix) ++ chars! ".cpp") ≠ none) :
    configureNamed cmd suffix d' root =
      some (built ++ [⟨x ++ suffix, root ++ '/' :: (x ++ suffix) ++ chars! ".cpp"⟩]) := by
  unfold configureNamed at hb ⊢
  rw [hl, Option.bind_some] at hb
  rw [hl', Option.bind_some]
  cases hc : cmCommands text with
  | none => rw [hc] at hb; cases hb
  | some cs =>
    rw [hc, Option.bind_some] at hb
    rw [hm.commands hc, Option.bind_some, List.foldlM_append]
    cases hf : cs.foldlM (namedCommand cmd suffix d root) (false, []) with
    | none => rw [hf] at hb; cases hb
    | some t =>
      rw [hf] at hb
      obtain ⟨flag, b⟩ := t
      cases flag with
      | true => cases hb
      | false =>
        cases hb
        have hsrc := reporterFold_sources cs hf (by simp)
        rw [reporterFold_mono hmono cs hf, Option.bind_eq_bind, Option.bind_some]
        have hnew : x ++ suffix ∉ built.map (·.target) := by
          intro hm
          obtain ⟨p, hp, e⟩ := List.mem_map.1 hm
          obtain ⟨h1, h2⟩ := hsrc p hp
          rw [h1, e] at h2
          exact h2 n1
        obtain ⟨t, ht⟩ := Option.ne_none_iff_exists'.1 n2
        have hadd : cmAddLibrary d' root suffix [] built x =
            some (built ++ [⟨x ++ suffix, root ++ '/' :: (x ++ suffix) ++ chars! ".cpp"⟩]) := by
          unfold cmAddLibrary
          simp only
          rw [ht, plain_target hxs, List.contains_eq_mem (as := built.map (·.target)),
            decide_eq_false hnew]
          rfl
        have ha : cmArgsOf (fun _ => []) [⟨x, false⟩] = some [x] := by
          rw [cmArgsOf, cmArg_plain _ _ hx]
          rfl
        rw [List.foldlM_cons]
        simp only [namedCommand, namedCmd, if_neg hcmd, if_true, ha, Bool.false_eq_true,
          if_false, hadd]
        rfl

/-- The same, if nothing is added. -/
theorem named_same {cmd suffix : Str} {d d' : Disk} {root : Str} {built : List Plugin}
    (hb : configureNamed cmd suffix d root = some built)
    (hmono : ∀ p, d.file p ≠ none → d'.file p ≠ none)
    (hl : d'.file (root ++ chars! "/CMakeLists.txt") = d.file (root ++ chars! "/CMakeLists.txt")) :
    configureNamed cmd suffix d' root = some built := by
  unfold configureNamed at hb ⊢
  rw [hl]
  obtain ⟨text, ht, hb⟩ := Option.bind_eq_some_iff.1 hb
  obtain ⟨cs, hc, hb⟩ := Option.bind_eq_some_iff.1 hb
  rw [ht, Option.bind_some, hc, Option.bind_some]
  cases hf : cs.foldlM (namedCommand cmd suffix d root) (false, []) with
  | none => rw [hf] at hb; cases hb
  | some t =>
    rw [hf] at hb
    rw [reporterFold_mono hmono cs hf]
    exact hb

theorem reporter_mono {home : Str} {d d' : Disk} {r : ReporterRequest} (h : ReporterScaffolded home d r d') :
    ∀ p, d.file p ≠ none → d'.file p ≠ none := by
  intro p hp
  by_cases h1 : p ∈ [reporterSource home r.className, listsIn (reportersDir home)]
  · simp only [List.mem_cons, List.not_mem_nil, or_false] at h1
    rcases h1 with rfl | rfl
    · rw [h.reporter]; nofun
    · rw [h.lists]; nofun
  · by_cases h2 : r.tests = true ∧
      p ∈ [reporterTestSource home r.className, listsIn (reporterTestsDir home)]
    · obtain ⟨ht, h2⟩ := h2
      simp only [List.mem_cons, List.not_mem_nil, or_false] at h2
      rcases h2 with rfl | rfl
      · rw [h.test ht]; nofun
      · rw [h.testLists ht]; nofun
    · rw [h.others p h1 fun ht hm => h2 ⟨ht, hm⟩]
      exact hp

theorem not_present {d : Disk} {p : Str} (h : ¬ Present d p) : d.file p = none := by
  by_contra hn
  exact h (Option.ne_none_iff_exists'.1 hn)

theorem configureNamed_list {cmd suffix : Str} {d : Disk} {root : Str} {built : List Plugin}
    (hb : configureNamed cmd suffix d root = some built) :
    ∃ text, d.file (root ++ chars! "/CMakeLists.txt") = some text := by
  obtain ⟨text, ht, -⟩ := Option.bind_eq_some_iff.1 hb
  exact ⟨text, ht⟩

theorem reporter_next {home : Str} {d d' : Disk} {r : ReporterRequest} (hx : PlainName r.className)
    {built : List Plugin} (hb : configureReporters d (reportersDir home) = some built)
    (n1 : ¬ Present d (reporterSource home r.className)) (h : ReporterScaffolded home d r d') :
    configureReporters d' (reportersDir home) = some (built ++ [requestedReporter home r]) := by
  have el : reportersDir home ++ chars! "/CMakeLists.txt" = listsIn (reportersDir home) := rfl
  have es : reporterSource home r.className =
      reportersDir home ++ '/' :: (r.className ++ chars! "Reporter") ++ chars! ".cpp" := by
    simp [reporterSource]
  obtain ⟨text, ht⟩ := configureNamed_list hb
  have hl := h.lists
  rw [← el, contents, ht, Option.getD_some] at hl
  have := named_next (by decide +kernel) hx (plainName_append hx _ (by decide +kernel)) hb
    (reporter_mono h) ht hl (adds_reporter _ hx) (by rw [← es]; exact not_present n1)
    (by rw [← es, h.reporter]; nofun)
  rw [← es] at this
  exact this

/-- Whatever is kept up by each request that is taken holds after all of them. -/
theorem reporters_run (home : Str) (P : Disk → List ReporterRequest → Prop)
    (hP : ∀ d d' r acc, PlainName r.className → ¬ Present d (reporterSource home r.className) →
      (r.tests = true → ¬ Present d (reporterTestSource home r.className)) →
      ReporterScaffolded home d r d' → P d acc → P d' (acc ++ [r]))
    (rs : List ReporterRequest) : ∀ (d : Disk) (acc : List ReporterRequest),
    ReporterCheckout home d →
    (∀ r ∈ rs, PlainName r.className ∧ d.dir (reporterSource home r.className) = false ∧
      d.dir (reporterTestSource home r.className) = false) →
    P d acc →
    ∃ d' taken, scaffoldReporters home d rs = ⟨d', none⟩ ∧ Accepted home d rs taken ∧
      P d' (acc ++ taken) := by
  induction rs with
  | nil =>
    intro d acc _ _ hb
    exact ⟨d, [], rfl, .nil d, by simpa using hb⟩
  | cons r rs ih =>
    intro d acc hc hr hb
    obtain ⟨hx, f1, f2⟩ := hr r (by simp)
    have hn : ∀ x, ¬ CmPlain x → x ∉ r.className := fun x hx' hm => hx' (hx.2 x hm)
    have hsl : '/' ∉ r.className := hn _ (by decide +kernel)
    by_cases hp : Present d (reporterSource home r.className) ∨
        (r.tests = true ∧ Present d (reporterTestSource home r.className))
    · have he := (C98_refused home hc.place d r hsl).2 hp
      obtain ⟨d', taken, h1, h2, h3⟩ := ih d acc hc (fun q hq => hr q (by simp [hq])) hb
      refine ⟨d', taken, ?_, .refused hp h2, h3⟩
      rw [scaffoldReporters, he]
      exact h1
    · rw [not_or, not_and] at hp
      obtain ⟨d1, e1, s1⟩ := C98_run home d hc r hsl (hn _ (by decide +kernel)) f1 f2 hp.1 hp.2
      have hc1 : ReporterCheckout home d1 := by
        have ht : ∀ y, d1.file (reporterTemplatePath home y) = d.file (reporterTemplatePath home y) := by
          intro y
          have hne : ∀ a b : Str, home ++ ("/../oclint-reporters/".toList ++ 't' :: 'e' :: 'm' :: a) ≠
              home ++ ("/../oclint-reporters/".toList ++ 'r' :: b) ∧
              home ++ ("/../oclint-reporters/".toList ++ 't' :: 'e' :: 'm' :: a) ≠
              home ++ ("/../oclint-reporters/".toList ++ 't' :: 'e' :: 's' :: b) := by
            intro a b
            constructor <;> intro e <;>
              have := List.append_cancel_left (List.append_cancel_left e) <;> simp at this
          have e1 : reporterTemplatePath home y = home ++ ("/../oclint-reporters/".toList ++
              't' :: 'e' :: 'm' :: ("plate/".toList ++ y)) := by
            simp [reporterTemplatePath]
          apply s1.others
          · rw [e1]
            intro hm
            simp only [List.mem_cons, List.not_mem_nil, or_false] at hm
            rcases hm with hm | hm
            · exact (hne _ ("eporters/".toList ++ (r.className ++ "Reporter.cpp".toList))).1
                (hm.trans (by simp [reporterSource, reportersDir]))
            · exact (hne _ "eporters/CMakeLists.txt".toList).1
                (hm.trans (by simp [listsIn, reportersDir]))
          · intro _
            rw [e1]
            intro hm
            simp only [List.mem_cons, List.not_mem_nil, or_false] at hm
            rcases hm with hm | hm
            · exact (hne _ ("t/".toList ++ (r.className ++ "ReporterTest.cpp".toList))).2
                (hm.trans (by simp [reporterTestSource, reporterTestsDir]))
            · exact (hne _ "t/CMakeLists.txt".toList).2
                (hm.trans (by simp [listsIn, reporterTestsDir]))
        exact ⟨hc.place, by rw [s1.dirs]; exact hc.reporters, by rw [s1.dirs]; exact hc.tests,
          by rw [s1.dirs]; exact hc.lists, by rw [s1.dirs]; exact hc.testLists,
          by rw [ht]; exact hc.template, by rw [ht]; exact hc.testTemplate⟩
      obtain ⟨d', taken, h1, h2, h3⟩ := ih d1 _ hc1 (fun q hq => by
        rw [s1.dirs]; exact hr q (by simp [hq])) (hP _ _ _ _ hx hp.1 hp.2 s1 hb)
      refine ⟨d', r :: taken, ?_, .taken hp.1 hp.2 s1 h2, by simpa using h3⟩
      rw [scaffoldReporters, e1]
      exact h1

/-- **C118.** In a tree whose reporters can be built, whatever reporters are scaffolded with plain names,
everything can be built afterwards: what was built before, and one plug-in for each request that is not
refused. -/
theorem C118_reporters (home : Str) (rs : List ReporterRequest) (d : Disk) (built : List Plugin)
    (hc : ReporterCheckout home d)
    (hr : ∀ r ∈ rs, PlainName r.className ∧ d.dir (reporterSource home r.className) = false ∧
      d.dir (reporterTestSource home r.className) = false)
    (hb : configureReporters d (reportersDir home) = some built) :
    ∃ d' taken, scaffoldReporters home d rs = ⟨d', none⟩ ∧ Accepted home d rs taken ∧
      configureReporters d' (reportersDir home) = some (built ++ taken.map (requestedReporter home)) := by
  refine reporters_run home (fun d acc => configureReporters d (reportersDir home) =
    some (built ++ acc.map (requestedReporter home))) ?_ rs d [] hc hr (by simpa using hb)
  intro d d' r acc hx n1 _ h hb
  have := reporter_next hx hb n1 h
  simpa using this

theorem reporterFold_macros (cmd suffix : Str) (d : Disk) (root : Str) (b : List Plugin) (cs : List CmCommand) :
    ∀ f f', cs.foldlM macroFlag f = some f' →
      cs.foldlM (namedCommand cmd suffix d root) (f, b) = some (f', b) := by
  induction cs with
  | nil => intro f f' h; cases h; rfl
  | cons c cs ih =>
    intro f f' h
    rw [List.foldlM_cons] at h ⊢
    obtain ⟨g, h1, h2⟩ := Option.bind_eq_some_iff.1 h
    have : namedCommand cmd suffix d root (f, b) c = some (g, b) := by
      unfold macroFlag at h1
      unfold namedCommand
      cases f with
      | true => cases h1; rfl
      | false =>
        simp only [Bool.false_eq_true, if_false] at h1 ⊢
        split at h1
        · rename_i hm
          cases h1
          rw [if_pos hm]
        · cases h1
    rw [this]
    exact ih g f' h2

/-- The target of a class. -/
def namedPlugin (suffix root x : Str) : Plugin :=
  ⟨x ++ suffix, root ++ '/' :: (x ++ suffix) ++ chars! ".cpp"⟩

theorem reporterFold_list {cmd suffix : Str} (hcmd : cmd ≠ chars! "macro") (d : Disk) (root : Str)
    (xs : List Str) : ∀ b : List Plugin,
    (∀ x ∈ xs, PlainName x ∧ PlainName (x ++ suffix) ∧ d.file (namedPlugin suffix root x).source ≠ none) →
    (b.map (·.target) ++ xs.map fun x => x ++ suffix).Nodup →
    (xs.map (namedCmd cmd)).foldlM (namedCommand cmd suffix d root) (false, b) =
      some (false, b ++ xs.map (namedPlugin suffix root)) := by
  induction xs with
  | nil => intro b _ _; simp
  | cons x xs ih =>
    intro b hx hn
    obtain ⟨h1, h0, h2⟩ := hx x (by simp)
    have hnew : x ++ suffix ∉ b.map (·.target) := by
      intro hm
      exact (List.nodup_append.1 hn).2.2 _ hm _ (List.mem_map.2 ⟨x, by simp, rfl⟩) rfl
    have hadd : cmAddLibrary d root suffix [] b x = some (b ++ [namedPlugin suffix root x]) := by
      obtain ⟨t, ht⟩ := Option.ne_none_iff_exists'.1 h2
      rw [namedPlugin] at ht
      unfold cmAddLibrary
      simp only at ht ⊢
      rw [ht, plain_target h0, List.contains_eq_mem (as := b.map (·.target)), decide_eq_false hnew]
      rfl
    have ha : cmArgsOf (fun _ => []) [⟨x, false⟩] = some [x] := by
      rw [cmArgsOf, cmArg_plain _ _ h1]
      rfl
    have hs : namedCommand cmd suffix d root (false, b) (namedCmd cmd x) =
        some (false, b ++ [namedPlugin suffix root x]) := by
      simp only [namedCommand, namedCmd, if_neg hcmd, if_true, ha, Bool.false_eq_true,
        if_false, hadd]
      rfl
    rw [List.map_cons, List.foldlM_cons, hs, Option.bind_eq_bind, Option.bind_some,
      ih _ (fun y hy => hx y (by simp [hy])) (by simpa [namedPlugin] using hn)]
    simp

/-- A list that has some macros and then some classes. -/
theorem named_built {cmd suffix : Str} (hcmd : cmd ≠ chars! "macro") (d : Disk) (root text : Str)
    (ht : d.file (root ++ chars! "/CMakeLists.txt") = some text) (macros : List CmCommand) (xs : List Str)
    (hc : cmCommands text = some (macros ++ xs.map (namedCmd cmd)))
    (hm : macros.foldlM macroFlag false = some false)
    (hx : ∀ x ∈ xs, PlainName x ∧ PlainName (x ++ suffix)) (hn : xs.Nodup)
    (hs : ∀ x ∈ xs, d.file (namedPlugin suffix root x).source ≠ none) :
    configureNamed cmd suffix d root = some (xs.map (namedPlugin suffix root)) := by
  unfold configureNamed
  rw [ht, Option.bind_some, hc, Option.bind_some, List.foldlM_append,
    reporterFold_macros _ _ d root [] _ false false hm, Option.bind_eq_bind, Option.bind_some,
    reporterFold_list hcmd d root xs []]
  · rfl
  · exact fun x h => ⟨(hx x h).1, (hx x h).2, hs x h⟩
  · rw [List.map_nil, List.nil_append]
    exact hn.map fun a b e => List.append_cancel_right e

/-- **C118.** From the list of the repository CMake builds one plug-in for each of the six reporters. -/
theorem C118_reporters_built (root : Str) (d : Disk)
    (ht : d.file (root ++ "/CMakeLists.txt".toList) = some (cmText reporterLines))
    (hs : ∀ x ∈ shippedReporterNames, d.file (root ++ "/".toList ++ x ++ "Reporter.cpp".toList) ≠ none) :
    configureReporters d root = some (shippedReporterNames.map fun x =>
      ⟨x ++ "Reporter".toList, root ++ "/".toList ++ x ++ "Reporter.cpp".toList⟩) := by
  have hc : cmCommands (cmText reporterLines) =
      some (((cmCommands (cmText reporterLines)).getD []).take 8 ++
        shippedReporterNames.map (namedCmd (chars! "build_dynamic_reporter"))) := by decide +kernel
  have hm : (((cmCommands (cmText reporterLines)).getD []).take 8).foldlM macroFlag false =
      some false := by decide +kernel
  have hp : ∀ x ∈ shippedReporterNames, PlainName x ∧ PlainName (x ++ chars! "Reporter") := by
    decide +kernel
  have hn : shippedReporterNames.Nodup := by decide +kernel
  have e : ∀ x, namedPlugin (chars! "Reporter") root x =
      ⟨x ++ "Reporter".toList, root ++ "/".toList ++ x ++ "Reporter.cpp".toList⟩ := by
    intro x
    simp [namedPlugin]
  generalize shippedReporterNames = xs at hs hc hp hn ⊢
  have := named_built (suffix := chars! "Reporter") (by decide +kernel) d root _ ht _ xs hc hm hp hn
    (fun x hx => by rw [e]; exact hs x hx)
  rw [List.map_congr_left fun x _ => e x] at this
  exact this

/-- With the list of the repository on the disk of the examples, and a source for each reporter: the first
request is refused, the second is not. -/
def reporterDisk : Disk where
  dir := exampleDisk.dir
  file p :=
    if p = "h/../oclint-reporters/reporters/CMakeLists.txt".toList then some (cmText reporterLines)
    else if p ∈ shippedReporterNames.map
        fun x => "h/../oclint-reporters/reporters/".toList ++ x ++ "Reporter.cpp".toList then some []
    else exampleDisk.file p

example : (configureReporters (scaffoldReporters "h".toList reporterDisk
      [{ className := "PMD".toList }, { className := "Toml".toList }]).disk
        (reportersDir "h".toList)).map (fun b => b.map (·.target)) =
    some ["TextReporter".toList, "HTMLReporter".toList, "XMLReporter".toList, "JSONReporter".toList,
      "PMDReporter".toList, "XcodeReporter".toList, "TomlReporter".toList] := by
  decide +kernel

end Oclint
