import Verif.Lemmas.CMake

/-!
# What the lists want to have built after rules have been scaffolded
-/

namespace Oclint
open Spec
open scoped List

/-- The classes that are asked for in a category. -/
def askedIn (rs : List RuleRequest) (c : Str) : List Str :=
  (rs.filter fun r => decide (r.category = c)).map (·.className)

/-- The same for some categories. -/
def askedItems (rs : List RuleRequest) (cs : List Str) : List (Str × Str) :=
  cs.flatMap fun c => (askedIn rs c).map (c, ·)

theorem askedItems_append (rs : List RuleRequest) (a b : List Str) :
    askedItems rs (a ++ b) = askedItems rs a ++ askedItems rs b := List.flatMap_append

theorem askedItems_skip (rs : List RuleRequest) (r : RuleRequest) (cs : List Str)
    (h : r.category ∉ cs) : askedItems (r :: rs) cs = askedItems rs cs := by
  induction cs with
  | nil => rfl
  | cons c cs ih =>
    have h1 : r.category ≠ c := fun e => h (by simp [e])
    have h2 := ih fun hm => h (by simp [hm])
    simp only [askedItems, List.flatMap_cons] at h2 ⊢
    rw [h2]
    congr 2
    simp [askedIn, h1]

/-- Every request is in exactly one category. -/
theorem askedItems_perm (rs : List RuleRequest) (cs : List Str) (hn : cs.Nodup)
    (hc : ∀ r ∈ rs, r.category ∈ cs) :
    (askedItems rs cs).Perm (rs.map fun r => (r.category, r.className)) := by
  induction rs with
  | nil =>
    have : askedItems [] cs = [] := by
      induction cs with
      | nil => rfl
      | cons c cs ih => simp [askedItems, askedIn]
    rw [this]
    exact List.Perm.refl _
  | cons r rs ih =>
    obtain ⟨a, b, rfl⟩ := List.append_of_mem (hc r (by simp))
    have h1 := ih fun q hq => hc q (by simp [hq])
    have hn' := List.nodup_append.1 hn
    have ha : r.category ∉ a := fun h => hn'.2.2 _ h _ (by simp) rfl
    have hb : r.category ∉ b := (List.nodup_cons.1 hn'.2.1).1
    rw [askedItems_append, askedItems_skip rs r a ha]
    rw [askedItems_append] at h1
    have e : ∀ rs, askedItems rs (r.category :: b) =
        (askedIn rs r.category).map (r.category, ·) ++ askedItems rs b := fun _ => rfl
    rw [e, askedItems_skip rs r b hb]
    rw [e] at h1
    have e2 : askedIn (r :: rs) r.category = r.className :: askedIn rs r.category := by
      simp [askedIn]
    rw [e2, List.map_cons, List.map_cons, List.cons_append]
    exact List.perm_middle.trans (h1.cons _)

/-- The plans before and after. -/
structure PlanRel (rs : List RuleRequest) (p p' : RootPlan) : Prop where
  added : p'.added = p.added
  skipped : p'.skipped = p.skipped
  items : p'.items.Perm (p.items ++ askedItems rs p.added)

/-- The disks before and after, as far as the lists of categories go. -/
structure ListsRel (root : Str) (rs : List RuleRequest) (d d' : Disk) : Prop where
  kept : ∀ c text, c ≠ [] → c.all cmNameChar = true → d.file (listAt root c) = some text →
    d'.file (listAt root c) = some (text ++ ((askedIn rs c).map ruleStep).flatten)
  none : ∀ c, c ≠ [] → c.all cmNameChar = true → c ∉ rs.map (·.category) → d.file (listAt root c) = none →
    d'.file (listAt root c) = none
  new : ∀ c ∈ rs.map (·.category), d.file (listAt root c) = Option.none →
    d'.file (listAt root c) = some ((askedIn rs c).map ruleStep).flatten

theorem askedIn_plain {rs : List RuleRequest} (hr : ∀ r ∈ rs, ListedRequest r) (c : Str) :
    (∀ x ∈ askedIn rs c, PlainName x) ∧ ∀ x ∈ askedIn rs c, x ∉ setWords := by
  constructor <;>
  · intro x hx
    obtain ⟨r, h1, rfl⟩ := List.mem_map.1 hx
    have := hr r (List.mem_of_mem_filter h1)
    first | exact this.className | exact this.noSetWord

theorem nameChars_plain {c : Str} (h : c.all cmNameChar = true) (h0 : c ≠ []) :
    PlainRequest { className := [], category := c } := by
  have hn : ∀ x, cmNameChar x = false → x ∉ c := by
    intro x hx hm
    rw [List.all_eq_true.1 h _ hm] at hx
    cases hx
  exact ⟨⟨h0, hn _ (by decide +kernel), hn _ (by decide +kernel)⟩,
    ⟨by simp, by simp [Braceless]⟩, by simp [Braceless]⟩

theorem planAdd_rel {root : Str} {rs : List RuleRequest} {d d' : Disk} (hr : ∀ r ∈ rs, ListedRequest r)
    (hl : ListsRel root rs d d') {p p' q : RootPlan} (hp : PlanRel rs p p') (c : Str)
    (h : planAdd d root p c = some q) (hs : ∀ c ∈ q.skipped, c ∉ rs.map (·.category)) :
    ∃ q', planAdd d' root p' c = some q' ∧ PlanRel rs q q' := by
  unfold planAdd at h ⊢
  split at h
  · cases h
  · rename_i hc
    rw [if_neg hc]
    have hc' : c ≠ [] ∧ c.all cmNameChar = true := by
      constructor
      · exact fun e => hc (.inl e)
      · by_contra hh
        exact hc (.inr (by rw [Bool.not_eq_true] at hh; rw [hh]; rfl))
    cases hf : d.file (listAt root c) with
    | none =>
      rw [hf] at h
      cases h
      rw [hl.none c hc'.1 hc'.2 (hs c (by simp)) hf]
      exact ⟨_, rfl, hp.added, by rw [hp.skipped], hp.items⟩
    | some text =>
      rw [hf] at h
      rw [hl.kept c text hc'.1 hc'.2 hf]
      simp only at h ⊢
      rw [hp.added]
      split at h
      · cases h
      · rename_i ha
        rw [if_neg ha]
        obtain ⟨ns, hn, rfl⟩ := Option.map_eq_some_iff.1 h
        obtain ⟨h1, h2⟩ := askedIn_plain hr c
        rw [planText_append text ns (askedIn rs c) hn h1 h2]
        refine ⟨_, rfl, rfl, by rw [hp.skipped], ?_⟩
        have e : askedItems rs (p.added ++ [c]) = askedItems rs p.added ++ (askedIn rs c).map (c, ·) := by
          rw [askedItems_append]
          simp [askedItems]
        simp only [e, List.map_append]
        calc p'.items ++ (ns.map (c, ·) ++ (askedIn rs c).map (c, ·))
            _ = (p'.items ++ ns.map (c, ·)) ++ (askedIn rs c).map (c, ·) := by simp
            _ ~ ((p.items ++ askedItems rs p.added) ++ ns.map (c, ·)) ++ (askedIn rs c).map (c, ·) :=
              (hp.items.append_right _).append_right _
            _ ~ ((p.items ++ ns.map (c, ·)) ++ askedItems rs p.added) ++ (askedIn rs c).map (c, ·) := by
              apply List.Perm.append_right
              rw [List.append_assoc, List.append_assoc]
              exact List.perm_append_comm.append_left _
            _ = _ := by simp

theorem planAdd_skipped {d : Disk} {root : Str} {p q : RootPlan} {c : Str}
    (h : planAdd d root p c = some q) : p.skipped ⊆ q.skipped := by
  unfold planAdd at h
  split at h
  · cases h
  · split at h
    · cases h
      exact List.subset_append_left _ _
    · split at h
      · cases h
      · obtain ⟨ns, hn, rfl⟩ := Option.map_eq_some_iff.1 h
        exact List.Subset.refl _

theorem planAdd_added {d : Disk} {root : Str} {p q : RootPlan} {c : Str}
    (h : planAdd d root p c = some q) (hp : p.added.Nodup ∧ ∀ c ∈ p.added, d.file (listAt root c) ≠ none) :
    q.added.Nodup ∧ ∀ c ∈ q.added, d.file (listAt root c) ≠ none := by
  unfold planAdd at h
  split at h
  · cases h
  · cases hf : d.file (listAt root c) with
    | none =>
      rw [hf] at h
      cases h
      exact hp
    | some text =>
      rw [hf] at h
      simp only at h
      split at h
      · cases h
      · rename_i ha
        obtain ⟨ns, hn, rfl⟩ := Option.map_eq_some_iff.1 h
        have ha' : c ∉ p.added := by simpa using ha
        constructor
        · simp only
          rw [List.nodup_append]
          refine ⟨hp.1, by simp, ?_⟩
          intro a h1 b h2
          rw [List.mem_singleton] at h2
          exact fun e => ha' (by rw [← h2, ← e]; exact h1)
        · intro x hx
          rcases List.mem_append.1 hx with hx | hx
          · exact hp.2 x hx
          · rw [List.mem_singleton] at hx
            rw [hx, hf]
            nofun

/-- A command that gets through either leaves the plan or is about a category. -/
theorem planRootStep_cases {d : Disk} {root : Str} {s t : Bool × RootPlan} {c : CmCommand}
    (h : planRootStep d root s c = some t) :
    (t.2 = s.2 ∧ ∀ d' p', planRootStep d' root (s.1, p') c = some (t.1, p')) ∨
      ∃ category, planAdd d root s.2 category = some t.2 ∧
        ∀ d' p', planRootStep d' root (s.1, p') c = (planAdd d' root p' category).map (t.1, ·) := by
  obtain ⟨flag, p⟩ := s
  unfold planRootStep at h ⊢
  cases flag with
  | true =>
    left
    cases h
    exact ⟨rfl, fun _ _ => rfl⟩
  | false =>
    simp only [Bool.false_eq_true, if_false] at h ⊢
    by_cases h1 : c.name = chars! "macro"
    · rw [if_pos h1] at h
      left
      cases h
      exact ⟨rfl, fun _ _ => by rw [if_pos h1]⟩
    · rw [if_neg h1] at h
      by_cases h2 : c.name = chars! "add_rule_category_directory"
      · rw [if_pos h2] at h
        simp only [if_neg h1, if_pos h2]
        generalize cmArgsOf (fun _ => []) c.args = oa at h ⊢
        match oa, h with
        | none, h => cases h
        | some [], h => cases h
        | some (_ :: _ :: _), h => cases h
        | some [category], h =>
          right
          obtain ⟨q, hq, rfl⟩ := Option.map_eq_some_iff.1 h
          exact ⟨category, hq, fun _ _ => rfl⟩
      · rw [if_neg h2] at h
        cases h

theorem planRoot_skipped {d : Disk} {root : Str} (cs : List CmCommand) : ∀ {s t : Bool × RootPlan},
    cs.foldlM (planRootStep d root) s = some t → s.2.skipped ⊆ t.2.skipped := by
  induction cs with
  | nil => intro s t h; cases h; exact List.Subset.refl _
  | cons c cs ih =>
    intro s t h
    rw [List.foldlM_cons] at h
    obtain ⟨u, h1, h2⟩ := Option.bind_eq_some_iff.1 h
    refine List.Subset.trans ?_ (ih h2)
    rcases planRootStep_cases h1 with ⟨e, -⟩ | ⟨c, hc, -⟩
    · rw [e]; exact List.Subset.refl _
    · exact planAdd_skipped hc

theorem planRoot_added {d : Disk} {root : Str} (cs : List CmCommand) : ∀ {s t : Bool × RootPlan},
    cs.foldlM (planRootStep d root) s = some t →
    (s.2.added.Nodup ∧ ∀ c ∈ s.2.added, d.file (listAt root c) ≠ none) →
    t.2.added.Nodup ∧ ∀ c ∈ t.2.added, d.file (listAt root c) ≠ none := by
  induction cs with
  | nil => intro s t h hs; cases h; exact hs
  | cons c cs ih =>
    intro s t h hs
    rw [List.foldlM_cons] at h
    obtain ⟨u, h1, h2⟩ := Option.bind_eq_some_iff.1 h
    refine ih h2 ?_
    rcases planRootStep_cases h1 with ⟨e, -⟩ | ⟨c, hc, -⟩
    · rw [e]; exact hs
    · exact planAdd_added hc hs

theorem planRoot_rel {root : Str} {rs : List RuleRequest} {d d' : Disk} (hr : ∀ r ∈ rs, ListedRequest r)
    (hl : ListsRel root rs d d') (cs : List CmCommand) : ∀ {s t : Bool × RootPlan} {p' : RootPlan},
    PlanRel rs s.2 p' → cs.foldlM (planRootStep d root) s = some t →
    (∀ c ∈ t.2.skipped, c ∉ rs.map (·.category)) →
    ∃ q', cs.foldlM (planRootStep d' root) (s.1, p') = some (t.1, q') ∧ PlanRel rs t.2 q' := by
  induction cs with
  | nil => intro s t p' hp h hs; cases h; exact ⟨p', rfl, hp⟩
  | cons c cs ih =>
    intro s t p' hp h hs
    rw [List.foldlM_cons] at h
    obtain ⟨u, h1, h2⟩ := Option.bind_eq_some_iff.1 h
    have hu : ∀ c ∈ u.2.skipped, c ∉ rs.map (·.category) := fun c hc => hs c (planRoot_skipped cs h2 hc)
    rw [List.foldlM_cons]
    rcases planRootStep_cases h1 with ⟨e, he⟩ | ⟨c, hc, he⟩
    · rw [he]
      obtain ⟨q', h3, h4⟩ := ih (p' := p') (by rw [e]; exact hp) h2 hs
      exact ⟨q', h3, h4⟩
    · rw [he]
      obtain ⟨v, h3, h4⟩ := planAdd_rel hr hl hp c hc hu
      rw [h3]
      obtain ⟨q', h5, h6⟩ := ih (p' := v) h4 h2 hs
      exact ⟨q', h5, h6⟩

theorem plain_nameChars {c : Str} (h : PlainName c) : c.all cmNameChar = true := by
  rw [List.all_eq_true]
  intro x hx
  rcases h.2 x hx with h | rfl
  · simp only [Char.isAlphanum, Bool.or_eq_true] at h
    simp only [cmNameChar, cmNameStart, Bool.or_eq_true]
    tauto
  · decide +kernel

/-- The categories that are new. -/
theorem planRoot_new {root : Str} {rs : List RuleRequest} {d d' : Disk} (hr : ∀ r ∈ rs, ListedRequest r)
    (hl : ListsRel root rs d d') (new : List Str) : ∀ {p' : RootPlan},
    (∀ c ∈ new, c ∈ rs.map (·.category) ∧ d.file (listAt root c) = none) →
    (p'.added ++ new).Nodup →
    (new.map categoryCmd).foldlM (planRootStep d' root) (false, p') =
      some (false, ⟨p'.items ++ askedItems rs new, p'.added ++ new, p'.skipped⟩) := by
  induction new with
  | nil => intro p' _ _; simp [askedItems]
  | cons c new ih =>
    intro p' hn hd
    obtain ⟨h1, h2⟩ := hn c (by simp)
    obtain ⟨r, hrm, rfl⟩ := List.mem_map.1 h1
    have hpc := (hr r hrm).category
    have hne : ¬ chars! "add_rule_category_directory" = chars! "macro" := by decide +kernel
    have hx : r.category ∉ p'.added := by
      intro hm
      exact (List.nodup_append.1 hd).2.2 _ hm _ (by simp) rfl
    obtain ⟨h3, h4⟩ := askedIn_plain hr r.category
    have ht : planText ((askedIn rs r.category).map ruleStep).flatten = some (askedIn rs r.category) := by
      have := planText_append [] [] (askedIn rs r.category) rfl h3 h4
      simpa using this
    have hs : planRootStep d' root (false, p') (categoryCmd r.category) = some (false,
        ⟨p'.items ++ (askedIn rs r.category).map (r.category, ·), p'.added ++ [r.category],
          p'.skipped⟩) := by
      have ha : cmArgsOf (fun _ => []) [⟨r.category, false⟩] = some [r.category] := by
        rw [cmArgsOf, cmArg_plain _ _ hpc]
        rfl
      simp only [planRootStep, categoryCmd, if_neg hne, if_true, ha, Bool.false_eq_true, if_false]
      rw [planAdd, if_neg (by
        rintro (h | h)
        · exact hpc.1 h
        · rw [plain_nameChars hpc] at h; cases h)]
      rw [hl.new _ h1 h2]
      simp only
      rw [if_neg (by simpa using hx), ht]
      rfl
    rw [List.map_cons, List.foldlM_cons, hs]
    have := ih (p' := ⟨p'.items ++ (askedIn rs r.category).map (r.category, ·),
      p'.added ++ [r.category], p'.skipped⟩) (fun x hx => hn x (by simp [hx])) (by simpa using hd)
    rw [Option.bind_eq_bind, Option.bind_some, this]
    simp [askedItems]

/-- What is wanted after some requests, if what was wanted before was clear. -/
theorem rootPlan_rel {root : Str} {rs : List RuleRequest} {d d' : Disk} (hr : ∀ r ∈ rs, ListedRequest r)
    (hl : ListsRel root rs d d') {text : Str} (ht : d.file (root ++ chars! "/CMakeLists.txt") = some text)
    (new : List Str) (hn : new.Nodup)
    (hnew : ∀ c, c ∈ new ↔ c ∈ rs.map (·.category) ∧ d.file (listAt root c) = none)
    (ht' : d'.file (root ++ chars! "/CMakeLists.txt") = some (text ++ (new.map categoryStep).flatten))
    {p : RootPlan} (hp : rootPlan d root = some p)
    (hs : ∀ c ∈ p.skipped, c ∉ rs.map (·.category))
    (ha : ∀ r ∈ rs, d.file (listAt root r.category) ≠ none → r.category ∈ p.added) :
    ∃ p', rootPlan d' root = some p' ∧ p'.added = p.added ++ new ∧ p'.skipped = p.skipped ∧
      p'.items.Perm (p.items ++ rs.map fun r => (r.category, r.className)) := by
  unfold rootPlan at hp ⊢
  rw [ht, Option.bind_some] at hp
  cases hc : cmCommands text with
  | none => rw [hc] at hp; cases hp
  | some cs =>
    rw [hc, Option.bind_some] at hp
    cases hf : cs.foldlM (planRootStep d root) (false, ⟨[], [], []⟩) with
    | none => rw [hf] at hp; cases hp
    | some t =>
      rw [hf] at hp
      obtain ⟨flag, q⟩ := t
      cases flag with
      | true => cases hp
      | false =>
        cases hp
        have hadds := Adds.flatten categoryStep (fun c => [categoryCmd c]) new (by
          intro c hm
          obtain ⟨r, h1, rfl⟩ := List.mem_map.1 ((hnew c).1 hm).1
          exact adds_category _ (hr r h1).category)
        have hmap : new.flatMap (fun c => [categoryCmd c]) = new.map categoryCmd := by
          rw [← List.flatMap_singleton' (new.map categoryCmd), List.flatMap_map]
        rw [hmap] at hadds
        rw [ht', Option.bind_some, hadds.commands hc, Option.bind_some, List.foldlM_append]
        obtain ⟨q', h1, h2⟩ := planRoot_rel hr hl cs (s := (false, ⟨[], [], []⟩)) (p' := ⟨[], [], []⟩)
          ⟨rfl, rfl, List.Perm.refl _⟩ hf hs
        obtain ⟨h3, h4⟩ := planRoot_added cs hf ⟨List.nodup_nil, nofun⟩
        have hd : (p.added ++ new).Nodup := by
          rw [List.nodup_append]
          refine ⟨h3, hn, ?_⟩
          rintro a ha b hb rfl
          exact h4 a ha ((hnew a).1 hb).2
        simp only at h1
        rw [h1, Option.bind_eq_bind, Option.bind_some,
          planRoot_new hr hl new (fun c hm => (hnew c).1 hm) (by rw [h2.added]; exact hd)]
        refine ⟨_, rfl, by rw [h2.added], h2.skipped, ?_⟩
        simp only
        calc q'.items ++ askedItems rs new
            _ ~ (p.items ++ askedItems rs p.added) ++ askedItems rs new := h2.items.append_right _
            _ = p.items ++ askedItems rs (p.added ++ new) := by
              rw [askedItems_append, List.append_assoc]
            _ ~ _ := by
              apply List.Perm.append_left
              apply askedItems_perm rs _ hd
              intro r hrm
              rw [List.mem_append]
              by_cases hf : d.file (listAt root r.category) = none
              · exact .inr ((hnew _).2 ⟨List.mem_map_of_mem hrm, hf⟩)
              · exact .inl (ha r hrm hf)

end Oclint
