import Verif.Lemmas.TestLists

/-!
# What the lists of tests want to have built after rules have been scaffolded
-/

namespace Oclint
open Spec
open scoped List

/-- The items for what is asked for in some categories. -/
def askedTests (ts : List RuleRequest) (cs : List Str) : List TestItem :=
  (askedItems ts cs).map fun i => classItem ('/' :: i.1) i.2

theorem askedTests_append (ts : List RuleRequest) (a b : List Str) :
    askedTests ts (a ++ b) = askedTests ts a ++ askedTests ts b := by
  rw [askedTests, askedItems_append, List.map_append]
  rfl

theorem askedTests_one (ts : List RuleRequest) (c : Str) :
    askedTests ts [c] = (askedIn ts c).map (classItem ('/' :: c)) := by
  simp [askedTests, askedItems]

/-- The plans before and after. -/
structure TestPlanRel (ts : List RuleRequest) (p p' : TestPlan) : Prop where
  vars : p'.vars = p.vars
  added : p'.added = p.added
  items : p'.items.Perm (p.items ++ askedTests ts p.added)

/-- The disks before and after, as far as the lists of tests go. -/
structure TestListsRel (root : Str) (rs : List RuleRequest) (d d' : Disk) : Prop where
  kept : ∀ c text, c ≠ [] → c.all cmNameChar = true → d.file (listAt root c) = some text →
    d'.file (listAt root c) = some (text ++ ((askedIn (rs.filter (·.tests)) c).map testStep).flatten)
  new : ∀ c ∈ rs.map (·.category), d.file (listAt root c) = Option.none →
    d'.file (listAt root c) = some ((askedIn (rs.filter (·.tests)) c).map testStep).flatten
  more : ∀ x, d.file (root ++ x) ≠ Option.none → d'.file (root ++ x) ≠ Option.none

theorem askedTest_plain {rs : List RuleRequest} (hr : ∀ r ∈ rs, ListedRequest r) (c : Str) :
    ∀ x ∈ askedIn (rs.filter (·.tests)) c, PlainName x := by
  intro x hx
  obtain ⟨r, h1, rfl⟩ := List.mem_map.1 hx
  exact (hr r (List.mem_of_mem_filter (List.mem_of_mem_filter h1))).className

theorem insert_perm {α : Type} {p' p a n : List α} (h : p' ~ p ++ a) (b : List α) :
    p' ++ (n ++ b) ~ (p ++ n) ++ (a ++ b) := by
  calc p' ++ (n ++ b)
      _ ~ (p ++ a) ++ (n ++ b) := h.append_right _
      _ = p ++ ((a ++ n) ++ b) := by simp
      _ ~ p ++ ((n ++ a) ++ b) := (List.perm_append_comm.append_right _).append_left _
      _ = _ := by simp

theorem planTestDir_rel {cuda : Bool} {root : Str} {rs : List RuleRequest} {d d' : Disk}
    (hr : ∀ r ∈ rs, ListedRequest r) (hl : TestListsRel root rs d d') {p p' q : TestPlan}
    (hp : TestPlanRel (rs.filter (·.tests)) p p') (c : Str)
    (h : planTestDir cuda d root p c = some q) :
    ∃ q', planTestDir cuda d' root p' c = some q' ∧ TestPlanRel (rs.filter (·.tests)) q q' := by
  unfold planTestDir at h ⊢
  rw [hp.added, hp.vars]
  split at h
  · cases h
  · rename_i hc
    rw [if_neg hc]
    have hc' : c ≠ [] ∧ c.all cmNameChar = true := by
      constructor
      · exact fun e => hc (.inl e)
      · by_contra hh
        exact hc (.inr (.inl (by rw [Bool.not_eq_true] at hh; rw [hh]; rfl)))
    obtain ⟨text, hf, h⟩ := Option.bind_eq_some_iff.1 h
    obtain ⟨ns, hn, rfl⟩ := Option.map_eq_some_iff.1 h
    rw [hl.kept c text hc'.1 hc'.2 hf, Option.bind_some,
      planTestText_append cuda _ _ text ns _ hn (askedTest_plain hr c)]
    refine ⟨_, rfl, rfl, rfl, ?_⟩
    simp only [askedTests_append, askedTests_one]
    exact insert_perm hp.items _

/-- A command that gets through is about a category, or does the same on any disk that has as much. -/
theorem planTestPlain_cases {cuda : Bool} {d : Disk} {root : Str} {p q : TestPlan} {c : CmCommand}
    (h : planTestPlain cuda d root p c = some q) :
    (∃ ns, q.items = p.items ++ ns ∧ q.added = p.added ∧ ∀ d' p',
        (∀ x, d.file (root ++ x) ≠ none → d'.file (root ++ x) ≠ none) → p'.vars = p.vars →
        planTestPlain cuda d' root p' c = some ⟨q.vars, p'.items ++ ns, p'.added⟩) ∨
      ∃ category, planTestDir cuda d root p category = some q ∧ ∀ d' p', p'.vars = p.vars →
        planTestPlain cuda d' root p' c = planTestDir cuda d' root p' category := by
  unfold planTestPlain at h ⊢
  obtain ⟨args, ha, h⟩ := Option.bind_eq_some_iff.1 h
  by_cases h1 : c.name = chars! "set"
  · rw [if_pos h1] at h
    obtain ⟨v, hv, rfl⟩ := Option.map_eq_some_iff.1 h
    left
    refine ⟨[], by simp, rfl, ?_⟩
    intro d' p' _ e
    rw [e, ha, Option.bind_some, if_pos h1, hv]
    simp
  · rw [if_neg h1] at h
    by_cases h2 : c.name = chars! "add_library"
    · rw [if_pos h2] at h
      split at h
      · rename_i hx
        cases h
        left
        refine ⟨[], by simp, rfl, ?_⟩
        intro d' p' hm e
        rw [e, ha, Option.bind_some, if_neg h1, if_pos h2, if_pos]
        · rw [← e]; simp
        · refine ⟨hx.1, ?_⟩
          have := hm _ (Option.isSome_iff_ne_none.1 hx.2)
          exact Option.isSome_iff_ne_none.2 this
      · cases h
    · rw [if_neg h2] at h
      by_cases h3 : c.name = chars! "build_test"
      · rw [if_pos h3] at h
        obtain ⟨i, hi, rfl⟩ := Option.map_eq_some_iff.1 h
        left
        refine ⟨[i], rfl, rfl, ?_⟩
        intro d' p' _ e
        rw [e, ha, Option.bind_some, if_neg h1, if_neg h2, if_pos h3, hi]
        rw [← e]
        rfl
      · rw [if_neg h3] at h
        by_cases h4 : c.name = chars! "add_subdirectory"
        · rw [if_pos h4] at h
          match args, ha, h with
          | [], _, h => cases h
          | _ :: _ :: _, _, h => cases h
          | [category], ha, h =>
            right
            refine ⟨category, h, ?_⟩
            intro d' p' e
            rw [e, ha, Option.bind_some, if_neg h1, if_neg h2, if_neg h3, if_pos h4]
        · rw [if_neg h4] at h
          cases h

theorem planTestPlain_rel {cuda : Bool} {root : Str} {rs : List RuleRequest} {d d' : Disk}
    (hr : ∀ r ∈ rs, ListedRequest r) (hl : TestListsRel root rs d d') {p p' q : TestPlan}
    (hp : TestPlanRel (rs.filter (·.tests)) p p') {c : CmCommand}
    (h : planTestPlain cuda d root p c = some q) :
    ∃ q', planTestPlain cuda d' root p' c = some q' ∧ TestPlanRel (rs.filter (·.tests)) q q' := by
  rcases planTestPlain_cases h with ⟨ns, h1, h2, h3⟩ | ⟨category, h1, h2⟩
  · refine ⟨_, h3 d' p' hl.more hp.vars, rfl, by rw [h2]; exact hp.added, ?_⟩
    rw [h1, h2]
    simpa using insert_perm (n := ns) hp.items []
  · rw [h2 d' p' hp.vars]
    exact planTestDir_rel hr hl hp category h1

theorem planTestRoot_rel {cuda : Bool} {root : Str} {rs : List RuleRequest} {d d' : Disk}
    (hr : ∀ r ∈ rs, ListedRequest r) (hl : TestListsRel root rs d d') (cs : List CmCommand) :
    ∀ {s t : Bool × TestPlan} {p' : TestPlan}, TestPlanRel (rs.filter (·.tests)) s.2 p' →
    cs.foldlM (planTestRoot cuda d root) s = some t →
    ∃ q', cs.foldlM (planTestRoot cuda d' root) (s.1, p') = some (t.1, q') ∧
      TestPlanRel (rs.filter (·.tests)) t.2 q' := by
  induction cs with
  | nil => intro s t p' hp h; cases h; exact ⟨p', rfl, hp⟩
  | cons c cs ih =>
    intro s t p' hp h
    rw [List.foldlM_cons] at h
    obtain ⟨u, h1, h2⟩ := Option.bind_eq_some_iff.1 h
    obtain ⟨flag, p⟩ := s
    have hstep : ∃ v, planTestRoot cuda d' root (flag, p') c = some (u.1, v) ∧
        TestPlanRel (rs.filter (·.tests)) u.2 v := by
      unfold planTestRoot at h1 ⊢
      cases flag with
      | true => cases h1; exact ⟨p', rfl, hp⟩
      | false =>
        simp only [Bool.false_eq_true, if_false] at h1 ⊢
        by_cases hm : c.name = chars! "macro"
        · rw [if_pos hm] at h1 ⊢
          cases h1
          exact ⟨p', rfl, hp⟩
        · rw [if_neg hm] at h1 ⊢
          obtain ⟨q, hq, rfl⟩ := Option.map_eq_some_iff.1 h1
          obtain ⟨v, h3, h4⟩ := planTestPlain_rel hr hl hp hq
          exact ⟨v, by rw [h3]; rfl, h4⟩
    obtain ⟨v, h3, h4⟩ := hstep
    obtain ⟨q', h5, h6⟩ := ih h4 h2
    refine ⟨q', ?_, h6⟩
    rw [List.foldlM_cons, h3]
    exact h5

theorem planTestRoot_added {cuda : Bool} {d : Disk} {root : Str} (cs : List CmCommand) :
    ∀ {s t : Bool × TestPlan}, cs.foldlM (planTestRoot cuda d root) s = some t →
    (s.2.added.Nodup ∧ ∀ c ∈ s.2.added, d.file (listAt root c) ≠ none) →
    t.2.added.Nodup ∧ ∀ c ∈ t.2.added, d.file (listAt root c) ≠ none := by
  induction cs with
  | nil => intro s t h hs; cases h; exact hs
  | cons c cs ih =>
    intro s t h hs
    rw [List.foldlM_cons] at h
    obtain ⟨u, h1, h2⟩ := Option.bind_eq_some_iff.1 h
    refine ih h2 ?_
    obtain ⟨flag, p⟩ := s
    unfold planTestRoot at h1
    cases flag with
    | true => cases h1; exact hs
    | false =>
      simp only [Bool.false_eq_true, if_false] at h1
      split at h1
      · cases h1; exact hs
      · obtain ⟨q, hq, rfl⟩ := Option.map_eq_some_iff.1 h1
        rcases planTestPlain_cases hq with ⟨ns, -, e, -⟩ | ⟨category, h3, -⟩
        · simp only
          rw [e]
          exact hs
        · unfold planTestDir at h3
          split at h3
          · cases h3
          · rename_i hc
            obtain ⟨text, hf, h3⟩ := Option.bind_eq_some_iff.1 h3
            obtain ⟨is, -, rfl⟩ := Option.map_eq_some_iff.1 h3
            have ha : category ∉ p.added := by
              intro hm
              exact hc (.inr (.inr (by simpa using hm)))
            constructor
            · simp only
              rw [List.nodup_append]
              refine ⟨hs.1, by simp, ?_⟩
              intro a h1 b h2
              rw [List.mem_singleton] at h2
              exact fun e => ha (by rw [← h2, ← e]; exact h1)
            · intro x hx
              rcases List.mem_append.1 hx with hx | hx
              · exact hs.2 x hx
              · rw [List.mem_singleton] at hx
                rw [hx, hf]
                nofun

theorem planTestPlain_category (cuda : Bool) (d : Disk) (root : Str) (p : TestPlan) (c : Str)
    (hc : PlainName c) :
    planTestRoot cuda d root (false, p) (testCategoryCmd c) =
      (planTestDir cuda d root p c).map (false, ·) := by
  have n0 : ¬ chars! "add_subdirectory" = chars! "macro" := by decide +kernel
  have n1 : ¬ chars! "add_subdirectory" = chars! "set" := by decide +kernel
  have n2 : ¬ chars! "add_subdirectory" = chars! "add_library" := by decide +kernel
  have n3 : ¬ chars! "add_subdirectory" = chars! "build_test" := by decide +kernel
  have ha : cmArgsOf p.vars [⟨c, false⟩] = some [c] := by
    rw [cmArgsOf, cmArg_plain _ _ hc]
    rfl
  unfold planTestRoot
  simp only [Bool.false_eq_true, if_false]
  unfold planTestPlain testCategoryCmd
  simp only [if_neg n0, ha, Option.bind_some, if_neg n1, if_neg n2, if_neg n3, if_true]

/-- The categories that are new. -/
theorem planTestRoot_new {cuda : Bool} {root : Str} {rs : List RuleRequest} {d d' : Disk}
    (hr : ∀ r ∈ rs, ListedRequest r) (hl : TestListsRel root rs d d') (new : List Str) :
    ∀ {p' : TestPlan}, (∀ c ∈ new, c ∈ rs.map (·.category) ∧ d.file (listAt root c) = none) →
    (p'.added ++ new).Nodup →
    (new.map testCategoryCmd).foldlM (planTestRoot cuda d' root) (false, p') =
      some (false, ⟨p'.vars, p'.items ++ askedTests (rs.filter (·.tests)) new, p'.added ++ new⟩) := by
  induction new with
  | nil => intro p' _ _; simp [askedTests, askedItems]
  | cons c new ih =>
    intro p' hn hd
    obtain ⟨h1, h2⟩ := hn c (by simp)
    have hpc : PlainName c := by
      obtain ⟨r, hrm, rfl⟩ := List.mem_map.1 h1
      exact (hr r hrm).category
    have hx : c ∉ p'.added := by
      intro hm
      exact (List.nodup_append.1 hd).2.2 _ hm _ (by simp) rfl
    have ht : planTestText cuda ('/' :: c) p'.vars
        ((askedIn (rs.filter (·.tests)) c).map testStep).flatten =
          some ((askedIn (rs.filter (·.tests)) c).map (classItem ('/' :: c))) := by
      have := planTestText_append cuda ('/' :: c) p'.vars [] [] (askedIn (rs.filter (·.tests)) c) rfl
        (askedTest_plain hr c)
      simpa using this
    have hs : planTestRoot cuda d' root (false, p') (testCategoryCmd c) = some (false,
        ⟨p'.vars, p'.items ++ askedTests (rs.filter (·.tests)) [c], p'.added ++ [c]⟩) := by
      rw [planTestPlain_category _ _ _ _ _ hpc, planTestDir, if_neg (by
        rintro (h | h | h)
        · exact hpc.1 h
        · rw [plain_nameChars hpc] at h; cases h
        · exact hx (by simpa using h)), hl.new _ h1 h2, Option.bind_some, ht, askedTests_one]
      rfl
    rw [List.map_cons, List.foldlM_cons, hs, Option.bind_eq_bind, Option.bind_some,
      ih (fun x hx => hn x (by simp [hx])) (by simpa using hd)]
    rw [show c :: new = [c] ++ new from rfl, askedTests_append]
    simp

/-- What is wanted after some requests, if what was wanted before was clear. -/
theorem testPlan_rel {cuda : Bool} {root : Str} {rs : List RuleRequest} {d d' : Disk}
    (hr : ∀ r ∈ rs, ListedRequest r) (hl : TestListsRel root rs d d') {text : Str}
    (ht : d.file (root ++ chars! "/CMakeLists.txt") = some text) (new : List Str) (hn : new.Nodup)
    (hnew : ∀ c, c ∈ new ↔ c ∈ rs.map (·.category) ∧ d.file (listAt root c) = none)
    (ht' : d'.file (root ++ chars! "/CMakeLists.txt") =
      some (text ++ (new.map testCategoryStep).flatten))
    {p : TestPlan} (hp : testPlan cuda d root = some p)
    (ha : ∀ r ∈ rs, d.file (listAt root r.category) ≠ none → r.category ∈ p.added) :
    ∃ p', testPlan cuda d' root = some p' ∧ p'.added = p.added ++ new ∧
      p'.items.Perm (p.items ++ (rs.filter (·.tests)).map fun r =>
        classItem ('/' :: r.category) r.className) := by
  unfold testPlan at hp ⊢
  rw [ht, Option.bind_some] at hp
  cases hc : cmCommands text with
  | none => rw [hc] at hp; cases hp
  | some cs =>
    rw [hc, Option.bind_some] at hp
    cases hf : cs.foldlM (planTestRoot cuda d root) (false, ⟨fun _ => [], [], []⟩) with
    | none => rw [hf] at hp; cases hp
    | some t =>
      rw [hf] at hp
      obtain ⟨flag, q⟩ := t
      cases flag with
      | true => cases hp
      | false =>
        cases hp
        have hadds := Adds.flatten testCategoryStep (fun c => [testCategoryCmd c]) new (by
          intro c hm
          obtain ⟨r, h1, rfl⟩ := List.mem_map.1 ((hnew c).1 hm).1
          exact adds_testCategory _ (hr r h1).category)
        have hmap : new.flatMap (fun c => [testCategoryCmd c]) = new.map testCategoryCmd := by
          rw [← List.flatMap_singleton' (new.map testCategoryCmd), List.flatMap_map]
        rw [hmap] at hadds
        rw [ht', Option.bind_some, hadds.commands hc, Option.bind_some, List.foldlM_append]
        obtain ⟨q', h1, h2⟩ := planTestRoot_rel hr hl cs (s := (false, ⟨fun _ => [], [], []⟩))
          (p' := ⟨fun _ => [], [], []⟩) ⟨rfl, rfl, List.Perm.refl _⟩ hf
        obtain ⟨h3, h4⟩ := planTestRoot_added cs hf ⟨List.nodup_nil, nofun⟩
        have hd : (p.added ++ new).Nodup := by
          rw [List.nodup_append]
          refine ⟨h3, hn, ?_⟩
          rintro a ha b hb rfl
          exact h4 a ha ((hnew a).1 hb).2
        simp only at h1
        rw [h1, Option.bind_eq_bind, Option.bind_some,
          planTestRoot_new hr hl new (fun c hm => (hnew c).1 hm) (by rw [h2.added]; exact hd)]
        refine ⟨_, rfl, by rw [h2.added], ?_⟩
        simp only
        have hperm := askedItems_perm (rs.filter (·.tests)) (p.added ++ new) hd (by
          intro r hrm
          have hrm := List.mem_of_mem_filter hrm
          rw [List.mem_append]
          by_cases hf : d.file (listAt root r.category) = none
          · exact .inr ((hnew _).2 ⟨List.mem_map_of_mem hrm, hf⟩)
          · exact .inl (ha r hrm hf))
        calc q'.items ++ askedTests (rs.filter (·.tests)) new
            _ ~ (p.items ++ askedTests (rs.filter (·.tests)) p.added) ++
                askedTests (rs.filter (·.tests)) new := h2.items.append_right _
            _ = p.items ++ askedTests (rs.filter (·.tests)) (p.added ++ new) := by
              rw [askedTests_append, List.append_assoc]
            _ ~ _ := by
              apply List.Perm.append_left
              have := hperm.map fun i => classItem ('/' :: i.1) i.2
              rw [List.map_map] at this
              exact this

end Oclint
