import Verif.Spec.ProjectLists

/-!
# What comes of the lists of the parts
-/

namespace Oclint
open Spec

/-! ## More files change nothing -/

/-- A tree that has what another has, with the same lists. -/
def TreeLe (t t' : Str → Option Str) : Prop :=
  (∀ p, t p ≠ none → t' p ≠ none) ∧
  ∀ p x, t (p ++ chars! "CMakeLists.txt") = some x → t' (p ++ chars! "CMakeLists.txt") = some x

theorem addTarget_le {t t' : Str → Option Str} (h : TreeLe t t') {dir place : Str} {parts r : ProjectParts}
    {as : List Str} (e : addTarget t dir place parts as = some r) : addTarget t' dir place parts as = some r := by
  cases as with
  | nil => exact e
  | cons name files =>
    unfold addTarget at e ⊢
    simp only [Bool.and_eq_true, List.all_eq_true] at e ⊢
    split at e
    · rename_i hc
      have h' : ∀ f ∈ files, (t' (dir ++ f)).isSome = true := fun f hf => by
        have := (hc.2 f hf).2
        rw [Option.isSome_iff_ne_none] at this ⊢
        exact h.1 _ this
      exact (if_pos ⟨hc.1, fun f hf => ⟨(hc.2 f hf).1, h' f hf⟩⟩).trans e
    · cases e

theorem addSubdirectory_le {sub sub' : Str → (Str → Str) → ProjectParts → Option ProjectParts}
    (h : ∀ d v p r, sub d v p = some r → sub' d v p = some r) {dir : Str} {s : ProjectScope} {r : ProjectParts}
    {as : List Str} (e : addSubdirectory sub dir s as = some r) : addSubdirectory sub' dir s as = some r := by
  rcases as with _ | ⟨x, _ | ⟨y, l⟩⟩
  · exact e
  · unfold addSubdirectory at e ⊢
    simp only at e ⊢
    by_cases hc : x = chars! "rules" ∨ x = chars! "reporters" ∨ x = chars! "test"
    · rw [if_pos hc] at e ⊢
      exact e
    · rw [if_neg hc] at e ⊢
      exact h _ _ _ _ e
  · exact e

theorem option_map_le {α β : Type} {f : α → β} {a b : Option α} {r : β} (h : ∀ x, a = some x → b = some x)
    (e : a.map f = some r) : b.map f = some r := by
  cases a with
  | none => cases e
  | some x =>
    rw [h x rfl]
    exact e

theorem projectCommand_le {sub sub' : Str → (Str → Str) → ProjectParts → Option ProjectParts}
    (hs : ∀ d v p r, sub d v p = some r → sub' d v p = some r) {t t' : Str → Option Str} (h : TreeLe t t')
    {flags : List (Str × Bool)} {dir : Str} {s r : ProjectScope} {c : CmCommand}
    (e : projectCommand sub flags t dir s c = some r) : projectCommand sub' flags t' dir s c = some r := by
  unfold projectCommand at e ⊢
  by_cases h1 : c.name = chars! "if"
  · rw [if_pos h1] at e ⊢; exact e
  rw [if_neg h1] at e ⊢
  by_cases h2 : c.name = chars! "else"
  · rw [if_pos h2] at e ⊢; exact e
  rw [if_neg h2] at e ⊢
  by_cases h3 : c.name = chars! "endif"
  · rw [if_pos h3] at e ⊢; exact e
  rw [if_neg h3] at e ⊢
  by_cases h4 : (!s.branch.active || quietCommands.contains c.name) = true
  · rw [if_pos h4] at e ⊢; exact e
  rw [if_neg h4] at e ⊢
  by_cases h5 : c.name = chars! "include"
  · rw [if_pos h5] at e ⊢; exact e
  rw [if_neg h5] at e ⊢
  by_cases h6 : c.name = chars! "target_link_libraries"
  · rw [if_pos h6] at e ⊢; exact e
  rw [if_neg h6] at e ⊢
  by_cases h6' : c.name = chars! "link_directories"
  · rw [if_pos h6'] at e ⊢; exact e
  rw [if_neg h6'] at e ⊢
  by_cases h7 : c.name = chars! "set" ∧ (c.args.head?.map (·.text)) = some (chars! "CMAKE_MODULE_PATH")
  · rw [if_pos h7] at e ⊢; exact e
  rw [if_neg h7] at e ⊢
  cases ha : cmArgsOf s.vars c.args with
  | none => rw [ha] at e; exact e
  | some as =>
    rw [ha, Option.bind_some] at e
    rw [Option.bind_some]
    by_cases h8 : c.name = chars! "set"
    · rw [if_pos h8] at e ⊢; exact e
    rw [if_neg h8] at e ⊢
    by_cases h9 : c.name = chars! "add_library"
    · rw [if_pos h9] at e ⊢
      exact option_map_le (fun x => addTarget_le h) e
    rw [if_neg h9] at e ⊢
    by_cases h9' : c.name = chars! "add_executable"
    · rw [if_pos h9'] at e ⊢
      exact option_map_le (fun x => addTarget_le h) e
    rw [if_neg h9'] at e ⊢
    by_cases h10 : c.name = chars! "add_subdirectory"
    · rw [if_pos h10] at e ⊢
      exact option_map_le (fun x => addSubdirectory_le hs) e
    rw [if_neg h10] at e ⊢
    exact e

theorem foldlM_le {α β : Type} {f g : β → α → Option β} (h : ∀ b a r, f b a = some r → g b a = some r)
    (l : List α) (b r : β) (e : l.foldlM f b = some r) : l.foldlM g b = some r := by
  induction l generalizing b with
  | nil => exact e
  | cons a l ih =>
    rw [List.foldlM_cons, Option.bind_eq_bind, Option.bind_eq_some_iff] at e ⊢
    obtain ⟨b', h1, h2⟩ := e
    exact ⟨b', h b a b' h1, ih b' h2⟩

theorem readProject_le {t t' : Str → Option Str} (h : TreeLe t t') {flags : List (Str × Bool)} (n : Nat) :
    ∀ n', n ≤ n' → ∀ d v p r, readProject flags t n d v p = some r → readProject flags t' n' d v p = some r := by
  induction n with
  | zero => exact fun _ _ _ _ _ _ e => nomatch e
  | succ n ih =>
    intro n' hn d v p r e
    obtain ⟨n', rfl⟩ : ∃ k, n' = k + 1 := ⟨n' - 1, by omega⟩
    unfold readProject at e ⊢
    rw [Option.bind_eq_some_iff] at e ⊢
    obtain ⟨text, h1, e⟩ := e
    refine ⟨text, h.2 _ _ h1, ?_⟩
    rw [Option.bind_eq_some_iff] at e ⊢
    obtain ⟨cs, h2, e⟩ := e
    refine ⟨cs, h2, ?_⟩
    rw [Option.bind_eq_some_iff] at e ⊢
    obtain ⟨s, h3, e⟩ := e
    exact ⟨s, foldlM_le (fun b a r => projectCommand_le (ih n' (by omega)) h) _ _ _ h3, e⟩

/-! ## The lists of the repository -/

/-- The lists and the sources of a part, and nothing else. -/
def bareTree (m : OclintModule) (p : Str) : Option Str :=
  (((projectLists m).map fun (x : Str × List Str) => (x.1 ++ chars! "CMakeLists.txt", cmText x.2)) ++
    (ownSources m).map fun (f : Str) => (f, ([] : Str))).lookup p

/-- What comes of it. -/
def partsOfProject (m : OclintModule) (test documentation : Bool) : Option ProjectParts :=
  readProject [(chars! "TEST_BUILD", test), (chars! "DOC_GEN_BUILD", documentation)] (bareTree m) 3 []
    (fun _ => []) ⟨[], [], [], []⟩

theorem lookup_mem {α β : Type} [BEq α] [LawfulBEq α] {l : List (α × β)} {k : α} {v : β}
    (h : l.lookup k = some v) : (k, v) ∈ l := by
  induction l with
  | nil => cases h
  | cons x l ih =>
    obtain ⟨a, b⟩ := x
    rw [List.lookup_cons] at h
    split at h
    · rename_i hk
      cases h
      rw [eq_of_beq hk]
      exact List.mem_cons_self
    · exact List.mem_cons_of_mem _ (ih h)

theorem bareTree_le {d : Disk} {dir : Str} {m : OclintModule} (h : AsInRepository d dir m) :
    TreeLe (bareTree m) fun p => d.file (dir ++ '/' :: p) := by
  have hl : ∀ x ∈ projectLists m, d.file (dir ++ '/' :: (x.1 ++ chars! "CMakeLists.txt")) =
      some (cmText x.2) := by
    intro x hx
    have := h.1 x hx
    simpa using this
  have hs : ∀ f ∈ ownSources m, d.file (dir ++ '/' :: f) ≠ none := by
    intro f hf
    have := h.2 f hf
    simpa using this
  have hc : ∀ m : OclintModule, ∀ f ∈ ownSources m, ¬ (chars! "CMakeLists.txt") <:+ f := by
    intro m
    cases m <;> decide +kernel
  have hb : ∀ p x, bareTree m p = some x → d.file (dir ++ '/' :: p) = some x ∨ p ∈ ownSources m := by
    intro p x e
    have := lookup_mem e
    rw [List.mem_append, List.mem_map, List.mem_map] at this
    rcases this with ⟨y, hy, e⟩ | ⟨f, hf, e⟩
    · rw [Prod.mk.injEq] at e
      obtain ⟨rfl, rfl⟩ := e
      exact .inl (hl y hy)
    · rw [Prod.mk.injEq] at e
      obtain ⟨rfl, rfl⟩ := e
      exact .inr hf
  refine ⟨fun p e => ?_, fun p x e => ?_⟩
  · obtain ⟨x, e⟩ := Option.ne_none_iff_exists'.1 e
    rcases hb p x e with e | e
    · simp only [e]
      exact Option.some_ne_none _
    · exact hs p e
  · rcases hb _ x e with e | e
    · exact e
    · exact absurd (List.suffix_append _ _) (hc m _ e)

theorem project_parts (depth : Nat) (hd : 3 ≤ depth) (d : Disk) (dir : Str) (m : OclintModule)
    (h : AsInRepository d dir m) (cache : CmakeCache) (r : ProjectParts)
    (e : partsOfProject m (cmakeTrue (cache (chars! "TEST_BUILD")))
      (cmakeTrue (cache (chars! "DOC_GEN_BUILD"))) = some r) :
    configureProject depth d dir cache = some r :=
  readProject_le (bareTree_le h) 3 depth hd _ _ _ _ e

/-- The libraries as they come. -/
def libsOf : OclintModule → List BuildTarget
  | .core => [⟨chars! "OCLintCore", chars! "lib/",
        [chars! "lib/AbstractResults.cpp", chars! "lib/Constants.cpp", chars! "lib/ResultCollector.cpp",
         chars! "lib/UniqueResults.cpp", chars! "lib/RawResults.cpp", chars! "lib/RuleBase.cpp",
         chars! "lib/RuleCarrier.cpp", chars! "lib/Violation.cpp", chars! "lib/ViolationSet.cpp"]⟩,
      ⟨chars! "OCLintRuleSet", chars! "lib/",
        [chars! "lib/RuleConfiguration.cpp", chars! "lib/RuleSet.cpp"]⟩]
  | .metrics => [⟨chars! "OCLintMetric", chars! "lib/",
        [chars! "lib/CyclomaticComplexityMetric.cpp", chars! "lib/NcssMetric.cpp",
         chars! "lib/NPathComplexityMetric.cpp", chars! "lib/StmtDepthMetric.cpp"]⟩]
  | .rules => [⟨chars! "OCLintHelper", chars! "lib/helper/",
        [chars! "lib/helper/AttributeHelper.cpp", chars! "lib/helper/EnforceHelper.cpp",
         chars! "lib/helper/SuppressHelper.cpp"]⟩,
      ⟨chars! "OCLintUtil", chars! "lib/util/",
        [chars! "lib/util/ASTUtil.cpp", chars! "lib/util/StdUtil.cpp"]⟩,
      ⟨chars! "OCLintAbstractRule", chars! "lib/",
        [chars! "lib/AbstractASTMatcherRule.cpp", chars! "lib/AbstractASTRuleBase.cpp",
         chars! "lib/AbstractSourceCodeReaderRule.cpp"]⟩]
  | .reporters => []
  | .driver => [⟨chars! "OCLintDriver", chars! "lib/",
        [chars! "lib/CompilerInstance.cpp", chars! "lib/ConfigFile.cpp",
         chars! "lib/DiagnosticDispatcher.cpp", chars! "lib/Driver.cpp", chars! "lib/GenericException.cpp",
         chars! "lib/Logger.cpp", chars! "lib/Options.cpp", chars! "lib/RulesetBasedAnalyzer.cpp",
         chars! "lib/RulesetFilter.cpp"]⟩]

/-- What both programs are linked with. -/
def commonLinks : List Str :=
  [chars! "OCLintDriver", chars! "OCLintRuleSet", chars! "OCLintCore", chars! "clangStaticAnalyzerFrontend",
   chars! "clangStaticAnalyzerCheckers", chars! "clangStaticAnalyzerCore", chars! "clangRewriteFrontend",
   chars! "clangRewrite"]

/-- What is linked. -/
def linksOf : OclintModule → Bool → Bool → List (Str × List Str)
  | .driver, test, documentation =>
    [(chars! "oclint-26.02", commonLinks ++ [chars! "clangCrossTU", chars! "clangIndex"])] ++
      (if test then [(chars! "oclint-26.02", [])] else []) ++
      (if documentation then [(chars! "oclint-docgen", commonLinks)] else [])
  | _, _, _ => []

/-- Where libraries are looked for. -/
def linkDirsOf : OclintModule → List CmArg
  | .core => []
  | .metrics => []
  | .rules => [⟨chars! "${OCLINT_BUILD_DIR}/lib", false⟩, ⟨chars! "${OCLINT_METRICS_BUILD_DIR}/lib", false⟩]
  | .reporters => [⟨chars! "${OCLINT_BUILD_DIR}/lib", false⟩]
  | .driver => [⟨chars! "${OCLINT_BUILD_DIR}/lib", false⟩]

theorem repository_parts : ∀ m : OclintModule, ∀ test documentation : Bool,
    partsOfProject m test documentation = some ⟨libsOf m ++ programs m documentation,
      if test then ["test".toList] else pluginDirs m, linksOf m test documentation, linkDirsOf m⟩ := by
  intro m test documentation
  cases m <;> cases test <;> cases documentation <;> decide +kernel

theorem repository_libs : ∀ m : OclintModule, (libsOf m).map (·.name) = libraries m ∧
    ((libsOf m).flatMap (·.sources)).Perm ((ownSources m).filter fun f => "lib/".toList.isPrefixOf f) := by
  intro m
  cases m <;> decide +kernel

theorem links_found : ∀ m : OclintModule, ∀ t g : Bool, ∀ l ∈ linksOf m t g, ∀ lib ∈ l.2,
    "OCLint".toList <+: lib → lib ∈ (libsOf m).map (·.name) ∨
      ∃ m' ∈ needs m, ∃ t ∈ libsOf m', t.name = lib ∧ t.place = "lib/".toList := by
  intro m t g
  cases m <;> cases t <;> cases g <;> decide +kernel

theorem programs_linked : ∀ m : OclintModule, ∀ t g : Bool, ∀ x ∈ libsOf m ++ programs m g,
    x.name ∉ libraries m → ∃ l ∈ linksOf m t g, l.1 = x.name ∧
      ["OCLintDriver".toList, "OCLintRuleSet".toList, "OCLintCore".toList].Sublist l.2 := by
  intro m t g
  cases m <;> cases t <;> cases g <;> decide +kernel

/-! ## Names, whatever the lists -/

theorem addTarget_nodup {t : Str → Option Str} {dir place : Str} {parts r : ProjectParts} {as : List Str}
    (h : (parts.targets.map (·.name)).Nodup) (e : addTarget t dir place parts as = some r) :
    (r.targets.map (·.name)).Nodup := by
  cases as with
  | nil => cases e
  | cons name files =>
    unfold addTarget at e
    simp only at e
    split at e
    · rename_i hc
      cases e
      simp only [Bool.and_eq_true, Bool.not_eq_true'] at hc
      have hn : name ∉ parts.targets.map (·.name) := by
        intro hm
        have := hc.1.1.2
        rw [List.contains_iff_mem.2 hm] at this
        cases this
      rw [List.map_append, List.nodup_append]
      refine ⟨h, by simp, ?_⟩
      intro a ha b hb
      rw [List.map_cons, List.map_nil, List.mem_singleton] at hb
      subst hb
      rintro rfl
      exact hn ha
    · cases e

theorem projectCommand_nodup {sub : Str → (Str → Str) → ProjectParts → Option ProjectParts}
    (hs : ∀ d v p r, (p.targets.map (·.name)).Nodup → sub d v p = some r → (r.targets.map (·.name)).Nodup)
    {t : Str → Option Str} {flags : List (Str × Bool)} {dir : Str} {s r : ProjectScope} {c : CmCommand}
    (h : (s.parts.targets.map (·.name)).Nodup) (e : projectCommand sub flags t dir s c = some r) :
    (r.parts.targets.map (·.name)).Nodup := by
  have hmap : ∀ {o : Option ProjectParts}, (∀ p, o = some p → (p.targets.map (·.name)).Nodup) →
      o.map (fun p => { s with parts := p }) = some r → (r.parts.targets.map (·.name)).Nodup := by
    intro o ho e
    obtain ⟨p, hp, rfl⟩ := Option.map_eq_some_iff.1 e
    exact ho p hp
  have hif : ∀ {c : Prop} [Decidable c] {x y : Option ProjectScope}, (if c then x else y) = some r →
      (x = some r → (r.parts.targets.map (·.name)).Nodup) →
      (y = some r → (r.parts.targets.map (·.name)).Nodup) → (r.parts.targets.map (·.name)).Nodup := by
    intro c _ x y e hx hy
    split at e
    · exact hx e
    · exact hy e
  have hsame : some s = some r → (r.parts.targets.map (·.name)).Nodup := by
    rintro ⟨⟩
    exact h
  unfold projectCommand at e
  refine hif e (fun e => ?_) fun e => hif e (fun e => ?_) fun e => hif e (fun e => ?_) fun e =>
    hif e hsame fun e => hif e (fun e => ?_) fun e => hif e (fun e => ?_) fun e => hif e (fun e => ?_) fun e =>
    hif e hsame fun e => ?_
  · split at e
    · obtain ⟨b, -, rfl⟩ := Option.map_eq_some_iff.1 e
      exact h
    · cases e
  · split at e
    · cases e
      exact h
    · cases e
  · refine hif e (fun e => nomatch e) fun e => ?_
    cases e
    exact h
  · refine hif e (fun e => ?_) fun e => nomatch e
    cases e
    exact h
  · split at e
    · refine hif e (fun e => ?_) fun e => nomatch e
      cases e
      exact h
    · cases e
  · cases e
    exact h
  · obtain ⟨as, -, e⟩ := Option.bind_eq_some_iff.1 e
    refine hif e (fun e => ?_) fun e => hif e (hmap fun p => addTarget_nodup h) fun e =>
      hif e (hmap fun p => addTarget_nodup h) fun e => hif e (hmap fun p hp => ?_) fun e => nomatch e
    · obtain ⟨v, -, rfl⟩ := Option.map_eq_some_iff.1 e
      exact h
    · unfold addSubdirectory at hp
      split at hp
      · split at hp
        · cases hp
          exact h
        · exact hs _ _ _ _ h hp
      · cases hp

theorem readProject_nodup {t : Str → Option Str} {flags : List (Str × Bool)} (n : Nat) :
    ∀ d v p r, (p.targets.map (·.name)).Nodup → readProject flags t n d v p = some r →
      (r.targets.map (·.name)).Nodup := by
  induction n with
  | zero => exact fun _ _ _ _ _ e => nomatch e
  | succ n ih =>
    intro d v p r h e
    unfold readProject at e
    obtain ⟨text, -, e⟩ := Option.bind_eq_some_iff.1 e
    obtain ⟨cs, -, e⟩ := Option.bind_eq_some_iff.1 e
    obtain ⟨s, hf, e⟩ := Option.bind_eq_some_iff.1 e
    split at e
    · cases e
      have key : ∀ (cs : List CmCommand) (a b : ProjectScope), (a.parts.targets.map (·.name)).Nodup →
          cs.foldlM (projectCommand (readProject flags t n) flags t d) a = some b →
            (b.parts.targets.map (·.name)).Nodup := by
        intro cs
        induction cs with
        | nil =>
          intro a b ha e
          cases e
          exact ha
        | cons c cs ihc =>
          intro a b ha e
          rw [List.foldlM_cons, Option.bind_eq_bind] at e
          obtain ⟨a', h1, h2⟩ := Option.bind_eq_some_iff.1 e
          exact ihc a' b (projectCommand_nodup ih ha h1) h2
      exact key cs _ _ h hf
    · cases e

end Oclint
