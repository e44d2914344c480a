import Verif.Lemmas.SuppressCache

/-!
# Properties C26-C30: suppression and language gating
-/

namespace Oclint
open Spec

/-- A unit for examples: main file `m.c` with some comments and declarations. -/
def exampleUnit (path : String) (comments : List (Str × Int)) (decls : List DeclRange) :
    SourceUnit :=
  { mainPath := path.toList, comments := some (comments.map some), topDecls := [(true, decls)],
    buffer := [] }

/-! ## C26 -/

/-- **C26.** A call without a rule is answered by the markers of the first unit asked about under
that main path, whatever was asked before. -/
theorem C26_line_marker (apple : Bool) (qs : List Query) (u : SourceUnit) (line : Int) :
    answer apple qs ⟨u, none, line⟩ = true ↔ LineSuppressed apple (commentSource qs u) line := by
  rw [answer_iff]; simp

/-- **C26.** As long as units of the same path have the same comments, the answer depends on the
unit's comments and the line only: not on the order or the contents of earlier calls. -/
theorem C26_consistent (apple : Bool) (qs : List Query) (u : SourceUnit) (line : Int)
    (same : ∀ q ∈ qs, q.unit.mainPath = u.mainPath → q.unit.comments = u.comments) :
    answer apple qs ⟨u, none, line⟩ = true ↔ LineSuppressed apple u line := by
  rw [C26_line_marker]
  have : (commentSource qs u).comments = u.comments := by
    unfold commentSource
    rcases hf : qs.find? _ with _ | f
    · rfl
    · exact same f (List.mem_of_find?_eq_some hf) (of_decide_eq_true (List.find?_some hf :))
  simp [LineSuppressed, this]

/-- **C26.** A violation is recorded exactly when its begin line carries no marker and its file has a
name; nothing else in the set changes. -/
theorem C26_recorded (apple : Bool) (qs : List Query) (u : SourceUnit) (set : ViolationSet)
    (loc : NodeRange) (rule : RuleId) (message : Str)
    (same : ∀ q ∈ qs, q.unit.mainPath = u.mainPath → q.unit.comments = u.comments) :
    let r := addViolationRange apple (cacheAfter apple qs) u set loc rule message
    (¬ LineSuppressed apple u loc.startLine ∧ loc.filename ≠ [] →
      r.1 = set ++ [⟨some rule, loc.filename, loc.startLine, loc.startColumn, loc.endLine,
        loc.endColumn, message⟩]) ∧
    (LineSuppressed apple u loc.startLine ∨ loc.filename = [] → r.1 = set) ∧
    r.2 = cacheAfter apple (qs ++ [⟨u, none, loc.startLine⟩]) := by
  have h := C26_consistent apple qs u loc.startLine same
  simp only [answer] at h
  intro r
  have hr : r = addViolationRange apple (cacheAfter apple qs) u set loc rule message := rfl
  unfold addViolationRange at hr
  simp only at hr
  by_cases hs : (shouldSuppressLine apple (cacheAfter apple qs) u none loc.startLine).1 = true
  · rw [if_neg (by simp [hs])] at hr
    have h2 := h.1 hs
    refine ⟨fun h3 => absurd h2 h3.1, fun _ => by rw [hr], ?_⟩
    rw [hr, cacheAfter_snoc]
  · rw [if_pos (by simp [hs])] at hr
    have h2 : ¬ LineSuppressed apple u loc.startLine := fun h3 => hs (h.2 h3)
    refine ⟨fun h3 => ?_, fun h3 => ?_, ?_⟩
    · rw [hr]; simp [carrierAddViolation, h3.2, ViolationSet.addViolation]
    · rcases h3 with h3 | h3
      · exact absurd h3 h2
      · rw [hr]; simp [carrierAddViolation, h3]
    · rw [hr, cacheAfter_snoc]

/-- A marked and an unmarked line, asked in both orders. -/
example : let u := exampleUnit "m.c" [("// x //!OCLINT y".toList, 3), ("// OCLINT".toList, 4)] []
    answer false [] ⟨u, none, 3⟩ = true ∧ answer false [] ⟨u, none, 4⟩ = false ∧
    answer false [⟨u, none, 4⟩, ⟨u, none, 3⟩] ⟨u, none, 3⟩ = true := by decide +kernel

/-- The marker written with blanks and in lower case counts on Apple platforms only. -/
example : let u := exampleUnit "m.c" [("//!  oclint".toList, 3)] []
    answer true [] ⟨u, none, 3⟩ = true ∧ answer false [] ⟨u, none, 3⟩ = false := by decide +kernel

/-- **C26, headers.** The lookup is by line number only: a violation located in a header is dropped
because of a marker on the same line of the main file. -/
theorem C26_header_witness :
    ∃ (u : SourceUnit) (loc : NodeRange), loc.filename ≠ u.mainPath ∧
      (addViolationRange false SuppressCache.empty u [] loc 0 []).1 = [] :=
  ⟨exampleUnit "m.c" [("//!OCLINT".toList, 3)] [], ⟨"h.h".toList, 3, 1, 3, 9⟩, by decide,
    by decide +kernel⟩

/-- **C26, stale markers.** When one path is analysed twice with different comments (say, under
different macros), the second analysis uses the markers of the first. -/
theorem C26_stale_witness :
    ∃ (qs : List Query) (u : SourceUnit) (line : Int), ¬ LineSuppressed false u line ∧
      answer false qs ⟨u, none, line⟩ = true :=
  ⟨[⟨exampleUnit "m.c" [("//!OCLINT".toList, 3)] [], none, 1⟩], exampleUnit "m.c" [] [], 3,
    by rw [← mem_commentLines]; decide +kernel, by decide +kernel⟩

/-! ## C27 -/

/-- **C27.** A rule is suppressed on a node exactly when the node, or an ancestor in the first-parent
chain, is a declaration that silences the rule. -/
theorem C27_suppressed_iff (pm : ParentMap) (rule : Str) (n : Nat) :
    shouldSuppressNode pm (some rule) n = true ↔
      (∃ d, pm.kind n = .decl d ∧ Silenced rule d) ∨
      ∃ p d, Ancestor pm n p ∧ pm.kind p = .decl d ∧ Silenced rule d := by
  unfold shouldSuppressNode
  rcases hk : pm.kind n with d | _ | _
  · simp only [Bool.or_eq_true, markedAsSuppress_iff, markedParents_iff, NodeKind.decl.injEq,
      exists_eq_left']
  · simp [markedParents_iff]
  · simp [markedParents_iff]

/-- **C27.** What suppresses an ancestor suppresses the descendant. -/
theorem C27_inherited (pm : ParentMap) (rule : Str) (n p : Nat) (h : Ancestor pm n p)
    (hp : pm.kind p ≠ .other) (hs : shouldSuppressNode pm (some rule) p = true) :
    shouldSuppressNode pm (some rule) n = true := by
  rw [C27_suppressed_iff] at hs ⊢
  right
  rcases hs with ⟨d, hk, hd⟩ | ⟨q, d, ha, hk, hd⟩
  · exact ⟨p, d, h, hk, hd⟩
  · refine ⟨q, d, ?_, hk, hd⟩
    exact ancestor_trans pm n p q h hp ha

/-- **C27.** Without a rule nothing is suppressed this way. -/
theorem C27_no_rule (pm : ParentMap) (n : Nat) : shouldSuppressNode pm none n = false := by
  unfold shouldSuppressNode
  rw [markedParents_none]
  rcases pm.kind n with d | _ | _ <;> simp [markedAsSuppress]

/-- **C27.** A violation on a node is recorded exactly as one on its source range, unless annotations
suppress it; a null node records nothing. -/
theorem C27_recorded (apple : Bool) (pm : ParentMap) (locOf : Nat → NodeRange) (ruleName : Str)
    (st : SuppressCache) (u : SourceUnit) (set : ViolationSet) (n : Nat) (rule : RuleId)
    (message : Str) :
    let silenced := (∃ d, pm.kind n = .decl d ∧ Silenced ruleName d) ∨
      ∃ p d, Ancestor pm n p ∧ pm.kind p = .decl d ∧ Silenced ruleName d
    (silenced →
      addViolationNode apple pm locOf ruleName st u set (some n) rule message = (set, st)) ∧
    (¬ silenced →
      addViolationNode apple pm locOf ruleName st u set (some n) rule message =
        addViolationRange apple st u set (locOf n) rule message) ∧
    addViolationNode apple pm locOf ruleName st u set none rule message = (set, st) := by
  intro silenced
  have h := C27_suppressed_iff pm ruleName n
  refine ⟨fun hs => ?_, fun hs => ?_, rfl⟩
  · simp [addViolationNode, h.2 hs]
  · have : shouldSuppressNode pm (some ruleName) n = false := by
      rw [← Bool.not_eq_true, h]; exact hs
    simp [addViolationNode, this]

/-- A chain for examples: node `k + 1` has parent `k`. -/
def chain (kinds : List NodeKind) : ParentMap where
  kind n := kinds.getD n .stmt
  parents n := if 0 < n then [n - 1] else []
  acyclic := by intro n p h; split at h <;> simp at h; omega

/-- One step of the walk along an example chain. -/
theorem chain_succ (kinds : List NodeKind) (rule : Option Str) (n : Nat) :
    markedParentsAsSuppress (chain kinds) rule (n + 1) =
      match kinds.getD n .stmt with
      | .decl d => if markedAsSuppress d rule then true
          else markedParentsAsSuppress (chain kinds) rule n
      | .stmt => markedParentsAsSuppress (chain kinds) rule n
      | .other => false := by
  rw [markedParentsAsSuppress]; rfl

/-- A statement inside an annotated function, for the named rule and another one. -/
example :
    let pm := chain [.decl (.plain []), .decl (.plain ["oclint:suppress[dead code]".toList]), .stmt,
      .stmt]
    shouldSuppressNode pm (some "dead code".toList) 3 = true ∧
    shouldSuppressNode pm (some "long line".toList) 3 = false ∧
    shouldSuppressNode pm (some "dead code".toList) 0 = false := by
  have h0 : ∀ kinds rule, markedParentsAsSuppress (chain kinds) rule 0 = false := by
    intro kinds rule; rw [markedParentsAsSuppress]; rfl
  intro pm
  have h1 := fun rule => chain_succ [.decl (.plain []),
    .decl (.plain ["oclint:suppress[dead code]".toList]), .stmt, .stmt] rule 0
  have h2 := fun rule => chain_succ [.decl (.plain []),
    .decl (.plain ["oclint:suppress[dead code]".toList]), .stmt, .stmt] rule 1
  have h3 := fun rule => chain_succ [.decl (.plain []),
    .decl (.plain ["oclint:suppress[dead code]".toList]), .stmt, .stmt] rule 2
  refine ⟨?_, ?_, ?_⟩
  · change markedParentsAsSuppress pm _ 3 = true
    rw [h3]; change markedParentsAsSuppress pm _ 2 = true
    rw [h2]; change (if _ then true else _) = true
    rw [if_pos (by decide +kernel)]
  · change markedParentsAsSuppress pm _ 3 = false
    rw [h3]; change markedParentsAsSuppress pm _ 2 = false
    rw [h2]; change (if _ then true else markedParentsAsSuppress pm _ 1) = false
    rw [if_neg (by decide +kernel), h1]
    change (if _ then true else markedParentsAsSuppress pm _ 0) = false
    rw [if_neg (by decide +kernel), h0]
  · change (markedAsSuppress (.plain []) (some "dead code".toList) ||
      markedParentsAsSuppress pm (some "dead code".toList) 0) = false
    rw [h0]; decide +kernel

/-- **C27, cut chains.** A node that is neither a declaration nor a statement cuts the chain: an
annotated declaration further out does not suppress. -/
theorem C27_chain_cut_witness :
    ∃ (pm : ParentMap) (d : DeclInfo), pm.kind 0 = .decl d ∧
      Silenced "dead code".toList d ∧ pm.parents 2 = [1] ∧ pm.parents 1 = [0] ∧
      shouldSuppressNode pm (some "dead code".toList) 2 = false := by
  refine ⟨chain [.decl (.plain ["oclint:suppress".toList]), .other, .stmt], _, rfl,
    Or.inl (by simp [DeclInfo.annotations]), rfl, rfl, ?_⟩
  simp only [shouldSuppressNode, chain]
  rw [markedParentsAsSuppress]
  rfl

/-! ## C28 -/

/-- **C28.** An action is found on a declaration exactly when it is requested there. -/
theorem C28_requested (action rule : Str) (d : DeclInfo) :
    (declHasActionAttribute action rule d).isSome ↔ Requested action rule d :=
  declHasAction_iff action rule d

/-- **C28.** The enforce action is looked up like the suppress action. -/
theorem C28_enforce (rule : Str) (d : DeclInfo) :
    (declHasEnforceAttribute d rule).isSome ↔ Requested "enforce".toList rule d :=
  declHasAction_iff _ rule d

/-- **C28.** One annotation never names two rules, if their names have no closing bracket. -/
theorem C28_one_rule (action r r' a : Str) (hr : ']' ∉ r) (hr' : ']' ∉ r')
    (h : Names action r a) (h' : Names action r' a) : r = r' := by
  obtain ⟨t, rfl⟩ := h
  obtain ⟨t', h'⟩ := h'
  simp only [List.append_assoc] at h'
  have h1 := List.append_cancel_left (List.append_cancel_left (List.append_cancel_left h'))
  have e : "]".toList = [']'] := by decide
  rw [e] at h1
  simp only [List.cons_append, List.nil_append] at h1
  clear h'
  induction r generalizing r' with
  | nil =>
    cases r' with
    | nil => rfl
    | cons c cs => injection h1 with h1 _; exact absurd (by simp [← h1]) hr'
  | cons c cs ih =>
    cases r' with
    | nil => injection h1 with h1 _; exact absurd (by simp [h1]) hr
    | cons c' cs' =>
      injection h1 with h1 h2
      rw [h1, ih cs' (fun h => hr (by simp [h])) (fun h => hr' (by simp [h])) h2]

/-- **C28.** `oclint:suppress[name]` on a plain declaration requests exactly the rule `name`. -/
theorem C28_exact_rule (action name r : Str) (hr : ']' ∉ r) (hname : ']' ∉ name) :
    (declHasActionAttribute action r
      (.plain ["oclint:".toList ++ action ++ "[".toList ++ name ++ "]".toList])).isSome ↔
      r = name := by
  rw [declHasAction_iff]
  constructor
  · intro h
    cases h with
    | own _ a h1 h2 =>
      simp only [DeclInfo.annotations, List.mem_singleton] at h1
      exact C28_one_rule action r name a hr hname h2 ⟨[], by rw [h1, List.append_nil]⟩
  · rintro rfl
    exact .own _ _ (List.mem_singleton.2 rfl) ⟨[], by rw [List.append_nil]⟩

/-- **C28.** The unqualified annotation is matched by equality only. -/
theorem C28_unqualified (anns : List Str) (action : Str) (h : '[' ∉ action) :
    (declHasOCLintAttribute (some anns) action).isSome ↔ "oclint:".toList ++ action ∈ anns := by
  have hb : '[' ∉ "oclint:".toList ++ action := by
    rw [List.mem_append]; rintro (h2 | h2)
    · revert h2; decide
    · exact h h2
  unfold declHasOCLintAttribute
  rw [declHasAttribute_isSome]
  generalize "oclint:".toList ++ action = g at hb
  constructor
  · rintro ⟨a, h1, h2⟩
    rw [attributeHasAnnotation_plain _ _ hb] at h2
    by_cases h3 : g = a
    · rw [h3]; exact h1
    · rw [if_neg h3] at h2; simp at h2
  · intro h1
    exact ⟨g, h1, by rw [attributeHasAnnotation_plain _ _ hb, if_pos rfl]; rfl⟩

/-- **C28.** A trailing bracketed comment is returned verbatim. -/
theorem C28_comment (action rule pre comment : Str) (rest : List Str) (hpre : '[' ∉ pre) :
    declHasActionAttribute action rule (.plain
      (("oclint:".toList ++ (action ++ "[".toList ++ rule ++ "]".toList) ++ pre ++ '[' :: comment
        ++ [']']) :: rest)) = some (some comment) := by
  simp only [declHasActionAttribute, baseDeclHasActionAttribute, declHasOCLintAttribute,
    declHasAttribute]
  rw [List.findSome?_cons, attributeHasAnnotation_comment _ _ _ (by
    simp only [List.mem_append]; exact Or.inr (Or.inl (Or.inl (Or.inr (by decide))))) hpre]

/-- **C28.** Without such a comment the match assigns none. -/
theorem C28_no_comment (action rule tail : Str) (rest : List Str)
    (hno : ¬ ∃ pre comment, '[' ∉ pre ∧ tail = pre ++ '[' :: comment ++ [']']) :
    declHasActionAttribute action rule (.plain
      (("oclint:".toList ++ (action ++ "[".toList ++ rule ++ "]".toList) ++ tail) :: rest)) =
      some none := by
  simp only [declHasActionAttribute, baseDeclHasActionAttribute, declHasOCLintAttribute,
    declHasAttribute]
  rw [List.findSome?_cons, attributeHasAnnotation_no_comment _ _ (by
    simp only [List.mem_append]; exact Or.inr (Or.inl (Or.inl (Or.inr (by decide))))) hno]

/-- Prefix, suffix and superstring do not match; a comment is returned. -/
example :
    let d := DeclInfo.plain ["oclint:suppress[long line][because]".toList]
    declHasActionAttribute "suppress".toList "long line".toList d = some (some "because".toList) ∧
    declHasActionAttribute "suppress".toList "long".toList d = none ∧
    declHasActionAttribute "suppress".toList "line".toList d = none ∧
    declHasActionAttribute "suppress".toList "long lines".toList d = none ∧
    declHasActionAttribute "enforce".toList "long line".toList d = none := by decide +kernel

/-- A method is annotated through its property and through a category. -/
example :
    declHasActionAttribute "suppress".toList "x".toList
      (.method [] true (some ["oclint:suppress[x]".toList]) .noInterface []) = some none ∧
    declHasActionAttribute "suppress".toList "x".toList
      (.method [] false (some ["oclint:suppress[x]".toList]) .classWithInterface
        [none, some (.method ["oclint:suppress[x][c]".toList] false none .category [])]) =
      some (some "c".toList) := by decide +kernel

/-! ## C29 -/

/-- **C29.** What a call with a rule is answered in any history: line markers count from the first
unit of that path, and ranges from the first call of that path that got as far as ranges, with the
rule of that call. -/
theorem C29_answer_exact (apple : Bool) (qs : List Query) (u : SourceUnit) (rule : Str)
    (line : Int) :
    answer apple qs ⟨u, some rule, line⟩ = true ↔
      LineSuppressed apple (commentSource qs u) line ∨
      ∃ r, (rangeSource apple qs ⟨u, some rule, line⟩).rule = some r ∧
        RangeSuppressed (rangeSource apple qs ⟨u, some rule, line⟩).unit r line := by
  rw [answer_iff]; simp

/-- **C29, partial.** If all calls for a path concern the same source and, when they name one, the
same rule, the answer depends on the unit, the rule and the line only.  Missing: independence from
calls with other rules, which is false (`C29_leak_witness`). -/
theorem C29_independent_partial (apple : Bool) (qs : List Query) (u : SourceUnit) (rule : Str)
    (line : Int)
    (same : ∀ q ∈ qs, q.unit.mainPath = u.mainPath →
      q.unit.comments = u.comments ∧ q.unit.topDecls = u.topDecls ∧
        (q.rule = none ∨ q.rule = some rule)) :
    answer apple qs ⟨u, some rule, line⟩ = true ↔
      LineSuppressed apple u line ∨ RangeSuppressed u rule line := by
  rw [C29_answer_exact, ← C26_line_marker,
    C26_consistent apple qs u line fun q hq hp => (same q hq hp).1]
  have key : (rangeSource apple qs ⟨u, some rule, line⟩).rule = some rule ∧
      (rangeSource apple qs ⟨u, some rule, line⟩).unit.topDecls = u.topDecls := by
    unfold rangeSource
    rcases hf : qs.find? _ with _ | f
    · exact ⟨rfl, rfl⟩
    · have h1 := @of_decide_eq_true _ (_) (List.find?_some hf :)
      have h2 := same f (List.mem_of_find?_eq_some hf) h1.1
      exact ⟨h2.2.2.resolve_left h1.2.1, h2.2.1⟩
  rw [key.1]
  simp only [Option.some.injEq, exists_eq_left', RangeSuppressed, key.2]

/-- A line inside an annotated declaration, and one outside. -/
example : let u := exampleUnit "m.c" [] [⟨.plain ["oclint:suppress[long line]".toList], 3, 5⟩]
    answer false [] ⟨u, some "long line".toList, 5⟩ = true ∧
    answer false [] ⟨u, some "long line".toList, 6⟩ = false ∧
    answer false [] ⟨u, some "other".toList, 4⟩ = false := by decide +kernel

/-- **C29, leak.** An earlier call with another rule changes the answer, in both directions. -/
theorem C29_leak_witness :
    ∃ (u : SourceUnit) (r r' : Str) (line : Int),
      answer false [] ⟨u, some r, line⟩ = true ∧
      answer false [⟨u, some r', line⟩] ⟨u, some r, line⟩ = false ∧
      answer false [] ⟨u, some r', line⟩ = false ∧
      answer false [⟨u, some r, line⟩] ⟨u, some r', line⟩ = true :=
  ⟨exampleUnit "m.c" [] [⟨.plain ["oclint:suppress[a]".toList], 3, 5⟩], "a".toList, "b".toList, 4,
    by decide +kernel⟩

theorem mapsAfter_eq (apple : Bool) (qs : List (Str × Query)) (library : Str) :
    mapsAfter apple qs library =
      cacheAfter apple ((qs.filter fun q => decide (q.1 = library)).map Prod.snd) := by
  induction qs using List.reverseRecOn with
  | nil => rfl
  | append_singleton qs q ih =>
    have e : mapsAfter apple (qs ++ [q]) =
        (shouldSuppressFrom apple (mapsAfter apple qs) q.1 q.2.unit q.2.rule q.2.line).2 := by
      simp [mapsAfter]
    rw [e]
    unfold shouldSuppressFrom
    simp only
    rw [List.filter_append, List.map_append]
    by_cases hq : q.1 = library
    · rw [if_pos hq.symm, List.filter_cons_of_pos (by simpa using hq), List.filter_nil, List.map_cons,
        List.map_nil, cacheAfter_snoc, ← ih, hq]
    · rw [if_neg (fun h => hq h.symm), List.filter_cons_of_neg (by simpa using hq), List.filter_nil,
        List.map_nil, List.append_nil, ih]

/-- **C29, libraries.** What a rule is answered depends on the earlier calls from its own library
only. -/
theorem C29_libraries (apple : Bool) (qs : List (Str × Query)) (library : Str) (q : Query) :
    answerFrom apple qs library q =
      answer apple ((qs.filter fun c => decide (c.1 = library)).map Prod.snd) q := by
  unfold answerFrom shouldSuppressFrom answer
  simp only
  rw [mapsAfter_eq]

/-- **C29, one rule per library.** If every library has one rule, as those of the distribution, then
for files that are not analyzed in different versions under the same path the answer depends on the
unit, the rule and the line only. -/
theorem C29_one_rule_per_library (apple : Bool) (qs : List (Str × Query)) (ruleOf : Str → Str)
    (library : Str) (u : SourceUnit) (line : Int)
    (one : ∀ c ∈ qs, c.2.rule = none ∨ c.2.rule = some (ruleOf c.1))
    (same : ∀ c ∈ qs, c.2.unit.mainPath = u.mainPath →
      c.2.unit.comments = u.comments ∧ c.2.unit.topDecls = u.topDecls) :
    answerFrom apple qs library ⟨u, some (ruleOf library), line⟩ = true ↔
      LineSuppressed apple u line ∨ RangeSuppressed u (ruleOf library) line := by
  rw [C29_libraries]
  apply C29_independent_partial
  intro q hq hp
  obtain ⟨c, hc, rfl⟩ := List.mem_map.1 hq
  obtain ⟨hc, hl⟩ := List.mem_filter.1 hc
  have hl : c.1 = library := by simpa using hl
  refine ⟨(same c hc hp).1, (same c hc hp).2, ?_⟩
  rw [← hl]
  exact one c hc

/-- The same two calls from different libraries do not disturb each other. -/
example : let u := exampleUnit "m.c" [] [⟨.plain ["oclint:suppress[a]".toList], 3, 5⟩]
    answerFrom false [("libB".toList, ⟨u, some "b".toList, 4⟩)] "libA".toList ⟨u, some "a".toList, 4⟩ =
      true ∧
    answerFrom false [("libA".toList, ⟨u, some "b".toList, 4⟩)] "libA".toList ⟨u, some "a".toList, 4⟩ =
      false := by decide +kernel

end Oclint
