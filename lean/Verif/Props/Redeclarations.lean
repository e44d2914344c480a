import Verif.Spec.Redeclarations
import Verif.Props.Thresholds

/-! # C101: declarations repeated in a file -/

namespace Oclint
open Spec

theorem visitEach_ok {α : Type} (visit : α → Outcome (Option Str)) (out : α → Option Str)
    (ds : List α) (h : ∀ d ∈ ds, visit d = .ok (out d)) :
    visitEach visit ds = .ok (ds.flatMap fun d => (out d).toList.map fun text => (d, text)) := by
  induction ds with
  | nil => rfl
  | cons d ds ih =>
    unfold visitEach
    rw [h d List.mem_cons_self, bind_ok', ih fun d hd => h d (List.mem_cons_of_mem _ hd), bind_ok']
    rfl

theorem flatMap_filter_map {α : Type} (p : α → Prop) [DecidablePred p] (text : α → Str) (ds : List α) :
    (ds.flatMap fun d => (if p d then some (text d) else none).toList.map fun t => (d, t)) =
      (ds.filter fun d => decide (p d)).map fun d => (d, text d) := by
  induction ds with
  | nil => rfl
  | cons d ds ih =>
    rw [List.flatMap_cons, ih]
    by_cases hd : p d
    · rw [if_pos hd, List.filter_cons_of_pos (p := fun d => decide (p d)) (by simpa using hd)]
      rfl
    · rw [if_neg hd, List.filter_cons_of_neg (p := fun d => decide (p d)) (by simpa using hd)]
      rfl

theorem functionMessage_eq {r : MetricRule} {d : MethodDecl} {m t : Int}
    (hr : r = .cyclomatic ∨ r = .npath ∨ r = .ncss ∨ r = .longMethod ∨ r = .parameters) :
    message r (.method d) m t = functionMessage r m t := by
  rcases hr with rfl | rfl | rfl | rfl | rfl <;> unfold message functionMessage <;>
    simp only [List.append_nil]

/-- One visit, with the value shared by all declarations. -/
theorem visit_body {cfg : Configurations} {r : MetricRule} {t m : Int} {f : FunctionDecls} {d : Redecl}
    (ht : LimitIs cfg r t) (hp : r = .parameters → 0 ≤ t) (hm : BodyMeasure r f m)
    (hx : ¬ Exempt r f d) :
    metricVisit cfg (stored r t) r (declSeen f d) =
      .ok (if t < m then some (functionMessage r m t) else none) := by
  have key : Applies r (declSeen f d) ∧ Measure r (declSeen f d) m ∧
      (r = .cyclomatic ∨ r = .npath ∨ r = .ncss ∨ r = .longMethod ∨ r = .parameters) ∧
      r ≠ .longName := by
    cases hm with
    | @npath _ b _ _ _ hb h =>
      refine ⟨.npath _ b ?_, .npath ?_ h, by simp, by simp⟩ <;> simp [hb]
    | ncss hb h =>
      refine ⟨.ncss _, .ncss ?_, by simp, by simp⟩
      simpa [hb] using h
    | longMethod hb h h' =>
      refine ⟨.longMethod _ ?_ ?_, .longMethod h ?_, by simp, by simp⟩
      · simp [hb]
      · rintro ⟨h1, h2⟩
        exact hx ⟨rfl, h1, h2⟩
      · simpa [hb] using h'
    | parameters hb h =>
      refine ⟨.parameters _ ?_, .parameters h, by simp, by simp⟩
      simp [hb]
  obtain ⟨ha, hm', hr, hn⟩ := key
  rw [visit_above ht (fun h => h.elim hp (fun h => absurd h hn)) ha hm',
    show declSeen f d = .method _ from rfl, functionMessage_eq hr]

theorem visit_exempt {cfg : Configurations} {r : MetricRule} {t : Int} {f : FunctionDecls} {d : Redecl}
    (hx : Exempt r f d) : metricVisit cfg (stored r t) r (declSeen f d) = .ok none := by
  obtain ⟨rfl, h1, h2⟩ := hx
  apply visit_other
  intro h
  cases h with
  | longMethod _ _ h => exact h ⟨h1, h2⟩

open Classical in
/-- **C101.** The rules about the number of paths, statements, lines and parameters look at a value
all declarations of the function share: either none of its declarations in the file is reported, or
every one, prototypes included, each with the same text (for the length of C++ methods, every one
outside the class). -/
theorem C101_every_declaration (cfg : Configurations) (r : MetricRule) (t m : Int) (f : FunctionDecls)
    (ds : List Redecl) (ht : LimitIs cfg r t) (hp : r = .parameters → 0 ≤ t)
    (hm : BodyMeasure r f m) :
    redeclRule cfg r (declSeen f) ds = .ok (if t < m then
      (ds.filter fun d => decide (¬ Exempt r f d)).map fun d => (d, functionMessage r m t) else []) := by
  unfold redeclRule
  rw [setUp_eq ht hp, bind_ok',
    visitEach_ok _ (fun d => if t < m ∧ ¬ Exempt r f d then some (functionMessage r m t) else none)]
  · rw [flatMap_filter_map (fun d => t < m ∧ ¬ Exempt r f d) (fun _ => functionMessage r m t)]
    by_cases hlt : t < m
    · simp [hlt]
    · simp [hlt]
  · intro d _
    by_cases hx : Exempt r f d
    · rw [visit_exempt hx, if_neg (by simp [hx])]
    · rw [visit_body ht hp hm hx]
      simp [hx]

/-- A function that is only declared is not reported for its paths, lines or parameters, nor for its
statements unless the limit is negative. -/
theorem C101_prototype_only (cfg : Configurations) (r : MetricRule) (t : Int) (f : FunctionDecls)
    (ds : List Redecl) (ht : LimitIs cfg r t) (hp : r = .parameters → 0 ≤ t) (hf : f.body = none)
    (hr : r = .npath ∨ r = .longMethod ∨ r = .parameters ∨ (r = .ncss ∧ 0 ≤ t)) :
    redeclRule cfg r (declSeen f) ds = .ok [] := by
  unfold redeclRule
  rw [setUp_eq ht hp, bind_ok', visitEach_ok _ (fun _ => none)]
  · simp
  · intro d _
    rcases hr with rfl | rfl | rfl | ⟨rfl, h0⟩
    · apply visit_other
      intro h
      cases h with
      | npath _ b h => simp [hf] at h
    · apply visit_other
      intro h
      cases h with
      | longMethod _ h _ => simp [hf] at h
    · apply visit_other
      intro h
      cases h with
      | parameters _ h => simp [hf] at h
    · have ha : Applies .ncss (declSeen f d) := .ncss _
      have hm : Measure .ncss (declSeen f d) 0 := by
        apply Measure.ncss
        simp only [hf]
        rfl
      rw [visit_above ht (by simp) ha hm, if_neg (by omega)]

/-- The cyclomatic complexity is computed from what is below the declaration: with default arguments
that do not branch, and a limit of at least one, only the definition is reported. -/
theorem C101_cyclomatic (cfg : Configurations) (t m : Int) (f : FunctionDecls) (b : FunctionBody)
    (ds : List Redecl) (ht : LimitIs cfg .cyclomatic t) (h1 : 1 ≤ t) (hf : f.body = some b)
    (hm : cyclomaticComplexity [b.stmt] = .ok m) (hds : ∀ d ∈ ds, d.arguments = []) :
    redeclRule cfg .cyclomatic (declSeen f) ds = .ok (if t < m then
      (ds.filter (·.isDefinition)).map fun d => (d, functionMessage .cyclomatic m t) else []) := by
  unfold redeclRule
  rw [setUp_eq ht (by simp), bind_ok', visitEach_ok _ (fun d =>
    if t < m ∧ d.isDefinition = true then some (functionMessage .cyclomatic m t) else none)]
  · rw [flatMap_filter_map (fun d : Redecl => t < m ∧ d.isDefinition = true)
      (fun _ => functionMessage .cyclomatic m t)]
    by_cases hlt : t < m
    · simp [hlt]
    · simp [hlt]
  · intro d hd
    have ha : Applies .cyclomatic (declSeen f d) := .cyclomatic _
    by_cases hdef : d.isDefinition = true
    · have hmm : Measure .cyclomatic (declSeen f d) m := by
        apply Measure.cyclomatic
        simpa [hds d hd, hdef, hf] using hm
      rw [visit_above ht (by simp) ha hmm, show declSeen f d = .method _ from rfl,
        functionMessage_eq (.inl rfl)]
      simp [hdef]
    · have hmm : Measure .cyclomatic (declSeen f d) 1 := by
        apply Measure.cyclomatic
        simp only [hds d hd, if_neg hdef]
        rfl
      rw [visit_above ht (by simp) ha hmm, if_neg (by omega), if_neg (by simp [hdef])]

/-- What holds of the wish that a function is reported once, at its definition: it does for the
cyclomatic complexity, and for the length of C++ methods that are declared in their class and defined
outside.  Missing: the other rules, see `C101_once_witness`. -/
theorem C101_once_partial (cfg : Configurations) (r : MetricRule) (t m : Int) (f : FunctionDecls)
    (b : FunctionBody) (ds : List Redecl) (ht : LimitIs cfg r t) (h1 : 1 ≤ t) (hf : f.body = some b)
    (hds : (ds.filter (·.isDefinition)).length ≤ 1)
    (hr : (r = .cyclomatic ∧ cyclomaticComplexity [b.stmt] = .ok m ∧ ∀ d ∈ ds, d.arguments = []) ∨
      (r = .longMethod ∧ BodyMeasure .longMethod f m ∧ f.cxxMethod = true ∧
        ∀ d ∈ ds, d.isDefinition = false → d.inRecord = true)) :
    ∃ rs, redeclRule cfg r (declSeen f) ds = .ok rs ∧ ReportedOnce rs := by
  rcases hr with ⟨rfl, hm, ha⟩ | ⟨rfl, hm, hc, hd⟩
  · refine ⟨_, C101_cyclomatic cfg t m f b ds ht h1 hf hm ha, ?_⟩
    by_cases hlt : t < m
    · rw [if_pos hlt]
      refine ⟨by simpa using hds, ?_⟩
      intro x hx
      obtain ⟨d, hd, rfl⟩ := List.mem_map.1 hx
      exact (List.mem_filter.1 hd).2
    · rw [if_neg hlt]
      exact ⟨by simp, by simp⟩
  · classical
    refine ⟨_, C101_every_declaration cfg _ t m f ds ht (by simp) hm, ?_⟩
    by_cases hlt : t < m
    · rw [if_pos hlt]
      have key : ∀ d ∈ ds, ¬ Exempt .longMethod f d → d.isDefinition = true := by
        intro d hdm hx
        by_contra hn
        exact hx ⟨rfl, hc, hd d hdm (by simpa using hn)⟩
      constructor
      · rw [List.length_map]
        refine le_trans (List.Sublist.length_le ?_) hds
        have : (ds.filter fun d => decide (¬ Exempt .longMethod f d)) =
            (ds.filter (·.isDefinition)).filter fun d => decide (¬ Exempt .longMethod f d) := by
          rw [List.filter_filter]
          apply List.filter_congr
          intro d hdm
          by_cases hx : Exempt .longMethod f d
          · simp [hx]
          · simp [hx, key d hdm hx]
        rw [this]
        exact List.filter_sublist
      · intro x hx
        obtain ⟨d, hd', rfl⟩ := List.mem_map.1 hx
        obtain ⟨h1, h2⟩ := List.mem_filter.1 hd'
        exact key d h1 (by simpa using h2)
    · rw [if_neg hlt]
      exact ⟨by simp, by simp⟩

/-- `void f(int, …); void f(int, …) {}` with eleven parameters. -/
def exTwice : FunctionDecls := ⟨11, false, some ⟨.compound [], 2, 2⟩⟩
/-- Its prototype and its definition. -/
def exTwiceDecls : List Redecl := [⟨0, [], false, false⟩, ⟨1, [], false, true⟩]

/-- A function with eleven parameters that is declared before it is defined is reported twice, the
first time at the prototype. -/
theorem C101_once_witness :
    (∃ rs, redeclRule none .parameters (declSeen exTwice) exTwiceDecls = .ok rs ∧
      rs.map (fun x => (x.1.id, x.2)) =
        [(0, "Method with 11 parameters exceeds limit of 10".toList),
         (1, "Method with 11 parameters exceeds limit of 10".toList)] ∧ ¬ ReportedOnce rs) := by
  refine ⟨_, C101_every_declaration none .parameters 10 11 exTwice exTwiceDecls ⟨_, rfl⟩ (by simp)
    (.parameters (f := exTwice) rfl (by decide)), ?_, ?_⟩
  · rw [if_pos (by decide)]
    simp only [exTwiceDecls, List.filter_cons, List.filter_nil, Exempt]
    simp
    decide +kernel
  · rw [if_pos (by decide)]
    intro h
    have := h.1
    simp [exTwiceDecls, Exempt] at this

/-- A C++ method of sixty lines, declared in its class and defined outside, is reported once. -/
example : ∃ rs, redeclRule none .longMethod
    (declSeen ⟨0, true, some ⟨.compound [], 11, 70⟩⟩) [⟨0, [], true, false⟩, ⟨1, [], false, true⟩] =
      .ok rs ∧ ReportedOnce rs ∧ rs.map (·.1.id) = [1] := by
  have hm : BodyMeasure .longMethod ⟨0, true, some ⟨.compound [], 11, 70⟩⟩ ((60 : Nat) : Int) :=
    .longMethod rfl (by decide) rfl
  obtain ⟨rs, h, h'⟩ := C101_once_partial none .longMethod 50 60 _ _
    [⟨0, [], true, false⟩, ⟨1, [], false, true⟩] ⟨_, rfl⟩ (by decide) rfl (by decide)
    (.inr ⟨rfl, hm, rfl, by simp⟩)
  refine ⟨rs, h, h', ?_⟩
  rw [C101_every_declaration none .longMethod 50 60 _ _ ⟨_, rfl⟩ (by simp) hm] at h
  cases h
  simp [Exempt]

/-- The number of instance variables is that of the class, whichever declaration is visited: each
`@class` in the file is reported like the `@interface`. -/
theorem C101_forward_classes (cfg : Configurations) (t : Int) (ivars : Nat) (ds : List InterfaceRedecl)
    (ht : LimitIs cfg .fields t) (hi : ivars < 2147483648) :
    redeclRule cfg .fields (interfaceSeen ivars) ds = .ok (if t < ivars then ds.map fun d =>
      (d, "Objective-C interface with ".toList ++ decimalInt ivars ++ " fields".toList ++
        " exceeds limit of ".toList ++ decimalInt t) else []) := by
  unfold redeclRule
  rw [setUp_eq ht (by simp), bind_ok', visitEach_ok _ (fun d => if t < ivars then
    some (message .fields (interfaceSeen ivars d) ivars t) else none)]
  · rw [flatMap_filter_map (fun _ => t < ivars) (fun d => message .fields (interfaceSeen ivars d) ivars t)]
    by_cases hlt : t < ivars
    · simp only [hlt, decide_true, List.filter_true, if_true]
      apply congrArg
      apply List.map_congr_left
      intro d _
      unfold message interfaceSeen kindName
      simp only
      rw [show "Objective-C interface".toList ++ " with ".toList = "Objective-C interface with ".toList
        from by decide +kernel]
    · simp [hlt]
  · intro d _
    exact visit_above ht (by simp) (.fields _ (.inl rfl)) (.fields hi)

/-- The length, in contrast, is that of the declaration visited. -/
theorem C101_forward_class_length (cfg : Configurations) (t : Int) (ivars : Nat)
    (ds : List InterfaceRedecl) (ht : LimitIs cfg .longClass t) (h1 : 1 ≤ t)
    (hds : ∀ d ∈ ds, d.endLine = d.startLine) :
    redeclRule cfg .longClass (interfaceSeen ivars) ds = .ok [] := by
  unfold redeclRule
  rw [setUp_eq ht (by simp), bind_ok', visitEach_ok _ (fun _ => none)]
  · simp
  · intro d hd
    have hm : Measure .longClass (interfaceSeen ivars d) ((1 : Nat) : Int) :=
      .longClass (by decide) (by simp [hds d hd])
    have ha : Applies .longClass (interfaceSeen ivars d) := .longClass _
    rw [visit_above ht (by simp) ha hm, if_neg (by simpa using h1)]

end Oclint
