import Verif.Spec.Cocoa
import Verif.Spec.Picks
import Verif.Lemmas.Rules
import Verif.Props.Suppress

/-!
# C79-C84: rules about Objective-C classes
-/

namespace Oclint
open Spec

/-! ## C79: `isEqual:` and `hash` -/

theorem isEqualHash_fold (names : List Str) (f : Bool × Bool) :
    ((names.foldl isEqualHashStep f).1 = true ↔ f.1 = true ∨ "hash".toList ∈ names) ∧
      ((names.foldl isEqualHashStep f).2 = true ↔ f.2 = true ∨ "isEqual:".toList ∈ names) := by
  induction names generalizing f with
  | nil => simp
  | cons n names ih =>
    rw [List.foldl_cons, (ih _).1, (ih _).2]
    unfold isEqualHashStep
    constructor
    · by_cases h : n = "hash".toList
      · simp only [h, if_true, List.mem_cons, true_or, or_true]
      · simp only [h, if_false, List.mem_cons, Ne.symm h, false_or]
    · by_cases h : n = "isEqual:".toList
      · simp only [h, if_true, List.mem_cons, true_or, or_true]
      · simp only [h, if_false, List.mem_cons, Ne.symm h, false_or]

/-- Exactly the implementations with `isEqual:` and without `hash` are reported, once. -/
theorem C79_exact (names : List Str) :
    ("isEqual:".toList ∈ names ∧ "hash".toList ∉ names →
      isEqualHashVisit names = ["If you override isEqual you must override hash too.".toList]) ∧
    (¬ ("isEqual:".toList ∈ names ∧ "hash".toList ∉ names) → isEqualHashVisit names = []) := by
  obtain ⟨h1, h2⟩ := isEqualHash_fold names (false, false)
  simp only [Bool.false_eq_true, false_or] at h1 h2
  unfold isEqualHashVisit
  simp only
  constructor
  · rintro ⟨ha, hb⟩
    rw [if_pos]
    rw [Bool.and_eq_true, Bool.not_eq_true', ← Bool.not_eq_true, h1, h2]
    exact ⟨ha, hb⟩
  · intro h
    rw [if_neg]
    rw [Bool.and_eq_true, Bool.not_eq_true', ← Bool.not_eq_true, h1, h2]
    exact h

example : isEqualHashVisit ["init".toList, "isEqual:".toList] =
      ["If you override isEqual you must override hash too.".toList] ∧
    isEqualHashVisit ["hash".toList, "isEqual:".toList] = [] ∧
    isEqualHashVisit ["hash".toList] = [] := by decide

/-! ## C80: calling the base method -/

theorem superCall_fold (sel : Str) (sends : List (Str × ReceiverKind)) (b : Bool) :
    sends.foldl (superCallStep sel) b = true ↔ b = true ∨ (sel, .superInstance) ∈ sends := by
  induction sends generalizing b with
  | nil => simp
  | cons x sends ih =>
    rw [List.foldl_cons, ih, superCallStep]
    obtain ⟨s, k⟩ := x
    by_cases h : s = sel ∧ k = .superInstance
    · rw [if_pos h]
      obtain ⟨rfl, rfl⟩ := h
      simp
    · rw [if_neg h, List.mem_cons, Prod.mk.injEq]
      have : ¬ (sel = s ∧ ReceiverKind.superInstance = k) := fun ⟨a, b⟩ => h ⟨a.symm, b.symm⟩
      simp only [this, false_or]

theorem requiresSuper_iff (m : OverridingMethod) :
    declRequiresSuperCall m = true ↔ MustCallBase m := by
  unfold declRequiresSuperCall MustCallBase
  split
  · next h =>
    simp only [h, true_and, List.any_eq_true]
    exact exists_congr fun d => and_congr_right fun _ => C28_enforce _ _
  · next h => simp [h]

/-- A method, declaration or definition, is reported exactly if it must call the base method and
there is no message with its selector to `super` in an instance method inside it. -/
theorem C80_exact (m : OverridingMethod) (t : Str) : t ∈ mustCallSuperVisit m ↔
    MustCallBase m ∧ (m.selector, .superInstance) ∉ m.sends ∧
      t = "overridden method ".toList ++ m.selector ++ " must call super".toList := by
  have hf := superCall_fold m.selector m.sends false
  simp only [Bool.false_eq_true, false_or] at hf
  unfold mustCallSuperVisit
  split
  · next h =>
    rw [requiresSuper_iff] at h
    split
    · next h' =>
      rw [Bool.not_eq_true', ← Bool.not_eq_true, hf] at h'
      rw [List.mem_singleton]
      exact ⟨fun ht => ⟨h, h', ht⟩, fun ht => ht.2.2⟩
    · next h' =>
      rw [Bool.not_eq_true', ← Bool.not_eq_true, hf, Classical.not_not] at h'
      simp only [List.not_mem_nil, false_iff]
      rintro ⟨-, h2, -⟩
      exact h2 h'
  · next h =>
    rw [requiresSuper_iff] at h
    simp only [List.not_mem_nil, false_iff]
    rintro ⟨h1, -⟩
    exact h h1

/-- At most one report for a method. -/
theorem C80_once (m : OverridingMethod) : (mustCallSuperVisit m).length ≤ 1 := by
  unfold mustCallSuperVisit
  repeat' split
  all_goals simp

/-- For definitions of instance methods: reported exactly if the call is required and missing. -/
theorem C80_instance_partial (m : OverridingMethod) (hb : m.hasBody = true)
    (hi : ∀ s, (s, ReceiverKind.superClass) ∉ m.sends) :
    mustCallSuperVisit m ≠ [] ↔ m.hasBody = true ∧ MustCallBase m ∧ ¬ CallsBase m := by
  have hc : CallsBase m ↔ (m.selector, .superInstance) ∈ m.sends := by
    constructor
    · rintro ⟨k, h, rfl | rfl⟩
      · exact h
      · exact absurd h (hi _)
    · intro h; exact ⟨_, h, .inl rfl⟩
  rw [hc]
  constructor
  · intro h
    obtain ⟨t, ht⟩ := List.exists_mem_of_ne_nil _ h
    obtain ⟨h1, h2, -⟩ := (C80_exact m t).1 ht
    exact ⟨hb, h1, h2⟩
  · rintro ⟨-, h1, h2⟩ h
    have := (C80_exact m _).2 ⟨h1, h2, rfl⟩
    rw [h] at this; cases this

/-- A method that carries the annotation. -/
def baseMethodDecl : DeclInfo :=
  .method ["oclint:enforce[base method]".toList] false none .classWithInterface []

theorem baseMethodDecl_requested :
    Requested "enforce".toList "base method".toList baseMethodDecl :=
  .own _ _ (List.mem_singleton.2 rfl) ⟨[], rfl⟩

/-- Otherwise it is false: a class method that calls the base method is reported, and so is a
declaration in an interface. -/
theorem C80_witness :
    (∃ m : OverridingMethod, m.hasBody = true ∧ CallsBase m ∧ mustCallSuperVisit m ≠ []) ∧
    (∃ m : OverridingMethod, m.hasBody = false ∧ m.sends = [] ∧ mustCallSuperVisit m ≠ []) := by
  constructor
  · refine ⟨⟨"make".toList, true, true, [baseMethodDecl], [("make".toList, .superClass)]⟩, rfl,
      ⟨_, List.mem_singleton.2 rfl, .inr rfl⟩, fun h => ?_⟩
    have := (C80_exact ⟨"make".toList, true, true, [baseMethodDecl],
      [("make".toList, .superClass)]⟩ _).2
      ⟨⟨rfl, _, List.mem_singleton.2 rfl, baseMethodDecl_requested⟩, by simp, rfl⟩
    rw [h] at this; cases this
  · refine ⟨⟨"layout".toList, false, true, [baseMethodDecl], []⟩, rfl, rfl, fun h => ?_⟩
    have := (C80_exact ⟨"layout".toList, false, true, [baseMethodDecl], []⟩ _).2
      ⟨⟨rfl, _, List.mem_singleton.2 rfl, baseMethodDecl_requested⟩, by simp, rfl⟩
    rw [h] at this; cases this

/-- With and without the call. -/
example : mustCallSuperVisit ⟨"layout".toList, true, true, [baseMethodDecl],
      [("layout".toList, .instance)]⟩ = ["overridden method layout must call super".toList] ∧
    mustCallSuperVisit ⟨"layout".toList, true, true, [baseMethodDecl],
      [("layout".toList, .superInstance)]⟩ = [] := by decide +kernel

/-! ## C81: prohibited calls -/

/-- Exactly the calls of functions and methods that are declared prohibited are reported, once, and
the annotation's comment, if there is one, is given as advice. -/
theorem C81_exact (c : AnyCall) (t : Str) : t ∈ prohibitedCallVisit c ↔
    ∃ what name d, Calls c what name d ∧
      Requested "enforce".toList "prohibited method".toList d ∧
      t = "calling prohibited ".toList ++ what ++ [' '] ++ name ++
        advice (declHasEnforceAttribute d "prohibited method".toList) := by
  have ht : ∀ what name comment, prohibitedText what name comment =
      "calling prohibited ".toList ++ what ++ [' '] ++ name ++ advice (some comment) := by
    intro what name comment
    unfold prohibitedText advice
    cases comment with
    | none => simp
    | some c =>
      cases c with
      | nil => simp
      | cons x xs => simp
  have key : ∀ what name d, t ∈ prohibitedReport what name (some d) ↔
      Requested "enforce".toList "prohibited method".toList d ∧
      t = "calling prohibited ".toList ++ what ++ [' '] ++ name ++
        advice (declHasEnforceAttribute d "prohibited method".toList) := by
    intro what name d
    rw [← C28_enforce, prohibitedReport, enforcedOn]
    split
    · next comment h => rw [h, List.mem_singleton, ht]; simp only [Option.isSome_some, true_and]
    · next h => rw [h]; simp only [Option.isSome_none, Bool.false_eq_true, false_and, List.not_mem_nil]
  have knone : ∀ what name, prohibitedReport what name none = [] := fun _ _ => rfl
  unfold prohibitedCallVisit
  split
  · next callee =>
    cases callee with
    | none =>
      rw [Option.map_none, Option.map_none, knone]
      simp only [List.not_mem_nil, false_iff]
      rintro ⟨what, name, d, h, -⟩
      cases h
    | some nd =>
      obtain ⟨name, d⟩ := nd
      rw [Option.map_some, Option.map_some, key]
      constructor
      · intro h; exact ⟨_, _, _, .function _ _, h⟩
      · rintro ⟨_, _, _, h, h'⟩; cases h; exact h'
  · next sel m =>
    cases m with
    | none =>
      rw [knone]
      simp only [List.not_mem_nil, false_iff]
      rintro ⟨what, name, d, h, -⟩
      cases h
    | some d =>
      rw [key]
      constructor
      · intro h; exact ⟨_, _, _, .method _ _, h⟩
      · rintro ⟨_, _, _, h, h'⟩; cases h; exact h'

/-- At most one report for a call. -/
theorem C81_once (c : AnyCall) : (prohibitedCallVisit c).length ≤ 1 := by
  unfold prohibitedCallVisit prohibitedReport
  repeat' split
  all_goals simp

example : prohibitedCallVisit (.function (some ("gets".toList,
      .plain ["oclint:enforce[prohibited method][fgets]".toList]))) =
      ["calling prohibited function gets instead use fgets".toList] ∧
    prohibitedCallVisit (.message "foo".toList (some
      (.plain ["oclint:enforce[prohibited method]".toList]))) =
      ["calling prohibited method foo".toList] ∧
    prohibitedCallVisit (.message "foo".toList none) = [] := by decide +kernel

/-! ## C82: protected methods -/

theorem classOrSubclass_iff (c : ObjcClass) (name : Str) :
    isObjCInterfaceClassOrSubclass c name = true ↔ Inherits c name := by
  induction c using ObjcClass.rec (motive_2 := fun s => ∀ c, s = some c →
      (isObjCInterfaceClassOrSubclass c name = true ↔ Inherits c name)) with
  | mk n s ih =>
    unfold Inherits
    cases s with
    | none =>
      rw [isObjCInterfaceClassOrSubclass, beq_iff_eq]
      constructor
      · rintro rfl; exact ⟨_, .self _, rfl⟩
      · rintro ⟨a, h, rfl⟩; cases h; rfl
    | some s =>
      rw [isObjCInterfaceClassOrSubclass]
      split
      · next h => simp only [true_iff]; exact ⟨_, .self _, h⟩
      · next h =>
        rw [ih s rfl]
        constructor
        · rintro ⟨a, h1, h2⟩; exact ⟨a, .above h1, h2⟩
        · rintro ⟨a, h1, h2⟩
          cases h1 with
          | self => exact absurd h2 h
          | above h1 => exact ⟨a, h1, h2⟩
  | none => rename_i h; cases h
  | some c ih => rename_i h; cases h; exact ih

theorem superClassNamed_iff (c : ObjcClass) (name : Str) :
    superClassNamed c name = true ↔ ∃ n s, c = .mk n (some s) ∧ Inherits s name := by
  induction c using ObjcClass.rec (motive_2 := fun s => ∀ c, s = some c →
      (superClassNamed c name = true ↔ ∃ n s, c = .mk n (some s) ∧ Inherits s name)) with
  | mk n s ih =>
    cases s with
    | none => simp [superClassNamed]
    | some s =>
      rw [superClassNamed]
      have hs : (∃ m t, ObjcClass.mk n (some s) = .mk m (some t) ∧ Inherits t name) ↔ Inherits s name := by
        constructor
        · rintro ⟨_, _, h, h'⟩; cases h; exact h'
        · intro h; exact ⟨_, _, rfl, h⟩
      rw [hs]
      unfold Inherits at ih ⊢
      split
      · next h => simp only [true_iff]; exact ⟨_, .self _, h⟩
      · next h =>
        rw [ih s rfl]
        constructor
        · rintro ⟨_, _, rfl, a, h1, h2⟩; exact ⟨a, .above h1, h2⟩
        · rintro ⟨a, h1, h2⟩
          cases h1 with
          | self => exact absurd h2 h
          | above h1 => exact ⟨_, _, rfl, a, h1, h2⟩
  | none => rename_i h; cases h
  | some c ih => rename_i h; cases h; exact ih

/-- The function for rules to ask whether a method is in a subclass: it looks above the method's class
only, and asking about a method of a protocol is undefined. -/
theorem C82_in_child (name : Str) :
    isObjCMethodDeclInChildOfClass none name = .ub ∧
    ∀ c, ∃ b, isObjCMethodDeclInChildOfClass (some c) name = .ok b ∧
      (b = true ↔ ∃ n s, c = .mk n (some s) ∧ Inherits s name) :=
  ⟨rfl, fun c => ⟨_, rfl, superClassNamed_iff c name⟩⟩

example :
    let top : ObjcClass := .mk ['A'] none
    let c : ObjcClass := .mk ['C'] (some (.mk ['B'] (some top)))
    isObjCMethodDeclInChildOfClass (some c) ['A'] = .ok true ∧
      isObjCMethodDeclInChildOfClass (some c) ['C'] = .ok false ∧
      isObjCInterfaceClassOrSubclass c ['C'] = true := ⟨rfl, rfl, rfl⟩

theorem protectedViolation_iff (c : ObjcClass) (s : ClassSend) :
    protectedViolation c s = true ↔ ∃ r, SendsProtected s r ∧ ¬ Inherits c r.name := by
  unfold protectedViolation SendsProtected
  cases hm : s.method with
  | none =>
    simp only [Option.map_none, enforcedOn]
    constructor
    · intro h; cases h
    · rintro ⟨r, ⟨d, k, h, -⟩, -⟩; cases h
  | some dk =>
    obtain ⟨d, k⟩ := dk
    simp only [Option.map_some, enforcedOn]
    have := C28_enforce "protected method".toList d
    cases he : declHasEnforceAttribute d "protected method".toList with
    | none =>
      rw [he] at this
      simp only [Option.isSome_none, Bool.false_eq_true, false_iff] at this ⊢
      rintro ⟨r, ⟨d', k', h, h', -⟩, -⟩
      cases h
      exact this h'
    | some comment =>
      rw [he] at this
      simp only [Option.isSome_some, true_iff] at this
      cases hr : s.receiver with
      | none =>
        simp only
        constructor
        · intro h; cases h
        · rintro ⟨r, ⟨d', k', -, -, h⟩, -⟩; cases h
      | some r =>
        simp only
        rw [Bool.not_eq_true', ← Bool.not_eq_true, classOrSubclass_iff]
        constructor
        · intro h; exact ⟨r, ⟨d, k, rfl, this, rfl⟩, h⟩
        · rintro ⟨r', ⟨d', k', -, -, h⟩, h'⟩; cases h; exact h'

theorem protectedReports_ok {l : List ClassSend}
    (h : ∀ s ∈ l, ∃ d c, s.method = some (d, some c)) : ∃ rs, protectedReports l = .ok rs ∧
      rs.map Prod.fst = l ∧ ∀ r ∈ rs, ∃ d c, r.1.method = some (d, some c) ∧
        r.2 = "calling protected method ".toList ++ r.1.selector ++
          " from outside ".toList ++ c.name ++ " and its subclasses".toList := by
  induction l with
  | nil => exact ⟨[], rfl, rfl, by simp⟩
  | cons s l ih =>
    obtain ⟨rs, h1, h2, h3⟩ := ih fun s hs => h s (List.mem_cons_of_mem _ hs)
    obtain ⟨d, c, hm⟩ := h s List.mem_cons_self
    refine ⟨(s, "calling protected method ".toList ++ s.selector ++
          " from outside ".toList ++ c.name ++ " and its subclasses".toList) :: rs, ?_, ?_, ?_⟩
    · have : protectedReport s = .ok (s, "calling protected method ".toList ++ s.selector ++
          " from outside ".toList ++ c.name ++ " and its subclasses".toList) := by
        unfold protectedReport; rw [hm]
      rw [protectedReports, this, h1]
    · rw [List.map_cons, h2]
    · intro r hr
      rcases List.mem_cons.1 hr with rfl | hr
      · exact ⟨d, c, hm, rfl⟩
      · exact h3 r hr

theorem protectedReports_ub {l : List ClassSend}
    (h : ∃ s ∈ l, ¬ ∃ d c, s.method = some (d, some c)) : protectedReports l = .ub := by
  induction l with
  | nil => obtain ⟨s, hs, -⟩ := h; cases hs
  | cons s l ih =>
    rw [protectedReports]
    by_cases hs : ∃ d c, s.method = some (d, some c)
    · obtain ⟨d, c, hm⟩ := hs
      have : protectedReport s = .ok (s, "calling protected method ".toList ++ s.selector ++
          " from outside ".toList ++ c.name ++ " and its subclasses".toList) := by
        unfold protectedReport; rw [hm]
      rw [this]
      simp only
      rw [ih]
      obtain ⟨s', hs', hn⟩ := h
      rcases List.mem_cons.1 hs' with rfl | hs'
      · exact absurd ⟨d, c, hm⟩ hn
      · exact ⟨s', hs', hn⟩
    · have : protectedReport s = .ub := by
        unfold protectedReport
        split
        · next d c hm => exact absurd ⟨d, c, hm⟩ hs
        · rfl
      rw [this]

/-- If every protected method of a class has an interface, then exactly the messages for protected
methods are reported, in order, whose receiver's class is not the implemented class or above it. -/
theorem C82_exact (c : ObjcClass) (sends : List ClassSend)
    (hm : ∀ s ∈ sends, ∀ r, SendsProtected s r → ∃ d k, s.method = some (d, some k)) :
    ∃ rs, protectedMethodVisit (some c) sends = .ok rs ∧
      Picks (fun s => ∃ r, SendsProtected s r ∧ ¬ Inherits c r.name) sends (rs.map Prod.fst) ∧
      ∀ r ∈ rs, ∃ d k, r.1.method = some (d, some k) ∧
        r.2 = "calling protected method ".toList ++ r.1.selector ++
          " from outside ".toList ++ k.name ++ " and its subclasses".toList := by
  obtain ⟨rs, h1, h2, h3⟩ := protectedReports_ok (l := sends.filter (protectedViolation c)) (by
    intro s hs
    obtain ⟨h1, h2⟩ := List.mem_filter.1 hs
    obtain ⟨r, h3, -⟩ := (protectedViolation_iff c s).1 h2
    exact hm s h1 r h3)
  refine ⟨rs, h1, ?_, h3⟩
  rw [h2]
  exact picks_filter fun s _ => protectedViolation_iff c s

/-- Otherwise, for a protected method of a protocol called from elsewhere, the behaviour is
undefined. -/
theorem C82_undefined (c : ObjcClass) (sends : List ClassSend) (s : ClassSend) (hs : s ∈ sends)
    (r : ObjcClass) (h : SendsProtected s r) (hr : ¬ Inherits c r.name) (d : DeclInfo)
    (hm : s.method = some (d, none)) : protectedMethodVisit (some c) sends = .ub := by
  unfold protectedMethodVisit
  refine protectedReports_ub ⟨s, List.mem_filter.2 ⟨hs, (protectedViolation_iff c s).2 ⟨r, h, hr⟩⟩, ?_⟩
  rintro ⟨d', c', h'⟩
  rw [hm] at h'; cases h'

/-- Without interface of the implementation nothing is looked at. -/
theorem C82_no_interface (sends : List ClassSend) : protectedMethodVisit none sends = .ok [] := rfl

theorem classOrAbove_trans {a b c : ObjcClass} (h : ClassOrAbove a b) (h' : ClassOrAbove b c) :
    ClassOrAbove a c := by
  induction h with
  | self => exact h'
  | above _ ih => exact .above (ih h')

/-- No call from outside is missed: a message for a protected method of `k` from a class that is
not `k` and not a subclass is reported, if the receiver's class, which has the method from `k`, is
the only one of its name. -/
theorem C82_complete (c k r : ObjcClass) (s : ClassSend) (h : SendsProtected s r)
    (hk : ClassOrAbove r k) (hu : ∀ a, ClassOrAbove c a → a.name = r.name → a = r)
    (ho : ¬ ClassOrAbove c k) : protectedViolation c s = true := by
  rw [protectedViolation_iff]
  refine ⟨r, h, ?_⟩
  rintro ⟨a, ha, hn⟩
  cases hu a ha hn
  exact ho (classOrAbove_trans ha hk)

/-- If the receiver's class is the method's class: reported exactly if the call is from outside of
that class and its subclasses. -/
theorem C82_same_class_partial (c k : ObjcClass) (s : ClassSend) (h : SendsProtected s k) :
    protectedViolation c s = true ↔ ¬ Inherits c k.name := by
  rw [protectedViolation_iff]
  constructor
  · rintro ⟨r, ⟨_, _, -, -, hr⟩, h'⟩
    obtain ⟨_, _, -, -, hk⟩ := h
    rw [hr] at hk
    cases hk
    exact h'
  · intro h'; exact ⟨k, h, h'⟩

/-- In general it is false: `A` calls its own protected method on an object of the subclass `B`, and
it is reported as a call from outside of `A` and its subclasses. -/
theorem C82_witness : ∃ (a : ObjcClass) (s : ClassSend) (d : DeclInfo),
    s.method = some (d, some a) ∧ (∃ r, s.receiver = some r ∧ ClassOrAbove r a) ∧
      ∃ t, protectedMethodVisit (some a) [s] = .ok [(s, t)] := by
  let a : ObjcClass := .mk ['A'] none
  let b : ObjcClass := .mk ['B'] (some a)
  let d : DeclInfo := .plain ["oclint:enforce[protected method]".toList]
  let s : ClassSend := ⟨"foo".toList, some (d, some a), some b⟩
  refine ⟨a, s, d, rfl, ⟨b, rfl, .above (.self _)⟩,
    "calling protected method foo from outside A and its subclasses".toList, ?_⟩
  have hv : protectedViolation a s = true := by
    rw [protectedViolation_iff]
    refine ⟨b, ⟨d, some a, rfl, .own _ _ (List.mem_singleton.2 rfl) ⟨[], rfl⟩, rfl⟩, ?_⟩
    rintro ⟨x, hx, hn⟩
    change ClassOrAbove (.mk ['A'] none) x at hx
    cases hx
    exact absurd hn (by decide)
  unfold protectedMethodVisit
  simp only [List.filter_cons, hv, if_true, List.filter_nil]
  rfl

/-! ## C83: abstract methods -/

/-- For each method of the direct superclass that is declared abstract and not implemented here
there is a report, in order; and there are no others. -/
theorem C83_exact (className : Str) (methods : List DeclaredMethod) (implemented : List (Str × Bool)) :
    ∃ missing : List DeclaredMethod,
      Picks (fun m => IsAbstract m ∧ (m.selector, m.isInstance) ∉ implemented) methods missing ∧
      subclassMustImplementVisit (some (className, methods)) implemented = missing.map fun m =>
        "subclasses of ".toList ++ className ++ " must implement ".toList ++ m.selector := by
  refine ⟨methods.filter fun m => (declHasEnforceAttribute m.decl "abstract method".toList).isSome &&
    !implemented.contains (m.selector, m.isInstance), picks_filter fun m _ => ?_, ?_⟩
  · rw [Bool.and_eq_true, C28_enforce, Bool.not_eq_true', ← Bool.not_eq_true,
      List.contains_iff_mem]
    rfl
  · unfold subclassMustImplementVisit
    simp only
    induction methods with
    | nil => rfl
    | cons m ms ih =>
      rw [List.flatMap_cons, ih, List.filter_cons]
      cases (declHasEnforceAttribute m.decl "abstract method".toList).isSome <;>
        cases implemented.contains (m.selector, m.isInstance) <;> rfl

/-- Nothing is said about a root class. -/
theorem C83_root (implemented : List (Str × Bool)) :
    subclassMustImplementVisit none implemented = [] := rfl

/-- If nothing is reported for a class, it implements all abstract methods that its direct
superclass declares. -/
theorem C83_silent (className : Str) (methods : List DeclaredMethod) (implemented : List (Str × Bool))
    (h : subclassMustImplementVisit (some (className, methods)) implemented = [])
    (m : DeclaredMethod) (hm : m ∈ methods) (ha : IsAbstract m) :
    (m.selector, m.isInstance) ∈ implemented := by
  obtain ⟨missing, h2, h3⟩ := C83_exact className methods implemented
  rw [h] at h3
  have hnil := List.map_eq_nil_iff.1 h3.symm
  refine Classical.byContradiction fun hn => ?_
  have := (mem_picks h2 m).2 ⟨hm, ha, hn⟩
  rw [hnil] at this; cases this

/-- Of all superclasses the rule looks at the nearest, and of its methods at those of the `@interface`. -/
theorem C83_superclass (c : ObjCInterface) (above : List ObjCInterface) (implemented : List (Str × Bool)) :
    ∃ missing : List DeclaredMethod,
      Picks (fun m => IsAbstract m ∧ (m.selector, m.isInstance) ∉ implemented) c.methods missing ∧
      implementationVisit (c :: above) implemented = missing.map fun m =>
        "subclasses of ".toList ++ c.name ++ " must implement ".toList ++ m.selector :=
  C83_exact c.name c.methods implemented

/-- If nothing is reported for any class of a chain of classes, each a subclass of the next, then an
abstract method of one of them is implemented by each class below it or by a class in between. -/
theorem C83_chain (chain : List (ObjCInterface × List (Str × Bool)))
    (h : ∀ below c above, chain = below ++ c :: above →
      implementationVisit (above.map Prod.fst) c.2 = [])
    (below between above : List (ObjCInterface × List (Str × Bool)))
    (c a : ObjCInterface × List (Str × Bool)) (e : chain = below ++ (c :: between) ++ a :: above)
    (m : DeclaredMethod) (hm : m ∈ a.1.methods) (ha : IsAbstract m) :
    ∃ b ∈ c :: between, (m.selector, m.isInstance) ∈ b.2 := by
  obtain ⟨xs, b, hb⟩ : ∃ xs b, c :: between = xs ++ [b] :=
    ⟨_, _, (List.dropLast_append_getLast (List.cons_ne_nil c between)).symm⟩
  refine ⟨b, by rw [hb]; exact List.mem_append_right _ (List.mem_singleton.2 rfl), ?_⟩
  rw [hb] at e
  exact C83_silent a.1.name a.1.methods b.2
    (h (below ++ xs) b (a :: above) (by rw [e]; simp only [List.append_assoc, List.singleton_append])) m hm ha

/-- What is not looked at: abstract methods of the superclass of the superclass, which nobody
implements here, and abstract methods that a category of the superclass declares. -/
theorem C83_witness : ∃ (p g q : ObjCInterface) (m : DeclaredMethod), IsAbstract m ∧
    (m ∈ g.methods ∧ implementationVisit [p, g] [] = [] ∧
      implementationVisit [g] [] = ["subclasses of G must implement foo".toList]) ∧
    m ∈ q.inCategories ∧ implementationVisit [q] [] = [] := by
  refine ⟨⟨['P'], [], []⟩, ⟨['G'], [⟨"foo".toList, true, .plain ["oclint:enforce[abstract method]".toList]⟩], []⟩,
    ⟨['Q'], [], [⟨"foo".toList, true, .plain ["oclint:enforce[abstract method]".toList]⟩]⟩, _,
    .own _ _ (List.mem_singleton.2 rfl) ⟨[], rfl⟩,
    ⟨List.mem_singleton.2 rfl, rfl, by decide +kernel⟩, List.mem_singleton.2 rfl, rfl⟩

/-- A chain of three classes in which the one in the middle implements what the root leaves open. -/
example :
    let root : ObjCInterface := ⟨['R'], [⟨"foo".toList, true, .plain ["oclint:enforce[abstract method]".toList]⟩], []⟩
    implementationVisit [⟨['M'], [], []⟩, root] [] = [] ∧
    implementationVisit [root] [("foo".toList, true)] = [] ∧ implementationVisit [root] [] ≠ [] := by
  decide +kernel

/-- Two abstract methods, one of them implemented, but as a class method. -/
example : subclassMustImplementVisit (some (['P'],
      [⟨"foo".toList, true, .plain ["oclint:enforce[abstract method]".toList]⟩,
       ⟨"bar".toList, true, .plain ["oclint:enforce[abstract method]".toList]⟩,
       ⟨"baz".toList, true, .plain []⟩])) [("foo".toList, false), ("bar".toList, true)] =
    ["subclasses of P must implement foo".toList] := by decide +kernel

/-! ## C84: assigning instance variables -/

theorem mem_ivarAssignments (ivarName : Stmt → Option Str) (s r : Stmt) :
    r ∈ ivarAssignments ivarName s ↔ ∃ l, Assignment s l ∧ Below [l] r ∧ ∃ n, ivarName r = some n := by
  have hf : ∀ l, r ∈ ivarFetches ivarName l ↔ Below [l] r ∧ ∃ n, ivarName r = some n := by
    intro l
    rw [ivarFetches, List.mem_filter, below_nodes, Option.isSome_iff_exists]
  unfold ivarAssignments
  split
  · next op l rhs =>
    cases op with
    | assign =>
      rw [isAssignmentOp, if_pos rfl, hf]
      constructor
      · intro h; exact ⟨l, .plain _ _, h⟩
      · rintro ⟨l', h, h'⟩; cases h; exact h'
    | compoundAssign k =>
      rw [isAssignmentOp, if_pos rfl, hf]
      constructor
      · intro h; exact ⟨l, .compound _ _ _, h⟩
      · rintro ⟨l', h, h'⟩; cases h; exact h'
    | _ =>
      simp only [isAssignmentOp, Bool.false_eq_true, if_false, List.not_mem_nil, false_iff]
      rintro ⟨l', h, -⟩; cases h
  · next h =>
    simp only [List.not_mem_nil, false_iff]
    rintro ⟨l', h', -⟩
    cases h' <;> exact h _ _ _ rfl

theorem outsideAccessors_iff (sel ivar : Str) : outsideAccessors sel ivar = true ↔
    ¬ AccessorOf ivar sel ∧ ¬ ∃ rest, sel = "init".toList ++ rest := by
  have hinit : sel.take 4 = "init".toList ↔ ∃ rest, sel = "init".toList ++ rest := by
    constructor
    · intro h; exact ⟨sel.drop 4, by rw [← h, List.take_append_drop]⟩
    · rintro ⟨rest, rfl⟩; rfl
  have hru : removeUnderscores ivar = ivar.filter fun c => c ≠ '_' := by
    unfold removeUnderscores
    congr 1
    funext c
    simp
  have hacc : AccessorOf ivar sel ↔ sel = removeUnderscores ivar ∨
      sel = "set".toList ++ capitalizeFirstLetter (removeUnderscores ivar) ++ ":".toList := by
    rw [hru]
    constructor
    · intro h
      cases h with
      | getter => exact .inl rfl
      | setter c cs h => rw [h]; exact .inr rfl
      | emptySetter h => rw [h]; exact .inr rfl
    · rintro (rfl | rfl)
      · exact .getter _
      · cases h : ivar.filter fun c => c ≠ '_' with
        | nil => exact .emptySetter _ h
        | cons c cs => exact .setter _ _ _ h
  unfold outsideAccessors
  simp only [decide_eq_true_eq]
  rw [hacc, not_or, ← hinit]

/-- Exactly the instance variables are reported that occur anywhere in the left hand side of an
assignment inside a method that is not an accessor of the variable and does not begin with `init`. -/
theorem C84_exact (ivarName : Stmt → Option Str) (sel : Str) (body r : Stmt) :
    r ∈ ivarAssignmentVisit ivarName sel body ↔
      (∃ s l, Below [body] s ∧ Assignment s l ∧ Below [l] r) ∧
      (∃ n, ivarName r = some n ∧ ¬ AccessorOf n sel) ∧ ¬ ∃ rest, sel = "init".toList ++ rest := by
  unfold ivarAssignmentVisit
  rw [List.mem_filter, reportOver_iff]
  simp only [mem_ivarAssignments]
  constructor
  · rintro ⟨⟨s, h1, l, h2, h3, n, hn⟩, h4⟩
    rw [hn] at h4
    obtain ⟨h5, h6⟩ := (outsideAccessors_iff sel n).1 h4
    exact ⟨⟨s, l, h1, h2, h3⟩, ⟨n, hn, h5⟩, h6⟩
  · rintro ⟨⟨s, l, h1, h2, h3⟩, ⟨n, hn, h5⟩, h6⟩
    refine ⟨⟨s, h1, l, h2, h3, n, hn⟩, ?_⟩
    rw [hn]
    exact (outsideAccessors_iff sel n).2 ⟨h5, h6⟩

/-- If in left hand sides no instance variable occurs but the one assigned to: exactly the assigned
variables outside of accessors and `init` methods are reported. -/
theorem C84_targets_partial (ivarName : Stmt → Option Str) (sel : Str) (body r : Stmt)
    (ht : ∀ s l x, Below [body] s → Assignment s l → Below [l] x → (ivarName x).isSome → IsTarget l x) :
    r ∈ ivarAssignmentVisit ivarName sel body ↔
      (∃ s l, Below [body] s ∧ Assignment s l ∧ IsTarget l r) ∧
      (∃ n, ivarName r = some n ∧ ¬ AccessorOf n sel) ∧ ¬ ∃ rest, sel = "init".toList ++ rest := by
  have hb : ∀ l x, IsTarget l x → Below [l] x := by
    intro l x h
    rw [below_nodes]
    induction h with
    | self s => exact Stmt.self_mem_nodes s
    | paren _ ih => rw [Stmt.nodes]; exact List.mem_cons_of_mem _ ih
  rw [C84_exact]
  constructor
  · rintro ⟨⟨s, l, h1, h2, h3⟩, ⟨n, hn, h5⟩, h6⟩
    exact ⟨⟨s, l, h1, h2, ht s l r h1 h2 h3 (by rw [hn]; rfl)⟩, ⟨n, hn, h5⟩, h6⟩
  · rintro ⟨⟨s, l, h1, h2, h3⟩, h⟩
    exact ⟨⟨s, l, h1, h2, hb l r h3⟩, h⟩

/-- In general it is false: in `a[_i] = 0` the variable `_i` is only read, but it is reported; and
`_i++` is not. -/
theorem C84_witness : ∃ (ivarName : Stmt → Option Str) (i a : Stmt),
    ivarName a = none ∧ ivarName i = some "_i".toList ∧
    ivarAssignmentVisit ivarName "foo".toList (.binary .assign (.otherE [a, i]) (.intLit 0)) = [i] ∧
    ¬ IsTarget (.otherE [a, i]) i ∧
    ivarAssignmentVisit ivarName "foo".toList (.unary .postInc i) = [] := by
  refine ⟨fun s => match s with | .declRef d => if d.id = 1 then some "_i".toList else none | _ => none,
    .declRef ⟨1, "_i".toList⟩, .declRef ⟨0, ['a']⟩, rfl, rfl, rfl, ?_, rfl⟩
  intro h; cases h

/-- `_bar = 3` in `doSomething`, in the setter, the getter and an initialiser. -/
example :
    let ivar : Stmt := .otherE []
    let name : Stmt → Option Str := fun s => match s with | .otherE [] => some "_bar".toList | _ => none
    let body : Stmt := .compound [.binary .assign ivar (.intLit 3)]
    ivarAssignmentVisit name "doSomething".toList body = [ivar] ∧
      ivarAssignmentVisit name "setBar:".toList body = [] ∧
      ivarAssignmentVisit name "bar".toList body = [] ∧
      ivarAssignmentVisit name "initWithBar:".toList body = [] := ⟨rfl, rfl, rfl, rfl⟩

end Oclint
