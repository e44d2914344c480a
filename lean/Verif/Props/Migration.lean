import Verif.Spec.Migration
import Verif.Spec.Picks

/-!
# C85-C88: rules that propose Objective-C literals
-/

namespace Oclint
open Spec

/-- The messages reported are those the visit function says, in order and each once. -/
theorem reportMessages_eq (visit : TypedMessage → Bool) (ms : List TypedMessage) :
    reportMessages visit ms = ms.filter visit := by
  have : ∀ acc, ms.foldl (fun acc m => if visit m then acc ++ [m] else acc) acc =
      acc ++ ms.filter visit := by
    induction ms with
    | nil => simp
    | cons m ms ih =>
      intro acc
      rw [List.foldl_cons, ih, List.filter_cons]
      split <;> simp
  exact this []

/-! ## C85: number literals -/

/-- With keys that differ `find` is membership. -/
theorem mapFind_iff (m : List (Str × Str)) (h : (m.map Prod.fst).Nodup) (sel t : Str) :
    mapFind m sel = some t ↔ (sel, t) ∈ m := by
  unfold mapFind
  induction m with
  | nil => simp
  | cons e m ih =>
    obtain ⟨k, v⟩ := e
    rw [List.map_cons, List.nodup_cons] at h
    rw [List.find?_cons, List.mem_cons, Prod.mk.injEq]
    by_cases hk : k = sel
    · subst hk
      simp only [decide_true, Option.map_some, Option.some.injEq, true_and]
      constructor
      · intro h'; exact .inl h'.symm
      · rintro (h' | h')
        · exact h'.symm
        · exact absurd (List.mem_map_of_mem h') h.1
    · simp only [hk, decide_false]
      rw [ih h.2]
      constructor
      · exact .inr
      · rintro (⟨h', -⟩ | h')
        · exact absurd h'.symm hk
        · exact h'

theorem mapFind_int (sel t : Str) :
    mapFind intLiteralTypes sel = some t ↔ IntType t ∧ sel = factory t := by
  rw [mapFind_iff _ (by decide +kernel)]
  unfold intLiteralTypes IntType
  simp only [List.mem_cons, Prod.mk.injEq, List.not_mem_nil, or_false]
  constructor
  · rintro (⟨rfl, rfl⟩ | ⟨rfl, rfl⟩ | ⟨rfl, rfl⟩ | ⟨rfl, rfl⟩ | ⟨rfl, rfl⟩ | ⟨rfl, rfl⟩)
    · exact ⟨⟨.int, by decide +kernel⟩, by decide +kernel⟩
    · exact ⟨⟨.unsignedInt, by decide +kernel⟩, by decide +kernel⟩
    · exact ⟨⟨.long, by decide +kernel⟩, by decide +kernel⟩
    · exact ⟨⟨.unsignedLong, by decide +kernel⟩, by decide +kernel⟩
    · exact ⟨⟨.longLong, by decide +kernel⟩, by decide +kernel⟩
    · exact ⟨⟨.unsignedLongLong, by decide +kernel⟩, by decide +kernel⟩
  · rintro ⟨⟨h, h1, h2, h3⟩, rfl⟩
    cases h
    case char => exact absurd rfl h1
    case float => exact absurd rfl h2
    case double => exact absurd rfl h3
    all_goals decide +kernel

theorem mapFind_float (sel t : Str) :
    mapFind floatLiteralTypes sel = some t ↔ FloatType t ∧ sel = factory t := by
  rw [mapFind_iff _ (by decide +kernel)]
  unfold floatLiteralTypes FloatType
  simp only [List.mem_cons, Prod.mk.injEq, List.not_mem_nil, or_false]
  constructor
  · rintro (⟨rfl, rfl⟩ | ⟨rfl, rfl⟩)
    · exact ⟨.inl rfl, by decide +kernel⟩
    · exact ⟨.inr rfl, by decide +kernel⟩
  · rintro ⟨rfl | rfl, rfl⟩ <;> decide +kernel

theorem mapFind_boxed (sel t : Str) :
    mapFind boxedArgTypes sel = some t ↔ NumberType t ∧ sel = factory t := by
  rw [mapFind_iff _ (by decide +kernel)]
  unfold boxedArgTypes
  simp only [List.mem_cons, Prod.mk.injEq, List.not_mem_nil, or_false]
  constructor
  · rintro (⟨rfl, rfl⟩ | ⟨rfl, rfl⟩ | ⟨rfl, rfl⟩ | ⟨rfl, rfl⟩ | ⟨rfl, rfl⟩ | ⟨rfl, rfl⟩ | ⟨rfl, rfl⟩ |
      ⟨rfl, rfl⟩ | ⟨rfl, rfl⟩)
    · exact ⟨.char, by decide +kernel⟩
    · exact ⟨.int, by decide +kernel⟩
    · exact ⟨.unsignedInt, by decide +kernel⟩
    · exact ⟨.long, by decide +kernel⟩
    · exact ⟨.unsignedLong, by decide +kernel⟩
    · exact ⟨.longLong, by decide +kernel⟩
    · exact ⟨.unsignedLongLong, by decide +kernel⟩
    · exact ⟨.float, by decide +kernel⟩
    · exact ⟨.double, by decide +kernel⟩
  · rintro ⟨h, rfl⟩
    cases h <;> decide +kernel

theorem canSimplifyNumber_iff (e : TypedExpr) (sel : Str) :
    canSimplifyNumber e sel = true ↔ NumberLiteral e sel := by
  unfold canSimplifyNumber
  rw [Bool.or_eq_true, Bool.or_eq_true, Bool.or_eq_true]
  constructor
  · rintro (((h | h) | h) | h)
    · unfold isCharLiteral at h
      split at h
      · rw [beq_iff_eq] at h; subst h; exact .char _ _
      · cases h
    · unfold isIntLiteralOf at h
      split at h
      · rw [beq_iff_eq, mapFind_int] at h
        obtain ⟨h, rfl⟩ := h
        exact .int h
      · cases h
    · unfold isFloatLiteralOf at h
      split at h
      · rw [beq_iff_eq, mapFind_float] at h
        obtain ⟨h, rfl⟩ := h
        exact .float h
      · cases h
    · unfold isObjCBoolLiteral at h
      split at h
      · next hs =>
        subst hs
        split at h
        · exact .bool _
        · rw [beq_iff_eq] at h; subst h; exact .macro _ _
        · cases h
      · cases h
  · intro h
    cases h with
    | char t u => exact .inl (.inl (.inl (beq_self_eq_true _)))
    | int h =>
      refine .inl (.inl (.inr ?_))
      unfold isIntLiteralOf
      rw [beq_iff_eq]
      exact (mapFind_int _ _).2 ⟨h, rfl⟩
    | float h =>
      refine .inl (.inr ?_)
      unfold isFloatLiteralOf
      rw [beq_iff_eq]
      exact (mapFind_float _ _).2 ⟨h, rfl⟩
    | bool t => exact .inr (by unfold isObjCBoolLiteral; rw [if_pos rfl])
    | «macro» t u =>
      refine .inr ?_
      unfold isObjCBoolLiteral
      rw [if_pos rfl]
      exact beq_self_eq_true _

/-- A message is reported exactly if it is a factory method of `NSNumber` applied to one literal of
the type it is for. -/
theorem C85_exact (ms : List TypedMessage) (m : TypedMessage) :
    m ∈ reportMessages numberLiteralVisit ms ↔ m ∈ ms ∧ m.interface = some "NSNumber".toList ∧
      ∃ e, m.args = [e] ∧ NumberLiteral e m.selector := by
  rw [reportMessages_eq, List.mem_filter]
  refine and_congr_right fun _ => ?_
  unfold numberLiteralVisit
  split
  · next i e hi ha =>
    rw [hi, ha, Bool.and_eq_true, beq_iff_eq, canSimplifyNumber_iff]
    constructor
    · rintro ⟨rfl, h⟩; exact ⟨rfl, e, rfl, h⟩
    · rintro ⟨h1, e', h2, h3⟩
      cases h1; cases h2
      exact ⟨rfl, h3⟩
  · next hn =>
    simp only [Bool.false_eq_true, false_iff]
    rintro ⟨h1, e, h2, -⟩
    exact hn _ _ h1 h2

/-- In order and each once. -/
theorem C85_order (ms : List TypedMessage) :
    Picks (fun m => m.interface = some "NSNumber".toList ∧
      ∃ e, m.args = [e] ∧ NumberLiteral e m.selector) ms
      (reportMessages numberLiteralVisit ms) := by
  rw [reportMessages_eq]
  refine picks_filter fun m _ => ?_
  have h := C85_exact [m] m
  rw [reportMessages_eq, List.mem_filter] at h
  simpa only [List.mem_singleton, true_and] using h

/-- The proposed literal sends the message that was written. -/
theorem C85_advice (m : TypedMessage) (h : numberLiteralVisit m = true) :
    ∃ e x, m.args = [e] ∧ UpToConversion e x ∧ LiteralSends x m.selector := by
  obtain ⟨-, -, e, h1, h2⟩ := (C85_exact [m] m).1 (by
    rw [reportMessages_eq, List.mem_filter]; exact ⟨List.mem_singleton.2 rfl, h⟩)
  generalize m.selector = sel at h2
  cases h2 with
  | char t u => exact ⟨_, _, h1, .cast _ _, .char _⟩
  | int h => exact ⟨_, _, h1, .same _, .int h.1⟩
  | float h =>
    refine ⟨_, _, h1, .same _, .float ?_⟩
    rcases h with rfl | rfl
    · exact .float
    · exact .double
  | bool t => exact ⟨_, _, h1, .same _, .bool _⟩
  | «macro» t u => exact ⟨_, _, h1, .same _, .macro _ _⟩

/-- `[NSNumber numberWithInt:42]`, `[NSNumber numberWithLong:42]` (the literal is converted). -/
example : numberLiteralVisit ⟨some "NSNumber".toList, none, "numberWithInt:".toList,
      [.intLit "int".toList]⟩ = true ∧
    numberLiteralVisit ⟨some "NSNumber".toList, none, "numberWithLong:".toList,
      [.implicitCast "long".toList (.intLit "int".toList)]⟩ = false ∧
    numberLiteralVisit ⟨some "NSNumber".toList, none, "numberWithLong:".toList,
      [.intLit "long".toList]⟩ = true := by decide +kernel

/-! ## C86: boxed expressions -/

theorem isNSNumberBox_iff (e : TypedExpr) (sel : Str) :
    isNSNumberBox e sel = true ↔ BoxedNumber e sel := by
  unfold isNSNumberBox
  rw [Bool.or_eq_true, Bool.or_eq_true]
  constructor
  · rintro ((h | h) | h)
    · unfold isParenExprBox at h
      split at h
      · rw [beq_iff_eq, mapFind_boxed] at h
        obtain ⟨h, rfl⟩ := h
        exact .paren _ h
      · cases h
    · unfold isObjCBoolBox at h
      split at h
      · rw [Bool.and_eq_true, beq_iff_eq, beq_iff_eq] at h
        obtain ⟨rfl, rfl⟩ := h
        exact .bool _ _
      · cases h
    · unfold isEnumConstantBox at h
      split at h
      · rw [Bool.and_eq_true, Bool.and_eq_true, beq_iff_eq, beq_iff_eq] at h
        obtain ⟨⟨rfl, rfl⟩, rfl⟩ := h
        exact .enumConstant
      · cases h
  · intro h
    cases h with
    | paren e h =>
      refine .inl (.inl ?_)
      unfold isParenExprBox
      rw [beq_iff_eq]
      exact (mapFind_boxed _ _).2 ⟨h, rfl⟩
    | bool u e => exact .inl (.inr (by unfold isObjCBoolBox; simp only [beq_self_eq_true, Bool.and_self]))
    | enumConstant => exact .inr (by unfold isEnumConstantBox; simp only [beq_self_eq_true, Bool.and_self])

theorem isNSStringBox_iff (e : TypedExpr) (sel : Str) :
    isNSStringBox e sel = true ↔ BoxedString e sel := by
  constructor
  · intro h
    unfold isNSStringBox at h
    split at h
    · next t sub =>
      split at h
      · next hs =>
        subst hs
        rw [Bool.and_eq_true, Bool.and_eq_true, beq_iff_eq, beq_iff_eq] at h
        obtain ⟨⟨rfl, h1⟩, h2⟩ := h
        cases sub with
        | call t => cases h1; exact .call
        | paren t e => cases h1; exact .paren _
        | _ => cases h2
      · cases h
    · cases h
  · intro h
    cases h with
    | call => decide +kernel
    | paren e =>
      unfold isNSStringBox
      simp only [if_true, TypedExpr.type, beq_self_eq_true, isCallOrParen, Bool.and_self]

/-- A message is reported exactly if it makes a number from a parenthesised expression of the right
type, a parenthesised expression converted to `BOOL` or an enumeration constant, or a string from a
call or parenthesised expression. -/
theorem C86_exact (ms : List TypedMessage) (m : TypedMessage) :
    m ∈ reportMessages boxedExpressionVisit ms ↔ m ∈ ms ∧ ∃ e, m.args = [e] ∧
      ((m.interface = some "NSNumber".toList ∧ BoxedNumber e m.selector) ∨
        (m.interface = some "NSString".toList ∧ BoxedString e m.selector)) := by
  rw [reportMessages_eq, List.mem_filter]
  refine and_congr_right fun _ => ?_
  unfold boxedExpressionVisit
  split
  · next i e hi ha =>
    rw [hi, ha, Bool.or_eq_true, Bool.and_eq_true, Bool.and_eq_true, beq_iff_eq, beq_iff_eq,
      isNSNumberBox_iff, isNSStringBox_iff]
    constructor
    · rintro (⟨rfl, h⟩ | ⟨rfl, h⟩)
      · exact ⟨e, rfl, .inl ⟨rfl, h⟩⟩
      · exact ⟨e, rfl, .inr ⟨rfl, h⟩⟩
    · rintro ⟨e', h2, ⟨h1, h3⟩ | ⟨h1, h3⟩⟩
      · cases h1; cases h2; exact .inl ⟨rfl, h3⟩
      · cases h1; cases h2; exact .inr ⟨rfl, h3⟩
  · next hn =>
    simp only [Bool.false_eq_true, false_iff]
    rintro ⟨e, h2, ⟨h1, -⟩ | ⟨h1, -⟩⟩ <;> exact hn _ _ h1 h2

/-- In order and each once. -/
theorem C86_order (ms : List TypedMessage) :
    Picks (fun m => ∃ e, m.args = [e] ∧
      ((m.interface = some "NSNumber".toList ∧ BoxedNumber e m.selector) ∨
        (m.interface = some "NSString".toList ∧ BoxedString e m.selector))) ms
      (reportMessages boxedExpressionVisit ms) := by
  rw [reportMessages_eq]
  refine picks_filter fun m _ => ?_
  have h := C86_exact [m] m
  rw [reportMessages_eq, List.mem_filter] at h
  simpa only [List.mem_singleton, true_and] using h

/-- Except for `numberWithBool:` the proposed boxed expression sends the message that was written. -/
theorem C86_advice_partial (m : TypedMessage) (h : boxedExpressionVisit m = true)
    (hb : m.selector ≠ "numberWithBool:".toList) :
    ∃ e x c, m.args = [e] ∧ m.interface = some c ∧ UpToConversion e x ∧ BoxSends x.type c m.selector := by
  obtain ⟨-, e, h1, h2⟩ := (C86_exact [m] m).1 (by
    rw [reportMessages_eq, List.mem_filter]; exact ⟨List.mem_singleton.2 rfl, h⟩)
  rcases h2 with ⟨hi, h2⟩ | ⟨hi, h2⟩
  · generalize m.selector = sel at h2 hb
    cases h2 with
    | paren e h => exact ⟨_, _, _, h1, hi, .same _, .number h⟩
    | bool u e => exact absurd rfl hb
    | enumConstant =>
      refine ⟨_, _, _, h1, hi, .same _, ?_⟩
      exact (BoxSends.number .int : BoxSends "int".toList "NSNumber".toList (factory "int".toList))
  · generalize m.selector = sel at h2 hb
    cases h2 with
    | call => exact ⟨_, _, _, h1, hi, .cast _ _, .string⟩
    | paren e => exact ⟨_, _, _, h1, hi, .cast _ _, .string⟩

/-- For `numberWithBool:` it is false: `[NSNumber numberWithBool:(a == b)]` is reported, where `a == b`
has type `int`; `@(a == b)` sends `numberWithInt:`. -/
theorem C86_bool_witness : ∃ (m : TypedMessage) (e : TypedExpr), boxedExpressionVisit m = true ∧
    m.args = [.implicitCast "BOOL".toList e] ∧ m.selector = "numberWithBool:".toList ∧
    BoxSends e.type "NSNumber".toList "numberWithInt:".toList ∧
    ¬ BoxSends e.type "NSNumber".toList "numberWithBool:".toList := by
  refine ⟨⟨some "NSNumber".toList, none, "numberWithBool:".toList,
    [.implicitCast "BOOL".toList (.paren "int".toList (.other "int".toList))]⟩,
    .paren "int".toList (.other "int".toList), by decide +kernel, rfl, rfl,
    (BoxSends.number .int : BoxSends "int".toList "NSNumber".toList (factory "int".toList)), ?_⟩
  intro h
  generalize ht : (TypedExpr.paren "int".toList (.other "int".toList)).type = t at h
  generalize hs : "numberWithBool:".toList = s at h
  cases h with
  | number h =>
    rw [← ht] at hs
    exact absurd hs (by decide +kernel)
  | bool => exact absurd ht (by decide +kernel)

/-- `[NSNumber numberWithInt:(43 - 1)]`, `[NSNumber numberWithInt:x]`. -/
example : boxedExpressionVisit ⟨some "NSNumber".toList, none, "numberWithInt:".toList,
      [.paren "int".toList (.other "int".toList)]⟩ = true ∧
    boxedExpressionVisit ⟨some "NSNumber".toList, none, "numberWithInt:".toList,
      [.declRef "int".toList false]⟩ = false := by decide +kernel

/-! ## C87: container literals -/

/-- Exactly the messages to `NSArray` and `NSDictionary` with one of their factory methods are
reported. -/
theorem C87_exact (ms : List TypedMessage) (m : TypedMessage) :
    m ∈ reportMessages containerLiteralVisit ms ↔ m ∈ ms ∧
      ∃ c, m.interface = some c ∧ ContainerFactory c m.selector := by
  rw [reportMessages_eq, List.mem_filter]
  refine and_congr_right fun _ => ?_
  unfold containerLiteralVisit
  split
  · next i hi =>
    rw [hi, Bool.or_eq_true, Bool.and_eq_true, Bool.and_eq_true, beq_iff_eq, beq_iff_eq,
      List.contains_iff_mem, List.contains_iff_mem]
    generalize m.selector = sel
    constructor
    · rintro (⟨rfl, h⟩ | ⟨rfl, h⟩)
      · simp only [arraySelectors, List.mem_cons, List.not_mem_nil, or_false] at h
        rcases h with rfl | rfl | rfl | rfl
        · exact ⟨_, rfl, .array⟩
        · exact ⟨_, rfl, .arrayObject⟩
        · exact ⟨_, rfl, .arrayCount⟩
        · exact ⟨_, rfl, .arrayObjects⟩
      · simp only [dictionarySelectors, List.mem_cons, List.not_mem_nil, or_false] at h
        rcases h with rfl | rfl | rfl | rfl | rfl
        · exact ⟨_, rfl, .dictionary⟩
        · exact ⟨_, rfl, .dictionaryObject⟩
        · exact ⟨_, rfl, .dictionaryCount⟩
        · exact ⟨_, rfl, .dictionaryObjectsAndKeys⟩
        · exact ⟨_, rfl, .dictionaryObjects⟩
    · rintro ⟨c, h, h'⟩
      cases h
      cases h'
      case array | arrayObject | arrayCount | arrayObjects => exact .inl ⟨rfl, by decide +kernel⟩
      all_goals exact .inr ⟨rfl, by decide +kernel⟩
  · next hi =>
    simp only [Bool.false_eq_true, false_iff]
    rintro ⟨c, h, -⟩
    rw [hi] at h; cases h

/-- In order and each once. -/
theorem C87_order (ms : List TypedMessage) :
    Picks (fun m => ∃ c, m.interface = some c ∧ ContainerFactory c m.selector) ms
      (reportMessages containerLiteralVisit ms) := by
  rw [reportMessages_eq]
  refine picks_filter fun m _ => ?_
  have h := C87_exact [m] m
  rw [reportMessages_eq, List.mem_filter] at h
  simpa only [List.mem_singleton, true_and] using h

/-- Nothing is said about the mutable containers, which have no literals. -/
theorem C87_mutable (m : TypedMessage) (h : m.interface = some "NSMutableArray".toList ∨
    m.interface = some "NSMutableDictionary".toList) : containerLiteralVisit m = false := by
  rw [← Bool.not_eq_true]
  intro hv
  obtain ⟨-, c, h1, h2⟩ := (C87_exact [m] m).1 (by
    rw [reportMessages_eq, List.mem_filter]; exact ⟨List.mem_singleton.2 rfl, hv⟩)
  have hc : c = "NSArray".toList ∨ c = "NSDictionary".toList := by
    generalize m.selector = sel at h2
    cases h2
    case array | arrayObject | arrayCount | arrayObjects => exact .inl rfl
    all_goals exact .inr rfl
  rw [h1] at h
  rcases h with h | h <;> cases h <;> exact absurd hc (by decide +kernel)

example : containerLiteralVisit ⟨some "NSArray".toList, none, "arrayWithObjects:".toList,
      [.other [], .other []]⟩ = true ∧
    containerLiteralVisit ⟨some "NSMutableArray".toList, none, "array".toList, []⟩ = false ∧
    containerLiteralVisit ⟨some "NSDictionary".toList, none, "array".toList, []⟩ = false := by decide +kernel

/-! ## C88: subscripting -/

/-- Exactly the messages are reported that subscripts stand for, if the receiver is the value of a
variable (or otherwise implicitly converted) of the type that has the method. -/
theorem C88_exact (ms : List TypedMessage) (m : TypedMessage) :
    m ∈ reportMessages subscriptingVisit ms ↔ m ∈ ms ∧
      ∃ t e, m.receiver = some (.implicitCast t e) ∧ SubscriptMethod t m.selector := by
  rw [reportMessages_eq, List.mem_filter]
  refine and_congr_right fun _ => ?_
  unfold subscriptingVisit
  split
  · next e he =>
    rw [he, Bool.and_eq_true]
    have key : (isArrayGetSelector e m.selector || isArraySetSelector e m.selector ||
        isDictionaryGetSelector e m.selector || isDictionarySetSelector e m.selector) = true ↔
        SubscriptMethod e.type m.selector := by
      generalize m.selector = sel
      simp only [Bool.or_eq_true, isArrayGetSelector, isArraySetSelector, isDictionaryGetSelector,
        isDictionarySetSelector, Bool.and_eq_true, beq_iff_eq, List.contains_iff_mem, List.mem_cons,
        List.not_mem_nil, or_false]
      generalize e.type = t
      constructor
      · rintro (((⟨rfl, rfl | rfl⟩ | ⟨rfl, rfl | rfl⟩) | ⟨rfl, rfl | rfl⟩) | ⟨rfl, rfl | rfl⟩)
        · exact .get
        · exact .getSubscript
        · exact .set
        · exact .setSubscript
        · exact .getKey
        · exact .getKeySubscript
        · exact .setKey
        · exact .setKeySubscript
      · intro h
        cases h
        · exact .inl (.inl (.inl ⟨rfl, .inl rfl⟩))
        · exact .inl (.inl (.inl ⟨rfl, .inr rfl⟩))
        · exact .inl (.inl (.inr ⟨rfl, .inl rfl⟩))
        · exact .inl (.inl (.inr ⟨rfl, .inr rfl⟩))
        · exact .inl (.inr ⟨rfl, .inl rfl⟩)
        · exact .inl (.inr ⟨rfl, .inr rfl⟩)
        · exact .inr ⟨rfl, .inl rfl⟩
        · exact .inr ⟨rfl, .inr rfl⟩
    rw [key]
    constructor
    · rintro ⟨h1, h2⟩
      cases e with
      | implicitCast t x => exact ⟨t, x, rfl, h2⟩
      | _ => cases h1
    · rintro ⟨t, x, h1, h2⟩
      cases h1
      exact ⟨rfl, h2⟩
  · next he =>
    simp only [Bool.false_eq_true, false_iff]
    rintro ⟨t, x, h, -⟩
    rw [he] at h; cases h

/-- In order and each once. -/
theorem C88_order (ms : List TypedMessage) :
    Picks (fun m => ∃ t e, m.receiver = some (.implicitCast t e) ∧
      SubscriptMethod t m.selector) ms
      (reportMessages subscriptingVisit ms) := by
  rw [reportMessages_eq]
  refine picks_filter fun m _ => ?_
  have h := C88_exact [m] m
  rw [reportMessages_eq, List.mem_filter] at h
  simpa only [List.mem_singleton, true_and] using h

/-- Reading from a mutable array is not reported, though it can be written with a subscript too. -/
theorem C88_mutable_reads (e : TypedExpr) (args : List TypedExpr) (i : Option Str) :
    subscriptingVisit ⟨i, some (.implicitCast "NSMutableArray *".toList e), "objectAtIndex:".toList,
      args⟩ = false := by
  rw [← Bool.not_eq_true]
  intro hv
  obtain ⟨-, t, x, h1, h2⟩ := (C88_exact [_] _).1 (by
    rw [reportMessages_eq, List.mem_filter]; exact ⟨List.mem_singleton.2 rfl, hv⟩)
  cases h1
  generalize ht : "NSMutableArray *".toList = t at h2
  generalize hs : "objectAtIndex:".toList = s at h2
  cases h2
  case set | setSubscript => exact absurd hs (by decide +kernel)
  all_goals exact absurd ht (by decide +kernel)

/-- `[a objectAtIndex:0]`, `[f() objectAtIndex:0]`. -/
example : subscriptingVisit ⟨none, some (.implicitCast "NSArray *".toList
      (.declRef "NSArray *".toList false)), "objectAtIndex:".toList, [.intLit "int".toList]⟩ = true ∧
    subscriptingVisit ⟨none, some (.call "NSArray *".toList), "objectAtIndex:".toList,
      [.intLit "int".toList]⟩ = false := by decide +kernel

end Oclint
