import Verif.Lemmas.SourceLines
import Verif.Props.Suppress

/-!
# Properties C30-C32: language gating, line splitting, the long line rule
-/

namespace Oclint
open Spec

/-! ## C30 -/

theorem maskBool_shift (m : BitVec 32) (k : Nat) (hk : k < 32) :
    maskBool (m &&& (1#32 <<< k)) = m.getLsbD k := by
  unfold maskBool
  rw [Bool.eq_iff_iff, bne_iff_ne, ne_eq]
  constructor
  · intro h
    by_contra h2
    apply h
    apply BitVec.eq_of_getLsbD_eq
    intro i hi
    simp only [BitVec.getLsbD_and, BitVec.getLsbD_shiftLeft, BitVec.getLsbD_zero]
    by_cases hik : i = k
    · subst hik; simp [h2]
    · have : (1#32).getLsbD (i - k) = false ∨ i < k := by
        rcases Nat.lt_or_ge i k with h3 | h3
        · exact Or.inr h3
        · left; rw [BitVec.getLsbD_one]; simp; omega
      rcases this with h3 | h3 <;> simp [h3]
  · intro h h2
    have h3 := congrArg (fun b => b.getLsbD k) h2
    simp only [BitVec.getLsbD_and, h, BitVec.getLsbD_shiftLeft, BitVec.getLsbD_zero] at h3
    simp [hk] at h3

theorem maskBool_shift' (m : BitVec 32) (k : Nat) (hk : k < 32) :
    maskBool ((1#32 <<< k) &&& m) = m.getLsbD k := by
  rw [BitVec.and_comm, maskBool_shift m k hk]

/-- **C30.** A rule supports a unit exactly when the unit is in one of the three languages and the
rule's mask has the bit of that language. -/
theorem C30_language_supported (o : LangOpts) (mask : BitVec 32) :
    isLanguageSupported o mask = true ↔ ∃ l, InLanguage o l ∧ mask.getLsbD l.bit = true := by
  unfold isLanguageSupported LANG_OBJC LANG_CXX LANG_C
  simp only [maskBool_shift' mask _ (by omega : (2 : Nat) < 32),
    maskBool_shift' mask _ (by omega : (1 : Nat) < 32),
    maskBool_shift' mask _ (by omega : (0 : Nat) < 32)]
  constructor
  · intro h
    split at h
    · exact ⟨.objC, .objC ‹_›, h⟩
    · rename_i h1
      split at h
      · exact ⟨.cxx, .cxx (by simpa using h1) ‹_›, h⟩
      · rename_i h2
        split at h
        · exact ⟨.c, .c (by simpa using h1) (by simpa using h2) ‹_›, h⟩
        · simp at h
  · rintro ⟨l, h, hm⟩
    cases h with
    | objC h => simp only [h, if_true]; exact hm
    | cxx h h2 => simp only [h, h2, if_true, Bool.false_eq_true, if_false]; exact hm
    | c h h2 h3 => simp only [h, h2, h3, if_true, Bool.false_eq_true, if_false]; exact hm

/-- **C30.** The default mask supports all three languages, and only bit 0 of the CUDA mask is set by
default. -/
theorem C30_defaults (l : Language) (k : Nat) :
    defaultSupportedLanguages.getLsbD l.bit = true ∧
    (defaultCUDAFunctionAttrs.getLsbD k = true ↔ k = 0) := by
  constructor
  · cases l <;> decide
  · have : defaultCUDAFunctionAttrs = 1#32 := by decide
    rw [this, BitVec.getLsbD_one]; simp

open Classical in
/-- **C30.** Outside CUDA, a rule that supports the unit's language (and host code) is set up, shown
every top level declaration of the main file once, in order, and torn down; any other rule is not
called at all. -/
theorem C30_plain_unit (o : LangOpts) (mask cuda : BitVec 32) (tu : List TopDecl)
    (hc : o.cuda = false) :
    visitorApply o mask cuda tu =
      if (∃ l, InLanguage o l ∧ mask.getLsbD l.bit = true) ∧ cuda.getLsbD 0 = true then
        .setUp :: ((tu.filter fun d => decide (InMain d)).map fun d => .traverse d.id)
          ++ [.tearDown]
      else [] := by
  have hf : ∀ acc : List VisitEvent,
      tu.foldl (fun acc d => if isValidDecl d then acc ++ [.traverse d.id] else acc) acc =
        acc ++ (tu.filter fun d => decide (InMain d)).map fun d => .traverse d.id := by
    induction tu with
    | nil => simp
    | cons d tu ih =>
      intro acc
      rw [List.foldl_cons, ih, List.filter_cons]
      by_cases h : isValidDecl d = true
      · have : InMain d := by simpa [isValidDecl, InMain] using h
        simp [h, this]
      · have : ¬ InMain d := by simpa [isValidDecl, InMain] using h
        simp [h, this]
  unfold visitorApply applyC CUDA_HOST
  rw [hc, maskBool_shift cuda 0 (by omega), hf]
  simp only [Bool.false_eq_true, if_false]
  have h1 := C30_language_supported o mask
  by_cases h : (∃ l, InLanguage o l ∧ mask.getLsbD l.bit = true) ∧ cuda.getLsbD 0 = true
  · rw [if_pos h, if_neg]
    · rfl
    · rw [h1.2 h.1, h.2]; simp
  · rw [if_neg h, if_pos]
    rw [Bool.or_eq_true, Bool.not_eq_true', Bool.not_eq_true', ← Bool.not_eq_true,
      ← Bool.not_eq_true, h1]
    by_contra h2
    rw [not_or, not_not, not_not] at h2
    exact h h2

open Classical in
/-- **C30.** In a CUDA unit the language mask is not consulted: every rule is set up, shown the top
level declarations it wants by its CUDA mask, and torn down. -/
theorem C30_cuda_unit (o : LangOpts) (mask cuda : BitVec 32) (tu : List TopDecl)
    (hc : o.cuda = true) :
    visitorApply o mask cuda tu =
      .setUp :: ((tu.filter fun d => decide (InMain d ∧ WantsCUDA cuda d)).map
        fun d => .traverse d.id) ++ [.tearDown] := by
  have hd : ∀ d, applyCUDADecl cuda d =
      if InMain d ∧ WantsCUDA cuda d then [.traverse d.id] else [] := by
    intro d
    unfold applyCUDADecl CUDA_GLOBAL CUDA_HOST
    rw [maskBool_shift cuda 0 (by omega), maskBool_shift cuda 1 (by omega)]
    by_cases h : isValidDecl d = true
    · have h' : InMain d := by simpa [isValidDecl, InMain] using h
      rw [if_neg (by simp [h])]
      simp only [h', true_and, WantsCUDA]
      cases d.isFunction <;> cases d.hasCUDAGlobal <;> simp
    · have h' : ¬ InMain d := by simpa [isValidDecl, InMain] using h
      rw [if_pos (by simp [h])]
      simp [h']
  have hf : ∀ acc : List VisitEvent,
      tu.foldl (fun acc d => acc ++ applyCUDADecl cuda d) acc =
        acc ++ (tu.filter fun d => decide (InMain d ∧ WantsCUDA cuda d)).map
          fun d => .traverse d.id := by
    induction tu with
    | nil => simp
    | cons d tu ih =>
      intro acc
      rw [List.foldl_cons, ih, List.filter_cons, hd]
      by_cases h : InMain d ∧ WantsCUDA cuda d
      · simp [h]
      · simp [h]
  unfold visitorApply applyCUDA
  rw [hc, hf]
  rfl

/-- **C30.** A unit in none of the three languages, such as one compiled as C89, is run by no rule. -/
theorem C30_no_language (o : LangOpts) (mask cuda : BitVec 32) (tu : List TopDecl)
    (hc : o.cuda = false) (hl : ∀ l, ¬ InLanguage o l) : visitorApply o mask cuda tu = [] := by
  rw [C30_plain_unit o mask cuda tu hc, if_neg]
  rintro ⟨⟨l, h, _⟩, _⟩
  exact hl l h

/-- Objective-C++ units are run by Objective-C rules and not by C++ rules; header declarations are not
shown. -/
example :
    let o : LangOpts := ⟨true, true, true, false⟩
    let tu : List TopDecl := [⟨7, true, false, true, false⟩, ⟨8, true, true, true, false⟩]
    visitorApply o LANG_OBJC CUDA_HOST tu = [.setUp, .traverse 8, .tearDown] ∧
    visitorApply o LANG_CXX CUDA_HOST tu = [] := by decide

/-- A C89 unit. -/
example : ∀ l, ¬ InLanguage ⟨false, false, false, false⟩ l := by
  intro l h; cases h <;> simp_all

/-- A CUDA unit: host rules are not shown kernels, even in an unsupported language. -/
example :
    visitorApply ⟨false, true, false, true⟩ 0#32 CUDA_HOST
      [⟨1, true, true, true, true⟩, ⟨2, true, true, true, false⟩, ⟨3, true, true, false, false⟩] =
      [.setUp, .traverse 2, .traverse 3, .tearDown] := by decide

/-! ## C31 -/

/-- **C31.** A line rule is called with the lines of the buffer, numbered from 1, in order. -/
theorem C31_each_line (buffer : Str) (lines : List Str) :
    IsLines buffer lines ↔
      eachLineCalls 1 buffer = lines.zipIdx.map fun p => ((p.2 : Int) + 1, p.1) := by
  have hnum := eachLine_numbers buffer.length 1 buffer (Nat.le_refl _)
  have hform : eachLineCalls 1 buffer =
      ((eachLineCalls 1 buffer).map Prod.snd).zipIdx.map fun p => ((p.2 : Int) + 1, p.1) := by
    apply List.ext_getElem?
    intro i
    rw [hnum i]
    generalize (eachLineCalls 1 buffer).map Prod.snd = ls
    rw [List.getElem?_map, List.getElem?_zipIdx]
    rcases ls[i]? with _ | l
    · rfl
    · simp [Int.add_comm]
  constructor
  · intro h
    rw [isLines_unique lines buffer 1 h] at hform
    exact hform
  · intro h
    have h2 := eachLine_isLines buffer.length 1 buffer (Nat.le_refl _)
    have h3 : (eachLineCalls 1 buffer).map Prod.snd = lines := by
      rw [h, List.map_map]
      conv_rhs => rw [← List.zipIdx_map_fst 0 lines]
      rfl
    rwa [h3] at h2

/-- **C31.** Every buffer has exactly one list of lines. -/
theorem C31_lines_unique (buffer : Str) : ∃! lines, IsLines buffer lines :=
  ⟨(eachLineCalls 1 buffer).map Prod.snd, eachLine_isLines _ 1 buffer (Nat.le_refl _),
    fun ls h => (isLines_unique ls buffer 1 h).symm⟩

/-- **C31.** A rule is applied by making these calls one after the other. -/
theorem C31_apply {σ : Type} (eachLine : σ → Int → Str → Outcome σ) (st : σ) (buffer : Str)
    (lines : List Str) (h : IsLines buffer lines) :
    sourceLineApply eachLine st buffer =
      lines.zipIdx.foldlM (fun st p => eachLine st ((p.2 : Int) + 1) p.1) st := by
  unfold sourceLineApply
  rw [(C31_each_line buffer lines).1 h, List.foldlM_map]

/-- Empty lines count; a final newline does not start another line. -/
example : eachLineCalls 1 "a\n\nbc\n".toList = [(1, ['a']), (2, []), (3, ['b', 'c'])] := by
  have h : IsLines "a\n\nbc\n".toList [['a'], [], ['b', 'c']] := by
    refine ⟨by decide, Or.inr ⟨by decide, Or.inl (by decide)⟩⟩
  rw [(C31_each_line _ _).1 h]; rfl

/-! ## C32 -/

/-- Asking again about the same unit and rule gives what would have been answered before. -/
theorem shouldSuppress_stable (apple : Bool) (st : SuppressCache) (u : SourceUnit) (r : Option Str)
    (l l' : Int) :
    (shouldSuppressLine apple (shouldSuppressLine apple st u r l).2 u r l').1 =
      (shouldSuppressLine apple st u r l').1 := by
  have hlines : ((shouldSuppressLine apple st u r l).2.lines u.mainPath).getD
      (commentLines apple u) = (st.lines u.mainPath).getD (commentLines apple u) := by
    rw [shouldSuppress_lines, lineBased_lines, if_pos rfl]; simp
  have hranges : ((shouldSuppressLine apple st u r l).2.ranges u.mainPath).getD
      (collectRanges u r) = (st.ranges u.mainPath).getD (collectRanges u r) := by
    unfold shouldSuppressLine
    simp only
    split
    · rw [lineBased_ranges]
    · rcases r with _ | r
      · simp only; rw [lineBased_ranges]
      · simp only; rw [rangeBased_ranges, lineBased_ranges, if_pos rfl]; simp
  have form : ∀ st' : SuppressCache, (shouldSuppressLine apple st' u r l').1 =
      (decide (l' ∈ (st'.lines u.mainPath).getD (commentLines apple u)) ||
        (r.isSome && inSomeRange l' ((st'.ranges u.mainPath).getD (collectRanges u r)))) := by
    intro st'
    unfold shouldSuppressLine
    simp only
    rw [lineBased_answer]
    split
    · rename_i h; rw [h]; rfl
    · rename_i h
      rw [Bool.not_eq_true] at h
      rw [h]
      rcases r with _ | r
      · rfl
      · simp only; rw [rangeBased_answer, lineBased_ranges]; rfl
  rw [form, form, hlines, hranges]

theorem longLine_step (apple : Bool) (cfg cfg' : Configurations) (t : Int) (rule : RuleId)
    (u : SourceUnit) (st : RuleState) (k : Int) (l : Str)
    (hcfg : cfg.intForKey "LONG_LINE".toList 100 = .ok (t, cfg')) :
    longLineEachLine apple cfg rule u st k l =
      .ok (if (l.length : Int) > t then
        addViolationLine apple "long line".toList st.2 u st.1 k 1 k l.length rule
          ("Line with ".toList ++ toStringInt l.length ++ " characters exceeds limit of ".toList
            ++ toStringInt t)
      else st) := by
  unfold longLineEachLine
  rw [hcfg]
  simp only [Outcome.bind_ok, Outcome.pure_eq]
  split <;> rfl

/-- **C32.** In any history, the long line rule adds one violation per line that is longer than the
threshold and not suppressed, in order, each at its line from column 1 to the line's length and with
both numbers in the message; nothing else is added. -/
theorem C32_long_line (apple : Bool) (cfg cfg' : Configurations) (t : Int) (rule : RuleId)
    (u : SourceUnit) (set : ViolationSet) (qs : List Query) (lines : List Str)
    (hl : IsLines u.buffer lines) (hpath : u.mainPath ≠ [])
    (hcfg : cfg.intForKey "LONG_LINE".toList 100 = .ok (t, cfg')) :
    ∃ cache, sourceLineApply (longLineEachLine apple cfg rule u) (set, cacheAfter apple qs)
        u.buffer =
      .ok (set ++ ((lines.zipIdx 1).filter fun p => decide (t < p.1.length) &&
          !answer apple qs ⟨u, some "long line".toList, p.2⟩).map
        fun p => longLine rule u.mainPath t p.2 p.1, cache) := by
  have key : ∀ (ls : List Str) (k : Nat) (set : ViolationSet) (st : SuppressCache),
      ∃ cache, (ls.zipIdx k).foldlM
        (fun st p => longLineEachLine apple cfg rule u st (p.2 : Int) p.1) (set, st) =
      .ok (set ++ ((ls.zipIdx k).filter fun p => decide (t < p.1.length) &&
          !(shouldSuppressLine apple st u (some "long line".toList) p.2).1).map
        fun p => longLine rule u.mainPath t p.2 p.1, cache) := by
    intro ls
    have step := fun st k l => longLine_step apple cfg cfg' t rule u st k l hcfg
    generalize "long line".toList = name at *
    induction ls with
    | nil => intro k set st; exact ⟨st, by simp [Outcome.pure_eq]⟩
    | cons l ls ih =>
      intro k set st
      rw [List.zipIdx_cons, List.foldlM_cons, step, Outcome.bind_ok]
      simp only
      by_cases hlt : (l.length : Int) > t
      · rw [if_pos hlt]
        unfold addViolationLine
        simp only
        have stable := shouldSuppress_stable apple st u (some name) k
        generalize hr : shouldSuppressLine apple st u (some name) k = r at *
        have hfun : ∀ m : List Str, ∀ k', ((m.zipIdx k').filter fun p => decide (t < p.1.length) &&
            !(shouldSuppressLine apple r.2 u (some name) p.2).1) =
            ((m.zipIdx k').filter fun p => decide (t < p.1.length) &&
            !(shouldSuppressLine apple st u (some name) p.2).1) := by
          intro m k'
          congr 1
          funext p
          rw [stable]
        rcases hs : r.1 with _ | _
        · rw [if_pos (by simp)]
          obtain ⟨cache, hc⟩ := ih (k + 1) (carrierAddViolation set u.mainPath k 1 k l.length
            (some rule) ("Line with ".toList ++ toStringInt l.length ++
              " characters exceeds limit of ".toList ++ toStringInt t)) r.2
          refine ⟨cache, ?_⟩
          rw [hc, hfun, List.filter_cons_of_pos (by simp only [hr, hs]; simpa using hlt)]
          congr 2
          rw [List.map_cons]
          unfold carrierAddViolation ViolationSet.addViolation longLine
          rw [if_pos hpath, toStringInt_eq, toStringInt_eq, List.append_assoc]
          rfl
        · rw [if_neg (by simp)]
          obtain ⟨cache, hc⟩ := ih (k + 1) set r.2
          refine ⟨cache, ?_⟩
          rw [hc, hfun, List.filter_cons_of_neg (by simp only [hr, hs]; simp)]
      · rw [if_neg hlt]
        obtain ⟨cache, hc⟩ := ih (k + 1) set st
        refine ⟨cache, ?_⟩
        rw [hc, List.filter_cons_of_neg (by simp; intro h; exact absurd h hlt)]
  obtain ⟨cache, hc⟩ := key lines 1 set (cacheAfter apple qs)
  refine ⟨cache, ?_⟩
  rw [C31_apply _ _ _ _ hl]
  unfold answer
  rw [← hc]
  rw [show lines.zipIdx 1 = lines.zipIdx.map fun p => (p.1, p.2 + 1) by
    rw [List.zipIdx_succ], List.foldlM_map]
  rfl

/-- **C32.** With nothing suppressed, a line is reported exactly when it is longer than the
threshold. -/
theorem C32_exact (apple : Bool) (cfg cfg' : Configurations) (t : Int) (rule : RuleId)
    (u : SourceUnit) (lines : List Str) (hl : IsLines u.buffer lines) (hpath : u.mainPath ≠ [])
    (hcfg : cfg.intForKey "LONG_LINE".toList 100 = .ok (t, cfg'))
    (hcom : ∀ l, ¬ LineSuppressed apple u l)
    (hann : ∀ l, ¬ RangeSuppressed u "long line".toList l) :
    ∃ cache, sourceLineApply (longLineEachLine apple cfg rule u) ([], SuppressCache.empty)
        u.buffer =
      .ok (((lines.zipIdx 1).filter fun p => decide (t < p.1.length)).map
        fun p => longLine rule u.mainPath t p.2 p.1, cache) := by
  obtain ⟨cache, h⟩ := C32_long_line apple cfg cfg' t rule u [] [] lines hl hpath hcfg
  refine ⟨cache, ?_⟩
  have hno : ∀ l : Int, answer apple [] ⟨u, some "long line".toList, l⟩ = false := by
    intro l
    rw [← Bool.not_eq_true, C29_independent_partial apple [] u _ l (by simp)]
    rintro (h | h)
    · exact hcom l h
    · exact hann l h
  simp only [hno, Bool.not_false, Bool.and_true, List.nil_append] at h
  exact h

/-- A threshold of 3: the second line has four characters. -/
example :
    let u : SourceUnit := { mainPath := "m.c".toList, comments := none, topDecls := [],
                            buffer := "abc\nabcd".toList }
    ∃ cache, sourceLineApply (longLineEachLine false (some [("LONG_LINE".toList, "3".toList)]) 9 u)
        ([], SuppressCache.empty) u.buffer =
      .ok ([⟨some 9, "m.c".toList, 2, 1, 2, 4,
        "Line with 4 characters exceeds limit of 3".toList⟩], cache) := by
  intro u
  have h : IsLines u.buffer ["abc".toList, "abcd".toList] :=
    ⟨by decide, Or.inr ⟨by decide, Or.inr ⟨by decide, by decide⟩⟩⟩
  obtain ⟨cache, hc⟩ := C32_exact false (some [("LONG_LINE".toList, "3".toList)]) _ 3 9 u _ h
    (by decide) (by rfl) (by rintro l ⟨cs, t, h, _⟩; simp [u] at h)
    (by rintro l ⟨top, h, _⟩; simp [u] at h)
  refine ⟨cache, hc.trans ?_⟩
  have h4 : decimal 4 = ['4'] := by rw [decimal]; rfl
  have h3 : decimalInt 3 = ['3'] := by rw [decimalInt, decimal]; rfl
  have hm : longLine 9 u.mainPath 3 2 "abcd".toList = ⟨some 9, "m.c".toList, 2, 1, 2, 4,
      "Line with 4 characters exceeds limit of 3".toList⟩ := by
    unfold longLine
    rw [h3, show "abcd".toList.length = 4 by decide, h4]
    decide
  change Outcome.ok ([longLine 9 u.mainPath 3 2 "abcd".toList], cache) = _
  rw [hm]

end Oclint
