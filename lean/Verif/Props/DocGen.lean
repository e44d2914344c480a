import Verif.Spec.DocGen
import Verif.Lemmas.Main
import Verif.Props.Main
import Verif.Props.Console
import Mathlib.Data.List.Lex
import Mathlib.Data.Char

/-!
# Properties of the documentation generator (C91)
-/

namespace Oclint
open Spec

variable {U σ κ : Type}

/-! ## Texts -/

theorem writeUnderline_eq (out : Str) (mark : Char) (n : Nat) :
    writeUnderline out mark n = out ++ List.replicate n mark := by
  induction n generalizing out with
  | zero => simp [writeUnderline]
  | succ n ih => rw [writeUnderline, ih, List.append_assoc]; rfl

theorem upperFirst_eq (s : Str) : upperFirst s = capital s := by cases s <;> rfl

theorem inLines_append (a b : List Str) : inLines (a ++ b) = inLines a ++ inLines b := by
  simp [inLines]

theorem inLines_cons (a : Str) (b : List Str) : inLines (a :: b) = a ++ '\n' :: inLines b := by
  simp [inLines]

theorem inLines_nil : inLines [] = [] := rfl

theorem writeCategoryHeader_eq (out c : Str) :
    writeCategoryHeader out c = out ++ inLines (titled (capital c) '=') := by
  simp only [writeCategoryHeader, writeUnderline_eq, upperFirst_eq, titled, inLines_cons, inLines_nil,
    List.append_assoc, List.cons_append, List.nil_append]

theorem thresholds_fold (ts : List (Str × Str)) (out : Str) :
    ts.foldl (fun out entry => out ++ entry.1 ++ ['\n'] ++ "    ".toList ++ entry.2 ++ ['\n']) out =
      out ++ inLines (ts.flatMap fun e => [e.1, "    ".toList ++ e.2]) := by
  generalize "    ".toList = ind
  induction ts generalizing out with
  | nil => simp [inLines_nil]
  | cons t ts ih =>
    rw [List.foldl_cons, ih, List.flatMap_cons, inLines_append]
    simp only [inLines_cons, inLines_nil, List.append_assoc, List.cons_append, List.nil_append]

theorem writeThresholds_eq (out : Str) (ts : List (Str × Str)) :
    writeThresholds out ts = out ++ inLines (thresholdLines ts) := by
  cases ts with
  | nil => simp [writeThresholds, thresholdLines, inLines_nil]
  | cons t ts =>
    simp only [writeThresholds, thresholdLines, List.length_cons, gt_iff_lt, Nat.zero_lt_succ, if_true]
    rw [thresholds_fold]
    simp only [inLines_append, inLines_cons, inLines_nil, List.append_assoc, List.cons_append,
      List.nil_append]

theorem writeSuppress_eq (out : Str) (b : Bool) (a : Str) :
    writeSuppress out b a = out ++ inLines (if b then
      ["**Suppress:**".toList, [], ".. code-block:: cpp".toList, [],
       "    __attribute__((annotate(\"oclint:suppress[".toList ++ a ++ "]\")))".toList, []]
     else []) := by
  cases b with
  | false => simp [writeSuppress, inLines_nil]
  | true =>
    simp only [writeSuppress, if_true, inLines_cons, inLines_nil, List.append_assoc, List.cons_append,
      List.nil_append]

theorem this_class : "This rule is defined by the following class: ".toList ++
    "`oclint-rules/rules/".toList =
    "This rule is defined by the following class: `".toList ++ "oclint-rules/rules/".toList := by
  decide +kernel

theorem this_link : " ".toList ++ "<https://github.com/oclint/oclint/blob/master/".toList =
    " <https://github.com/oclint/oclint/blob/master/".toList := by decide +kernel

theorem writeRule_eq (out : Str) (doc : RuleDoc) :
    writeRuleToCategory out doc = out ++ inLines (section' doc) := by
  have hadd : ∀ o : Str, (if doc.additionalDocument.length > 0 then
      o ++ doc.additionalDocument ++ ['\n'] else o) =
      o ++ inLines (if doc.additionalDocument = [] then [] else [doc.additionalDocument]) := by
    intro o
    cases doc.additionalDocument with
    | nil => simp [inLines_nil]
    | cons c cs => simp [inLines]
  simp only [writeRuleToCategory]
  rw [hadd, writeSuppress_eq, writeThresholds_eq, writeUnderline_eq]
  unfold section' sourceOf titled
  rw [← this_link]
  have h1 := this_class
  generalize hA : "This rule is defined by the following class: ".toList = A at h1 ⊢
  generalize hB : "`oclint-rules/rules/".toList = B at h1 ⊢
  generalize hC : "This rule is defined by the following class: `".toList = C at h1 ⊢
  generalize hD : "oclint-rules/rules/".toList = D at h1 ⊢
  have h2 : ∀ x, A ++ (B ++ x) = C ++ (D ++ x) := by
    intro x; rw [← List.append_assoc, h1, List.append_assoc]
  clear hA hB hC hD
  simp only [inLines_append, inLines_cons, List.append_assoc, List.cons_append, List.nil_append, h2]

theorem writeRules_eq (docs : RuleId → RuleDoc) (rs : List RuleId)
    (out : Str) :
    rs.foldl (fun out r => writeRuleToCategory out (docs r)) out =
      out ++ inLines (rs.flatMap fun r => section' (docs r)) := by
  induction rs generalizing out with
  | nil => simp [inLines_nil]
  | cons r rs ih =>
    rw [List.foldl_cons, ih, writeRule_eq, List.flatMap_cons, inLines_append, List.append_assoc]

theorem footer_start : "\n.. Generated on ".toList = '\n' :: ".. Generated on ".toList := by
  decide +kernel

theorem newline_text : "\n".toList = ['\n'] := by decide +kernel

theorem writeFooter_eq (out time : Str) : writeFooter out time = out ++ footer time := by
  unfold writeFooter footer
  rw [footer_start, newline_text]
  generalize ".. Generated on ".toList = g
  simp

theorem writeIndex_eq (cs : List Str) (n : Nat) :
    cs.foldl writeCategoryToIndex (writeIndexHeader [] n) =
      inLines (titled "Rule Index".toList '=' ++
          ["OCLint |release| includes ".toList ++ toStringInt n ++ " rules.".toList, [],
           ".. toctree::".toList, "   :maxdepth: 2".toList, []] ++
          cs.map ("   ".toList ++ ·)) := by
  have hf : ∀ out, cs.foldl writeCategoryToIndex out =
      out ++ inLines (cs.map ("   ".toList ++ ·)) := by
    generalize hi : "   ".toList = ind
    induction cs with
    | nil => intro out; simp [inLines_nil]
    | cons c cs ih =>
      intro out
      rw [List.foldl_cons, ih, List.map_cons, inLines_cons]
      simp only [writeCategoryToIndex, hi, List.append_assoc, List.cons_append, List.nil_append]
  rw [hf, inLines_append _ (cs.map _)]
  congr 1
  have hu : "==========".toList = List.replicate "Rule Index".toList.length '=' := by decide +kernel
  simp only [writeIndexHeader, hu, titled, inLines_cons, inLines_nil, List.append_assoc,
    List.cons_append, List.nil_append]

/-! ## Grouping -/

theorem docFind_set (m : List (Str × List RuleId)) (k k' : Str) (v : List RuleId) :
    docFind (docSet m k v) k' = if k = k' then v else docFind m k' := by
  induction m with
  | nil => simp [docSet, docFind]
  | cons e m ih =>
    obtain ⟨a, b⟩ := e
    by_cases ha : a = k
    · subst ha
      by_cases hk : a = k' <;> simp [docSet, docFind, hk]
    · by_cases hk : a = k'
      · subst hk
        simp [docSet, docFind, ha, Ne.symm ha]
      · simp only [docSet, if_neg ha, docFind, if_neg hk, ih]

theorem group_spec (categoryOf : RuleId → Str) (rules : List RuleId) :
    (groupRules categoryOf rules).1.Nodup ∧
      (∀ c, c ∈ (groupRules categoryOf rules).1 ↔ ∃ r ∈ rules, categoryOf r = c) ∧
      ∀ c, docFind (groupRules categoryOf rules).2 c =
        rules.filter fun r => decide (categoryOf r = c) := by
  induction rules using List.reverseRecOn with
  | nil => simp [groupRules, docFind]
  | append_singleton rs r ih =>
    obtain ⟨h1, h2, h3⟩ := ih
    have step : groupRules categoryOf (rs ++ [r]) =
        if categoryOf r ∈ (groupRules categoryOf rs).1 then
          ((groupRules categoryOf rs).1, docSet (groupRules categoryOf rs).2 (categoryOf r)
            (docFind (groupRules categoryOf rs).2 (categoryOf r) ++ [r]))
        else ((groupRules categoryOf rs).1 ++ [categoryOf r],
          docSet (groupRules categoryOf rs).2 (categoryOf r) [r]) := by
      unfold groupRules
      rw [List.foldl_append]
      rfl
    generalize groupRules categoryOf rs = g at *
    by_cases hc : categoryOf r ∈ g.1
    · rw [step, if_pos hc]
      refine ⟨h1, fun c => ?_, fun c => ?_⟩
      · simp only [List.mem_append, List.mem_singleton]
        rw [h2]
        constructor
        · rintro ⟨x, hx, he⟩; exact ⟨x, .inl hx, he⟩
        · rintro ⟨x, hx | rfl, he⟩
          · exact ⟨x, hx, he⟩
          · rw [← he]; exact (h2 _).1 hc
      · simp only [docFind_set, List.filter_append]
        by_cases he : categoryOf r = c
        · subst he; simp [h3]
        · simp [he, h3]
    · rw [step, if_neg hc]
      refine ⟨?_, fun c => ?_, fun c => ?_⟩
      · rw [List.nodup_append]
        refine ⟨h1, by simp, ?_⟩
        intro a ha b hb
        simp at hb; subst hb
        rintro rfl; exact hc ha
      · simp only [List.mem_append, List.mem_singleton]
        rw [h2]
        constructor
        · rintro (⟨x, hx, he⟩ | rfl)
          · exact ⟨x, .inl hx, he⟩
          · exact ⟨r, .inr rfl, rfl⟩
        · rintro ⟨x, hx | rfl, he⟩
          · exact .inl ⟨x, hx, he⟩
          · exact .inr he.symm
      · simp only [docFind_set, List.filter_append]
        by_cases he : categoryOf r = c
        · subst he
          have hnil : (rs.filter fun x => decide (categoryOf x = categoryOf r)) = [] := by
            rw [List.filter_eq_nil_iff]
            intro x hx hxe
            exact hc ((h2 _).2 ⟨x, hx, by simpa using hxe⟩)
          simp [hnil]
        · simp [he, h3]

theorem text_lt {a b : Str} (h : ¬ b < a) (hne : a ≠ b) : a < b :=
  (lt_trichotomy a b).resolve_right (by rintro (h' | h'); exacts [hne h', h h'])

theorem docPath_eq (c : Str) : docRulePath ++ c ++ ".rst".toList = docPath c := rfl

theorem indexPath_eq : docRulePath ++ "index.rst".toList = docPath "index".toList := by
  decide +kernel

theorem allRules_eq (rules : List RuleId) : allRules (registryAfter rules) = .ok rules := by
  unfold allRules
  rw [numberOfRules_registryAfter]
  have := range_foldlM_filter (fun _ => true) rules rules.length (Nat.le_refl _)
  rw [List.take_length, List.filter_true] at this
  refine Eq.trans ?_ this
  congr 1

theorem docFiles_guide (docs : RuleId → RuleDoc) (sort : DocSort)
    (hs : Sorts sort) (clock : Str → Str) (rules : List RuleId) :
    Guide docs clock rules (docFiles docs sort clock rules) := by
  obtain ⟨h1, h2, h3⟩ := group_spec (fun r => (docs r).category) rules
  obtain ⟨hp, ho⟩ := hs.names (groupRules (fun r => (docs r).category) rules).1
  refine ⟨sort.names (groupRules (fun r => (docs r).category) rules).1,
    fun c => sort.rules (fun r => (docs r).identifier)
      (docFind (groupRules (fun r => (docs r).category) rules).2 c), ?_, ?_, ?_, ?_⟩
  · have hn : (sort.names (groupRules (fun r => (docs r).category) rules).1).Nodup :=
      hp.nodup_iff.2 h1
    exact (ho.and hn).imp fun h => text_lt h.1 h.2
  · intro c; rw [hp.mem_iff]; exact h2 c
  · intro c _
    have := hs.rules (fun r => (docs r).identifier)
      (docFind (groupRules (fun r => (docs r).category) rules).2 c)
    refine ⟨?_, this.2⟩
    rw [← h3 c]; exact this.1
  · simp only [docFiles, writeFooter_eq, writeIndex_eq, indexPath_eq]
    congr 1
    apply List.map_congr_left
    intro c _
    simp only [categoryFile, writeFooter_eq, writeCategoryHeader_eq, writeRules_eq, docPath_eq,
      List.nil_append, inLines_append]

/-! ## The properties -/

/-- The generator ends with 1, a complaint and no file if the rules do not load, and otherwise with 0
and the guide of all loaded rules, as far as the files open. -/
theorem C91_docs (m : Machine U σ κ) (v : Voices U) (docs : RuleId → RuleDoc) (sort : DocSort)
    (hs : Sorts sort) (clock : Str → Str) (cli : CommandLine) (st : OptionState)
    (hst : processOptions m.env cli = .ok st) :
    (∃ p, BrokenRule m st p ∧ docgenMain m v docs sort clock (some cli) =
        .ok (⟨[], v.configErrors ++ libraryText v p, [], []⟩, 1)) ∨
      (NoRules m st ∧ docgenMain m v docs sort clock (some cli) =
        .ok (⟨[], v.configErrors ++ complaint "no rule loaded".toList, [], []⟩, 1)) ∨
      (RulesLoad m st ∧ ∃ files, Guide docs clock (loadedRules m st) files ∧
        docgenMain m v docs sort clock (some cli) =
          .ok (⟨[], v.configErrors, [], files.filter fun f => m.canOpen f.1⟩, 0)) := by
  have hstart : Console.empty.toErr v.configErrors = ⟨[], v.configErrors, [], []⟩ := rfl
  unfold docgenMain docgenPrepare
  simp only [hst, Outcome.bind_ok, hstart]
  rcases loudRules_cases m v.dlerror st with ⟨p, h1, h2⟩ | ⟨h1, ld, h2, h3⟩ | ⟨h1, ld, h2, h3, h4⟩
  · left
    refine ⟨p, h1, ?_⟩
    rw [h2]
    simp only [libraryError, libraryText_eq]
  · right; left
    refine ⟨h1, ?_⟩
    rw [h2]
    simp only [toErr_nil, if_pos h3, printErrorLine_eq]
  · right; right
    refine ⟨h1, _, docFiles_guide docs sort hs clock (loadedRules m st), ?_⟩
    rw [h2]
    simp only [toErr_nil, if_neg h3]
    rw [h4, allRules_eq]
    rfl

/-- The three cases exclude each other. -/
theorem C91_cases (m : Machine U σ κ) (st : OptionState) (p : Str) :
    ¬ (BrokenRule m st p ∧ NoRules m st) ∧ ¬ (BrokenRule m st p ∧ RulesLoad m st) ∧
      ¬ (NoRules m st ∧ RulesLoad m st) :=
  ⟨fun h => brokenRule_not_none h.1 h.2, fun h => brokenRule_not_load h.1 h.2,
    fun h => noRules_not_load h.1 h.2⟩

theorem count_filter_if (p : RuleId → Bool) (l : List RuleId) (a : RuleId) :
    (l.filter p).count a = if p a then l.count a else 0 := by
  by_cases h : p a = true
  · rw [if_pos h, List.count_filter h]
  · rw [if_neg h, List.count_eq_zero.2 (by simp [List.mem_filter, h])]

/-- The chapters together have every rule as often as it is loaded: none is lost, none is doubled. -/
theorem C91_complete (docs : RuleId → RuleDoc) (rules : List RuleId) (categories : List Str)
    (chapter : Str → List RuleId) (ho : categories.Pairwise (· < ·))
    (hc : ∀ c, c ∈ categories ↔ ∃ r ∈ rules, (docs r).category = c)
    (hp : ∀ c ∈ categories,
      (chapter c).Perm (rules.filter fun r => decide ((docs r).category = c))) :
    (categories.flatMap chapter).Perm rules := by
  have hn : categories.Nodup := ho.imp fun h => ne_of_lt h
  have key : ∀ (cs : List Str), cs.Nodup → (∀ c ∈ cs, c ∈ categories) →
      (cs.flatMap chapter).Perm (rules.filter fun r => decide ((docs r).category ∈ cs)) := by
    intro cs
    induction cs with
    | nil => intro _ _; simp
    | cons c cs ih =>
      intro hnd hsub
      rw [List.nodup_cons] at hnd
      have h1 := ih hnd.2 (fun x hx => hsub x (by simp [hx]))
      have h2 := hp c (hsub c (by simp))
      rw [List.flatMap_cons]
      refine (h2.append h1).trans ?_
      rw [List.perm_iff_count]
      intro a
      rw [List.count_append]
      rw [count_filter_if, count_filter_if, count_filter_if]
      by_cases ha : (docs a).category = c
      · simp [ha, hnd.1]
      · by_cases hcs : (docs a).category ∈ cs <;> simp [ha, hcs]
  refine (key categories hn (fun _ h => h)).trans ?_
  rw [List.filter_eq_self.2]
  intro r hr
  simpa using (hc _).2 ⟨r, hr, rfl⟩

/-- A command line that cannot be parsed is not handled: there is no value to go on with. -/
theorem C91_unparsed (m : Machine U σ κ) (v : Voices U) (docs : RuleId → RuleDoc) (sort : DocSort)
    (clock : Str → Str) : docgenMain m v docs sort clock none = .ub := rfl

/-! ## Example -/

/-- Insertion, for a sort. -/
def insertBy {α : Type} (lt : α → α → Bool) (a : α) : List α → List α
  | [] => [a]
  | b :: bs => if lt b a then b :: insertBy lt a bs else a :: b :: bs

/-- Insertion sort: one possible `std::sort`. -/
def insertionSort {α : Type} (lt : α → α → Bool) : List α → List α
  | [] => []
  | a :: as => insertBy lt a (insertionSort lt as)

/-- One possible `std::sort`. -/
def exSort : DocSort :=
  ⟨insertionSort fun a b => decide (a < b), fun key => insertionSort fun a b => decide (key a < key b)⟩

/-- Rules 1 and 3 are in one category. -/
def exDocs (r : RuleId) : RuleDoc :=
  { name := if r = 1 then "z".toList else "y".toList
    identifier := if r = 1 then "Z".toList else "Y".toList
    category := if r = 2 then "a".toList else "b".toList, attributeName := [], since := "1".toList,
    description := [], ruleExample := [], fileName := [], enableSuppress := false, thresholds := [],
    additionalDocument := [] }

example : (docFiles exDocs exSort (fun _ => [])
    [1, 2, 3]).map Prod.fst = ["../build/oclint-docs/rules/index.rst".toList,
      "../build/oclint-docs/rules/a.rst".toList, "../build/oclint-docs/rules/b.rst".toList] := by
  decide +kernel

theorem insertBy_perm {α : Type} (lt : α → α → Bool) (a : α) (l : List α) :
    (insertBy lt a l).Perm (a :: l) := by
  induction l with
  | nil => exact .refl _
  | cons b bs ih =>
    unfold insertBy
    split
    · exact (ih.cons b).trans (.swap a b bs)
    · exact .refl _

theorem insertBy_sorted {α : Type} (key : α → Str) (a : α) (l : List α)
    (h : l.Pairwise fun x y => ¬ key y < key x) :
    (insertBy (fun x y => decide (key x < key y)) a l).Pairwise fun x y => ¬ key y < key x := by
  induction l with
  | nil => simp [insertBy]
  | cons b bs ih =>
    rw [List.pairwise_cons] at h
    unfold insertBy
    split
    · next hlt =>
      rw [List.pairwise_cons]
      refine ⟨fun x hx => ?_, ih h.2⟩
      rcases List.mem_cons.1 ((insertBy_perm _ a bs).mem_iff.1 hx) with rfl | hx
      · exact lt_asymm (by simpa using hlt)
      · exact h.1 x hx
    · next hlt =>
      have hab : ¬ key b < key a := by simpa using hlt
      rw [List.pairwise_cons]
      refine ⟨fun x hx => ?_, List.pairwise_cons.2 h⟩
      rcases List.mem_cons.1 hx with rfl | hx
      · exact hab
      · exact not_lt.2 (le_trans (not_lt.1 hab) (not_lt.1 (h.1 x hx)))

theorem insertionSort_ok {α : Type} (key : α → Str) (l : List α) :
    (insertionSort (fun x y => decide (key x < key y)) l).Perm l ∧
      (insertionSort (fun x y => decide (key x < key y)) l).Pairwise fun x y => ¬ key y < key x := by
  induction l with
  | nil => exact ⟨.refl _, .nil⟩
  | cons a as ih =>
    exact ⟨(insertBy_perm _ a _).trans (ih.1.cons a), insertBy_sorted key a _ ih.2⟩

/-- The promise of `std::sort` can be kept. -/
example : Sorts exSort := ⟨insertionSort_ok id, insertionSort_ok⟩

end Oclint
