import Verif.Spec.Thresholds
import Verif.Lemmas.Registry
import Verif.Lemmas.Metrics
import Verif.Lemmas.Options
import Verif.Lemmas.Results
import Verif.Lemmas.SourceLines

/-! # C38: metric rules report exactly above the threshold -/

namespace Oclint
open Spec


theorem lit_ncss : " non-commenting source statements exceeds limit of ".toList =
    " non-commenting source statements".toList ++ " exceeds limit of ".toList := by decide
theorem lit_lines : " lines exceeds limit of ".toList =
    " lines".toList ++ " exceeds limit of ".toList := by decide
theorem lit_fields : " fields exceeds limit of ".toList =
    " fields".toList ++ " exceeds limit of ".toList := by decide
theorem lit_methods : " methods exceeds limit of ".toList =
    " methods".toList ++ " exceeds limit of ".toList := by decide
theorem lit_parameters : " parameters exceeds limit of ".toList =
    " parameters".toList ++ " exceeds limit of ".toList := by decide

theorem measure_unique {r : MetricRule} {c : Construct} {m n : Int} (h : Measure r c m)
    (h' : Measure r c n) : m = n := by
  cases h <;> cases h' <;> simp_all

theorem toInt32_nat {n : Nat} (h : n < 2147483648) : toInt32 (n : Int) = n := by
  unfold toInt32; omega

theorem getLineCount_eq {s e n : Nat} (h : n < 2147483648) (h' : e + 1 = s + n) :
    getLineCount s e = n := by
  unfold getLineCount toInt32; omega

theorem limit_int32 {cfg : Configurations} {r : MetricRule} {t : Int} (h : LimitIs cfg r t) :
    -2147483648 ≤ t ∧ t ≤ 2147483647 := by
  obtain ⟨cfg', h⟩ := h
  rw [intForKey_eq] at h
  cases hl : cfgLookup cfg (limitKey r).toList with
  | none =>
    rw [hl] at h
    cases h
    cases r <;> simp [limitDefault]
  | some v =>
    rw [hl] at h
    simp only at h
    have : ∀ z n, checkInt32 z = .ok n → -2147483648 ≤ n ∧ n ≤ 2147483647 := by
      intro z n hz
      unfold checkInt32 at hz
      split at hz <;> cases hz
      omega
    cases ha : atoi v with
    | ok n =>
      rw [ha] at h
      cases h
      unfold atoi at ha
      split at ha <;> exact this _ _ ha
    | throws w => rw [ha] at h; cases h
    | ub => rw [ha] at h; cases h

/-- What `setUp` stores for the limit `t`. -/
def stored (r : MetricRule) (t : Int) : Int :=
  match r with
  | .longClass | .fields | .methods | .parameters => t
  | _ => 0

theorem setUp_eq {cfg : Configurations} {r : MetricRule} {t : Int} (h : LimitIs cfg r t)
    (hp : r = .parameters → 0 ≤ t) : metricSetUp cfg r = .ok (stored r t) := by
  have hb := limit_int32 h
  obtain ⟨cfg', h⟩ := h
  cases r <;> simp only [limitKey, limitDefault] at h <;> simp only [metricSetUp, stored, Outcome.pure_eq] <;>
    (try rw [h, bind_ok'])
  simp only [toUInt32]
  have := hp rfl
  rw [Int.emod_eq_of_lt this (by omega)]

theorem report_if {t m : Int} {a b : Str} (h : a = b) :
    (if m > t then (pure (some a) : Outcome (Option Str)) else pure none) =
      .ok (if t < m then some b else none) := by
  subst h
  by_cases hh : t < m
  · rw [if_pos hh, if_pos hh]; rfl
  · rw [if_neg hh, if_neg hh]; rfl

theorem report_if' {t m : Int} {a b : Str} (h : a = b) :
    (if m > t then some a else none) = if t < m then some b else none := by
  subst h; rfl

theorem longName_ok {cfg cfg' : Configurations} {t : Int} {n : Str}
    (h : cfg.intForKey "LONG_VARIABLE_NAME".toList 20 = .ok (t, cfg'))
    (ht : 0 ≤ t) (hn : n.length ≤ 2147483637) :
    longNameVisit cfg n = .ok (if t < n.length
      then some (message .longName (.variable n) n.length t) else none) := by
  unfold longNameVisit
  rw [toInt32_nat (by omega), h, bind_ok']
  simp only
  by_cases hlt : t < n.length
  · rw [if_pos hlt, if_pos hlt]
    have hmax : t + 10 ≤ 2147483647 := by omega
    have h10 : addInt t 10 = .ok (t + 10) := by
      unfold addInt checkInt32; rw [if_pos (by omega)]
    have hshown : longNameShown n n.length t = .ok (shownName n t) := by
      unfold longNameShown shownName
      rw [h10, bind_ok']
      by_cases hlong : (n.length : Int) > t + 10
      · rw [if_pos hlong, if_pos hlong]
        have h3 : addInt t 3 = .ok (t + 3) := by
          unfold addInt checkInt32; rw [if_pos (by omega)]
        have e1 : toSizeT (t + 3) = (t + 3).toNat := by unfold toSizeT; omega
        have e2 : toSizeT ((n.length : Int) - 3) = n.length - 3 := by unfold toSizeT; omega
        rw [h3, bind_ok', e1, e2]
        unfold substr
        rw [if_neg (by omega), bind_ok', if_neg (by omega), bind_ok', List.drop_zero,
          List.take_of_length_le (l := n.drop _) (by rw [List.length_drop]; omega)]
        rfl
      · rw [if_neg hlong, if_neg hlong]; rfl
    rw [hshown, bind_ok']
    unfold message
    simp only
    rw [toStringInt_eq, toStringInt_eq]
    rfl
  · rw [if_neg hlt, if_neg hlt]; rfl

theorem visit_above {cfg : Configurations} {r : MetricRule} {t m : Int} {c : Construct}
    (h : LimitIs cfg r t) (hp : r = .parameters ∨ r = .longName → 0 ≤ t) (ha : Applies r c)
    (hm : Measure r c m) :
    metricVisit cfg (stored r t) r c = .ok (if t < m then some (message r c m t) else none) := by
  have hb := limit_int32 h
  obtain ⟨cfg', h⟩ := h
  cases hm with
  | cyclomatic hm =>
    unfold limitKey limitDefault at h
    simp only at h
    unfold metricVisit cyclomaticApply
    simp only
    rw [hm, bind_ok', h, bind_ok']
    apply report_if
    unfold message
    simp only
    rw [toStringInt_eq, toStringInt_eq, List.append_nil]
  | npath hbody hm =>
    unfold limitKey limitDefault at h
    simp only at h
    unfold metricVisit npathApply
    simp only
    rw [hbody]
    simp only
    rw [hm, bind_ok', h, bind_ok']
    apply report_if
    unfold message
    simp only
    rw [toStringInt_eq, toStringInt_eq, List.append_nil]
  | ncss hm =>
    unfold limitKey limitDefault at h
    simp only at h
    unfold metricVisit ncssApply
    simp only
    rw [hm, bind_ok', h, bind_ok']
    apply report_if
    unfold message
    simp only
    rw [toStringInt_eq, toStringInt_eq]
    rw [lit_ncss, ← List.append_assoc]
  | depth hm =>
    unfold limitKey limitDefault at h
    simp only at h
    unfold metricVisit depthApply
    simp only
    rw [hm, bind_ok', h, bind_ok']
    apply report_if
    unfold message
    simp only
    rw [toStringInt_eq, toStringInt_eq, List.append_nil]
  | @longMethod d n hn hl =>
    cases ha with
    | longMethod _ hbody hc =>
    unfold limitKey limitDefault at h
    simp only at h
    have hcond : (d.body.isSome && !isCppMethodDeclLocatedInCppRecordDecl d) = true := by
      have h1 : d.body.isSome = true := Option.isSome_iff_ne_none.2 hbody
      unfold isCppMethodDeclLocatedInCppRecordDecl
      rw [h1]
      cases h2 : d.cxxMethod <;> cases h3 : d.inRecord <;> simp_all
    unfold metricVisit longMethodApply
    simp only
    rw [if_pos hcond, h, bind_ok', getLineCount_eq hn hl]
    apply report_if
    unfold message
    simp only
    rw [toStringInt_eq, toStringInt_eq]
    rw [lit_lines, ← List.append_assoc]
  | @longClass d n hn hl =>
    unfold metricVisit longClassVisit longClassApply
    simp only
    rw [getLineCount_eq hn hl]
    congr 1
    have hk : ∀ p : Str, p = kindName d.kind → (if (n : Int) > stored .longClass t then
        some (p ++ " with ".toList ++ toStringInt n ++ " lines exceeds limit of ".toList
          ++ toStringInt (stored .longClass t)) else none) =
        if t < (n : Int) then some (message .longClass (.cls d) n t) else none := by
      intro p hp
      apply report_if'
      subst hp
      unfold message stored
      simp only
      rw [toStringInt_eq, toStringInt_eq]
      rw [lit_lines, ← List.append_assoc]
    split <;> rename_i hkind <;> exact hk _ (by rw [hkind]; rfl)
  | @fields d hn =>
    unfold metricVisit fieldsVisit
    simp only
    rw [toInt32_nat hn]
    congr 1
    have hk : ∀ p : Str, p = kindName d.kind ++ " with ".toList →
        (if (d.fields : Int) > stored .fields t then
        some (p ++ toStringInt d.fields ++ " fields exceeds limit of ".toList
          ++ toStringInt (stored .fields t)) else none) =
        if t < (d.fields : Int) then some (message .fields (.cls d) d.fields t) else none := by
      intro p hp
      apply report_if'
      subst hp
      unfold message stored
      simp only
      rw [toStringInt_eq, toStringInt_eq]
      rw [lit_fields, ← List.append_assoc]
    cases ha with
    | fields _ hkind =>
    rcases hkind with hkind | hkind <;> rw [hkind] <;> exact hk _ (by rw [hkind]; decide)
  | @methods d hn =>
    unfold metricVisit methodsVisit
    simp only
    rw [toInt32_nat hn]
    congr 1
    have hk : ∀ p : Str, p = kindName d.kind ++ " with ".toList →
        (if (d.methods : Int) > stored .methods t then
        some (p ++ toStringInt d.methods ++ " methods exceeds limit of ".toList
          ++ toStringInt (stored .methods t)) else none) =
        if t < (d.methods : Int) then some (message .methods (.cls d) d.methods t) else none := by
      intro p hp
      apply report_if'
      subst hp
      unfold message stored
      simp only
      rw [toStringInt_eq, toStringInt_eq]
      rw [lit_methods, ← List.append_assoc]
    cases ha with
    | methods _ hkind =>
    rcases hkind with hkind | hkind <;> rw [hkind] <;> exact hk _ (by rw [hkind]; decide)
  | @parameters d hn =>
    cases ha with
    | parameters _ hbody =>
    have h1 : d.body.isSome = true := Option.isSome_iff_ne_none.2 hbody
    have h0 := hp (.inl rfl)
    have e1 : toUInt32 (d.params : Int) = d.params := by unfold toUInt32; omega
    have e2 : toInt32 t = t := by unfold toInt32; omega
    unfold metricVisit parametersApply stored
    simp only
    rw [e1, e2, toInt32_nat hn, h1]
    by_cases hlt : t < (d.params : Int)
    · rw [if_pos (by simpa using hlt), if_pos hlt]
      unfold message
      simp only
      rw [toStringInt_eq, toStringInt_eq]
      rw [lit_parameters, ← List.append_assoc]
      rfl
    · rw [if_neg (by simpa using hlt), if_neg hlt]
      rfl
  | longName hn =>
    exact longName_ok h (hp (.inr rfl)) hn

theorem visit_other {cfg : Configurations} {r : MetricRule} {t : Int} {c : Construct}
    (ha : ¬ Applies r c) : metricVisit cfg (stored r t) r c = .ok none := by
  cases r <;> cases c <;> first | rfl | (exfalso; apply ha; constructor; done) | skip
  case npath.method d =>
    unfold metricVisit npathApply
    simp only
    split
    · rename_i b hb
      exact absurd (.npath d b hb) ha
    · rfl
  case longMethod.method d =>
    unfold metricVisit longMethodApply
    simp only
    have : ¬ (d.body.isSome && !isCppMethodDeclLocatedInCppRecordDecl d) = true := by
      intro h
      apply ha
      rw [Bool.and_eq_true] at h
      refine .longMethod d (Option.isSome_iff_ne_none.1 h.1) ?_
      rintro ⟨h1, h2⟩
      unfold isCppMethodDeclLocatedInCppRecordDecl at h
      simp [h1, h2] at h
    rw [if_neg this]
    rfl
  case fields.cls d =>
    unfold metricVisit fieldsVisit
    simp only
    split
    · rename_i hk; exact absurd (.fields d (.inl hk)) ha
    · rename_i hk; exact absurd (.fields d (.inr hk)) ha
    · rfl
  case methods.cls d =>
    unfold metricVisit methodsVisit
    simp only
    split
    · rename_i hk; exact absurd (.methods d (.inl hk)) ha
    · rename_i hk; exact absurd (.methods d (.inr hk)) ha
    · rfl
  case parameters.method d =>
    unfold metricVisit parametersApply
    simp only
    cases hb : d.body with
    | none => rfl
    | some b => exact absurd (.parameters d (by rw [hb]; simp)) ha

/-- **C38.** For every metric rule, every configuration and every list of constructs whose metrics
exist: the reports are exactly those the specification expects.  The two rules about parameters and
names require a limit that is not negative; see the witnesses below. -/
theorem C38_exact_partial (cfg : Configurations) (r : MetricRule) (t : Int) (cs : List Construct)
    (ht : LimitIs cfg r t) (hp : r = .parameters ∨ r = .longName → 0 ≤ t)
    (hm : ∀ c ∈ cs, Applies r c → ∃ m, Measure r c m) (rs : List (Construct × Str)) :
    metricRule cfg r cs = .ok rs ↔ Reports r t cs rs := by
  unfold metricRule
  rw [setUp_eq ht (fun h => hp (.inl h)), bind_ok']
  induction cs generalizing rs with
  | nil =>
    constructor
    · intro h; cases h; exact .nil
    · intro h; cases h; rfl
  | cons c cs ih =>
    have ih := ih (fun c hc => hm c (List.mem_cons_of_mem _ hc))
    have hc := hm c List.mem_cons_self
    have rest : ∀ {o : Option Str} {rs}, (do
          let rest ← visitAll (metricVisit cfg (stored r t) r) cs
          pure (o.toList.map (fun text => (c, text)) ++ rest)) = Outcome.ok rs ↔
        ∃ rs', rs = o.toList.map (fun text => (c, text)) ++ rs' ∧ Reports r t cs rs' := by
      intro o rs
      cases hv : visitAll (metricVisit cfg (stored r t) r) cs with
      | ok rs' =>
        rw [bind_ok']
        constructor
        · intro h; cases h; exact ⟨rs', rfl, (ih rs').1 hv⟩
        · rintro ⟨rs'', rfl, h⟩
          have := (ih rs'').2 h
          rw [hv] at this
          cases this
          rfl
      | throws w =>
        constructor
        · intro h; cases h
        · rintro ⟨rs'', rfl, h⟩
          have := (ih rs'').2 h
          rw [hv] at this
          cases this
      | ub =>
        constructor
        · intro h; cases h
        · rintro ⟨rs'', rfl, h⟩
          have := (ih rs'').2 h
          rw [hv] at this
          cases this
    unfold visitAll
    by_cases ha : Applies r c
    · obtain ⟨m, hmm⟩ := hc ha
      rw [visit_above ht hp ha hmm, bind_ok', rest]
      by_cases hlt : t < m
      · rw [if_pos hlt]
        constructor
        · rintro ⟨rs', rfl, h⟩; exact .above ha hmm hlt h
        · intro h
          cases h with
          | above _ hmm' _ h => rw [measure_unique hmm hmm']; exact ⟨_, rfl, h⟩
          | notAbove _ hmm' hle _ =>
            have := measure_unique hmm hmm'
            omega
          | other ha' _ => exact absurd ha ha'
      · rw [if_neg hlt]
        constructor
        · rintro ⟨rs', rfl, h⟩; exact .notAbove ha hmm (by omega) h
        · intro h
          cases h with
          | above _ hmm' hlt' h =>
            have := measure_unique hmm hmm'
            omega
          | notAbove _ _ _ h => exact ⟨_, rfl, h⟩
          | other ha' _ => exact absurd ha ha'
    · rw [visit_other ha, bind_ok', rest]
      constructor
      · rintro ⟨rs', rfl, h⟩; exact .other ha h
      · intro h
        cases h with
        | above ha' _ _ _ => exact absurd ha' ha
        | notAbove ha' _ _ _ => exact absurd ha' ha
        | other _ h => exact ⟨_, rfl, h⟩

/-- The run always succeeds under these hypotheses (so the equivalence above is not vacuous). -/
theorem C38_total_partial (cfg : Configurations) (r : MetricRule) (t : Int) (cs : List Construct)
    (ht : LimitIs cfg r t) (hp : r = .parameters ∨ r = .longName → 0 ≤ t)
    (hm : ∀ c ∈ cs, Applies r c → ∃ m, Measure r c m) :
    ∃ rs, metricRule cfg r cs = .ok rs := by
  suffices ∃ rs, Reports r t cs rs by
    obtain ⟨rs, h⟩ := this
    exact ⟨rs, (C38_exact_partial cfg r t cs ht hp hm rs).2 h⟩
  clear ht hp
  induction cs with
  | nil => exact ⟨[], .nil⟩
  | cons c cs ih =>
    obtain ⟨rs, ih⟩ := ih (fun c hc => hm c (List.mem_cons_of_mem _ hc))
    by_cases ha : Applies r c
    · obtain ⟨m, hmm⟩ := hm c List.mem_cons_self ha
      by_cases hlt : t < m
      · exact ⟨_, .above ha hmm hlt ih⟩
      · exact ⟨_, .notAbove ha hmm (by omega) ih⟩
    · exact ⟨_, .other ha ih⟩

/-- Raising the limit only removes reports. -/
theorem C38_raise_partial (cfg cfg' : Configurations) (r : MetricRule) (t t' : Int) (cs : List Construct)
    (ht : LimitIs cfg r t) (ht' : LimitIs cfg' r t') (hle : t ≤ t')
    (hp : r = .parameters ∨ r = .longName → 0 ≤ t)
    (hm : ∀ c ∈ cs, Applies r c → ∃ m, Measure r c m) (rs rs' : List (Construct × Str))
    (h : metricRule cfg r cs = .ok rs) (h' : metricRule cfg' r cs = .ok rs') :
    List.Sublist (rs'.map Prod.fst) (rs.map Prod.fst) := by
  rw [C38_exact_partial cfg r t cs ht hp hm] at h
  rw [C38_exact_partial cfg' r t' cs ht' (fun h => by have := hp h; omega) hm] at h'
  clear ht ht' hp hm
  induction h generalizing rs' with
  | nil => cases h'; exact .slnil
  | above ha hmm _ _ ih =>
    cases h' with
    | above _ _ _ h' => exact (ih _ h').cons_cons _
    | notAbove _ _ _ h' => exact (ih _ h').cons _
    | other ha' _ => exact absurd ha ha'
  | notAbove ha hmm hle' _ ih =>
    cases h' with
    | above _ hmm' hlt _ =>
      have := measure_unique hmm hmm'
      omega
    | notAbove _ _ _ h' => exact ih _ h'
    | other ha' _ => exact absurd ha ha'
  | other ha _ ih =>
    cases h' with
    | above ha' _ _ _ => exact absurd ha' ha
    | notAbove ha' _ _ _ => exact absurd ha' ha
    | other _ h' => exact ih _ h'

/-- A negative limit for the number of parameters switches the rule off instead of making it
report everything: it is read as an unsigned number. -/
theorem C38_negative_parameters_witness (cfg : Configurations) (t : Int) (cs : List Construct)
    (ht : LimitIs cfg .parameters t) (hneg : t < 0)
    (hd : ∀ d, .method d ∈ cs → (d.params : Int) ≤ 2147483648) :
    metricRule cfg .parameters cs = .ok [] := by
  have hb := limit_int32 ht
  obtain ⟨cfg', h⟩ := ht
  unfold limitKey limitDefault at h
  simp only at h
  unfold metricRule metricSetUp
  simp only
  rw [h, bind_ok', show (pure (toUInt32 t) : Outcome Int) = .ok (toUInt32 t) from rfl, bind_ok']
  have e1 : toUInt32 t = t + 4294967296 := by unfold toUInt32; omega
  have hv : ∀ c ∈ cs, metricVisit cfg (toUInt32 t) .parameters c = .ok none := by
    intro c hc
    cases c with
    | method d =>
      have := hd d hc
      have e2 : toUInt32 d.params = d.params := by unfold toUInt32; omega
      unfold metricVisit parametersApply
      simp only
      rw [e1, e2, if_neg (by simp; omega)]
      rfl
    | _ => rfl
  clear hd
  induction cs with
  | nil => rfl
  | cons c cs ih =>
    unfold visitAll
    rw [hv c List.mem_cons_self, bind_ok', ih fun c hc => hv c (List.mem_cons_of_mem _ hc), bind_ok']
    rfl

/-- A name as shown in a message, for every limit: if it exceeds the limit by more than ten characters,
its first `limit + 3` characters, or all if that is negative, and its last three. -/
def shownNameAlways (name : Str) (limit : Int) : Str :=
  if (name.length : Int) > limit + 10 ∧ limit + 3 < 0 then
    name ++ "...".toList ++ name.drop (name.length - 3)
  else shownName name limit

/-- The length of names, for every limit: a name is reported exactly if it is longer than the limit,
unless it exceeds it by more than ten and has less than three characters; then there is an exception
instead, which needs a limit below -8. -/
theorem C38_names (cfg : Configurations) (t : Int) (n : Str)
    (ht : LimitIs cfg .longName t) (hn : n.length ≤ 2147483637) :
    metricVisit cfg 0 .longName (.variable n) =
      if t < n.length then
        if t + 10 < n.length ∧ n.length < 3 then
          .throws "basic_string::substr".toList
        else .ok (some ("Length of variable name `".toList ++ shownNameAlways n t
          ++ "` is ".toList ++ decimalInt n.length
          ++ ", which is longer than the threshold of ".toList ++ decimalInt t))
      else .ok none := by
  have hb := limit_int32 ht
  obtain ⟨cfg', h⟩ := ht
  unfold limitKey limitDefault at h
  simp only at h
  by_cases hlt : t < n.length
  · rw [if_pos hlt]
    by_cases h0 : 0 ≤ t
    · rw [if_neg (by omega)]
      have := longName_ok h h0 hn
      rw [if_pos hlt] at this
      show longNameVisit cfg n = _
      rw [this]
      unfold shownNameAlways message
      rw [if_neg (by omega)]
    · show longNameVisit cfg n = _
      have h10 : addInt t 10 = .ok (t + 10) := by unfold addInt checkInt32; rw [if_pos (by omega)]
      have h3 : addInt t 3 = .ok (t + 3) := by unfold addInt checkInt32; rw [if_pos (by omega)]
      have hshown : longNameShown n n.length t = if t + 10 < n.length ∧ n.length < 3
          then .throws "basic_string::substr".toList else .ok (shownNameAlways n t) := by
        unfold longNameShown
        rw [h10, bind_ok']
        by_cases hlong : (n.length : Int) > t + 10
        · rw [if_pos hlong, h3, bind_ok']
          unfold substr
          rw [if_neg (by omega), bind_ok', List.drop_zero]
          by_cases hs : n.length < 3
          · have e2 : ¬ toSizeT ((n.length : Int) - 3) ≤ n.length := by unfold toSizeT; omega
            rw [if_pos (by omega), if_pos ⟨hlong, hs⟩]
            rfl
          · have e2 : toSizeT ((n.length : Int) - 3) = n.length - 3 := by unfold toSizeT; omega
            rw [e2, if_neg (by omega), if_neg (by omega), bind_ok',
              List.take_of_length_le (l := n.drop _) (by rw [List.length_drop]; omega)]
            unfold shownNameAlways
            by_cases hneg : t + 3 < 0
            · rw [if_pos ⟨hlong, hneg⟩, List.take_of_length_le (by unfold toSizeT; omega)]
              rfl
            · have e1 : toSizeT (t + 3) = (t + 3).toNat := by unfold toSizeT; omega
              rw [if_neg (fun h => hneg h.2), e1]
              unfold shownName
              rw [if_pos hlong]
              rfl
        · rw [if_neg hlong, if_neg (fun h => hlong h.1)]
          unfold shownNameAlways shownName
          rw [if_neg (fun h => hlong h.1), if_neg hlong]
          rfl
      unfold longNameVisit
      rw [toInt32_nat (by omega), h, bind_ok']
      simp only
      rw [if_pos hlt, hshown]
      by_cases hthrow : t + 10 < n.length ∧ n.length < 3
      · rw [if_pos hthrow, if_pos hthrow]; rfl
      · rw [if_neg hthrow, if_neg hthrow, bind_ok', toStringInt_eq, toStringInt_eq]
        rfl
  · rw [if_neg hlt]
    show longNameVisit cfg n = _
    unfold longNameVisit
    rw [toInt32_nat (by omega), h, bind_ok']
    simp only
    rw [if_neg hlt]
    rfl

/-- Hence with a negative limit the analysis of a unit can end in an exception (which `main` catches and
ends the program with exit code 3 for) instead of reports. -/
theorem C38_negative_name_witness (cfg : Configurations) (t : Int) (n : Str) (cs : List Construct)
    (ht : LimitIs cfg .longName t) (hneg : t + 10 < n.length) (hn : n.length < 3) :
    ∃ w, metricRule cfg .longName (.variable n :: cs) = .throws w := by
  have h := C38_names cfg t n ht (by omega)
  rw [if_pos (by omega), if_pos ⟨hneg, hn⟩] at h
  unfold metricRule metricSetUp
  simp only
  rw [show (pure 0 : Outcome Int) = .ok 0 from rfl, bind_ok']
  unfold visitAll
  rw [h]
  exact ⟨_, rfl⟩

/-- A limit of -9: a variable `ab` ends the analysis, one called `abc` is reported with all of its name. -/
example (cfg : Configurations) (hc : cfg = some [("LONG_VARIABLE_NAME".toList, "-9".toList)]) :
    (∃ w, metricRule cfg .longName [.variable "abc".toList, .variable "ab".toList] = .throws w) ∧
      metricVisit cfg 0 .longName (.variable "abc".toList) = .ok (some
        "Length of variable name `abc...abc` is 3, which is longer than the threshold of -9".toList) ∧
      LimitIs cfg .longName (-9) := by
  subst hc
  exact ⟨⟨_, rfl⟩, by decide +kernel, ⟨_, rfl⟩⟩

/-- With `LONG_METHOD` configured to 2, a method of three lines is reported and one of two is not. -/
example (d d' : MethodDecl) (hd : d = ⟨[], some (.compound []), 0, 7, 9, false, false⟩)
    (hd' : d' = ⟨[], some (.compound []), 0, 1, 2, false, false⟩) :
    metricRule (some [("LONG_METHOD".toList, "2".toList)]) .longMethod [.method d, .method d'] =
      .ok [(.method d, message .longMethod (.method d) 3 2)] := by
  have m : Measure .longMethod (.method d) ((3 : Nat) : Int) := .longMethod (by decide) (by subst hd; rfl)
  have m' : Measure .longMethod (.method d') ((2 : Nat) : Int) := .longMethod (by decide) (by subst hd'; rfl)
  have a : Applies .longMethod (.method d) := .longMethod _ (by subst hd; simp) (by subst hd; simp)
  have a' : Applies .longMethod (.method d') := .longMethod _ (by subst hd'; simp) (by subst hd'; simp)
  refine (C38_exact_partial _ _ 2 _ ⟨_, rfl⟩ (by simp) ?_ _).2
    (.above a m (by decide) (.notAbove a' m' (by decide) .nil))
  intro c hc _
  simp at hc
  rcases hc with rfl | rfl
  · exact ⟨_, m⟩
  · exact ⟨_, m'⟩

end Oclint
