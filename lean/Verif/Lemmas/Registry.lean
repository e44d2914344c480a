import Verif.Spec.Registry
import Verif.Lemmas.Char
import Mathlib.Data.List.Induction

namespace Oclint
open Spec

/-! ### Registry -/

theorem registry_foldl (rules l : List RuleId) :
    rules.foldl Registry.addRule (some l) = some (l ++ rules) := by
  induction rules generalizing l with
  | nil => simp
  | cons r t ih =>
    rw [List.foldl_cons]
    simp only [Registry.addRule]
    rw [ih]
    simp

theorem registryAfter_eq (rules : List RuleId) :
    registryAfter rules = if rules = [] then none else some rules := by
  cases rules with
  | nil => rfl
  | cons r t =>
    rw [registryAfter, List.foldl_cons]
    simp only [Registry.addRule]
    rw [registry_foldl]
    simp

theorem numberOfRules_registryAfter (rules : List RuleId) :
    (registryAfter rules).numberOfRules = rules.length := by
  rw [registryAfter_eq]
  split <;> simp_all [Registry.numberOfRules]

theorem getRule_nat (rules : List RuleId) (i : Nat) :
    (registryAfter rules).getRuleAtIndex (i : Int) = .ok rules[i]? := by
  unfold Registry.getRuleAtIndex
  rw [numberOfRules_registryAfter]
  by_cases h : rules.length ≤ i
  · rw [if_pos (by omega), List.getElem?_eq_none h]
  · rw [if_neg (by omega)]
    have hne : rules ≠ [] := by rintro rfl; simp at h
    rw [registryAfter_eq, if_neg hne]
    simp only [Int.toNat_natCast]
    rw [if_neg (by omega)]
    have : i < rules.length := by omega
    simp [List.getElem?_eq_getElem this]

/-! ### Association lists -/

theorem assocFind_set (m : List (Str × Str)) (key value key' : Str) :
    assocFind (assocSet m key value) key' = if key = key' then some value else assocFind m key' := by
  induction m with
  | nil => simp [assocSet, assocFind]
  | cons a t ih =>
    obtain ⟨k, v⟩ := a
    unfold assocSet
    by_cases h : k = key
    · subst h
      simp only [if_true, assocFind]
      split <;> rfl
    · simp only [if_neg h, assocFind]
      by_cases h' : k = key'
      · subst h'
        simp [Ne.symm h]
      · simp only [if_neg h']
        exact ih

/-- Abstract content of the configuration. -/
def cfgLookup (c : Configurations) (key : Str) : Option Str := c.bind fun m => assocFind m key

theorem hasKey_eq (c : Configurations) (key : Str) : c.hasKey key = (cfgLookup c key).isSome := by
  cases c <;> rfl

theorem cfgLookup_add (c : Configurations) (k v key : Str) :
    cfgLookup (c.addConfiguration k v) key = if k = key then some v else cfgLookup c key := by
  cases c with
  | none =>
    simp only [Configurations.addConfiguration, cfgLookup, Option.bind_some, Option.bind_none]
    rw [assocFind_set]; rfl
  | some m =>
    simp only [Configurations.addConfiguration, cfgLookup, Option.bind_some]
    rw [assocFind_set]

theorem valueForKey_some (c : Configurations) (key v : Str) (h : cfgLookup c key = some v) :
    c.valueForKey key = .ok (v, c) := by
  cases c with
  | none => simp [cfgLookup] at h
  | some m =>
    simp only [cfgLookup, Option.bind_some] at h
    simp [Configurations.valueForKey, h]

theorem stringForKey_eq (c : Configurations) (key d : Str) :
    c.stringForKey key d = .ok ((cfgLookup c key).getD d, c) := by
  unfold Configurations.stringForKey
  rw [hasKey_eq]
  cases h : cfgLookup c key with
  | none => simp
  | some v => simp [valueForKey_some c key v h]

theorem intForKey_eq (c : Configurations) (key : Str) (d : Int) :
    c.intForKey key d =
      match cfgLookup c key with
      | none => .ok (d, c)
      | some v => (atoi v).bind fun n => .ok (n, c) := by
  unfold Configurations.intForKey
  rw [hasKey_eq]
  cases h : cfgLookup c key with
  | none => simp
  | some v => simp only [Option.isSome_some, if_true, valueForKey_some c key v h]; rfl

/-! ### atoi -/

theorem digitChar_isDigit {n : Nat} (h : n < 10) : (digitChar n).isDigit = true := by
  have : ∀ n : Fin 10, (digitChar n).isDigit = true := by decide
  exact this ⟨n, h⟩

theorem digitVal_digitChar {n : Nat} (h : n < 10) : digitVal (digitChar n) = n := by
  have : ∀ n : Fin 10, digitVal (digitChar n) = n := by decide
  exact this ⟨n, h⟩

theorem decimal_all_digits (n : Nat) : ∀ c ∈ decimal n, c.isDigit = true := by
  induction n using Nat.strongRecOn with
  | _ n ih =>
    unfold decimal
    split
    · next h => intro c hc; simp only [List.mem_singleton] at hc; subst hc; exact digitChar_isDigit h
    · next h =>
      intro c hc
      rw [List.mem_append] at hc
      rcases hc with hc | hc
      · exact ih (n / 10) (by omega) c hc
      · simp only [List.mem_singleton] at hc; subst hc; exact digitChar_isDigit (by omega)

theorem decimal_ne_nil (n : Nat) : decimal n ≠ [] := by
  unfold decimal; split <;> simp

theorem atoiDigits_append (a : Nat) (ds rest : Str) (h : ∀ c ∈ ds, c.isDigit = true) :
    atoiDigits a (ds ++ rest) = atoiDigits (atoiDigits a ds) rest := by
  induction ds generalizing a with
  | nil => simp [atoiDigits]
  | cons d t ih =>
    have hd := h d (by simp)
    simp only [List.cons_append, atoiDigits, hd, if_true]
    exact ih _ (fun c hc => h c (by simp [hc]))

theorem atoiDigits_decimal (n : Nat) : atoiDigits 0 (decimal n) = n := by
  induction n using Nat.strongRecOn with
  | _ n ih =>
    unfold decimal
    split
    · next h => simp [atoiDigits, digitChar_isDigit h, digitVal_digitChar h]
    · next h =>
      rw [atoiDigits_append _ _ _ (decimal_all_digits _), ih (n / 10) (by omega)]
      have hm : n % 10 < 10 := by omega
      simp only [atoiDigits, digitChar_isDigit hm, if_true, digitVal_digitChar hm]
      omega

theorem atoiDigits_stop (a : Nat) (rest : Str) (h : ∀ c, rest.head? = some c → c.isDigit = false) :
    atoiDigits a rest = a := by
  cases rest with
  | nil => rfl
  | cons c t => simp [atoiDigits, h c rfl]

theorem skipBlanks_append (ws s : Str) (h : ∀ c ∈ ws, isCSpace c = true) :
    skipBlanks (ws ++ s) = skipBlanks s := by
  induction ws with
  | nil => rfl
  | cons c t ih =>
    simp only [List.cons_append, skipBlanks, h c (by simp), if_true]
    exact ih (fun c hc => h c (by simp [hc]))

theorem isCSpace_of_digit {c : Char} (h : c.isDigit = true) : isCSpace c = false := by
  have h1 : 48 ≤ c.val.toNat := by
    simp only [Char.isDigit, Bool.and_eq_true, decide_eq_true_eq] at h
    exact UInt32.le_iff_toNat_le.1 h.1
  simp only [isCSpace, Bool.or_eq_false_iff, decide_eq_false_iff_not]
  refine ⟨⟨⟨⟨⟨?_, ?_⟩, ?_⟩, ?_⟩, ?_⟩, ?_⟩ <;> (rintro rfl; exact absurd h1 (by decide))

theorem skipBlanks_of_not (c : Char) (s : Str) (h : isCSpace c = false) :
    skipBlanks (c :: s) = c :: s := by simp [skipBlanks, h]

theorem isCSpace_iff (c : Char) :
    isCSpace c = true ↔ c ∈ [' ', '\t', '\n', '\x0b', '\x0c', '\r'] := by
  simp [isCSpace, or_assoc]

theorem isDigit_iff (c : Char) : c.isDigit = true ↔ '0' ≤ c ∧ c ≤ '9' := by
  simp only [Char.isDigit, Bool.and_eq_true, decide_eq_true_eq]
  rfl

theorem atoiDigits_placeValue (a : Nat) (ds : Str) (h : ∀ c ∈ ds, c.isDigit = true) :
    atoiDigits a ds = a * 10 ^ ds.length + placeValue ds := by
  induction ds generalizing a with
  | nil => simp [atoiDigits, placeValue]
  | cons c cs ih =>
    rw [atoiDigits, if_pos (h c (by simp)), ih _ fun c' hc' => h c' (by simp [hc']), placeValue]
    have : digitVal c = c.toNat - 48 := rfl
    rw [this, List.length_cons, Nat.pow_succ, Nat.add_mul, Nat.mul_assoc a, Nat.mul_comm 10,
      Nat.add_assoc]

/-- The number `atoi` computes before looking at its size. -/
def atoiRaw (s : Str) : Int :=
  match skipBlanks s with
  | '-' :: ds => -(atoiDigits 0 ds : Int)
  | '+' :: ds => (atoiDigits 0 ds : Int)
  | ds => (atoiDigits 0 ds : Int)

theorem atoi_eq_raw (s : Str) : atoi s = if IsInt32 (atoiRaw s) then .ok (atoiRaw s) else .ub := by
  have key : ∀ l : Str,
      (match l with
        | '-' :: ds => checkInt32 (-(atoiDigits 0 ds : Int))
        | '+' :: ds => checkInt32 (atoiDigits 0 ds : Int)
        | ds => checkInt32 (atoiDigits 0 ds : Int)) =
      checkInt32 (match l with
        | '-' :: ds => -(atoiDigits 0 ds : Int)
        | '+' :: ds => (atoiDigits 0 ds : Int)
        | ds => (atoiDigits 0 ds : Int)) := by
    intro l
    split <;> rfl
  exact key (skipBlanks s)

theorem skipBlanks_split (s : Str) : ∃ ws, s = ws ++ skipBlanks s ∧ (∀ c ∈ ws, isCSpace c = true) ∧
    ∀ c, (skipBlanks s).head? = some c → isCSpace c = false := by
  induction s with
  | nil => exact ⟨[], rfl, by simp, by simp [skipBlanks]⟩
  | cons c cs ih =>
    cases h : isCSpace c with
    | false => exact ⟨[], by simp [skipBlanks, h], by simp, by simp [skipBlanks, h]⟩
    | true =>
      obtain ⟨ws, h1, h2, h3⟩ := ih
      refine ⟨c :: ws, ?_, ?_, ?_⟩
      · simp only [skipBlanks, h, if_true, List.cons_append]; rw [← h1]
      · intro x hx
        rcases List.mem_cons.1 hx with rfl | hx
        · exact h
        · exact h2 x hx
      · simpa only [skipBlanks, h, if_true] using h3

theorem digits_split (s : Str) : ∃ ds rest, s = ds ++ rest ∧ (∀ c ∈ ds, c.isDigit = true) ∧
    ∀ c, rest.head? = some c → c.isDigit = false := by
  induction s with
  | nil => exact ⟨[], [], rfl, by simp, by simp⟩
  | cons c cs ih =>
    cases h : c.isDigit with
    | false => exact ⟨[], c :: cs, rfl, by simp, by simpa using h⟩
    | true =>
      obtain ⟨ds, rest, h1, h2, h3⟩ := ih
      refine ⟨c :: ds, rest, by rw [h1]; rfl, ?_, h3⟩
      intro x hx
      rcases List.mem_cons.1 hx with rfl | hx
      · exact h
      · exact h2 x hx

theorem atoiDigits_digits (ds rest : Str) (h : ∀ c ∈ ds, c.isDigit = true)
    (hr : ∀ c, rest.head? = some c → c.isDigit = false) :
    atoiDigits 0 (ds ++ rest) = placeValue ds := by
  rw [atoiDigits_append _ _ _ h, atoiDigits_stop _ _ hr, atoiDigits_placeValue _ _ h]
  simp

theorem begins_raw (s : Str) (z : Int) (h : BeginsWithNumber s z) : z = atoiRaw s := by
  obtain ⟨ws, sign, ds, rest, rfl, hws, hds, hrest, hs⟩ := h
  have hws' : ∀ c ∈ ws, isCSpace c = true := fun c hc => (isCSpace_iff c).2 (hws c hc)
  have hds' : ∀ c ∈ ds, c.isDigit = true := fun c hc => (isDigit_iff c).2 (hds c hc)
  have hrest' : ∀ c, rest.head? = some c → c.isDigit = false := fun c hc =>
    Bool.eq_false_iff.2 fun h => hrest c hc ((isDigit_iff c).1 h)
  have hv := atoiDigits_digits ds rest hds' hrest'
  unfold atoiRaw
  rw [List.append_assoc, List.append_assoc, skipBlanks_append _ _ hws']
  rcases hs with ⟨rfl, he, rfl⟩ | ⟨rfl, rfl⟩ | ⟨rfl, rfl⟩
  · rw [List.nil_append]
    have hstart : ∀ c, (ds ++ rest).head? = some c → isCSpace c = false ∧ c ≠ '-' ∧ c ≠ '+' := by
      intro c hc
      cases hd : ds with
      | nil =>
        rw [hd, List.nil_append] at hc
        have := he hd c hc
        refine ⟨Bool.eq_false_iff.2 fun h => this ?_, ?_, ?_⟩
        · have := (isCSpace_iff c).1 h
          simp only [List.mem_cons, List.not_mem_nil, or_false] at this ⊢
          tauto
        · rintro rfl; exact this (by simp)
        · rintro rfl; exact this (by simp)
      | cons d t =>
        rw [hd, List.cons_append, List.head?_cons, Option.some.injEq] at hc
        subst hc
        have hdd := hds' d (by rw [hd]; simp)
        refine ⟨isCSpace_of_digit hdd, ?_, ?_⟩ <;> (rintro rfl; exact absurd hdd (by decide))
    generalize ds ++ rest = l at hv hstart
    cases l with
    | nil => rw [← hv]; rfl
    | cons c t =>
      obtain ⟨h1, h2, h3⟩ := hstart c rfl
      rw [skipBlanks_of_not _ _ h1]
      split
      · next h => cases h; exact absurd rfl h2
      · next h => cases h; exact absurd rfl h3
      · rw [hv]
  · rw [List.singleton_append, skipBlanks_of_not _ _ (by decide)]
    simp only [hv]
  · rw [List.singleton_append, skipBlanks_of_not _ _ (by decide)]
    simp only [hv]

theorem begins_exists (s : Str) : ∃ z, BeginsWithNumber s z := by
  obtain ⟨ws, h1, h2, h3⟩ := skipBlanks_split s
  have hws : ∀ c ∈ ws, c ∈ [' ', '\t', '\n', '\x0b', '\x0c', '\r'] := fun c hc =>
    (isCSpace_iff c).1 (h2 c hc)
  have hdig : ∀ t : Str, ∃ ds rest, t = ds ++ rest ∧ (∀ c ∈ ds, '0' ≤ c ∧ c ≤ '9') ∧
      ∀ c, rest.head? = some c → ¬ ('0' ≤ c ∧ c ≤ '9') := by
    intro t
    obtain ⟨ds, rest, a, b, c⟩ := digits_split t
    exact ⟨ds, rest, a, fun x hx => (isDigit_iff x).1 (b x hx), fun x hx hd => by
      have := c x hx
      rw [(isDigit_iff x).2 hd] at this
      cases this⟩
  generalize skipBlanks s = l at h1 h3
  subst h1
  by_cases hp : ∃ t, l = '+' :: t
  · obtain ⟨t, rfl⟩ := hp
    obtain ⟨ds, rest, rfl, hd, hr⟩ := hdig t
    exact ⟨placeValue ds, ws, ['+'], ds, rest, by simp, hws, hd, hr, .inr (.inl ⟨rfl, rfl⟩)⟩
  by_cases hm : ∃ t, l = '-' :: t
  · obtain ⟨t, rfl⟩ := hm
    obtain ⟨ds, rest, rfl, hd, hr⟩ := hdig t
    exact ⟨-placeValue ds, ws, ['-'], ds, rest, by simp, hws, hd, hr, .inr (.inr ⟨rfl, rfl⟩)⟩
  obtain ⟨ds, rest, rfl, hd, hr⟩ := hdig l
  refine ⟨placeValue ds, ws, [], ds, rest, by simp, hws, hd, hr, .inl ⟨rfl, ?_, rfl⟩⟩
  rintro rfl c hc hmem
  rw [List.nil_append] at hp hm h3
  cases rest with
  | nil => cases hc
  | cons x t =>
    rw [List.head?_cons, Option.some.injEq] at hc
    subst hc
    have hns := h3 x rfl
    have hx : x ∈ [' ', '\t', '\n', '\x0b', '\x0c', '\r'] ∨ x = '+' ∨ x = '-' := by
      simp only [List.mem_cons, List.not_mem_nil, or_false] at hmem ⊢
      tauto
    rcases hx with hx | rfl | rfl
    · rw [(isCSpace_iff x).2 hx] at hns; cases hns
    · exact hp ⟨t, rfl⟩
    · exact hm ⟨t, rfl⟩

theorem atoi_total (s : Str) : ∃ z, BeginsWithNumber s z ∧ (∀ z', BeginsWithNumber s z' → z' = z) ∧
    atoi s = if IsInt32 z then .ok z else .ub := by
  obtain ⟨z, hz⟩ := begins_exists s
  have h := begins_raw s z hz
  refine ⟨z, hz, fun z' hz' => (begins_raw s z' hz').trans h.symm, ?_⟩
  rw [atoi_eq_raw, h]

theorem assocSet_ne_nil (m : List (Str × Str)) (k v : Str) : assocSet m k v ≠ [] := by
  cases m with
  | nil => simp [assocSet]
  | cons kv t => simp only [assocSet]; split <;> simp

/-- There is never an empty map. -/
theorem never_empty (ops : List CfgOp) : ops.foldlM applyCfg none ≠ .ok (some []) := by
  suffices h : ∀ c c' : Configurations, c ≠ some [] → ops.foldlM applyCfg c = .ok c' → c' ≠ some [] from
    fun he => h none (some []) (by simp) he rfl
  induction ops with
  | nil => intro c c' hc h; cases h; exact hc
  | cons o ops ih =>
    intro c c' hc h
    rw [List.foldlM_cons] at h
    cases ho : applyCfg c o with
    | throws w => rw [ho] at h; simp at h
    | ub => rw [ho] at h; simp at h
    | ok d =>
      rw [ho, Outcome.bind_ok] at h
      refine ih d c' ?_ h
      cases o with
      | set k v =>
        cases ho
        cases c <;> simp [Configurations.addConfiguration, assocSet_ne_nil]
      | clear => cases ho; simp [Configurations.removeAll]
      | getString k e =>
        simp only [applyCfg, stringForKey_eq, Outcome.bind_ok, Outcome.pure_eq] at ho
        cases ho; exact hc
      | getRaw k =>
        cases c with
        | none => simp [applyCfg, Configurations.valueForKey] at ho
        | some m =>
          simp only [applyCfg, Configurations.valueForKey] at ho
          cases hf : assocFind m k with
          | some v => simp only [hf, Outcome.bind_ok, Outcome.pure_eq] at ho; cases ho; exact hc
          | none =>
            simp only [hf, Outcome.bind_ok, Outcome.pure_eq] at ho
            cases ho
            simp [assocSet_ne_nil]
      | getInt k e =>
        simp only [applyCfg, intForKey_eq] at ho
        cases hl : cfgLookup c k with
        | none => rw [hl] at ho; cases ho; exact hc
        | some v =>
          rw [hl] at ho
          cases ha : atoi v with
          | throws w => simp [ha, Outcome.bind] at ho
          | ub => simp [ha, Outcome.bind] at ho
          | ok n => simp only [ha, Outcome.bind, Outcome.bind_ok, Outcome.pure_eq] at ho; cases ho; exact hc

/-! ### Identifiers -/

/-- The processed tail, once non-letters are removed. -/
theorem identifierLoop_filter (s : Str) : ∀ prev : Char,
    (identifierLoop prev s).filter Char.isAlpha =
      (match s.splitOnP fun c => !c.isAlpha with
        | [] => []
        | w :: ws => (if prev.isAlpha then w else capitalize w) ++ (ws.map capitalize).flatten) := by
  induction s with
  | nil => intro prev; simp [identifierLoop, capitalize]
  | cons c t ih =>
    intro prev
    obtain ⟨w, ws, hw⟩ : ∃ w ws, (t.splitOnP fun c => !c.isAlpha) = w :: ws := by
      cases h : t.splitOnP fun c => !c.isAlpha with
      | nil => exact absurd h (List.splitOnP_ne_nil _ _)
      | cons w ws => exact ⟨w, ws, rfl⟩
    rw [List.splitOnP_cons_eq_if_modifyHead]
    simp only [identifierLoop]
    by_cases hc : c.isAlpha = true
    · have hc' : ((if !prev.isAlpha && c.isLower then c.toUpper else c).isAlpha) = true := by
        split
        · rw [toUpper_isAlpha]; exact hc
        · exact hc
      rw [List.filter_cons_of_pos hc', ih, hw]
      simp only [hc', if_true, hc, Bool.not_true, Bool.false_eq_true, if_false, List.modifyHead]
      cases hp : prev.isAlpha with
      | true => simp
      | false =>
        cases hl : c.isLower with
        | true => simp [capitalize]
        | false => simp [capitalize, toUpper_of_not_lower c hl]
    · have hc0 : c.isAlpha = false := by simpa using hc
      have hl : c.isLower = false := by
        cases h : c.isLower with
        | false => rfl
        | true => rw [isAlpha_of_isLower c h] at hc0; cases hc0
      simp only [hl, Bool.and_false, Bool.false_eq_true, if_false]
      rw [List.filter_cons_of_neg (by simp [hc0]), ih, hw]
      simp [hc0, capitalize]

theorem identifier_eq_camelCase (name : Str) : identifier name = camelCase name := by
  unfold identifier camelCase
  cases name with
  | nil => simp [capitalize]
  | cons c t =>
    obtain ⟨w, ws, hw⟩ : ∃ w ws, (t.splitOnP fun c => !c.isAlpha) = w :: ws := by
      cases h : t.splitOnP fun c => !c.isAlpha with
      | nil => exact absurd h (List.splitOnP_ne_nil _ _)
      | cons w ws => exact ⟨w, ws, rfl⟩
    simp only
    rw [List.splitOnP_cons_eq_if_modifyHead]
    by_cases hc : c.isAlpha = true
    · rw [List.filter_cons_of_pos (by rw [toUpper_isAlpha]; exact hc), identifierLoop_filter, hw]
      simp [toUpper_isAlpha, hc, capitalize]
    · have hc0 : c.isAlpha = false := by simpa using hc
      rw [List.filter_cons_of_neg (by rw [toUpper_isAlpha]; simp [hc0]), identifierLoop_filter, hw]
      simp [toUpper_isAlpha, hc0, capitalize]

/-! ### Filter -/

theorem mem_setInsert (s : List Str) (x y : Str) : y ∈ setInsert s x ↔ y = x ∨ y ∈ s := by
  unfold setInsert
  split
  · next h =>
    constructor
    · exact Or.inr
    · rintro (rfl | h') <;> assumption
  · simp [or_comm]

theorem mem_setErase (s : List Str) (x y : Str) : y ∈ setErase s x ↔ y ∈ s ∧ y ≠ x := by
  simp [setErase]

theorem lastRequest_snoc (reqs : List Request) (r : Request) (n : Str) :
    lastRequest (reqs ++ [r]) n = if r.name = n then some r.enable else lastRequest reqs n := by
  unfold lastRequest
  rw [List.reverse_append]
  simp only [List.reverse_cons, List.reverse_nil, List.nil_append, List.singleton_append,
    List.find?_cons]
  by_cases h : r.name = n <;> simp [h]

theorem filterAfter_mem (reqs : List Request) (n : Str) :
    (n ∈ (filterAfter reqs).enabled ↔ lastRequest reqs n = some true) ∧
      (n ∈ (filterAfter reqs).disabled ↔ lastRequest reqs n = some false) := by
  induction reqs using List.reverseRecOn with
  | nil => simp [filterAfter, RulesetFilter.empty, lastRequest]
  | append_singleton reqs r ih =>
    have e : filterAfter (reqs ++ [r]) = applyRequest (filterAfter reqs) r := by simp [filterAfter]
    rw [e, lastRequest_snoc]
    obtain ⟨en, nm⟩ := r
    cases en with
    | true =>
      simp only [applyRequest, if_true, RulesetFilter.enableRule, mem_setInsert, mem_setErase]
      by_cases h : nm = n
      · subst h; simp
      · have : ¬ n = nm := fun e => h e.symm
        simp [h, this, ih]
    | false =>
      simp only [applyRequest, Bool.false_eq_true, if_false, RulesetFilter.disableRule,
        mem_setInsert, mem_setErase]
      by_cases h : nm = n
      · subst h; simp
      · have : ¬ n = nm := fun e => h e.symm
        simp [h, this, ih]

theorem accepts_iff (reqs : List Request) (n : Str) :
    (filterAfter reqs).accepts n = true ↔ Selected reqs n := by
  have hn := filterAfter_mem reqs n
  unfold RulesetFilter.accepts Selected
  simp only [Bool.and_eq_true, Bool.or_eq_true, List.isEmpty_iff, decide_eq_true_eq]
  rw [hn.1, hn.2]
  constructor
  · rintro ⟨h1, h2⟩
    refine ⟨h2, ?_⟩
    rintro ⟨m, hm⟩
    rcases h1 with h1 | h1
    · have := (filterAfter_mem reqs m).1.2 hm
      rw [h1] at this
      simp at this
    · exact h1
  · rintro ⟨h1, h2⟩
    refine ⟨?_, h1⟩
    by_cases he : (filterAfter reqs).enabled = []
    · exact Or.inl he
    · right
      obtain ⟨m, hm⟩ := List.exists_mem_of_ne_nil _ he
      exact h2 ⟨m, (filterAfter_mem reqs m).1.1 hm⟩

theorem range_foldlM_filter (g : RuleId → Bool) (rules : List RuleId) :
    ∀ (n : Nat) (_ : n ≤ rules.length),
    (List.range n).foldlM (m := Outcome)
      (fun acc (idx : Nat) => do
        match ← (registryAfter rules).getRuleAtIndex idx with
        | none => .ub
        | some r => if g r then pure (acc ++ [r]) else pure acc) ([] : List RuleId) =
      .ok ((rules.take n).filter g) := by
  intro n
  induction n with
  | zero => intro _; simp
  | succ n ih =>
    intro hn
    have hlt : n < rules.length := by omega
    have hm : ∀ (f : List RuleId → Nat → Outcome (List RuleId)) (l : List Nat) (a : Nat)
        (init r : List RuleId), l.foldlM f init = .ok r → (l ++ [a]).foldlM f init = f r a := by
      intro f l a init r h
      rw [List.foldlM_append, h]
      simp only [Outcome.bind_ok, List.foldlM_cons, List.foldlM_nil]
      cases f r a <;> rfl
    rw [List.range_succ, hm _ _ _ _ _ (ih (by omega)), getRule_nat,
      List.getElem?_eq_getElem hlt]
    simp only [Outcome.bind_ok, Outcome.pure_eq]
    rw [List.take_succ_eq_append_getElem hlt, List.filter_append]
    by_cases h : g rules[n] = true
    · simp [h]
    · simp [h]

theorem filteredRules_eq (f : RulesetFilter) (rules : List RuleId) (identifierOf : RuleId → Str) :
    f.filteredRules (registryAfter rules) identifierOf =
      .ok (rules.filter fun r => f.accepts (identifierOf r)) := by
  unfold RulesetFilter.filteredRules
  rw [numberOfRules_registryAfter]
  have := range_foldlM_filter (fun r => f.accepts (identifierOf r)) rules rules.length
    (Nat.le_refl _)
  rw [List.take_length] at this
  exact this

end Oclint
