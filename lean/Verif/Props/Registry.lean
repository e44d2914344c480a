import Verif.Lemmas.Registry

/-!
# Properties C06-C09, C11, C12: registry, configuration, identifiers, rule selection
-/

namespace Oclint
open Spec

/-! ## C06 -/

/-- **C06.** An index inside the registry yields the rule registered at that position, an index past
the end yields the null rule. -/
theorem C06_nonnegative_index (rules : List RuleId) (i : Nat) :
    (registryAfter rules).getRuleAtIndex (i : Int) = .ok rules[i]? ∧
      (registryAfter rules).numberOfRules = rules.length :=
  ⟨getRule_nat rules i, numberOfRules_registryAfter rules⟩

/-- **C06.** A negative index never yields a rule: it throws, or is undefined behaviour exactly when
nothing was registered. -/
theorem C06_negative_index (rules : List RuleId) (i : Int) (hi : i < 0) :
    (rules = [] → (registryAfter rules).getRuleAtIndex i = .ub) ∧
      (rules ≠ [] → ∃ w, (registryAfter rules).getRuleAtIndex i = .throws w) := by
  unfold Registry.getRuleAtIndex
  rw [numberOfRules_registryAfter, if_neg (by omega), registryAfter_eq]
  constructor
  · intro h; rw [if_pos h]
  · intro h; rw [if_neg h]; simp only [if_pos hi]; exact ⟨_, rfl⟩

example : (registryAfter [7, 8, 9]).getRuleAtIndex 1 = .ok (some 8) ∧
    (registryAfter [7, 8, 9]).getRuleAtIndex 3 = .ok none ∧
    (registryAfter []).getRuleAtIndex (-1) = .ub := by decide

/-! ## C07 -/

/-- **C07.** After any history of settings, clearings and reads, a key is configured exactly when the specification says so, and then the getters return the last value set; otherwise
they return the default. -/
theorem C07_configuration_is_a_map (ops : List CfgOp) (c : Configurations)
    (hrun : ops.foldlM applyCfg none = .ok c) :
    (∀ key, c.hasKey key = (configured key ops).isSome) ∧
      (∀ key d, c.stringForKey key d = .ok ((configured key ops).getD d, c)) ∧
      (∀ key d, c.intForKey key d =
        match configured key ops with
        | none => .ok (d, c)
        | some v => (atoi v).bind fun n => .ok (n, c)) ∧
      (∀ {α : Type} (atof : Str → α) (key : Str) (d : α), c.doubleForKey atof key d =
        .ok (((configured key ops).map atof).getD d, c)) := by
  suffices h : ∀ key, cfgLookup c key = configured key ops by
    refine ⟨?_, ?_, ?_, ?_⟩
    · intro key; rw [hasKey_eq, h]
    · intro key d; rw [stringForKey_eq, h]
    · intro key d; rw [intForKey_eq, h]; cases configured key ops <;> rfl
    · intro α atof key d
      unfold Configurations.doubleForKey
      rw [hasKey_eq]
      cases h' : cfgLookup c key with
      | none => simp [← h, h']
      | some v =>
        simp only [Option.isSome_some, if_true, valueForKey_some c key v h']
        simp [← h, h']
  induction ops using List.reverseRecOn generalizing c with
  | nil => intro key; cases hrun; rfl
  | append_singleton ops o ih =>
    rw [List.foldlM_append] at hrun
    cases hp : ops.foldlM applyCfg none with
    | throws w => rw [hp] at hrun; simp at hrun
    | ub => rw [hp] at hrun; simp at hrun
    | ok c0 =>
      have ih0 := ih c0 hp
      rw [hp] at hrun
      simp only [Outcome.bind_ok, List.foldlM_cons, List.foldlM_nil] at hrun
      intro key
      simp only [configured, List.reverse_append, List.reverse_cons, List.reverse_nil,
        List.nil_append, List.singleton_append]
      cases o with
      | set k v =>
        cases hrun
        rw [cfgLookup_add, ih0]
        rfl
      | clear => cases hrun; rfl
      | getRaw k =>
        have hk := ih0 k
        have hkey := ih0 key
        unfold configured at hk hkey
        simp only [applyCfg] at hrun
        cases c0 with
        | none => simp [Configurations.valueForKey] at hrun
        | some m =>
          cases hf : assocFind m k with
          | some v =>
            simp only [Configurations.valueForKey, hf, Outcome.bind_ok, Outcome.pure_eq] at hrun
            cases hrun
            simp only [configuredRev]
            split
            · next e =>
              subst e
              rw [← hk]
              simp [cfgLookup, hf]
            · exact hkey
          | none =>
            simp only [Configurations.valueForKey, hf, Outcome.bind_ok, Outcome.pure_eq] at hrun
            cases hrun
            simp only [configuredRev]
            split
            · next e =>
              subst e
              rw [← hk]
              simp [cfgLookup, hf, assocFind_set]
            · next e =>
              rw [← hkey]
              simp [cfgLookup, assocFind_set, e]
      | getString k d =>
        simp only [applyCfg, stringForKey_eq] at hrun
        cases hrun
        exact ih0 key
      | getInt k d =>
        simp only [applyCfg, intForKey_eq] at hrun
        cases hl : cfgLookup c0 k with
        | none => rw [hl] at hrun; cases hrun; exact ih0 key
        | some v =>
          rw [hl] at hrun
          cases ha : atoi v with
          | throws w => simp [ha, Outcome.bind] at hrun
          | ub => simp [ha, Outcome.bind] at hrun
          | ok n =>
            simp only [ha, Outcome.bind, Outcome.bind_ok, Outcome.pure_eq] at hrun
            cases hrun; exact ih0 key

/-- **C07.** Settings, clearings and string reads always succeed. -/
theorem C07_writes_succeed (ops : List CfgOp)
    (hw : ∀ o ∈ ops, (∀ k d, o ≠ CfgOp.getInt k d) ∧ ∀ k, o ≠ CfgOp.getRaw k) (c : Configurations) :
    ∃ c', ops.foldlM applyCfg c = .ok c' := by
  induction ops generalizing c with
  | nil => exact ⟨c, rfl⟩
  | cons o t ih =>
    have ht := fun o' ho' => hw o' (List.mem_cons_of_mem _ ho')
    rw [List.foldlM_cons]
    cases o with
    | set k v => exact ih ht _
    | clear => exact ih ht _
    | getString k d =>
      simp only [applyCfg, stringForKey_eq, Outcome.bind_ok, Outcome.pure_eq]
      exact ih ht c
    | getInt k d => exact absurd rfl ((hw _ (by simp)).1 k d)
    | getRaw k => exact absurd rfl ((hw _ (by simp)).2 k)

/-- **C07.** After any history, a read of a number is undefined behaviour exactly if the configured text
begins with a number that does not fit into an `int`, a raw read exactly if nothing at all is
configured; no operation fails otherwise. -/
theorem C07_undefined (ops : List CfgOp) (c : Configurations)
    (hrun : ops.foldlM applyCfg none = .ok c) (o : CfgOp) :
    (applyCfg c o = .ub ∧
        ((∃ k, o = .getRaw k ∧ ∀ key, configured key ops = none) ∨
          ∃ k d v z, o = .getInt k d ∧ configured k ops = some v ∧ BeginsWithNumber v z ∧
            ¬ IsInt32 z)) ∨
      ∃ c', applyCfg c o = .ok c' ∧ ¬ ((∃ k, o = .getRaw k ∧ ∀ key, configured key ops = none) ∨
          ∃ k d v z, o = .getInt k d ∧ configured k ops = some v ∧ BeginsWithNumber v z ∧
            ¬ IsInt32 z) := by
  obtain ⟨hk, hs, hi, -⟩ := C07_configuration_is_a_map ops c hrun
  cases o with
  | set k v => exact .inr ⟨_, rfl, by simp⟩
  | clear => exact .inr ⟨_, rfl, by simp⟩
  | getString k d =>
    refine .inr ⟨c, ?_, by simp⟩
    simp only [applyCfg, hs, Outcome.bind_ok, Outcome.pure_eq]
  | getRaw k =>
    cases c with
    | none =>
      refine .inl ⟨rfl, .inl ⟨k, rfl, fun key => ?_⟩⟩
      have h := hk key
      rw [hasKey_eq] at h
      simpa [cfgLookup] using h.symm
    | some m =>
      have hne : ∃ key, configured key ops ≠ none := by
        cases m with
        | nil => exact absurd hrun (never_empty ops)
        | cons kv rest =>
          refine ⟨kv.1, fun hc => ?_⟩
          have h := hk kv.1
          rw [hc, hasKey_eq] at h
          simp [cfgLookup, assocFind] at h
      refine .inr ?_
      cases hf : assocFind m k with
      | some v =>
        refine ⟨some m, by simp [applyCfg, Configurations.valueForKey, hf], ?_⟩
        rintro (⟨_, -, h⟩ | ⟨_, _, _, _, h, -⟩)
        · obtain ⟨key, hkey⟩ := hne; exact hkey (h key)
        · exact absurd h (by simp)
      | none =>
        refine ⟨_, by simp only [applyCfg, Configurations.valueForKey, hf, Outcome.bind_ok,
          Outcome.pure_eq]; rfl, ?_⟩
        rintro (⟨_, -, h⟩ | ⟨_, _, _, _, h, -⟩)
        · obtain ⟨key, hkey⟩ := hne; exact hkey (h key)
        · exact absurd h (by simp)
  | getInt k d =>
    simp only [applyCfg, hi]
    cases hc : configured k ops with
    | none =>
      refine .inr ⟨c, rfl, ?_⟩
      rintro (⟨_, h, -⟩ | ⟨_, _, _, _, h, hv, -⟩)
      · exact absurd h (by simp)
      · cases h; rw [hc] at hv; cases hv
    | some v =>
      obtain ⟨z, hz, hu, ha⟩ := atoi_total v
      simp only [ha]
      by_cases hb : IsInt32 z
      · rw [if_pos hb]
        refine .inr ⟨c, rfl, ?_⟩
        rintro (⟨_, h, -⟩ | ⟨_, _, _, z', h, hv, hz', hn⟩)
        · exact absurd h (by simp)
        · cases h
          rw [hc] at hv
          cases hv
          exact hn (hu z' hz' ▸ hb)
      · rw [if_neg hb]
        exact .inl ⟨rfl, .inr ⟨k, d, v, z, rfl, hc, hz, hb⟩⟩

/-- **C07.** Getters with defaults leave the configuration as it is, in every state. -/
theorem C07_getters_are_pure (c : Configurations) (key d : Str) (n : Int) :
    (∃ v, c.stringForKey key d = .ok (v, c)) ∧
      (∀ v c', c.intForKey key n = .ok (v, c') → c' = c) := by
  refine ⟨⟨_, stringForKey_eq c key d⟩, ?_⟩
  intro v c' h
  rw [intForKey_eq] at h
  split at h
  · cases h; rfl
  · next w hw =>
    cases ha : atoi w with
    | ok a => rw [ha] at h; simp only [Outcome.bind] at h; cases h; rfl
    | throws w => rw [ha] at h; simp [Outcome.bind] at h
    | ub => rw [ha] at h; simp [Outcome.bind] at h

/-- **C07.** Reading a raw value: returns the configured value unchanged, but turns an unconfigured
key into one configured with the empty string and changes nothing else, and is undefined behaviour
when nothing was ever configured. -/
theorem C07_raw_read (c : Configurations) (key : Str) :
    (c = none → c.valueForKey key = .ub) ∧
      (∀ v, c.hasKey key = true → c.stringForKey key [] = .ok (v, c) →
        c.valueForKey key = .ok (v, c)) ∧
      (c ≠ none → c.hasKey key = false →
        ∃ c', c.valueForKey key = .ok ([], c') ∧ c'.hasKey key = true ∧
          (∀ d, c'.stringForKey key d = .ok ([], c')) ∧
          ∀ k, k ≠ key → c'.hasKey k = c.hasKey k ∧
            ∀ d v, c'.stringForKey k d = .ok (v, c') ↔ c.stringForKey k d = .ok (v, c)) := by
  refine ⟨?_, ?_, ?_⟩
  · rintro rfl; rfl
  · intro v hk hs
    simpa [Configurations.stringForKey, hk] using hs
  · intro hne hk
    cases c with
    | none => exact absurd rfl hne
    | some m =>
      rw [hasKey_eq] at hk
      simp only [cfgLookup, Option.bind_some, Option.isSome_eq_false_iff, Option.isNone_iff_eq_none]
        at hk
      refine ⟨some (assocSet m key []), by simp [Configurations.valueForKey, hk], ?_, ?_, ?_⟩
      · simp [Configurations.hasKey, assocFind_set]
      · intro d
        rw [stringForKey_eq]
        simp [cfgLookup, assocFind_set]
      · intro k hkne
        refine ⟨by simp [Configurations.hasKey, assocFind_set, Ne.symm hkne], fun d v => ?_⟩
        rw [stringForKey_eq, stringForKey_eq]
        simp [cfgLookup, assocFind_set, Ne.symm hkne]

/-- Set, overwrite, clear, set another, read it: only the last remains. -/
example :
    let ops := [CfgOp.set "A".toList "1".toList, .set "A".toList "2".toList, .clear,
      .set "B".toList "7".toList, .set "B".toList "8".toList, .getInt "B".toList 3]
    ops.foldlM applyCfg none = .ok (some [("B".toList, "8".toList)]) ∧
    configured "A".toList ops = none ∧ configured "B".toList ops = some "8".toList := by decide

/-! ## C08 -/

/-- **C08.** Every text begins with exactly one number, counting none as zero, and `atoi` yields it if it
fits into an `int` and is undefined behaviour otherwise. -/
theorem C08_every_text (text : Str) : ∃ z, BeginsWithNumber text z ∧
    (∀ z', BeginsWithNumber text z' → z' = z) ∧
    (IsInt32 z → atoi text = .ok z) ∧ (¬ IsInt32 z → atoi text = .ub) := by
  obtain ⟨z, h1, h2, h3⟩ := atoi_total text
  exact ⟨z, h1, h2, fun h => by rw [h3, if_pos h], fun h => by rw [h3, if_neg h]⟩

/-- **C08.** `atoi` on blanks, an optional sign, a decimal number and any tail not starting with a
digit yields that number if it fits into an `int`, and is undefined behaviour otherwise. -/
theorem C08_atoi_reads_decimal (ws rest : Str) (n : Nat) (hws : ∀ c ∈ ws, isCSpace c = true)
    (hrest : ∀ c, rest.head? = some c → c.isDigit = false) :
    (atoi (ws ++ decimal n ++ rest) = if (n : Int) ≤ 2147483647 then .ok (n : Int) else .ub) ∧
      (atoi (ws ++ '+' :: decimal n ++ rest) =
        if (n : Int) ≤ 2147483647 then .ok (n : Int) else .ub) ∧
      (atoi (ws ++ '-' :: decimal n ++ rest) =
        if (-2147483648 : Int) ≤ -(n : Int) then .ok (-(n : Int)) else .ub) := by
  have hdig : atoiDigits 0 (decimal n ++ rest) = n := by
    rw [atoiDigits_append _ _ _ (decimal_all_digits n), atoiDigits_decimal,
      atoiDigits_stop _ _ hrest]
  refine ⟨?_, ?_, ?_⟩
  · obtain ⟨d, ds, hd⟩ := List.exists_cons_of_ne_nil (decimal_ne_nil n)
    have hdd : d.isDigit = true := decimal_all_digits n d (by rw [hd]; simp)
    unfold atoi
    rw [List.append_assoc, skipBlanks_append _ _ hws, hd, List.cons_append,
      skipBlanks_of_not _ _ (isCSpace_of_digit hdd)]
    rw [hd, List.cons_append] at hdig
    have h1 : d ≠ '-' := by rintro rfl; exact absurd hdd (by decide)
    have h2 : d ≠ '+' := by rintro rfl; exact absurd hdd (by decide)
    split
    · next h => cases h; exact absurd rfl h1
    · next h => cases h; exact absurd rfl h2
    · rw [hdig, checkInt32]
      by_cases hb : (n : Int) ≤ 2147483647
      · rw [if_pos ⟨by omega, hb⟩, if_pos hb]
      · rw [if_neg (fun h => hb h.2), if_neg hb]
  · unfold atoi
    rw [List.append_assoc, skipBlanks_append _ _ hws, List.cons_append,
      skipBlanks_of_not _ _ (by decide)]
    simp only [hdig, checkInt32]
    by_cases hb : (n : Int) ≤ 2147483647
    · rw [if_pos ⟨by omega, hb⟩, if_pos hb]
    · rw [if_neg (fun h => hb h.2), if_neg hb]
  · unfold atoi
    rw [List.append_assoc, skipBlanks_append _ _ hws, List.cons_append,
      skipBlanks_of_not _ _ (by decide)]
    simp only [hdig, checkInt32]
    by_cases hb : (-2147483648 : Int) ≤ -(n : Int)
    · rw [if_pos ⟨hb, by omega⟩, if_pos hb]
    · rw [if_neg (fun h => hb h.1), if_neg hb]

/-- **C08.** Configuring the decimal text of any 32-bit integer and asking for the key gives that
integer back, whatever was configured before. -/
theorem C08_int_round_trip (c : Configurations) (key : Str) (z d : Int) (hz : IsInt32 z) :
    (c.addConfiguration key (decimalInt z)).intForKey key d =
      .ok (z, c.addConfiguration key (decimalInt z)) := by
  rw [intForKey_eq, cfgLookup_add, if_pos rfl]
  simp only
  have h := C08_atoi_reads_decimal [] [] z.natAbs (by simp) (by simp)
  simp only [List.nil_append, List.append_nil] at h
  have : atoi (decimalInt z) = .ok z := by
    unfold decimalInt
    unfold IsInt32 at hz
    split
    · next hneg =>
      rw [h.2.2, if_pos (by omega)]
      congr 1; omega
    · next hpos =>
      rw [h.1, if_pos (by omega)]
      congr 1; omega
  rw [this]; rfl

/-- **C08.** Text whose first non-blank character neither is a digit nor a sign configures 0. -/
theorem C08_garbage_is_zero (ws rest : Str) (c : Char) (hws : ∀ c ∈ ws, isCSpace c = true)
    (hc : isCSpace c = false) (hd : c.isDigit = false) (hs : c ≠ '-' ∧ c ≠ '+') :
    atoi (ws ++ c :: rest) = .ok 0 := by
  unfold atoi
  rw [skipBlanks_append _ _ hws, skipBlanks_of_not _ _ hc]
  split
  · next h => cases h; exact absurd rfl hs.1
  · next h => cases h; exact absurd rfl hs.2
  · simp [atoiDigits, hd, checkInt32]

example : BeginsWithNumber " -007x".toList (-7) ∧ BeginsWithNumber "- 5".toList 0 ∧
    atoi " -007x".toList = .ok (-7) ∧ atoi "- 5".toList = .ok 0 ∧ atoi [] = .ok 0 :=
  ⟨⟨" ".toList, "-".toList, "007".toList, "x".toList, by decide, by decide, by decide,
      by simp, .inr (.inr ⟨rfl, by decide⟩)⟩,
    ⟨[], "-".toList, [], " 5".toList, by decide, by decide, by decide, by simp,
      .inr (.inr ⟨rfl, by decide⟩)⟩, by decide, by decide, by decide⟩

example : atoi "  -42px".toList = .ok (-42) ∧ atoi "abc".toList = .ok 0 ∧
    atoi "2147483648".toList = .ub := by decide

/-! ## C09 -/

/-- **C09.** The identifier is the camel case of the name: split at non-letters, capitalise every
piece, concatenate. -/
theorem C09_identifier_is_camel_case (name : Str) : identifier name = camelCase name :=
  identifier_eq_camelCase name

/-- **C09.** Identifiers consist of letters. -/
theorem C09_identifier_letters (name : Str) : ∀ c ∈ identifier name, c.isAlpha = true := by
  intro c hc
  unfold identifier at hc
  cases name with
  | nil => simp at hc
  | cons a t => exact (List.mem_filter.1 hc).2

/-- **C09.** The identifier of an identifier is that identifier. -/
theorem C09_identifier_idempotent (name : Str) : identifier (identifier name) = identifier name := by
  have key : ∀ s : Str, (∀ c ∈ s, c.isAlpha = true) → identifier s = capitalize s := by
    intro s hs
    rw [identifier_eq_camelCase, camelCase, List.splitOnP_eq_singleton (by simpa using hs)]
    simp
  have hl := C09_identifier_letters name
  rw [key _ hl]
  have hcap : ∀ ws : List Str, capitalize ((ws.map capitalize).flatten) =
      (ws.map capitalize).flatten := by
    intro ws
    induction ws with
    | nil => rfl
    | cons w ws ih =>
      cases w with
      | nil => simpa [capitalize] using ih
      | cons c cs => simp [capitalize, toUpper_toUpper]
  rw [identifier_eq_camelCase, camelCase, hcap]

example : identifier "for loop should be while-loop".toList = "ForLoopShouldBeWhileLoop".toList ∧
    identifier "objc NPath 2x".toList = "ObjcNPathX".toList := by decide

/-! ## C11 -/

/-- **C11.** After any requests, `filteredRules` returns without error the loaded rules whose
identifier is selected by the last requests, in load order. -/
theorem C11_last_request_wins (reqs : List Request) (rules : List RuleId) (identifierOf : RuleId → Str) :
    ∃ run, (filterAfter reqs).filteredRules (registryAfter rules) identifierOf = .ok run ∧
      run.Sublist rules ∧
      ∀ r, r ∈ run ↔ r ∈ rules ∧ Selected reqs (identifierOf r) := by
  refine ⟨_, filteredRules_eq _ rules identifierOf, List.filter_sublist, ?_⟩
  intro r
  rw [List.mem_filter, accepts_iff]

/-- Enable A, then disable A again and enable B: only B runs. -/
example :
    (filterAfter [⟨true, "A".toList⟩, ⟨false, "A".toList⟩, ⟨true, "B".toList⟩]).filteredRules
      (registryAfter [0, 1, 2]) (fun r => if r = 0 then "A".toList else if r = 1 then "B".toList
        else "C".toList) = .ok [1] := by decide

/-! ## C12 -/

/-- **C12.** A rule selected is kept as often as it was loaded; others disappear completely. -/
theorem C12_multiplicity (reqs : List Request) (rules run : List RuleId) (identifierOf : RuleId → Str)
    (h : (filterAfter reqs).filteredRules (registryAfter rules) identifierOf = .ok run) (r : RuleId) :
    (Selected reqs (identifierOf r) → run.count r = rules.count r) ∧
      (¬ Selected reqs (identifierOf r) → run.count r = 0) := by
  rw [filteredRules_eq] at h
  cases h
  constructor
  · intro hs
    exact List.count_filter ((accepts_iff reqs _).2 hs)
  · intro hs
    rw [List.count_eq_zero]
    intro hm
    exact hs ((accepts_iff reqs _).1 (List.mem_filter.1 hm).2)

/-- **C12.** Without requests every loaded rule runs. -/
theorem C12_default_all (rules : List RuleId) (identifierOf : RuleId → Str) :
    (filterAfter []).filteredRules (registryAfter rules) identifierOf = .ok rules := by
  rw [filteredRules_eq]
  congr 1
  rw [List.filter_eq_self]
  intro r _
  rw [accepts_iff]
  simp [Selected, lastRequest]

/-- **C12.** Disabling every rule that was enabled turns every other, never disabled, rule back
on. -/
theorem C12_disabling_all_enabled (reqs : List Request) (name : Str)
    (hall : ∀ n, lastRequest reqs n ≠ some true) :
    Selected reqs name ↔ lastRequest reqs name = none := by
  unfold Selected
  constructor
  · rintro ⟨h1, _⟩
    match h : lastRequest reqs name with
    | none => rfl
    | some true => exact absurd h (hall name)
    | some false => exact absurd h h1
  · intro h
    rw [h]
    refine ⟨by simp, ?_⟩
    rintro ⟨n, hn⟩
    exact absurd hn (hall n)

/-- **C12.** The listed names are the identifiers of the running rules. -/
theorem C12_names (f : RulesetFilter) (rules : List RuleId) (identifierOf : RuleId → Str) :
    f.filteredRuleNames (registryAfter rules) identifierOf =
      .ok ((rules.map fun r => identifierOf r).filter fun n => f.accepts n) := by
  unfold RulesetFilter.filteredRuleNames
  rw [filteredRules_eq]
  simp only [Outcome.bind_ok, Outcome.pure_eq]
  congr 1
  rw [List.filter_map]
  rfl

example : Selected [⟨true, "A".toList⟩, ⟨false, "A".toList⟩] "B".toList ∧
    (∀ n, lastRequest [⟨true, "A".toList⟩, ⟨false, "A".toList⟩] n ≠ some true) := by
  have h : ∀ n, lastRequest [⟨true, "A".toList⟩, ⟨false, "A".toList⟩] n ≠ some true := by
    intro n
    by_cases h : ['A'] = n <;> simp [lastRequest, h]
  exact ⟨(C12_disabling_all_enabled _ _ h).2 (by decide), h⟩

end Oclint
