import Verif.Spec.Options
import Verif.Lemmas.Registry

namespace Oclint
open Spec

theorem createOptionalString_eq (s : Str) :
    createOptionalString s = if s = [] then none else some s := by
  cases s <;> simp [createOptionalString]

theorem configRead_eq (e : Env) (path : Str) :
    ConfigFile.read e.fs e.yaml path = configAt e path := by
  unfold ConfigFile.read configAt
  cases e.fs path with
  | none => rfl
  | some content =>
    simp only
    have : (content.all fun c => decide (c ∈ configBlanks)) = true ↔
        ∀ c ∈ content, c = ' ' ∨ c = '\t' ∨ c = '\n' ∨ c = '\r' ∨ c = '\x0b' ∨ c = '\x0c' := by
      rw [List.all_eq_true]
      apply forall_congr'; intro c
      apply forall_congr'; intro _
      simp only [configBlanks, List.mem_cons, List.not_mem_nil, or_false, decide_eq_true_eq]
      constructor <;> (rintro (h | h | h | h | h | h) <;> simp [h])
    by_cases h : (content.all fun c => decide (c ∈ configBlanks)) = true
    · rw [if_pos h, if_pos (this.1 h)]
    · rw [if_neg h, if_neg (fun h' => h (this.2 h'))]

theorem foldl_update {α : Type} (l : List (Option α)) (v : α) :
    (l.foldl updateArgIfSet (⟨v, 0⟩ : ClOpt α)) = ⟨firstSaid l.reverse v, 0⟩ := by
  induction l using List.reverseRecOn with
  | nil => rfl
  | append_singleton l o ih =>
    rw [List.foldl_append, ih]
    simp only [List.foldl_cons, List.foldl_nil, List.reverse_append, List.reverse_cons,
      List.reverse_nil, List.nil_append, List.singleton_append]
    cases o with
    | none => simp [updateArgIfSet, firstSaid]
    | some w => simp [updateArgIfSet, firstSaid]

theorem foldl_update_given {α : Type} (l : List (Option α)) (v : α) :
    (l.foldl updateArgIfSet (⟨v, 1⟩ : ClOpt α)) = ⟨v, 1⟩ := by
  induction l with
  | nil => rfl
  | cons o l ih =>
    rw [List.foldl_cons]
    cases o <;> simpa [updateArgIfSet] using ih

theorem foldl_update_clInit {α : Type} (given : Option α) (d : α) (l : List (Option α)) :
    (l.foldl updateArgIfSet (clInit given d)).value = firstSaid (given :: l.reverse) d := by
  cases given with
  | none =>
    simp only [clInit]
    rw [foldl_update]
    simp [firstSaid]
  | some v =>
    simp only [clInit]
    rw [foldl_update_given]
    simp [firstSaid]

/-- Projection of a fold over configuration files to one scalar option. -/
theorem foldl_proj {α β : Type} (get : OptionState → ClOpt α) (pick : ConfigFile → Option α)
    (h : ∀ st c, get (applyConfigFile st c) = updateArgIfSet (get st) (pick c))
    (l : List β) (rd : β → ConfigFile) (st : OptionState) :
    get (l.foldl (fun st p => applyConfigFile st (rd p)) st) =
      (l.map fun p => pick (rd p)).foldl updateArgIfSet (get st) := by
  induction l generalizing st with
  | nil => rfl
  | cons a t ih => rw [List.foldl_cons, ih, h]; rfl

theorem foldl_rulesPath {β : Type} (l : List β) (rd : β → ConfigFile) (st : OptionState) :
    (l.foldl (fun st p => applyConfigFile st (rd p)) st).argRulesPath =
      st.argRulesPath ++ l.flatMap fun p => (rd p).rulePaths := by
  induction l generalizing st with
  | nil => simp
  | cons a t ih => rw [List.foldl_cons, ih]; simp [applyConfigFile]

theorem foldl_workingPath {β : Type} (l : List β) (rd : β → ConfigFile) (st : OptionState) :
    (l.foldl (fun st p => applyConfigFile st (rd p)) st).workingPath = st.workingPath := by
  induction l generalizing st with
  | nil => rfl
  | cons a t ih => rw [List.foldl_cons, ih]; rfl

theorem enableDisable_eq (f : RulesetFilter) (en dis : List Str) :
    (f.enableRules en).disableRules dis =
      (en.map (Request.mk true) ++ dis.map (Request.mk false)).foldl applyRequest f := by
  rw [List.foldl_append, List.foldl_map, List.foldl_map]
  rfl

theorem foldl_filter {β : Type} (l : List β) (rd : β → ConfigFile) (st : OptionState) :
    (l.foldl (fun st p => applyConfigFile st (rd p)) st).filter =
      (l.flatMap fun p => (rd p).rules.map (Request.mk true) ++
        (rd p).disableRules.map (Request.mk false)).foldl applyRequest st.filter := by
  induction l generalizing st with
  | nil => rfl
  | cons a t ih =>
    rw [List.foldl_cons, ih, List.flatMap_cons, List.foldl_append, ← enableDisable_eq]
    rfl

/-- Applying settings to a configuration. -/
def addAll (c : Configurations) (kvs : List (Str × Str)) : Configurations :=
  kvs.foldl (fun c kv => c.addConfiguration kv.1 kv.2) c

theorem foldl_configurations {β : Type} (l : List β) (rd : β → ConfigFile) (st : OptionState) :
    (l.foldl (fun st p => applyConfigFile st (rd p)) st).configurations =
      addAll st.configurations (l.flatMap fun p => (rd p).ruleConfigurations) := by
  induction l generalizing st with
  | nil => rfl
  | cons a t ih =>
    rw [List.foldl_cons, ih, List.flatMap_cons, addAll, addAll, List.foldl_append]
    rfl

theorem preserve_workingPath (e : Env) (cli : CommandLine) :
    (preserveWorkingPath e (OptionState.afterParsing cli)).workingPath = recordedCwd e := by
  unfold preserveWorkingPath recordedCwd
  by_cases h : e.cwd.length < 300
  · rw [if_pos (by omega), if_pos h]
  · rw [if_neg (by omega), if_neg h]; rfl

theorem sources_eq (e : Env) (cli : CommandLine) :
    (configFilePaths e (preserveWorkingPath e (OptionState.afterParsing cli))).map
      (ConfigFile.read e.fs e.yaml) = sources e := by
  unfold configFilePaths sources
  rw [preserve_workingPath]
  simp only [List.map_append, List.map_cons, List.map_nil, configRead_eq, Env.etcPath,
    Env.installPrefix, Env.homePath]
  congr 1
  congr 1
  · congr 2
    simp
  · obtain ⟨cwd, home, binPath, fs, yaml⟩ := e
    match home with
    | none => rfl
    | some [] => rfl
    | some (c :: cs) => simp [configRead_eq ⟨cwd, some (c :: cs), binPath, fs, yaml⟩]

/-! ### `-rc` splitting -/

theorem findLastOf_spec (c : Char) (s : Str) :
    (c ∉ s ∧ findLastOf c s = -1) ∨
      ∃ a b, s = a ++ c :: b ∧ c ∉ b ∧ findLastOf c s = (a.length : Int) := by
  induction s with
  | nil => left; simp [findLastOf]
  | cons x t ih =>
    rcases ih with ⟨h1, h2⟩ | ⟨a, b, h1, h2, h3⟩
    · by_cases hx : x = c
      · right
        refine ⟨[], t, by simp [hx], h1, ?_⟩
        simp [findLastOf, h2, hx]
      · left
        refine ⟨by simp [h1, Ne.symm hx], ?_⟩
        simp [findLastOf, h2, hx]
    · right
      refine ⟨x :: a, b, by simp [h1], h2, ?_⟩
      simp only [findLastOf, h3]
      rw [if_pos (by omega)]
      simp

theorem toSizeT_nat (n : Nat) (h : n < 18446744073709551616) : toSizeT (n : Int) = n := by
  unfold toSizeT
  omega

/-- Splitting at a position. -/
theorem split_at (s : Str) (i : Int) (hi : toInt32 (findLastOf '=' s) = i) (h63 : s.length < 9223372036854775808) :
    (i = 2147483647 → splitRuleConfiguration s = .ub) ∧
      (i = -1 → splitRuleConfiguration s = .ok (s, s)) ∧
      (-2147483648 ≤ i → i < -1 →
        splitRuleConfiguration s = .throws "basic_string::substr".toList) ∧
      (∀ n : Nat, i = n → n < 2147483647 → n + 1 ≤ s.length →
        splitRuleConfiguration s = .ok (s.take n, s.drop (n + 1))) := by
  refine ⟨?_, ?_, ?_, ?_⟩
  · rintro rfl
    unfold splitRuleConfiguration
    simp only [hi, substr]
    rw [if_neg (by omega)]
    rfl
  · rintro rfl
    unfold splitRuleConfiguration
    simp only [hi, substr]
    have e1 : toSizeT (-1) = 18446744073709551615 := by decide
    have e2 : toSizeT (-1 + 1) = 0 := by decide
    have e3 : toSizeT ((s.length : Int) - -1 - 1) = s.length := by unfold toSizeT; omega
    simp only [e1, e2, e3, List.drop_zero, Outcome.pure_eq, List.take_length]
    rw [if_neg (by omega), List.take_of_length_le (by omega)]
    simp only [Outcome.bind_ok]
    rw [if_neg (by decide)]
    rfl
  · intro h1 h2
    unfold splitRuleConfiguration
    simp only [hi, substr]
    rw [if_neg (show ¬ 0 > s.length by omega)]
    simp only [Outcome.bind_ok]
    rw [if_neg (by omega), if_pos (by unfold toSizeT; omega)]
    rfl
  · rintro n rfl h1 h2
    unfold splitRuleConfiguration
    simp only [hi, substr]
    have e1 : toSizeT (n : Int) = n := toSizeT_nat _ (by omega)
    have e2 : toSizeT ((n : Int) + 1) = n + 1 := by unfold toSizeT; omega
    have e3 : toSizeT ((s.length : Int) - (n : Int) - 1) = s.length - (n + 1) := by
      unfold toSizeT; omega
    rw [e1, e2, e3, if_neg (by omega)]
    simp only [Outcome.bind_ok, List.drop_zero]
    rw [if_neg (by omega), if_neg (by omega)]
    simp only [Outcome.bind_ok, Outcome.pure_eq]
    rw [List.take_of_length_le (l := s.drop (n + 1)) (by simp)]

theorem rcSplit (s : Str) (h63 : s.length < 9223372036854775808) :
    RcSplit s (splitRuleConfiguration s) := by
  rcases findLastOf_spec '=' s with ⟨h1, h2⟩ | ⟨a, b, h1, h2, h3⟩
  · rw [(split_at s (-1) (by rw [h2]; decide) h63).2.1 rfl]
    exact .whole h1
  · have hl : s.length = a.length + b.length + 1 := by rw [h1]; simp; omega
    obtain ⟨k1, k2, k3, k4⟩ := split_at s _ rfl h63
    rw [h3] at k1 k2 k3 k4
    have hv : toInt32 (a.length : Int) = ((a.length : Int) + 2147483648) % 4294967296 - 2147483648 := rfl
    rcases Nat.lt_trichotomy (a.length % 4294967296) 2147483647 with hlt | heq | hgt
    · have hd : ∀ n, n = a.length → s.drop (n + 1) = b := by
        rintro n rfl
        rw [h1, ← List.drop_drop]
        simp
      rw [k4 (a.length % 4294967296) (by omega) hlt (by omega)]
      by_cases hs : a.length < 4294967296
      · have he : a.length % 4294967296 = a.length := by omega
        rw [he, hd _ rfl, show s.take a.length = a by rw [h1]; simp]
        exact .atLast a b h1 h2 (by omega)
      · exact .elsewhere a b h1 h2 (by omega) hlt
    · rw [k1 (by omega)]
      exact .overflow a b h1 h2 heq
    · by_cases hu : a.length % 4294967296 = 4294967295
      · rw [k2 (by omega)]
        exact .unseen a b h1 h2 hu
      · rw [k3 (by omega) (by omega)]
        exact .negative a b h1 h2 (by omega) hu

/-- Two splits of a text are the same. -/
theorem lastSplit_unique {a b a' b' : Str} (h : a ++ '=' :: b = a' ++ '=' :: b') (hb : '=' ∉ b)
    (hb' : '=' ∉ b') : a' = a ∧ b' = b := by
  rcases List.append_eq_append_iff.1 h with ⟨x, hx1, hx2⟩ | ⟨x, hx1, hx2⟩
  · cases x with
    | nil => simp at hx1 hx2; exact ⟨hx1, hx2.symm⟩
    | cons y ys =>
      exfalso
      simp only [List.cons_append, List.cons.injEq] at hx2
      apply hb; rw [hx2.2]; simp
  · cases x with
    | nil => simp at hx1 hx2; exact ⟨hx1.symm, hx2⟩
    | cons y ys =>
      exfalso
      simp only [List.cons_append, List.cons.injEq] at hx2
      apply hb'; rw [hx2.2]; simp

theorem splitRc_fits (s : Str) (h63 : s.length < 9223372036854775808)
    (hfit : ∀ a b, s = a ++ '=' :: b → a.length < 2147483647) :
    ∃ k v, splitRuleConfiguration s = .ok (k, v) ∧ IsSplit s k v := by
  have h := rcSplit s h63
  generalize splitRuleConfiguration s = o at h
  cases h with
  | whole h => exact ⟨s, s, rfl, .inr ⟨h, rfl, rfl⟩⟩
  | atLast a b h1 h2 h3 => exact ⟨a, b, rfl, .inl ⟨h1, h2⟩⟩
  | overflow a b h1 h2 h3 => have := hfit a b h1; omega
  | negative a b h1 h2 h3 => have := hfit a b h1; omega
  | unseen a b h1 h2 h3 => have := hfit a b h1; omega
  | elsewhere a b h1 h2 h3 => have := hfit a b h1; omega

theorem splitRc_cases (s : Str) (hlen : s.length < 2147483648) :
    ∃ k v, splitRuleConfiguration s = .ok (k, v) ∧ IsSplit s k v :=
  splitRc_fits s (by omega) fun a b h => by
    have : s.length = a.length + b.length + 1 := by rw [h]; simp; omega
    omega

theorem consume_eq (args : List Str) (hlen : ∀ s ∈ args, s.length < 2147483648)
    (c : Configurations) :
    ∃ rc : List (Str × Str), consumeRuleConfigurations args c = .ok (addAll c rc) ∧
      List.Forall₂ (fun s kv => IsSplit s kv.1 kv.2) args rc := by
  induction args generalizing c with
  | nil => exact ⟨[], rfl, List.Forall₂.nil⟩
  | cons s t ih =>
    obtain ⟨k, v, h1, h2⟩ := splitRc_cases s (hlen s (by simp))
    obtain ⟨rc, h3, h4⟩ := ih (fun s hs => hlen s (by simp [hs])) (c.addConfiguration k v)
    refine ⟨(k, v) :: rc, ?_, List.Forall₂.cons h2 h4⟩
    unfold consumeRuleConfigurations at h3 ⊢
    rw [List.foldlM_cons, h1]
    simp only [Outcome.bind_ok, Outcome.pure_eq] at h3 ⊢
    rw [h3]
    rfl

theorem addAll_ops (c : Configurations) (kvs : List (Str × Str)) :
    (kvs.map fun kv => CfgOp.set kv.1 kv.2).foldlM applyCfg c = .ok (addAll c kvs) := by
  induction kvs generalizing c with
  | nil => rfl
  | cons kv t ih => rw [List.map_cons, List.foldlM_cons]; exact ih _

end Oclint
