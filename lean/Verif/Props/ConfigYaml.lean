import Verif.Spec.ConfigYaml

/-!
# Properties of the keys of configuration files (C90)
-/

namespace Oclint
open Spec

/-! ## Entries -/

theorem yamlFind_iff {key : Str} {v : Yaml} {entries : List (Str × Yaml)} :
    yamlFind key entries = some v ↔ EntryOf (.map entries) key v := by
  induction entries with
  | nil =>
    constructor
    · intro h; cases h
    · intro h
      generalize hd : Yaml.map [] = d at h
      cases h with
      | mk h0 => simp at hd
  | cons e es ih =>
    obtain ⟨k, w⟩ := e
    by_cases hk : k = key
    · subst hk
      simp only [yamlFind, if_true]
      constructor
      · intro h; cases h; exact EntryOf.mk (pre := []) (by simp)
      · intro h
        generalize hd : Yaml.map ((k, w) :: es) = d at h
        cases h with
        | @mk pre post _ _ h0 =>
          cases pre with
          | nil => simp at hd; simp [hd.1]
          | cons p ps =>
            simp at hd
            exact absurd (by rw [← hd.1]) (h0 p (by simp))
    · simp only [yamlFind, if_neg hk]
      rw [ih]
      constructor
      · intro h
        generalize hd : Yaml.map es = d at h
        cases h with
        | @mk pre post _ _ h0 =>
          cases hd
          refine EntryOf.mk (pre := (k, w) :: pre) ?_
          intro e he
          rcases List.mem_cons.1 he with rfl | he
          · exact hk
          · exact h0 e he
      · intro h
        generalize hd : Yaml.map ((k, w) :: es) = d at h
        cases h with
        | @mk pre post _ _ h0 =>
          cases pre with
          | nil => simp at hd; exact absurd hd.1.1 hk
          | cons p ps =>
            simp at hd
            rw [hd.2]
            exact EntryOf.mk (fun e he => h0 e (by simp [he]))

theorem yamlFind_none {key : Str} {entries : List (Str × Yaml)} :
    yamlFind key entries = none ↔ ¬ ∃ v, EntryOf (.map entries) key v := by
  constructor
  · rintro h ⟨v, hv⟩
    rw [yamlFind_iff.2 hv] at h; cases h
  · intro h
    cases hf : yamlFind key entries with
    | none => rfl
    | some v => exact absurd ⟨v, yamlFind_iff.1 hf⟩ h

theorem no_entry {d : Yaml} {key : Str} (h : ∀ l, d ≠ .map l) : ¬ ∃ v, EntryOf d key v := by
  rintro ⟨v, hv⟩
  cases hv with
  | mk _ => exact h _ rfl

/-! ## Readers -/

/-- A reader gives what is meant, or what stays. -/
def ReaderFor {α : Type} (read : Yaml → Reading α) (is left : Yaml → α → Prop) : Prop :=
  ∀ v, ((read v).failed = false ∧ is v (read v).value ∧ ∀ x, ¬ left v x) ∨
    ((read v).failed = true ∧ left v (read v).value ∧ ∀ x, ¬ is v x)

theorem reader_text (old : Str) :
    ReaderFor (fun v => readScalarText v old) PlainText (Unset PlainText old) := by
  intro v
  cases v with
  | scalar s => exact .inl ⟨rfl, rfl, fun x h => h.1 ⟨s, rfl⟩⟩
  | _ => exact .inr ⟨rfl, ⟨(by rintro ⟨y, hy⟩; cases hy), rfl⟩, fun x h => by cases h⟩

theorem reader_number (parse : Str → Option Int) (old : Int) :
    ReaderFor (fun v => readInt parse v old) (NumberOf parse) (Unset (NumberOf parse) old) := by
  intro v
  cases v with
  | scalar s =>
    cases hp : parse s with
    | none =>
      refine .inr ⟨by simp [readInt, hp], ⟨?_, by simp [readInt, hp]⟩, ?_⟩
      · rintro ⟨n, s', hs, h, -⟩; cases hs; rw [hp] at h; cases h
      · rintro n ⟨s', hs, h, -⟩; cases hs; rw [hp] at h; cases h
    | some n =>
      by_cases hn : n > INT_MAX ∨ n < INT_MIN
      · refine .inr ⟨by simp [readInt, hp, hn], ⟨?_, by simp [readInt, hp, hn]⟩, ?_⟩
        · rintro ⟨m, s', hs, h, h1, h2⟩; cases hs; rw [hp] at h; cases h
          simp only [INT_MAX, INT_MIN] at hn; omega
        · rintro m ⟨s', hs, h, h1, h2⟩; cases hs; rw [hp] at h; cases h
          simp only [INT_MAX, INT_MIN] at hn; omega
      · have hN : NumberOf parse (.scalar s) n := by
          refine ⟨s, rfl, hp, ?_⟩
          simp only [INT_MAX, INT_MIN] at hn; omega
        refine .inl ⟨by simp [readInt, hp, hn], by simpa [readInt, hp, hn] using hN, ?_⟩
        intro x h; exact h.1 ⟨n, hN⟩
  | _ =>
    refine .inr ⟨rfl, ⟨?_, rfl⟩, ?_⟩
    · rintro ⟨n, s', hs, -⟩; cases hs
    · rintro n ⟨s', hs, -⟩; cases hs

theorem switch_text {v : Yaml} {t : TriState} (h : SwitchOf v t) :
    v = .scalar "true".toList ∧ t = .TRUE ∨ v = .scalar "false".toList ∧ t = .FALSE := by
  cases h with
  | on => exact .inl ⟨rfl, rfl⟩
  | off => exact .inr ⟨rfl, rfl⟩

theorem true_ne_false : "false".toList ≠ "true".toList := by decide +kernel

theorem reader_switch (old : TriState) :
    ReaderFor (fun v => readTriState v old) SwitchOf (Unset SwitchOf old) := by
  intro v
  cases v with
  | scalar s =>
    by_cases h1 : s = "true".toList
    · subst h1
      refine .inl ⟨by simp only [readTriState, if_true], ?_, fun x h => h.1 ⟨_, .on⟩⟩
      simp only [readTriState, if_true]; exact .on
    · by_cases h2 : s = "false".toList
      · subst h2
        refine .inl ⟨by simp only [readTriState, if_neg true_ne_false, if_true], ?_,
          fun x h => h.1 ⟨_, .off⟩⟩
        simp only [readTriState, if_neg true_ne_false, if_true]; exact .off
      · have hno : ∀ t, ¬ SwitchOf (.scalar s) t := by
          intro t h
          rcases switch_text h with ⟨h, -⟩ | ⟨h, -⟩
          · exact h1 (Yaml.scalar.inj h)
          · exact h2 (Yaml.scalar.inj h)
        refine .inr ⟨by simp only [readTriState, if_neg h1, if_neg h2], ⟨?_, ?_⟩, hno⟩
        · rintro ⟨t, ht⟩; exact hno t ht
        · simp only [readTriState, if_neg h1, if_neg h2]
  | _ =>
    have hno : ∀ d : Yaml, (∀ s, d ≠ .scalar s) → ∀ t, ¬ SwitchOf d t := by
      intro d hd t h
      rcases switch_text h with ⟨h, -⟩ | ⟨h, -⟩ <;> exact hd _ h
    refine .inr ⟨rfl, ⟨?_, rfl⟩, hno _ (by intro s h; cases h)⟩
    rintro ⟨t, ht⟩; exact hno _ (by intro s h; cases h) t ht

/-! ## Pairs -/

theorem find_text (entries : List (Str × Yaml)) (key : Str) :
    (∃ s, yamlFind key entries = some (.scalar s) ∧ TextUnder entries key s ∧ ¬ NoText entries key) ∨
      (yamlFind key entries = none ∧ TextUnder entries key [] ∧ ¬ NoText entries key) ∨
      (∃ v, yamlFind key entries = some v ∧ (∀ s, v ≠ .scalar s) ∧ NoText entries key) := by
  cases hf : yamlFind key entries with
  | none =>
    have h := yamlFind_none.1 hf
    refine .inr (.inl ⟨rfl, .inr ⟨h, rfl⟩, ?_⟩)
    rintro ⟨v, hv, -⟩; exact h ⟨v, hv⟩
  | some v =>
    have hv := yamlFind_iff.1 hf
    by_cases hs : ∃ s, v = .scalar s
    · obtain ⟨s, rfl⟩ := hs
      refine .inl ⟨s, rfl, .inl hv, ?_⟩
      rintro ⟨w, hw, hn⟩
      rw [yamlFind_iff.2 hw] at hf; cases hf; exact hn s rfl
    · exact .inr (.inr ⟨v, rfl, fun s h => hs ⟨s, h⟩, v, hv, fun s h => hs ⟨s, h⟩⟩)

theorem textUnder_noText {entries : List (Str × Yaml)} {key s : Str} (h : TextUnder entries key s) :
    ¬ NoText entries key := by
  rintro ⟨v, hv, hn⟩
  rcases h with h | ⟨h, -⟩
  · have := yamlFind_iff.2 h
    rw [yamlFind_iff.2 hv] at this; cases this; exact hn s rfl
  · exact h ⟨v, hv⟩

theorem readScalarText_bad {v : Yaml} (h : ∀ s, v ≠ .scalar s) (old : Str) :
    readScalarText v old = ⟨old, true⟩ := by
  cases v with
  | scalar s => exact absurd rfl (h s)
  | _ => rfl

theorem onlyPairKeys_iff (entries : List (Str × Yaml)) :
    (entries.any fun e => !["key".toList, "value".toList].contains e.1) = false ↔
      OnlyPairKeys entries := by
  unfold OnlyPairKeys
  generalize "key".toList = k
  generalize "value".toList = v
  simp only [List.any_eq_false, List.contains_cons, List.contains_nil, Bool.or_false]
  refine forall_congr' fun e => forall_congr' fun _ => ?_
  simp [Decidable.or_iff_not_imp_left]

/-- What is read of a pair that is a mapping. -/
theorem readPair_map (entries : List (Str × Yaml)) (k v : Str)
    (hk : yamlFind "key".toList entries = some (.scalar k) ∨
      yamlFind "key".toList entries = none ∧ k = [])
    (hv : yamlFind "value".toList entries = some (.scalar v) ∨
      yamlFind "value".toList entries = none ∧ v = []) :
    readPair (.map entries) ([], []) =
      ⟨(k, v), entries.any fun e => !["key".toList, "value".toList].contains e.1⟩ := by
  unfold readPair
  generalize "key".toList = ks at *
  generalize "value".toList = vs at *
  rcases hk with hk | ⟨hk, rfl⟩ <;> rcases hv with hv | ⟨hv, rfl⟩ <;>
    simp [mapOptional, hk, hv, endMapping, readScalarText]

theorem readPair_badKey (entries : List (Str × Yaml)) (w : Yaml)
    (hk : yamlFind "key".toList entries = some w) (hw : ∀ s, w ≠ .scalar s) :
    readPair (.map entries) ([], []) = ⟨([], []), true⟩ := by
  unfold readPair
  generalize "key".toList = ks at *
  generalize "value".toList = vs at *
  simp [mapOptional, hk, endMapping, readScalarText_bad hw]

theorem readPair_badValue (entries : List (Str × Yaml)) (k : Str) (w : Yaml)
    (hk : yamlFind "key".toList entries = some (.scalar k) ∨
      yamlFind "key".toList entries = none ∧ k = [])
    (hv : yamlFind "value".toList entries = some w) (hw : ∀ s, w ≠ .scalar s) :
    readPair (.map entries) ([], []) = ⟨(k, []), true⟩ := by
  unfold readPair
  generalize "key".toList = ks at *
  generalize "value".toList = vs at *
  rcases hk with hk | ⟨hk, rfl⟩ <;>
    simp [mapOptional, hk, hv, endMapping, readScalarText_bad hw]
  simp [readScalarText]

/-- A pair has texts and no other keys. -/
theorem pairOf_map {entries : List (Str × Yaml)} {p : Str × Str} (h : PairOf (.map entries) p) :
    OnlyPairKeys entries ∧ TextUnder entries "key".toList p.1 ∧
      TextUnder entries "value".toList p.2 := by
  generalize hd : Yaml.map entries = d at h
  cases h with
  | empty => cases hd
  | mk h1 h2 h3 => cases hd; exact ⟨h1, h2, h3⟩

theorem pairLeft_map {entries : List (Str × Yaml)} {p : Str × Str} (h : PairLeft (.map entries) p) :
    NoText entries "key".toList ∨ NoText entries "value".toList ∨ ¬ OnlyPairKeys entries := by
  generalize hd : Yaml.map entries = d at h
  cases h with
  | scalar => cases hd
  | seq => cases hd
  | key h => cases hd; exact .inl h
  | value h h' => cases hd; exact .inr (.inl h')
  | more h h' h'' => cases hd; exact .inr (.inr h'')

theorem found_text {entries : List (Str × Yaml)} {key : Str} (h : ¬ NoText entries key) :
    ∃ s, TextUnder entries key s ∧ (yamlFind key entries = some (.scalar s) ∨
      yamlFind key entries = none ∧ s = []) := by
  rcases find_text entries key with ⟨s, hf, ht, -⟩ | ⟨hf, ht, -⟩ | ⟨v, -, -, hn⟩
  · exact ⟨s, ht, .inl hf⟩
  · exact ⟨[], ht, .inr ⟨hf, rfl⟩⟩
  · exact absurd hn h

theorem reader_pair : ReaderFor (fun v => readPair v ([], [])) PairOf PairLeft := by
  intro v
  cases v with
  | empty =>
    refine .inl ⟨rfl, .empty, fun x h => ?_⟩
    generalize hd : Yaml.empty = d at h
    cases h <;> cases hd
  | scalar s =>
    refine .inr ⟨rfl, .scalar, fun x h => ?_⟩
    generalize hd : Yaml.scalar s = d at h
    cases h <;> cases hd
  | seq l =>
    refine .inr ⟨rfl, .seq, fun x h => ?_⟩
    generalize hd : Yaml.seq l = d at h
    cases h <;> cases hd
  | map entries =>
    by_cases hk : NoText entries "key".toList
    · obtain ⟨w, hw, hn⟩ := id hk
      rw [← yamlFind_iff] at hw
      have hr := readPair_badKey entries w hw hn
      refine .inr ⟨by simp only [hr], by simp only [hr]; exact .key hk, fun x h => ?_⟩
      exact textUnder_noText (pairOf_map h).2.1 hk
    · obtain ⟨k, tk, fk⟩ := found_text hk
      by_cases hv : NoText entries "value".toList
      · obtain ⟨w, hw, hn⟩ := id hv
        rw [← yamlFind_iff] at hw
        have hr := readPair_badValue entries k w fk hw hn
        refine .inr ⟨by simp only [hr], by simp only [hr]; exact .value tk hv, fun x h => ?_⟩
        exact textUnder_noText (pairOf_map h).2.2 hv
      · obtain ⟨v, tv, fv⟩ := found_text hv
        have hr := readPair_map entries k v fk fv
        by_cases ho : OnlyPairKeys entries
        · have ha := (onlyPairKeys_iff entries).2 ho
          refine .inl ⟨by simp only [hr]; exact ha, by simp only [hr]; exact .mk ho tk tv,
            fun x h => ?_⟩
          rcases pairLeft_map h with h | h | h
          · exact hk h
          · exact hv h
          · exact h ho
        · have ha : (entries.any fun e => !["key".toList, "value".toList].contains e.1) = true := by
            rw [← Bool.not_eq_false, onlyPairKeys_iff]; exact ho
          refine .inr ⟨by simp only [hr]; exact ha, by simp only [hr]; exact .more tk tv ho,
            fun x h => ho (pairOf_map h).1⟩

/-! ## Lists -/

theorem null_iff (s : Str) : yamlNulls.contains s = true ↔ NullText s := by
  unfold yamlNulls NullText
  generalize "null".toList = a
  generalize "Null".toList = b
  generalize "NULL".toList = c
  generalize "~".toList = d
  simp

variable {α : Type}

theorem listOf_seq {is : Yaml → α → Prop} {items : List Yaml} {xs : List α}
    (h : ListOf is (.seq items) xs) :
    items = [] ∧ xs = [] ∨ ∃ v x vs ys, items = v :: vs ∧ xs = x :: ys ∧ is v x ∧
      ListOf is (.seq vs) ys := by
  generalize hd : Yaml.seq items = d at h
  cases h with
  | empty => cases hd
  | null => cases hd
  | nil => cases hd; exact .inl ⟨rfl, rfl⟩
  | cons h h' => cases hd; exact .inr ⟨_, _, _, _, rfl, rfl, h, h'⟩

theorem listLeft_seq {is left : Yaml → α → Prop} {items : List Yaml} {xs : List α}
    (h : ListLeft is left (.seq items) xs) :
    (∃ v x vs, items = v :: vs ∧ xs = [x] ∧ left v x) ∨
      ∃ v x vs ys, items = v :: vs ∧ xs = x :: ys ∧ is v x ∧ ListLeft is left (.seq vs) ys := by
  generalize hd : Yaml.seq items = d at h
  cases h with
  | scalar => cases hd
  | map => cases hd
  | here h => cases hd; exact .inl ⟨_, _, _, rfl, rfl, h⟩
  | there h h' => cases hd; exact .inr ⟨_, _, _, _, rfl, rfl, h, h'⟩

theorem reader_items {read : Yaml → α → Reading α} {fresh : α} {is left : Yaml → α → Prop}
    (hr : ReaderFor (fun v => read v fresh) is left) (items : List Yaml) :
    ((readItems read fresh items).failed = false ∧
        ListOf is (.seq items) (readItems read fresh items).value ∧
        ∀ x, ¬ ListLeft is left (.seq items) x) ∨
      ((readItems read fresh items).failed = true ∧
        ListLeft is left (.seq items) (readItems read fresh items).value ∧
        ∀ x, ¬ ListOf is (.seq items) x) := by
  induction items with
  | nil =>
    refine .inl ⟨rfl, .nil, fun x h => ?_⟩
    rcases listLeft_seq h with ⟨_, _, _, h, _⟩ | ⟨_, _, _, _, h, _⟩ <;> cases h
  | cons v vs ih =>
    rcases hr v with ⟨hf, hi, hl⟩ | ⟨hf, hl, hi⟩
    · simp only at hf hi hl
      rcases ih with ⟨gf, gi, gl⟩ | ⟨gf, gl, gi⟩
      · refine .inl ⟨by simp [readItems, hf, gf], by simpa [readItems, hf] using .cons hi gi, ?_⟩
        intro x h
        rcases listLeft_seq h with ⟨_, _, _, h, _, h'⟩ | ⟨_, _, _, _, h, _, _, h'⟩
        · cases h; exact hl _ h'
        · cases h; exact gl _ h'
      · refine .inr ⟨by simp [readItems, hf, gf], by simpa [readItems, hf] using .there hi gl, ?_⟩
        intro x h
        rcases listOf_seq h with ⟨h, _⟩ | ⟨_, _, _, _, h, _, _, h'⟩
        · cases h
        · cases h; exact gi _ h'
    · simp only at hf hi hl
      refine .inr ⟨by simp [readItems, hf], by simpa [readItems, hf] using .here hl, ?_⟩
      intro x h
      rcases listOf_seq h with ⟨h, _⟩ | ⟨_, _, _, _, h, _, h', _⟩
      · cases h
      · cases h; exact hi _ h'

theorem reader_vector {read : Yaml → α → Reading α} {fresh : α} {is left : Yaml → α → Prop}
    (hr : ReaderFor (fun v => read v fresh) is left) :
    ReaderFor (readVector read fresh) (ListOf is) (ListLeft is left) := by
  intro v
  cases v with
  | empty =>
    refine .inl ⟨rfl, .empty, fun x h => ?_⟩
    generalize hd : Yaml.empty = d at h
    cases h <;> cases hd
  | map l =>
    refine .inr ⟨rfl, .map, fun x h => ?_⟩
    generalize hd : Yaml.map l = d at h
    cases h <;> cases hd
  | seq items => exact reader_items hr items
  | scalar s =>
    by_cases hs : yamlNulls.contains s = true
    · refine .inl ⟨by simp only [readVector, hs, if_true], ?_, fun x h => ?_⟩
      · simp only [readVector, hs, if_true]; exact .null ((null_iff s).1 hs)
      · generalize hd : Yaml.scalar s = d at h
        cases h with
        | scalar h => cases hd; exact h ((null_iff s).1 hs)
        | _ => cases hd
    · refine .inr ⟨by simp only [readVector, hs]; rfl, ?_, fun x h => ?_⟩
      · simp only [readVector, hs]; exact .scalar (fun h => hs ((null_iff s).2 h))
      · generalize hd : Yaml.scalar s = d at h
        cases h with
        | null h => cases hd; exact hs ((null_iff s).2 h)
        | _ => cases hd

/-! ## The members in order -/

/-- The members read from a mapping so far. -/
def readMembers (node : Yaml) (ms : List (Str × (Yaml → ConfigFile → Reading ConfigFile)))
    (st : Reading ConfigFile) : Reading ConfigFile :=
  ms.foldl (fun st m => mapOptional node m.1 m.2 st) st

/-- The reader of a member fails exactly if the entry is not of its kind. -/
def FailsFor (parse : Str → Option Int) (kind : EntryKind)
    (read : Yaml → ConfigFile → Reading ConfigFile) : Prop :=
  ∀ v c, (read v c).failed = false ↔ OfKind parse kind v

theorem readMembers_failed {node : Yaml} {ms : List (Str × (Yaml → ConfigFile → Reading ConfigFile))}
    {st : Reading ConfigFile} (h : st.failed = true) : readMembers node ms st = st := by
  induction ms with
  | nil => rfl
  | cons m ms ih => simp only [readMembers, List.foldl_cons, mapOptional, h, if_true]; exact ih

/-- Members before are read without an error iff their entries are of their kinds. -/
theorem readMembers_ok {parse : Str → Option Int} {entries : List (Str × Yaml)}
    {ms : List (Str × (Yaml → ConfigFile → Reading ConfigFile))} {ks : List (Str × EntryKind)}
    (hp : ∀ i : Nat, (ms[i]?).map Prod.fst = (ks[i]?).map Prod.fst)
    (hf : ∀ (i : Nat) m k, ms[i]? = some m → ks[i]? = some k → FailsFor parse k.2 m.2)
    {st : Reading ConfigFile} (h : st.failed = false) :
    (readMembers (.map entries) ms st).failed = false ↔
      ∀ k ∈ ks, ∀ v, EntryOf (.map entries) k.1 v → OfKind parse k.2 v := by
  induction ms generalizing ks st with
  | nil =>
    have : ks = [] := by
      cases ks with
      | nil => rfl
      | cons k ks => have := hp 0; simp at this
    subst this
    simp [readMembers, h]
  | cons m ms ih =>
    cases ks with
    | nil => have := hp 0; simp at this
    | cons k ks =>
      have hk : m.1 = k.1 := by have := hp 0; simpa using this
      have hm : FailsFor parse k.2 m.2 := hf 0 m k rfl rfl
      have hp' : ∀ i : Nat, (ms[i]?).map Prod.fst = (ks[i]?).map Prod.fst := fun i => by
        have := hp (i + 1); simpa using this
      have hf' : ∀ (i : Nat) m k, ms[i]? = some m → ks[i]? = some k → FailsFor parse k.2 m.2 :=
        fun i m' k' h1 h2 => hf (i + 1) m' k' (by simpa using h1) (by simpa using h2)
      have step : readMembers (.map entries) (m :: ms) st =
          readMembers (.map entries) ms (mapOptional (.map entries) m.1 m.2 st) := rfl
      rw [step]
      simp only [List.forall_mem_cons]
      cases hy : yamlFind m.1 entries with
      | none =>
        have : mapOptional (.map entries) m.1 m.2 st = st := by simp [mapOptional, h, hy]
        rw [this, ih hp' hf' h]
        have hn := yamlFind_none.1 hy
        rw [hk] at hn
        exact ⟨fun g => ⟨fun v hv => absurd ⟨v, hv⟩ hn, g⟩, fun g => g.2⟩
      | some v =>
        have hs : mapOptional (.map entries) m.1 m.2 st = m.2 v st.value := by
          simp [mapOptional, h, hy]
        rw [hs]
        have he := yamlFind_iff.1 hy
        by_cases hg : (m.2 v st.value).failed = false
        · rw [ih hp' hf' hg]
          refine ⟨fun g => ⟨fun w hw => ?_, g⟩, fun g => g.2⟩
          rw [← hk, ← yamlFind_iff, hy] at hw
          cases hw
          exact (hm v _).1 hg
        · rw [readMembers_failed (by simpa using hg)]
          refine ⟨fun g => absurd g hg, fun g => absurd ((hm v _).2 (g.1 v (hk ▸ he))) hg⟩

/-- Members that leave a field alone. -/
theorem readMembers_keep {γ : Type} {get : ConfigFile → γ} {node : Yaml}
    {ms : List (Str × (Yaml → ConfigFile → Reading ConfigFile))}
    (hk : ∀ m ∈ ms, ∀ v c, get (m.2 v c).value = get c) (st : Reading ConfigFile) :
    get (readMembers node ms st).value = get st.value := by
  induction ms generalizing st with
  | nil => rfl
  | cons m ms ih =>
    have step : readMembers node (m :: ms) st =
        readMembers node ms (mapOptional node m.1 m.2 st) := rfl
    rw [step, ih (fun m' h => hk m' (by simp [h]))]
    unfold mapOptional
    split
    · rfl
    · split
      · split
        · exact hk m (by simp) _ _
        · rfl
      · rfl
      · rfl

theorem endMapping_value (node : Yaml) (known : List Str) (st : Reading α) :
    (endMapping node known st).value = st.value := by
  unfold endMapping
  split
  · rfl
  · split <;> rfl

theorem fails_of_reader {read : Yaml → Reading α} {is left : Yaml → α → Prop}
    (h : ReaderFor read is left) (v : Yaml) : (read v).failed = false ↔ ∃ x, is v x := by
  rcases h v with ⟨hf, hi, -⟩ | ⟨hf, -, hi⟩
  · exact ⟨fun _ => ⟨_, hi⟩, fun _ => hf⟩
  · exact ⟨fun g => by rw [hf] at g; (exact absurd g (by decide)), fun ⟨x, hx⟩ => absurd hx (hi x)⟩

theorem members_fail (parse : Str → Option Int) (i : Nat)
    (m : Str × (Yaml → ConfigFile → Reading ConfigFile)) (k : Str × EntryKind)
    (hm : (configMembers parse)[i]? = some m) (hk : configKeys[i]? = some k) :
    FailsFor parse k.2 m.2 := by
  have texts := fails_of_reader (reader_vector (reader_text []))
  have pairs := fails_of_reader (reader_vector reader_pair)
  match i, hm, hk with
  | 0, hm, hk => cases hm; cases hk; exact fun v c => texts v
  | 1, hm, hk => cases hm; cases hk; exact fun v c => texts v
  | 2, hm, hk => cases hm; cases hk; exact fun v c => texts v
  | 3, hm, hk => cases hm; cases hk; exact fun v c => pairs v
  | 4, hm, hk => cases hm; cases hk; exact fun v c => fails_of_reader (reader_text _) v
  | 5, hm, hk => cases hm; cases hk; exact fun v c => fails_of_reader (reader_text _) v
  | 6, hm, hk => cases hm; cases hk; exact fun v c => fails_of_reader (reader_number parse _) v
  | 7, hm, hk => cases hm; cases hk; exact fun v c => fails_of_reader (reader_number parse _) v
  | 8, hm, hk => cases hm; cases hk; exact fun v c => fails_of_reader (reader_number parse _) v
  | 9, hm, hk => cases hm; cases hk; exact fun v c => fails_of_reader (reader_switch _) v
  | 10, hm, hk => cases hm; cases hk; exact fun v c => fails_of_reader (reader_switch _) v
  | 11, hm, hk => cases hm; cases hk; exact fun v c => fails_of_reader (reader_switch _) v
  | n + 12, hm, hk => cases hk

theorem members_keys (parse : Str → Option Int) (i : Nat) :
    ((configMembers parse)[i]?).map Prod.fst = (configKeys[i]?).map Prod.fst := by
  match i with
  | 0 | 1 | 2 | 3 | 4 | 5 | 6 | 7 | 8 | 9 | 10 | 11 => rfl
  | n + 12 => rfl

/-- One member: `n` is its place. -/
theorem given_member {γ : Type} (parse : Str → Option Int) (n : Nat) (key : Str)
    (get : ConfigFile → γ) (read : Yaml → ConfigFile → Reading ConfigFile)
    (one : Yaml → Reading γ) (is left : Yaml → γ → Prop)
    (hm : (configMembers parse)[n]? = some (key, read))
    (hw : configKeys.takeWhile (fun e => e.1 ≠ key) = configKeys.take n)
    (hpre : ∀ m ∈ (configMembers parse).take n, ∀ v c, get (m.2 v c).value = get c)
    (hpost : ∀ m ∈ (configMembers parse).drop (n + 1), ∀ v c, get (m.2 v c).value = get c)
    (hone : ∀ v c, get c = get .initial → get (read v c).value = (one v).value)
    (hr : ReaderFor one is left) (node : Yaml) :
    Given parse node key is left (get .initial) (get (readDocument parse (some node))) := by
  have hval : readDocument parse (some node) =
      (readMembers node (configMembers parse) ⟨.initial, false⟩).value := by
    simp only [readDocument, endMapping_value]; rfl
  have hsplit : configMembers parse =
      (configMembers parse).take n ++ (key, read) :: (configMembers parse).drop (n + 1) := by
    have hlt : n < (configMembers parse).length := by
      rw [List.getElem?_eq_some_iff] at hm; exact hm.1
    rw [List.getElem?_eq_getElem hlt] at hm
    conv => lhs; rw [← List.take_append_drop n (configMembers parse), List.drop_eq_getElem_cons hlt]
    rw [Option.some.inj hm]
  have hgo : get (readDocument parse (some node)) =
      get (mapOptional node key read
        (readMembers node ((configMembers parse).take n) ⟨.initial, false⟩)).value := by
    rw [hval]
    conv => lhs; rw [hsplit]
    have : readMembers node ((configMembers parse).take n ++
          (key, read) :: (configMembers parse).drop (n + 1)) ⟨.initial, false⟩ =
        readMembers node ((configMembers parse).drop (n + 1)) (mapOptional node key read
          (readMembers node ((configMembers parse).take n) ⟨.initial, false⟩)) := by
      simp only [readMembers, List.foldl_append, List.foldl_cons]
    rw [this]
    exact readMembers_keep hpost _
  have hkeep : get (readMembers node ((configMembers parse).take n) ⟨.initial, false⟩).value =
      get .initial := readMembers_keep hpre _
  rw [hgo]
  cases node with
  | map entries =>
    have hreach : (readMembers (.map entries) ((configMembers parse).take n) ⟨.initial, false⟩).failed
        = false ↔ Reached parse (.map entries) key := by
      unfold Reached
      rw [hw]
      refine readMembers_ok ?_ ?_ rfl
      · intro i
        by_cases hi : i < n
        · rw [List.getElem?_take_of_lt hi, List.getElem?_take_of_lt hi]; exact members_keys parse i
        · rw [List.getElem?_take_eq_none (by omega), List.getElem?_take_eq_none (by omega)]; rfl
      · intro i m k h1 h2
        by_cases hi : i < n
        · rw [List.getElem?_take_of_lt hi] at h1 h2; exact members_fail parse i m k h1 h2
        · rw [List.getElem?_take_eq_none (by omega)] at h1; cases h1
    by_cases hf : (readMembers (.map entries) ((configMembers parse).take n)
        ⟨.initial, false⟩).failed = false
    · cases hy : yamlFind key entries with
      | none =>
        refine .inr ⟨.inl (yamlFind_none.1 hy), ?_⟩
        simp only [mapOptional, hf, hy]; exact hkeep
      | some v =>
        refine .inl ⟨v, yamlFind_iff.1 hy, hreach.1 hf, ?_⟩
        simp only [mapOptional, hf, hy]
        have := hone v _ hkeep
        simp only [Bool.false_eq_true, if_false]
        rw [this]
        rcases hr v with ⟨-, h, -⟩ | ⟨-, h, -⟩
        · exact .inl h
        · exact .inr h
    · refine .inr ⟨.inr (fun h => hf (hreach.2 h)), ?_⟩
      have hf' := (Bool.not_eq_false _).mp hf
      simp only [mapOptional, hf', if_true]; exact hkeep
  | _ =>
    refine .inr ⟨.inl (no_entry (by intro l h; cases h)), ?_⟩
    unfold mapOptional
    split
    · exact hkeep
    · exact hkeep

/-! ## The properties -/

/-- Every member is what its key gives; see `ReadsAs`. -/
theorem C90_members (parse : Str → Option Int) (node : Yaml) :
    ReadsAs parse node (readDocument parse (some node)) := by
  have texts := reader_vector (reader_text [])
  have pairs := reader_vector reader_pair
  constructor
  · exact given_member parse 0 _ (·.rules) _ (fun v => readVector readScalarText [] v) _ _ rfl
      (by decide +kernel) (by simp [configMembers]) (by simp [configMembers, member])
      (fun v c _ => rfl) texts node
  · exact given_member parse 1 _ (·.disableRules) _ (fun v => readVector readScalarText [] v) _ _ rfl
      (by decide +kernel) (by simp [configMembers, member]) (by simp [configMembers, member])
      (fun v c _ => rfl) texts node
  · exact given_member parse 2 _ (·.rulePaths) _ (fun v => readVector readScalarText [] v) _ _ rfl
      (by decide +kernel) (by simp [configMembers, member]) (by simp [configMembers, member])
      (fun v c _ => rfl) texts node
  · exact given_member parse 3 _ (·.ruleConfigurations) _ (fun v => readVector readPair ([], []) v) _ _ rfl
      (by decide +kernel) (by simp [configMembers, member]) (by simp [configMembers, member])
      (fun v c _ => rfl) pairs node
  · exact given_member parse 4 _ (·.output) _ (fun v => readScalarText v []) _ _ rfl
      (by decide +kernel) (by simp [configMembers, member]) (by simp [configMembers, member])
      (fun v c h => by simp only [member]; rw [h]; rfl) (reader_text _) node
  · exact given_member parse 5 _ (·.reportType) _ (fun v => readScalarText v []) _ _ rfl
      (by decide +kernel) (by simp [configMembers, member]) (by simp [configMembers, member])
      (fun v c h => by simp only [member]; rw [h]; rfl) (reader_text _) node
  · exact given_member parse 6 _ (·.maxP1) _ (fun v => readInt parse v INT_MIN) _ _ rfl
      (by decide +kernel) (by simp [configMembers, member]) (by simp [configMembers, member])
      (fun v c h => by simp only [member]; rw [h]; rfl) (reader_number parse _) node
  · exact given_member parse 7 _ (·.maxP2) _ (fun v => readInt parse v INT_MIN) _ _ rfl
      (by decide +kernel) (by simp [configMembers, member]) (by simp [configMembers, member])
      (fun v c h => by simp only [member]; rw [h]; rfl) (reader_number parse _) node
  · exact given_member parse 8 _ (·.maxP3) _ (fun v => readInt parse v INT_MIN) _ _ rfl
      (by decide +kernel) (by simp [configMembers, member]) (by simp [configMembers, member])
      (fun v c h => by simp only [member]; rw [h]; rfl) (reader_number parse _) node
  · exact given_member parse 9 _ (·.clangChecker) _ (fun v => readTriState v .UNDEFINED) _ _ rfl
      (by decide +kernel) (by simp [configMembers, member]) (by simp [configMembers, member])
      (fun v c h => by simp only [member]; rw [h]; rfl) (reader_switch _) node
  · exact given_member parse 10 _ (·.allowDuplicatedViolations) _ (fun v => readTriState v .UNDEFINED) _ _ rfl
      (by decide +kernel) (by simp [configMembers, member]) (by simp [configMembers, member])
      (fun v c h => by simp only [member]; rw [h]; rfl) (reader_switch _) node
  · exact given_member parse 11 _ (·.enableGlobalAnalysis) _ (fun v => readTriState v .UNDEFINED) _ _ rfl
      (by decide +kernel) (by simp [configMembers, member]) (by simp [configMembers])
      (fun v c h => by simp only [member]; rw [h]; rfl) (reader_switch _) node

/-! ## There is only one reading -/

/-- At most one value. -/
def OneValue (is : Yaml → α → Prop) : Prop := ∀ v x y, is v x → is v y → x = y

theorem one_text : OneValue PlainText := by
  intro v x y h h'; exact Yaml.scalar.inj (h.symm.trans h')

theorem one_number (parse : Str → Option Int) : OneValue (NumberOf parse) := by
  rintro v x y ⟨s, rfl, h, -⟩ ⟨s', hs, h', -⟩
  cases hs; rw [h] at h'; exact Option.some.inj h'

theorem one_switch : OneValue SwitchOf := by
  intro v x y h h'
  rcases switch_text h with ⟨a, rfl⟩ | ⟨a, rfl⟩ <;> rcases switch_text h' with ⟨b, rfl⟩ | ⟨b, rfl⟩
  · rfl
  · exact absurd (Yaml.scalar.inj (b.symm.trans a)) true_ne_false
  · exact absurd (Yaml.scalar.inj (a.symm.trans b)) true_ne_false
  · rfl

theorem one_unset (is : Yaml → α → Prop) (u : α) : OneValue (Unset is u) := by
  rintro v x y ⟨-, rfl⟩ ⟨-, rfl⟩; rfl

theorem one_under {entries : List (Str × Yaml)} {key s t : Str} (h : TextUnder entries key s)
    (h' : TextUnder entries key t) : s = t := by
  rcases h with h | ⟨h, rfl⟩ <;> rcases h' with h' | ⟨h', rfl⟩
  · have := yamlFind_iff.2 h
    rw [yamlFind_iff.2 h'] at this
    exact (Yaml.scalar.inj (Option.some.inj this)).symm
  · exact absurd ⟨_, h⟩ h'
  · exact absurd ⟨_, h'⟩ h
  · rfl

theorem pairOf_cases {v : Yaml} {p : Str × Str} (h : PairOf v p) :
    v = .empty ∧ p = ([], []) ∨ ∃ entries, v = .map entries := by
  cases h with
  | empty => exact .inl ⟨rfl, rfl⟩
  | mk => exact .inr ⟨_, rfl⟩

theorem one_pair : OneValue PairOf := by
  intro v x y h h'
  rcases pairOf_cases h with ⟨rfl, rfl⟩ | ⟨entries, rfl⟩
  · rcases pairOf_cases h' with ⟨-, rfl⟩ | ⟨entries, he⟩
    · rfl
    · cases he
  · have a := pairOf_map h
    have b := pairOf_map h'
    exact Prod.ext (one_under a.2.1 b.2.1) (one_under a.2.2 b.2.2)

theorem pairLeft_cases {v : Yaml} {p : Str × Str} (h : PairLeft v p) :
    (∀ entries, v ≠ .map entries) ∧ p = ([], []) ∨
      ∃ entries, v = .map entries ∧ (NoText entries "key".toList ∧ p = ([], []) ∨
        TextUnder entries "key".toList p.1 ∧ NoText entries "value".toList ∧ p.2 = [] ∨
        TextUnder entries "key".toList p.1 ∧ TextUnder entries "value".toList p.2) := by
  cases h with
  | scalar => exact .inl ⟨(by intro e he; cases he), rfl⟩
  | seq => exact .inl ⟨(by intro e he; cases he), rfl⟩
  | key h => exact .inr ⟨_, rfl, .inl ⟨h, rfl⟩⟩
  | value h h' => exact .inr ⟨_, rfl, .inr (.inl ⟨h, h', rfl⟩)⟩
  | more h h' _ => exact .inr ⟨_, rfl, .inr (.inr ⟨h, h'⟩)⟩

theorem one_pairLeft : OneValue PairLeft := by
  intro v x y h h'
  rcases pairLeft_cases h with ⟨hn, rfl⟩ | ⟨entries, rfl, hx⟩
  · rcases pairLeft_cases h' with ⟨-, rfl⟩ | ⟨entries, he, -⟩
    · rfl
    · exact absurd he (hn entries)
  · rcases pairLeft_cases h' with ⟨hn, -⟩ | ⟨entries', he, hy⟩
    · exact absurd rfl (hn entries)
    · cases he
      rcases hx with ⟨a, rfl⟩ | ⟨a, b, c⟩ | ⟨a, b⟩ <;> rcases hy with ⟨d, rfl⟩ | ⟨d, e, f⟩ | ⟨d, e⟩
      · rfl
      · exact absurd a (textUnder_noText d)
      · exact absurd a (textUnder_noText d)
      · exact absurd d (textUnder_noText a)
      · exact Prod.ext (one_under a d) (c.trans f.symm)
      · exact absurd b (textUnder_noText e)
      · exact absurd d (textUnder_noText a)
      · exact absurd e (textUnder_noText b)
      · exact Prod.ext (one_under a d) (one_under b e)

theorem one_list {is : Yaml → α → Prop} (h : OneValue is) : OneValue (ListOf is) := by
  intro v x y hx
  induction hx generalizing y with
  | empty => intro hy; cases hy; rfl
  | null _ => intro hy; cases hy; rfl
  | nil => intro hy; cases hy; rfl
  | cons hv _ ih =>
    intro hy
    rcases listOf_seq hy with ⟨he, _⟩ | ⟨_, _, _, _, he, rfl, hv', hl⟩
    · cases he
    · cases he; rw [h _ _ _ hv hv', ih _ hl]

theorem one_listLeft {is left : Yaml → α → Prop} (h : OneValue is) (h' : OneValue left)
    (hd : ∀ v x y, is v x → ¬ left v y) : OneValue (ListLeft is left) := by
  intro v x y hx
  induction hx generalizing y with
  | scalar _ => intro hy; cases hy; rfl
  | map => intro hy; cases hy; rfl
  | here hv =>
    intro hy
    rcases listLeft_seq hy with ⟨_, _, _, he, rfl, hv'⟩ | ⟨_, _, _, _, he, rfl, hv', _⟩
    · cases he; rw [h' _ _ _ hv hv']
    · cases he; exact absurd hv (hd _ _ _ hv')
  | there hv _ ih =>
    intro hy
    rcases listLeft_seq hy with ⟨_, _, _, he, rfl, hv'⟩ | ⟨_, _, _, _, he, rfl, hv', hl⟩
    · cases he; exact absurd hv' (hd _ _ _ hv)
    · cases he; rw [h _ _ _ hv hv', ih _ hl]

/-- A reader's two relations exclude each other. -/
theorem reader_excludes {read : Yaml → Reading α} {is left : Yaml → α → Prop}
    (h : ReaderFor read is left) (v : Yaml) (x y : α) (hx : is v x) : ¬ left v y := by
  rcases h v with ⟨-, -, hl⟩ | ⟨-, -, hi⟩
  · exact hl y
  · exact absurd hx (hi x)

theorem one_given {parse : Str → Option Int} {doc : Yaml} {key : Str} {is left : Yaml → α → Prop}
    {u x y : α} (hi : OneValue is) (hl : OneValue left) (hd : ∀ v x y, is v x → ¬ left v y)
    (hx : Given parse doc key is left u x) (hy : Given parse doc key is left u y) : x = y := by
  rcases hx with ⟨v, hv, hr, hx⟩ | ⟨hn, rfl⟩ <;> rcases hy with ⟨w, hw, hr', hy⟩ | ⟨hn', rfl⟩
  · have : v = w := by
      cases doc with
      | map entries =>
        have a := yamlFind_iff.2 hv
        rw [yamlFind_iff.2 hw] at a
        exact (Option.some.inj a).symm
      | _ => exact absurd ⟨v, hv⟩ (no_entry (by intro l h; cases h))
    subst this
    rcases hx with hx | hx <;> rcases hy with hy | hy
    · exact hi _ _ _ hx hy
    · exact absurd hy (hd _ _ _ hx)
    · exact absurd hx (hd _ _ _ hy)
    · exact hl _ _ _ hx hy
  · rcases hn' with h | h
    · exact absurd ⟨v, hv⟩ h
    · exact absurd hr h
  · rcases hn with h | h
    · exact absurd ⟨w, hw⟩ h
    · exact absurd hr' h
  · rfl

/-- The document is read as one configuration and no other. -/
theorem C90_exactly (parse : Str → Option Int) (node : Yaml) (c : ConfigFile) :
    readDocument parse (some node) = c ↔ ReadsAs parse node c := by
  constructor
  · rintro rfl; exact C90_members parse node
  · intro h
    have g := C90_members parse node
    generalize readDocument parse (some node) = d at g
    have tx := one_list one_text
    have tl := one_listLeft one_text (one_unset PlainText []) (reader_excludes (reader_text []))
    have td := reader_excludes (reader_vector (reader_text []))
    have sl := one_unset PlainText ([] : Str)
    have sd := reader_excludes (reader_text [])
    have nl := one_unset (NumberOf parse) (-2147483648)
    have nd := reader_excludes (reader_number parse (-2147483648))
    have wl := one_unset SwitchOf TriState.UNDEFINED
    have wd := reader_excludes (reader_switch .UNDEFINED)
    have e1 := one_given tx tl td g.rules h.rules
    have e2 := one_given tx tl td g.disableRules h.disableRules
    have e3 := one_given tx tl td g.rulePaths h.rulePaths
    have e4 := one_given (one_list one_pair)
      (one_listLeft one_pair one_pairLeft (reader_excludes reader_pair))
      (reader_excludes (reader_vector reader_pair)) g.ruleConfigurations h.ruleConfigurations
    have e5 := one_given one_text sl sd g.output h.output
    have e6 := one_given one_text sl sd g.reportType h.reportType
    have e7 := one_given (one_number parse) nl nd g.maxP1 h.maxP1
    have e8 := one_given (one_number parse) nl nd g.maxP2 h.maxP2
    have e9 := one_given (one_number parse) nl nd g.maxP3 h.maxP3
    have e10 := one_given one_switch wl wd g.clangChecker h.clangChecker
    have e11 := one_given one_switch wl wd g.allowDuplicatedViolations h.allowDuplicatedViolations
    have e12 := one_given one_switch wl wd g.enableGlobalAnalysis h.enableGlobalAnalysis
    cases c; cases d
    simp only at e1 e2 e3 e4 e5 e6 e7 e8 e9 e10 e11 e12
    subst e1 e2 e3 e4 e5 e6 e7 e8 e9 e10 e11 e12
    rfl

/-- A text that is no YAML sets nothing. -/
theorem C90_garbage (parse : Str → Option Int) : readDocument parse none = .initial := rfl

/-- Entries that are not of the configuration change nothing. -/
theorem C90_unknown (parse : Str → Option Int) (entries entries' : List (Str × Yaml))
    (h : ∀ k ∈ configKeys, ∀ v, EntryOf (.map entries) k.1 v ↔ EntryOf (.map entries') k.1 v) :
    readDocument parse (some (.map entries)) = readDocument parse (some (.map entries')) := by
  have hkey : ∀ m ∈ configMembers parse, yamlFind m.1 entries = yamlFind m.1 entries' := by
    intro m hm
    obtain ⟨i, hi, he⟩ := List.getElem_of_mem hm
    have hk := members_keys parse i
    rw [List.getElem?_eq_getElem hi, he] at hk
    cases hc : configKeys[i]? with
    | none => rw [hc] at hk; cases hk
    | some k =>
      rw [hc] at hk
      have hk' : m.1 = k.1 := Option.some.inj hk
      rw [hk']
      have := h k (List.mem_of_getElem? hc)
      apply Option.ext
      intro v
      rw [yamlFind_iff, yamlFind_iff]
      exact this v
  have : ∀ (ms : List (Str × (Yaml → ConfigFile → Reading ConfigFile))) st,
      (∀ m ∈ ms, yamlFind m.1 entries = yamlFind m.1 entries') →
      readMembers (.map entries) ms st = readMembers (.map entries') ms st := by
    intro ms
    induction ms with
    | nil => intro st _; rfl
    | cons m ms ih =>
      intro st hms
      have e1 : ∀ d, readMembers d (m :: ms) st = readMembers d ms (mapOptional d m.1 m.2 st) :=
        fun _ => rfl
      rw [e1, e1, ← ih _ (fun m' h' => hms m' (by simp [h']))]
      congr 1
      simp only [mapOptional, hms m (by simp)]
  simp only [readDocument, endMapping_value]
  exact congrArg Reading.value (this _ _ hkey)

/-- In a well formed file every key is reached. -/
theorem reached_of_valid (parse : Str → Option Int) (node : Yaml)
    (hv : ∀ k ∈ configKeys, ∀ v, EntryOf node k.1 v → OfKind parse k.2 v) (key : Str) :
    Reached parse node key :=
  fun k hk => hv k (List.takeWhile_subset _ hk)

/-- If `rules` is not a list, nothing after it is read; the program goes on. -/
theorem C90_stops_reading (parse : Str → Option Int) (node v : Yaml)
    (he : EntryOf node "rules".toList v) (hv : ¬ ∃ l, TextsOf v l) :
    ∃ l, TextsLeft v l ∧
      readDocument parse (some node) = { ConfigFile.initial with rules := l } := by
  have nr : ∀ key, ("rules".toList, EntryKind.texts) ∈
      configKeys.takeWhile (fun e => decide (e.1 ≠ key)) → ¬ Reached parse node key :=
    fun key hk h => hv (h _ hk v he)
  obtain ⟨l, hl⟩ : ∃ l, TextsLeft v l := by
    rcases reader_vector (reader_text []) v with ⟨-, hi, -⟩ | ⟨-, hl, -⟩
    · exact absurd ⟨_, hi⟩ hv
    · exact ⟨_, hl⟩
  refine ⟨l, hl, (C90_exactly parse node _).2 ?_⟩
  constructor
  · refine .inl ⟨v, he, ?_, .inr hl⟩
    intro k hk
    have : configKeys.takeWhile (fun e => decide (e.1 ≠ "rules".toList)) = [] := by decide +kernel
    rw [this] at hk; cases hk
  all_goals exact .inr ⟨.inr (nr _ (by decide +kernel)), rfl⟩

/-! ## Examples -/

/-- A number, for the examples: one digit. -/
def oneDigit (s : Str) : Option Int :=
  match s with
  | [c] => if c.isDigit then some (c.toNat - 48) else none
  | _ => none

/-- `disable-rules: [A, B]`, `max-priority-2: 7`, `enable-global-analysis: true`. -/
def exDocument : Yaml :=
  .map [("max-priority-2".toList, .scalar "7".toList),
    ("disable-rules".toList, .seq [.scalar "A".toList, .scalar "B".toList]),
    ("enable-global-analysis".toList, .scalar "true".toList)]

example : readDocument oneDigit (some exDocument) =
    { ConfigFile.initial with
      disableRules := ["A".toList, "B".toList], maxP2 := 7, enableGlobalAnalysis := .TRUE } := by
  decide +kernel

/-- The limit is lost because of the disabled rules: they are not a list. -/
example : readDocument oneDigit (some (.map [("max-priority-2".toList, .scalar "7".toList),
    ("disable-rules".toList, .scalar "A".toList)])) = .initial := by decide +kernel

/-- A mistake in the last key loses nothing; `yes` is not a switch. -/
example : readDocument oneDigit (some (.map [("max-priority-2".toList, .scalar "7".toList),
    ("enable-global-analysis".toList, .scalar "yes".toList)])) =
      { ConfigFile.initial with maxP2 := 7 } := by decide +kernel

/-- A nested list leaves an empty rule name behind. -/
example : readDocument oneDigit (some (.map [("rules".toList,
    .seq [.scalar "A".toList, .seq [.scalar "B".toList], .scalar "C".toList])])) =
      { ConfigFile.initial with rules := ["A".toList, []] } := by decide +kernel

/-- The premise of `C90_stops_reading` can be met. -/
example : EntryOf (.map [("rules".toList, .scalar "A".toList)]) "rules".toList (.scalar "A".toList) :=
  EntryOf.mk (pre := []) (by simp)

end Oclint
