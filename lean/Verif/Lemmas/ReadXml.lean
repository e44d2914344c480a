import Verif.Lemmas.ReadNumbers
import Verif.Lemmas.Metrics
import Verif.Lemmas.Results

/-! The XML scanner applied to pieces of text. -/

namespace Oclint
open Spec

/-- The scan continues after the pieces `ts`. -/
def emit (ts : List Tok) (o : Option (LexState × List Tok)) : Option (LexState × List Tok) :=
  o.map fun p => (p.1, ts ++ p.2)

theorem emit_nil (o : Option (LexState × List Tok)) : emit [] o = o := by
  cases o <;> rfl

theorem emit_emit (a b : List Tok) (o : Option (LexState × List Tok)) :
    emit a (emit b o) = emit (a ++ b) o := by
  cases o <;> simp [emit]

theorem emit_some (a : List Tok) (st : LexState) (ts : List Tok) :
    emit a (some (st, ts)) = some (st, a ++ ts) := rfl

theorem lexRun_cons (st : LexState) (c : Char) (s : Str) :
    lexRun st (c :: s) = (lexStep c st).bind fun r => emit r.2 (lexRun r.1 s) := rfl

theorem lexRun_step {st st' : LexState} {c : Char} {ts : List Tok} (h : lexStep c st = some (st', ts))
    (s : Str) : lexRun st (c :: s) = emit ts (lexRun st' s) := by
  rw [lexRun_cons, h]; rfl

theorem lexRun_step' {st st' : LexState} {c : Char} (h : lexStep c st = some (st', []))
    (s : Str) : lexRun st (c :: s) = lexRun st' s := by
  rw [lexRun_step h, emit_nil]

/-- A name. -/
def isName (s : Str) : Bool := !s.isEmpty && s.all nameChar

theorem nameChar_ne {c : Char} (h : nameChar c = true) :
    c ≠ '?' ∧ c ≠ '/' ∧ c ≠ '>' ∧ c ≠ ' ' ∧ c ≠ '\n' ∧ c ≠ '=' := by
  refine ⟨?_, ?_, ?_, ?_, ?_, ?_⟩ <;> (rintro rfl; revert h; decide)

theorem lex_lt (acc r : Str) : lexRun (.text acc) ('<' :: r) = emit (textTok acc) (lexRun .lt r) :=
  lexRun_step (by simp [lexStep]) r

theorem lex_text (t r : Str) (h : '<' ∉ t) :
    ∀ acc, lexRun (.text acc) (t ++ r) = lexRun (.text (t.reverse ++ acc)) r := by
  induction t with
  | nil => intro acc; rfl
  | cons c t ih =>
    intro acc
    simp only [List.mem_cons, not_or] at h
    rw [List.cons_append, lexRun_step' (st' := .text (c :: acc)), ih h.2]
    · simp
    · simp [lexStep, Ne.symm h.1]

/-- Text between two tags. -/
theorem lex_textLt (t r : Str) (h : '<' ∉ t) :
    lexRun (.text []) (t ++ '<' :: r) =
      emit (if t = [] then [] else [.text t]) (lexRun .lt r) := by
  rw [lex_text t _ h, lex_lt]
  simp [textTok]

theorem lex_nameTail (n r : Str) (h : n.all nameChar = true) :
    ∀ acc, lexRun (.name acc) (n ++ r) = lexRun (.name (n.reverse ++ acc)) r := by
  induction n with
  | nil => intro acc; rfl
  | cons c n ih =>
    intro acc
    simp only [List.all_cons, Bool.and_eq_true] at h
    obtain ⟨-, -, h3, h4, h5, -⟩ := nameChar_ne h.1
    rw [List.cons_append, lexRun_step' (st' := .name (c :: acc)), ih h.2]
    · simp
    · simp only [lexStep, if_neg h3, h4, h5, or_self, if_false, h.1, if_true]

theorem lex_name (n r : Str) (h : isName n = true) :
    lexRun .lt (n ++ r) = lexRun (.name n.reverse) r := by
  cases n with
  | nil => simp [isName] at h
  | cons c n =>
    simp only [isName, List.isEmpty_cons, Bool.not_false, Bool.true_and, List.all_cons,
      Bool.and_eq_true] at h
    obtain ⟨h1, h2, -, -, -, -⟩ := nameChar_ne h.1
    rw [List.cons_append, lexRun_step' (st' := .name [c]), lex_nameTail n r h.2]
    · simp
    · simp only [lexStep, if_neg h1, if_neg h2, h.1, if_true]

/-- `<name>` -/
theorem lex_open (n r : Str) (h : isName n = true) :
    lexRun .lt (n ++ '>' :: r) = emit [.open n []] (lexRun (.text []) r) := by
  rw [lex_name n _ h, lexRun_step (st' := .text []) (ts := [.open n []])]
  simp [lexStep]

/-- `<name ` -/
theorem lex_openSpace (n r : Str) (h : isName n = true) :
    lexRun .lt (n ++ ' ' :: r) = lexRun (.inTag n []) r := by
  rw [lex_name n _ h, lexRun_step' (st' := .inTag n [])]
  simp [lexStep]

theorem lex_closeTail (n r : Str) (h : n.all nameChar = true) :
    ∀ acc, lexRun (.closing acc) (n ++ r) = lexRun (.closing (n.reverse ++ acc)) r := by
  induction n with
  | nil => intro acc; rfl
  | cons c n ih =>
    intro acc
    simp only [List.all_cons, Bool.and_eq_true] at h
    obtain ⟨-, -, h3, -, -, -⟩ := nameChar_ne h.1
    rw [List.cons_append, lexRun_step' (st' := .closing (c :: acc)), ih h.2]
    · simp
    · simp only [lexStep, if_neg h3, h.1, if_true]

/-- `</name>` -/
theorem lex_close (n r : Str) (h : n.all nameChar = true) :
    lexRun .lt ('/' :: (n ++ '>' :: r)) = emit [.close n] (lexRun (.text []) r) := by
  rw [lexRun_step' (st' := .closing []) (by simp [lexStep]), lex_closeTail n _ h,
    lexRun_step (st' := .text []) (ts := [.close n])]
  simp [lexStep]

theorem lex_attrNameTail (tag : Str) (as : List (Str × Str)) (k r : Str) (h : k.all nameChar = true) :
    ∀ acc, lexRun (.attrName tag as acc) (k ++ r) = lexRun (.attrName tag as (k.reverse ++ acc)) r := by
  induction k with
  | nil => intro acc; rfl
  | cons c n ih =>
    intro acc
    simp only [List.all_cons, Bool.and_eq_true] at h
    obtain ⟨-, -, -, -, -, h6⟩ := nameChar_ne h.1
    rw [List.cons_append, lexRun_step' (st' := .attrName tag as (c :: acc)), ih h.2]
    · simp
    · simp only [lexStep, if_neg h6, h.1, if_true]

theorem lex_attrName (tag : Str) (as : List (Str × Str)) (k r : Str) (h : isName k = true) :
    lexRun (.inTag tag as) (k ++ '=' :: r) = lexRun (.attrEq tag as k) r := by
  cases k with
  | nil => simp [isName] at h
  | cons c k =>
    simp only [isName, List.isEmpty_cons, Bool.not_false, Bool.true_and, List.all_cons,
      Bool.and_eq_true] at h
    obtain ⟨-, -, h3, h4, h5, -⟩ := nameChar_ne h.1
    rw [List.cons_append, lexRun_step' (st' := .attrName tag as [c]), lex_attrNameTail _ _ _ _ h.2,
      lexRun_step' (st' := .attrEq tag as (c :: k))]
    · simp [lexStep]
    · simp only [lexStep, if_neg h3, h4, h5, or_self, if_false, h.1, if_true]

theorem lex_attrValue (tag : Str) (as : List (Str × Str)) (k : Str) (q : Char) (v r : Str)
    (h : ∀ c ∈ v, c ≠ q ∧ c ≠ '<') :
    ∀ acc, lexRun (.attrValue tag as k q acc) (v ++ q :: r) =
      lexRun (.afterValue tag (as ++ [(k, acc.reverse ++ v)])) r := by
  induction v with
  | nil =>
    intro acc
    rw [List.nil_append, lexRun_step' (st' := .afterValue tag (as ++ [(k, acc.reverse)]))]
    · simp
    · simp [lexStep]
  | cons c v ih =>
    intro acc
    obtain ⟨h1, h2⟩ := h c (by simp)
    rw [List.cons_append, lexRun_step' (st' := .attrValue tag as k q (c :: acc)),
      ih (fun d hd => h d (by simp [hd]))]
    · simp
    · simp only [lexStep, if_neg h1, if_neg h2]

/-- `key="value"` -/
theorem lex_attr (tag : Str) (as : List (Str × Str)) (k v r : Str) (hk : isName k = true)
    (hv : ∀ c ∈ v, c ≠ '"' ∧ c ≠ '<') :
    lexRun (.inTag tag as) (k ++ '=' :: '"' :: (v ++ '"' :: r)) =
      lexRun (.afterValue tag (as ++ [(k, v)])) r := by
  rw [lex_attrName _ _ _ _ hk, lexRun_step' (st' := .attrValue tag as k '"' []) (by simp [lexStep]),
    lex_attrValue _ _ _ _ _ _ hv]
  rfl

/-- `key='value'` -/
theorem lex_attr' (tag : Str) (as : List (Str × Str)) (k v r : Str) (hk : isName k = true)
    (hv : ∀ c ∈ v, c ≠ '\'' ∧ c ≠ '<') :
    lexRun (.inTag tag as) (k ++ '=' :: '\'' :: (v ++ '\'' :: r)) =
      lexRun (.afterValue tag (as ++ [(k, v)])) r := by
  rw [lex_attrName _ _ _ _ hk, lexRun_step' (st' := .attrValue tag as k '\'' []) (by simp [lexStep]),
    lex_attrValue _ _ _ _ _ _ hv]
  rfl

theorem lex_space (tag : Str) (as : List (Str × Str)) (r : Str) :
    lexRun (.inTag tag as) (' ' :: r) = lexRun (.inTag tag as) r :=
  lexRun_step' (by simp [lexStep]) r

theorem lex_end (tag : Str) (as : List (Str × Str)) (r : Str) :
    lexRun (.inTag tag as) ('>' :: r) = emit [.open tag as] (lexRun (.text []) r) :=
  lexRun_step (by simp [lexStep]) r

theorem lex_valueSpace (tag : Str) (as : List (Str × Str)) (r : Str) :
    lexRun (.afterValue tag as) (' ' :: r) = lexRun (.inTag tag as) r :=
  lexRun_step' (by simp [lexStep]) r

theorem lex_valueEnd (tag : Str) (as : List (Str × Str)) (r : Str) :
    lexRun (.afterValue tag as) ('>' :: r) = emit [.open tag as] (lexRun (.text []) r) :=
  lexRun_step (by simp [lexStep]) r

theorem lex_piTail (p r : Str) (h : '>' ∉ p) :
    ∀ acc, lexRun (.pi acc) (p ++ '?' :: '>' :: r) =
      emit [.pi (acc.reverse ++ p)] (lexRun (.text []) r) := by
  induction p with
  | nil =>
    intro acc
    rw [List.nil_append, lexRun_step' (st' := .pi ('?' :: acc)) (by simp [lexStep]),
      lexRun_step (st' := .text []) (ts := [.pi acc.reverse])]
    · simp
    · simp [lexStep]
  | cons c p ih =>
    intro acc
    simp only [List.mem_cons, not_or] at h
    rw [List.cons_append, lexRun_step' (st' := .pi (c :: acc)), ih h.2]
    · simp
    · simp [lexStep, Ne.symm h.1]

/-- `<?...?>` -/
theorem lex_pi (p r : Str) (h : '>' ∉ p) :
    lexRun .lt ('?' :: (p ++ '?' :: '>' :: r)) = emit [.pi p] (lexRun (.text []) r) := by
  rw [lexRun_step' (st' := .pi []) (by simp [lexStep]), lex_piTail p r h]
  rfl

/-! ### Entities -/

theorem decodeFrom_plain (s : Str) (h : ∀ c ∈ s, c ≠ '&' ∧ c ≠ '<') : decodeEntities s = some s := by
  unfold decodeEntities
  induction s with
  | nil => rfl
  | cons c s ih =>
    obtain ⟨h1, h2⟩ := h c (by simp)
    rw [decodeFrom, if_neg h1, if_neg h2, ih (fun d hd => h d (by simp [hd]))]
    rfl

theorem decodeFrom_append (a b : Str) :
    ∀ st a', decodeFrom st a = some a' →
      decodeFrom st (a ++ b) = (decodeFrom none b).map fun b' => a' ++ b' := by
  induction a with
  | nil =>
    intro st a' h
    cases st with
    | none =>
      simp only [decodeFrom, Option.some.injEq] at h
      subst h
      simp
    | some n => simp [decodeFrom] at h
  | cons c a ih =>
    intro st a' h
    cases st with
    | none =>
      rw [List.cons_append, decodeFrom]
      rw [decodeFrom] at h
      by_cases hc : c = '&'
      · simp only [hc, if_true] at h ⊢
        exact ih _ _ h
      · simp only [if_neg hc] at h ⊢
        by_cases hc' : c = '<'
        · simp [hc'] at h
        · simp only [if_neg hc'] at h ⊢
          simp only [Option.map_eq_some_iff] at h
          obtain ⟨t, ht, rfl⟩ := h
          rw [ih _ _ ht]
          cases decodeFrom none b <;> simp
    | some n =>
      rw [List.cons_append, decodeFrom]
      rw [decodeFrom] at h
      by_cases hc : c = ';'
      · simp only [hc, if_true] at h ⊢
        cases he : entity n.reverse with
        | none => simp [he] at h
        | some d =>
          simp only [he, Option.bind_some, Option.map_eq_some_iff] at h ⊢
          obtain ⟨t, ht, rfl⟩ := h
          rw [ih _ _ ht]
          cases decodeFrom none b <;> simp
      · simp only [if_neg hc] at h ⊢
        exact ih _ _ h

theorem decodeEntities_append (a b a' b' : Str) (ha : decodeEntities a = some a')
    (hb : decodeEntities b = some b') : decodeEntities (a ++ b) = some (a' ++ b') := by
  unfold decodeEntities at *
  rw [decodeFrom_append a b none a' ha, hb]
  rfl

theorem decodeToks_append (a b a' b' : List Tok) (ha : decodeToks a = some a')
    (hb : decodeToks b = some b') : decodeToks (a ++ b) = some (a' ++ b') := by
  induction a generalizing a' with
  | nil =>
    simp only [decodeToks, Option.some.injEq] at ha
    subst ha
    simpa using hb
  | cons t a ih =>
    rw [decodeToks] at ha
    rw [List.cons_append, decodeToks]
    cases ht : decodeTok t with
    | none => simp [ht] at ha
    | some t' =>
      simp only [ht, Option.bind_some, Option.map_eq_some_iff] at ha ⊢
      obtain ⟨r, hr, rfl⟩ := ha
      exact ⟨_, ih r hr, rfl⟩

theorem decodeToks_cons (t t' : Tok) (r r' : List Tok) (h : decodeTok t = some t')
    (hr : decodeToks r = some r') : decodeToks (t :: r) = some (t' :: r') := by
  rw [decodeToks, h, hr]; rfl

/-- Attribute lists without special characters. -/
def PlainAttrs (as : List (Str × Str)) : Prop := ∀ p ∈ as, ∀ c ∈ p.2, (c ≠ '&' ∧ c ≠ '<') ∧ 32 ≤ c.toNat

theorem attrBlank_id (v : Str) (h : ∀ c ∈ v, 32 ≤ c.toNat) : v.map attrBlank = v := by
  induction v with
  | nil => rfl
  | cons c v ih =>
    have hc := h c (by simp)
    have e : attrBlank c = c := by
      unfold attrBlank
      rw [if_neg]
      rintro (rfl | rfl) <;> exact absurd hc (by decide)
    rw [List.map_cons, e, ih (fun d hd => h d (by simp [hd]))]

theorem decodeAttrs_plain (as : List (Str × Str)) (h : PlainAttrs as) : decodeAttrs as = some as := by
  induction as with
  | nil => rfl
  | cons p as ih =>
    obtain ⟨k, v⟩ := p
    rw [decodeAttrs, attrBlank_id v (fun c hc => (h (k, v) (by simp) c hc).2),
      decodeFrom_plain v (fun c hc => (h (k, v) (by simp) c hc).1), ih (fun q hq => h q (by simp [hq]))]
    rfl

theorem decodeTok_open (n : Str) (as : List (Str × Str)) (h : PlainAttrs as) :
    decodeTok (.open n as) = some (.open n as) := by
  rw [decodeTok, decodeAttrs_plain as h]; rfl

theorem decodeTok_text (s : Str) (h : ∀ c ∈ s, c ≠ '&' ∧ c ≠ '<') :
    decodeTok (.text s) = some (.text s) := by
  rw [decodeTok, decodeFrom_plain s h]; rfl

theorem decodeToks_flatMap {α : Type} (f g : α → List Tok) (l : List α)
    (h : ∀ a ∈ l, decodeToks (f a) = some (g a)) :
    decodeToks (l.flatMap f) = some (l.flatMap g) := by
  induction l with
  | nil => rfl
  | cons a l ih =>
    simp only [List.flatMap_cons]
    exact decodeToks_append _ _ _ _ (h a (by simp)) (ih (fun b hb => h b (by simp [hb])))

/-! ### Characters -/

theorem xmlChar_decimalInt (z : Int) : (decimalInt z).all xmlChar = true := by
  rw [List.all_eq_true]
  intro c hc
  have : c.isDigit = true ∨ c = '-' := by
    unfold decimalInt at hc
    split at hc
    · rcases List.mem_cons.1 hc with h | h
      · exact .inr h
      · exact .inl (decimal_all_digits _ _ h)
    · exact .inl (decimal_all_digits _ _ hc)
  rcases this with h | h
  · have h1 : 48 ≤ c.toNat := by
      simp only [Char.isDigit, Bool.and_eq_true, decide_eq_true_eq] at h
      exact h.1
    simp only [xmlChar, Bool.or_eq_true, decide_eq_true_eq]
    left; left; omega
  · subst h; decide

theorem xmlChar_safe (s : Str) (h : XmlSafe s) : s.all xmlChar = true := by
  rw [List.all_eq_true]
  intro c hc
  simp only [xmlChar, Bool.or_eq_true, decide_eq_true_eq]
  exact .inl (.inl (h c hc).2.2.2)

theorem decimalInt_plain (z : Int) : ∀ c ∈ decimalInt z, c ≠ '&' ∧ c ≠ '<' := by
  intro c hc
  refine ⟨?_, ?_⟩ <;> rintro rfl <;> exact not_mem_decimalInt z _ (by decide) (by decide) hc

theorem decimalInt_quote (z : Int) : ∀ c ∈ decimalInt z, c ≠ '"' ∧ c ≠ '<' := by
  intro c hc
  refine ⟨?_, ?_⟩ <;> rintro rfl <;> exact not_mem_decimalInt z _ (by decide) (by decide) hc

theorem xmlSafe_quote {s : Str} (h : XmlSafe s) : ∀ c ∈ s, c ≠ '"' ∧ c ≠ '<' :=
  fun c hc => ⟨(h c hc).2.2.1, (h c hc).1⟩

theorem xmlSafe_plain {s : Str} (h : XmlSafe s) : ∀ c ∈ s, c ≠ '&' ∧ c ≠ '<' :=
  fun c hc => ⟨(h c hc).2.1, (h c hc).1⟩

theorem xmlSafe_value {s : Str} (h : XmlSafe s) : ∀ c ∈ s, (c ≠ '&' ∧ c ≠ '<') ∧ 32 ≤ c.toNat :=
  fun c hc => ⟨xmlSafe_plain h c hc, (h c hc).2.2.2⟩

/-- Decidable form of `XmlSafe`, for fixed texts. -/
def xmlSafeB (s : Str) : Bool :=
  s.all fun c => c != '<' && c != '&' && c != '"' && decide (32 ≤ c.toNat)

theorem xmlSafe_of (s : Str) (h : xmlSafeB s = true) : XmlSafe s := by
  intro c hc
  simp only [xmlSafeB, List.all_eq_true] at h
  have := h c hc
  simpa [and_assoc] using this

theorem xmlSafe_decimalInt (z : Int) : XmlSafe (decimalInt z) := by
  intro c hc
  refine ⟨(decimalInt_plain z c hc).2, (decimalInt_plain z c hc).1, (decimalInt_quote z c hc).1, ?_⟩
  have := xmlChar_decimalInt z
  rw [List.all_eq_true] at this
  have h := this c hc
  simp only [xmlChar, Bool.or_eq_true, decide_eq_true_eq] at h
  rcases h with (h | h) | h
  · exact h
  all_goals (subst h; exact absurd hc (not_mem_decimalInt z _ (by decide) (by decide)))

theorem decimalInt_value (z : Int) : ∀ c ∈ decimalInt z, (c ≠ '&' ∧ c ≠ '<') ∧ 32 ≤ c.toNat :=
  xmlSafe_value (xmlSafe_decimalInt z)

end Oclint
