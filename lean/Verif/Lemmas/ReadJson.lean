import Verif.Lemmas.ReadNumbers
import Verif.Lemmas.Metrics
import Verif.Lemmas.Results

/-! The JSON reader applied to what the JSON reporter writes. -/

namespace Oclint
open Spec

theorem jsonRun_append (st : JMode × List JCtx) (a b : Str) :
    jsonRun st (a ++ b) = (jsonRun st a).bind fun st' => jsonRun st' b := by
  induction a generalizing st with
  | nil => rfl
  | cons c a ih =>
    simp only [List.cons_append, jsonRun]
    cases jsonStep c st with
    | none => rfl
    | some st' => exact ih st'

theorem jsonRun_cons (st : JMode × List JCtx) (c : Char) (s : Str) :
    jsonRun st (c :: s) = (jsonStep c st).bind fun st' => jsonRun st' s := rfl

theorem jsonRun_str (k : Bool) (s r : Str) (h : JsonSafe s) :
    ∀ acc st, jsonRun (.str k acc, st) (s ++ '"' :: r) =
      jsonRun (jsonStringEnd k (s.reverse ++ acc), st) r := by
  induction s with
  | nil => intro acc st; simp [jsonRun, jsonStep]
  | cons c s ih =>
    intro acc st
    obtain ⟨h1, h2, h3⟩ := h c (by simp)
    have h3' : ¬ c.toNat < 32 := by omega
    rw [List.cons_append, jsonRun_cons]
    have e : jsonStep c (.str k acc, st) = some (.str k (c :: acc), st) := by
      simp only [jsonStep, if_neg h1, if_neg h2, if_neg h3']
    rw [e]
    show jsonRun (.str k (c :: acc), st) (s ++ '"' :: r) = _
    rw [ih (fun d hd => h d (by simp [hd]))]
    simp

theorem jsonRun_digits (s r : Str) (h : ∀ c ∈ s, c.isDigit = true) :
    ∀ acc st, jsonRun (.num acc, st) (s ++ r) = jsonRun (.num (s.reverse ++ acc), st) r := by
  induction s with
  | nil => intro acc st; rfl
  | cons c s ih =>
    intro acc st
    rw [List.cons_append, jsonRun_cons]
    have e : jsonStep c (.num acc, st) = some (.num (c :: acc), st) := by
      simp only [jsonStep, if_pos (h c (by simp))]
    rw [e]
    show jsonRun (.num (c :: acc), st) (s ++ r) = _
    rw [ih (fun d hd => h d (by simp [hd]))]
    simp

theorem notSpace_of_digit {c : Char} (h : c.isDigit = true ∨ c = '-') : jsonSpace c = false := by
  rcases h with h | h
  · cases hs : jsonSpace c
    · rfl
    · simp only [jsonSpace, Bool.or_eq_true, decide_eq_true_eq] at hs
      rcases hs with ((rfl | rfl) | rfl) | rfl <;> exact absurd h (by decide)
  · subst h; decide

theorem jsonBegin_digit {c : Char} (h : c.isDigit = true ∨ c = '-') (st : List JCtx) :
    jsonBegin c st = some (.num [c], st) := by
  have h1 : c ≠ '"' := by rintro rfl; revert h; decide
  have h2 : c ≠ '[' := by rintro rfl; revert h; decide
  have h3 : c ≠ '{' := by rintro rfl; revert h; decide
  simp only [jsonBegin, if_neg h1, if_neg h2, if_neg h3, if_pos h]

theorem jsonRun_int (z : Int) (c : Char) (r : Str) (hc : c.isDigit = false) (st : List JCtx) :
    jsonRun (.value, st) (decimalInt z ++ c :: r) =
      (jsonAfter (.num z) c st).bind fun st' => jsonRun st' r := by
  obtain ⟨d, s, hs⟩ := List.exists_cons_of_ne_nil (decimalInt_ne_nil z)
  have hd : (d.isDigit = true ∨ d = '-') ∧ ∀ x ∈ s, x.isDigit = true := by
    unfold decimalInt at hs
    split at hs
    · simp only [List.cons.injEq] at hs
      refine ⟨.inr hs.1.symm, ?_⟩
      rw [← hs.2]
      exact decimal_all_digits _
    · have := decimal_all_digits z.natAbs
      rw [hs] at this
      exact ⟨.inl (this d (by simp)), fun x hx => this x (by simp [hx])⟩
  have hz := jsonNumber_decimalInt z
  rw [hs] at hz ⊢
  rw [List.cons_append, jsonRun_cons]
  have e : jsonStep d (.value, st) = some (.num [d], st) := by
    simp only [jsonStep, notSpace_of_digit hd.1, jsonBegin_digit hd.1]
    simp
  rw [e]
  show jsonRun (.num [d], st) (s ++ c :: r) = _
  rw [jsonRun_digits s _ hd.2, jsonRun_cons]
  have e2 : jsonStep c (.num (s.reverse ++ [d]), st) = jsonAfter (.num z) c st := by
    have : (s.reverse ++ [d]).reverse = d :: s := by simp
    simp only [jsonStep, hc, this, hz]
    simp
  rw [e2]

theorem jsonRun_key (k r : Str) (h : JsonSafe k) (done : List (Str × Json)) (st : List JCtx) :
    jsonRun (.key, .obj done :: st) (jsonKey k ++ r) = jsonRun (.value, .member done k :: st) r := by
  have e : jsonKey k ++ r = '"' :: (k ++ '"' :: ':' :: r) := by simp [jsonKey]
  rw [e, jsonRun_cons]
  show jsonRun (.str true [], .obj done :: st) (k ++ '"' :: ':' :: r) = _
  rw [jsonRun_str true k _ h]
  simp [jsonStringEnd, jsonRun, jsonStep, jsonSpace]

theorem jsonRun_key' (k r : Str) (h : JsonSafe k) (done : List (Str × Json)) (st : List JCtx) :
    jsonRun (.keyOrEnd, .obj done :: st) (jsonKey k ++ r) =
      jsonRun (.value, .member done k :: st) r := by
  have e : jsonKey k ++ r = '"' :: (k ++ '"' :: ':' :: r) := by simp [jsonKey]
  rw [← jsonRun_key k r h, e, jsonRun_cons, jsonRun_cons]
  rfl

theorem jsonAfter_comma (v : Json) (done : List (Str × Json)) (k : Str) (st : List JCtx) :
    jsonAfter v ',' (.member done k :: st) = some (.key, .obj (done ++ [(k, v)]) :: st) := rfl

theorem jsonAfter_brace (v : Json) (done : List (Str × Json)) (k : Str) (st : List JCtx) :
    jsonAfter v '}' (.member done k :: st) = some (.after (.obj (done ++ [(k, v)])), st) := rfl

theorem jsonRun_after (v : Json) (c : Char) (st : List JCtx) (r : Str) :
    jsonRun (.after v, st) (c :: r) = (jsonAfter v c st).bind fun st' => jsonRun st' r := rfl

/-- A string value. -/
theorem jsonRun_stringValue (s r : Str) (h : JsonSafe s) (st : List JCtx) :
    jsonRun (.value, st) (['"'] ++ s ++ ['"'] ++ r) = jsonRun (.after (.str s), st) r := by
  have e : ['"'] ++ s ++ ['"'] ++ r = '"' :: (s ++ '"' :: r) := by simp
  rw [e, jsonRun_cons]
  show jsonRun (.str false [], st) (s ++ '"' :: r) = _
  rw [jsonRun_str false s r h]
  simp [jsonStringEnd]

/-- A member with a string, followed by a comma. -/
theorem jsonRun_keyString (k s r : Str) (hk : JsonSafe k) (hs : JsonSafe s)
    (done : List (Str × Json)) (st : List JCtx) :
    jsonRun (.key, .obj done :: st) (jsonKeyString k s false ++ r) =
      jsonRun (.key, .obj (done ++ [(k, .str s)]) :: st) r := by
  have e : jsonKeyString k s false ++ r = jsonKey k ++ (['"'] ++ s ++ ['"'] ++ (',' :: r)) := by
    simp [jsonKeyString, jsonComma]
  rw [e, jsonRun_key k _ hk, jsonRun_stringValue _ _ hs, jsonRun_after, jsonAfter_comma]
  rfl

/-- The last member of an object, a string. -/
theorem jsonRun_keyStringLast (k s r : Str) (hk : JsonSafe k) (hs : JsonSafe s)
    (done : List (Str × Json)) (st : List JCtx) :
    jsonRun (.key, .obj done :: st) (jsonKeyString k s true ++ ('}' :: r)) =
      jsonRun (.after (.obj (done ++ [(k, .str s)])), st) r := by
  have e : jsonKeyString k s true ++ ('}' :: r) = jsonKey k ++ (['"'] ++ s ++ ['"'] ++ ('}' :: r)) := by
    simp [jsonKeyString, jsonComma]
  rw [e, jsonRun_key k _ hk, jsonRun_stringValue _ _ hs, jsonRun_after, jsonAfter_brace]
  rfl

/-- A member with a number, followed by a comma. -/
theorem jsonRun_keyInt (k : Str) (z : Int) (r : Str) (hk : JsonSafe k)
    (done : List (Str × Json)) (st : List JCtx) :
    jsonRun (.key, .obj done :: st) (jsonKeyInt k z false ++ r) =
      jsonRun (.key, .obj (done ++ [(k, .num z)]) :: st) r := by
  have e : jsonKeyInt k z false ++ r = jsonKey k ++ (decimalInt z ++ ',' :: r) := by
    simp [jsonKeyInt, jsonComma, toStringInt_eq]
  rw [e, jsonRun_key k _ hk, jsonRun_int z ',' r (by decide), jsonAfter_comma]
  rfl

/-- The last member of an object, a number. -/
theorem jsonRun_keyIntLast (k : Str) (z : Int) (r : Str) (hk : JsonSafe k)
    (done : List (Str × Json)) (st : List JCtx) :
    jsonRun (.key, .obj done :: st) (jsonKeyInt k z true ++ ('}' :: r)) =
      jsonRun (.after (.obj (done ++ [(k, .num z)])), st) r := by
  have e : jsonKeyInt k z true ++ ('}' :: r) = jsonKey k ++ (decimalInt z ++ '}' :: r) := by
    simp [jsonKeyInt, jsonComma, toStringInt_eq]
  rw [e, jsonRun_key k _ hk, jsonRun_int z '}' r (by decide), jsonAfter_brace]
  rfl

/-- Where an object begins the reader may as well expect a key. -/
theorem jsonRun_open (r : Str) (st : List JCtx) (h : r.head? = some '"') :
    jsonRun (.keyOrEnd, .obj [] :: st) r = jsonRun (.key, .obj [] :: st) r := by
  cases r with
  | nil => simp at h
  | cons c r => simp at h; subst h; rfl

theorem jsonKey_head (k r : Str) : (jsonKey k ++ r).head? = some '"' := by simp [jsonKey]

theorem jsonKeyString_head (k s r : Str) (l : Bool) :
    (jsonKeyString k s l ++ r).head? = some '"' := by simp [jsonKeyString, jsonKey]

theorem jsonKeyInt_head (k r : Str) (z : Int) (l : Bool) :
    (jsonKeyInt k z l ++ r).head? = some '"' := by simp [jsonKeyInt, jsonKey]

/-- Decidable form of `JsonSafe`, for the fixed keys. -/
def jsonSafeB (s : Str) : Bool := s.all fun c => c != '"' && c != '\\' && decide (32 ≤ c.toNat)

theorem jsonSafe_of (s : Str) (h : jsonSafeB s = true) : JsonSafe s := by
  intro c hc
  simp only [jsonSafeB, List.all_eq_true] at h
  have := h c hc
  simpa [and_assoc] using this

end Oclint
