import Verif.Props.ReportPmd

/-!
What a reader of XML can conclude about a text it has read back unchanged.  Entities are longer than the
characters they stand for and a value ends at its first quote, so a value that is read as the text that
was put there has neither.
-/

namespace Oclint
open Spec

/-- The scan from a state on ends outside of tags, with these decoded pieces. -/
def Reads (st : LexState) (s : Str) (E : List Tok) : Prop :=
  ∃ acc ts, lexRun st s = some (.text acc, ts) ∧ decodeToks (ts ++ textTok acc) = some E

theorem decodeToks_rest (a b a' E : List Tok) (ha : decodeToks a = some a')
    (h : decodeToks (a ++ b) = some (a' ++ E)) : decodeToks b = some E := by
  induction a generalizing a' with
  | nil =>
    simp only [decodeToks, Option.some.injEq] at ha
    subst ha
    exact h
  | cons t a ih =>
    rw [decodeToks] at ha
    rw [List.cons_append, decodeToks] at h
    cases ht : decodeTok t with
    | none => simp [ht] at ha
    | some t' =>
      simp only [ht, Option.bind_some, Option.map_eq_some_iff] at ha h
      obtain ⟨r, hr, rfl⟩ := ha
      obtain ⟨r', hr', e⟩ := h
      simp only [List.cons_append, List.cons.injEq, true_and] at e
      subst e
      exact ih r hr hr'

/-- Pieces that were scanned are read. -/
theorem Reads.step {st st' : LexState} {s s' : Str} {ts ts' E : List Tok}
    (h : Reads st s (ts' ++ E)) (hl : lexRun st s = emit ts (lexRun st' s'))
    (hd : decodeToks ts = some ts') : Reads st' s' E := by
  obtain ⟨acc, us, hr, hdec⟩ := h
  rw [hl] at hr
  cases hs : lexRun st' s' with
  | none => rw [hs] at hr; cases hr
  | some p =>
    rw [hs] at hr
    obtain ⟨q, vs⟩ := p
    simp only [emit_some, Option.some.injEq, Prod.mk.injEq] at hr
    obtain ⟨rfl, rfl⟩ := hr
    refine ⟨acc, vs, hs, ?_⟩
    rw [List.append_assoc] at hdec
    exact decodeToks_rest _ _ _ _ hd hdec

theorem Reads.move {st st' : LexState} {s s' : Str} {E : List Tok}
    (h : Reads st s E) (hl : lexRun st s = lexRun st' s') : Reads st' s' E := by
  unfold Reads at *
  rw [hl] at h
  exact h

theorem decodeFrom_shorter (s : Str) : ∀ st t, decodeFrom st s = some t → t.length ≤ s.length ∧
    (st = none → t.length = s.length → t = s ∧ ∀ c ∈ s, c ≠ '&' ∧ c ≠ '<') := by
  induction s with
  | nil =>
    intro st t h
    cases st with
    | none =>
      simp only [decodeFrom, Option.some.injEq] at h
      subst h
      simp
    | some n => simp [decodeFrom] at h
  | cons c s ih =>
    intro st t h
    cases st with
    | none =>
      rw [decodeFrom] at h
      by_cases hc : c = '&'
      · rw [if_pos hc] at h
        obtain ⟨h1, -⟩ := ih _ _ h
        refine ⟨by simp; omega, fun _ e => ?_⟩
        simp at e
        omega
      · rw [if_neg hc] at h
        by_cases hc' : c = '<'
        · rw [if_pos hc'] at h; cases h
        · rw [if_neg hc'] at h
          simp only [Option.map_eq_some_iff] at h
          obtain ⟨u, hu, rfl⟩ := h
          obtain ⟨h1, h2⟩ := ih _ _ hu
          refine ⟨by simp; omega, fun _ e => ?_⟩
          obtain ⟨h3, h4⟩ := h2 rfl (by simpa using e)
          refine ⟨by rw [h3], fun d hd => ?_⟩
          rcases List.mem_cons.1 hd with rfl | hd
          · exact ⟨hc, hc'⟩
          · exact h4 d hd
    | some n =>
      rw [decodeFrom] at h
      refine ⟨?_, fun e => by cases e⟩
      by_cases hc : c = ';'
      · rw [if_pos hc] at h
        cases he : entity n.reverse with
        | none => simp [he] at h
        | some d =>
          simp only [he, Option.bind_some, Option.map_eq_some_iff] at h
          obtain ⟨u, hu, rfl⟩ := h
          obtain ⟨h1, -⟩ := ih _ _ hu
          simp; omega
      · rw [if_neg hc] at h
        obtain ⟨h1, -⟩ := ih _ _ h
        simp; omega

/-- The tag being read, with the attributes read so far. -/
def pending : LexState → Option (Str × List (Str × Str))
  | .inTag n as => some (n, as)
  | .attrName n as _ => some (n, as)
  | .attrEq n as _ => some (n, as)
  | .attrValue n as _ _ _ => some (n, as)
  | .afterValue n as => some (n, as)
  | _ => none

theorem pending_step (c : Char) (st st' : LexState) (ts : List Tok) (n : Str) (as : List (Str × Str))
    (hp : pending st = some (n, as)) (h : lexStep c st = some (st', ts)) :
    (ts = [] ∧ ∃ more, pending st' = some (n, as ++ more)) ∨ ts = [.open n as] := by
  cases st <;> simp only [pending, Option.some.injEq, Prod.mk.injEq, reduceCtorEq] at hp <;>
    obtain ⟨rfl, rfl⟩ := hp <;> simp only [lexStep] at h <;> split_ifs at h <;>
    simp only [Option.some.injEq, Prod.mk.injEq] at h <;> obtain ⟨rfl, rfl⟩ := h
  all_goals first
    | exact .inr rfl
    | exact .inl ⟨rfl, _, rfl⟩
    | exact .inl ⟨rfl, [], by simp [pending]⟩

theorem pending_run (s : Str) : ∀ st n as acc ts, pending st = some (n, as) →
    lexRun st s = some (.text acc, ts) → ∃ more ts', ts = .open n (as ++ more) :: ts' := by
  induction s with
  | nil =>
    intro st n as acc ts hp h
    simp only [lexRun, Option.some.injEq, Prod.mk.injEq] at h
    obtain ⟨rfl, rfl⟩ := h
    cases hp
  | cons c s ih =>
    intro st n as acc ts hp h
    rw [lexRun_cons] at h
    cases hs : lexStep c st with
    | none => simp [hs] at h
    | some p =>
      obtain ⟨st', us⟩ := p
      simp only [hs, Option.bind_some, emit, Option.map_eq_some_iff] at h
      obtain ⟨⟨q, vs⟩, hq, e⟩ := h
      simp only [Prod.mk.injEq] at e
      obtain ⟨rfl, rfl⟩ := e
      rcases pending_step c st st' us n as hp hs with ⟨rfl, more, hp'⟩ | rfl
      · obtain ⟨more', ts', rfl⟩ := ih _ _ _ _ _ hp' hq
        exact ⟨more ++ more', ts', by simp⟩
      · exact ⟨[], vs, by simp⟩

theorem value_run (n : Str) (as : List (Str × Str)) (k : Str) (q : Char) (P r : Str) :
    ∀ acc fin ts, lexRun (.attrValue n as k q acc) (P ++ q :: r) = some (.text fin, ts) →
      ∃ V more ts', ts = .open n (as ++ (k, acc.reverse ++ V) :: more) :: ts' ∧
        V.length ≤ P.length ∧ (V.length = P.length → V = P ∧ ∀ c ∈ P, c ≠ q ∧ c ≠ '<') := by
  induction P with
  | nil =>
    intro acc fin ts h
    rw [List.nil_append, lexRun_step' (st' := .afterValue n (as ++ [(k, acc.reverse)]))
      (by simp [lexStep])] at h
    obtain ⟨more, ts', rfl⟩ := pending_run _ _ _ _ _ _ rfl h
    exact ⟨[], more, ts', by simp, by simp, by simp⟩
  | cons c P ih =>
    intro acc fin ts h
    by_cases hq : c = q
    · subst hq
      rw [List.cons_append, lexRun_step' (st' := .afterValue n (as ++ [(k, acc.reverse)]))
        (by simp [lexStep])] at h
      obtain ⟨more, ts', rfl⟩ := pending_run _ _ _ _ _ _ rfl h
      exact ⟨[], more, ts', by simp, by simp, by simp⟩
    · by_cases hl : c = '<'
      · rw [List.cons_append, lexRun_cons] at h
        simp only [lexStep, if_neg hq, if_pos hl, Option.bind_none] at h
        cases h
      · rw [List.cons_append, lexRun_step' (st' := .attrValue n as k q (c :: acc))
          (by simp only [lexStep, if_neg hq, if_neg hl])] at h
        obtain ⟨V, more, ts', rfl, h1, h2⟩ := ih _ _ _ h
        refine ⟨c :: V, more, ts', by simp, by simpa using h1, fun e => ?_⟩
        obtain ⟨rfl, h3⟩ := h2 (by simpa using e)
        refine ⟨rfl, fun d hd => ?_⟩
        rcases List.mem_cons.1 hd with rfl | hd
        · exact ⟨hq, hl⟩
        · exact h3 d hd

theorem decodeAttrs_at (as bs cs : List (Str × Str)) (k v k' v' : Str) (ha : decodeAttrs as = some as)
    (h : decodeAttrs (as ++ (k, v) :: bs) = some (as ++ (k', v') :: cs)) :
    decodeEntities (v.map attrBlank) = some v' := by
  induction as with
  | nil =>
    simp only [List.nil_append, decodeAttrs, Option.bind_eq_some_iff, Option.map_eq_some_iff,
      List.cons.injEq, Prod.mk.injEq] at h
    obtain ⟨w, hw, us, -, ⟨-, rfl⟩, -⟩ := h
    exact hw
  | cons p as ih =>
    obtain ⟨a, b⟩ := p
    simp only [List.cons_append, decodeAttrs, Option.bind_eq_some_iff, Option.map_eq_some_iff,
      List.cons.injEq, Prod.mk.injEq] at h ha
    obtain ⟨w, -, us, hu, -, rfl⟩ := h
    obtain ⟨w', -, us', hu', -, rfl⟩ := ha
    exact ih hu' hu

/-- A value that is read as the text between the quotes means itself. -/
theorem Reads.value {n : Str} {as more : List (Str × Str)} {k P r : Str} {E : List Tok}
    (h : Reads (.attrValue n as k '"' []) (P ++ '"' :: r) (.open n (as ++ (k, P) :: more) :: E))
    (ha : PlainAttrs as) (hc : P.all xmlChar = true) : XmlSafe P := by
  obtain ⟨acc, ts, hr, hd⟩ := h
  obtain ⟨V, more', ts', rfl, h1, h2⟩ := value_run _ _ _ _ _ _ _ _ _ hr
  simp only [List.reverse_nil, List.nil_append, List.cons_append, decodeToks, decodeTok,
    Option.bind_eq_some_iff, Option.map_eq_some_iff, List.cons.injEq] at hd
  obtain ⟨t, ⟨as', hd, rfl⟩, ts'', -, hd', -⟩ := hd
  simp only [Tok.open.injEq, true_and] at hd'
  subst hd'
  have e := decodeAttrs_at _ _ _ _ _ _ _ (decodeAttrs_plain as ha) hd
  obtain ⟨h3, h4⟩ := decodeFrom_shorter _ _ _ e
  rw [List.length_map] at h3 h4
  obtain ⟨rfl, h5⟩ := h2 (by omega)
  obtain ⟨h6, h7⟩ := h4 rfl rfl
  intro c hcm
  rw [← h6] at h7
  refine ⟨(h7 c hcm).2, (h7 c hcm).1, (h5 c hcm).1, ?_⟩
  have hb : attrBlank c = c := by
    have := List.map_inj_left.1 ((List.map_id V).trans h6)
    exact (this c hcm).symm
  rw [List.all_eq_true] at hc
  have hx := hc c hcm
  simp only [xmlChar, Bool.or_eq_true, decide_eq_true_eq] at hx
  rcases hx with (hx | hx) | hx
  · exact hx
  · subst hx; exact absurd hb (by decide)
  · subst hx; exact absurd hb (by decide)

/-- A piece of text. -/
def isText : Tok → Bool
  | .text _ => true
  | _ => false

/-- Reading text, outside of tags. -/
def outside : LexState → Bool
  | .text _ => true
  | _ => false

theorem inside_step (c : Char) (st st' : LexState) (ts : List Tok) (hp : outside st = false)
    (h : lexStep c st = some (st', ts)) :
    (ts = [] ∧ outside st' = false) ∨ ∃ t, ts = [t] ∧ isText t = false := by
  cases st with
  | text acc => cases hp
  | pi acc =>
    simp only [lexStep] at h
    split_ifs at h
    · split at h
      · cases h; exact .inr ⟨_, rfl, rfl⟩
      · cases h
    · cases h; exact .inl ⟨rfl, rfl⟩
  | _ =>
    simp only [lexStep] at h
    split_ifs at h <;> cases h <;> first
      | exact .inl ⟨rfl, rfl⟩
      | exact .inr ⟨_, rfl, rfl⟩

/-- The first piece that is completed inside a tag is not text. -/
theorem inside_run (s : Str) : ∀ st acc ts, outside st = false →
    lexRun st s = some (.text acc, ts) → ∃ t ts', ts = t :: ts' ∧ isText t = false := by
  induction s with
  | nil =>
    intro st acc ts hp h
    simp only [lexRun, Option.some.injEq, Prod.mk.injEq] at h
    obtain ⟨rfl, rfl⟩ := h
    cases hp
  | cons c s ih =>
    intro st acc ts hp h
    rw [lexRun_cons] at h
    cases hs : lexStep c st with
    | none => simp [hs] at h
    | some p =>
      obtain ⟨st', us⟩ := p
      simp only [hs, Option.bind_some, emit, Option.map_eq_some_iff] at h
      obtain ⟨⟨q, vs⟩, hq, e⟩ := h
      simp only [Prod.mk.injEq] at e
      obtain ⟨rfl, rfl⟩ := e
      rcases inside_step c st st' us hp hs with ⟨rfl, hp'⟩ | ⟨t, rfl, ht⟩
      · obtain ⟨t, ts', rfl, ht⟩ := ih _ _ _ hp' hq
        exact ⟨t, ts', rfl, ht⟩
      · exact ⟨t, vs, rfl, ht⟩

theorem text_run (T r : Str) : ∀ acc fin ts, lexRun (.text acc) (T ++ '<' :: r) = some (.text fin, ts) →
    ∃ V us, ts = textTok (V.reverse ++ acc) ++ us ∧ V.length ≤ T.length ∧
      (V.length = T.length → V = T) ∧ ∃ t us', us = t :: us' ∧ isText t = false := by
  induction T with
  | nil =>
    intro acc fin ts h
    rw [List.nil_append, lex_lt] at h
    simp only [emit, Option.map_eq_some_iff] at h
    obtain ⟨⟨q, vs⟩, hq, e⟩ := h
    simp only [Prod.mk.injEq] at e
    obtain ⟨rfl, rfl⟩ := e
    exact ⟨[], vs, rfl, by simp, by simp, inside_run _ _ _ _ rfl hq⟩
  | cons c T ih =>
    intro acc fin ts h
    by_cases hc : c = '<'
    · subst hc
      rw [List.cons_append, lex_lt] at h
      simp only [emit, Option.map_eq_some_iff] at h
      obtain ⟨⟨q, vs⟩, hq, e⟩ := h
      simp only [Prod.mk.injEq] at e
      obtain ⟨rfl, rfl⟩ := e
      exact ⟨[], vs, rfl, by simp, by simp, inside_run _ _ _ _ rfl hq⟩
    · rw [List.cons_append, lexRun_step' (st' := .text (c :: acc)) (by simp only [lexStep, if_neg hc])]
        at h
      obtain ⟨V, us, rfl, h1, h2, h3⟩ := ih _ _ _ h
      refine ⟨c :: V, us, by simp, by simpa using h1, fun e => ?_, h3⟩
      rw [h2 (by simpa using e)]

/-- Text that is read as the text before the next tag means itself. -/
theorem Reads.text {T r : Str} {E : List Tok} (h : Reads (.text []) (T ++ '<' :: r) (.text T :: E)) :
    ∀ c ∈ T, c ≠ '&' ∧ c ≠ '<' := by
  obtain ⟨acc, ts, hr, hd⟩ := h
  obtain ⟨V, us, rfl, h1, h2, t, us', rfl, ht⟩ := text_run _ _ _ _ _ hr
  rw [List.append_nil] at hd
  by_cases hV : V = []
  · subst hV
    simp only [List.reverse_nil, textTok, if_true, List.nil_append, List.cons_append, decodeToks,
      Option.bind_eq_some_iff, Option.map_eq_some_iff, List.cons.injEq] at hd
    obtain ⟨t', ht', rs, -, rfl, -⟩ := hd
    cases t with
    | text u => cases ht
    | pi u => cases ht'
    | close u => cases ht'
    | «open» n as =>
      simp only [decodeTok, Option.map_eq_some_iff, reduceCtorEq, and_false, exists_false] at ht'
  · have e : textTok V.reverse = [.text V] := by
      unfold textTok
      rw [if_neg (by simpa using hV), List.reverse_reverse]
    rw [e] at hd
    simp only [List.nil_append, List.cons_append, decodeToks, decodeTok, Option.bind_eq_some_iff,
      Option.map_eq_some_iff, List.cons.injEq] at hd
    obtain ⟨t', ⟨u, hu, rfl⟩, rs, -, e', -⟩ := hd
    simp only [Tok.text.injEq] at e'
    subst e'
    obtain ⟨h3, h4⟩ := decodeFrom_shorter _ _ _ hu
    have := h2 (by omega)
    subst this
    exact (h4 rfl rfl).2

end Oclint
