import Verif.Spec.Semantics

/-! Inversion of the rules of `Spec/Semantics.lean`. -/

namespace Oclint.Spec

set_option linter.unusedSimpArgs false

section
variable {σ V : Type} {W : World σ V}

/-- Every statement can be entered at its start. -/
@[simp] theorem hasEntry_start (s : Stmt) : hasEntry W .start s = true := by
  cases s <;> simp [hasEntry]

theorem run_compound {e b s o s'} : Run W e (.compound b) s o s' ↔ RunL W e b s o s' := by
  constructor
  · intro h; cases h with
    | compound h => exact h
    | expr h _ => simp [isExpr] at h
    | exprThrow h _ => simp [isExpr] at h
    | other h _ => simp [isOther] at h
  · exact .compound

theorem runO_none {s o s'} : RunO W none s o s' ↔ o = .normal ∧ s' = s := by
  constructor
  · intro h; cases h; exact ⟨rfl, rfl⟩
  · rintro ⟨rfl, rfl⟩; exact .none

theorem runO_some {x s o s'} : RunO W (some x) s o s' ↔ Run W .start x s o s' := by
  constructor
  · intro h; cases h; assumption
  · exact .some

theorem run_if_start {p c t els s o s'} : Run W .start (.ifS p c t els) s o s' ↔
    (RunO W p s o s' ∧ o ≠ .normal) ∨
    ∃ s1, RunO W p s .normal s1 ∧
      ((∃ v s2, eval W c s1 = some (.val v s2) ∧ W.truth v = true ∧ Run W .start t s2 o s') ∨
       (∃ v s2, eval W c s1 = some (.val v s2) ∧ W.truth v = false ∧ RunO W els s2 o s') ∨
       (eval W c s1 = some (.thrown s') ∧ o = .thrown)) := by
  constructor
  · intro h
    cases h with
    | ifTrue hp hc hv ht => exact .inr ⟨_, hp, .inl ⟨_, _, hc, hv, ht⟩⟩
    | ifFalse hp hc hv ht => exact .inr ⟨_, hp, .inr (.inl ⟨_, _, hc, hv, ht⟩)⟩
    | ifThrow hp hc => exact .inr ⟨_, hp, .inr (.inr ⟨hc, rfl⟩)⟩
    | ifInit hp ho => exact .inl ⟨hp, ho⟩
    | ifEnterThen h _ _ => exact absurd rfl h
    | ifEnterElse h _ _ _ => exact absurd rfl h
    | expr h _ => simp [isExpr] at h
    | exprThrow h _ => simp [isExpr] at h
    | other h _ => simp [isOther] at h
  · rintro (⟨hp, ho⟩ | ⟨s1, hp, (⟨v, s2, hc, hv, ht⟩ | ⟨v, s2, hc, hv, ht⟩ | ⟨hc, rfl⟩)⟩)
    · exact .ifInit hp ho
    · exact .ifTrue hp hc hv ht
    · exact .ifFalse hp hc hv ht
    · exact .ifThrow hp hc

/-- Choosing by the result of a condition. -/
def branch (W : World σ V) (r : Option (Res σ V)) (T F : σ → Prop) (o : Out V) (s' : σ) : Prop :=
  match r with
  | none => False
  | some (.thrown s) => s' = s ∧ o = .thrown
  | some (.val v s) => if W.truth v = true then T s else F s

theorem run_if_branch {p c t els s o s'} : Run W .start (.ifS p c t els) s o s' ↔
    (RunO W p s o s' ∧ o ≠ .normal) ∨
    ∃ s1, RunO W p s .normal s1 ∧ branch W (eval W c s1) (fun s2 => Run W .start t s2 o s')
      (fun s2 => RunO W els s2 o s') o s' := by
  rw [run_if_start]
  apply or_congr Iff.rfl
  refine exists_congr fun s1 => and_congr_right fun _ => ?_
  cases eval W c s1 with
  | none => simp [branch]
  | some r =>
    cases r with
    | thrown s2 => simp [branch, eq_comm (a := s2)]
    | val v s2 =>
      cases hv : W.truth v <;> simp only [branch, hv, if_true, Bool.false_eq_true, if_false]
      · constructor
        · rintro (⟨v', s2', h1, h2, h3⟩ | ⟨v', s2', h1, h2, h3⟩ | ⟨h1, _⟩) <;> cases h1
          · simp [hv] at h2
          · exact h3
        · intro h; exact .inr (.inl ⟨_, _, rfl, hv, h⟩)
      · constructor
        · rintro (⟨v', s2', h1, h2, h3⟩ | ⟨v', s2', h1, h2, h3⟩ | ⟨h1, _⟩) <;> cases h1
          · exact h3
          · simp [hv] at h2
        · intro h; exact .inl ⟨_, _, rfl, hv, h⟩

theorem run_if_enter {e p c t els s o s'} (he : e ≠ .start) : Run W e (.ifS p c t els) s o s' ↔
    (hasEntry W e t = true ∧ Run W e t s o s') ∨
    (hasEntry W e t = false ∧ ∃ x, els = some x ∧ hasEntry W e x = true ∧ Run W e x s o s') := by
  constructor
  · intro h
    cases h with
    | ifTrue => exact absurd rfl he
    | ifFalse => exact absurd rfl he
    | ifThrow => exact absurd rfl he
    | ifInit => exact absurd rfl he
    | ifEnterThen _ h1 h2 => exact .inl ⟨h1, h2⟩
    | ifEnterElse _ h1 h2 h3 => exact .inr ⟨h1, _, rfl, h2, h3⟩
    | expr => exact absurd rfl he
    | exprThrow => exact absurd rfl he
    | other => exact absurd rfl he
  · rintro (⟨h1, h2⟩ | ⟨h1, x, rfl, h2, h3⟩)
    · exact .ifEnterThen he h1 h2
    · exact .ifEnterElse he h1 h2 h3

theorem runL_nil {e s o s'} : RunL W e [] s o s' ↔ e = .start ∧ o = .normal ∧ s' = s := by
  constructor
  · intro h; cases h; exact ⟨rfl, rfl, rfl⟩
  · rintro ⟨rfl, rfl, rfl⟩; exact .nil

theorem runL_cons {e x rest s o s'} : RunL W e (x :: rest) s o s' ↔
    if hasEntry W e x = true then
      (Run W e x s o s' ∧ o ≠ .normal) ∨ ∃ s1, Run W e x s .normal s1 ∧ RunL W .start rest s1 o s'
    else RunL W e rest s o s' := by
  constructor
  · intro h
    cases h with
    | go h1 h2 h3 => rw [if_pos h1]; exact .inr ⟨_, h2, h3⟩
    | exit h1 h2 h3 => rw [if_pos h1]; exact .inl ⟨h2, h3⟩
    | skip h1 h2 => rw [if_neg (by simp [h1])]; exact h2
  · split
    · next h1 =>
      rintro (⟨h2, h3⟩ | ⟨s1, h2, h3⟩)
      · exact .exit h1 h2 h3
      · exact .go h1 h2 h3
    · next h1 => intro h2; exact .skip (by simpa using h1) h2

theorem runL_cons_start {x rest s o s'} : RunL W .start (x :: rest) s o s' ↔
    (Run W .start x s o s' ∧ o ≠ .normal) ∨ ∃ s1, Run W .start x s .normal s1 ∧
      RunL W .start rest s1 o s' := by
  rw [runL_cons, if_pos (hasEntry_start x)]

theorem runL_hasEntry {e l s o s'} (he : e ≠ .start) (h : RunL W e l s o s') :
    hasEntryL W e l = true := by
  induction l with
  | nil => exact absurd (runL_nil.mp h).1 he
  | cons x rest ih =>
    rw [runL_cons] at h
    simp only [hasEntryL, Bool.or_eq_true]
    split at h
    · next h1 => exact .inl h1
    · exact .inr (ih h)

/-- Nothing runs from where it cannot be entered. -/
theorem run_hasEntry {e x s o s'} (h : Run W e x s o s') : hasEntry W e x = true := by
  by_cases he : e = .start
  · subst he; exact hasEntry_start x
  · cases h <;> first | exact absurd rfl he | skip
    · next h => simp [hasEntry, runL_hasEntry he h]
    · next h _ => simp [hasEntry, h]
    · next _ _ _ h _ => simp [hasEntry, hasEntryO, h]
    · next h _ _ => simp [hasEntry, h]
    · next h _ _ => simp [hasEntry, h]
    · next h _ _ => simp [hasEntry, h]
    · next h _ => simp [hasEntry, h]
    · next h _ => cases e <;> simp_all [hasEntry, atLabel]
    · next h _ => simp [hasEntry, h]
    · next h _ => cases e <;> simp_all [hasEntry, atLabel]
    · next h _ => simp [hasEntry, h]
    · next h _ => cases e <;> simp_all [hasEntry, atLabel]
    · next h _ => simp [hasEntry, h]

theorem run_while_start {c b s o s'} : Run W .start (.whileS c b) s o s' ↔
    (∃ v, eval W c s = some (.val v s') ∧ W.truth v = false ∧ o = .normal) ∨
    (eval W c s = some (.thrown s') ∧ o = .thrown) ∨
    ∃ v s1 o1 s2, eval W c s = some (.val v s1) ∧ W.truth v = true ∧ Run W .start b s1 o1 s2 ∧
      WhileRest W c b o1 s2 o s' := by
  constructor
  · intro h
    cases h with
    | whileFalse h1 h2 => exact .inl ⟨_, h1, h2, rfl⟩
    | whileThrow h1 => exact .inr (.inl ⟨h1, rfl⟩)
    | whileTrue h1 h2 h3 h4 => exact .inr (.inr ⟨_, _, _, _, h1, h2, h3, h4⟩)
    | whileEnter h => exact absurd rfl h
    | expr h _ => simp [isExpr] at h
    | exprThrow h _ => simp [isExpr] at h
    | other h _ => simp [isOther] at h
  · rintro (⟨v, h1, h2, rfl⟩ | ⟨h1, rfl⟩ | ⟨v, s1, o1, s2, h1, h2, h3, h4⟩)
    · exact .whileFalse h1 h2
    · exact .whileThrow h1
    · exact .whileTrue h1 h2 h3 h4

theorem run_return {x s o s'} : Run W .start (.returnS (some x)) s o s' ↔
    (∃ v, eval W x s = some (.val v s') ∧ o = .ret (some v)) ∨
    (eval W x s = some (.thrown s') ∧ o = .thrown) := by
  constructor
  · intro h
    cases h with
    | retVal h => exact .inl ⟨_, h, rfl⟩
    | retThrow h => exact .inr ⟨h, rfl⟩
    | expr h _ => simp [isExpr] at h
    | exprThrow h _ => simp [isExpr] at h
    | other h _ => simp [isOther] at h
  · rintro (⟨v, h, rfl⟩ | ⟨h, rfl⟩)
    · exact .retVal h
    · exact .retThrow h

theorem same_iff {a b : Stmt} : Same W a b ↔ (∀ e, hasEntry W e a = hasEntry W e b) ∧
    ∀ e s o s', Run W e a s o s' ↔ Run W e b s o s' := Iff.rfl

theorem same_refl (a : Stmt) : Same W a a := ⟨fun _ => rfl, fun _ _ _ _ => Iff.rfl⟩
theorem same_symm {a b : Stmt} (h : Same W a b) : Same W b a :=
  ⟨fun e => (h.1 e).symm, fun e s o s' => (h.2 e s o s').symm⟩
theorem same_trans {a b c : Stmt} (h : Same W a b) (h' : Same W b c) : Same W a c :=
  ⟨fun e => (h.1 e).trans (h'.1 e), fun e s o s' => (h.2 e s o s').trans (h'.2 e s o s')⟩

/-- In a block, statements can be replaced by others that do the same. -/
theorem sameL_cons {a b : Stmt} {l l' : List Stmt} (h : Same W a b) (hl : SameL W l l') :
    SameL W (a :: l) (b :: l') := by
  refine ⟨fun e => by simp [hasEntryL, h.1 e, hl.1 e], fun e s o s' => ?_⟩
  simp only [runL_cons, h.1 e, h.2, hl.2]

theorem sameL_refl (a : List Stmt) : SameL W a a := ⟨fun _ => rfl, fun _ _ _ _ => Iff.rfl⟩

theorem sameL_append {a l l' : List Stmt} (h : SameL W l l') : SameL W (a ++ l) (a ++ l') := by
  induction a with
  | nil => exact h
  | cons x a ih => exact sameL_cons (same_refl x) ih

theorem same_compound {l l' : List Stmt} (h : SameL W l l') :
    Same W (.compound l) (.compound l') :=
  ⟨fun e => by simp [hasEntry, h.1 e], fun e s o s' => by simp only [run_compound, h.2]⟩

theorem same_if {p c t t' els els'} (ht : Same W t t')
    (he : ∀ e, hasEntryO W e els = hasEntryO W e els')
    (hr : ∀ e, e ≠ .start → (∀ s o s', (∃ x, els = some x ∧ hasEntry W e x = true ∧ Run W e x s o s') ↔
      ∃ x, els' = some x ∧ hasEntry W e x = true ∧ Run W e x s o s'))
    (hO : ∀ s o s', RunO W els s o s' ↔ RunO W els' s o s') :
    Same W (.ifS p c t els) (.ifS p c t' els') := by
  refine ⟨fun e => by simp [hasEntry, ht.1 e, he e], fun e s o s' => ?_⟩
  by_cases h : e = .start
  · subst h; simp only [run_if_start, ht.2, hO]
  · simp only [run_if_enter h, ht.1, ht.2, hr e h]

theorem same_if_then {p c t t' els} (ht : Same W t t') :
    Same W (.ifS p c t els) (.ifS p c t' els) :=
  same_if ht (fun _ => rfl) (fun _ _ _ _ _ => Iff.rfl) (fun _ _ _ => Iff.rfl)

theorem same_if_else {p c t x x'} (hx : Same W x x') :
    Same W (.ifS p c t (some x)) (.ifS p c t (some x')) := by
  refine same_if (same_refl t) (fun e => by simp [hasEntryO, hx.1 e]) (fun e _ s o s' => ?_)
    (fun s o s' => by simp [runO_some, hx.2])
  simp [hx.1, hx.2]

/-- Induction over the rounds of `while`. -/
theorem while_ind {c b : Stmt} {P : Entry V → σ → Out V → σ → Prop} {Q : Out V → σ → Out V → σ → Prop}
    (hfalse : ∀ s v s1, eval W c s = some (.val v s1) → W.truth v = false → P .start s .normal s1)
    (hthrow : ∀ s s1, eval W c s = some (.thrown s1) → P .start s .thrown s1)
    (htrue : ∀ s v s1 o s2 o' s3, eval W c s = some (.val v s1) → W.truth v = true →
      Run W .start b s1 o s2 → Q o s2 o' s3 → P .start s o' s3)
    (henter : ∀ e s o s2 o' s3, e ≠ .start → hasEntry W e b = true → Run W e b s o s2 →
      Q o s2 o' s3 → P e s o' s3)
    (hagain : ∀ o s o' s', loopOut o = none → P .start s o' s' → Q o s o' s')
    (hleave : ∀ o s o', loopOut o = some o' → Q o s o' s)
    {e s o s'} (hr : Run W e (.whileS c b) s o s') : P e s o s' := by
  have key : ∀ e x s o s', Run W e x s o s' → x = .whileS c b → P e s o s' := by
    intro e x s o s' hr
    refine Run.rec (W := W) (motive_1 := fun e x s o s' _ => x = .whileS c b → P e s o s')
      (motive_2 := fun _ _ _ _ _ _ => True) (motive_3 := fun _ _ _ _ _ => True)
      (motive_4 := fun x y o s o' s' _ => x = c → y = b → Q o s o' s')
      (motive_5 := fun _ _ _ _ _ _ _ => True)
      (motive_6 := fun _ _ _ _ _ _ _ _ => True)
      ?_ ?_ ?_ ?_ ?_ ?_ ?_ ?_ ?_ ?_ ?_ ?_ ?_ ?_ ?_ ?_ ?_ ?_ ?_ ?_ ?_ ?_ ?_ ?_ ?_ ?_ ?_ ?_ ?_ ?_ ?_ ?_ ?_ ?_ ?_ ?_ ?_ ?_ ?_ ?_ ?_ ?_ ?_ ?_ ?_ ?_ ?_ ?_ ?_ ?_ ?_ ?_ ?_ ?_ ?_ ?_ ?_ ?_ ?_ ?_ ?_ ?_ ?_  hr
    all_goals intros
    all_goals first
      | exact True.intro
      | (rename_i h; cases h; done)
      | (rename_i h1 _ h; subst h; simp [isExpr, isOther] at h1; done)
      | skip
    · rename_i h1 h2 h; cases h; exact hfalse _ _ _ h1 h2
    · rename_i h1 h; cases h; exact hthrow _ _ h1
    · rename_i h1 h2 h3 _ _ ih h; cases h; exact htrue _ _ _ _ _ _ _ h1 h2 h3 (ih rfl rfl)
    · rename_i h1 h2 h3 _ _ ih h; cases h; exact henter _ _ _ _ _ _ h1 h2 h3 (ih rfl rfl)
    · rename_i h1 _ ih h2 h3; subst h2 h3; exact hagain _ _ _ _ h1 (ih rfl)
    · rename_i h1 h2 h3; exact hleave _ _ _ h1
  exact key _ _ _ _ _ hr rfl

set_option maxHeartbeats 1000000 in
/-- Induction over the rounds of `do`. -/
theorem do_ind {b c : Stmt} {P : Entry V → σ → Out V → σ → Prop} {Q : Out V → σ → Out V → σ → Prop}
    (hbody : ∀ e s o s2 o' s3, hasEntry W e b = true → Run W e b s o s2 → Q o s2 o' s3 → P e s o' s3)
    (hagain : ∀ o s v s1 o' s', loopOut o = none → eval W c s = some (.val v s1) → W.truth v = true →
      P .start s1 o' s' → Q o s o' s')
    (hlast : ∀ o s v s1, loopOut o = none → eval W c s = some (.val v s1) → W.truth v = false →
      Q o s .normal s1)
    (hthrow : ∀ o s s1, loopOut o = none → eval W c s = some (.thrown s1) → Q o s .thrown s1)
    (hleave : ∀ o s o', loopOut o = some o' → Q o s o' s)
    {e s o s'} (hr : Run W e (.doS b c) s o s') : P e s o s' := by
  have key : ∀ e x s o s', Run W e x s o s' → x = .doS b c → P e s o s' := by
    intro e x s o s' hr
    refine Run.rec (W := W) (motive_1 := fun e x s o s' _ => x = .doS b c → P e s o s')
      (motive_2 := fun _ _ _ _ _ _ => True) (motive_3 := fun _ _ _ _ _ => True)
      (motive_4 := fun _ _ _ _ _ _ _ => True)
      (motive_5 := fun x y o s o' s' _ => x = b → y = c → Q o s o' s')
      (motive_6 := fun _ _ _ _ _ _ _ _ => True)
      ?_ ?_ ?_ ?_ ?_ ?_ ?_ ?_ ?_ ?_ ?_ ?_ ?_ ?_ ?_ ?_ ?_ ?_ ?_ ?_ ?_ ?_ ?_ ?_ ?_ ?_ ?_ ?_ ?_ ?_ ?_ ?_ ?_ ?_ ?_ ?_ ?_ ?_ ?_ ?_ ?_ ?_ ?_ ?_ ?_ ?_ ?_ ?_ ?_ ?_ ?_ ?_ ?_ ?_ ?_ ?_ ?_ ?_ ?_ ?_ ?_ ?_ ?_  hr
    all_goals intros
    all_goals first
      | exact True.intro
      | (rename_i h; cases h; done)
      | (rename_i h1 _ h; subst h; simp [isExpr, isOther] at h1; done)
      | skip
    · rename_i h1 h2 _ _ ih h; cases h; exact hbody _ _ _ _ _ _ h1 h2 (ih rfl rfl)
    · rename_i h1 h2 h3 _ ih h4 h5; subst h4 h5; exact hagain _ _ _ _ _ _ h1 h2 h3 (ih rfl)
    · rename_i h1 h2 h3 h4 h5; subst h4 h5; exact hlast _ _ _ _ h1 h2 h3
    · rename_i h1 h2 h4 h5; subst h4 h5; exact hthrow _ _ _ h1 h2
    · rename_i h1 h2 h3; exact hleave _ _ _ h1
  exact key _ _ _ _ _ hr rfl

set_option maxHeartbeats 1000000 in
/-- Induction over the rounds of `for`. -/
theorem for_ind {c n : Option Stmt} {b : Stmt} {P : Option Stmt → Entry V → σ → Out V → σ → Prop}
    {Q : Out V → σ → Out V → σ → Prop}
    (hinit : ∀ i s s1 o s2, Run W .start i s .normal s1 → P none .start s1 o s2 →
      P (some i) .start s o s2)
    (hinitExit : ∀ i s o s1, Run W .start i s o s1 → o ≠ .normal → P (some i) .start s o s1)
    (hfalse : ∀ x s v s1, c = some x → eval W x s = some (.val v s1) → W.truth v = false →
      P none .start s .normal s1)
    (hthrow : ∀ x s s1, c = some x → eval W x s = some (.thrown s1) → P none .start s .thrown s1)
    (htrue : ∀ x s v s1 o s2 o' s3, c = some x → eval W x s = some (.val v s1) → W.truth v = true →
      Run W .start b s1 o s2 → Q o s2 o' s3 → P none .start s o' s3)
    (hever : ∀ s o s2 o' s3, c = none → Run W .start b s o s2 → Q o s2 o' s3 → P none .start s o' s3)
    (henter : ∀ i e s o s2 o' s3, e ≠ .start → hasEntry W e b = true → Run W e b s o s2 →
      Q o s2 o' s3 → P i e s o' s3)
    (hagain : ∀ o s o' s', n = none → loopOut o = none → P none .start s o' s' → Q o s o' s')
    (hagainInc : ∀ y o s v s1 o' s', n = some y → loopOut o = none → eval W y s = some (.val v s1) →
      P none .start s1 o' s' → Q o s o' s')
    (hincThrow : ∀ y o s s1, n = some y → loopOut o = none → eval W y s = some (.thrown s1) →
      Q o s .thrown s1)
    (hleave : ∀ o s o', loopOut o = some o' → Q o s o' s)
    {i e s o s'} (hr : Run W e (.forS i c n b) s o s') : P i e s o s' := by
  have key : ∀ e x s o s', Run W e x s o s' → ∀ i, x = .forS i c n b → P i e s o s' := by
    intro e x s o s' hr
    refine Run.rec (W := W) (motive_1 := fun e x s o s' _ => ∀ i, x = .forS i c n b → P i e s o s')
      (motive_2 := fun _ _ _ _ _ _ => True) (motive_3 := fun _ _ _ _ _ => True)
      (motive_4 := fun _ _ _ _ _ _ _ => True)
      (motive_5 := fun _ _ _ _ _ _ _ => True)
      (motive_6 := fun x y z o s o' s' _ => x = c → y = n → z = b → Q o s o' s')
      ?_ ?_ ?_ ?_ ?_ ?_ ?_ ?_ ?_ ?_ ?_ ?_ ?_ ?_ ?_ ?_ ?_ ?_ ?_ ?_ ?_ ?_ ?_ ?_ ?_ ?_ ?_ ?_ ?_ ?_ ?_ ?_ ?_ ?_ ?_ ?_ ?_ ?_ ?_ ?_ ?_ ?_ ?_ ?_ ?_ ?_ ?_ ?_ ?_ ?_ ?_ ?_ ?_ ?_ ?_ ?_ ?_ ?_ ?_ ?_ ?_ ?_ ?_  hr
    all_goals intros
    all_goals first
      | exact True.intro
      | (rename_i h; cases h; done)
      | (rename_i h1 _ _ h; subst h; simp [isExpr, isOther] at h1; done)
      | skip
    · rename_i h1 _ _ ih _ h; cases h; exact hinit _ _ _ _ _ h1 (ih _ rfl)
    · rename_i h1 h2 _ _ h; cases h; exact hinitExit _ _ _ _ h1 h2
    · rename_i h1 h2 _ h; cases h; exact hfalse _ _ _ _ rfl h1 h2
    · rename_i h1 _ h; cases h; exact hthrow _ _ _ rfl h1
    · rename_i h1 h2 h3 _ _ ih _ h; cases h; exact htrue _ _ _ _ _ _ _ _ rfl h1 h2 h3 (ih rfl rfl rfl)
    · rename_i h3 _ _ ih _ h; cases h; exact hever _ _ _ _ _ rfl h3 (ih rfl rfl rfl)
    · rename_i h1 h2 h3 _ _ ih _ h; cases h; exact henter _ _ _ _ _ _ _ h1 h2 h3 (ih rfl rfl rfl)
    · rename_i h1 _ ih h2 h3 h4; subst h2 h4; exact hagain _ _ _ _ h3.symm h1 (ih _ (by rw [h3]))
    · rename_i h1 h5 _ ih h2 h3 h4; subst h2 h4
      exact hagainInc _ _ _ _ _ _ _ h3.symm h1 h5 (ih _ (by rw [h3]))
    · rename_i h1 h5 h2 h3 h4; exact hincThrow _ _ _ _ h3.symm h1 h5
    · rename_i h1 h2 h3 _; exact hleave _ _ _ h1
  exact key _ _ _ _ _ hr _ rfl

theorem while_mono {b b' : Stmt} (h : Same W b b') {c e s o s'} (hr : Run W e (.whileS c b) s o s') :
    Run W e (.whileS c b') s o s' :=
  while_ind (P := fun e s o s' => Run W e (.whileS c b') s o s')
    (Q := fun o s o' s' => WhileRest W c b' o s o' s')
    (fun _ _ _ h1 h2 => .whileFalse h1 h2) (fun _ _ h1 => .whileThrow h1)
    (fun _ _ _ _ _ _ _ h1 h2 h3 h4 => .whileTrue h1 h2 ((h.2 _ _ _ _).mp h3) h4)
    (fun _ _ _ _ _ _ h1 h2 h3 h4 => .whileEnter h1 ((h.1 _).symm.trans h2) ((h.2 _ _ _ _).mp h3) h4)
    (fun _ _ _ _ h1 h2 => .again h1 h2) (fun _ _ _ h1 => .leave h1) hr

theorem do_mono {b b' : Stmt} (h : Same W b b') {c e s o s'} (hr : Run W e (.doS b c) s o s') :
    Run W e (.doS b' c) s o s' :=
  do_ind (P := fun e s o s' => Run W e (.doS b' c) s o s')
    (Q := fun o s o' s' => DoRest W b' c o s o' s')
    (fun _ _ _ _ _ _ h1 h2 h3 => .doBody ((h.1 _).symm.trans h1) ((h.2 _ _ _ _).mp h2) h3)
    (fun _ _ _ _ _ _ h1 h2 h3 h4 => .again h1 h2 h3 h4) (fun _ _ _ _ h1 h2 h3 => .last h1 h2 h3)
    (fun _ _ _ h1 h2 => .throw h1 h2) (fun _ _ _ h1 => .leave h1) hr

theorem for_mono {b b' : Stmt} (h : Same W b b') {i c n e s o s'}
    (hr : Run W e (.forS i c n b) s o s') : Run W e (.forS i c n b') s o s' :=
  for_ind (P := fun i e s o s' => Run W e (.forS i c n b') s o s')
    (Q := fun o s o' s' => ForRest W c n b' o s o' s')
    (fun _ _ _ _ _ h1 h2 => .forInit h1 h2) (fun _ _ _ _ h1 h2 => .forInitExit h1 h2)
    (fun _ _ _ _ hc h1 h2 => by subst hc; exact .forFalse h1 h2)
    (fun _ _ _ hc h1 => by subst hc; exact .forThrow h1)
    (fun _ _ _ _ _ _ _ _ hc h1 h2 h3 h4 => by
      subst hc; exact .forTrue h1 h2 ((h.2 _ _ _ _).mp h3) h4)
    (fun _ _ _ _ _ hc h1 h2 => by subst hc; exact .forEver ((h.2 _ _ _ _).mp h1) h2)
    (fun _ _ _ _ _ _ _ h1 h2 h3 h4 =>
      .forEnter h1 ((h.1 _).symm.trans h2) ((h.2 _ _ _ _).mp h3) h4)
    (fun _ _ _ _ hn h1 h2 => by subst hn; exact .again h1 h2)
    (fun _ _ _ _ _ _ _ hn h1 h2 h3 => by subst hn; exact .againInc h1 h2 h3)
    (fun _ _ _ _ hn h1 h2 => by subst hn; exact .incThrow h1 h2)
    (fun _ _ _ h1 => .leave h1) hr

theorem switchTarget_same {b b' : Stmt} (h : Same W b b') (v : V) :
    switchTarget W b v = switchTarget W b' v := by
  simp [switchTarget, h.1]

theorem switch_mono {b b' : Stmt} (h : Same W b b') {a c e s o s'}
    (hr : Run W e (.switchS a c b) s o s') : Run W e (.switchS a c b') s o s' := by
  cases hr with
  | switchThrow h1 => exact .switchThrow h1
  | switchNone h1 h2 => exact .switchNone h1 ((switchTarget_same h _).symm.trans h2)
  | switchGo h1 h2 h3 =>
    exact .switchGo h1 ((switchTarget_same h _).symm.trans h2) ((h.2 _ _ _ _).mp h3)
  | switchEnter h1 h2 => exact .switchEnter ((h.1 _).symm.trans h1) ((h.2 _ _ _ _).mp h2)
  | expr h _ => simp [isExpr] at h
  | exprThrow h _ => simp [isExpr] at h
  | other h _ => simp [isOther] at h

theorem case_mono {b b' : Stmt} (h : Same W b b') {c e s o s'}
    (hr : Run W e (.caseS c b) s o s') : Run W e (.caseS c b') s o s' := by
  cases hr with
  | caseHere h1 h2 => exact .caseHere h1 ((h.2 _ _ _ _).mp h2)
  | caseBelow h1 h2 h3 h4 => exact .caseBelow h1 h2 ((h.1 _).symm.trans h3) ((h.2 _ _ _ _).mp h4)
  | expr h _ => simp [isExpr] at h
  | exprThrow h _ => simp [isExpr] at h
  | other h _ => simp [isOther] at h

theorem default_mono {b b' : Stmt} (h : Same W b b') {e s o s'}
    (hr : Run W e (.defaultS b) s o s') : Run W e (.defaultS b') s o s' := by
  cases hr with
  | defaultHere h1 h2 => exact .defaultHere h1 ((h.2 _ _ _ _).mp h2)
  | defaultBelow h1 h2 h3 h4 =>
    exact .defaultBelow h1 h2 ((h.1 _).symm.trans h3) ((h.2 _ _ _ _).mp h4)
  | expr h _ => simp [isExpr] at h
  | exprThrow h _ => simp [isExpr] at h
  | other h _ => simp [isOther] at h

theorem label_mono {b b' : Stmt} (h : Same W b b') {n e s o s'}
    (hr : Run W e (.labelS n b) s o s') : Run W e (.labelS n b') s o s' := by
  cases hr with
  | labelHere h1 h2 => exact .labelHere h1 ((h.2 _ _ _ _).mp h2)
  | labelBelow h1 h2 h3 h4 =>
    exact .labelBelow h1 h2 ((h.1 _).symm.trans h3) ((h.2 _ _ _ _).mp h4)
  | expr h _ => simp [isExpr] at h
  | exprThrow h _ => simp [isExpr] at h
  | other h _ => simp [isOther] at h

/-- Statements that do the same can replace each other anywhere in a statement. -/
theorem same_replaced {a b x y : Stmt} (h : Same W a b) (hr : StmtReplaced a b x y) : Same W x y := by
  induction hr with
  | here => exact h
  | compound _ ih => exact same_compound (sameL_append (sameL_cons ih (sameL_refl _)))
  | ifThen _ ih => exact same_if_then ih
  | ifElse _ ih => exact same_if_else ih
  | whileS _ ih =>
    exact ⟨fun e => by simp [hasEntry, ih.1 e], fun _ _ _ _ => ⟨while_mono ih, while_mono (same_symm ih)⟩⟩
  | doS _ ih =>
    exact ⟨fun e => by simp [hasEntry, ih.1 e], fun _ _ _ _ => ⟨do_mono ih, do_mono (same_symm ih)⟩⟩
  | forS _ ih =>
    exact ⟨fun e => by simp [hasEntry, ih.1 e], fun _ _ _ _ => ⟨for_mono ih, for_mono (same_symm ih)⟩⟩
  | switchS _ ih =>
    exact ⟨fun e => by cases e <;> simp [hasEntry, ih.1],
      fun _ _ _ _ => ⟨switch_mono ih, switch_mono (same_symm ih)⟩⟩
  | caseS _ ih =>
    exact ⟨fun e => by simp [hasEntry, ih.1 e], fun _ _ _ _ => ⟨case_mono ih, case_mono (same_symm ih)⟩⟩
  | defaultS _ ih =>
    exact ⟨fun e => by simp [hasEntry, ih.1 e],
      fun _ _ _ _ => ⟨default_mono ih, default_mono (same_symm ih)⟩⟩
  | labelS _ ih =>
    exact ⟨fun e => by simp [hasEntry, ih.1 e],
      fun _ _ _ _ => ⟨label_mono ih, label_mono (same_symm ih)⟩⟩

theorem runBody_mono {a b : Stmt} (h : Same W a b) {e s o s'} (hr : RunBody W a e s o s') :
    RunBody W b e s o s' := by
  induction hr with
  | done h1 h2 => exact .done ((h.2 _ _ _ _).mp h1) h2
  | jump h1 _ ih => exact .jump ((h.2 _ _ _ _).mp h1) ih

/-- A function whose body has a statement replaced by one that does the same does the same. -/
theorem body_same {a b x y : Stmt} (h : Same W a b) (hr : StmtReplaced a b x y) (e s o s') :
    RunBody W x e s o s' ↔ RunBody W y e s o s' :=
  ⟨runBody_mono (same_replaced h hr), runBody_mono (same_symm (same_replaced h hr))⟩

end

end Oclint.Spec
