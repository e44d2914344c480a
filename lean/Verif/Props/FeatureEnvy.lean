import Verif.Spec.FeatureEnvy
import Mathlib.Data.List.Nodup
import Mathlib.Data.List.Perm.Basic

/-!
# C53: feature envy
-/

namespace Oclint
open Spec

/-- The number under a key. -/
abbrev usesCounted := selfMessages

theorem usesCounted_count (counts : List (Str × Nat)) (name c : Str) :
    usesCounted (countClassName counts name) c = usesCounted counts c + if name = c then 1 else 0 := by
  induction counts with
  | nil => simp [countClassName, selfMessages]
  | cons p rest ih =>
    obtain ⟨k, n⟩ := p
    simp only [countClassName]
    by_cases h : k = name
    · subst h
      by_cases hc : k = c <;> simp [selfMessages, hc]
    · by_cases hc : k = c
      · subst hc
        have : name ≠ k := fun e => h e.symm
        simp [selfMessages, h, this]
      · simpa [selfMessages, h, hc] using ih

theorem keys_count (counts : List (Str × Nat)) (name : Str) (h : (counts.map (·.1)).Nodup)
    (hp : ∀ p ∈ counts, 0 < p.2) :
    ((countClassName counts name).map (·.1)).Nodup ∧
    (∀ p ∈ countClassName counts name, 0 < p.2) ∧
    ∀ k, k ∈ (countClassName counts name).map (·.1) ↔ k ∈ counts.map (·.1) ∨ k = name := by
  induction counts with
  | nil => simp [countClassName]
  | cons p rest ih =>
    obtain ⟨k, n⟩ := p
    simp only [List.map_cons, List.nodup_cons] at h
    obtain ⟨i1, i2, i3⟩ := ih h.2 fun p hp' => hp p (List.mem_cons_of_mem _ hp')
    simp only [countClassName]
    by_cases hk : k = name
    · subst hk
      simp only [if_true, List.map_cons, List.nodup_cons]
      refine ⟨h, ?_, ?_⟩
      · intro p hm
        rcases List.mem_cons.1 hm with rfl | hm
        · simp
        · exact hp p (List.mem_cons_of_mem _ hm)
      · intro x; simp only [List.mem_cons]; grind
    · simp only [hk, if_false, List.map_cons, List.nodup_cons, i3]
      refine ⟨⟨by rintro (hh | hh); exacts [h.1 hh, by cases hh], i1⟩, ?_, ?_⟩
      · intro p hm
        rcases List.mem_cons.1 hm with rfl | hm
        · exact hp _ List.mem_cons_self
        · exact i2 p hm
      · intro x; simp only [List.mem_cons, i3]; grind

/-- The class an expression is counted for. -/
def targetOf : ObjCUse → Option Str
  | .message false (.instance i) => i
  | .message false (.cls c) => some c
  | .ivar i => i
  | .property true (.explicit (some (.interface i)) _) => i
  | .property false (.explicit _ (some (.interface i))) => i
  | .property true (.implicit (some (.interface i)) _) => i
  | .property false (.implicit _ (some (.interface i))) => i
  | _ => none

theorem targetOf_iff (u : ObjCUse) (c : Str) : targetOf u = some c ↔ Targets u c := by
  constructor
  · intro h
    unfold targetOf at h
    split at h
    · subst h; exact .instance
    · cases h; exact .cls
    · subst h; exact .ivar
    · subst h; exact .setter
    · subst h; exact .getter
    · subst h; exact .setMethod
    · subst h; exact .getMethod
    · cases h
  · intro h; cases h <;> rfl

theorem visitUse_eq (counts : List (Str × Nat)) (u : ObjCUse) :
    visitUse counts u = countInterface counts (targetOf u) := by
  rcases u with ⟨_ | _, i | c | _⟩ | i | ⟨_ | _, ⟨s, g⟩ | ⟨s, g⟩⟩
  all_goals try rfl
  · rcases g with _ | _ | _ <;> rfl
  · rcases g with _ | _ | _ <;> rfl
  · rcases s with _ | _ | _ <;> rfl
  · rcases s with _ | _ | _ <;> rfl

/-- What holds after having seen some expressions. -/
def Counted (uses : List ObjCUse) (counts : List (Str × Nat)) : Prop :=
  (counts.map (·.1)).Nodup ∧ (∀ p ∈ counts, 0 < p.2) ∧
  ∀ c, UsesOf c uses (usesCounted counts c)

theorem usesOf_append {c : Str} {us vs : List ObjCUse} {m n : Nat} (h : UsesOf c us m)
    (h' : UsesOf c vs n) : UsesOf c (us ++ vs) (m + n) := by
  induction h with
  | nil => simpa using h'
  | hit ht _ ih => rw [Nat.add_right_comm]; exact .hit ht ih
  | miss ht _ ih => exact .miss ht ih

theorem counted_step {uses counts} (u : ObjCUse) (h : Counted uses counts) :
    Counted (uses ++ [u]) (visitUse counts u) := by
  obtain ⟨h1, h2, h3⟩ := h
  rw [visitUse_eq]
  cases ht : targetOf u with
  | none =>
    refine ⟨h1, h2, fun c => ?_⟩
    have : ¬ Targets u c := fun hc => by rw [← targetOf_iff, ht] at hc; cases hc
    exact usesOf_append (n := 0) (h3 c) (.miss this .nil)
  | some name =>
    obtain ⟨k1, k2, -⟩ := keys_count counts name h1 h2
    refine ⟨k1, k2, fun c => ?_⟩
    rw [countInterface, usesCounted_count]
    by_cases hc : name = c
    · subst hc
      simp only [if_true]
      exact usesOf_append (n := 1) (h3 name) (.hit ((targetOf_iff _ _).1 ht) .nil)
    · simp only [hc, if_false]
      refine usesOf_append (n := 0) (h3 c) (.miss (fun h => ?_) .nil)
      rw [← targetOf_iff, ht] at h
      exact hc (Option.some.inj h)

theorem counted_all (uses : List ObjCUse) : Counted uses (uses.foldl visitUse []) := by
  have : ∀ vs us counts, Counted us counts → Counted (us ++ vs) (vs.foldl visitUse counts) := by
    intro vs
    induction vs with
    | nil => intro us counts h; simpa using h
    | cons v vs ih =>
      intro us counts h
      have := ih _ _ (counted_step v h)
      simpa using this
  exact this uses [] [] ⟨by simp, by simp, fun c => .nil⟩

theorem usesCounted_mem {counts : List (Str × Nat)} (h : (counts.map (·.1)).Nodup) {k : Str} {n : Nat}
    (hm : (k, n) ∈ counts) : usesCounted counts k = n := by
  induction counts with
  | nil => cases hm
  | cons p rest ih =>
    obtain ⟨k', n'⟩ := p
    simp only [List.map_cons, List.nodup_cons] at h
    rcases List.mem_cons.1 hm with he | hm
    · cases he; simp [selfMessages]
    · have : k' ≠ k := by rintro rfl; exact h.1 (List.mem_map.2 ⟨_, hm, rfl⟩)
      simpa [selfMessages, this] using ih h.2 hm

theorem mem_of_usesCounted {counts : List (Str × Nat)} {k : Str} (h : 0 < usesCounted counts k) :
    (k, usesCounted counts k) ∈ counts := by
  induction counts with
  | nil => simp [selfMessages] at h
  | cons p rest ih =>
    obtain ⟨k', n'⟩ := p
    by_cases hk : k' = k
    · subst hk; simp [selfMessages]
    · simp only [usesCounted, selfMessages, hk, if_false] at h ⊢
      exact List.mem_cons_of_mem _ (ih h)

theorem usesOf_unique {c us m n} (h : UsesOf c us m) (h' : UsesOf c us n) : m = n := by
  induction h generalizing n with
  | nil => cases h'; rfl
  | hit ht _ ih =>
    cases h' with
    | hit _ h' => rw [ih h']
    | miss hn _ => exact absurd ht hn
  | miss hn _ ih =>
    cases h' with
    | hit ht _ => exact absurd ht hn
    | miss _ h' => exact ih h'

/-- A method is reported for a class exactly when more of its expressions use that class than use its
own, with a description that names the method and the class; whatever the order of iteration. -/
theorem C53_reports_exactly (order : List (Str × Nat) → List (Str × Nat))
    (horder : ∀ l, (order l).Perm l) (method self : Str) (uses : List ObjCUse) (text : Str) :
    text ∈ featureEnvyVisit order method (.interface (some self)) uses ↔
      ∃ c n own, UsesOf c uses n ∧ UsesOf self uses own ∧ own < n ∧
        text = "Method ".toList ++ method ++ " messages ".toList ++ c ++ " more than self.".toList := by
  obtain ⟨h1, h2, h3⟩ := counted_all uses
  simp only [featureEnvyVisit, analyzeObjC, classInterface, enviedClasses, List.mem_map,
    List.mem_filter, decide_eq_true_eq, (horder _).mem_iff]
  constructor
  · rintro ⟨c, ⟨⟨c', n⟩, ⟨hm, hlt⟩, rfl⟩, rfl⟩
    exact ⟨c', n, _, usesCounted_mem h1 hm ▸ h3 c', h3 self, hlt, rfl⟩
  · rintro ⟨c, n, own, hn, ho, hlt, rfl⟩
    have e1 := usesOf_unique hn (h3 c)
    have e2 := usesOf_unique ho (h3 self)
    subst e1 e2
    exact ⟨c, ⟨_, ⟨mem_of_usesCounted (by omega), hlt⟩, rfl⟩, rfl⟩

/-- Each of these classes is reported once. -/
theorem C53_once (order : List (Str × Nat) → List (Str × Nat)) (horder : ∀ l, (order l).Perm l)
    (method : Str) (owner : MethodOwner) (uses : List ObjCUse) :
    (featureEnvyVisit order method owner uses).Nodup := by
  unfold featureEnvyVisit
  refine List.Nodup.map (fun a b h => ?_) ?_
  · unfold envyDescription at h
    exact List.append_cancel_left (List.append_cancel_right h)
  · unfold analyzeObjC
    split
    · obtain ⟨h1, -, -⟩ := counted_all uses
      have h : ((order (uses.foldl visitUse [])).map (·.1)).Nodup :=
        ((horder _).map _).nodup_iff.2 h1
      exact h.sublist (List.filter_sublist.map _)
    · exact List.nodup_nil

/-- A method is never reported for its own class, and not at all if that is not known or the method
is that of a protocol. -/
theorem C53_not_self (order : List (Str × Nat) → List (Str × Nat)) (horder : ∀ l, (order l).Perm l)
    (method self : Str) (uses : List ObjCUse) :
    "Method ".toList ++ method ++ " messages ".toList ++ self ++ " more than self.".toList ∉
      featureEnvyVisit order method (.interface (some self)) uses ∧
    featureEnvyVisit order method (.interface none) uses = [] ∧
    featureEnvyVisit order method .protocol uses = [] := by
  refine ⟨fun h => ?_, rfl, rfl⟩
  obtain ⟨c, n, own, hn, ho, hlt, he⟩ := (C53_reports_exactly order horder _ _ _ _).1 h
  have : self = c := by simpa using he
  subst this
  have := usesOf_unique hn ho
  omega

/-- Two messages to another class and one to its own: reported. -/
example : featureEnvyVisit id "m".toList (.interface (some "A".toList))
    [.message false (.instance (some "B".toList)), .ivar (some "A".toList),
      .message false (.cls "B".toList)] = ["Method m messages B more than self.".toList] := by
  decide +kernel

end Oclint
