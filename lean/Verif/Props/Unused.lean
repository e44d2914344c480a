import Verif.Spec.Unused
import Verif.Props.Registry

/-!
# C77, C78: unused local variables and parameters
-/

namespace Oclint
open Spec

/-! ## C77: unused local variables -/

theorem mem_classSeparators (c : Char) : c ∈ classSeparators ↔ IsSeparator c := by
  simp [classSeparators, IsSeparator]

theorem splitStep_other {input : Str} {i : Nat} {seps : List Char} {st : Nat × List Str}
    (h : charAt input i ∉ seps) : seps.foldl (splitStep input i) st = st := by
  induction seps generalizing st with
  | nil => rfl
  | cons c seps ih =>
    rw [List.mem_cons, not_or] at h
    rw [List.foldl_cons, splitStep, if_neg h.1, ih h.2]

theorem splitStep_inner {input : Str} {i : Nat} {seps : List Char} (hd : seps.Nodup)
    {st : Nat × List Str} (h : charAt input i ∈ seps) : seps.foldl (splitStep input i) st =
      (i + 1, if st.1 ≠ i then (input.drop st.1).take (i - st.1) :: st.2 else st.2) := by
  induction seps generalizing st with
  | nil => cases h
  | cons c seps ih =>
    rw [List.nodup_cons] at hd
    rw [List.foldl_cons, splitStep]
    split
    · next hc =>
      exact splitStep_other (hc ▸ hd.1)
    · next hc =>
      exact ih hd.2 ((List.mem_cons.1 h).resolve_left hc)

/-- Positions `a` to `b` hold a listed name. -/
def NameAt (input : Str) (a b : Nat) : Prop :=
  a < b ∧ b ≤ input.length ∧ (a = 0 ∨ IsSeparator (charAt input (a - 1))) ∧
    IsSeparator (charAt input b) ∧ ∀ j, a ≤ j → j < b → ¬ IsSeparator (charAt input j)

/-- What the outer loop maintains. -/
structure SplitInv (input : Str) (types : List Str) (n : Nat) (st : Nat × List Str) : Prop where
  le : st.1 ≤ n
  start : st.1 = 0 ∨ IsSeparator (charAt input (st.1 - 1))
  inside : ∀ j, st.1 ≤ j → j < n → ¬ IsSeparator (charAt input j)
  mem : ∀ w, w ∈ st.2 ↔ w ∈ types ∨
    ∃ a b, b < n ∧ NameAt input a b ∧ w = (input.drop a).take (b - a)

theorem splitInv_loop (input : Str) (types : List Str) (n : Nat) (hn : n ≤ input.length + 1) :
    SplitInv input types n ((List.range n).foldl
      (fun st i => classSeparators.foldl (splitStep input i) st) (0, types)) := by
  induction n with
  | zero => exact ⟨Nat.le_refl _, .inl rfl, fun j _ h => absurd h (Nat.not_lt_zero _), fun w => by simp⟩
  | succ n ih =>
    have ih := ih (by omega)
    rw [List.range_succ, List.foldl_append, List.foldl_cons, List.foldl_nil]
    generalize (List.range n).foldl
      (fun st i => classSeparators.foldl (splitStep input i) st) (0, types) = st at ih
    obtain ⟨h1, h2, h3, h4⟩ := ih
    by_cases hs : IsSeparator (charAt input n)
    · rw [splitStep_inner (by decide) ((mem_classSeparators _).2 hs)]
      refine ⟨Nat.le_refl _, .inr hs, fun j hj hj' => absurd hj (by omega), fun w => ?_⟩
      have hnew : ∀ a b, b < n + 1 → NameAt input a b → b < n ∨ (b = n ∧ a = st.1) := by
        rintro a b hb ⟨hab, -, hst, -, hin⟩
        by_cases hbn : b < n
        · exact .inl hbn
        · have hbn : b = n := by omega
          subst hbn
          refine .inr ⟨rfl, ?_⟩
          rcases Nat.lt_trichotomy a st.1 with hlt | heq | hgt
          · rcases h2 with h2 | h2
            · omega
            · exact absurd h2 (hin _ (by omega) (by omega))
          · exact heq
          · rcases hst with hst | hst
            · omega
            · exact absurd hst (h3 _ (by omega) (by omega))
      split
      · next hne =>
        rw [List.mem_cons, h4]
        constructor
        · rintro (rfl | h | ⟨a, b, hb, hab, rfl⟩)
          · exact .inr ⟨st.1, n, Nat.lt_succ_self _, ⟨by omega, by omega, h2, hs, h3⟩,
              rfl⟩
          · exact .inl h
          · exact .inr ⟨a, b, by omega, hab, rfl⟩
        · rintro (h | ⟨a, b, hb, hab, rfl⟩)
          · exact .inr (.inl h)
          · rcases hnew a b hb hab with h | ⟨rfl, rfl⟩
            · exact .inr (.inr ⟨a, b, h, hab, rfl⟩)
            · exact .inl rfl
      · next hne =>
        have hne : st.1 = n := Classical.not_not.1 hne
        rw [h4]
        constructor
        · rintro (h | ⟨a, b, hb, hab, rfl⟩)
          · exact .inl h
          · exact .inr ⟨a, b, by omega, hab, rfl⟩
        · rintro (h | ⟨a, b, hb, hab, rfl⟩)
          · exact .inl h
          · rcases hnew a b hb hab with h | ⟨rfl, rfl⟩
            · exact .inr ⟨a, b, h, hab, rfl⟩
            · exact absurd hab.1 (by omega)
    · rw [splitStep_other (fun h => hs ((mem_classSeparators _).1 h))]
      refine ⟨by omega, h2, fun j hj hj' => ?_, fun w => ?_⟩
      · by_cases hjn : j = n
        · exact hjn ▸ hs
        · exact h3 j hj (by omega)
      · rw [h4]
        refine or_congr_right ⟨?_, ?_⟩
        · rintro ⟨a, b, hb, hab, rfl⟩; exact ⟨a, b, by omega, hab, rfl⟩
        · rintro ⟨a, b, hb, hab, rfl⟩
          by_cases hbn : b = n
          · exact absurd (hbn ▸ hab.2.2.2.1) hs
          · exact ⟨a, b, by omega, hab, rfl⟩

theorem listedName_iff (input w : Str) : ListedName input w ↔
    ∃ a b, NameAt input a b ∧ w = (input.drop a).take (b - a) := by
  constructor
  · rintro ⟨pre, post, rfl, hw, hin, hpre, hpost⟩
    have hlen : 0 < w.length := List.length_pos_iff.2 hw
    refine ⟨pre.length, pre.length + w.length, ⟨by omega, by simp, ?_, ?_, ?_⟩, ?_⟩
    · rcases hpre with rfl | ⟨p, c, rfl, hc⟩
      · exact .inl rfl
      · refine .inr ?_
        have : charAt (p ++ [c] ++ w ++ post) ((p ++ [c]).length - 1) = c := by
          simp [charAt]
        rw [this]; exact hc
    · rcases hpost with rfl | ⟨c, p, rfl, hc⟩
      · have : charAt (pre ++ w ++ []) (pre.length + w.length) = '\x00' := by
          simp [charAt]
        rw [this]; simp [IsSeparator]
      · have : charAt (pre ++ w ++ c :: p) (pre.length + w.length) = c := by
          unfold charAt
          rw [List.getElem?_append_right (by simp)]
          simp
        rw [this]; exact hc
    · intro j hj hj'
      have : charAt (pre ++ w ++ post) j = w[j - pre.length]'(by omega) := by
        unfold charAt
        rw [List.append_assoc, List.getElem?_append_right hj,
          List.getElem?_append_left (by omega), List.getElem?_eq_getElem (by omega)]
        rfl
      rw [this]
      exact hin _ (List.getElem_mem _)
    · rw [List.append_assoc, List.drop_left, Nat.add_sub_cancel_left, List.take_left]
  · rintro ⟨a, b, ⟨hab, hb, hst, hend, hin⟩, rfl⟩
    refine ⟨input.take a, input.drop b, ?_, ?_, ?_, ?_, ?_⟩
    · have : input.drop b = (input.drop a).drop (b - a) := by rw [List.drop_drop]; congr 1; omega
      rw [this, List.append_assoc, List.take_append_drop, List.take_append_drop]
    · intro h
      have := congrArg List.length h
      simp at this; omega
    · intro c hc
      obtain ⟨i, hi, rfl⟩ := List.getElem_of_mem hc
      have hi' : i < b - a := by simp at hi; omega
      have := hin (a + i) (by omega) (by omega)
      unfold charAt at this
      rw [List.getElem?_eq_getElem (by omega)] at this
      simpa using this
    · rcases hst with rfl | hst
      · exact .inl (by simp)
      · by_cases ha : a = 0
        · subst ha; exact .inl (by simp)
        · refine .inr ⟨input.take (a - 1), charAt input (a - 1), ?_, hst⟩
          unfold charAt
          rw [List.getElem?_eq_getElem (by omega)]
          rw [Option.getD_some, List.take_append_getElem (by omega)]
          congr 1; omega
    · by_cases hbl : b = input.length
      · exact .inl (by simp [hbl])
      · refine .inr ⟨charAt input b, input.drop (b + 1), ?_, hend⟩
        unfold charAt
        rw [List.getElem?_eq_getElem (by omega), Option.getD_some, List.drop_eq_getElem_cons (by omega)]

/-- Splitting adds exactly the listed names. -/
theorem C77_names (input : Str) (types : List Str) (w : Str) :
    w ∈ splitClasses input types ↔ w ∈ types ∨ ListedName input w := by
  unfold splitClasses
  rw [(splitInv_loop input types (input.length + 1) (Nat.le_refl _)).mem, listedName_iff]
  refine or_congr_right ⟨?_, ?_⟩
  · rintro ⟨a, b, -, h⟩; exact ⟨a, b, h⟩
  · rintro ⟨a, b, h⟩; exact ⟨a, b, Nat.lt_succ_of_le h.1.2.1, h⟩

theorem mem_resetSkippedTypes (d c w : Str) :
    w ∈ resetSkippedTypes [d, c] ↔ ListedName d w ∨ ListedName c w := by
  have hnil : ∀ w, ¬ ListedName [] w := by
    rintro w ⟨pre, post, h, hw, -⟩
    have := congrArg List.length h
    simp at this
    exact hw (List.length_eq_zero_iff.1 (by omega))
  have hif : ∀ s types, (w ∈ if s ≠ [] then splitClasses s types else types) ↔
      w ∈ types ∨ ListedName s w := by
    intro s types
    split
    · exact C77_names s types w
    · next h =>
      rw [Classical.not_not.1 h]
      simp [hnil]
  unfold resetSkippedTypes
  rw [List.foldl_cons, List.foldl_cons, List.foldl_nil, hif, hif]
  simp

theorem takeWhile_split (p : Char → Bool) (s : Str) : ∃ rest, s = s.takeWhile p ++ rest ∧
    (rest = [] ∨ ∃ c r, rest = c :: r ∧ p c = false) := by
  refine ⟨s.dropWhile p, List.takeWhile_append_dropWhile.symm, ?_⟩
  cases h : s.dropWhile p with
  | nil => exact .inl rfl
  | cons c r =>
    refine .inr ⟨c, r, rfl, ?_⟩
    have := List.head_dropWhile_not (l := s) p (by rw [h]; simp)
    simpa [h] using this

theorem takeWhile_unique {p : Char → Bool} {a rest : Str} (ha : ∀ c ∈ a, p c = true)
    (hr : rest = [] ∨ ∃ c r, rest = c :: r ∧ p c = false) : (a ++ rest).takeWhile p = a := by
  rw [List.takeWhile_append_of_pos ha]
  rcases hr with rfl | ⟨c, r, rfl, hc⟩
  · simp
  · simp [hc]

theorem calledBy_iff (type name : Str) :
    CalledBy type name ↔ name = afterLastSpace (type.takeWhile fun c => c ≠ '<') := by
  unfold afterLastSpace
  constructor
  · rintro ⟨quals, args, rfl, hlt, hsp, hq, ha⟩
    have h1 : (quals ++ name ++ args).takeWhile (fun c => c ≠ '<') = quals ++ name := by
      apply takeWhile_unique
      · intro c hc; simp; rintro rfl; exact hlt hc
      · rcases ha with rfl | ⟨a, rfl⟩
        · exact .inl rfl
        · exact .inr ⟨_, _, rfl, by simp⟩
    rw [h1, List.reverse_append]
    rw [takeWhile_unique, List.reverse_reverse]
    · intro c hc
      have hc := List.mem_reverse.1 hc
      simp; rintro rfl; exact hsp hc
    · rcases hq with rfl | ⟨q, rfl⟩
      · exact .inl rfl
      · exact .inr ⟨' ', q.reverse, by simp, by simp⟩
  · intro hn
    obtain ⟨args, ht, ha⟩ := takeWhile_split (fun c => decide (c ≠ '<')) type
    generalize htw : type.takeWhile (fun c => decide (c ≠ '<')) = front at ht hn
    have hfront : '<' ∉ front := by
      intro hm
      have := List.all_takeWhile (l := type) (p := fun c => decide (c ≠ '<'))
      rw [htw, List.all_eq_true] at this
      simpa using this _ hm
    obtain ⟨q, hq, hq'⟩ := takeWhile_split (fun c => decide (c ≠ ' ')) front.reverse
    have hf : front = q.reverse ++ name := by
      rw [hn]
      have := congrArg List.reverse hq
      rwa [List.reverse_reverse, List.reverse_append] at this
    refine ⟨q.reverse, args, by rw [ht, hf], hf ▸ hfront, ?_, ?_, ?_⟩
    · intro hm
      rw [hn, List.mem_reverse] at hm
      have := List.all_takeWhile (l := front.reverse) (p := fun c => decide (c ≠ ' '))
      rw [List.all_eq_true] at this
      simpa using this _ hm
    · rcases hq' with rfl | ⟨c, r, rfl, hc⟩
      · exact .inl rfl
      · refine .inr ⟨r.reverse, ?_⟩
        simp at hc
        simp [hc]
    · rcases ha with rfl | ⟨c, r, rfl, hc⟩
      · exact .inl rfl
      · simp at hc
        exact .inr ⟨r, by rw [hc]⟩

/-- Every type is called by exactly one name. -/
theorem C77_called (type : Str) : ∃ name, CalledBy type name ∧ ∀ n, CalledBy type n → n = name :=
  ⟨_, (calledBy_iff _ _).2 rfl, fun _ h => (calledBy_iff _ _).1 h⟩

theorem isRAIIClass_iff (types : List Str) (v : LocalVar) :
    isRAIIClass types v = true ↔ ∃ n ∈ types, CalledBy v.canonicalType n := by
  unfold isRAIIClass
  rw [List.contains_iff_mem]
  constructor
  · intro h; exact ⟨_, h, (calledBy_iff _ _).2 rfl⟩
  · rintro ⟨n, hn, h⟩
    rw [(calledBy_iff _ _).1 h] at hn
    exact hn

theorem isUnusedLocalVariable_iff (v : LocalVar) : isUnusedLocalVariable v = true ↔ UnusedLocal v := by
  unfold isUnusedLocalVariable UnusedLocal isInNonTemplateFunction
  obtain ⟨name, ty, u, r, l, s, f⟩ := v
  rcases f with _ | _ | _ <;> cases u <;> cases r <;> cases l <;> cases s <;> simp

open Classical in
/-- The unused local variables are reported, in order and each once, unless what their type is called
is listed in the configuration. -/
theorem C77_exact (cfg cfg1 cfg2 : Configurations) (d c : Str)
    (hd : cfg.stringForKey "RAII_DEFAULT_CLASSES".toList "std::lock_guard, std::unique_lock".toList =
      .ok (d, cfg1))
    (hc : cfg1.stringForKey "RAII_CUSTOM_CLASSES".toList [] = .ok (c, cfg2)) (vs : List LocalVar) :
    unusedLocalRule cfg vs = .ok ((vs.filter fun v => decide (UnusedLocal v ∧
      ¬ ∃ n, CalledBy v.canonicalType n ∧ (ListedName d n ∨ ListedName c n))).map fun v =>
        (v, "The local variable '".toList ++ v.name ++ "' is unused.".toList)) := by
  unfold unusedLocalRule unusedLocalInit
  rw [hd]
  simp only
  rw [hc]
  simp only
  congr 1
  induction vs with
  | nil => rfl
  | cons v vs ih =>
    have hv : (isUnusedLocalVariable v && !isRAIIClass (resetSkippedTypes [d, c]) v) = true ↔
        UnusedLocal v ∧ ¬ ∃ n, CalledBy v.canonicalType n ∧ (ListedName d n ∨ ListedName c n) := by
      rw [Bool.and_eq_true, isUnusedLocalVariable_iff, Bool.not_eq_true', ← Bool.not_eq_true,
        isRAIIClass_iff]
      refine and_congr_right fun _ => not_congr (exists_congr fun n => ?_)
      rw [mem_resetSkippedTypes, and_comm]
    rw [List.flatMap_cons, ih, List.filter_cons, unusedLocalVisit]
    by_cases h : UnusedLocal v ∧ ¬ ∃ n, CalledBy v.canonicalType n ∧ (ListedName d n ∨ ListedName c n)
    · rw [if_pos (hv.2 h), if_pos (decide_eq_true h)]
      rfl
    · rw [if_neg (fun h' => h (hv.1 h')), if_neg (by simpa using h)]
      rfl

open Classical in
/-- After any history of the configuration the listed names are those of the two keys' last values,
or of the defaults. -/
theorem C77_configured (ops : List CfgOp) (cfg : Configurations)
    (h : ops.foldlM applyCfg none = .ok cfg) (vs : List LocalVar) :
    unusedLocalRule cfg vs = .ok ((vs.filter fun v => decide (UnusedLocal v ∧
      ¬ ∃ n, CalledBy v.canonicalType n ∧
        (ListedName ((configured "RAII_DEFAULT_CLASSES".toList ops).getD
            "std::lock_guard, std::unique_lock".toList) n ∨
          ListedName ((configured "RAII_CUSTOM_CLASSES".toList ops).getD []) n))).map fun v =>
        (v, "The local variable '".toList ++ v.name ++ "' is unused.".toList)) :=
  C77_exact cfg cfg cfg _ _ ((C07_configuration_is_a_map ops cfg h).2.1 _ _)
    ((C07_configuration_is_a_map ops cfg h).2.1 _ _) vs

/-- What a type is called need not be its class: a class inside a class template is called by the
template, and a pointer to a guard is called like the guard. -/
theorem C77_called_witness :
    CalledBy "class Outer<int>::Guard".toList "Outer".toList ∧
      CalledBy "class std::lock_guard<class std::mutex> *".toList "std::lock_guard".toList ∧
      ¬ ∃ n, CalledBy "class Outer<int>::Guard".toList n ∧ n = "Outer<int>::Guard".toList := by
  refine ⟨(calledBy_iff _ _).2 rfl, (calledBy_iff _ _).2 rfl, ?_⟩
  rintro ⟨n, h, rfl⟩
  exact absurd ((calledBy_iff _ _).1 h) (by decide)

/-- With the default configuration and `Guard` added. -/
example : unusedLocalRule (some [("RAII_CUSTOM_CLASSES".toList, "Guard;A".toList)])
    [⟨['x'], "int".toList, false, false, true, false, some true⟩,
     ⟨['g'], "class Guard".toList, false, false, true, false, some true⟩,
     ⟨['l'], "class std::lock_guard<class std::mutex>".toList, false, false, true, false, some true⟩,
     ⟨['u'], "int".toList, true, false, true, false, some true⟩,
     ⟨['t'], "int".toList, false, false, true, false, some false⟩] =
    .ok [(⟨['x'], "int".toList, false, false, true, false, some true⟩,
      "The local variable 'x' is unused.".toList)] := by decide

/-! ## C78: unused parameters -/

theorem someContext_eq (test : DeclCtx → Bool) (cs : List DeclCtx) :
    someContext test cs = true ↔ ∃ c ∈ cs, test c = true := by
  induction cs with
  | nil => simp [someContext]
  | cons c cs ih =>
    rw [someContext]
    split
    · next h => simp [h]
    · next h => simp [ih, h]

theorem excuses_iff (c : DeclCtx) :
    (isExistingByContract c = true ∨ isIBActionContext c = true) ↔ Excuses c := by
  constructor
  · rintro (h | h)
    · cases c with
      | function a b t v =>
        simp only [isExistingByContract, isFunctionDeclaration, isBlockDeclaration, DeclCtx.asObjcMethod,
          isObjCMethodDeclLocatedInInterfaceContainer, isObjCMethodDeclaredInSuperClass,
          isObjCMethodDeclaredInProtocol, isCppFunctionDeclaration, Bool.or_false, Bool.or_eq_true,
          Bool.not_eq_true'] at h
        rcases h with (rfl | rfl) | h
        · exact .noBody
        · exact .nowhereBody
        · cases v with
          | none => simp [isCppOverrideFunction] at h
          | some v => simp only [isCppOverrideFunction] at h; subst h; exact .virtual
      | block => exact .block
      | objcMethod m =>
        simp only [isExistingByContract, isFunctionDeclaration, isBlockDeclaration,
          DeclCtx.asObjcMethod, isCppFunctionDeclaration, isCppOverrideFunction, Bool.or_false,
          Bool.or_eq_true, Bool.false_eq_true, false_or] at h
        by_cases hc : m.container = .implementation
        · have hin : isObjCMethodDeclLocatedInInterfaceContainer (some m) = false := by
            simp [isObjCMethodDeclLocatedInInterfaceContainer, hc]
          rw [hin] at h
          simp only [Bool.false_eq_true, false_or] at h
          rcases h with h | h
          · unfold isObjCMethodDeclaredInSuperClass at h
            simp only [hin, Bool.not_false, if_true] at h
            split at h
            · next i hi =>
              split at h
              · next s hs => exact .inherited hc hi hs h
              · cases h
            · cases h
          · unfold isObjCMethodDeclaredInProtocol at h
            simp only [hin, Bool.false_eq_true, if_false] at h
            split at h
            · next i hi =>
              obtain ⟨p, hp, h⟩ := List.any_eq_true.1 h
              exact .protocol hc hi hp h
            · cases h
        · exact .declared hc
      | record => exact .record
      | other =>
        simp [isExistingByContract, isFunctionDeclaration, isBlockDeclaration,
          DeclCtx.asObjcMethod, isCppFunctionDeclaration, isCppOverrideFunction,
          isObjCMethodDeclLocatedInInterfaceContainer, isObjCMethodDeclaredInSuperClass,
          isObjCMethodDeclaredInProtocol] at h
    · cases c with
      | objcMethod m => exact .action h
      | _ => simp [isIBActionContext, DeclCtx.asObjcMethod] at h
  · intro h
    cases h with
    | noBody => exact .inl (by simp [isExistingByContract, isFunctionDeclaration])
    | nowhereBody => exact .inl (by simp [isExistingByContract, isCppFunctionDeclaration])
    | virtual => exact .inl (by simp [isExistingByContract, isCppOverrideFunction])
    | block => exact .inl rfl
    | @declared m h =>
      refine .inl ?_
      have : isObjCMethodDeclLocatedInInterfaceContainer (some m) = true := by
        unfold isObjCMethodDeclLocatedInInterfaceContainer
        cases hm : m.container <;> simp_all
      simp [isExistingByContract, DeclCtx.asObjcMethod, this]
    | @inherited m i s hc hi hs h =>
      refine .inl ?_
      have : isObjCMethodDeclaredInSuperClass (some m) = true := by
        unfold isObjCMethodDeclaredInSuperClass isObjCMethodDeclLocatedInInterfaceContainer
        simp [hc, hi, hs, h]
      simp [isExistingByContract, DeclCtx.asObjcMethod, this]
    | @protocol m i p hc hi hp h =>
      refine .inl ?_
      have : isObjCMethodDeclaredInProtocol (some m) = true := by
        unfold isObjCMethodDeclaredInProtocol isObjCMethodDeclLocatedInInterfaceContainer
        simp only [hc, hi]
        exact List.any_eq_true.2 ⟨p, hp, h⟩
      simp [isExistingByContract, DeclCtx.asObjcMethod, this]
    | action h => exact .inr h
    | record => exact .inl rfl

theorem unusedParam_iff (p : Param) : (p.isUsed = false ∧ p.hasUnusedAttr = false ∧ p.name ≠ [] ∧
    isInNonTemplateFunction p.inFunction = true) ↔ UnusedParam p := by
  unfold UnusedParam
  refine and_congr_right fun _ => and_congr_right fun _ => and_congr_right fun _ => ?_
  unfold isInNonTemplateFunction Param.inFunction
  split
  · next nt h =>
    split at h
    · next a b t v rest hc =>
      cases h
      rw [hc]
      constructor
      · rintro rfl a b v rest h; cases h
      · intro h
        cases nt with
        | true => rfl
        | false => exact absurd rfl (h _ _ _ _)
    · cases h
  · next h =>
    simp only [true_iff]
    intro a b v rest hc
    rw [hc] at h
    cases h

/-- A parameter is reported, once, exactly if it is unused and nothing around it is an excuse. -/
theorem C78_exact (p : Param) (m : Str) : m ∈ unusedParamVisit p ↔
    UnusedParam p ∧ (∀ c ∈ p.contexts, ¬ Excuses c) ∧
      m = "The parameter '".toList ++ p.name ++ "' is unused.".toList := by
  have hex : (someContext isExistingByContract p.contexts = false ∧
      someContext isIBActionContext p.contexts = false) ↔ ∀ c ∈ p.contexts, ¬ Excuses c := by
    rw [← Bool.not_eq_true, ← Bool.not_eq_true, someContext_eq, someContext_eq]
    constructor
    · rintro ⟨h1, h2⟩ c hc he
      rcases (excuses_iff c).2 he with h | h
      · exact h1 ⟨c, hc, h⟩
      · exact h2 ⟨c, hc, h⟩
    · intro h
      exact ⟨fun ⟨c, hc, h'⟩ => h c hc ((excuses_iff c).1 (.inl h')),
        fun ⟨c, hc, h'⟩ => h c hc ((excuses_iff c).1 (.inr h'))⟩
  rw [← unusedParam_iff, ← hex]
  unfold unusedParamVisit
  split
  · next h =>
    simp only [Bool.and_eq_true, Bool.not_eq_true', decide_eq_true_eq] at h
    obtain ⟨⟨⟨⟨⟨h1, h2⟩, h3⟩, h4⟩, h5⟩, h6⟩ := h
    rw [List.mem_singleton]
    constructor
    · rintro rfl; exact ⟨⟨h1, h2, h3, h4⟩, ⟨h5, h6⟩, rfl⟩
    · rintro ⟨-, -, rfl⟩; rfl
  · next h =>
    simp only [Bool.and_eq_true, Bool.not_eq_true', decide_eq_true_eq] at h
    simp only [List.not_mem_nil, false_iff]
    rintro ⟨⟨h1, h2, h3, h4⟩, ⟨h5, h6⟩, -⟩
    exact h ⟨⟨⟨⟨⟨h1, h2⟩, h3⟩, h4⟩, h5⟩, h6⟩

/-- At most one report for a parameter. -/
theorem C78_once (p : Param) : (unusedParamVisit p).length ≤ 1 := by
  unfold unusedParamVisit; split <;> simp

/-- Away from classes and class methods the excuses are the proper ones, if a function that has a
body here has one. -/
theorem C78_proper_partial (p : Param) (hr : DeclCtx.record ∉ p.contexts)
    (hm : ∀ m, DeclCtx.objcMethod m ∈ p.contexts → m.isInstance = true)
    (hb : ∀ a b t v, DeclCtx.function a b t v ∈ p.contexts → a = true → b = true) :
    unusedParamVisit p ≠ [] ↔ UnusedParam p ∧ ∀ c ∈ p.contexts, ¬ ExcusesProperly c := by
  have he : ∀ c ∈ p.contexts, (Excuses c ↔ ExcusesProperly c) := by
    intro c hc
    constructor
    · intro h
      cases h with
      | noBody => exact .noBody
      | @nowhereBody b t v =>
        cases b with
        | false => exact .noBody
        | true => have := hb _ _ _ _ hc rfl; cases this
      | virtual => exact .virtual
      | block => exact .block
      | declared h => exact .declared h
      | inherited h1 h2 h3 h4 => exact .inherited h2 h3 (by rw [hm _ hc]; exact h4)
      | protocol h1 h2 h3 h4 => exact .protocol h2 h3 (by rw [hm _ hc]; exact h4)
      | action h => exact .action h
      | record => exact absurd hc hr
    · intro h
      cases h with
      | noBody => exact .noBody
      | virtual => exact .virtual
      | block => exact .block
      | declared h => exact .declared h
      | @inherited m i s h2 h3 h4 =>
        rw [hm _ hc] at h4
        by_cases h1 : m.container = .implementation
        · exact .inherited h1 h2 h3 h4
        · exact .declared h1
      | @protocol m i q h2 h3 h4 =>
        rw [hm _ hc] at h4
        by_cases h1 : m.container = .implementation
        · exact .protocol h1 h2 h3 h4
        · exact .declared h1
      | action h => exact .action h
  constructor
  · intro h
    obtain ⟨m, hm⟩ := List.exists_mem_of_ne_nil _ h
    obtain ⟨h1, h2, -⟩ := (C78_exact p m).1 hm
    exact ⟨h1, fun c hc h => h2 c hc ((he c hc).2 h)⟩
  · rintro ⟨h1, h2⟩ h
    have := (C78_exact p _).2 ⟨h1, fun c hc h => h2 c hc ((he c hc).1 h), rfl⟩
    rw [h] at this; cases this

/-- Inside a class nothing is ever reported. -/
theorem C78_class (p : Param) (h : DeclCtx.record ∈ p.contexts) : unusedParamVisit p = [] := by
  refine List.eq_nil_iff_forall_not_mem.2 fun m hm => ?_
  exact ((C78_exact p m).1 hm).2.1 _ h .record

/-- So the intended statement is false in both directions: `struct S { void f(int x) {} };` has an
unused parameter that is not reported, and a class method the superclass requires is reported. -/
theorem C78_witness :
    (∃ p : Param, UnusedParam p ∧ (∀ c ∈ p.contexts, ¬ ExcusesProperly c) ∧ unusedParamVisit p = []) ∧
    (∃ p : Param, (∃ c ∈ p.contexts, ExcusesProperly c) ∧ unusedParamVisit p ≠ []) := by
  constructor
  · refine ⟨⟨['x'], false, false, [.function true true true (some false), .record, .other]⟩,
      ⟨rfl, rfl, by simp, by simp⟩, ?_, C78_class _ (by simp)⟩
    intro c hc h
    simp only [List.mem_cons, List.not_mem_nil, or_false] at hc
    rcases hc with rfl | rfl | rfl <;> cases h
  · let m : ObjcMethod := ⟨"make:".toList, false, .implementation,
      some ⟨some ⟨fun _ => false, fun s => s == "make:".toList⟩, []⟩, false⟩
    refine ⟨⟨['x'], false, false, [.objcMethod m, .other]⟩, ⟨_, List.mem_cons_self, ?_⟩, ?_⟩
    · exact .inherited (m := m) rfl rfl (by rfl)
    · have : unusedParamVisit ⟨['x'], false, false, [.objcMethod m, .other]⟩ =
          ["The parameter 'x' is unused.".toList] := rfl
      rw [this]; simp

/-- A plain function, a declaration, a virtual method. -/
example : unusedParamVisit ⟨['x'], false, false, [.function true true true none, .other]⟩ =
      ["The parameter 'x' is unused.".toList] ∧
    unusedParamVisit ⟨['x'], false, false, [.function false true true none, .other]⟩ = [] ∧
    unusedParamVisit ⟨['x'], false, false, [.function true true true (some true), .other]⟩ = [] :=
  ⟨rfl, rfl, rfl⟩

end Oclint
