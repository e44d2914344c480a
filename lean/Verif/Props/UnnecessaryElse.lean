import Verif.Model.RulesControl
import Verif.Spec.UnnecessaryElse
import Verif.Lemmas.Semantics
import Mathlib.Tactic.ByContra

/-! # Unnecessary `else`: C43 -/

namespace Oclint

open Spec

set_option linter.unusedSimpArgs false

/-! ## What is reported -/

theorem allBranchesReturn_iff (s : Stmt) : allBranchesReturn s = true ↔ Returns s := by
  induction s using Stmt.rec (motive_2 := fun l => allBranchesReturnL l = true ↔ ∃ x ∈ l, Returns x)
    (motive_3 := fun o => allBranchesReturnO o = true ↔ ∃ x, o = some x ∧ Returns x) with
  | compound b ih =>
    simp only [allBranchesReturn, ih]
    constructor
    · rintro ⟨x, h1, h2⟩; exact .compound h1 h2
    · intro h; cases h with | compound h1 h2 => exact ⟨_, h1, h2⟩
  | ifS p c t e _ _ iht ihe =>
    simp only [allBranchesReturn, Bool.and_eq_true, iht, ihe]
    constructor
    · rintro ⟨h1, x, rfl, h2⟩; exact .ifS h1 h2
    · intro h; cases h with | ifS h1 h2 => exact ⟨h1, _, rfl, h2⟩
  | returnS v => simp [allBranchesReturn, Returns.ret]
  | nil => simp [allBranchesReturnL]
  | cons s l ih1 ih2 => simp [allBranchesReturnL, ih1, ih2]
  | none => simp [allBranchesReturnO]
  | some x ih => simp [allBranchesReturnO, ih]
  | _ => simp only [allBranchesReturn, Bool.false_eq_true, false_iff]; intro h; cases h

theorem elseChain_if (i : Nat) (p : Option Stmt) (c t : Stmt) (e : Stmt) (h : isIf e = true) :
    elseChain i (.ifS p c t (some e)) =
      (i :: (elseChain (i + elseOffset p c t) e).1, t :: (elseChain (i + elseOffset p c t) e).2.1,
        (elseChain (i + elseOffset p c t) e).2.2) := by
  cases e <;> simp [isIf] at h
  rw [elseChain]

theorem elseChain_last (i : Nat) (p : Option Stmt) (c t : Stmt) (e : Option Stmt)
    (h : ∀ x, e = some x → isIf x = false) :
    elseChain i (.ifS p c t e) = ([i], [t], e) := by
  rw [elseChain]
  intro p' c' t' e' he
  have := h _ he
  simp [isIf] at this

theorem thens_notIf {e : Stmt} (h : isIf e = false) : thens e = [] := by
  cases e <;> simp [thens, isIf] at h ⊢

theorem elseChain_eq (s : Stmt) (i : Nat) (h : isIf s = true) :
    (elseChain i s).2.1 = thens s ∧ (elseChain i s).2.2 = lastElse s ∧
      (∀ j ∈ (elseChain i s).1, i ≤ j ∧ j < i + s.nodes.length) := by
  induction s using Stmt.kidsInd generalizing i with
  | ih s ih =>
    cases s <;> simp [isIf] at h
    rename_i p c t e
    by_cases he : ∃ x, e = some x ∧ isIf x = true
    · obtain ⟨x, rfl, hx⟩ := he
      obtain ⟨h1, h2, h3⟩ := ih x (by simp [Stmt.kids]) (i + elseOffset p c t) hx
      rw [elseChain_if _ _ _ _ _ hx]
      refine ⟨by simp [thens, h1], by simp [lastElse, hx, h2], ?_⟩
      intro j hj
      simp only [List.mem_cons] at hj
      rcases hj with rfl | hj
      · simp [Stmt.nodes]
      · have := h3 j hj
        simp only [elseOffset, Stmt.nodes, List.length_cons, List.length_append, Stmt.nodesO] at this ⊢
        omega
    · have hne : ∀ x, e = some x → isIf x = false := fun x hx => by
        cases hh : isIf x
        · rfl
        · exact absurd ⟨x, hx, hh⟩ he
      rw [elseChain_last _ _ _ _ _ hne]
      refine ⟨?_, ?_, ?_⟩
      · cases e with
        | none => simp [thens]
        | some x => simp [thens, thens_notIf (hne x rfl)]
      · cases e with
        | none => simp [lastElse]
        | some x => simp [lastElse, hne x rfl]
      · simp [Stmt.nodes]

theorem flatMap_attach {α β : Type} (l : List α) (f : α → List β) :
    l.attach.flatMap (fun x => f x.1) = l.flatMap f := by
  have : l.flatMap f = (l.attach.map Subtype.val).flatMap f := by rw [List.attach_map_subtype_val]
  rw [this, List.flatMap_map]

theorem elseReports_if (b : Bool) (p c t e) : elseReports b (.ifS p c t e) =
    (if b then [] else chainReport (.ifS p c t e)) ++
      (p.toList.flatMap (elseReports false) ++ elseReports false c ++ elseReports false t ++
        e.toList.flatMap (fun x => elseReports (isIf x) x)) := by
  rw [elseReports]
  have h1 := flatMap_attach p.toList (elseReports false)
  have h2 := flatMap_attach e.toList (fun x => elseReports (isIf x) x)
  simp only [h1, h2]
  cases b <;> simp [isIf]

theorem elseReports_other (b : Bool) (s : Stmt) (h : isIf s = false) :
    elseReports b s = s.kids.flatMap (elseReports false) := by
  have h1 := flatMap_attach s.kids (elseReports false)
  rw [elseReports]
  · rw [h, Bool.false_and]; exact h1
  · rintro p c t e rfl; simp [isIf] at h

theorem chain_report (s : Stmt) (i : Nat) (h : isIf s = true) :
    (match (elseChain i s).2.2 with
      | some last => if (elseChain i s).2.1.all allBranchesReturn then [last] else []
      | none => []) = chainReport s := by
  obtain ⟨h1, h2, _⟩ := elseChain_eq s i h
  rw [h1, h2]
  have : ((thens s).all allBranchesReturn = true) ↔ ∀ t ∈ thens s, Returns t := by
    simp [allBranchesReturn_iff]
  cases hl : lastElse s with
  | none => simp [chainReport, hl]
  | some x =>
    by_cases hall : ∀ t ∈ thens s, Returns t
    · simp only [this.mpr hall, if_true, chainReport, if_pos hall, hl, Option.toList_some]
    · have : (thens s).all allBranchesReturn = false := by
        rw [← Bool.not_eq_true, this]; exact hall
      simp [this, chainReport, hall]

/-- What the list of visited nodes says about the part of the traversal from `i` on. -/
def Fresh (i n : Nat) (visited : List Nat) : Prop := ∀ j, i ≤ j → j < i + n → j ∉ visited

/-- The loop over one subtree. -/
def LoopsOver (b : Bool) (s : Stmt) : Prop :=
  ∀ i visited rest,
    (∀ j, i ≤ j → j < i + s.nodes.length →
      (j ∈ visited ↔ b = true ∧ j ∈ (elseChain i s).1)) →
    ∃ visited', (∀ j, j ∈ visited → j ∈ visited') ∧
      (∀ j, j ∈ visited' → j ∈ visited ∨ (i ≤ j ∧ j < i + s.nodes.length)) ∧
      unnecessaryElseLoop i visited (s.nodes ++ rest) =
        elseReports b s ++ unnecessaryElseLoop (i + s.nodes.length) visited' rest

theorem loopsOver_list (l : List Stmt) (h : ∀ x ∈ l, LoopsOver false x) (i : Nat)
    (visited : List Nat) (rest : List Stmt) (hf : Fresh i (l.flatMap Stmt.nodes).length visited) :
    ∃ visited', (∀ j, j ∈ visited → j ∈ visited') ∧
      (∀ j, j ∈ visited' → j ∈ visited ∨ (i ≤ j ∧ j < i + (l.flatMap Stmt.nodes).length)) ∧
      unnecessaryElseLoop i visited (l.flatMap Stmt.nodes ++ rest) =
        l.flatMap (elseReports false) ++
          unnecessaryElseLoop (i + (l.flatMap Stmt.nodes).length) visited' rest := by
  induction l generalizing i visited with
  | nil => exact ⟨visited, fun _ h => h, fun _ h => .inl h, by simp⟩
  | cons s l ih =>
    simp only [List.flatMap_cons, List.length_append, List.append_assoc] at hf ⊢
    obtain ⟨v1, hv1, hv1', he1⟩ := h s (by simp) i visited (l.flatMap Stmt.nodes ++ rest)
      (fun j h1 h2 => by
        simp only [Bool.false_eq_true, false_and, iff_false]
        exact hf j h1 (by omega))
    obtain ⟨v2, hv2, hv2', he2⟩ := ih (fun x hx => h x (by simp [hx])) (i + s.nodes.length) v1
      (fun j h1 h2 hj => by
        rcases hv1' j hj with h3 | h3
        · exact hf j (by omega) (by omega) h3
        · omega)
    refine ⟨v2, fun j hj => hv2 j (hv1 j hj), fun j hj => ?_, ?_⟩
    · rcases hv2' j hj with h3 | h3
      · rcases hv1' j h3 with h4 | h4
        · exact .inl h4
        · exact .inr (by omega)
      · exact .inr (by omega)
    · rw [he1, he2, Nat.add_assoc]

theorem elseChain_notIf (i : Nat) (s : Stmt) (h : isIf s = false) : (elseChain i s).1 = [] := by
  cases s <;> simp [isIf] at h <;> rfl

theorem loopsOver (s : Stmt) : ∀ b, (b = true → isIf s = true) → LoopsOver b s := by
  induction s using Stmt.kidsInd with
  | ih s ih =>
    intro b hb i visited rest hv
    by_cases hs : isIf s = false
    · -- not an if
      have hbf : b = false := by
        cases b
        · rfl
        · simp [hb rfl] at hs
      subst hbf
      have hn : s.nodes.length = 1 + (s.kids.flatMap Stmt.nodes).length := by
        rw [Stmt.nodes_eq]; simp; omega
      obtain ⟨v', h1, h2, h3⟩ := loopsOver_list s.kids (fun x hx => ih x hx false (by simp)) (i + 1)
        visited rest (fun j h1 h2 hj => by
          have := (hv j (by omega) (by omega)).mp hj
          simp at this)
      refine ⟨v', h1, fun j hj => ?_, ?_⟩
      · rcases h2 j hj with h | h
        · exact .inl h
        · exact .inr (by omega)
      · rw [elseReports_other _ _ hs, hn, ← Nat.add_assoc, ← h3, Stmt.nodes_eq]
        cases s <;> simp [isIf] at hs <;> simp [unnecessaryElseLoop]
    · -- an if
      simp only [Bool.not_eq_false] at hs
      obtain ⟨hthens, hlast, hrange⟩ := elseChain_eq s i hs
      have hchain := chain_report s i hs
      cases s <;> simp [isIf] at hs
      rename_i p c t e
      have hi : i ∈ (elseChain i (.ifS p c t e)).1 := by
        by_cases he : ∃ x, e = some x ∧ isIf x = true
        · obtain ⟨x, rfl, hx⟩ := he
          rw [elseChain_if _ _ _ _ _ hx]; simp
        · rw [elseChain_last _ _ _ _ _ (fun x hx => by
            cases hh : isIf x
            · rfl
            · exact absurd ⟨x, hx, hh⟩ he)]
          simp
      -- the list of visited nodes after the if itself
      let v0 := if b then visited else visited ++ (elseChain i (.ifS p c t e)).1
      have hv0 : ∀ j, i ≤ j → j < i + (Stmt.ifS p c t e).nodes.length →
          (j ∈ v0 ↔ j ∈ (elseChain i (.ifS p c t e)).1) := by
        intro j h1 h2
        have := hv j h1 h2
        cases b <;> simp_all [v0]
      have hv0' : ∀ j, j ∈ v0 → j ∈ visited ∨
          (i ≤ j ∧ j < i + (Stmt.ifS p c t e).nodes.length) := by
        intro j hj
        cases b
        · simp only [v0, Bool.false_eq_true, if_false, List.mem_append] at hj
          rcases hj with hj | hj
          · exact .inl hj
          · exact .inr (hrange j hj)
        · exact .inl (by simpa [v0] using hj)
      have hv0sub : ∀ j, j ∈ visited → j ∈ v0 := by
        intro j hj; cases b <;> simp [v0, hj]
      -- where the parts are
      have hlen : (Stmt.ifS p c t e).nodes.length =
          elseOffset p c t + (e.toList.flatMap Stmt.nodes).length := by
        simp [Stmt.nodes, elseOffset, Stmt.nodesO_eq]; omega
      have hoff : elseOffset p c t = 1 + ((p.toList ++ [c, t]).flatMap Stmt.nodes).length := by
        simp [elseOffset, Stmt.nodesO_eq]; omega
      have hchainge : ∀ j ∈ (elseChain i (.ifS p c t e)).1, j = i ∨ i + elseOffset p c t ≤ j := by
        intro j hj
        by_cases he : ∃ x, e = some x ∧ isIf x = true
        · obtain ⟨x, rfl, hx⟩ := he
          rw [elseChain_if _ _ _ _ _ hx] at hj
          simp only [List.mem_cons] at hj
          rcases hj with rfl | hj
          · exact .inl rfl
          · exact .inr ((elseChain_eq x _ hx).2.2 j hj).1
        · rw [elseChain_last _ _ _ _ _ (fun x hx => by
            cases hh : isIf x
            · rfl
            · exact absurd ⟨x, hx, hh⟩ he)] at hj
          simp at hj; exact .inl hj
      -- pre, condition and then branch
      obtain ⟨v1, h1, h1', he1⟩ := loopsOver_list (p.toList ++ [c, t])
        (fun x hx => ih x (by simp [Stmt.kids] at hx ⊢; rcases hx with h | h | h <;> simp [h]) false (by simp)) (i + 1) v0
        (e.toList.flatMap Stmt.nodes ++ rest) (fun j ha hb hj => by
          rcases hchainge j ((hv0 j (by omega) (by omega)).mp hj) with rfl | h <;> omega)
      -- else branch
      have helse : ∃ v2, (∀ j, j ∈ v1 → j ∈ v2) ∧
          (∀ j, j ∈ v2 → j ∈ v1 ∨ (i + elseOffset p c t ≤ j ∧ j < i + (Stmt.ifS p c t e).nodes.length)) ∧
          unnecessaryElseLoop (i + elseOffset p c t) v1 (e.toList.flatMap Stmt.nodes ++ rest) =
            e.toList.flatMap (fun x => elseReports (isIf x) x) ++
              unnecessaryElseLoop (i + (Stmt.ifS p c t e).nodes.length) v2 rest := by
        cases e with
        | none =>
          refine ⟨v1, fun _ h => h, fun _ h => .inl h, ?_⟩
          simp at hlen; simp [hlen]
        | some x =>
          have hlenx : (Stmt.ifS p c t (some x)).nodes.length = elseOffset p c t + x.nodes.length := by
            rw [hlen]; simp
          obtain ⟨v2, h2, h2', he2⟩ := ih x (by simp [Stmt.kids]) (isIf x) (fun h => h)
            (i + elseOffset p c t) v1 rest (fun j ha hb => by
              have hjv : j ∈ v1 ↔ j ∈ (elseChain i (.ifS p c t (some x))).1 := by
                rw [← hv0 j (by omega) (by omega)]
                refine ⟨fun hj => ?_, h1 j⟩
                rcases h1' j hj with h | h
                · exact h
                · omega
              rw [hjv]
              cases hx : isIf x with
              | true =>
                rw [elseChain_if _ _ _ _ _ hx]
                simp only [List.mem_cons, true_and]
                have : 0 < elseOffset p c t := by simp [elseOffset]; omega
                constructor
                · rintro (rfl | h)
                  · omega
                  · exact h
                · exact .inr
              | false =>
                rw [elseChain_last _ _ _ _ _ (fun y hy => by cases hy; exact hx)]
                simp only [List.mem_singleton, Bool.false_eq_true, false_and, iff_false]
                have : 0 < elseOffset p c t := by simp [elseOffset]; omega
                omega)
          refine ⟨v2, h2, fun j hj => ?_, ?_⟩
          · rcases h2' j hj with h | h
            · exact .inl h
            · exact .inr (by omega)
          · simp only [Option.toList_some, List.flatMap_cons, List.flatMap_nil, List.append_nil]
            rw [he2, hlenx, Nat.add_assoc]
      obtain ⟨v2, h2, h2', he2⟩ := helse
      refine ⟨v2, fun j hj => h2 j (h1 j (hv0sub j hj)), fun j hj => ?_, ?_⟩
      · rcases h2' j hj with h | h
        · rcases h1' j h with h | h
          · exact hv0' j h
          · exact .inr (by omega)
        · exact .inr (by omega)
      · have hnodes : (Stmt.ifS p c t e).nodes = Stmt.ifS p c t e ::
            ((p.toList ++ [c, t]).flatMap Stmt.nodes ++ e.toList.flatMap Stmt.nodes) := by
          simp [Stmt.nodes, Stmt.nodesO_eq]
        have hstart : i + 1 + ((p.toList ++ [c, t]).flatMap Stmt.nodes).length =
            i + elseOffset p c t := by omega
        rw [hstart] at he1
        rw [he2] at he1
        rw [elseReports_if]
        have hin : visited.contains i = b := by
          have := hv i (Nat.le_refl _) (by simp [Stmt.nodes])
          cases b <;> simp_all
        generalize (Stmt.ifS p c t e).nodes.length = N at he1 ⊢
        rw [hnodes]
        simp only [List.cons_append, List.append_assoc, unnecessaryElseLoop, hin]
        cases b with
        | true =>
          simp only [if_true, List.nil_append]
          simp only [v0, if_true] at he1
          rw [he1]
          simp
        | false =>
          simp only [Bool.false_eq_true, if_false]
          refine congrArg₂ (· ++ ·) hchain ?_
          simp only [v0, Bool.false_eq_true, if_false] at he1
          rw [he1]
          simp

/-- The unnecessary-else rule reports, from left to right, for every chain of `if` and `else if`
that is not itself the `else` of another one, the `else` at its end, if all its then branches
return. -/
theorem C43_reports_exactly (root : Stmt) : unnecessaryElse root = elseReports false root := by
  obtain ⟨v', _, _, h⟩ := loopsOver root false (by simp) 0 [] [] (by simp)
  simp only [List.append_nil] at h
  rw [unnecessaryElse, h]
  simp [unnecessaryElseLoop]

/-! ## The advice -/

section
variable {σ V : Type} (W : World σ V)

/-- A returning statement, run from its start, never runs to its end. -/
theorem returns_never_end {x : Stmt} (h : Returns x) {s o s'} (hr : Run W .start x s o s') :
    o ≠ .normal := by
  induction h generalizing s o s' with
  | @compound b x hm _ ih =>
    rw [run_compound] at hr
    induction b generalizing s with
    | nil => simp at hm
    | cons y rest ihb =>
      rw [runL_cons_start] at hr
      rcases hr with ⟨_, ho⟩ | ⟨s1, h1, h2⟩
      · exact ho
      · rcases List.mem_cons.mp hm with rfl | hm
        · exact absurd rfl (ih h1)
        · exact ihb hm h2
  | ifS _ _ iht ihe =>
    rw [run_if_branch] at hr
    rcases hr with ⟨_, ho⟩ | ⟨s1, _, hb⟩
    · exact ho
    · simp only [branch] at hb
      split at hb
      · exact hb.elim
      · rw [hb.2]; simp
      · split at hb
        · exact iht hb
        · exact ihe (runO_some.mp hb)
  | ret v =>
    cases hr <;> first | (rename_i h _; simp [isExpr, isOther] at h) | simp

theorem thens_self {p c t e} : t ∈ thens (.ifS p c t e) := by cases e <;> simp [thens]

theorem withoutLastElse_noEntry (s : Stmt) (h : isIf s = true)
    (hl : ∀ t ∈ thens s, NoEntry W t) : NoEntry W (withoutLastElse s) := by
  induction s using Stmt.kidsInd with
  | ih s ih =>
    cases s <;> simp [isIf] at h
    rename_i p c t e
    have ht := hl t thens_self
    intro l hne
    have hst : (match l with | .start => true | _ => false) = false := by
      cases l <;> simp at hne ⊢
    cases e with
    | none => simp [withoutLastElse, hasEntry, hst, ht l hne, hasEntryO]
    | some e =>
      cases he : isIf e with
      | false => simp [withoutLastElse, he, hasEntry, hst, ht l hne, hasEntryO]
      | true =>
        have := ih e (by simp [Stmt.kids]) he (fun x hx => hl x (by simp [thens, hx])) l hne
        simp [withoutLastElse, he, hasEntry, hst, ht l hne, hasEntryO, this]

theorem chain_same_aux (s x : Stmt) (h : isIf s = true) (hlast : lastElse s = some x)
    (hret : ∀ t ∈ thens s, Returns t) (hl : ∀ t ∈ thens s, NoEntry W t) :
    Same W s (.compound [withoutLastElse s, x]) := by
  induction s using Stmt.kidsInd with
  | ih s ih =>
    have hnone := withoutLastElse_noEntry W s h hl
    cases s <;> simp [isIf] at h
    rename_i p c t e
    have ht := hl t thens_self
    have hr := hret t thens_self
    cases e with
    | none => simp [lastElse] at hlast
    | some e =>
      -- the else branch is the same as what is left of it followed by `x`
      have he : (isIf e = false ∧ e = x ∧ withoutLastElse (.ifS p c t (some e)) = .ifS p c t none) ∨
          (isIf e = true ∧ Same W e (.compound [withoutLastElse e, x]) ∧
            withoutLastElse (.ifS p c t (some e)) = .ifS p c t (some (withoutLastElse e))) := by
        cases hie : isIf e with
        | false =>
          simp only [lastElse, hie, Bool.false_eq_true, if_false, Option.some.injEq] at hlast
          exact .inl ⟨rfl, hlast, by simp [withoutLastElse, hie]⟩
        | true =>
          simp only [lastElse, hie, if_true] at hlast
          exact .inr ⟨rfl, ih e (by simp [Stmt.kids]) hie hlast
            (fun y hy => hret y (by simp [thens, hy])) (fun y hy => hl y (by simp [thens, hy])),
            by simp [withoutLastElse, hie]⟩
      constructor
      · intro l
        by_cases hls : l = .start
        · subst hls; simp [hasEntryL]
        · have hst : (match l with | .start => true | _ => false) = false := by
            cases l <;> simp at hls ⊢
          have h1 : hasEntry W l (.compound [withoutLastElse (.ifS p c t (some e)), x]) =
              hasEntry W l x := by
            simp only [hasEntry, hasEntryL, hst, hnone l hls, Bool.false_or, Bool.or_false]
          rw [h1]
          simp only [hasEntry, hasEntryO, hst, ht l hls, Bool.false_or]
          rcases he with ⟨_, rfl, _⟩ | ⟨hie, hsame, _⟩
          · rfl
          · rw [hsame.1 l]
            have := withoutLastElse_noEntry W e hie (fun y hy => hl y (by simp [thens, hy])) l hls
            simp [hasEntry, hasEntryL, hst, this]
      · intro l s o s'
        by_cases hls : l = .start
        · subst hls
          rw [run_compound, runL_cons_start]
          simp only [runL_cons_start, runL_nil]
          -- run x to whatever end
          have hx : ∀ s1, ((Run W .start x s1 o s' ∧ o ≠ .normal) ∨
              ∃ s2, Run W .start x s1 .normal s2 ∧ True ∧ o = .normal ∧ s' = s2) ↔
              Run W .start x s1 o s' := by
            intro s1
            constructor
            · rintro (⟨h, _⟩ | ⟨s2, h, _, rfl, rfl⟩) <;> exact h
            · intro h
              by_cases ho : o = .normal
              · subst ho; exact .inr ⟨_, h, trivial, rfl, rfl⟩
              · exact .inl ⟨h, ho⟩
          simp only [hx]
          rw [run_if_branch]
          have hW : ∀ o s', Run W .start (withoutLastElse (.ifS p c t (some e))) s o s' ↔
              (RunO W p s o s' ∧ o ≠ .normal) ∨
              ∃ s1, RunO W p s .normal s1 ∧ branch W (eval W c s1) (fun s2 => Run W .start t s2 o s')
                (fun s2 => RunO W (if isIf e then some (withoutLastElse e) else none) s2 o s') o s' := by
            intro o s'
            rw [withoutLastElse, run_if_branch]
          simp only [hW]
          have hE : ∀ s2, RunO W (some e) s2 o s' ↔
              (RunO W (if isIf e then some (withoutLastElse e) else none) s2 o s' ∧ o ≠ .normal) ∨
              ∃ s3, RunO W (if isIf e then some (withoutLastElse e) else none) s2 .normal s3 ∧
                Run W .start x s3 o s' := by
            intro s2
            rw [runO_some]
            rcases he with ⟨hie, rfl, _⟩ | ⟨hie, hsame, _⟩
            · simp only [hie, Bool.false_eq_true, if_false, runO_none]
              constructor
              · intro h; exact .inr ⟨_, ⟨trivial, rfl⟩, h⟩
              · rintro (⟨⟨rfl, _⟩, h⟩ | ⟨s3, ⟨_, rfl⟩, h⟩)
                · exact absurd rfl h
                · exact h
            · rw [hsame.2, run_compound, runL_cons_start]
              simp only [runL_cons_start, runL_nil, hx, hie, if_true, runO_some]
          constructor
          · rintro (⟨h1, h2⟩ | ⟨s1, hp, hb⟩)
            · exact .inl ⟨.inl ⟨h1, h2⟩, h2⟩
            · rcases hc : eval W c s1 with _ | ⟨v, s2⟩ | s2
              · simp [hc, branch] at hb
              · simp only [hc, branch] at hb
                split at hb
                · next hv =>
                  refine .inl ⟨.inr ⟨s1, hp, by simp [hc, branch, hv, hb]⟩, returns_never_end W hr hb⟩
                · next hv =>
                  rcases (hE s2).mp hb with ⟨h1, h2⟩ | ⟨s3, h1, h2⟩
                  · exact .inl ⟨.inr ⟨s1, hp, by simp [hc, branch, hv, h1]⟩, h2⟩
                  · exact .inr ⟨s3, .inr ⟨s1, hp, by simp [hc, branch, hv, h1]⟩, h2⟩
              · simp only [hc, branch] at hb
                obtain ⟨rfl, rfl⟩ := hb
                exact .inl ⟨.inr ⟨s1, hp, by simp [hc, branch]⟩, by simp⟩
          · rintro (⟨(⟨h1, h2⟩ | ⟨s1, hp, hb⟩), ho⟩ | ⟨s3, (⟨_, h2⟩ | ⟨s1, hp, hb⟩), hx'⟩)
            · exact .inl ⟨h1, h2⟩
            · refine .inr ⟨s1, hp, ?_⟩
              rcases hc : eval W c s1 with _ | ⟨v, s2⟩ | s2
              · simp [hc, branch] at hb
              · simp only [hc, branch] at hb ⊢
                split at hb
                · next hv => simp [hv, hb]
                · next hv => simp only [hv, if_false]; exact (hE s2).mpr (.inl ⟨hb, ho⟩)
              · simpa [hc, branch] using hb
            · exact absurd rfl h2
            · refine .inr ⟨s1, hp, ?_⟩
              rcases hc : eval W c s1 with _ | ⟨v, s2⟩ | s2
              · simp [hc, branch] at hb
              · simp only [hc, branch] at hb ⊢
                split at hb
                · exact absurd rfl (returns_never_end W hr hb)
                · next hv => simp only [hv, if_false]; exact (hE s2).mpr (.inr ⟨s3, hb, hx'⟩)
              · simp [hc, branch] at hb
        · rw [run_compound, runL_cons, if_neg (by simp [hnone l hls]), runL_cons,
            run_if_enter hls]
          simp only [ht l hls, Bool.false_eq_true, false_and, false_or, true_and, Option.some.injEq,
            exists_eq_left', runL_nil, hls, and_false, exists_const]
          have hfin : ∀ y : Stmt, (hasEntry W l y = true ∧ Run W l y s o s') ↔
              if hasEntry W l y = true then (Run W l y s o s' ∧ o ≠ .normal) ∨
                ∃ s1, Run W l y s .normal s1 ∧ o = .normal ∧ s' = s1 else False := by
            intro y
            split
            · next hy =>
              simp only [hy, true_and]
              constructor
              · intro h
                by_cases ho : o = .normal
                · subst ho; exact .inr ⟨_, h, rfl, rfl⟩
                · exact .inl ⟨h, ho⟩
              · rintro (⟨h, _⟩ | ⟨s2, h, rfl, rfl⟩) <;> exact h
            · next hy => simp [hy]
          rcases he with ⟨_, rfl, _⟩ | ⟨hie, hsame, _⟩
          · rw [hfin]
          · have hn := withoutLastElse_noEntry W e hie (fun y hy => hl y (by simp [thens, hy])) l hls
            have hst : (match l with | .start => true | _ => false) = false := by
              cases l <;> simp at hls ⊢
            have hent : hasEntry W l e = hasEntry W l x := by
              rw [hsame.1 l]; simp [hasEntry, hasEntryL, hst, hn]
            rw [hsame.2, run_compound, runL_cons, if_neg (by simp [hn]), runL_cons, hent]
            simp only [runL_nil, hls, false_and]
            by_cases hx : hasEntry W l x = true <;> simp [hx]

/-- A block in a block can be opened. -/
theorem sameL_open (a b : Stmt) (B : List Stmt) :
    SameL W (.compound [a, b] :: B) (a :: b :: B) := by
  have hrun : ∀ l s o s', RunL W l (.compound [a, b] :: B) s o s' ↔ RunL W l (a :: b :: B) s o s' := by
    intro l s o s'
    by_cases hls : l = .start
    · subst hls
      simp only [runL_cons_start, run_compound, runL_nil]
      constructor
      · rintro (⟨(⟨h, _⟩ | ⟨s1, h1, (⟨h, _⟩ | ⟨s2, _, _, h, _⟩)⟩), ho⟩ | ⟨s3, (⟨_, h⟩ | ⟨s1, h1, h2⟩), h3⟩)
        · exact .inl ⟨h, ho⟩
        · exact .inr ⟨s1, h1, .inl ⟨h, ho⟩⟩
        · exact absurd h ho
        · exact absurd rfl h
        · rcases h2 with ⟨_, h⟩ | ⟨s2, h, _, _, rfl⟩
          · exact absurd rfl h
          · exact .inr ⟨s1, h1, .inr ⟨_, h, h3⟩⟩
      · rintro (⟨h, ho⟩ | ⟨s1, h1, (⟨h, ho⟩ | ⟨s2, h, h3⟩)⟩)
        · exact .inl ⟨.inl ⟨h, ho⟩, ho⟩
        · exact .inl ⟨.inr ⟨s1, h1, .inl ⟨h, ho⟩⟩, ho⟩
        · exact .inr ⟨s2, .inr ⟨s1, h1, .inr ⟨s2, h, by simp⟩⟩, h3⟩
    · have hst : (match l with | .start => true | _ => false) = false := by
        cases l <;> simp at hls ⊢
      have hent : hasEntry W l (.compound [a, b]) = (hasEntry W l a || hasEntry W l b) := by
        simp [hasEntry, hasEntryL, hst]
      rw [runL_cons, hent]
      simp only [run_compound]
      simp only [runL_cons (e := l), runL_cons_start, runL_nil]
      cases ha : hasEntry W l a <;> cases hb : hasEntry W l b <;>
        simp only [Bool.or_self, Bool.or_true, Bool.true_or, Bool.false_eq_true, if_true, if_false, hls,
          false_and, exists_false, or_false, true_and]
      · constructor
        · rintro (⟨(⟨h, _⟩ | ⟨s2, h, rfl, _⟩), ho⟩ | ⟨s1, (⟨_, h⟩ | ⟨s2, h, _, rfl⟩), h3⟩)
          · exact .inl ⟨h, ho⟩
          · exact absurd rfl ho
          · exact absurd rfl h
          · exact .inr ⟨_, h, h3⟩
        · rintro (⟨h, ho⟩ | ⟨s1, h, h3⟩)
          · exact .inl ⟨.inl ⟨h, ho⟩, ho⟩
          · exact .inr ⟨s1, .inr ⟨s1, h, by simp⟩, h3⟩
      all_goals
        constructor
        · rintro (⟨(⟨h, _⟩ | ⟨s1, h1, (⟨h, _⟩ | ⟨s2, _, h, _⟩)⟩), ho⟩ | ⟨s3, (⟨_, h⟩ | ⟨s1, h1, h2⟩), h3⟩)
          · exact .inl ⟨h, ho⟩
          · exact .inr ⟨s1, h1, .inl ⟨h, ho⟩⟩
          · exact absurd h ho
          · exact absurd rfl h
          · rcases h2 with ⟨_, h⟩ | ⟨s2, h, _, rfl⟩
            · exact absurd rfl h
            · exact .inr ⟨s1, h1, .inr ⟨_, h, h3⟩⟩
        · rintro (⟨h, ho⟩ | ⟨s1, h1, (⟨h, ho⟩ | ⟨s2, h, h3⟩)⟩)
          · exact .inl ⟨.inl ⟨h, ho⟩, ho⟩
          · exact .inl ⟨.inr ⟨s1, h1, .inl ⟨h, ho⟩⟩, ho⟩
          · exact .inr ⟨s2, .inr ⟨s1, h1, .inr ⟨s2, h, by simp⟩⟩, h3⟩
  refine ⟨fun l => ?_, hrun⟩
  simp only [hasEntryL, hasEntry]
  cases l <;> simp [Bool.or_assoc]

/-- The advice: for a chain `s` whose last `else` is reported, dropping that `else` and running its
statement after the chain does the same, in a block with any statements around, in every state and
from every label.  The then branches must not contain labels. -/
theorem C43_drop_else_same_partial (s x : Stmt) (h : isIf s = true) (hx : x ∈ chainReport s)
    (hl : ∀ t ∈ thens s, NoEntry W t) :
    Same W s (.compound [withoutLastElse s, x]) ∧
    ∀ A B, SameL W (A ++ s :: B) (A ++ withoutLastElse s :: x :: B) := by
  have hret : ∀ t ∈ thens s, Returns t := by
    by_contra hn; simp [chainReport, hn] at hx
  have hlast : lastElse s = some x := by simpa [chainReport, if_pos hret] using hx
  have hsame := chain_same_aux W s x h hlast hret hl
  refine ⟨hsame, fun A B => sameL_append ?_⟩
  have h1 := sameL_cons hsame (sameL_refl B)
  have h2 := sameL_open W (withoutLastElse s) x B
  exact ⟨fun l => (h1.1 l).trans (h2.1 l), fun l s o s' => (h1.2 l s o s').trans (h2.2 l s o s')⟩

end

/-- The premise about labels is needed: in `{ goto L; if (1) { return; L: ; } else x = 1; }` the
`else` is reported; the function ends with `x` unchanged, and without the `else` it sets `x`. -/
theorem C43_label_witness :
    let L : Str := ['L']
    let t : Stmt := .compound [.returnS none, .labelS L .nullS]
    let x : Stmt := .binary .assign (.declRef ⟨0, []⟩) (.intLit 1)
    let c : Stmt := .boolLit true
    unnecessaryElse (.compound [.gotoS L, .ifS none c t (some x)]) = [x] ∧
      RunBody machine (.compound [.gotoS L, .ifS none c t (some x)]) .start 0 .normal 0 ∧
      RunBody machine (.compound [.gotoS L, .ifS none c t none, x]) .start 0 .normal 1 := by
  intro L t x c
  refine ⟨?_, ?_, ?_⟩
  · simp [unnecessaryElse, Stmt.nodes, Stmt.nodesL, Stmt.nodesO, unnecessaryElseLoop, elseChain,
      allBranchesReturn, allBranchesReturnL, t, x, c]
  · refine .jump (l := L) (s1 := 0) (.compound (.exit (hasEntry_start _) .goto (by simp))) (.done ?_ (by simp))
    refine .compound (.skip rfl (.go rfl (.ifEnterThen (by simp) rfl (.compound (.skip rfl
      (.go rfl (.labelHere (.inr rfl) .null) .nil)))) .nil))
  · refine .jump (l := L) (s1 := 0) (.compound (.exit (hasEntry_start _) .goto (by simp))) (.done ?_ (by simp))
    refine .compound (.skip rfl (.go rfl (.ifEnterThen (by simp) rfl (.compound (.skip rfl
      (.go rfl (.labelHere (.inr rfl) .null) .nil)))) (.go rfl (.expr (v := 1) rfl rfl) .nil)))

example : unnecessaryElse (.ifS none (.boolLit true) (.returnS none)
    (some (.ifS none (.boolLit false) (.compound [.nullS, .returnS none]) (some .nullS)))) = [.nullS] := by
  simp [unnecessaryElse, Stmt.nodes, Stmt.nodesL, Stmt.nodesO, unnecessaryElseLoop, elseChain,
    allBranchesReturn, allBranchesReturnL, elseOffset]
example : unnecessaryElse (.ifS none (.boolLit true) .breakS
    (some (.ifS none (.boolLit false) (.returnS none) (some .nullS)))) = [] := by
  simp [unnecessaryElse, Stmt.nodes, Stmt.nodesL, Stmt.nodesO, unnecessaryElseLoop, elseChain,
    allBranchesReturn, allBranchesReturnL, elseOffset]

end Oclint
