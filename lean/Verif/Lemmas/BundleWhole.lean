import Verif.Lemmas.Bundle

/-!
# Lemmas about a whole release
-/

namespace Oclint
open Spec

/-- The release as the steps leave it. -/
def assembled (h : BundleHost) (a : BundleArgs) (t : FileTree) : Place → Option Item :=
  if a.docgen then withRules h a t
  else if h.darwin then (if h.arm then withXcodebuild h a t else withCpp h a t)
  else withDatabase h a t

theorem prefix_head {m n : Str} {x y : Place} : m :: x <+: n :: y ↔ m = n ∧ x <+: y := List.cons_prefix_cons

theorem withCpp_other (h : BundleHost) (a : BundleArgs) (t : FileTree) {p : Place}
    (hp : ∀ y, p ≠ "include".toList :: y) : withCpp h a t p = withXcodebuild h a t p := by
  unfold withCpp
  rw [graftAt_other]
  · unfold setAt
    rw [if_neg (hp _)]
  · rintro ⟨y, h'⟩
    exact hp _ h'.symm

theorem copied_here {x p : Place} (hp : x <+: p) {src : Place} {rest : List (Place × Place)} :
    List.find? (fun c => decide (c.1 <+: p)) ((x, src) :: rest) = some (x, src) :=
  List.find?_cons_of_pos (decide_eq_true hp)

theorem copied_skip {x p : Place} (hp : ¬ x <+: p) {src : Place} {rest : List (Place × Place)} :
    List.find? (fun c => decide (c.1 <+: p)) ((x, src) :: rest) =
      List.find? (fun c => decide (c.1 <+: p)) rest :=
  List.find?_cons_of_neg (fun h' => hp (of_decide_eq_true h'))

theorem assembled_bin (h : BundleHost) (a : BundleArgs) (t : FileTree) (y : Place) :
    assembled h a t ("bin".toList :: y) = released h a t ("bin".toList :: y) := by
  have hb : (copied h a).find? (fun c => decide (c.1 <+: "bin".toList :: y)) =
      some (["bin".toList], h.root ++ ["build".toList, "oclint-driver".toList, "bin".toList]) := by
    unfold copied
    rw [List.cons_append, List.cons_append]
    exact List.find?_cons_of_pos (decide_eq_true (prefix_head.2 ⟨rfl, List.nil_prefix⟩))
  have hown : "bin".toList :: y ∉ ownDirectories h a := by
    unfold ownDirectories
    cases withCppHeaders h a <;> simp
  have hlic : "bin".toList :: y ≠ ["LICENSE".toList] := by simp
  have hq : ∀ name, ("bin".toList :: y = ["bin".toList, name]) ↔ y = [name] := by simp
  have hrel : released h a t ("bin".toList :: y) =
      if ∃ name ∈ programLinks h a, y = [name] then some (.link "oclint-26.02".toList)
      else match (helpers h a).findSome? fun name =>
          if y = [name] then helperText h t name else none with
        | some text => some (.file text)
        | none => t.item (h.root ++ ["build".toList, "oclint-driver".toList, "bin".toList] ++ y) := by
    unfold released
    rw [if_neg hown, if_neg hlic, hb]
    simp only [hq]
    rfl
  rw [hrel]
  have hd : withDatabase h a t ("bin".toList :: y) =
      if ∃ name ∈ programLinks h a, y = [name] then some (.link "oclint-26.02".toList)
      else match (if y = ["oclint-json-compilation-database".toList] then
          helperText h t "oclint-json-compilation-database".toList else none) with
        | some text => some (.file text)
        | none => t.item (h.root ++ ["build".toList, "oclint-driver".toList, "bin".toList] ++ y) := by
    unfold withDatabase
    by_cases hy : y = ["oclint-json-compilation-database".toList]
    · have hno : ¬ ∃ name ∈ programLinks h a, y = [name] := by
        rintro ⟨m, hm, he⟩
        rw [hy] at he
        exact database_not_link h a ((List.cons.inj he).1 ▸ hm)
      rw [if_neg hno, if_pos hy]
      have hp := withPrograms_bin h a t y
      rw [if_neg hno] at hp
      rw [← hp, ← withHeaders_bin, hy, helperAt_self]
      cases helperText h t "oclint-json-compilation-database".toList <;> rfl
    · rw [helperAt_other, withHeaders_bin, withPrograms_bin, if_neg hy]
      exact fun h' => hy (List.cons.inj h').2
  have hx : withXcodebuild h a t ("bin".toList :: y) =
      if ∃ name ∈ programLinks h a, y = [name] then some (.link "oclint-26.02".toList)
      else match ((if y = ["oclint-json-compilation-database".toList] then
          helperText h t "oclint-json-compilation-database".toList else none).or
          (if y = ["oclint-xcodebuild".toList] then helperText h t "oclint-xcodebuild".toList else none)) with
        | some text => some (.file text)
        | none => t.item (h.root ++ ["build".toList, "oclint-driver".toList, "bin".toList] ++ y) := by
    have hne : ["oclint-xcodebuild".toList] ≠ ["oclint-json-compilation-database".toList] := by
      decide +kernel
    unfold withXcodebuild
    by_cases hy : y = ["oclint-xcodebuild".toList]
    · have hj : y ≠ ["oclint-json-compilation-database".toList] := by rw [hy]; exact hne
      have hno : ¬ ∃ name ∈ programLinks h a, y = [name] := by
        rintro ⟨m, hm, he⟩
        rw [hy] at he
        exact xcodebuild_not_link h a ((List.cons.inj he).1 ▸ hm)
      rw [if_neg hno, if_neg hj] at hd
      rw [if_neg hno, if_neg hj, if_pos hy, Option.none_or]
      simp only at hd
      rw [← hd, hy, helperAt_self]
      cases helperText h t "oclint-xcodebuild".toList <;> rfl
    · rw [helperAt_other, hd, if_neg hy, Option.or_none]
      exact fun h' => hy (List.cons.inj h').2
  unfold assembled helpers
  cases hdoc : a.docgen
  · cases hdar : h.darwin
    · simp only [Bool.false_eq_true, if_false]
      rw [hd, List.findSome?_cons]
      cases (if y = ["oclint-json-compilation-database".toList] then
          helperText h t "oclint-json-compilation-database".toList else none) <;> rfl
    · have e : (if h.arm then withXcodebuild h a t else withCpp h a t) ("bin".toList :: y) =
          withXcodebuild h a t ("bin".toList :: y) := by
        cases h.arm
        · simp only [Bool.false_eq_true, if_false]
          exact withCpp_other h a t (fun _ => by simp)
        · simp
      simp only [Bool.false_eq_true, if_false, if_true]
      rw [e, hx, List.findSome?_cons, List.findSome?_cons]
      cases (if y = ["oclint-json-compilation-database".toList] then
          helperText h t "oclint-json-compilation-database".toList else none) with
      | some _ => rfl
      | none =>
        cases (if y = ["oclint-xcodebuild".toList] then
          helperText h t "oclint-xcodebuild".toList else none) <;> rfl
  · simp only [if_true]
    unfold withRules
    rw [graftAt_other _ _ _ (not_prefix_head (by decide) _ _), withPrograms_bin]
    rfl

theorem released_other (h : BundleHost) (a : BundleArgs) (t : FileTree) {p : Place}
    (hp : ∀ y, p ≠ "bin".toList :: y) :
    released h a t p =
      if p ∈ ownDirectories h a then some .dir
      else if p = ["LICENSE".toList] then some (.file (licenseText h a t))
      else ((copied h a).find? fun c => decide (c.1 <+: p)).bind fun c => t.item (c.2 ++ p.drop c.1.length) := by
  unfold released
  have h1 : ¬ ∃ name ∈ programLinks h a, p = ["bin".toList, name] := by
    rintro ⟨m, -, h'⟩
    exact hp _ h'
  have h2 : ((helpers h a).findSome? fun name =>
      if p = ["bin".toList, name] then helperText h t name else none) = none := by
    rw [List.findSome?_eq_none_iff]
    intro n _
    exact if_neg (hp _)
  rw [if_neg h1, h2]

/-- The headers of C++ are copied last. -/
theorem copied_find_other (h : BundleHost) (a : BundleArgs) {p : Place}
    (hi : ∀ y, p ≠ "include".toList :: y) :
    (copied h a).find? (fun c => decide (c.1 <+: p)) =
      ([(["bin".toList], h.root ++ ["build".toList, "oclint-driver".toList, "bin".toList]),
        (["lib".toList, "oclint".toList, "rules".toList],
          h.root ++ ["build".toList, "oclint-rules".toList, "rules.dl".toList])]
      ++ (if a.docgen then [] else
        [(["lib".toList, "oclint".toList, "reporters".toList],
            h.root ++ ["build".toList, "oclint-reporters".toList, "reporters.dl".toList]),
          (["lib".toList, "clang".toList], a.llvmRoot ++ ["lib".toList, "clang".toList])])).find?
        (fun c => decide (c.1 <+: p)) := by
  unfold copied
  cases withCppHeaders h a
  · simp only [Bool.false_eq_true, if_false]
    rw [List.append_nil]
  · simp only [if_true]
    rw [List.find?_append]
    have : List.find? (fun c : Place × Place => decide (c.1 <+: p))
        [(["include".toList, "c++".toList], a.llvmRoot ++ ["include".toList, "c++".toList])] = none := by
      rw [List.find?_cons_of_neg, List.find?_nil]
      simp only [decide_eq_true_eq]
      rintro ⟨y, h'⟩
      exact hi _ h'.symm
    rw [this, Option.or_none]

theorem assembled_reporters (h : BundleHost) (a : BundleArgs) (t : FileTree) {p : Place}
    (hb : ∀ y, p ≠ "bin".toList :: y) (hi : ∀ y, p ≠ "include".toList :: y) :
    assembled h a t p = if a.docgen then withRules h a t p else withHeaders h a t p := by
  unfold assembled
  cases a.docgen
  · have hx : withXcodebuild h a t p = withHeaders h a t p := by
      unfold withXcodebuild withDatabase
      rw [helperAt_other h t _ _ (hb _), helperAt_other h t _ _ (hb _)]
    have hd : withDatabase h a t p = withHeaders h a t p := by
      unfold withDatabase
      rw [helperAt_other h t _ _ (hb _)]
    have hc : withCpp h a t p = withHeaders h a t p := by
      rw [withCpp_other h a t hi, hx]
    simp only [Bool.false_eq_true, if_false]
    cases h.darwin
    · exact hd
    · cases h.arm
      · exact hc
      · exact hx
  · rfl

theorem assembled_lib (h : BundleHost) (a : BundleArgs) (t : FileTree) (y : Place) :
    assembled h a t ("lib".toList :: y) = released h a t ("lib".toList :: y) := by
  have hb : ∀ z, "lib".toList :: y ≠ "bin".toList :: z := by simp
  have hi : ∀ z, "lib".toList :: y ≠ "include".toList :: z := by simp
  have hlic : "lib".toList :: y ≠ ["LICENSE".toList] := by simp
  rw [released_other h a t hb, if_neg hlic, copied_find_other h a hi, assembled_reporters h a t hb hi]
  have hown : "lib".toList :: y ∈ ownDirectories h a ↔ y = [] ∨ y = ["oclint".toList] := by
    unfold ownDirectories
    cases withCppHeaders h a <;> simp
  have hbin : ¬ ["bin".toList] <+: "lib".toList :: y := not_prefix_head (by decide) _ _
  by_cases h1 : y = []
  · rw [if_pos (hown.2 (Or.inl h1)), h1]
    have e1 := (withRules_lib h a t).2.1
    have e2 : withHeaders h a t ["lib".toList] = some .dir := by
      unfold withHeaders
      rw [graftAt_other _ _ _ (not_prefix_short (by simp))]
      exact (withReporters_lib h a t).2.1
    rw [e1, e2, ite_self]
  by_cases h2 : y = ["oclint".toList]
  · rw [if_pos (hown.2 (Or.inr h2)), h2]
    have e1 := (withRules_lib h a t).2.2
    have e2 : withHeaders h a t ["lib".toList, "oclint".toList] = some .dir := by
      unfold withHeaders
      rw [graftAt_other _ _ _ (not_prefix_second (by decide) _ _)]
      exact (withReporters_lib h a t).2.2
    rw [e1, e2, ite_self]
  rw [if_neg (fun h' => (hown.1 h').elim h1 h2)]
  have hnone : withPrograms h a t ("lib".toList :: y) = none :=
    withPrograms_none h a t _ _ (by decide) hlic (fun h' => h1 (List.cons.inj h').2)
      (fun h' => h2 (List.cons.inj h').2)
  have r1 : withRules h a t ("lib".toList :: y) =
      if ["lib".toList, "oclint".toList, "rules".toList] <+: "lib".toList :: y then
        t.item (h.root ++ ["build".toList, "oclint-rules".toList, "rules.dl".toList] ++
          ("lib".toList :: y).drop ["lib".toList, "oclint".toList, "rules".toList].length)
      else none := by
    unfold withRules graftAt
    rw [hnone]
  have r2 : withHeaders h a t ("lib".toList :: y) =
      if ["lib".toList, "clang".toList] <+: "lib".toList :: y then
        t.item (a.llvmRoot ++ ["lib".toList, "clang".toList] ++
          ("lib".toList :: y).drop ["lib".toList, "clang".toList].length)
      else if ["lib".toList, "oclint".toList, "reporters".toList] <+: "lib".toList :: y then
        t.item (h.root ++ ["build".toList, "oclint-reporters".toList, "reporters.dl".toList] ++
          ("lib".toList :: y).drop ["lib".toList, "oclint".toList, "reporters".toList].length)
      else withRules h a t ("lib".toList :: y) := by
    unfold withHeaders withReporters graftAt
    rfl
  rw [r2, r1, List.cons_append, copied_skip hbin]
  have x1 : ["lib".toList, "clang".toList] <+: "lib".toList :: y →
      ¬ ["lib".toList, "oclint".toList, "reporters".toList] <+: "lib".toList :: y ∧
      ¬ ["lib".toList, "oclint".toList, "rules".toList] <+: "lib".toList :: y := by
    rintro ⟨z, hz⟩
    rw [← hz]
    exact ⟨not_prefix_second (by decide) _ _, not_prefix_second (by decide) _ _⟩
  have x2 : ["lib".toList, "oclint".toList, "reporters".toList] <+: "lib".toList :: y →
      ¬ ["lib".toList, "oclint".toList, "rules".toList] <+: "lib".toList :: y := by
    rintro ⟨z, hz⟩
    rw [← hz]
    exact not_prefix_third (by decide) _ _
  generalize hpp : "lib".toList :: y = p at x1 x2 ⊢
  cases a.docgen
  · simp only [Bool.false_eq_true, if_false]
    by_cases c1 : ["lib".toList, "clang".toList] <+: p
    · obtain ⟨c2, c3⟩ := x1 c1
      rw [if_pos c1, List.cons_append, copied_skip c3, List.nil_append,
        copied_skip c2, copied_here c1]
      rfl
    · rw [if_neg c1]
      by_cases c2 : ["lib".toList, "oclint".toList, "reporters".toList] <+: p
      · have c3 := x2 c2
        rw [if_pos c2, List.cons_append, copied_skip c3, List.nil_append,
          copied_here c2]
        rfl
      · rw [if_neg c2]
        by_cases c3 : ["lib".toList, "oclint".toList, "rules".toList] <+: p
        · rw [if_pos c3, List.cons_append, copied_here c3]
          rfl
        · rw [if_neg c3, List.cons_append, copied_skip c3, List.nil_append,
            copied_skip c2, copied_skip c1]
          rfl
  · simp only [if_true]
    by_cases c3 : ["lib".toList, "oclint".toList, "rules".toList] <+: p
    · rw [if_pos c3, List.cons_append, copied_here c3]
      rfl
    · rw [if_neg c3, List.cons_append, copied_skip c3]
      rfl

theorem assembled_nil (h : BundleHost) (a : BundleArgs) (t : FileTree) :
    assembled h a t [] = released h a t [] := by
  rw [released_other h a t (by simp), if_pos (by simp [ownDirectories]),
    assembled_reporters h a t (by simp) (by simp), (withRules_lib h a t).1]
  have e2 : withHeaders h a t [] = some .dir := by
    unfold withHeaders
    rw [graftAt_other _ _ _ (not_prefix_short (by simp))]
    exact (withReporters_lib h a t).1
  rw [e2, ite_self]

theorem copied_find_none (h : BundleHost) (a : BundleArgs) {n : Str} {y : Place} (hb : n ≠ "bin".toList)
    (hl : n ≠ "lib".toList) (hi : n ≠ "include".toList) :
    (copied h a).find? (fun c => decide (c.1 <+: n :: y)) = none := by
  have p1 : ∀ x, ¬ "bin".toList :: x <+: n :: y := fun x => not_prefix_head hb.symm _ _
  have p2 : ∀ x, ¬ "lib".toList :: x <+: n :: y := fun x => not_prefix_head hl.symm _ _
  rw [copied_find_other h a (fun z h' => hi (List.cons.inj h').1), List.find?_eq_none]
  intro c hc
  rw [decide_eq_true_eq]
  cases hdoc : a.docgen with
  | false =>
    rw [hdoc] at hc
    simp only [Bool.false_eq_true, if_false, List.cons_append, List.nil_append, List.mem_cons,
      List.not_mem_nil, or_false] at hc
    rcases hc with rfl | rfl | rfl | rfl
    · exact p1 _
    · exact p2 _
    · exact p2 _
    · exact p2 _
  | true =>
    rw [hdoc] at hc
    simp only [if_true, List.cons_append, List.nil_append, List.mem_cons,
      List.not_mem_nil, or_false] at hc
    rcases hc with rfl | rfl
    · exact p1 _
    · exact p2 _

theorem withHeaders_head (h : BundleHost) (a : BundleArgs) (t : FileTree) {p : Place}
    (hl : ∀ y, p ≠ "lib".toList :: y) :
    withHeaders h a t p = withPrograms h a t p ∧ withRules h a t p = withPrograms h a t p := by
  have hpre : ∀ x, ¬ "lib".toList :: x <+: p := by
    rintro x ⟨y, h'⟩
    exact hl _ h'.symm
  unfold withHeaders withReporters withRules
  rw [graftAt_other _ _ _ (hpre _), graftAt_other _ _ _ (hpre _), graftAt_other _ _ _ (hpre _)]
  exact ⟨rfl, rfl⟩

theorem assembled_include (h : BundleHost) (a : BundleArgs) (t : FileTree) (y : Place) :
    assembled h a t ("include".toList :: y) = released h a t ("include".toList :: y) := by
  have n1 : "include".toList ≠ "bin".toList := by decide
  have n2 : "include".toList ≠ "lib".toList := by decide
  have n3 : "include".toList ≠ "LICENSE".toList := by decide
  have hb : ∀ z, "include".toList :: y ≠ "bin".toList :: z := fun _ h' => n1 (List.cons.inj h').1
  have hl : ∀ z, "include".toList :: y ≠ "lib".toList :: z := fun _ h' => n2 (List.cons.inj h').1
  have hlic : "include".toList :: y ≠ ["LICENSE".toList] := fun h' => n3 (List.cons.inj h').1
  have hnone : withPrograms h a t ("include".toList :: y) = none :=
    withPrograms_none h a t _ _ n1 hlic (hl _) (hl _)
  rw [released_other h a t hb, if_neg hlic]
  have hown : "include".toList :: y ∈ ownDirectories h a ↔ withCppHeaders h a = true ∧ y = [] := by
    unfold ownDirectories
    cases withCppHeaders h a <;> simp
  have p1 : ∀ x, ¬ "bin".toList :: x <+: "include".toList :: y := fun x => not_prefix_head n1.symm _ _
  have p2 : ∀ x, ¬ "lib".toList :: x <+: "include".toList :: y := fun x => not_prefix_head n2.symm _ _
  obtain ⟨w1, w2⟩ := withHeaders_head h a t hl
  have w3 : withDatabase h a t ("include".toList :: y) = none := by
    unfold withDatabase
    rw [helperAt_other h t _ _ (hb _), w1, hnone]
  have w4 : withXcodebuild h a t ("include".toList :: y) = none := by
    unfold withXcodebuild
    rw [helperAt_other h t _ _ (hb _), w3]
  have hpre : ∀ c ∈ ([(["bin".toList], h.root ++ ["build".toList, "oclint-driver".toList, "bin".toList]),
        (["lib".toList, "oclint".toList, "rules".toList],
          h.root ++ ["build".toList, "oclint-rules".toList, "rules.dl".toList])]
      ++ (if a.docgen then [] else
        [(["lib".toList, "oclint".toList, "reporters".toList],
            h.root ++ ["build".toList, "oclint-reporters".toList, "reporters.dl".toList]),
          (["lib".toList, "clang".toList], a.llvmRoot ++ ["lib".toList, "clang".toList])]) :
        List (Place × Place)), ¬ c.1 <+: "include".toList :: y := by
    intro c hc
    cases hdoc : a.docgen with
    | false =>
      rw [hdoc] at hc
      simp only [Bool.false_eq_true, if_false, List.cons_append, List.nil_append, List.mem_cons,
        List.not_mem_nil, or_false] at hc
      rcases hc with rfl | rfl | rfl | rfl
      · exact p1 _
      · exact p2 _
      · exact p2 _
      · exact p2 _
    | true =>
      rw [hdoc] at hc
      simp only [if_true, List.cons_append, List.nil_append, List.mem_cons,
        List.not_mem_nil, or_false] at hc
      rcases hc with rfl | rfl
      · exact p1 _
      · exact p2 _
  by_cases hc : withCppHeaders h a = true
  · have hass : assembled h a t = withCpp h a t := by
      unfold withCppHeaders at hc
      unfold assembled
      cases hdoc : a.docgen <;> cases hdar : h.darwin <;> cases harm : h.arm <;>
        rw [hdoc, hdar, harm] at hc <;> first | rfl | cases hc
    rw [hass]
    have hfind : (copied h a).find? (fun c => decide (c.1 <+: "include".toList :: y)) =
        List.find? (fun c => decide (c.1 <+: "include".toList :: y))
          [(["include".toList, "c++".toList], a.llvmRoot ++ ["include".toList, "c++".toList])] := by
      unfold copied
      rw [if_pos hc, List.find?_append, List.find?_eq_none.2, Option.none_or]
      intro c hc'
      rw [decide_eq_true_eq]
      exact hpre c hc'
    by_cases hy : y = []
    · rw [if_pos (hown.2 ⟨hc, hy⟩), hy]
      unfold withCpp
      rw [graftAt_other _ _ _ (not_prefix_short (by simp))]
      exact if_pos rfl
    · rw [if_neg (fun h' => hy (hown.1 h').2), hfind]
      by_cases hp : ["include".toList, "c++".toList] <+: "include".toList :: y
      · rw [copied_here hp]
        exact if_pos hp
      · rw [copied_skip hp]
        unfold withCpp
        rw [graftAt_other _ _ _ hp]
        unfold setAt
        rw [if_neg (fun h' => hy (List.cons.inj h').2), w4]
        rfl
  · rw [if_neg (fun h' => hc (hown.1 h').1)]
    have hfind : (copied h a).find? (fun c => decide (c.1 <+: "include".toList :: y)) = none := by
      unfold copied
      rw [if_neg hc, List.append_nil, List.find?_eq_none]
      intro c hc'
      rw [decide_eq_true_eq]
      exact hpre c hc'
    rw [hfind]
    unfold withCppHeaders at hc
    unfold assembled
    cases hdoc : a.docgen <;> cases hdar : h.darwin <;> cases harm : h.arm <;>
        rw [hdoc, hdar, harm] at hc <;>
        first
        | exact absurd rfl hc
        | exact w3
        | exact w4
        | exact w2.trans hnone

theorem assembled_eq (h : BundleHost) (a : BundleArgs) (t : FileTree) : assembled h a t = released h a t := by
  funext p
  cases p with
  | nil => exact assembled_nil h a t
  | cons n y =>
    by_cases hb : n = "bin".toList
    · rw [hb]; exact assembled_bin h a t y
    by_cases hl : n = "lib".toList
    · rw [hl]; exact assembled_lib h a t y
    by_cases hi : n = "include".toList
    · rw [hi]; exact assembled_include h a t y
    have hb' : ∀ z, n :: y ≠ "bin".toList :: z := fun _ h' => hb (List.cons.inj h').1
    have hl' : ∀ z, n :: y ≠ "lib".toList :: z := fun _ h' => hl (List.cons.inj h').1
    have hi' : ∀ z, n :: y ≠ "include".toList :: z := fun _ h' => hi (List.cons.inj h').1
    obtain ⟨w1, w2⟩ := withHeaders_head h a t hl'
    rw [released_other h a t hb', assembled_reporters h a t hb' hi', w1, w2, ite_self,
      copied_find_none h a hb hl hi, if_neg]
    · by_cases hlic : n :: y = ["LICENSE".toList]
      · rw [if_pos hlic, hlic]
        simp [withPrograms, linksAt, graftAt, setAt]
      · rw [if_neg hlic]
        exact withPrograms_none h a t n y hb hlic (hl' _) (hl' _)
    · unfold ownDirectories
      cases withCppHeaders h a
      · simp only [Bool.false_eq_true, if_false, List.append_nil, List.mem_cons, List.not_mem_nil, or_false]
        rintro (h' | h' | h')
        · cases h'
        · exact hl' _ h'
        · exact hl' _ h'
      · simp only [if_true, List.cons_append, List.nil_append, List.mem_cons, List.not_mem_nil, or_false]
        rintro (h' | h' | h' | h')
        · cases h'
        · exact hl' _ h'
        · exact hl' _ h'
        · exact hi' _ h'

/-! ## The whole script -/

theorem copied_driver (h : BundleHost) (a : BundleArgs) :
    (["bin".toList], h.root ++ ["build".toList, "oclint-driver".toList, "bin".toList]) ∈ copied h a := by
  unfold copied
  rw [List.cons_append, List.cons_append]
  exact List.mem_cons_self

theorem reachable_of_driver {h : BundleHost} {t : FileTree} (hs : SoundTree t)
    (hd : t.item (h.root ++ ["build".toList, "oclint-driver".toList, "bin".toList]) = some .dir) :
    Reachable t (releaseDirectory h) := by
  intro q hq hne
  refine hs (h.root ++ ["build".toList, "oclint-driver".toList, "bin".toList]) q ?_ ?_ (by rw [hd]; nofun)
  · have hq' : q <+: h.root ++ ["build".toList] := by
      unfold releaseDirectory at hq hne
      have he : h.root ++ ["build".toList, "oclint-release".toList] =
          (h.root ++ ["build".toList]) ++ ["oclint-release".toList] := by simp
      rw [he] at hq hne
      rcases List.prefix_concat_iff.1 hq with h' | h'
      · exact absurd h' hne
      · exact h'
    refine hq'.trans ⟨["oclint-driver".toList, "bin".toList], ?_⟩
    simp
  · rintro rfl
    have h1 := hq.length_le
    unfold releaseDirectory at h1
    simp at h1

theorem steps_assemble {h : BundleHost} {a : BundleArgs} {t : FileTree} (hs : SoundTree t)
    (ha : ApartFromRelease h a) (hr : Reachable t (releaseDirectory h)) :
    Steps t (releaseDirectory h) (assembleBundle h a t) (ReadyToBundle h a t) (released h a t) := by
  rw [← assembled_eq]
  have s1 := steps_setup h t hs hr
  have s2 := s1.bind (k := installLicenses h a) fun _ _ h1 => steps_licenses ha h1
  have s3 := s2.bind (k := installBinary h a) fun _ _ h1 => steps_programs hr h1
  have s4 := s3.bind (k := installRules h) fun _ _ h1 => steps_rules hr h1
  unfold assembleBundle assembled
  cases hdoc : a.docgen with
  | true =>
    simp only [if_true]
    refine (s4.bind fun _ _ h1 => Steps.none_ h1).iff ?_
    constructor
    · rintro ⟨⟨⟨⟨c1, c2, c3⟩, c4, c5⟩, c6⟩, -⟩
      refine ⟨c1, c2, c3, ?_, c5, ?_⟩
      · intro c hc
        unfold copied withCppHeaders at hc
        rw [hdoc] at hc
        simp only [if_true, Bool.not_true, Bool.false_and, Bool.false_eq_true, if_false, List.append_nil,
          List.mem_cons, List.not_mem_nil, or_false] at hc
        rcases hc with rfl | rfl
        · exact c4
        · exact c6
      · intro n hn
        unfold helpers at hn
        rw [hdoc] at hn
        cases hn
    · rintro ⟨c1, c2, c3, c4, c5, -⟩
      refine ⟨⟨⟨⟨c1, c2, c3⟩, c4 _ (copied_driver h a), c5⟩, ?_⟩, trivial⟩
      refine c4 (["lib".toList, "oclint".toList, "rules".toList], _) ?_
      unfold copied
      rw [List.cons_append, List.cons_append]
      exact List.mem_cons_of_mem _ List.mem_cons_self
  | false =>
    simp only [Bool.false_eq_true, if_false]
    have base : ∀ {cs : Prop} {f : Place → Option Item} {k : FileTree → Option FileTree},
        (t.item (h.root ++ ["build".toList, "oclint-driver".toList, "bin".toList]) = some .dir →
          ∀ t1, Holds t (releaseDirectory h) (withDatabase h a t) t1 →
            Steps t (releaseDirectory h) (k t1) cs f) →
        Steps t (releaseDirectory h)
          (((((setupReleaseDir h t).bind (installLicenses h a)).bind (installBinary h a)).bind
            (installRules h)).bind fun t =>
            (((installReporters h t).bind (installCompilerHeaders h a)).bind
              (installHelper h "oclint-json-compilation-database".toList)).bind k)
          ((((((t.item (releaseDirectory h) = none ∨ t.item (releaseDirectory h) = some .dir) ∧
            (∃ text, t.item (h.root ++ ["LICENSE".toList]) = some (.file text)) ∧
            (llvmLicenseItem h a t = none ∨ ∃ text, llvmLicenseItem h a t = some (.file text))) ∧
            t.item (h.root ++ ["build".toList, "oclint-driver".toList, "bin".toList]) = some .dir ∧
            ∀ n ∈ programLinks h a,
              t.item (h.root ++ ["build".toList, "oclint-driver".toList, "bin".toList, n]) = none) ∧
            t.item (h.root ++ ["build".toList, "oclint-rules".toList, "rules.dl".toList]) = some .dir)) ∧
            (((t.item (h.root ++ ["build".toList, "oclint-reporters".toList, "reporters.dl".toList])
              = some .dir ∧
            t.item (a.llvmRoot ++ ["lib".toList, "clang".toList]) = some .dir) ∧
            (helperText h t "oclint-json-compilation-database".toList ≠ none →
              t.item (h.root ++ ["build".toList, "oclint-driver".toList, "bin".toList,
                "oclint-json-compilation-database".toList]) ≠ some .dir)) ∧ cs)) f := by
      intro cs f k hk
      refine s4.bind fun c t1 h1 => ?_
      have q1 := steps_reporters hr h1
      have q2 := q1.bind (k := installCompilerHeaders h a) fun _ _ h1 => steps_headers ha hr h1
      have q3 := q2.bind (k := installHelper h "oclint-json-compilation-database".toList)
        fun _ _ h1 => steps_database c.1.2.1 h1
      exact q3.bind fun _ t2 h2 => hk c.1.2.1 t2 h2
    cases hdar : h.darwin with
    | false =>
      simp only [Bool.false_eq_true, if_false]
      refine (base fun _ _ h1 => Steps.none_ h1).iff ?_
      constructor
      · rintro ⟨⟨⟨⟨c1, c2, c3⟩, c4, c5⟩, c6⟩, ⟨⟨c7, c8⟩, c9⟩, -⟩
        refine ⟨c1, c2, c3, ?_, c5, ?_⟩
        · intro c hc
          unfold copied withCppHeaders at hc
          rw [hdoc, hdar] at hc
          simp only [Bool.and_false, Bool.false_and, Bool.false_eq_true, if_false, List.append_nil,
            List.cons_append, List.nil_append, List.mem_cons, List.not_mem_nil, or_false] at hc
          rcases hc with rfl | rfl | rfl | rfl
          · exact c4
          · exact c6
          · exact c7
          · exact c8
        · intro n hn
          unfold helpers at hn
          rw [hdoc, hdar] at hn
          simp only [Bool.false_eq_true, if_false, List.mem_singleton] at hn
          rw [hn]
          exact c9
      · rintro ⟨c1, c2, c3, c4, c5, c6⟩
        unfold copied withCppHeaders at c4
        unfold helpers at c6
        rw [hdoc, hdar] at c4 c6
        simp only [Bool.and_false, Bool.false_and, Bool.false_eq_true, if_false, List.append_nil,
            List.cons_append, List.nil_append, List.mem_cons, List.not_mem_nil, or_false,
            forall_eq_or_imp, forall_eq] at c4 c6
        exact ⟨⟨⟨⟨c1, c2, c3⟩, c4.1, c5⟩, c4.2.1⟩, ⟨⟨c4.2.2.1, c4.2.2.2⟩, c6⟩, trivial⟩
    | true =>
      simp only [if_true]
      cases harm : h.arm with
      | true =>
        simp only [if_true]
        have hcpp : ∀ t1, installCppHeaders h a t1 = some t1 := by
          intro t1
          unfold installCppHeaders
          rw [harm, if_pos rfl]
        refine (base fun c _ h1 => (steps_xcodebuild c h1).bind fun _ t2 h2 => by
          rw [hcpp]; exact Steps.none_ h2).iff ?_
        constructor
        · rintro ⟨⟨⟨⟨c1, c2, c3⟩, c4, c5⟩, c6⟩, ⟨⟨c7, c8⟩, c9⟩, c10, -⟩
          refine ⟨c1, c2, c3, ?_, c5, ?_⟩
          · intro c hc
            unfold copied withCppHeaders at hc
            rw [hdoc, hdar, harm] at hc
            simp only [Bool.and_false, Bool.not_true, Bool.false_eq_true, if_false, List.append_nil,
              List.cons_append, List.nil_append, List.mem_cons, List.not_mem_nil, or_false] at hc
            rcases hc with rfl | rfl | rfl | rfl
            · exact c4
            · exact c6
            · exact c7
            · exact c8
          · intro n hn
            unfold helpers at hn
            rw [hdoc, hdar] at hn
            simp only [Bool.false_eq_true, if_false, if_true, List.mem_cons, List.not_mem_nil,
              or_false] at hn
            rcases hn with rfl | rfl
            · exact c9
            · exact c10
        · rintro ⟨c1, c2, c3, c4, c5, c6⟩
          unfold copied withCppHeaders at c4
          unfold helpers at c6
          rw [hdoc, hdar] at c6
          rw [hdoc, hdar, harm] at c4
          simp only [Bool.and_false, Bool.not_true, Bool.false_eq_true, if_false, if_true, List.append_nil,
              List.cons_append, List.nil_append, List.mem_cons, List.not_mem_nil, or_false,
              forall_eq_or_imp, forall_eq] at c4 c6
          exact ⟨⟨⟨⟨c1, c2, c3⟩, c4.1, c5⟩, c4.2.1⟩, ⟨⟨c4.2.2.1, c4.2.2.2⟩, c6.1⟩, c6.2, trivial⟩
      | false =>
        simp only [Bool.false_eq_true, if_false]
        refine (base fun c _ h1 => (steps_xcodebuild c h1).bind fun _ t2 h2 =>
          steps_cpp ha hr harm h2).iff ?_
        constructor
        · rintro ⟨⟨⟨⟨c1, c2, c3⟩, c4, c5⟩, c6⟩, ⟨⟨c7, c8⟩, c9⟩, c10, c11⟩
          refine ⟨c1, c2, c3, ?_, c5, ?_⟩
          · intro c hc
            unfold copied withCppHeaders at hc
            rw [hdoc, hdar, harm] at hc
            simp only [Bool.not_false, Bool.and_self, Bool.false_eq_true, if_false, if_true,
              List.cons_append, List.nil_append, List.mem_cons, List.not_mem_nil, or_false] at hc
            rcases hc with rfl | rfl | rfl | rfl | rfl
            · exact c4
            · exact c6
            · exact c7
            · exact c8
            · exact c11
          · intro n hn
            unfold helpers at hn
            rw [hdoc, hdar] at hn
            simp only [Bool.false_eq_true, if_false, if_true, List.mem_cons, List.not_mem_nil,
              or_false] at hn
            rcases hn with rfl | rfl
            · exact c9
            · exact c10
        · rintro ⟨c1, c2, c3, c4, c5, c6⟩
          unfold copied withCppHeaders at c4
          unfold helpers at c6
          rw [hdoc, hdar] at c6
          rw [hdoc, hdar, harm] at c4
          simp only [Bool.not_false, Bool.and_self, Bool.false_eq_true, if_false, if_true,
              List.cons_append, List.nil_append, List.mem_cons, List.not_mem_nil, or_false,
              forall_eq_or_imp, forall_eq] at c4 c6
          exact ⟨⟨⟨⟨c1, c2, c3⟩, c4.1, c5⟩, c4.2.1⟩, ⟨⟨c4.2.2.1, c4.2.2.2.1⟩, c6.1⟩, c6.2, c4.2.2.2.2⟩

theorem mkdirP_keeps {t t' : FileTree} {r x q : Place} (h : t.mkdirP (r ++ x) = some t')
    (hq : ApartPlaces r q) : t'.item q = t.item q := by
  unfold FileTree.mkdirP at h
  split at h
  · cases h; rfl
  · rw [makedirs_some h, if_neg]
    rintro ⟨h', -⟩
    rcases List.prefix_or_prefix_of_prefix h' (List.prefix_append r x) with h'' | h''
    · exact hq.2 h''
    · exact hq.1 h''

theorem setup_keeps {h : BundleHost} {t t' : FileTree} (hs : setupReleaseDir h t = some t') {q : Place}
    (hq : ApartPlaces (releaseDirectory h) q) : t'.item q = t.item q := by
  unfold setupReleaseDir libOclintPlace libPlace at hs
  rw [releasePlace_eq, List.append_assoc] at hs
  rw [Option.bind_eq_some_iff] at hs
  obtain ⟨t2, h2, h3⟩ := hs
  rw [Option.bind_eq_some_iff] at h2
  obtain ⟨t1, h1, h2⟩ := h2
  rw [← List.append_nil (releaseDirectory h)] at h1
  rw [mkdirP_keeps h3 hq, mkdirP_keeps h2 hq, mkdirP_keeps h1 hq, item_rmF, if_neg]
  rw [List.append_nil]
  exact fun h' => hq.1 h'.2

theorem write_keeps {t t' : FileTree} {d : Place} {name text : Str} (h : t.write d name text = some t')
    {q : Place} (hq : ¬ d <+: q) : t'.item q = t.item q := by
  unfold FileTree.write at h
  split at h
  · cases h
    rw [item_put, if_neg]
    rintro rfl
    exact hq (List.prefix_append _ _)
  · cases h

theorem licenses_keeps {h : BundleHost} {a : BundleArgs} {t t' : FileTree}
    (hs : installLicenses h a t = some t') {q : Place}
    (hq : ¬ releaseDirectory h <+: q) : t'.item q = t.item q := by
  unfold installLicenses at hs
  rw [releasePlace_eq, Option.bind_eq_some_iff] at hs
  obtain ⟨t1, h1, h2⟩ := hs
  split at h2
  · rw [Option.bind_eq_some_iff] at h2
    obtain ⟨more, -, h3⟩ := h2
    rw [write_keeps h3 hq, write_keeps h1 hq]
  · cases h2

theorem assemble_no_driver {h : BundleHost} {a : BundleArgs} {t : FileTree}
    (hd : t.item (h.root ++ ["build".toList, "oclint-driver".toList, "bin".toList]) ≠ some .dir) :
    assembleBundle h a t = none := by
  have hq : ApartPlaces (releaseDirectory h)
      (h.root ++ ["build".toList, "oclint-driver".toList, "bin".toList]) :=
    not_release_build "oclint-driver".toList ["bin".toList] rfl (by decide)
  have hp : buildPlace h "oclint-driver".toList ++ ["bin".toList] =
      h.root ++ ["build".toList, "oclint-driver".toList, "bin".toList] := by
    simp [buildPlace]
  unfold assembleBundle
  cases h1 : setupReleaseDir h t with
  | none => rfl
  | some t1 =>
    cases h2 : installLicenses h a t1 with
    | none => simp only [Option.bind_some, h2, Option.bind_none]
    | some t2 =>
      have h3 : installBinary h a t2 = none := by
        unfold installBinary FileTree.copyTree
        rw [hp, if_neg]
        · rfl
        · rw [isDir_iff, licenses_keeps h2 hq.1, setup_keeps h1 hq]
          exact hd
      simp only [Option.bind_some, h2, h3, Option.bind_none]

theorem steps_assemble_all {h : BundleHost} {a : BundleArgs} {t : FileTree} (hs : SoundTree t)
    (ha : ApartFromRelease h a) :
    Steps t (releaseDirectory h) (assembleBundle h a t) (ReadyToBundle h a t) (released h a t) := by
  by_cases hd : t.item (h.root ++ ["build".toList, "oclint-driver".toList, "bin".toList]) = some .dir
  · exact steps_assemble hs ha (reachable_of_driver hs hd)
  · exact Or.inr ⟨assemble_no_driver hd, fun hr => hd (hr.built _ (copied_driver h a))⟩

/-! ## Archives -/

theorem archivePlace_eq (h : BundleHost) (a : BundleArgs) :
    buildPlace h ("oclint-".toList ++ fullVersion h a) = archiveDirectory h a := by
  have e1 : "oclint-".toList ++ oclintVersion = "oclint-26.02".toList := by decide +kernel
  have e2 : "oclint-".toList ++ oclintDevVersion h.commit = "oclint-26.02.dev.".toList ++ h.commit := by
    unfold oclintDevVersion
    have : "oclint-".toList ++ (oclintVersion ++ ".dev.".toList) = "oclint-26.02.dev.".toList := by
      decide +kernel
    rw [← List.append_assoc, this]
  unfold buildPlace archiveDirectory archivedAs fullVersion
  cases a.release
  · simp only [Bool.false_eq_true, if_false]
    rw [e2]
  · simp only [if_true]
    rw [e1]

theorem archivedAs_ne (h : BundleHost) (a : BundleArgs) : archivedAs h a ≠ "oclint-release".toList := by
  unfold archivedAs
  cases a.release
  · simp only [Bool.false_eq_true, if_false]
    intro h'
    have := congrArg List.length h'
    rw [List.length_append] at this
    have e1 : "oclint-release".toList.length = 14 := by decide +kernel
    have e2 : "oclint-26.02.dev.".toList.length = 17 := by decide +kernel
    omega
  · simp only [if_true]
    decide +kernel

theorem archive_apart (h : BundleHost) (a : BundleArgs) :
    ApartPlaces (releaseDirectory h) (archiveDirectory h a) :=
  not_release_build (archivedAs h a) [] rfl (archivedAs_ne h a)

theorem apart_below {r s : Place} (ha : ApartPlaces r s) {p : Place} (hs : s <+: p) : ¬ r <+: p := by
  intro hr
  rcases List.prefix_or_prefix_of_prefix hr hs with h' | h'
  · exact ha.1 h'
  · exact ha.2 h'

/-- Moving a directory. -/
theorem move_iff (t : FileTree) (src dst : Place) :
    (∃ t', t.move src dst = some t') ↔
      t.item src = some .dir ∧ (t.item dst = none ∨ t.item dst = some .dir ∧
        ∀ p, dst <+: p → p ≠ dst → t.item p = none) := by
  have hall : (t.entries.all fun e => !decide (dst <+: e.1 ∧ e.1 ≠ dst)) = true ↔
      ∀ p, dst <+: p → p ≠ dst → t.item p = none := by
    rw [List.all_eq_true]
    constructor
    · intro h p h1 h2
      unfold FileTree.item
      rw [lookup_none_iff]
      intro e he hp
      have := h e he
      rw [hp] at this
      simp [h1, h2] at this
    · intro h e he
      by_cases hp : dst <+: e.1 ∧ e.1 ≠ dst
      · have := h e.1 hp.1 hp.2
        unfold FileTree.item at this
        rw [lookup_none_iff] at this
        exact absurd rfl (this e he)
      · rw [Bool.not_eq_true', decide_eq_false_iff_not]
        exact hp
  unfold FileTree.move
  rw [← isDir_iff t src, ← isDir_iff t dst, ← hall]
  constructor
  · rintro ⟨t', h⟩
    split at h
    · assumption
    · cases h
  · intro h
    rw [if_pos h]
    exact ⟨_, rfl⟩

theorem move_some {t t' : FileTree} {src dst : Place} (h : t.move src dst = some t') :
    t'.tarballs = t.tarballs ∧
    ∀ p, t'.item p = if dst <+: p then t.item (src ++ p.drop dst.length)
      else if src <+: p then none else t.item p := by
  unfold FileTree.move at h
  split at h
  · cases h
    refine ⟨rfl, fun p => ?_⟩
    unfold FileTree.item
    rw [lookup_append, lookup_relocated, lookup_elsewhere, lookup_elsewhere]
    by_cases hd : dst <+: p
    · rw [if_pos hd, if_pos hd, if_pos hd, Option.or_none]
    · rw [if_neg hd, if_neg hd, if_neg hd, Option.none_or]
  · cases h

end Oclint
