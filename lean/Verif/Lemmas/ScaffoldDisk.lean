import Verif.Lemmas.ScaffoldFiles

/-!
# Lemmas about the disk under the scaffolding scripts
-/

namespace Oclint
open Spec

theorem pyJoin_eq (a b : Str) (ha : a ≠ []) (hl : a.getLast? ≠ some '/') (hb : b.head? ≠ some '/') :
    pyJoin a b = a ++ '/' :: b := by
  unfold pyJoin
  rw [if_neg hb, if_neg (by simp [ha, hl])]

theorem dirOf_eq (a b : Str) (hb : '/' ∉ b) : dirOf (a ++ '/' :: b) = a := by
  unfold dirOf
  have : (a ++ '/' :: b).reverse = b.reverse ++ '/' :: a.reverse := by simp
  rw [this, List.dropWhile_append_of_pos (by
    intro c hc
    rw [List.mem_reverse] at hc
    simp only [ne_eq, decide_not, Bool.not_eq_eq_eq_not, Bool.not_true, decide_eq_false_iff_not]
    rintro rfl
    exact hb hc)]
  simp

theorem above_iff (p path : Str) : above p path = true ↔ p = path ∨ ∃ rest, path = p ++ '/' :: rest := by
  unfold above
  rw [Bool.or_eq_true, decide_eq_true_eq, List.isPrefixOf_iff_prefix]
  refine or_congr_right ?_
  constructor
  · rintro ⟨r, hr⟩; exact ⟨r, by rw [← hr]; simp⟩
  · rintro ⟨r, hr⟩; exact ⟨r, by rw [hr]; simp⟩

theorem above_child (R cat p rest : Str) (hc : '/' ∉ cat) (h : R ++ '/' :: cat = p ++ '/' :: rest) :
    p = R ∨ ∃ r, R = p ++ '/' :: r := by
  rcases List.append_eq_append_iff.1 h with ⟨a, ha, hb⟩ | ⟨c, ha, hb⟩
  · cases a with
    | nil => exact Or.inl (by simpa using ha)
    | cons x a =>
      simp only [List.cons_append, List.cons.injEq] at hb
      exact absurd (by rw [hb.2]; simp) hc
  · cases c with
    | nil => exact Or.inl (by simpa using ha.symm)
    | cons x c =>
      simp only [List.cons_append, List.cons.injEq] at hb
      exact Or.inr ⟨c, by rw [ha, hb.1]⟩

/-- Files are no directories, and what is above a directory is one. -/
structure SoundDisk (d : Disk) : Prop where
  sound : ∀ p, d.dir p = true → d.file p = none
  parents : ∀ p rest, d.dir (p ++ '/' :: rest) = true → d.dir p = true

theorem mkdirP_child (d : Disk) (hd : SoundDisk d) (R cat : Str) (hR : d.dir R = true)
    (hc : '/' ∉ cat) (hf : d.file (R ++ '/' :: cat) = none) :
    ∃ d', d.mkdirP (R ++ '/' :: cat) = ⟨d', none⟩ ∧ d'.file = d.file ∧
      ∀ p, d'.dir p = true ↔ d.dir p = true ∨ p = R ++ '/' :: cat := by
  have habove : ∀ p, above p (R ++ '/' :: cat) = true → p ≠ R ++ '/' :: cat → d.dir p = true := by
    intro p hp hne
    rcases (above_iff _ _).1 hp with rfl | ⟨rest, hr⟩
    · exact absurd rfl hne
    · rcases above_child R cat p rest hc hr with rfl | ⟨r, rfl⟩
      · exact hR
      · exact hd.parents p r hR
  unfold Disk.mkdirP
  by_cases hdir : d.dir (R ++ '/' :: cat) = true
  · rw [if_pos hdir]
    refine ⟨d, rfl, rfl, fun p => ⟨Or.inl, ?_⟩⟩
    rintro (h | rfl)
    · exact h
    · exact hdir
  · have hb : d.blocked (R ++ '/' :: cat) = false := by
      unfold Disk.blocked
      rw [List.any_eq_false]
      intro p _ h
      rw [Bool.and_eq_true] at h
      by_cases hne : p = R ++ '/' :: cat
      · rw [hne, hf] at h
        simp at h
      · rw [hd.sound p (habove p h.1 hne)] at h
        simp at h
    rw [if_neg hdir, hb, if_neg (by simp)]
    refine ⟨_, rfl, rfl, fun p => ?_⟩
    simp only [Bool.or_eq_true]
    constructor
    · rintro (h | h)
      · exact Or.inl h
      · by_cases hne : p = R ++ '/' :: cat
        · exact Or.inr hne
        · exact Or.inl (habove p h hne)
    · rintro (h | rfl)
      · exact Or.inl h
      · exact Or.inr ((above_iff _ _).2 (Or.inl rfl))

theorem append_ok (d : Disk) (path text : Str) (h : d.writable path = true) :
    d.append path text = ⟨d.put path (contents d path ++ text), none⟩ := by
  unfold Disk.append
  rw [if_pos h]
  rfl

theorem put_same (d : Disk) (path text : Str) : (d.put path text).file path = some text := by
  simp [Disk.put]

theorem put_other (d : Disk) (path text p : Str) (h : p ≠ path) :
    (d.put path text).file p = d.file p := by
  simp [Disk.put, h]

theorem contents_of_some {d : Disk} {p t : Str} (h : d.file p = some t) : contents d p = t := by
  simp [contents, h]

theorem contents_of_none {d : Disk} {p : Str} (h : d.file p = none) : contents d p = [] := by
  simp [contents, h]

/-- A category gets its directory, its list, and a place in the list of categories. -/
theorem register (d : Disk) (hd : SoundDisk d) (R cat step : Str) (hR : d.dir R = true)
    (hc : '/' ∉ cat) (hf : d.file (R ++ '/' :: cat) = none)
    (hl : d.dir (listsIn (R ++ '/' :: cat)) = false)
    (hr : d.file (listsIn R) ≠ none) :
    ∃ d', ((d.mkdirP (R ++ '/' :: cat)).next fun d =>
        addPathToLists d (listsIn (R ++ '/' :: cat)) (listsIn R) step) = ⟨d', none⟩ ∧
      SoundDisk d' ∧ (∀ p, d'.dir p = true ↔ d.dir p = true ∨ p = R ++ '/' :: cat) ∧
      d'.file (listsIn (R ++ '/' :: cat)) = some (contents d (listsIn (R ++ '/' :: cat))) ∧
      (Present d (listsIn (R ++ '/' :: cat)) → d'.file (listsIn R) = d.file (listsIn R)) ∧
      (¬ Present d (listsIn (R ++ '/' :: cat)) →
        d'.file (listsIn R) = some (contents d (listsIn R) ++ step)) ∧
      ∀ p, p ≠ listsIn (R ++ '/' :: cat) → p ≠ listsIn R → d'.file p = d.file p := by
  obtain ⟨d1, h1, hfile, hdir⟩ := mkdirP_child d hd R cat hR hc hf
  have hlists : ∀ a : Str, listsIn a = a ++ '/' :: "CMakeLists.txt".toList := fun _ => rfl
  have hname : '/' ∉ "CMakeLists.txt".toList := by decide +kernel
  generalize "CMakeLists.txt".toList = name at hlists hname
  have hne : listsIn (R ++ '/' :: cat) ≠ listsIn R := by
    rw [hlists, hlists]
    intro h
    have := congrArg List.length h
    simp only [List.length_append, List.length_cons] at this
    omega
  have hroot : d.dir (listsIn R) = false := by
    cases h : d.dir (listsIn R) with
    | false => rfl
    | true => exact absurd (hd.sound _ h) hr
  have hRne : listsIn R ≠ R ++ '/' :: cat := fun e => hr (by rw [e]; exact hf)
  have hsound : ∀ e : Disk, (∀ p, e.dir p = true ↔ d.dir p = true ∨ p = R ++ '/' :: cat) →
      (∀ p, p ≠ listsIn (R ++ '/' :: cat) → p ≠ listsIn R → e.file p = d.file p) → SoundDisk e := by
    intro e he hfr
    constructor
    · intro p hp
      rcases (he p).1 hp with h | rfl
      · rw [hfr p (by rintro rfl; rw [hl] at h; cases h) (by rintro rfl; rw [hroot] at h; cases h)]
        exact hd.sound p h
      · rw [hfr _ _ (Ne.symm hRne)]
        · exact hf
        · rw [hlists]
          intro h
          have := congrArg List.length h
          simp only [List.length_append, List.length_cons] at this
          omega
    · intro p rest hp
      rw [he]
      rcases (he _).1 hp with h | h
      · exact Or.inl (hd.parents p rest h)
      · rcases above_child R cat p rest hc h.symm with rfl | ⟨r, rfl⟩
        · exact Or.inl hR
        · exact Or.inl (hd.parents p r hR)
  rw [h1]
  simp only [Ran.next]
  unfold addPathToLists
  cases hp : d.file (listsIn (R ++ '/' :: cat)) with
  | some t =>
    rw [hfile, hp]
    refine ⟨d1, by simp, hsound d1 hdir (fun p _ _ => by rw [hfile]), hdir, by rw [hfile, hp, contents_of_some hp], fun _ => by rw [hfile],
      fun h => absurd ⟨t, hp⟩ h, fun p _ _ => by rw [hfile]⟩
  | none =>
    rw [hfile, hp]
    have hw1 : d1.writable (listsIn (R ++ '/' :: cat)) = true := by
      unfold Disk.writable
      rw [hlists, dirOf_eq _ _ hname, Bool.and_eq_true]
      refine ⟨(hdir _).2 (Or.inr rfl), ?_⟩
      rw [Bool.not_eq_true', ← Bool.not_eq_true, hdir]
      rintro (h | h)
      · rw [← hlists, hl] at h; cases h
      · have := congrArg List.length h
        simp only [List.length_append, List.length_cons] at this
        omega
    have hw2 : (d1.put (listsIn (R ++ '/' :: cat)) (contents d1 (listsIn (R ++ '/' :: cat)) ++ [])).writable
        (listsIn R) = true := by
      unfold Disk.writable
      rw [hlists R, dirOf_eq _ _ hname, Bool.and_eq_true]
      refine ⟨(hdir _).2 (Or.inl hR), ?_⟩
      rw [Bool.not_eq_true', ← Bool.not_eq_true]
      intro h
      rcases (hdir _).1 h with h | h
      · rw [← hlists, hroot] at h; cases h
      · rw [← hlists] at h; exact hRne h
    simp only [Option.isSome_none, Bool.false_eq_true, if_false]
    rw [append_ok _ _ _ hw1]
    simp only [Ran.next]
    rw [append_ok _ _ _ hw2]
    refine ⟨_, rfl, hsound _ hdir (fun p hp1 hp2 => ?_), hdir, ?_, fun h => ?_, fun _ => ?_,
      fun p hp1 hp2 => ?_⟩
    · rw [put_other _ _ _ _ hp2, put_other _ _ _ _ hp1, hfile]
    · rw [put_other _ _ _ _ hne, put_same]
      simp [contents, hfile]
    · obtain ⟨t, ht⟩ := h; rw [hp] at ht; cases ht
    · rw [put_same]
      unfold contents
      rw [put_other _ _ _ _ (Ne.symm hne), hfile]
    · rw [put_other _ _ _ _ hp2, put_other _ _ _ _ hp1, hfile]

/-- A template is filled in. -/
theorem copyTemplate_ok (home : Str) (d : Disk) (folder type suffix : Str) (r : RuleDict)
    (dst tmpl template nodes : Str)
    (hdst : pyJoin folder (r.className ++ suffix ++ ".cpp".toList) = dst)
    (htmpl : pyJoin (rulesTemplates home) (type ++ suffix ++ ".tmpl".toList) = tmpl)
    (hw : d.writable dst = true) (ht : d.file tmpl = some template) (hne : tmpl ≠ dst)
    (hn : visitAstNodes home (d.put dst []) = some nodes) :
    copyTemplate home d folder type suffix r =
      ⟨(d.put dst []).put dst (replaceRuleWildcards template r nodes), none⟩ := by
  unfold copyTemplate
  simp only
  rw [hdst, htmpl]
  unfold Disk.truncate
  rw [if_pos hw]
  simp only [Ran.next]
  rw [put_other _ _ _ _ hne, ht]
  simp only
  rw [expandTemplate_eq home _ r template nodes hn]

/-! ### Paths -/

theorem getLast_append_ne {a b : Str} (hb : b ≠ []) (hl : b.getLast? ≠ some '/') :
    (a ++ b).getLast? ≠ some '/' := by
  rw [List.getLast?_append]
  cases h : b.getLast? with
  | none => exact absurd (List.getLast?_eq_none_iff.1 h) hb
  | some c => rw [h] at hl; simpa using hl

theorem join_literal (home a b : Str) (ha : a ≠ []) (hl : a.getLast? ≠ some '/')
    (hb : b.head? ≠ some '/') :
    pyJoin (home ++ a) b = home ++ (a ++ '/' :: b) := by
  rw [pyJoin_eq _ _ (by simp [ha]) (getLast_append_ne ha hl) hb, List.append_assoc]

section paths
variable (home : Str) (hh : home ≠ [] ∧ home.getLast? ≠ some '/')
include hh

theorem rulesProject_eq : rulesProject home = home ++ "/../oclint-rules".toList := by
  unfold rulesProject
  rw [pyJoin_eq _ _ hh.1 hh.2 (by decide +kernel)]
  rfl

theorem rulesRoot_eq : rulesRoot home = home ++ "/../oclint-rules/rules".toList := by
  unfold rulesRoot
  rw [rulesProject_eq home hh, join_literal home _ _ (by decide +kernel) (by decide +kernel) (by decide +kernel)]
  congr 1

theorem testsRoot_eq : testsRoot home = home ++ "/../oclint-rules/test".toList := by
  unfold testsRoot
  rw [rulesProject_eq home hh, join_literal home _ _ (by decide +kernel) (by decide +kernel) (by decide +kernel)]
  congr 1

theorem rulesTemplates_eq : rulesTemplates home = home ++ "/../oclint-rules/template".toList := by
  unfold rulesTemplates
  rw [rulesProject_eq home hh, join_literal home _ _ (by decide +kernel) (by decide +kernel) (by decide +kernel)]
  congr 1

theorem rulesLists_eq : rulesLists home = listsIn (rulesRoot home) := by
  unfold rulesLists
  rw [rulesRoot_eq home hh, join_literal home _ _ (by decide +kernel) (by decide +kernel) (by decide +kernel)]
  unfold listsIn
  rw [List.append_assoc]
  congr 1

theorem testsLists_eq : testsLists home = listsIn (testsRoot home) := by
  unfold testsLists
  rw [testsRoot_eq home hh, join_literal home _ _ (by decide +kernel) (by decide +kernel) (by decide +kernel)]
  unfold listsIn
  rw [List.append_assoc]
  congr 1

theorem template_eq (name : Str) (hn : name.head? ≠ some '/') :
    pyJoin (rulesTemplates home) name = templatePath home name := by
  rw [rulesTemplates_eq home hh,
    join_literal home _ _ (by decide +kernel) (by decide +kernel) hn]
  unfold templatePath
  rw [List.append_assoc]
  congr 1

theorem customFolder_eq (cat : Str) (hc : '/' ∉ cat) :
    customFolder home cat = rulesRoot home ++ '/' :: cat := by
  unfold customFolder
  rw [pyJoin_eq]
  · rw [rulesRoot_eq home hh]; simp [hh.1]
  · rw [rulesRoot_eq home hh]
    exact getLast_append_ne (by decide +kernel) (by decide +kernel)
  · intro h
    exact hc (List.mem_of_mem_head? h)

theorem customTestFolder_eq (cat : Str) (hc : '/' ∉ cat) :
    customTestFolder home cat = testsRoot home ++ '/' :: cat := by
  unfold customTestFolder
  rw [pyJoin_eq]
  · rw [testsRoot_eq home hh]; simp [hh.1]
  · rw [testsRoot_eq home hh]
    exact getLast_append_ne (by decide +kernel) (by decide +kernel)
  · intro h
    exact hc (List.mem_of_mem_head? h)

end paths

theorem join_in (R cat name : Str) (hne : cat ≠ []) (hc : '/' ∉ cat) (hn : name.head? ≠ some '/') :
    pyJoin (R ++ '/' :: cat) name = R ++ '/' :: cat ++ '/' :: name := by
  rw [pyJoin_eq _ _ (by simp) ?_ hn]
  have : R ++ '/' :: cat = (R ++ ['/']) ++ cat := by simp
  rw [this]
  apply getLast_append_ne hne
  intro h
  exact hc (List.mem_of_getLast? h)

/-! ### Steps -/

theorem append_step (d : Disk) (dir name text : Str) (hn : '/' ∉ name) (hdir : d.dir dir = true)
    (hno : d.dir (dir ++ '/' :: name) = false) :
    ∃ d', d.append (dir ++ '/' :: name) text = ⟨d', none⟩ ∧ d'.dir = d.dir ∧
      d'.file (dir ++ '/' :: name) = some (contents d (dir ++ '/' :: name) ++ text) ∧
      ∀ p, p ≠ dir ++ '/' :: name → d'.file p = d.file p := by
  refine ⟨_, append_ok _ _ _ ?_, rfl, put_same _ _ _, fun p hp => put_other _ _ _ _ hp⟩
  unfold Disk.writable
  rw [dirOf_eq _ _ hn, hdir, hno]
  rfl

theorem copy_step (home : Str) (d : Disk) (dir name type suffix : Str) (r : RuleDict)
    (tmpl template nodes : Str) (hn : '/' ∉ name) (hdir : d.dir dir = true)
    (hno : d.dir (dir ++ '/' :: name) = false)
    (hdst : pyJoin dir (r.className ++ suffix ++ ".cpp".toList) = dir ++ '/' :: name)
    (htmpl : pyJoin (rulesTemplates home) (type ++ suffix ++ ".tmpl".toList) = tmpl)
    (ht : d.file tmpl = some template) (hne : tmpl ≠ dir ++ '/' :: name)
    (hv : visitAstNodes home (d.put (dir ++ '/' :: name) []) = some nodes) :
    ∃ d', copyTemplate home d dir type suffix r = ⟨d', none⟩ ∧ d'.dir = d.dir ∧
      d'.file (dir ++ '/' :: name) = some (replaceRuleWildcards template r nodes) ∧
      ∀ p, p ≠ dir ++ '/' :: name → d'.file p = d.file p := by
  refine ⟨_, copyTemplate_ok home d dir type suffix r _ tmpl template nodes hdst htmpl ?_ ht hne hv,
    rfl, put_same _ _ _, fun p hp => ?_⟩
  · unfold Disk.writable
    rw [dirOf_eq _ _ hn, hdir, hno]
    rfl
  · rw [put_other _ _ _ _ hp, put_other _ _ _ _ hp]

theorem visitAstNodes_eq (stmts decls : Str) :
    ∃ visits, VisitsOf stmts decls visits ∧ ∀ (home : Str) (d : Disk),
      d.file (pyJoin (rulesTemplates home) "ClangStmtNodes".toList) = some stmts →
      d.file (pyJoin (rulesTemplates home) "ClangDeclNodes".toList) = some decls →
      visitAstNodes home d = some visits := by
  obtain ⟨ts, h1, h2⟩ := blocksOf_fold [] (pyLines stmts)
  obtain ⟨td, h3, h4⟩ := blocksOf_fold "Decl".toList (pyLines decls)
  refine ⟨ts ++ td, ⟨_, _, ts, td, pyLines_linesOf stmts, pyLines_linesOf decls, h1, h3, rfl⟩, ?_⟩
  intro home d hs hd
  unfold visitAstNodes
  rw [hs]
  simp only
  rw [hd]
  simp only
  rw [h2, h4]
  rfl

theorem linesOf_eq {text : Str} {lines : List Str} (h : LinesOf text lines) :
    lines = pyLines text := by
  have key : ∀ (a acc rest : Str), '\n' ∉ a →
      pyLinesFrom acc (a ++ '\n' :: rest) = (acc ++ a ++ ['\n']) :: pyLinesFrom [] rest := by
    intro a
    induction a with
    | nil => intro acc rest _; simp [pyLinesFrom]
    | cons c a ih =>
      intro acc rest ha
      have hc : c ≠ '\n' := fun e => ha (by simp [e])
      rw [List.cons_append, pyLinesFrom, if_neg hc, ih _ _ fun e => ha (List.mem_cons_of_mem _ e)]
      simp
  have last : ∀ (a acc : Str), '\n' ∉ a → acc ++ a ≠ [] → pyLinesFrom acc a = [acc ++ a] := by
    intro a
    induction a with
    | nil =>
      intro acc _ hne
      rw [List.append_nil] at hne ⊢
      rw [pyLinesFrom, if_neg hne]
    | cons c a ih =>
      intro acc ha hne
      have hc : c ≠ '\n' := fun e => ha (by simp [e])
      rw [pyLinesFrom, if_neg hc, ih _ (fun e => ha (List.mem_cons_of_mem _ e)) (by simp)]
      simp
  induction lines generalizing text with
  | nil =>
    obtain ⟨h1, -⟩ := h
    rw [← h1]; rfl
  | cons l ls ih =>
    obtain ⟨h1, h2, h3⟩ := h
    obtain ⟨hne, hnl⟩ := h2 l (by simp)
    obtain ⟨a, c, rfl⟩ : ∃ a c, l = a ++ [c] :=
      ⟨l.dropLast, l.getLast hne, (List.dropLast_append_getLast hne).symm⟩
    rw [List.dropLast_concat] at hnl
    have hrest : LinesOf ls.flatten ls := by
      refine ⟨rfl, fun l hl => h2 l (List.mem_cons_of_mem _ hl), ?_⟩
      intro x hx
      apply h3
      cases ls with
      | nil => simp at hx
      | cons m ls => rw [List.dropLast_cons_cons]; exact List.mem_cons_of_mem _ hx
    have ih := ih hrest
    by_cases hc : c = '\n'
    · subst hc
      rw [← h1, List.flatten_cons, List.append_assoc]
      unfold pyLines at ih ⊢
      rw [List.singleton_append, key a [] _ hnl, ← ih]
      rfl
    · have hls : ls = [] := by
        cases ls with
        | nil => rfl
        | cons m ls =>
          have := h3 (a ++ [c]) (by rw [List.dropLast_cons_cons]; exact List.mem_cons_self)
          simp at this
          exact absurd this hc
      subst hls
      rw [← h1]
      unfold pyLines
      simp only [List.flatten_cons, List.flatten_nil, List.append_nil]
      rw [last (a ++ [c]) [] (by simp [hnl, Ne.symm hc]) (by simp)]
      rfl

theorem blocksOf_unique {suffix : Str} {lines : List Str} {s t : Str} (hs : BlocksOf suffix lines s)
    (ht : BlocksOf suffix lines t) : s = t := by
  induction hs generalizing t with
  | nil => cases ht; rfl
  | node hg _ ih =>
    cases ht with
    | node hg' ht => rw [captures_unique hg hg', ih ht]
    | other hno ht => exact absurd hg (hno _)
  | other hno _ ih =>
    cases ht with
    | node hg' ht => exact absurd hg' (hno _)
    | other _ ht => exact ih ht

theorem visitsOf_unique {stmts decls s t : Str} (hs : VisitsOf stmts decls s)
    (ht : VisitsOf stmts decls t) : s = t := by
  obtain ⟨a, b, c, d, h1, h2, h3, h4, rfl⟩ := hs
  obtain ⟨a', b', c', d', h1', h2', h3', h4', rfl⟩ := ht
  rw [linesOf_eq h1] at h3
  rw [linesOf_eq h1'] at h3'
  rw [linesOf_eq h2] at h4
  rw [linesOf_eq h2'] at h4'
  rw [blocksOf_unique h3 h3', blocksOf_unique h4 h4']

end Oclint
