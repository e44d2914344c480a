import Verif.Model.Install
import Verif.Spec.Install
import Mathlib.Tactic.Common
import Mathlib.Data.List.TakeWhile

/-!
# Lemmas about places and paths
-/

namespace Oclint
open Spec

theorem pieces_ne_nil (p : Str) : pieces p ≠ [] := by
  cases p with
  | nil => simp [pieces]
  | cons c cs =>
    unfold pieces
    split
    · simp
    · split <;> simp

theorem pieces_append (a b : Str) : pieces (a ++ '/' :: b) = pieces a ++ pieces b := by
  induction a with
  | nil => simp [pieces]
  | cons c cs ih =>
    simp only [List.cons_append, pieces, ih]
    by_cases h : c = '/'
    · simp [h]
    · simp only [h, if_false]
      have hn := pieces_ne_nil cs
      generalize pieces cs = q at hn
      cases q with
      | nil => exact absurd rfl hn
      | cons p ps => rfl

theorem pieces_noSlash (p : Str) (h : '/' ∉ p) : pieces p = [p] := by
  induction p with
  | nil => rfl
  | cons c cs ih =>
    simp only [List.mem_cons, not_or] at h
    simp only [pieces, ih h.2, if_neg (Ne.symm h.1)]

theorem walk_append (here a b : List Str) : walk here (a ++ b) = walk (walk here a) b := by
  induction a generalizing here with
  | nil => rfl
  | cons s ss ih =>
    simp only [List.cons_append, walk]
    split
    · exact ih _
    · split <;> exact ih _

theorem walk_name (here : List Str) (name : Str) (h : FileName name) :
    walk here [name] = here ++ [name] := by
  simp [walk, h.nonempty, h.notDot, h.notDots]

theorem walk_pieces_append (here : List Str) (a b : Str) :
    walk here (pieces (a ++ '/' :: b)) = walk (walk here (pieces a)) (pieces b) := by
  rw [pieces_append, walk_append]

theorem place_append (a b : Str) : place (a ++ '/' :: b) = walk (place a) (pieces b) :=
  walk_pieces_append [] a b

theorem walk_pieces_nil (here : List Str) : walk here (pieces []) = here := by simp [pieces, walk]

/-- Slashes at the end of a path do not matter. -/
theorem walk_slashes (here : List Str) (a s : Str) (h : ∀ c ∈ s, c = '/') :
    walk here (pieces (a ++ s)) = walk here (pieces a) := by
  induction s generalizing a with
  | nil => simp
  | cons c cs ih =>
    obtain rfl : c = '/' := h c (by simp)
    have := ih (a ++ ['/']) (fun c hc => h c (by simp [hc]))
    simp only [List.append_assoc, List.singleton_append] at this
    rw [this, walk_pieces_append, walk_pieces_nil]

theorem dropWhile_decomp (p : Char → Bool) (l : Str) :
    l = l.takeWhile p ++ l.dropWhile p := List.takeWhile_append_dropWhile.symm

/-- A path with a slash is a directory, slashes and a name. -/
theorem path_decomp (p : Str) (h : '/' ∈ p) :
    ∃ d s name, p = d ++ '/' :: s ++ name ∧ (∀ c ∈ s, c = '/') ∧ '/' ∉ name ∧
      fileName p = name ∧
      parentPath p = (if d = [] ∧ p.head? = some '/' then ['/'] else d) := by
  set r := p.reverse with hr
  have hp : p = r.reverse := by simp [hr]
  set t := r.takeWhile (fun c => decide (c ≠ '/')) with ht
  set u := r.dropWhile (fun c => decide (c ≠ '/')) with hu
  have h1 : r = t ++ u := dropWhile_decomp _ _
  have htn : '/' ∉ t := by
    intro hm
    have := List.mem_takeWhile_imp hm
    simp at this
  have hmr : '/' ∈ r := by simpa [hr] using h
  have hu0 : ∃ u', u = '/' :: u' := by
    have hne : u ≠ [] := by
      intro he
      rw [h1, he, List.append_nil] at hmr
      exact htn hmr
    obtain ⟨c, u', hc⟩ := List.exists_cons_of_ne_nil hne
    have := List.head_dropWhile_not (fun c => decide (c ≠ '/')) (l := r) (by rw [← hu]; exact hne)
    simp only [← hu, hc, List.head_cons] at this
    simp only [ne_eq, decide_not, Bool.not_eq_false', decide_eq_true_eq] at this
    exact ⟨u', by rw [hc, this]⟩
  obtain ⟨u', hu'⟩ := hu0
  set v := u'.takeWhile (fun c => decide (c = '/')) with hv
  set d := u'.dropWhile (fun c => decide (c = '/')) with hd
  have h2 : u' = v ++ d := dropWhile_decomp _ _
  have hvs : ∀ c ∈ v, c = '/' := by
    intro c hc
    have := List.mem_takeWhile_imp hc
    simpa using this
  refine ⟨d.reverse, v, t.reverse, ?_, hvs, by simpa using htn, ?_, ?_⟩
  · have hv' : v.reverse = v := by
      have : v = List.replicate v.length '/' := List.eq_replicate_iff.2 ⟨rfl, hvs⟩
      rw [this, List.reverse_replicate]
    have hcomm : v ++ ['/'] = '/' :: v := by
      have : v = List.replicate v.length '/' := List.eq_replicate_iff.2 ⟨rfl, hvs⟩
      rw [this]
      simp [← List.replicate_succ, ← List.replicate_succ']
    rw [hp, h1, hu', h2]
    simp only [List.reverse_append, List.reverse_cons, hv', List.append_assoc]
    rw [← List.append_assoc v, hcomm]
  · unfold fileName
    rw [← hr, ← ht]
  · unfold parentPath
    rw [← hr, ← hu, hu']
    have : List.dropWhile (fun c => decide (c = '/')) ('/' :: u') = d := by simp [hd]
    rw [this]
    cases d with
    | nil => simp
    | cons c cs => simp

theorem place_parentPath (p : Str) (h : '/' ∈ p) (here : List Str) :
    walk here (pieces p) = walk (walk here (pieces (parentPath p))) [fileName p] := by
  obtain ⟨d, s, name, hp, hs, hn, hf, hd⟩ := path_decomp p h
  have hw : walk here (pieces p) = walk (walk here (pieces d)) [name] := by
    have : p = (d ++ s) ++ '/' :: name := by
      rw [hp]
      have hcomm : '/' :: s = s ++ ['/'] := by
        have : s = List.replicate s.length '/' := List.eq_replicate_iff.2 ⟨rfl, hs⟩
        rw [this]
        simp [← List.replicate_succ, ← List.replicate_succ']
      simp [hcomm]
    rw [this, walk_pieces_append, walk_slashes _ _ _ hs, pieces_noSlash name hn]
  rw [hw, hf, hd]
  split
  · rename_i hc
    rw [hc.1]
    simp [pieces, walk]
  · rfl

theorem commandName_eq (p : Str) : commandName p = fileName p := by
  by_cases h : '/' ∈ p
  · obtain ⟨d, s, name, hp, hs, hn, hf, -⟩ := path_decomp p h
    have hcomm : '/' :: s = s ++ ['/'] := by
      have : s = List.replicate s.length '/' := List.eq_replicate_iff.2 ⟨rfl, hs⟩
      rw [this]
      simp [← List.replicate_succ, ← List.replicate_succ']
    have : p = (d ++ s) ++ '/' :: name := by rw [hp]; simp [hcomm]
    rw [hf, commandName, this, pieces_append, pieces_noSlash name hn]
    simp
  · rw [commandName, pieces_noSlash p h]
    have : ∀ c ∈ p.reverse, decide (c ≠ '/') = true := by
      intro c hc
      simp only [List.mem_reverse] at hc
      simp only [ne_eq, decide_not, Bool.not_eq_eq_eq_not, Bool.not_true, decide_eq_false_iff_not]
      rintro rfl
      exact h hc
    have ht : p.reverse.takeWhile (fun c => decide (c ≠ '/')) = p.reverse :=
      List.takeWhile_eq_self_iff.2 this
    unfold fileName
    rw [ht]
    simp

theorem fileName_eq_self (p : Str) : fileName p = p ↔ '/' ∉ p := by
  constructor
  · intro h hm
    obtain ⟨d, s, name, hp, hs, hn, hf, -⟩ := path_decomp p hm
    rw [← h, hf] at hm
    exact hn hm
  · intro h
    rw [← commandName_eq, commandName, pieces_noSlash p h]
    simp

theorem walk_appendPath (here : List Str) (dir name : Str) (hd : dir ≠ []) :
    walk here (pieces (appendPath dir name)) = walk (walk here (pieces dir)) (pieces name) := by
  unfold appendPath
  simp only [hd, false_or]
  split
  · rename_i hl
    obtain ⟨e, rfl⟩ : ∃ e, dir = e ++ ['/'] := by
      rcases List.eq_nil_or_concat dir with h | ⟨e, c, h⟩
      · exact absurd h hd
      · subst h
        simp only [List.concat_eq_append, List.getLast?_append, List.getLast?_singleton,
          Option.some_or, Option.some.injEq] at hl
        exact ⟨e, by simp [hl]⟩
    rw [walk_slashes here e ['/'] (by simp)]
    have : e ++ ['/'] ++ name = e ++ '/' :: name := by simp
    rw [this, walk_pieces_append]
  · exact walk_pieces_append _ _ _

theorem head_appendPath (dir name : Str) (hd : dir ≠ []) :
    (appendPath dir name).head? = dir.head? := by
  unfold appendPath
  obtain ⟨c, cs, rfl⟩ := List.exists_cons_of_ne_nil hd
  split <;> simp

theorem osPathJoin_eq (a b : Str) (hb : b.head? ≠ some '/') : osPathJoin a b = appendPath a b := by
  unfold osPathJoin appendPath
  rw [if_neg hb]

theorem reach_appendPath (cwd dir name : Str) (hd : dir ≠ []) :
    reach cwd (appendPath dir name) = walk (reach cwd dir) (pieces name) := by
  unfold reach
  rw [head_appendPath dir name hd]
  split
  · exact walk_appendPath [] dir name hd
  · exact walk_appendPath _ dir name hd

/-- Making a path absolute does not change where it leads. -/
theorem place_makeAbsolute (w : Process) (cwd p : Str) (hw : w.cwd = some cwd)
    (hc : cwd ≠ []) : place (makeAbsolute w p) = reach cwd p := by
  unfold makeAbsolute reach
  split
  · rfl
  · rw [hw]
    exact walk_appendPath [] cwd p hc

theorem head_makeAbsolute (w : Process) (cwd p : Str) (hw : w.cwd = some cwd)
    (hc : cwd.head? = some '/') : (makeAbsolute w p).head? = some '/' := by
  unfold makeAbsolute
  split
  · assumption
  · rw [hw]
    have : cwd ≠ [] := by rintro rfl; simp at hc
    exact (head_appendPath cwd p this).trans hc

theorem commandName_slash (a b : Str) : commandName (a ++ '/' :: b) = commandName b := by
  unfold commandName
  rw [pieces_append, List.getLast?_append]
  rw [List.getLast?_eq_some_getLast (pieces_ne_nil b)]
  rfl

theorem commandName_appendPath (dir name : Str) (hd : dir ≠ []) :
    commandName (appendPath dir name) = commandName name := by
  unfold appendPath
  simp only [hd, false_or]
  split
  · rename_i hl
    obtain ⟨e, rfl⟩ : ∃ e, dir = e ++ ['/'] := by
      rcases List.eq_nil_or_concat dir with h | ⟨e, c, h⟩
      · exact absurd h hd
      · subst h
        simp only [List.concat_eq_append, List.getLast?_append, List.getLast?_singleton,
          Option.some_or, Option.some.injEq] at hl
        exact ⟨e, by simp [hl]⟩
    have : e ++ ['/'] ++ name = e ++ '/' :: name := by simp
    rw [this, commandName_slash]
  · exact commandName_slash _ _

theorem commandName_makeAbsolute (w : Process) (cwd p : Str) (hw : w.cwd = some cwd)
    (hc : cwd ≠ []) : commandName (makeAbsolute w p) = commandName p := by
  unfold makeAbsolute
  split
  · rfl
  · rw [hw]
    exact commandName_appendPath cwd p hc

/-- The directory of the program, once its path is known. -/
theorem place_directory (w : Process) (cwd p : Str) (hw : w.cwd = some cwd)
    (hc : cwd.head? = some '/') (hn : FileName (commandName p)) :
    reach cwd p = place (parentPath (makeAbsolute w p)) ++ [commandName p] := by
  have hc' : cwd ≠ [] := by rintro rfl; simp at hc
  have hs : '/' ∈ makeAbsolute w p := List.mem_of_mem_head? (head_makeAbsolute w cwd p hw hc)
  rw [← place_makeAbsolute w cwd p hw hc']
  unfold place
  rw [place_parentPath _ hs, ← commandName_eq, commandName_makeAbsolute w cwd p hw hc', walk_name _ _ hn]

theorem splitColons_entries (entries : List Str) (h0 : entries ≠ []) (h : ∀ e ∈ entries, ':' ∉ e) :
    splitColons (List.intercalate [':'] entries) = entries.filter (· ≠ []) := by
  unfold splitColons
  rw [List.splitOn_intercalate _ h h0]

/-- The search finds the first entry that has the program. -/
theorem find_first (w : Process) (runs : List Str → Prop) (cwd command : Str)
    (hruns : ∀ p, w.canExecute p = true ↔ runs (reach cwd p)) (hn : FileName command)
    (before after : List Str) (entry : Str) (hne : ∀ e ∈ before ++ entry :: after, e ≠ [])
    (hb : ∀ b ∈ before, ¬ runs (reach cwd b ++ [command])) (he : runs (reach cwd entry ++ [command])) :
    ((before ++ entry :: after).map fun dir => appendPath dir command).find? w.canExecute =
      some (appendPath entry command) := by
  have key : ∀ d, d ≠ [] → reach cwd (appendPath d command) = reach cwd d ++ [command] := by
    intro d hd
    rw [reach_appendPath cwd d command hd, pieces_noSlash _ hn.noSlash, walk_name _ _ hn]
  rw [List.map_append, List.find?_append]
  have h1 : (before.map fun dir => appendPath dir command).find? w.canExecute = none := by
    rw [List.find?_eq_none]
    intro x hx
    obtain ⟨d, hd, rfl⟩ := List.mem_map.1 hx
    rw [hruns, key d (hne d (by simp [hd]))]
    exact hb d hd
  rw [h1, List.map_cons, List.find?_cons_of_pos]
  · simp
  · rw [hruns, key entry (hne entry (by simp))]
    exact he

theorem fileName_lib : FileName "lib".toList := by constructor <;> decide +kernel
theorem fileName_etc : FileName "etc".toList := by constructor <;> decide +kernel
theorem fileName_bin : FileName "bin".toList := by constructor <;> decide +kernel
theorem fileName_build : FileName "build".toList := by constructor <;> decide +kernel
theorem fileName_oclint : FileName "oclint".toList := by constructor <;> decide +kernel
theorem fileName_rules : FileName "rules".toList := by constructor <;> decide +kernel
theorem fileName_reporters : FileName "reporters".toList := by constructor <;> decide +kernel

theorem Spec.FileName.head {name : Str} (h : FileName name) : name.head? ≠ some '/' :=
  fun hh => h.noSlash (List.mem_of_mem_head? hh)

/-- `oclint-` and a text without slashes is a name. -/
theorem fileName_version (v : Str) (h : '/' ∉ v) : FileName ("oclint-".toList ++ v) := by
  have e : "oclint-".toList = ['o', 'c', 'l', 'i', 'n', 't', '-'] := by decide +kernel
  rw [e]
  constructor <;> simp [h]

theorem place_name (p name : Str) (h : FileName name) : place (p ++ '/' :: name) = place p ++ [name] := by
  rw [place_append, pieces_noSlash _ h.noSlash, walk_name _ _ h]

theorem place_join (p name : Str) (hp : p ≠ []) (h : FileName name) :
    place (osPathJoin p name) = place p ++ [name] := by
  rw [osPathJoin_eq p name h.head]
  unfold place
  rw [walk_appendPath [] p name hp, pieces_noSlash _ h.noSlash, walk_name _ _ h]

theorem join_ne_nil (p name : Str) (hp : p ≠ []) (h : FileName name) : osPathJoin p name ≠ [] := by
  rw [osPathJoin_eq p name h.head]
  intro he
  have := head_appendPath p name hp
  rw [he] at this
  cases p with
  | nil => exact hp rfl
  | cons => simp at this

theorem place_up (p : Str) : place (p ++ "/..".toList) = (place p).dropLast := by
  have e : "/..".toList = '/' :: ['.', '.'] := by decide +kernel
  rw [e, place_append]
  simp [pieces, walk]

end Oclint
