import Verif.Spec.ShortNames
import Verif.Lemmas.Ast
import Verif.Lemmas.SourceLines
import Verif.Props.Thresholds

/-! # C60: short variable names -/

namespace Oclint
open Spec

theorem below_iff (roots : List Stmt) (s : Stmt) : Below roots s ↔ s ∈ Stmt.nodesL roots := by
  rw [Stmt.nodesL_eq]
  constructor
  · intro h
    induction h with
    | root h => exact List.mem_flatMap.2 ⟨_, h, Stmt.self_mem_nodes _⟩
    | @child p s _ hk ih =>
      obtain ⟨r, hr, hp⟩ := List.mem_flatMap.1 ih
      refine List.mem_flatMap.2 ⟨r, hr, ?_⟩
      clear ih hr
      induction r using Stmt.kidsInd with
      | ih r ih =>
        rw [Stmt.nodes_eq] at hp ⊢
        rcases List.mem_cons.1 hp with rfl | hp
        · exact List.mem_cons_of_mem _ (List.mem_flatMap.2 ⟨s, hk, Stmt.self_mem_nodes _⟩)
        · obtain ⟨k, hk', hp⟩ := List.mem_flatMap.1 hp
          exact List.mem_cons_of_mem _ (List.mem_flatMap.2 ⟨k, hk', ih k hk' hp⟩)
  · intro h
    obtain ⟨r, hr, hs⟩ := List.mem_flatMap.1 h
    have : ∀ r, Below roots r → s ∈ Stmt.nodes r → Below roots s := by
      clear hs hr r h
      intro r
      induction r using Stmt.kidsInd with
      | ih r ih =>
        intro hb hs
        rw [Stmt.nodes_eq] at hs
        rcases List.mem_cons.1 hs with rfl | hs
        · exact hb
        · obtain ⟨k, hk, hs⟩ := List.mem_flatMap.1 hs
          exact ih k hk (.child hb hk) hs
    exact this r (.root hr) hs

theorem handleVarDecl_mem {st : List DeclId} {s : Stmt} {x : DeclId} (h : x ∈ handleVarDecl st s) :
    x ∈ st ∨ ∃ i, s = .varD x i := by
  unfold handleVarDecl at h
  split at h
  · rcases List.mem_cons.1 h with rfl | h
    · exact .inr ⟨_, rfl⟩
    · exact .inl h
  · exact .inl h

/-- The stack after a header is the list of its variables. -/
theorem foldl_handle (ds : List Stmt) (st : List DeclId) :
    ds.reverse.foldl handleVarDecl st = varsOf ds ++ st := by
  rw [List.foldl_reverse]
  induction ds with
  | nil => rfl
  | cons d ds ih =>
    rw [List.foldr_cons, ih]
    cases d <;> rfl

theorem handleDeclStmt_eq (ds : List Stmt) : handleDeclStmt [] (some (.declS ds)) = varsOf ds := by
  unfold handleDeclStmt
  split
  · rename_i d h
    cases h
    cases d <;> rfl
  · rename_i ds' _ h
    cases h
    rw [foldl_handle, List.append_nil]
  · rename_i h1 h2
    exact absurd rfl (h2 _)

theorem mem_varsOf {l : List Stmt} {d : DeclId} : d ∈ varsOf l ↔ ∃ i, Stmt.varD d i ∈ l := by
  unfold varsOf
  rw [List.mem_filterMap]
  constructor
  · rintro ⟨s, hs, h⟩
    split at h
    · cases h; exact ⟨_, hs⟩
    · cases h
  · rintro ⟨i, hi⟩
    exact ⟨_, hi, rfl⟩

theorem shortVisitVarDecl_stack (t : Int) (st : List DeclId) (d : DeclId) :
    (shortVisitVarDecl t st d).1 = st ∨ (shortVisitVarDecl t st d).1 = st.tail := by
  unfold shortVisitVarDecl
  cases nameAcceptable t d with
  | true => exact .inl rfl
  | false =>
    cases st with
    | nil => exact .inl rfl
    | cons top rest =>
      by_cases he : d.id = top.id
      · simp only [he, if_true]
        exact .inr rfl
      · simp only [he, if_false]
        exact .inr rfl

/-- Ids on the stack stay those of headers, apart from the ones it started with. -/
theorem shortVisit_stack {t : Int} {st : List DeclId} {s : Stmt} {x : DeclId}
    (h : x ∈ (shortVisit t st s).1) :
    x ∈ st ∨ ∃ ds, Header s ds ∧ x ∈ varsOf ds := by
  cases s with
  | varD d i =>
    rw [shortVisit] at h
    rcases shortVisitVarDecl_stack t st d with e | e <;> rw [e] at h
    · exact .inl h
    · exact .inl (List.mem_of_mem_tail h)
  | forS init c n b =>
    cases init with
    | none => cases h
    | some i =>
      cases i with
      | declS ds =>
        simp only [shortVisit, handleDeclStmt_eq] at h
        exact .inr ⟨ds, .forS .., h⟩
      | _ => cases h
  | forRange r v b =>
    cases v with
    | declS ds =>
      cases ds with
      | nil => cases h
      | cons d ds =>
        rcases handleVarDecl_mem h with h | ⟨i, rfl⟩
        · cases h
        · exact .inr ⟨_, .forRange .., mem_varsOf.2 ⟨i, List.mem_singleton.2 rfl⟩⟩
    | _ => cases h
  | forIn e c b =>
    cases e with
    | declS ds =>
      simp only [shortVisit, handleDeclStmt_eq] at h
      exact .inr ⟨ds, .forIn .., h⟩
    | _ => cases h
  | cxxCatch p b =>
    cases p with
    | none => cases h
    | some p =>
      rcases handleVarDecl_mem h with h | ⟨i, rfl⟩
      · cases h
      · exact .inr ⟨_, .cxxCatch .., mem_varsOf.2 ⟨i, List.mem_singleton.2 rfl⟩⟩
  | _ => exact .inl h

theorem shortDescription_eq {t : Int} {d : DeclId} (h : d.name.length < 2147483648) :
    shortDescription t d = shortMessage t d := by
  unfold shortDescription shortMessage
  rw [toInt32_nat h, toStringInt_eq, toStringInt_eq]
  rfl

open Classical in
/-- What a visit reports. -/
theorem shortVisit_report (t : Int) (st : List DeclId) (s : Stmt) (r : DeclId × Str)
    (hl : ∀ d i, s = .varD d i → d.name.length < 2147483648) :
    (shortVisit t st s).2 = some r ↔
      (∃ i, s = .varD r.1 i) ∧ Short t r.1 ∧ r.2 = shortMessage t r.1 ∧
        ∀ top, st.head? = some top → r.1.id ≠ top.id := by
  cases s with
  | varD d i =>
    have hd := hl d i rfl
    have hshort : Short t d ↔ ¬ nameAcceptable t d = true := by
      unfold Short nameAcceptable
      rw [toInt32_nat hd, ← List.length_pos_iff, Bool.or_eq_true, decide_eq_true_iff,
        decide_eq_true_iff]
      omega
    simp only [shortVisit, shortVisitVarDecl]
    by_cases hs : Short t d
    · rw [if_neg (hshort.1 hs)]
      cases st with
      | nil =>
        simp only [Option.some.injEq, shortDescription_eq hd]
        constructor
        · rintro rfl
          exact ⟨⟨i, rfl⟩, hs, rfl, by simp⟩
        · rintro ⟨⟨i', h⟩, _, h3, _⟩
          cases r
          cases h
          simp only at h3
          rw [h3]
      | cons top rest =>
        simp only
        by_cases he : d.id = top.id
        · rw [if_pos he]
          constructor
          · intro h; cases h
          · rintro ⟨⟨i', h⟩, _, _, h4⟩
            cases h
            exact absurd he (h4 top rfl)
        · rw [if_neg he]
          simp only [Option.some.injEq, shortDescription_eq hd]
          constructor
          · rintro rfl
            exact ⟨⟨i, rfl⟩, hs, rfl, by rintro top' h; cases h; exact he⟩
          · rintro ⟨⟨i', h⟩, _, h3, _⟩
            cases r
            cases h
            simp only at h3
            rw [h3]
    · rw [if_pos (by by_contra hh; exact hs (hshort.2 hh))]
      constructor
      · intro h; cases h
      · rintro ⟨⟨i', h⟩, h2, _⟩
        cases h
        exact absurd h2 hs
  | cxxCatch p b =>
    cases p with
    | none => exact ⟨fun h => (by cases h), fun ⟨⟨_, h⟩, _⟩ => (by cases h)⟩
    | some p => exact ⟨fun h => (by cases h), fun ⟨⟨_, h⟩, _⟩ => (by cases h)⟩
  | _ => exact ⟨fun h => (by cases h), fun ⟨⟨_, h⟩, _⟩ => (by cases h)⟩

/-- All reports of a run. -/
theorem shortRun_mem {t : Int} {st : List DeclId} {l : List Stmt} {r : DeclId × Str}
    (hl : ∀ d i, .varD d i ∈ l → d.name.length < 2147483648) (h : r ∈ (shortRun t st l).2) :
    r.1 ∈ varsOf l ∧ Short t r.1 ∧ r.2 = shortMessage t r.1 := by
  induction l generalizing st with
  | nil => cases h
  | cons s l ih =>
    rw [shortRun] at h
    rcases List.mem_append.1 h with h | h
    · rw [Option.mem_toList] at h
      obtain ⟨⟨i, hi⟩, h2, h3, _⟩ := (shortVisit_report t st s r
        (fun d i hd => hl d i (by rw [hd]; exact List.mem_cons_self))).1 h
      exact ⟨mem_varsOf.2 ⟨i, by rw [hi]; exact List.mem_cons_self⟩, h2, h3⟩
    · obtain ⟨h1, h2⟩ := ih (fun d i hd => hl d i (List.mem_cons_of_mem _ hd)) h
      obtain ⟨i, hi⟩ := mem_varsOf.1 h1
      exact ⟨mem_varsOf.2 ⟨i, List.mem_cons_of_mem _ hi⟩, h2⟩

theorem varsOf_cons (s : Stmt) (l : List Stmt) :
    (∃ d i, s = .varD d i ∧ varsOf (s :: l) = d :: varsOf l) ∨
      ((∀ d i, s ≠ .varD d i) ∧ varsOf (s :: l) = varsOf l) := by
  cases s with
  | varD d i => exact .inl ⟨d, i, rfl, rfl⟩
  | _ => exact .inr ⟨fun _ _ h => (by cases h), rfl⟩

theorem shortRun_sublist {t : Int} {st : List DeclId} {l : List Stmt}
    (hl : ∀ d i, .varD d i ∈ l → d.name.length < 2147483648) :
    ((shortRun t st l).2.map Prod.fst).Sublist (varsOf l) := by
  induction l generalizing st with
  | nil => exact .slnil
  | cons s l ih =>
    have ih := ih (st := (shortVisit t st s).1) (fun d i hd => hl d i (List.mem_cons_of_mem _ hd))
    have hrep := shortVisit_report t st s
    rw [shortRun, List.map_append]
    cases hv : (shortVisit t st s).2 with
    | none =>
      rcases varsOf_cons s l with ⟨d, i, _, e⟩ | ⟨_, e⟩ <;> rw [e]
      · exact ih.cons _
      · exact ih
    | some r =>
      obtain ⟨⟨i, hi⟩, _⟩ := (hrep r
        (fun d i hd => hl d i (by rw [hd]; exact List.mem_cons_self))).1 hv
      rcases varsOf_cons s l with ⟨d, j, hs, e⟩ | ⟨hn, _⟩
      · rw [hs] at hi
        cases hi
        rw [e, Option.toList_some, List.map_singleton, List.singleton_append]
        exact ih.cons_cons _
      · exact absurd hi (hn _ _)

open Classical in
theorem shortRun_complete {t : Int} {st : List DeclId} {l : List Stmt} (ex : DeclId → Prop)
    (hl : ∀ d i, .varD d i ∈ l → d.name.length < 2147483648)
    (hst : ∀ d i, .varD d i ∈ l → (∃ x ∈ st, x.id = d.id) → ex d)
    (hex : ∀ s ∈ l, ∀ ds, Header s ds → ∀ x ∈ varsOf ds, ∀ d i, .varD d i ∈ l → x.id = d.id → ex d) :
    ((varsOf l).filter fun d => decide (Short t d ∧ ¬ ex d)).Sublist
      ((shortRun t st l).2.map Prod.fst) := by
  induction l generalizing st with
  | nil => exact .slnil
  | cons s l ih =>
    have ih := ih (st := (shortVisit t st s).1) (fun d i hd => hl d i (List.mem_cons_of_mem _ hd))
      (by
        rintro d i hd ⟨x, hx, he⟩
        rcases shortVisit_stack hx with hx | ⟨ds, hds, hx⟩
        · exact hst d i (List.mem_cons_of_mem _ hd) ⟨x, hx, he⟩
        · exact hex s List.mem_cons_self ds hds x hx d i (List.mem_cons_of_mem _ hd) he)
      (fun s' hs' ds hds x hx d i hd he =>
        hex s' (List.mem_cons_of_mem _ hs') ds hds x hx d i (List.mem_cons_of_mem _ hd) he)
    rw [shortRun, List.map_append]
    rcases varsOf_cons s l with ⟨d, i, rfl, e⟩ | ⟨_, e⟩ <;> rw [e]
    · by_cases hd : Short t d ∧ ¬ ex d
      · rw [List.filter_cons_of_pos (by simpa using hd)]
        have hrep := (shortVisit_report t st (.varD d i) (d, shortMessage t d)
          (fun d' i' hd' => hl d' i' (by rw [hd']; exact List.mem_cons_self))).2
          ⟨⟨i, rfl⟩, hd.1, rfl, by
            intro top htop he
            refine hd.2 (hst d i List.mem_cons_self ⟨top, ?_, he.symm⟩)
            cases st with
            | nil => cases htop
            | cons a st => cases htop; exact List.mem_cons_self⟩
        rw [hrep]
        exact ih.cons_cons _
      · rw [List.filter_cons_of_neg (by simpa using hd)]
        exact ih.trans (List.sublist_append_right _ _)
    · exact ih.trans (List.sublist_append_right _ _)

theorem header_below {roots : List Stmt} {s k : Stmt} {ds : List Stmt} (hs : Below roots s)
    (hh : Header s ds) (hk : k ∈ ds) : Below roots k := by
  cases hh with
  | forS _ c n b => exact .child (p := .declS ds) (.child hs (by simp [Stmt.kids])) hk
  | forIn _ c b => exact .child (p := .declS ds) (.child hs (by simp [Stmt.kids])) hk
  | forRange r d ds b =>
    refine .child (p := .declS (d :: ds)) (.child hs (by simp [Stmt.kids])) ?_
    rw [List.mem_singleton.1 hk]
    exact List.mem_cons_self
  | cxxCatch p b => exact .child hs (by simp [Stmt.kids, List.mem_singleton.1 hk])

/-- The threshold in force. -/
def Spec.ShortLimitIs (cfg : Configurations) (t : Int) : Prop :=
  ∃ cfg', cfg.intForKey "SHORT_VARIABLE_NAME".toList 3 = .ok (t, cfg')

theorem shortNameRule_eq {cfg : Configurations} {t : Int} (ht : ShortLimitIs cfg t)
    (stack : List DeclId) (roots : List Stmt) :
    shortNameRule cfg stack roots = .ok (shortRun t stack (Stmt.nodesL roots)) := by
  obtain ⟨cfg', h⟩ := ht
  unfold shortNameRule
  rw [h, bind_ok']
  rfl

/-- Names fit in memory. -/
def Spec.NamesFit (roots : List Stmt) : Prop :=
  ∀ d i, Below roots (.varD d i) → d.name.length < 2147483648

/-- **C60.** Every report is about a variable of the translation unit whose name is there but
shorter than the threshold, and says so; no declaration is reported twice and they are reported in
order of appearance. -/
theorem C60_sound (cfg : Configurations) (t : Int) (ht : ShortLimitIs cfg t) (stack : List DeclId)
    (roots : List Stmt) (hl : NamesFit roots) :
    ∃ stack' rs, shortNameRule cfg stack roots = .ok (stack', rs) ∧
      (∀ d text, (d, text) ∈ rs →
        (∃ i, Below roots (.varD d i)) ∧ Short t d ∧ text = shortMessage t d) ∧
      (rs.map Prod.fst).Sublist (varsOf (Stmt.nodesL roots)) := by
  have hl' : ∀ d i, .varD d i ∈ Stmt.nodesL roots → d.name.length < 2147483648 :=
    fun d i h => hl d i ((below_iff _ _).2 h)
  refine ⟨_, _, shortNameRule_eq ht stack roots, ?_, shortRun_sublist hl'⟩
  intro d text h
  obtain ⟨h1, h2, h3⟩ := shortRun_mem hl' h
  obtain ⟨i, hi⟩ := mem_varsOf.1 h1
  exact ⟨⟨i, (below_iff _ _).2 hi⟩, h2, h3⟩

open Classical in
/-- **C60.** Every variable with a short name that is neither a loop variable nor an exception
variable is reported, provided the stack left over from earlier translation units contains none of
its variables and different variables have different identities. -/
theorem C60_complete (cfg : Configurations) (t : Int) (ht : ShortLimitIs cfg t)
    (stack : List DeclId) (roots : List Stmt) (hl : NamesFit roots)
    (hids : ∀ d i d' i', Below roots (.varD d i) → (Below roots (.varD d' i') ∨ d' ∈ stack) →
      d.id = d'.id → d = d')
    (hst : ∀ d i, Below roots (.varD d i) → d ∉ stack) :
    ∃ stack' rs, shortNameRule cfg stack roots = .ok (stack', rs) ∧
      ((varsOf (Stmt.nodesL roots)).filter
        fun d => decide (Short t d ∧ ¬ LoopVariable roots d)).Sublist (rs.map Prod.fst) := by
  have hl' : ∀ d i, .varD d i ∈ Stmt.nodesL roots → d.name.length < 2147483648 :=
    fun d i h => hl d i ((below_iff _ _).2 h)
  refine ⟨_, _, shortNameRule_eq ht stack roots, shortRun_complete _ hl' ?_ ?_⟩
  · rintro d i hd ⟨x, hx, he⟩
    have hd := (below_iff _ _).2 hd
    have := hids d i x none hd (.inr hx) he.symm
    exact absurd (this ▸ hx) (hst d i hd)
  · intro s hs ds hds x hx d i hd he
    obtain ⟨j, hj⟩ := mem_varsOf.1 hx
    have hs := (below_iff _ _).2 hs
    have := hids d i x j ((below_iff _ _).2 hd) (.inl (header_below hs hds hj)) he.symm
    exact ⟨s, ds, j, hs, hds, this ▸ hj⟩

theorem shortRun_append (t : Int) (st : List DeclId) (a b : List Stmt) :
    (shortRun t st (a ++ b)).2 = (shortRun t st a).2 ++ (shortRun t (shortRun t st a).1 b).2 ∧
    (shortRun t st (a ++ b)).1 = (shortRun t (shortRun t st a).1 b).1 := by
  induction a generalizing st with
  | nil => exact ⟨rfl, rfl⟩
  | cons s a ih =>
    obtain ⟨h1, h2⟩ := ih (shortVisit t st s).1
    rw [List.cons_append, shortRun, shortRun]
    simp only
    rw [h1, h2, List.append_assoc]
    exact ⟨rfl, rfl⟩

/-- Nodes that neither declare a variable nor start a header. -/
def Spec.Inert (s : Stmt) : Prop := (∀ d i, s ≠ .varD d i) ∧ (∀ init c n b, s ≠ .forS init c n b) ∧
  (∀ r v b, s ≠ .forRange r v b) ∧ (∀ e c b, s ≠ .forIn e c b) ∧ ∀ p b, s ≠ .cxxCatch p b

theorem shortVisit_inert {t : Int} {st : List DeclId} {s : Stmt} (h : Inert s) :
    shortVisit t st s = (st, none) := by
  obtain ⟨h1, h2, h3, h4, h5⟩ := h
  cases s with
  | varD d i => exact absurd rfl (h1 d i)
  | forS i c n b => exact absurd rfl (h2 i c n b)
  | forRange r v b => exact absurd rfl (h3 r v b)
  | forIn e c b => exact absurd rfl (h4 e c b)
  | cxxCatch p b => exact absurd rfl (h5 p b)
  | _ => rfl

theorem shortRun_inert {t : Int} {st : List DeclId} {l : List Stmt} (h : ∀ s ∈ l, Inert s) :
    shortRun t st l = (st, []) := by
  induction l with
  | nil => rfl
  | cons s l ih =>
    rw [shortRun, shortVisit_inert (h s List.mem_cons_self)]
    simp only
    rw [ih (fun s hs => h s (List.mem_cons_of_mem _ hs))]
    rfl

/-- A header in which every declaration is a variable with a short name and a plain initialiser is
processed without a report. -/
theorem shortRun_header {t : Int} {ds : List Stmt} {st : List DeclId}
    (h : ∀ k ∈ ds, ∃ d i, k = .varD d i ∧ Short t d ∧ d.name.length < 2147483648 ∧
      ∀ s ∈ Stmt.nodesO i, Inert s) :
    shortRun t (varsOf ds ++ st) (Stmt.nodesL ds) = (st, []) := by
  induction ds with
  | nil => rfl
  | cons k ds ih =>
    obtain ⟨d, i, rfl, hs, hl, hi⟩ := h k List.mem_cons_self
    have hvis : shortVisit t (varsOf (.varD d i :: ds) ++ st) (.varD d i) =
        (varsOf ds ++ st, none) := by
      have hn : nameAcceptable t d = false := by
        unfold nameAcceptable
        obtain ⟨h1, h2⟩ := hs
        rw [← List.length_pos_iff] at h1
        rw [toInt32_nat hl, Bool.or_eq_false_iff, decide_eq_false_iff_not, decide_eq_false_iff_not]
        omega
      rw [shortVisit, shortVisitVarDecl.eq_def, hn, if_neg (by simp)]
      rw [show varsOf (.varD d i :: ds) ++ st = d :: (varsOf ds ++ st) from rfl]
      simp only
      rw [if_pos trivial]
    rw [Stmt.nodesL, Stmt.nodes, List.cons_append, shortRun, hvis]
    simp only
    obtain ⟨h1, h2⟩ := shortRun_append t (varsOf ds ++ st) (Stmt.nodesO i) (Stmt.nodesL ds)
    have e := shortRun_inert (t := t) (st := varsOf ds ++ st) hi
    rw [e] at h1 h2
    simp only at h1 h2
    rw [ih (fun k hk => h k (List.mem_cons_of_mem _ hk))] at h1 h2
    rw [h1, h2]
    rfl

theorem nodes_split {roots : List Stmt} {s : Stmt} (h : Below roots s) :
    ∃ pre post, Stmt.nodesL roots = pre ++ Stmt.nodes s ++ post := by
  have key : ∀ (l : List Stmt), s ∈ l → ∃ pre post,
      l.flatMap Stmt.nodes = pre ++ Stmt.nodes s ++ post := by
    intro l hs
    obtain ⟨a, b, rfl⟩ := List.append_of_mem hs
    exact ⟨a.flatMap Stmt.nodes, b.flatMap Stmt.nodes, by simp⟩
  rw [Stmt.nodesL_eq]
  induction h with
  | root h => exact key _ h
  | @child p k _ hk ih =>
    obtain ⟨pre, post, e⟩ := ih (by
      intro l hs
      obtain ⟨a, b, rfl⟩ := List.append_of_mem hs
      exact ⟨a.flatMap Stmt.nodes, b.flatMap Stmt.nodes, by simp⟩)
    obtain ⟨pre', post', e'⟩ := key _ hk
    rw [e, Stmt.nodes_eq p, e']
    exact ⟨pre ++ p :: pre', post' ++ post, by simp⟩

/-! ### Exactly -/

theorem opens_visit {t : Int} {st : List DeclId} {s : Stmt} (h : Opens s) :
    HeaderVars s (shortVisit t st s).1 ∧ (∀ d i, s ≠ .varD d i) := by
  refine ⟨⟨h, ?_⟩, ?_⟩
  · rcases h with ⟨i, c, n, b, rfl⟩ | ⟨r, v, b, rfl⟩ | ⟨e, c, b, rfl⟩ | ⟨p, b, rfl⟩
    · cases i with
      | none => exact .inr ⟨fun ds hh => (by cases hh), rfl⟩
      | some i =>
        cases i with
        | declS ds => exact .inl ⟨ds, .forS .., handleDeclStmt_eq ds⟩
        | _ => exact .inr ⟨fun ds hh => (by cases hh), rfl⟩
    · cases v with
      | declS ds =>
        cases ds with
        | nil => exact .inr ⟨fun ds hh => (by cases hh), rfl⟩
        | cons d ds =>
          refine .inl ⟨[d], .forRange .., ?_⟩
          cases d <;> rfl
      | _ => exact .inr ⟨fun ds hh => (by cases hh), rfl⟩
    · cases e with
      | declS ds => exact .inl ⟨ds, .forIn .., handleDeclStmt_eq ds⟩
      | _ => exact .inr ⟨fun ds hh => (by cases hh), rfl⟩
    · cases p with
      | none => exact .inr ⟨fun ds hh => (by cases hh), rfl⟩
      | some p =>
        refine .inl ⟨[p], .cxxCatch .., ?_⟩
        cases p <;> rfl
  · intro d i e
    subst e
    rcases h with ⟨_, _, _, _, h⟩ | ⟨_, _, _, h⟩ | ⟨_, _, _, h⟩ | ⟨_, _, h⟩ <;> cases h

theorem varD_not_opens {d : DeclId} {i : Option Stmt} : ¬ Opens (.varD d i) := by
  rintro (⟨_, _, _, _, h⟩ | ⟨_, _, _, h⟩ | ⟨_, _, _, h⟩ | ⟨_, _, h⟩) <;> cases h

/-- A node that is neither a variable nor opens something changes nothing. -/
theorem other_visit {t : Int} {st : List DeclId} {s : Stmt} (h : ¬ Opens s) (hv : ∀ d i, s ≠ .varD d i) :
    (shortVisit t st s).1 = st := by
  cases s with
  | varD d i => exact absurd rfl (hv d i)
  | forS i c n b => exact absurd (.inl ⟨_, _, _, _, rfl⟩) h
  | forRange r v b => exact absurd (.inr (.inl ⟨_, _, _, rfl⟩)) h
  | forIn e c b => exact absurd (.inr (.inr (.inl ⟨_, _, _, rfl⟩))) h
  | cxxCatch p b => exact absurd (.inr (.inr (.inr ⟨_, _, rfl⟩))) h
  | _ => rfl

theorem short_iff {t : Int} {d : DeclId} (hd : d.name.length < 2147483648) :
    Short t d ↔ nameAcceptable t d = false := by
  unfold Short nameAcceptable
  rw [toInt32_nat hd, ← List.length_pos_iff, Bool.or_eq_false_iff, decide_eq_false_iff_not,
    decide_eq_false_iff_not]
  omega

theorem var_visit {t : Int} {st : List DeclId} {d : DeclId} {i : Option Stmt}
    (hd : d.name.length < 2147483648) :
    (Short t d → (shortVisit t st (.varD d i)).1 = st.tail) ∧
      (¬ Short t d → (shortVisit t st (.varD d i)).1 = st) := by
  rw [short_iff hd]
  simp only [shortVisit, shortVisitVarDecl]
  constructor
  · intro h
    rw [h, if_neg (by nofun)]
    cases st with
    | nil => rfl
    | cons top rest =>
      dsimp only
      split_ifs <;> rfl
  · intro h
    rw [Bool.not_eq_false] at h
    rw [if_pos h]

theorem shortOnes_snoc_var (t : Int) (l : List Stmt) (d : DeclId) (i : Option Stmt) :
    (Short t d → shortOnes t (l ++ [.varD d i]) = shortOnes t l + 1) ∧
      (¬ Short t d → shortOnes t (l ++ [.varD d i]) = shortOnes t l) := by
  have e : varsOf (l ++ [.varD d i]) = varsOf l ++ [d] := List.filterMap_append
  unfold shortOnes
  rw [e, List.filter_append, List.length_append]
  constructor <;> intro h <;> simp [h]

theorem shortOnes_snoc_other (t : Int) (l : List Stmt) (s : Stmt) (hv : ∀ d i, s ≠ .varD d i) :
    shortOnes t (l ++ [s]) = shortOnes t l := by
  have e : varsOf (l ++ [s]) = varsOf l ++ varsOf [s] := List.filterMap_append
  have e' : varsOf [s] = [] := by
    cases s with
    | varD d i => exact absurd rfl (hv d i)
    | _ => rfl
  unfold shortOnes
  rw [e, e', List.append_nil]

theorem lastHeader_unique {left : List DeclId} {visited : List Stmt} {v w : List DeclId}
    {a b : List Stmt} (h1 : LastHeader left visited v a) (h2 : LastHeader left visited w b) :
    v = w ∧ a = b := by
  have vars : ∀ {s : Stmt} {v w : List DeclId}, HeaderVars s v → HeaderVars s w → v = w := by
    intro s v w hv hw
    have hu : ∀ {ds ds' : List Stmt}, Header s ds → Header s ds' → ds = ds' := by
      intro ds ds' h h'
      cases h <;> cases h' <;> rfl
    obtain ⟨_, ⟨ds, hd, rfl⟩ | ⟨hn, rfl⟩⟩ := hv
    · obtain ⟨_, ⟨ds', hd', rfl⟩ | ⟨hn', rfl⟩⟩ := hw
      · rw [hu hd hd']
      · exact absurd hd (hn' ds)
    · obtain ⟨_, ⟨ds', hd', rfl⟩ | ⟨hn', rfl⟩⟩ := hw
      · exact absurd hd' (hn ds')
      · rfl
  have mixed : ∀ {p q a b : List Stmt} {s s' : Stmt}, p ++ s :: a = q ++ s' :: b → Opens s → Opens s' →
      (∀ x ∈ a, ¬ Opens x) → (∀ x ∈ b, ¬ Opens x) → s = s' ∧ a = b := by
    intro p q a b s s' e hs hs' ha hb
    rcases List.append_eq_append_iff.1 e with ⟨r, h1, h2⟩ | ⟨r, h1, h2⟩
    · cases r with
      | nil => cases h2; exact ⟨rfl, rfl⟩
      | cons x r =>
        injection h2 with _ h2
        exact absurd hs' (ha s' (by rw [h2]; simp))
    · cases r with
      | nil => cases h2; exact ⟨rfl, rfl⟩
      | cons x r =>
        injection h2 with _ h2
        exact absurd hs (hb s (by rw [h2]; simp))
  obtain ⟨ha, ⟨rfl, rfl⟩ | ⟨p, s, rfl, hv⟩⟩ := h1
  · obtain ⟨hb, ⟨rfl, rfl⟩ | ⟨q, s', rfl, hw⟩⟩ := h2
    · exact ⟨rfl, rfl⟩
    · exact absurd hw.1 (ha s' (by simp))
  · obtain ⟨hb, ⟨rfl, rfl⟩ | ⟨q, s', e, hw⟩⟩ := h2
    · exact absurd hv.1 (hb s (by simp))
    · obtain ⟨rfl, rfl⟩ := mixed e hv.1 hw.1 ha hb
      exact ⟨vars hv hw, rfl⟩

theorem awaited_unique {t : Int} {left : List DeclId} {visited : List Stmt} {v w : List DeclId}
    (h1 : Awaited t left visited v) (h2 : Awaited t left visited w) : v = w := by
  obtain ⟨a, x, ha, rfl⟩ := h1
  obtain ⟨b, y, hb, rfl⟩ := h2
  obtain ⟨rfl, rfl⟩ := lastHeader_unique ha hb
  rfl

theorem shortRun_pair (t : Int) (a b : List Stmt) : ∀ st,
    shortRun t st (a ++ b) = ((shortRun t (shortRun t st a).1 b).1,
      (shortRun t st a).2 ++ (shortRun t (shortRun t st a).1 b).2) := by
  induction a with
  | nil => intro st; rfl
  | cons s a ih =>
    intro st
    rw [List.cons_append, shortRun, ih]
    simp only [shortRun, List.append_assoc]

theorem lastHeader_snoc {left : List DeclId} {visited after : List Stmt} {vars : List DeclId} {s : Stmt}
    (h : LastHeader left visited vars after) (hs : ¬ Opens s) :
    LastHeader left (visited ++ [s]) vars (after ++ [s]) := by
  obtain ⟨hn, h⟩ := h
  refine ⟨?_, ?_⟩
  · intro x hx
    rcases List.mem_append.1 hx with hx | hx
    · exact hn x hx
    · rw [List.mem_singleton.1 hx]; exact hs
  · rcases h with ⟨rfl, rfl⟩ | ⟨b, x, rfl, hv⟩
    · exact .inl ⟨rfl, rfl⟩
    · exact .inr ⟨b, x, by simp, hv⟩

theorem shortRun_exact (t : Int) (left : List DeclId) (l : List Stmt)
    (hl : ∀ d i, .varD d i ∈ l → d.name.length < 2147483648) :
    Awaited t left l (shortRun t left l).1 ∧ ShortReports t left l (shortRun t left l).2 := by
  induction l using List.reverseRecOn with
  | nil => exact ⟨⟨left, [], ⟨fun _ h => (by cases h), .inl ⟨rfl, rfl⟩⟩, rfl⟩, .nil⟩
  | append_singleton l s ih =>
    obtain ⟨ha, hr⟩ := ih fun d i h => hl d i (List.mem_append_left _ h)
    rw [shortRun_pair]
    generalize shortRun t left l = r at ha hr
    obtain ⟨st, rs⟩ := r
    dsimp only at ha hr
    have hrep := fun x => shortVisit_report t st s x
      (fun d i hd => hl d i (by rw [hd]; exact List.mem_append_right _ List.mem_cons_self))
    simp only [shortRun, List.append_nil]
    have hex : ∀ d : DeclId, ExemptHere t left l d ↔ ∃ top, st.head? = some top ∧ d.id = top.id := by
      intro d
      constructor
      · rintro ⟨e, rest, h1, h2⟩
        rw [awaited_unique ha h1]
        exact ⟨e, rfl, h2⟩
      · rintro ⟨top, h1, h2⟩
        cases st with
        | nil => cases h1
        | cons x st => cases h1; exact ⟨_, _, ha, h2⟩
    constructor
    · by_cases ho : Opens s
      · exact ⟨_, [], ⟨fun _ h => (by cases h), .inr ⟨l, s, rfl, (opens_visit ho).1⟩⟩, rfl⟩
      · obtain ⟨all, after, h1, h2⟩ := ha
        refine ⟨all, after ++ [s], lastHeader_snoc h1 ho, ?_⟩
        by_cases hv : ∃ d i, s = .varD d i
        · obtain ⟨d, i, rfl⟩ := hv
          have hd := hl d i (List.mem_append_right _ List.mem_cons_self)
          by_cases hs : Short t d
          · rw [(var_visit hd).1 hs, (shortOnes_snoc_var t after d i).1 hs, h2, List.tail_drop]
          · rw [(var_visit hd).2 hs, (shortOnes_snoc_var t after d i).2 hs, h2]
        · have hv' : ∀ d i, s ≠ .varD d i := fun d i e => hv ⟨d, i, e⟩
          rw [other_visit ho hv', shortOnes_snoc_other t after s hv', h2]
    · cases hv : (shortVisit t st s).2 with
      | some r =>
        obtain ⟨⟨i, hi⟩, h2, h3, h4⟩ := (hrep r).1 hv
        obtain ⟨d, text⟩ := r
        dsimp only at hi h2 h3 h4
        rw [hi, h3]
        refine .told hr h2 fun he => ?_
        obtain ⟨top, h5, h6⟩ := (hex d).1 he
        exact h4 top h5 h6
      | none =>
        rw [Option.toList_none, List.append_nil]
        refine .silent hr fun d i e hs => (hex d).2 ?_
        by_contra hc
        have := (hrep (d, shortMessage t d)).2 ⟨⟨i, e⟩, hs, rfl, fun top ht he => hc ⟨top, ht, he⟩⟩
        rw [hv] at this
        cases this

theorem shortReports_unique {t : Int} {left : List DeclId} {l : List Stmt} {a : List (DeclId × Str)}
    (ha : ShortReports t left l a) : ∀ {b}, ShortReports t left l b → a = b := by
  induction ha with
  | nil =>
    intro b hb
    generalize hx : ([] : List Stmt) = l at hb
    cases hb with
    | nil => rfl
    | told => simp at hx
    | silent => simp at hx
  | @told visited rs d i _ hs hn ih =>
    intro b hb
    generalize hx : visited ++ [.varD d i] = l at hb
    cases hb with
    | nil => simp at hx
    | told h1 _ _ =>
      obtain ⟨rfl, h⟩ := List.append_inj' hx rfl
      injection h with h _
      cases h
      rw [ih h1]
    | silent h1 h2 =>
      obtain ⟨rfl, h⟩ := List.append_inj' hx rfl
      injection h with h _
      exact absurd (h2 d i h.symm hs) hn
  | @silent visited rs s _ hq ih =>
    intro b hb
    generalize hx : visited ++ [s] = l at hb
    cases hb with
    | nil => simp at hx
    | told h1 h2 h3 =>
      obtain ⟨rfl, h⟩ := List.append_inj' hx rfl
      injection h with h _
      exact absurd (hq _ _ h h2) h3
    | silent h1 h2 =>
      obtain ⟨rfl, _⟩ := List.append_inj' hx rfl
      exact ih h1

/-- **C60.** Exactly: after a header, the first variable with a short name is exempt if it is the first one
of the header, the second one if it is the second one, and so on; all others are reported.  What is left
over at the end is what the next translation unit begins with. -/
theorem C60_exact (cfg : Configurations) (t : Int) (ht : ShortLimitIs cfg t) (stack : List DeclId)
    (roots : List Stmt) (hl : NamesFit roots) (stack' : List DeclId) (rs : List (DeclId × Str)) :
    shortNameRule cfg stack roots = .ok (stack', rs) ↔
      Awaited t stack (Stmt.nodesL roots) stack' ∧ ShortReports t stack (Stmt.nodesL roots) rs := by
  have hl' : ∀ d i, .varD d i ∈ Stmt.nodesL roots → d.name.length < 2147483648 :=
    fun d i h => hl d i ((below_iff _ _).2 h)
  obtain ⟨h1, h2⟩ := shortRun_exact t stack _ hl'
  rw [shortNameRule_eq ht]
  constructor
  · intro e
    have e := Outcome.ok.inj e
    rw [e] at h1 h2
    exact ⟨h1, h2⟩
  · rintro ⟨h3, h4⟩
    rw [← awaited_unique h1 h3, ← shortReports_unique h2 h4]

/-- **C60.** The variables declared in the header of a loop or catch clause are not reported when
all of them have short names and their initialisers contain no further declarations; each variable
is assumed to be declared once. -/
theorem C60_exempt (cfg : Configurations) (t : Int) (ht : ShortLimitIs cfg t)
    (stack : List DeclId) (roots : List Stmt) (hl : NamesFit roots)
    (hids : (varsOf (Stmt.nodesL roots)).Nodup) (s : Stmt) (ds : List Stmt) (hs : Below roots s)
    (hh : Header s ds)
    (hlone : ∀ r d ds' b, s = .forRange r (.declS (d :: ds')) b → ds' = [])
    (hshort : ∀ k ∈ ds, ∃ d i, k = .varD d i ∧ Short t d ∧ ∀ s ∈ Stmt.nodesO i, Inert s) :
    ∃ stack' rs, shortNameRule cfg stack roots = .ok (stack', rs) ∧
      ∀ d i, .varD d i ∈ ds → d ∉ rs.map Prod.fst := by
  have hl' : ∀ d i, .varD d i ∈ Stmt.nodesL roots → d.name.length < 2147483648 :=
    fun d i h => hl d i ((below_iff _ _).2 h)
  refine ⟨_, _, shortNameRule_eq ht stack roots, ?_⟩
  have hshort' : ∀ k ∈ ds, ∃ d i, k = .varD d i ∧ Short t d ∧ d.name.length < 2147483648 ∧
      ∀ s ∈ Stmt.nodesO i, Inert s := by
    intro k hk
    obtain ⟨d, i, rfl, h1, h2⟩ := hshort k hk
    exact ⟨d, i, rfl, h1, hl d i (header_below hs hh hk), h2⟩
  obtain ⟨pre, post, e⟩ := nodes_split hs
  -- the header's nodes directly follow the node itself
  have hhead : ∃ mid rest, Stmt.nodes s = s :: mid ++ Stmt.nodesL ds ++ rest ∧
      (∀ x ∈ mid, Inert x) ∧ ∀ st, (shortVisit t st s) = (varsOf ds, none) := by
    cases hh with
    | forS ds c n b =>
      refine ⟨[.declS ds], Stmt.nodesO c ++ (Stmt.nodesO n ++ Stmt.nodes b), ?_, ?_, ?_⟩
      · simp [Stmt.nodes, Stmt.nodesO]
      · intro x hx; rw [List.mem_singleton.1 hx]; simp [Inert]
      · intro st; rw [shortVisit, handleDeclStmt_eq]
    | forIn ds c b =>
      refine ⟨[.declS ds], Stmt.nodes c ++ Stmt.nodes b, ?_, ?_, ?_⟩
      · simp [Stmt.nodes]
      · intro x hx; rw [List.mem_singleton.1 hx]; simp [Inert]
      · intro st; rw [shortVisit, handleDeclStmt_eq]
    | forRange r d ds' b =>
      have := hlone r d ds' b rfl
      subst this
      obtain ⟨d', i, rfl, _⟩ := hshort d List.mem_cons_self
      refine ⟨[.declS [.varD d' i]], Stmt.nodes r ++ Stmt.nodes b, ?_, ?_, ?_⟩
      · simp [Stmt.nodes, Stmt.nodesL]
      · intro x hx; rw [List.mem_singleton.1 hx]; simp [Inert]
      · intro st; rfl
    | cxxCatch p b =>
      obtain ⟨d', i, rfl, _⟩ := hshort p List.mem_cons_self
      refine ⟨[], Stmt.nodes b, ?_, by simp, ?_⟩
      · simp [Stmt.nodes, Stmt.nodesL, Stmt.nodesO]
      · intro st; rfl
  obtain ⟨mid, rest, e1, hmid, hvis⟩ := hhead
  have e2 : Stmt.nodesL roots = (pre ++ [s] ++ mid) ++ (Stmt.nodesL ds ++ (rest ++ post)) := by
    rw [e, e1]; simp
  intro d i hd hrep
  have hdin : d ∈ varsOf (Stmt.nodesL ds) := by
    rw [mem_varsOf]
    refine ⟨i, (below_iff ds _).1 (.root hd)⟩
  rw [e2] at hids hrep hl'
  have vapp : ∀ a b : List Stmt, varsOf (a ++ b) = varsOf a ++ varsOf b := by
    intro a b; exact List.filterMap_append
  rw [vapp, vapp _ (rest ++ post)] at hids
  obtain ⟨_, hn2, hdis⟩ := List.nodup_append.1 hids
  obtain ⟨_, _, hdis'⟩ := List.nodup_append.1 hn2
  obtain ⟨r1, _⟩ := shortRun_append t stack (pre ++ [s] ++ mid) (Stmt.nodesL ds ++ (rest ++ post))
  have hst : (shortRun t stack (pre ++ [s] ++ mid)).1 = varsOf ds := by
    obtain ⟨_, a1⟩ := shortRun_append t stack (pre ++ [s]) mid
    obtain ⟨_, a2⟩ := shortRun_append t stack pre [s]
    rw [a1, a2, shortRun_inert hmid]
    simp only [shortRun, hvis]
  rw [hst] at r1
  have hhd := shortRun_header (st := []) hshort'
  rw [List.append_nil] at hhd
  obtain ⟨r2, _⟩ := shortRun_append t (varsOf ds) (Stmt.nodesL ds) (rest ++ post)
  rw [hhd] at r2
  rw [r1, r2, List.map_append, List.mem_append] at hrep
  rcases hrep with hrep | hrep
  · have := (shortRun_sublist (t := t) (st := stack)
      (fun d i hd => hl' d i (List.mem_append_left _ hd))).subset hrep
    exact hdis _ this _ (List.mem_append_left _ hdin) rfl
  · rw [List.map_append, List.mem_append] at hrep
    rcases hrep with hrep | hrep
    · cases hrep
    · have := (shortRun_sublist (t := t) (st := [])
        (fun d i hd => hl' d i (List.mem_append_right _ (List.mem_append_right _ hd)))).subset hrep
      exact hdis' _ hdin _ this rfl

/-- Not every loop variable is exempt: in `for (int index = 0, j = 0; ...)` the variable `j` is
reported, because `index`, which is long enough, stays on the stack. -/
theorem C60_loop_variable_witness (cfg : Configurations) (ht : ShortLimitIs cfg 3) :
    let index : DeclId := ⟨1, "index".toList⟩
    let j : DeclId := ⟨2, "j".toList⟩
    let loop := Stmt.forS (some (.declS [.varD index none, .varD j none])) none none .nullS
    LoopVariable [loop] j ∧
    ∃ stack' rs, shortNameRule cfg [] [loop] = .ok (stack', rs) ∧ rs.map Prod.fst = [j] := by
  intro index j loop
  refine ⟨⟨loop, _, none, .root List.mem_cons_self, .forS _ _ _ _, by simp⟩, _, _,
    shortNameRule_eq ht _ _, ?_⟩
  decide

/-- The stack outlives the translation unit: if a later unit's variable happens to live at the
address of an abandoned loop variable, it is not reported although it is no loop variable. -/
theorem C60_stale_stack_witness (cfg : Configurations) (ht : ShortLimitIs cfg 3) :
    let index : DeclId := ⟨1, "index".toList⟩
    let x : DeclId := ⟨1, "x".toList⟩
    let first := Stmt.forS (some (.declS [.varD index none])) none none .nullS
    ∃ stack' stack'', shortNameRule cfg [] [first] = .ok (stack', []) ∧
      shortNameRule cfg stack' [.varD x none] = .ok (stack'', []) ∧
      ¬ LoopVariable [.varD x none] x := by
  intro index x first
  refine ⟨[index], [], ?_, ?_, ?_⟩
  · rw [shortNameRule_eq ht]; decide
  · rw [shortNameRule_eq ht]; decide
  · rintro ⟨s, ds, i, hb, hh, _⟩
    rw [below_iff] at hb
    simp [Stmt.nodesL, Stmt.nodes, Stmt.nodesO] at hb
    subst hb
    cases hh

/-- `for (int i = 0; ...) { int k; }` with the default threshold: `k` is reported, `i` is not. -/
example (cfg : Configurations) (ht : ShortLimitIs cfg 3) :
    let i : DeclId := ⟨1, "i".toList⟩
    let k : DeclId := ⟨2, "k".toList⟩
    ∃ stack' rs, shortNameRule cfg [] [.forS (some (.declS [.varD i (some (.intLit 0))])) none none
        (.compound [.declS [.varD k none]])] = .ok (stack', rs) ∧ rs.map Prod.fst = [k] := by
  intro i k
  exact ⟨_, _, shortNameRule_eq ht _ _, by decide⟩

end Oclint
