import Verif.Lemmas.Argparse
import Verif.Lemmas.BuildScripts
import Verif.Lemmas.CiScripts
import Verif.Lemmas.ReadNumbers

/-!
# C120: how scripts read their command lines
-/

namespace Oclint

open Spec

open scoped List

variable {σ : Type}

/-- A command line that says one thing after another asks for all of them in turn; it is refused if one
of them is not allowed, or the argument that has no name is missing or given twice. -/
theorem C120_read {p : ArgParser σ} (h : Tidy p) {said : List Phrase} {es : List (σ → Option σ)}
    (hm : List.Forall₂ (PhraseMeans p) said es) (last : Option Str) :
    p.parse (spoken said last) =
      if countOk p.positional (bareCount said last) = true then
        ofRequest (obeyAll (es ++ lastEffect p.positional last) p.defaults)
      else .refused := by
  unfold ArgParser.parse
  rw [classify_spoken h hm]
  simp only
  rw [consume_said h hm last _ (Or.inl rfl)]
  simp

theorem obeyAll_perm {es es' : List (σ → Option σ)} (hp : es ~ es')
    (hc : ∀ f ∈ es, ∀ g ∈ es, ∀ s, (f s).bind g = (g s).bind f) (rest : List (σ → Option σ)) (s : σ) :
    obeyAll (es ++ rest) s = obeyAll (es' ++ rest) s := by
  induction hp generalizing s with
  | nil => rfl
  | cons f _ ih =>
    simp only [List.cons_append, obeyAll]
    cases f s with
    | none => rfl
    | some s' => exact ih (fun f hf g hg => hc f (by simp [hf]) g (by simp [hg])) s'
  | swap f g l =>
    simp only [List.cons_append, obeyAll]
    have := hc f (by simp) g (by simp) s
    have e : ∀ (a b : σ → Option σ) (k : σ → Option σ), ((a s).bind fun s => (b s).bind k) =
        ((a s).bind b).bind k := fun a b k => (Option.bind_assoc _ _ _).symm
    show (g s).bind (fun s => (f s).bind (obeyAll (l ++ rest))) =
      (f s).bind (fun s => (g s).bind (obeyAll (l ++ rest)))
    rw [e, e, this]
  | trans h1 h2 ih1 ih2 =>
    rw [ih1 hc]
    exact ih2 (fun f hf g hg => hc f (h1.mem_iff.2 hf) g (h1.mem_iff.2 hg)) s

/-- Things that have nothing to do with each other may be said in any order. -/
theorem C120_any_order {p : ArgParser σ} (h : Tidy p) {said said' : List Phrase} {es : List (σ → Option σ)}
    (hp : said' ~ said) (hm : List.Forall₂ (PhraseMeans p) said es)
    (hc : ∀ f ∈ es, ∀ g ∈ es, ∀ s, (f s).bind g = (g s).bind f) (last : Option Str) :
    p.parse (spoken said' last) = p.parse (spoken said last) := by
  obtain ⟨es', hm', hp'⟩ := List.perm_comp_forall₂ hp hm
  rw [C120_read h hm, C120_read h hm', obeyAll_perm hp'.symm hc]
  have : bareCount said' last = bareCount said last := by
    unfold bareCount
    rw [(hp.filter _).length_eq]
  rw [this]

/-! ## The parsers -/

/-- What can be checked of the names. -/
def tidyNames (names : List Str) : Bool :=
  names.all (fun n => decide (n.head? = some '-') && decide (2 ≤ n.length) && decide ('=' ∉ n)
    && decide (n ≠ ['-', '-']) && (match n[1]? with | some c => !c.isDigit | none => true))
  && decide names.Nodup

theorem tidy_of_names {p : ArgParser σ} (names : List Str) (hn : p.options.map (·.1) = names)
    (h : tidyNames names = true) : Tidy p := by
  unfold tidyNames at h
  rw [Bool.and_eq_true, List.all_eq_true, decide_eq_true_eq] at h
  have hall : ∀ o ∈ p.options, _ := fun o ho => h.1 o.1 (hn ▸ List.mem_map_of_mem ho)
  simp only [Bool.and_eq_true, decide_eq_true_eq] at hall
  refine ⟨fun o ho => (hall o ho).1.1.1.1, fun o ho => (hall o ho).1.1.1.2, fun o ho => (hall o ho).1.1.2,
    fun o ho => (hall o ho).1.2, fun o ho c hc => ?_, hn ▸ h.2⟩
  have := (hall o ho).2
  rw [Option.mem_def.1 hc] at this
  simpa using this

theorem tidy_build (root : Str) : Tidy (buildParser root) :=
  tidy_of_names ((buildParser []).options.map (·.1)) rfl (by decide +kernel)
theorem tidy_test (root : Str) : Tidy (testParser root) :=
  tidy_of_names ((testParser []).options.map (·.1)) rfl (by decide +kernel)
theorem tidy_dog (root : Str) : Tidy (dogParser root) :=
  tidy_of_names ((dogParser []).options.map (·.1)) rfl (by decide +kernel)
theorem tidy_ci : Tidy ciParser :=
  tidy_of_names (ciParser.options.map (·.1)) rfl (by decide +kernel)
theorem tidy_gtest (root : Str) : Tidy (gtestParser root) :=
  tidy_of_names ((gtestParser []).options.map (·.1)) rfl (by decide +kernel)
theorem tidy_bundle (root : Str) : Tidy (bundleParser root) :=
  tidy_of_names ((bundleParser []).options.map (·.1)) rfl (by decide +kernel)
theorem tidy_clang : Tidy clangParser :=
  tidy_of_names (clangParser.options.map (·.1)) rfl (by decide +kernel)
theorem tidy_rule : Tidy ruleParser :=
  tidy_of_names (ruleParser.options.map (·.1)) rfl (by decide +kernel)
theorem tidy_reporter : Tidy reporterParser :=
  tidy_of_names (reporterParser.options.map (·.1)) rfl (by decide +kernel)

/-! ## Numbers -/

theorem pyDigits_digits (ds : Str) (h : ∀ c ∈ ds, c.isDigit = true) (hn : ds ≠ []) :
    ∀ n b, pyDigits n b ds = some (ds.foldl (fun n c => n * 10 + (c.toNat - 48)) n) := by
  induction ds with
  | nil => exact absurd rfl hn
  | cons c cs ih =>
    intro n b
    rw [pyDigits, if_pos (h c List.mem_cons_self), List.foldl_cons, Nat.mul_comm]
    cases cs with
    | nil => rfl
    | cons d ds => exact ih (fun c hc => h c (by simp [hc])) (by simp) _ _

theorem pyDigits_decimal (n : Nat) : pyDigits 0 false (decimal n) = some n := by
  rw [pyDigits_digits _ (decimal_all_digits n) (decimal_ne_nil n), foldl_decimal]
  simp

theorem dropWhile_id {f : Char → Bool} {s : Str} (h : ∀ c ∈ s, f c = false) : s.dropWhile f = s := by
  cases s with
  | nil => rfl
  | cons c cs => simp [h c List.mem_cons_self]

theorem pyStrip_id {s : Str} (h : ∀ c ∈ s, isPyBlank c = false) : pyStrip s = s := by
  unfold pyStrip
  rw [dropWhile_id h, dropWhile_id (fun c hc => h c (by simpa using hc)), List.reverse_reverse]

theorem digit_not_blank {c : Char} (h : c.isDigit = true) : isPyBlank c = false := by
  have h1 : 48 ≤ c.toNat := by
    have := h
    simp only [Char.isDigit, Bool.and_eq_true, decide_eq_true_eq] at this
    exact this.1
  unfold isPyBlank
  have h2 : c ≠ ' ' := by rintro rfl; cases h
  simp only [h2, decide_false, Bool.false_or, Bool.or_eq_false_iff, decide_eq_false_iff_not]
  omega

/-- `int` reads what `str` writes. -/
theorem pyInt_decimalInt (z : Int) : pyInt (decimalInt z) = some z := by
  have hb : ∀ c ∈ decimalInt z, isPyBlank c = false := by
    intro c hc
    by_cases hd : c.isDigit = true
    · exact digit_not_blank hd
    · by_cases hm : c = '-'
      · subst hm; rfl
      · exact absurd hc (not_mem_decimalInt z c (by simpa using hd) hm)
  unfold pyInt
  rw [pyStrip_id hb]
  by_cases hz : z < 0
  · rw [decimalInt, if_pos hz]
    show (pyDigits 0 false (decimal z.natAbs)).map (fun n : Nat => -(n : Int)) = some z
    rw [pyDigits_decimal]
    show some (-(z.natAbs : Int)) = some z
    congr 1
    omega
  · rw [decimalInt, if_neg hz]
    have hd := decimal_all_digits z.natAbs
    split
    · rename_i he; have := hd '-' (by rw [he]; simp); cases this
    · rename_i he; have := hd '+' (by rw [he]; simp); cases this
    · rw [pyDigits_decimal, Option.map_some]
      congr 1
      show (z.natAbs : Int) = z
      omega

theorem plain_decimalInt (z : Int) : Plain (decimalInt z) := by
  unfold decimalInt
  split
  · exact Or.inr ⟨_, rfl⟩
  · refine Or.inl fun h => ?_
    have := decimal_all_digits z.natAbs '-' (List.mem_of_mem_head? h)
    cases this

/-! ## Everything that can be asked for can be said -/

theorem means_flag {p : ArgParser σ} {n : Str} {f : σ → σ} (h : p.find n = some (.flag f)) :
    PhraseMeans p (.flag n) fun s => some (f s) := .flag (mem_of_find h)

theorem means_joined {p : ArgParser σ} {n : Str} {f : Str → σ → Option σ} (v : Str)
    (h : p.find n = some (.value f)) : PhraseMeans p (.joined n v) (f v) := .joined (mem_of_find h)

theorem means_apart {p : ArgParser σ} {n : Str} {f : Str → σ → Option σ} {v : Str}
    (h : p.find n = some (.value f)) (hv : Plain v) : PhraseMeans p (.apart n v) (f v) :=
  .apart (mem_of_find h) hv

theorem obeyAll_total (fs : List (σ → σ)) (rest : List (σ → Option σ)) (s : σ) :
    obeyAll (fs.map (fun f s => some (f s)) ++ rest) s = obeyAll rest (fs.foldl (fun s f => f s) s) := by
  induction fs generalizing s with
  | nil => rfl
  | cons f fs ih => exact ih (f s)

/-- Phrases that are never refused, in any order. -/
theorem said_total {p : ArgParser σ} (h : Tidy p) {said said' : List Phrase} {fs : List (σ → σ)}
    (hp : said' ~ said) (hm : List.Forall₂ (fun a f => PhraseMeans p a fun s => some (f s)) said fs)
    (hc : ∀ f ∈ fs, ∀ g ∈ fs, ∀ s, f (g s) = g (f s)) (last : Option Str)
    (hk : countOk p.positional (bareCount said last) = true) :
    p.parse (spoken said' last) =
      ofRequest (obeyAll (lastEffect p.positional last) (fs.foldl (fun s f => f s) p.defaults)) := by
  have hm' : List.Forall₂ (PhraseMeans p) said (fs.map fun f s => some (f s)) := by
    rw [List.forall₂_map_right_iff]; exact hm
  rw [C120_any_order h hp hm', C120_read h hm', if_pos hk, obeyAll_total]
  intro f hf g hg s
  rw [List.mem_map] at hf hg
  obtain ⟨f, hf, rfl⟩ := hf
  obtain ⟨g, hg, rfl⟩ := hg
  simp only [Option.bind_some, hc f hf g hg]

/-- A flag, if it is wanted. -/
def sayFlag (name : Str) (b : Bool) : List Phrase := if b then [.flag name] else []

/-- What it does. -/
def flagEffect (f : σ → σ) (b : Bool) : List (σ → σ) := if b then [f] else []

theorem means_sayFlag {p : ArgParser σ} {n : Str} {f : σ → σ} (b : Bool) (h : p.find n = some (.flag f)) :
    List.Forall₂ (fun a f => PhraseMeans p a fun s => some (f s)) (sayFlag n b) (flagEffect f b) := by
  cases b
  · exact .nil
  · exact .cons (means_flag h) .nil

theorem mem_flagEffect {f g : σ → σ} {b : Bool} : g ∈ flagEffect f b ↔ b = true ∧ g = f := by
  cases b <;> simp [flagEffect]

theorem foldl_flagEffect (f : σ → σ) (b : Bool) (s : σ) :
    (flagEffect f b).foldl (fun s f => f s) s = if b then f s else s := by
  cases b <;> rfl

theorem means_text {p : ArgParser σ} {n : Str} {f : Str → σ → σ} (v : Str)
    (h : p.find n = some (.value fun w s => some (f w s))) :
    List.Forall₂ (fun a f => PhraseMeans p a fun s => some (f s)) [.joined n v] [f v] :=
  .cons (means_joined v h) .nil

theorem means_int {p : ArgParser σ} {n : Str} {f : Int → σ → σ} (j : Int)
    (h : p.find n = some (.value fun w s => (pyInt w).map fun i => f i s)) :
    List.Forall₂ (fun a f => PhraseMeans p a fun s => some (f s)) [.joined n (decimalInt j)] [f j] := by
  refine .cons ?_ .nil
  have := means_joined (decimalInt j) h
  simpa only [pyInt_decimalInt, Option.map_some] using this

theorem moduleChoice_name (m : OclintModule) : moduleChoice m.name = some (some m) := by
  cases m <;> decide +kernel

theorem bareCount_flag (n : Str) (b : Bool) (l : List Phrase) (last : Option Str) :
    bareCount (sayFlag n b ++ l) last = bareCount l last := by
  cases b <;> rfl

theorem both_append {α β : Type} {R : α → β → Prop} {l1 l3 : List α} {l2 l4 : List β}
    (h1 : List.Forall₂ R l1 l2) (h2 : List.Forall₂ R l3 l4) : List.Forall₂ R (l1 ++ l3) (l2 ++ l4) :=
  List.rel_append h1 h2

theorem obey_module (set : Option OclintModule → σ → σ) (m : Option OclintModule) (s : σ) (hs : m = none → set none s = s) :
    obeyAll (lastEffect (some (modulePositional set)) (m.map (·.name))) s = some (set m s) := by
  cases m with
  | none => rw [hs rfl]; rfl
  | some m =>
    show ((moduleChoice m.name).map fun m => set m s).bind some = _
    rw [moduleChoice_name]
    rfl

/-- Ways to ask `build` for something. -/
def sayBuild (a : BuildArgs) : List Phrase :=
  sayFlag "-docgen".toList a.docgen ++ (sayFlag "-release".toList a.release ++ (sayFlag
    "-clean".toList a.clean ++ (sayFlag "-no-ninja".toList a.noNinja ++ (sayFlag
    "--use-llvm-clang".toList a.useLlvmClang ++ ([.joined "-j".toList (decimalInt a.j)] ++ ([.joined
    "-llvm-root".toList a.llvmRoot]))))))

/-- Everything `build` can do can be asked for, in any order. -/
theorem C120_build (root : Str) (a : BuildArgs) (said : List Phrase) (h : said ~ sayBuild a) :
    (buildParser root).parse (spoken said (a.moduleName.map (·.name))) = .parsed a := by
  have h1 := means_sayFlag (p := (buildParser root)) (n := "-docgen".toList) a.docgen rfl
  have h2 := means_sayFlag (p := (buildParser root)) (n := "-release".toList) a.release rfl
  have h3 := means_sayFlag (p := (buildParser root)) (n := "-clean".toList) a.clean rfl
  have h4 := means_sayFlag (p := (buildParser root)) (n := "-no-ninja".toList) a.noNinja rfl
  have h5 := means_sayFlag (p := (buildParser root)) (n := "--use-llvm-clang".toList) a.useLlvmClang rfl
  have h6 := means_int (p := (buildParser root)) (n := "-j".toList) a.j rfl
  have h7 := means_text (p := (buildParser root)) (n := "-llvm-root".toList) a.llvmRoot rfl
  have hm := both_append h1 (both_append h2 (both_append h3 (both_append h4 (both_append h5 (both_append h6
    (h7))))))
  unfold sayBuild at h
  have := said_total (tidy_build root) h hm ?_ (a.moduleName.map (·.name)) ?_
  · rw [this]
    simp only [List.foldl_append, foldl_flagEffect, List.foldl_cons, List.foldl_nil]
    have := obey_module (σ := BuildArgs) (fun m s => { s with moduleName := m }) a.moduleName
    refine Eq.trans (congrArg ofRequest (this _ fun hn => ?_)) ?_
    · obtain ⟨m, d, r, c, j, l, n, u⟩ := a; cases d <;> cases r <;> cases c <;> cases n <;> cases u <;> rfl
    · obtain ⟨m, d, r, c, j, l, n, u⟩ := a; cases d <;> cases r <;> cases c <;> cases n <;> cases u <;> rfl
  · simp only [List.mem_append, mem_flagEffect, List.mem_singleton]
    rintro f (⟨_, rfl⟩ | ⟨_, rfl⟩ | ⟨_, rfl⟩ | ⟨_, rfl⟩ | ⟨_, rfl⟩ | rfl | rfl) g
      (⟨_, rfl⟩ | ⟨_, rfl⟩ | ⟨_, rfl⟩ | ⟨_, rfl⟩ | ⟨_, rfl⟩ | rfl | rfl) s <;> rfl
  · simp only [bareCount_flag]
    cases a.moduleName <;> rfl

/-- Ways to ask `test` for something. -/
def sayTest (a : TestArgs) : List Phrase :=
  sayFlag "-show".toList a.showResults ++ (sayFlag "-clean".toList a.clean ++ (sayFlag
    "-as-dep".toList a.asDep ++ (sayFlag "-no-ninja".toList a.noNinja ++ (sayFlag
    "--use-llvm-clang".toList a.useLlvmClang ++ ([.joined "-j".toList (decimalInt a.j)] ++ ([.joined
    "-llvm-root".toList a.llvmRoot]))))))

/-- Everything `test` can do can be asked for, in any order. -/
theorem C120_test (root : Str) (a : TestArgs) (said : List Phrase) (h : said ~ sayTest a) :
    (testParser root).parse (spoken said (a.moduleName.map (·.name))) = .parsed a := by
  have h1 := means_sayFlag (p := (testParser root)) (n := "-show".toList) a.showResults rfl
  have h2 := means_sayFlag (p := (testParser root)) (n := "-clean".toList) a.clean rfl
  have h3 := means_sayFlag (p := (testParser root)) (n := "-as-dep".toList) a.asDep rfl
  have h4 := means_sayFlag (p := (testParser root)) (n := "-no-ninja".toList) a.noNinja rfl
  have h5 := means_sayFlag (p := (testParser root)) (n := "--use-llvm-clang".toList) a.useLlvmClang rfl
  have h6 := means_int (p := (testParser root)) (n := "-j".toList) a.j rfl
  have h7 := means_text (p := (testParser root)) (n := "-llvm-root".toList) a.llvmRoot rfl
  have hm := both_append h1 (both_append h2 (both_append h3 (both_append h4 (both_append h5 (both_append h6
    (h7))))))
  unfold sayTest at h
  have := said_total (tidy_test root) h hm ?_ (a.moduleName.map (·.name)) ?_
  · rw [this]
    simp only [List.foldl_append, foldl_flagEffect, List.foldl_cons, List.foldl_nil]
    have := obey_module (σ := TestArgs) (fun m s => { s with moduleName := m }) a.moduleName
    refine Eq.trans (congrArg ofRequest (this _ fun hn => ?_)) ?_
    · obtain ⟨m, d, r, j, c, l, n, u⟩ := a; cases d <;> cases r <;> cases c <;> cases n <;> cases u <;> rfl
    · obtain ⟨m, d, r, j, c, l, n, u⟩ := a; cases d <;> cases r <;> cases c <;> cases n <;> cases u <;> rfl
  · simp only [List.mem_append, mem_flagEffect, List.mem_singleton]
    rintro f (⟨_, rfl⟩ | ⟨_, rfl⟩ | ⟨_, rfl⟩ | ⟨_, rfl⟩ | ⟨_, rfl⟩ | rfl | rfl) g
      (⟨_, rfl⟩ | ⟨_, rfl⟩ | ⟨_, rfl⟩ | ⟨_, rfl⟩ | ⟨_, rfl⟩ | rfl | rfl) s <;> rfl
  · simp only [bareCount_flag]
    cases a.moduleName <;> rfl

/-- Ways to ask `dogFooding` for something. -/
def sayDog (a : DogArgs) : List Phrase :=
  sayFlag "-enable-clang-static-analyzer".toList a.staticAnalyzer ++ (sayFlag "-show".toList
    a.showResults ++ (sayFlag "--use-llvm-clang".toList a.useLlvmClang ++ ([.joined "-llvm-root".toList
    a.llvmRoot])))

/-- Everything `dogFooding` can do can be asked for, in any order. -/
theorem C120_dog (root : Str) (a : DogArgs) (said : List Phrase) (h : said ~ sayDog a) :
    (dogParser root).parse (spoken said (a.moduleName.map (·.name))) = .parsed a := by
  have h1 := means_sayFlag (p := (dogParser root)) (n := "-enable-clang-static-analyzer".toList) a.staticAnalyzer rfl
  have h2 := means_sayFlag (p := (dogParser root)) (n := "-show".toList) a.showResults rfl
  have h3 := means_sayFlag (p := (dogParser root)) (n := "--use-llvm-clang".toList) a.useLlvmClang rfl
  have h4 := means_text (p := (dogParser root)) (n := "-llvm-root".toList) a.llvmRoot rfl
  have hm := both_append h1 (both_append h2 (both_append h3 (h4)))
  unfold sayDog at h
  have := said_total (tidy_dog root) h hm ?_ (a.moduleName.map (·.name)) ?_
  · rw [this]
    simp only [List.foldl_append, foldl_flagEffect, List.foldl_cons, List.foldl_nil]
    have := obey_module (σ := DogArgs) (fun m s => { s with moduleName := m }) a.moduleName
    refine Eq.trans (congrArg ofRequest (this _ fun hn => ?_)) ?_
    · obtain ⟨m, d, r, l, u⟩ := a; cases d <;> cases r <;> cases u <;> rfl
    · obtain ⟨m, d, r, l, u⟩ := a; cases d <;> cases r <;> cases u <;> rfl
  · simp only [List.mem_append, mem_flagEffect, List.mem_singleton]
    rintro f (⟨_, rfl⟩ | ⟨_, rfl⟩ | ⟨_, rfl⟩ | rfl) g
      (⟨_, rfl⟩ | ⟨_, rfl⟩ | ⟨_, rfl⟩ | rfl) s <;> rfl
  · simp only [bareCount_flag]
    cases a.moduleName <;> rfl

/-- Ways to ask `ci` for something. -/
def sayCi (a : CiArgs) : List Phrase :=
  sayFlag "-reset".toList a.reset ++ (sayFlag "-setup".toList a.setup ++ (sayFlag "-release".toList
    a.release ++ (sayFlag "-archive".toList a.archive ++ ([.joined "-j".toList (decimalInt a.j)]))))

/-- Everything `ci` can do can be asked for, in any order. -/
theorem C120_ci (a : CiArgs) (said : List Phrase) (h : said ~ sayCi a) :
    ciParser.parse (spoken said none) = .parsed a := by
  have h1 := means_sayFlag (p := ciParser) (n := "-reset".toList) a.reset rfl
  have h2 := means_sayFlag (p := ciParser) (n := "-setup".toList) a.setup rfl
  have h3 := means_sayFlag (p := ciParser) (n := "-release".toList) a.release rfl
  have h4 := means_sayFlag (p := ciParser) (n := "-archive".toList) a.archive rfl
  have h5 := means_int (p := ciParser) (n := "-j".toList) a.j rfl
  have hm := both_append h1 (both_append h2 (both_append h3 (both_append h4 (h5))))
  unfold sayCi at h
  have := said_total (tidy_ci) h hm ?_ none ?_
  · rw [this]
    simp only [List.foldl_append, foldl_flagEffect, List.foldl_cons, List.foldl_nil]
    obtain ⟨d, r, c, u, j⟩ := a
    cases d <;> cases r <;> cases c <;> cases u <;> rfl
  · simp only [List.mem_append, mem_flagEffect, List.mem_singleton]
    rintro f (⟨_, rfl⟩ | ⟨_, rfl⟩ | ⟨_, rfl⟩ | ⟨_, rfl⟩ | rfl) g
      (⟨_, rfl⟩ | ⟨_, rfl⟩ | ⟨_, rfl⟩ | ⟨_, rfl⟩ | rfl) s <;> rfl
  · simp only [bareCount_flag]
    rfl

/-- The names of the tasks. -/
def taskName : GtestTask → Str
  | .checkout => "checkout".toList
  | .update => "update".toList
  | .build => "build".toList

/-- Ways to ask `googleTest` for something. -/
def sayGtest (a : GtestArgs) : List Phrase :=
  sayFlag "-clean".toList a.clean ++ (sayFlag "--use-llvm-clang".toList a.useLlvmClang ++ ([.joined
    "-j".toList (decimalInt a.j)] ++ ([.joined "-llvm-root".toList a.llvmRoot])))

/-- Everything `googleTest` can do can be asked for, in any order. -/
theorem C120_gtest (root : Str) (a : GtestArgs) (said : List Phrase) (h : said ~ sayGtest a) :
    (gtestParser root).parse (spoken said (some (taskName a.task))) = .parsed a := by
  have h1 := means_sayFlag (p := (gtestParser root)) (n := "-clean".toList) a.clean rfl
  have h2 := means_sayFlag (p := (gtestParser root)) (n := "--use-llvm-clang".toList) a.useLlvmClang rfl
  have h3 := means_int (p := (gtestParser root)) (n := "-j".toList) a.j rfl
  have h4 := means_text (p := (gtestParser root)) (n := "-llvm-root".toList) a.llvmRoot rfl
  have hm := both_append h1 (both_append h2 (both_append h3 (h4)))
  unfold sayGtest at h
  have := said_total (tidy_gtest root) h hm ?_ (some (taskName a.task)) ?_
  · rw [this]
    simp only [List.foldl_append, foldl_flagEffect, List.foldl_cons, List.foldl_nil]
    obtain ⟨t, c, j, l, u⟩ := a
    cases t <;> cases c <;> cases u <;> rfl
  · simp only [List.mem_append, mem_flagEffect, List.mem_singleton]
    rintro f (⟨_, rfl⟩ | ⟨_, rfl⟩ | rfl | rfl) g
      (⟨_, rfl⟩ | ⟨_, rfl⟩ | rfl | rfl) s <;> rfl
  · simp only [bareCount_flag]
    rfl

/-- Ways to ask `bundle` for something. -/
def sayBundle (a : BundleWords) : List Phrase :=
  sayFlag "-archive".toList a.archive ++ (sayFlag "-docgen".toList a.docgen ++ (sayFlag
    "-release".toList a.release ++ ([.joined "-llvm-root".toList a.llvmRoot])))

/-- Everything `bundle` can do can be asked for, in any order. -/
theorem C120_bundle (root : Str) (a : BundleWords) (said : List Phrase) (h : said ~ sayBundle a) :
    (bundleParser root).parse (spoken said none) = .parsed a := by
  have h1 := means_sayFlag (p := (bundleParser root)) (n := "-archive".toList) a.archive rfl
  have h2 := means_sayFlag (p := (bundleParser root)) (n := "-docgen".toList) a.docgen rfl
  have h3 := means_sayFlag (p := (bundleParser root)) (n := "-release".toList) a.release rfl
  have h4 := means_text (p := (bundleParser root)) (n := "-llvm-root".toList) a.llvmRoot rfl
  have hm := both_append h1 (both_append h2 (both_append h3 (h4)))
  unfold sayBundle at h
  have := said_total (tidy_bundle root) h hm ?_ none ?_
  · rw [this]
    simp only [List.foldl_append, foldl_flagEffect, List.foldl_cons, List.foldl_nil]
    obtain ⟨d, c, u, l⟩ := a
    cases d <;> cases c <;> cases u <;> rfl
  · simp only [List.mem_append, mem_flagEffect, List.mem_singleton]
    rintro f (⟨_, rfl⟩ | ⟨_, rfl⟩ | ⟨_, rfl⟩ | rfl) g
      (⟨_, rfl⟩ | ⟨_, rfl⟩ | ⟨_, rfl⟩ | rfl) s <;> rfl
  · simp only [bareCount_flag]
    rfl

/-- Ways to ask `clang` for something. -/
def sayClang (a : ClangWords) : List Phrase :=
  sayFlag "-clean".toList a.clean ++ sayFlag "-skip-convert".toList a.skipConvert

/-- Everything `clang` can do can be asked for, in any order. -/
theorem C120_clang (a : ClangWords) (said : List Phrase) (h : said ~ sayClang a) :
    clangParser.parse (spoken said none) = .parsed a := by
  have h1 := means_sayFlag (p := clangParser) (n := "-clean".toList) a.clean rfl
  have h2 := means_sayFlag (p := clangParser) (n := "-skip-convert".toList) a.skipConvert rfl
  have hm := both_append h1 h2
  unfold sayClang at h
  have := said_total tidy_clang h hm ?_ none ?_
  · rw [this]
    simp only [List.foldl_append, foldl_flagEffect]
    obtain ⟨c, k⟩ := a
    cases c <;> cases k <;> rfl
  · simp only [List.mem_append, mem_flagEffect]
    rintro f (⟨_, rfl⟩ | ⟨_, rfl⟩) g (⟨_, rfl⟩ | ⟨_, rfl⟩) s <;> rfl
  · obtain ⟨c, k⟩ := a
    cases c <;> cases k <;> rfl

/-- Ways to say what a rule should be. -/
def sayRule (r : RuleRequest) : List Phrase :=
  [.joined "--type".toList r.type.text, .joined "--category".toList r.category,
    .joined "--name".toList r.name, .joined "--priority".toList r.priority.text,
    .flag (if r.tests then "--test".toList else "--no-test".toList)]

theorem typeChoice_text (t : TemplateKind) : typeChoice t.text = some t := by
  cases t <;> decide +kernel

theorem priorityChoice_text (n : PriorityChoice) : priorityChoice n.text = some n := by
  cases n <;> decide +kernel

/-- Every rule can be asked for, in any order: whatever its name, its category and its class. -/
theorem C120_rule (r : RuleRequest) (said : List Phrase) (h : said ~ sayRule r) :
    ruleParser.parse (spoken said (some r.className)) = .parsed r := by
  have h1 := means_joined (p := ruleParser) (n := "--type".toList) r.type.text rfl
  have h2 := means_joined (p := ruleParser) (n := "--category".toList) r.category rfl
  have h3 := means_joined (p := ruleParser) (n := "--name".toList) r.name rfl
  have h4 := means_joined (p := ruleParser) (n := "--priority".toList) r.priority.text rfl
  have h5 : PhraseMeans ruleParser (.flag (if r.tests then "--test".toList else "--no-test".toList))
      fun s => some { s with tests := r.tests } := by
    cases r.tests
    · exact means_flag (p := ruleParser) (n := "--no-test".toList) rfl
    · exact means_flag (p := ruleParser) (n := "--test".toList) rfl
  simp only [typeChoice_text, Option.map_some] at h1
  simp only [priorityChoice_text, Option.map_some] at h4
  have hm : List.Forall₂ (fun a f => PhraseMeans ruleParser a fun s => some (f s)) (sayRule r)
      [fun s => { s with type := r.type }, fun s => { s with category := r.category },
        fun s => { s with name := r.name }, fun s => { s with priority := r.priority },
        fun s => { s with tests := r.tests }] :=
    .cons h1 (.cons h2 (.cons h3 (.cons h4 (.cons h5 .nil))))
  have := said_total tidy_rule h hm ?_ (some r.className) rfl
  · rw [this]; rfl
  · simp only [List.mem_cons, List.not_mem_nil, or_false]
    rintro f (rfl | rfl | rfl | rfl | rfl) g (rfl | rfl | rfl | rfl | rfl) s <;> rfl

/-- Ways to say what a reporter should be. -/
def sayReporter (r : ReporterRequest) : List Phrase :=
  [.joined "--name".toList r.name, .flag (if r.tests then "--tests".toList else "--no-tests".toList)]

/-- Every reporter can be asked for, in any order. -/
theorem C120_reporter (r : ReporterRequest) (said : List Phrase) (h : said ~ sayReporter r) :
    reporterParser.parse (spoken said (some r.className)) = .parsed r := by
  have h3 := means_joined (p := reporterParser) (n := "--name".toList) r.name rfl
  have h5 : PhraseMeans reporterParser (.flag (if r.tests then "--tests".toList else "--no-tests".toList))
      fun s => some { s with tests := r.tests } := by
    cases r.tests
    · exact means_flag (p := reporterParser) (n := "--no-tests".toList) rfl
    · exact means_flag (p := reporterParser) (n := "--tests".toList) rfl
  have hm : List.Forall₂ (fun a f => PhraseMeans reporterParser a fun s => some (f s)) (sayReporter r)
      [fun s => { s with name := r.name }, fun s => { s with tests := r.tests }] := .cons h3 (.cons h5 .nil)
  have := said_total tidy_reporter h hm ?_ (some r.className) rfl
  · rw [this]; rfl
  · simp only [List.mem_cons, List.not_mem_nil, or_false]
    rintro f (rfl | rfl) g (rfl | rfl) s <;> rfl

theorem ne_dashes_of_plain {w : Str} (h : Plain w) : w ≠ ['-', '-'] := by
  rintro rfl
  rcases h with h | ⟨n, h⟩
  · exact h rfl
  · have := decimal_all_digits n '-' (by rw [← (List.cons.inj h).2]; simp)
    cases this

/-- What is asked for when no option is given. -/
theorem C120_defaults (root cls : Str) (h : Plain cls) :
    (buildParser root).parse [] = .parsed
      { moduleName := none, docgen := false, release := false, clean := false, j := 0,
        llvmRoot := clangInstallDir root, noNinja := false, useLlvmClang := false } ∧
    (testParser root).parse [] = .parsed
      { moduleName := none, showResults := false, clean := false, j := 0, asDep := false,
        llvmRoot := clangInstallDir root, noNinja := false, useLlvmClang := false } ∧
    (dogParser root).parse [] = .parsed
      { moduleName := none, staticAnalyzer := false, showResults := false, llvmRoot := clangInstallDir root,
        useLlvmClang := false } ∧
    ciParser.parse [] = .parsed
      { reset := false, setup := false, release := false, archive := false, j := 0 } ∧
    (∀ t, (gtestParser root).parse [taskName t] = .parsed
      { task := t, clean := false, j := 0, llvmRoot := clangInstallDir root, useLlvmClang := false }) ∧
    (bundleParser root).parse [] = .parsed
      { archive := false, docgen := false, release := false, llvmRoot := clangInstallDir root } ∧
    clangParser.parse [] = .parsed { clean := false, skipConvert := false } ∧
    ruleParser.parse [cls] = .parsed
      { className := cls, type := .Generic, category := "custom".toList, name := [], priority := .three,
        tests := true } ∧
    reporterParser.parse [cls] = .parsed { className := cls, name := [], tests := true } := by
  refine ⟨rfl, rfl, rfl, rfl, fun t => by cases t <;> rfl, rfl, rfl, ?_, ?_⟩
  · unfold ArgParser.parse
    rw [classify_cons _ (ne_dashes_of_plain h) (parse_plain tidy_rule h)]
    rfl
  · unfold ArgParser.parse
    rw [classify_cons _ (ne_dashes_of_plain h) (parse_plain tidy_reporter h)]
    rfl

/-! ## Scripts that start other scripts -/

theorem takeOptions_flag (p : ArgParser σ) {n : Str} {f : σ → σ} (ts : List (ArgToken σ)) (st : ParseState σ) :
    consume p (.option ⟨.flag f, n, [], none⟩ :: ts) st = consume p ts (st.change f) := by
  rw [consume.eq_def]
  rfl

/-- A flag before everything else that is said, if nothing takes it back. -/
theorem C120_flag_first {p : ArgParser σ} (h : Tidy p) {n : Str} {f : σ → σ}
    (hm : (n, OptAction.flag f) ∈ p.options) (hf : LeavesAlone p f) (ws : List Str) :
    p.parse (n :: ws) = onRequest f (p.parse ws) := by
  unfold ArgParser.parse
  rw [classify_cons ws (h.notDashes _ hm) (parse_name h hm)]
  cases hc : classify p ws with
  | none => rfl
  | some ts =>
    simp only [Option.map_some]
    rw [takeOptions_flag]
    exact consume_apart hf ts (classify_tokens hc).1 _ fun q hq => hq

/-- The flags of `ci` leave each other alone. -/
theorem ci_apart {f : CiArgs → CiArgs} (hf : f = (fun s => { s with reset := true }) ∨
    f = (fun s => { s with setup := true }) ∨ f = fun s => { s with release := true }) :
    LeavesAlone ciParser f := by
  have hmem : ∀ o ∈ ciParser.options, o.2 = .help ∨ o.2 = .flag (fun s => { s with reset := true }) ∨
      o.2 = .flag (fun s => { s with setup := true }) ∨ o.2 = .flag (fun s => { s with release := true }) ∨
      o.2 = .flag (fun s => { s with archive := true }) ∨
      o.2 = .value (fun w s => (pyInt w).map fun i => { s with j := i }) := by
    intro o ho
    simp only [ciParser, helpOptions, storeFlag, storeInt, optionStrings, List.map_cons, List.map_nil,
      List.cons_append, List.nil_append, List.mem_cons, List.not_mem_nil, or_false] at ho
    rcases ho with rfl | rfl | rfl | rfl | rfl | rfl | rfl | rfl | rfl | rfl | rfl <;> simp
  refine ⟨fun {n g} hm s => ?_, fun {n g} hm w s => ?_, nofun⟩
  · have := hmem _ hm
    simp only [reduceCtorEq, OptAction.flag.injEq, false_or, or_false] at this
    rcases this with rfl | rfl | rfl | rfl <;> rcases hf with rfl | rfl | rfl <;> rfl
  · have := hmem _ hm
    simp only [reduceCtorEq, OptAction.value.injEq, false_or] at this
    subst this
    rcases hf with rfl | rfl | rfl <;> simp only [Option.map_map] <;> rfl

/-- `make` (`make:3-4`): whatever words it is given, `ci` is asked for them and to clear everything, and
then for them and to set up and build a release. -/
theorem C120_make (ws : List Str) :
    ciParser.parse ("-reset".toList :: ws)
      = onRequest (fun x => { x with reset := true }) (ciParser.parse ws) ∧
    ciParser.parse ("-setup".toList :: "-release".toList :: ws)
      = onRequest (fun x => { x with setup := true, release := true }) (ciParser.parse ws) := by
  constructor
  · exact C120_flag_first tidy_ci (mem_of_find rfl) (ci_apart (.inl rfl)) ws
  · rw [C120_flag_first tidy_ci (mem_of_find rfl) (ci_apart (.inr (.inl rfl))),
      C120_flag_first tidy_ci (mem_of_find rfl) (ci_apart (.inr (.inr rfl)))]
    cases ciParser.parse ws <;> rfl

/-- `docGen:3-6`, `gh-actions:7` and `14-15`: the words that are always the same. -/
theorem C120_calls (root : Str) (m : OclintModule) :
    (buildParser root).parse [m.name, "-docgen".toList, "-no-ninja".toList] = .parsed
      { moduleName := some m, docgen := true, noNinja := true, llvmRoot := clangInstallDir root } ∧
    (buildParser root).parse ["-no-ninja".toList] = .parsed
      { noNinja := true, llvmRoot := clangInstallDir root } ∧
    (gtestParser root).parse ["co".toList] = .parsed
      { task := .checkout, llvmRoot := clangInstallDir root } ∧
    (gtestParser root).parse ["build".toList] = .parsed
      { task := .build, llvmRoot := clangInstallDir root } ∧
    (bundleParser root).parse ["-docgen".toList] = .parsed
      { docgen := true, llvmRoot := clangInstallDir root } ∧
    (bundleParser root).parse ["-archive".toList] = .parsed
      { archive := true, llvmRoot := clangInstallDir root } := by
  refine ⟨?_, rfl, rfl, rfl, rfl, rfl⟩
  cases m <;> rfl

/-- `gh-actions:21` and `23`: the name of a part that is tested, whatever word it is. -/
theorem C120_gh (root : Str) (asDep : Bool) (w : Str) (h : Plain w) :
    (testParser root).parse (w :: ((if asDep then ["-as-dep".toList] else []) ++ ["-no-ninja".toList])) =
      ofRequest ((moduleChoice w).map fun o =>
        { moduleName := o, asDep := asDep, noNinja := true, llvmRoot := clangInstallDir root }) := by
  have hm : List.Forall₂ (PhraseMeans (testParser root)) (.bare w :: (sayFlag "-as-dep".toList asDep ++
        sayFlag "-no-ninja".toList true))
      ((fun s => (moduleChoice w).map fun m => { s with moduleName := m }) ::
        ((flagEffect (fun s : TestArgs => { s with asDep := true }) asDep ++
          flagEffect (fun s : TestArgs => { s with noNinja := true }) true).map fun f s => some (f s))) := by
    refine .cons (PhraseMeans.bare (p := testParser root)
      (q := modulePositional fun m s => { s with moduleName := m }) rfl h) ?_
    rw [List.forall₂_map_right_iff]
    exact both_append (means_sayFlag _ rfl) (means_sayFlag _ rfl)
  have key := C120_read (tidy_test root) hm none
  have hs : spoken (.bare w :: (sayFlag "-as-dep".toList asDep ++ sayFlag "-no-ninja".toList true)) none =
      w :: ((if asDep then ["-as-dep".toList] else []) ++ ["-no-ninja".toList]) := by
    cases asDep <;> rfl
  rw [hs] at key
  rw [key, if_pos (by cases asDep <;> rfl)]
  simp only [obeyAll, lastEffect, List.cons_append]
  cases moduleChoice w with
  | none => rfl
  | some o => cases asDep <;> rfl

/-- Words that do not begin with a dash, one after the other. -/
theorem means_bare {p : ArgParser σ} {q : Positional σ} (hq : p.positional = some q) {ws : List Str}
    (h : ∀ w ∈ ws, Plain w) : List.Forall₂ (PhraseMeans p) (ws.map .bare) (ws.map q.set) := by
  induction ws with
  | nil => exact .nil
  | cons w ws ih => exact .cons (.bare hq (h w (by simp))) (ih fun v hv => h v (by simp [hv]))

theorem bareCount_bare (ws : List Str) (said : List Phrase) :
    bareCount (ws.map .bare ++ said) none = ws.length + bareCount said none := by
  unfold bareCount
  induction ws with
  | nil => simp
  | cons w ws ih =>
    rw [List.map_cons, List.cons_append, List.filter_cons_of_pos rfl, List.length_cons, List.length_cons]
    simp only [Option.isSome_none, Bool.false_eq_true, if_false, Nat.add_zero] at ih ⊢
    rw [ih]
    omega

theorem words_bare (ws : List Str) : (ws.map Phrase.bare).flatMap Phrase.words = ws := by
  induction ws with
  | nil => rfl
  | cons w ws ih => simp only [List.map_cons, List.flatMap_cons, Phrase.words, List.singleton_append, ih]

/-- The shell leaves what is before a value without blanks in the first word. -/
theorem shellFields_prefix {w : Str} (hw : w ≠ []) (h : ∀ c ∈ w, isShellBlank c = false) (s : Str) :
    ∃ a rest, shellFields (w ++ s) = (w ++ a) :: rest := by
  have hs := (List.takeWhile_append_dropWhile (p := fun c => !isShellBlank c) (l := s))
  have ha : ∀ c ∈ s.takeWhile fun c => !isShellBlank c, isShellBlank c = false := fun c hc => by
    have := List.all_takeWhile (p := fun c => !isShellBlank c) (l := s)
    simpa using List.all_eq_true.1 this c hc
  have hwa : ∀ c ∈ w ++ s.takeWhile fun c => !isShellBlank c, isShellBlank c = false := fun c hc => by
    rcases List.mem_append.1 hc with hc | hc
    · exact h c hc
    · exact ha c hc
  cases hd : s.dropWhile fun c => !isShellBlank c with
  | nil =>
    rw [hd, List.append_nil] at hs
    rw [hs] at hwa
    exact ⟨s, [], shellFields_word (by simp [hw]) hwa⟩
  | cons b r =>
    have hb : isShellBlank b = true := by
      have := List.head_dropWhile_not (fun c => !isShellBlank c) (l := s) (by rw [hd]; simp)
      simpa [hd] using this
    rw [hd] at hs
    refine ⟨s.takeWhile fun c => !isShellBlank c, shellFields r, ?_⟩
    refine (congrArg shellFields (congrArg (w ++ ·) hs.symm)).trans ?_
    show shellFields (w ++ (_ ++ b :: r)) = _
    rw [← List.append_assoc, shellFields_cons hwa hb, if_neg (by simp [hw])]
    rfl

/-- A path that the shell has split into words, if they cannot be mistaken for options. -/
theorem system_words (root a : Str) (rest : List Str) (h : ∀ w ∈ rest, Plain w) :
    (buildParser root).parse (("-llvm-root=".toList ++ a) :: rest ++ ["-release".toList, "-clean".toList])
      = ofRequest (systemBuildArgs (("-llvm-root=".toList ++ a) :: rest)) := by
  have hm : List.Forall₂ (PhraseMeans (buildParser root))
      (.joined "-llvm-root".toList a :: (rest.map .bare ++ [.flag "-release".toList, .flag "-clean".toList]))
      ((fun s => some { s with llvmRoot := a }) ::
        (rest.map (fun w s => (moduleChoice w).map fun m => { s with moduleName := m }) ++
          [fun s => some { s with release := true }, fun s => some { s with clean := true }])) := by
    refine .cons (means_joined (f := fun w (s : BuildArgs) => some { s with llvmRoot := w }) a rfl) ?_
    refine both_append (means_bare (p := buildParser root)
      (q := modulePositional fun m s => { s with moduleName := m }) rfl h) (.cons (means_flag rfl) (.cons (means_flag rfl) .nil))
  have key := C120_read (tidy_build root) hm none
  have hs : spoken (.joined "-llvm-root".toList a ::
        (rest.map .bare ++ [.flag "-release".toList, .flag "-clean".toList])) none =
      ("-llvm-root=".toList ++ a) :: rest ++ ["-release".toList, "-clean".toList] := by
    unfold spoken
    rw [List.flatMap_cons, List.flatMap_append, words_bare]
    simp [Phrase.words]
  rw [hs] at key
  rw [key]
  have hc : bareCount (.joined "-llvm-root".toList a ::
      (rest.map .bare ++ [.flag "-release".toList, .flag "-clean".toList])) none = rest.length := by
    have := bareCount_bare rest [.flag "-release".toList, .flag "-clean".toList]
    exact this
  rw [hc]
  match rest with
  | [] => rfl
  | [m] =>
    rw [if_pos (by simp [countOk, buildParser])]
    simp only [obeyAll, lastEffect, List.map_cons, List.map_nil, List.cons_append, List.nil_append,
      Option.bind_some, systemBuildArgs]
    cases moduleChoice m <;> rfl
  | _ :: _ :: _ => rw [if_neg (by simp [countOk, buildParser, modulePositional])]; rfl

/-- `makeWithSystemLLVM:20`: what `build` makes of a path that the shell splits into words, if they cannot
be mistaken for options. -/
theorem C120_system (root path : Str)
    (h : ∀ w ∈ (shellFields ("-llvm-root=".toList ++ path)).tail, Plain w) :
    (buildParser root).parse (shellFields ("-llvm-root=".toList ++ path) ++ ["-release".toList, "-clean".toList])
      = ofRequest (systemBuildArgs (shellFields ("-llvm-root=".toList ++ path))) := by
  obtain ⟨a, rest, hf⟩ := shellFields_prefix (w := "-llvm-root=".toList) (by decide +kernel)
    (by decide +kernel) path
  rw [hf] at h ⊢
  exact system_words root a rest h

/-- How many jobs there are: as many as asked for, or as there are processors. -/
def jobs (sh : Shell) (j : Int) : Int := if j = 0 then sh.cpuCount else j

theorem jFlag_jobs (sh : Shell) (j : Int) : jFlag sh j = " -j ".toList ++ decimalInt (jobs sh j) := by
  rw [jFlag_eq]
  unfold jobs
  by_cases h : j = 0
  · rw [if_pos h, if_pos h]
    unfold decimalInt
    rw [if_neg (by omega)]
    simp
  · rw [if_neg h, if_neg h]

theorem decimalInt_word (z : Int) : decimalInt z ≠ [] ∧ ∀ c ∈ decimalInt z, isShellBlank c = false := by
  have hd : ∀ n, ∀ c ∈ decimal n, isShellBlank c = false := fun n c hc => by
    have := decimal_all_digits n c hc
    by_contra hb
    rcases (isShellBlank_iff c).1 (by simpa using hb) with rfl | rfl | rfl <;> exact absurd this (by decide)
  unfold decimalInt
  split
  · refine ⟨by simp, fun c hc => ?_⟩
    rcases List.mem_cons.1 hc with rfl | hc
    · rfl
    · exact hd _ c hc
  · exact ⟨decimal_ne_nil _, hd _⟩

theorem shellFields_jFlag (sh : Shell) (j : Int) :
    shellFields (jFlag sh j) = ["-j".toList, decimalInt (jobs sh j)] := by
  obtain ⟨h1, h2⟩ := decimalInt_word (jobs sh j)
  rw [jFlag_jobs]
  have e : " -j ".toList ++ decimalInt (jobs sh j) =
      [] ++ ' ' :: ("-j".toList ++ ' ' :: decimalInt (jobs sh j)) := rfl
  rw [e, shellFields_cons (by simp) rfl, shellFields_cons (by decide +kernel) rfl, shellFields_word h1 h2]
  rfl

/-- Words before the number of jobs. -/
theorem shellFields_jobs {w : Str} (sh : Shell) (j : Int) (hw : w ≠ []) (h : ∀ c ∈ w, isShellBlank c = false) :
    shellFields (w ++ jFlag sh j) = [w, "-j".toList, decimalInt (jobs sh j)] := by
  have e : jFlag sh j = ' ' :: ("-j ".toList ++ decimalInt (jobs sh j)) := jFlag_jobs sh j
  have e' := shellFields_jFlag sh j
  rw [e] at e' ⊢
  have := shellFields_cons (w := []) (b := ' ') (s := "-j ".toList ++ decimalInt (jobs sh j)) (by simp) rfl
  rw [List.nil_append] at this
  rw [this] at e'
  rw [shellFields_cons h rfl, if_neg hw]
  simpa using e'

/-- `ci:38-47`: the texts with which `ci` starts `googleTest`, `build` and `test` are read as meant, with as
many jobs as there should be. -/
theorem C120_ci_calls (sh : Shell) (root : Str) (j : Int) :
    (∃ ws, shellFields ("googleTest build -clean".toList ++ jFlag sh j) = "googleTest".toList :: ws ∧
      (gtestParser root).parse ws = .parsed
        { task := .build, clean := true, j := jobs sh j, llvmRoot := clangInstallDir root }) ∧
    (∃ ws, shellFields ("build -clean -release".toList ++ jFlag sh j) = "build".toList :: ws ∧
      (buildParser root).parse ws = .parsed
        { clean := true, release := true, j := jobs sh j, llvmRoot := clangInstallDir root }) ∧
    (∃ ws, shellFields ("test -clean".toList ++ jFlag sh j) = "test".toList :: ws ∧
      (testParser root).parse ws = .parsed
        { clean := true, j := jobs sh j, llvmRoot := clangInstallDir root }) ∧
    (∃ ws, shellFields ("build -clean".toList ++ jFlag sh j) = "build".toList :: ws ∧
      (buildParser root).parse ws = .parsed
        { clean := true, j := jobs sh j, llvmRoot := clangInstallDir root }) := by
  have hj := pyInt_decimalInt (jobs sh j)
  have hp := plain_decimalInt (jobs sh j)
  refine ⟨⟨["build".toList, "-clean".toList, "-j".toList, decimalInt (jobs sh j)], ?_, ?_⟩,
    ⟨["-clean".toList, "-release".toList, "-j".toList, decimalInt (jobs sh j)], ?_, ?_⟩,
    ⟨["-clean".toList, "-j".toList, decimalInt (jobs sh j)], ?_, ?_⟩,
    ⟨["-clean".toList, "-j".toList, decimalInt (jobs sh j)], ?_, ?_⟩⟩
  · have e : "googleTest build -clean".toList ++ jFlag sh j =
        "googleTest".toList ++ ' ' :: ("build".toList ++ ' ' :: ("-clean".toList ++ jFlag sh j)) := rfl
    rw [e, shellFields_cons (by decide +kernel) rfl, shellFields_cons (by decide +kernel) rfl,
      shellFields_jobs sh j (by decide +kernel) (by decide +kernel)]
    rfl
  · refine Eq.trans (C120_read (tidy_gtest root) (said := [.bare "build".toList, .flag "-clean".toList,
      .apart "-j".toList (decimalInt (jobs sh j))]) (.cons (.bare rfl (.inl (by decide +kernel)))
        (.cons (means_flag rfl) (.cons (means_apart rfl hp) .nil))) none) ?_
    refine (if_pos rfl).trans ?_
    simp only [obeyAll, List.cons_append, List.nil_append, lastEffect, hj]
    rfl
  · have e : "build -clean -release".toList ++ jFlag sh j =
        "build".toList ++ ' ' :: ("-clean".toList ++ ' ' :: ("-release".toList ++ jFlag sh j)) := rfl
    rw [e, shellFields_cons (by decide +kernel) rfl, shellFields_cons (by decide +kernel) rfl,
      shellFields_jobs sh j (by decide +kernel) (by decide +kernel)]
    rfl
  · refine Eq.trans (C120_read (tidy_build root) (said := [.flag "-clean".toList, .flag "-release".toList,
      .apart "-j".toList (decimalInt (jobs sh j))]) (.cons (means_flag rfl)
        (.cons (means_flag rfl) (.cons (means_apart rfl hp) .nil))) none) ?_
    refine (if_pos rfl).trans ?_
    simp only [obeyAll, List.cons_append, List.nil_append, lastEffect, hj]
    rfl
  · have e : "test -clean".toList ++ jFlag sh j =
        "test".toList ++ ' ' :: ("-clean".toList ++ jFlag sh j) := rfl
    rw [e, shellFields_cons (by decide +kernel) rfl,
      shellFields_jobs sh j (by decide +kernel) (by decide +kernel)]
    rfl
  · refine Eq.trans (C120_read (tidy_test root) (said := [.flag "-clean".toList,
      .apart "-j".toList (decimalInt (jobs sh j))]) (.cons (means_flag rfl)
        (.cons (means_apart rfl hp) .nil)) none) ?_
    refine (if_pos rfl).trans ?_
    simp only [obeyAll, List.cons_append, List.nil_append, lastEffect, hj]
    rfl
  · have e : "build -clean".toList ++ jFlag sh j =
        "build".toList ++ ' ' :: ("-clean".toList ++ jFlag sh j) := rfl
    rw [e, shellFields_cons (by decide +kernel) rfl,
      shellFields_jobs sh j (by decide +kernel) (by decide +kernel)]
    rfl
  · refine Eq.trans (C120_read (tidy_build root) (said := [.flag "-clean".toList,
      .apart "-j".toList (decimalInt (jobs sh j))]) (.cons (means_flag rfl)
        (.cons (means_apart rfl hp) .nil)) none) ?_
    refine (if_pos rfl).trans ?_
    simp only [obeyAll, List.cons_append, List.nil_append, lastEffect, hj]
    rfl

/-! ## Words that are no options -/

theorem takeWhile_prefix' (f : Char → Bool) (w : Str) : w.takeWhile f <+: w :=
  ⟨_, List.takeWhile_append_dropWhile⟩

theorem looksNegative_no {c : Char} {r : Str} (h : c.isDigit = false) (hd : c ≠ '.') :
    looksNegative ('-' :: c :: r) = false := by
  have key : ∀ r : Str, (r = [] ∨ r.head? = some c) →
      (decide (r ≠ []) && r.all Char.isDigit || (decide ('.' ∈ r) &&
        (r.takeWhile fun c => decide (c ≠ '.')).all Char.isDigit &&
        (decide ((r.dropWhile fun c => decide (c ≠ '.')).tail ≠ []) &&
          (r.dropWhile fun c => decide (c ≠ '.')).tail.all Char.isDigit))) = false := by
    intro r hr
    rcases hr with rfl | hr
    · rfl
    · cases r with
      | nil => rfl
      | cons x r =>
        obtain rfl : x = c := by simpa using hr
        simp [h, hd]
  unfold looksNegative
  simp only
  apply key
  split
  · cases r with
    | nil => left; rfl
    | cons d r => right; rfl
  · right; rfl

theorem parse_unknown {p : ArgParser σ} {w : Str} (h : NoOption p w) : parseOptional p w = some .unknown := by
  obtain ⟨hd, hm, hdd, hb, hn, hname, hl⟩ := h
  cases w with
  | nil => cases hd
  | cons x r =>
    obtain rfl : x = '-' := by simpa using hd
    cases r with
    | nil => simp at hm
    | cons c r =>
      have hpre : ∀ o ∈ p.options, ¬ ('-' :: c :: r) <+: o.1 := fun o ho hp =>
        hname o ho ((takeWhile_prefix' _ _).trans hp)
      have hf : p.find ('-' :: c :: r) = none := find_none fun o ho he => hpre o ho (he ▸ List.prefix_refl _)
      have hq : ((partitionEq ('-' :: c :: r)).bind fun q =>
          (p.find q.1).map fun a => (⟨a, q.1, ['='], some q.2⟩ : FoundOption σ)) = none := by
        unfold partitionEq
        split
        · rw [Option.bind_some, find_none fun o ho he => hname o ho (he ▸ List.prefix_refl _)]
          rfl
        · rfl
      have hlong : longMatches p ('-' :: c :: r) = [] := by
        unfold longMatches partitionEq
        split
        · rename_i heq
          split at heq
          · simp only [Option.some.injEq, Prod.mk.injEq] at heq
            obtain ⟨rfl, rfl⟩ := heq
            rw [List.map_eq_nil_iff, List.filter_eq_nil_iff]
            intro o ho hc
            exact hname o ho (List.isPrefixOf_iff_prefix.1 hc)
          · cases heq
        · rw [List.map_eq_nil_iff, List.filter_eq_nil_iff]
          intro o ho hc
          exact hpre o ho (List.isPrefixOf_iff_prefix.1 hc)
      have hshort : shortMatches p ('-' :: c :: r) = [] := by
        unfold shortMatches
        rw [List.filterMap_eq_nil_iff]
        intro o ho
        rw [if_neg (hl o ho), if_neg fun hc => hpre o ho (List.isPrefixOf_iff_prefix.1 hc)]
      have hno := hn c rfl
      unfold parseOptional
      simp only [hf, hq, hlong, hshort, ite_self, looksNegative_no hno.1 hno.2, if_neg hb,
        Bool.false_eq_true, if_false, reduceCtorEq]

/-- A word that looks like an option and is none, nor the beginning of one, nor begins with an option of one
letter, is never taken for granted, unless it comes after `--`: the script does nothing.  What is missing:
words that begin with an option of one letter, for which see `C120_glued`. -/
theorem C120_unknown_partial {p : ArgParser σ} {w : Str} (h : NoOption p w) (pre post : List Str)
    (hp : ['-', '-'] ∉ pre) (s : σ) : p.parse (pre ++ w :: post) ≠ .parsed s := by
  intro hc
  unfold ArgParser.parse at hc
  cases ht : classify p (pre ++ w :: post) with
  | none => rw [ht] at hc; cases hc
  | some ts =>
    rw [ht] at hc
    exact (consume_extras p ts _ s hc).2 (classify_unknown hp h.notDashes (parse_unknown h) ht)

theorem parse_glued_rule (c : Char) (v : Str) (hc : c ≠ '=') :
    parseOptional ruleParser ('-' :: 'n' :: c :: v) =
      some (.option ⟨.value fun w s => some { s with name := w }, "-n".toList, [], some (c :: v)⟩) := by
  have hn : ∀ w : Str, ruleParser.find ('-' :: 'n' :: c :: w) = none := fun w => rfl
  have hq : ((partitionEq ('-' :: 'n' :: c :: v)).bind fun q => (ruleParser.find q.1).map fun a =>
      (⟨a, q.1, ['='], some q.2⟩ : FoundOption RuleRequest)) = none := by
    unfold partitionEq
    split
    · simp [hn, hc]
    · rfl
  unfold parseOptional
  simp only [hn, hq, reduceCtorEq, if_false]
  rfl

theorem parse_glued_reporter (c : Char) (v : Str) (hc : c ≠ '=') :
    parseOptional reporterParser ('-' :: 'n' :: c :: v) =
      some (.option ⟨.value fun w s => some { s with name := w }, "-n".toList, [], some (c :: v)⟩) := by
  have hn : ∀ w : Str, reporterParser.find ('-' :: 'n' :: c :: w) = none := fun w => rfl
  have hq : ((partitionEq ('-' :: 'n' :: c :: v)).bind fun q => (reporterParser.find q.1).map fun a =>
      (⟨a, q.1, ['='], some q.2⟩ : FoundOption ReporterRequest)) = none := by
    unfold partitionEq
    split
    · simp [hn, hc]
    · rfl
  unfold parseOptional
  simp only [hn, hq, reduceCtorEq, if_false]
  rfl

/-- Any word that begins with `-n` is a name for the rule or reporter: whatever follows is it. -/
theorem C120_glued (cls : Str) (h : Plain cls) (c : Char) (v : Str) (hc : c ≠ '=') :
    ruleParser.parse [cls, '-' :: 'n' :: c :: v] = .parsed { className := cls, name := c :: v } ∧
    reporterParser.parse [cls, '-' :: 'n' :: c :: v] = .parsed { className := cls, name := c :: v } := by
  constructor
  · unfold ArgParser.parse
    rw [classify_cons _ (ne_dashes_of_plain h) (parse_plain tidy_rule h),
      classify_cons _ (by simp) (parse_glued_rule c v hc)]
    rfl
  · unfold ArgParser.parse
    rw [classify_cons _ (ne_dashes_of_plain h) (parse_plain tidy_reporter h),
      classify_cons _ (by simp) (parse_glued_reporter c v hc)]
    rfl

/-- So a word with a dash that is no option, nor the beginning of one, is not always refused: `-no-test`
with one dash, as the other scripts allow for all such options, makes a rule with tests and the name
`o-test`. -/
theorem C120_unknown_fails :
    ∃ w : Str, w.head? = some '-' ∧ (∀ o ∈ ruleParser.options, ¬ w <+: o.1) ∧
      ruleParser.parse ["Foo".toList, w] =
        .parsed { className := "Foo".toList, name := "o-test".toList, tests := true } := by
  refine ⟨"-no-test".toList, rfl, ?_, rfl⟩
  have : ruleParser.options.all (fun o => !("-no-test".toList).isPrefixOf o.1) = true := rfl
  intro o ho hc
  have := List.all_eq_true.1 this o ho
  rw [List.isPrefixOf_iff_prefix.2 hc] at this
  cases this

/-! ## The name of a class -/

/-- A rule is only made for a class that was named on the command line. -/
theorem C120_rule_class (ws : List Str) (r : RuleRequest) (h : ruleParser.parse ws = .parsed r) :
    r.className ∈ ws := by
  have hopt : ∀ o ∈ ruleParser.options,
      (∀ f, o.2 = .flag f → ∀ s, (f s).className = s.className) ∧
      (∀ f, o.2 = .value f → ∀ w s s', f w s = some s' → s'.className = s.className) := by
    intro o ho
    simp only [ruleParser, helpOptions, storeFlag, storeText, optionStrings, List.map_cons, List.map_nil,
      List.cons_append, List.nil_append, List.mem_cons, List.not_mem_nil, or_false] at ho
    rcases ho with rfl | rfl | rfl | rfl | rfl | rfl | rfl | rfl | rfl | rfl | rfl | rfl <;>
      refine ⟨?_, ?_⟩ <;> intro f hf <;> cases hf <;> intros <;>
      simp_all only [Option.map_eq_some_iff, Option.some.injEq] <;>
      first | rfl | (rename_i hh; obtain ⟨_, _, rfl⟩ := hh; rfl)
  unfold ArgParser.parse at h
  cases ht : classify ruleParser ws with
  | none => rw [ht] at h; cases h
  | some ts =>
    rw [ht] at h
    obtain ⟨ho, ha⟩ := classify_tokens ht
    have hk : Keeps ruleParser (fun st => st.waiting = ruleParser.positional ∨
        st.waiting = none ∧ st.space.className ∈ ws) (· ∈ ws) := by
      refine ⟨?_, ?_, ?_, ?_, ?_⟩
      · intro n f st hm hi
        exact hi.imp id fun hi => ⟨hi.1, by rw [(hopt _ hm).1 f rfl]; exact hi.2⟩
      · intro n f w s' st hm hi he
        exact hi.imp id fun hi => ⟨hi.1, by rw [(hopt _ hm).2 f rfl _ _ _ he]; exact hi.2⟩
      · intro st hi; exact hi
      · intro q w s' st hq hw hi he
        right
        rcases hi with hi | hi
        · rw [hi] at hq
          simp only [ruleParser, Option.some.injEq] at hq
          subst hq
          simp only [Option.some.injEq] at he
          subst he
          exact ⟨rfl, hw⟩
        · rw [hi.1] at hq; cases hq
      · intro q st hq hr hi
        rcases hi with hi | hi
        · rw [hi] at hq
          simp only [ruleParser, Option.some.injEq] at hq
          subst hq
          cases hr
        · rw [hi.1] at hq; cases hq
    obtain ⟨st', hi, rfl, hr⟩ := consume_keeps hk ts ho ha _ (.inl rfl) h
    rcases hi with hi | hi
    · rw [hi] at hr; cases hr
    · exact hi.2

/-- A reporter is only made for a class that was named on the command line. -/
theorem C120_reporter_class (ws : List Str) (r : ReporterRequest) (h : reporterParser.parse ws = .parsed r) :
    r.className ∈ ws := by
  have hopt : ∀ o ∈ reporterParser.options,
      (∀ f, o.2 = .flag f → ∀ s, (f s).className = s.className) ∧
      (∀ f, o.2 = .value f → ∀ w s s', f w s = some s' → s'.className = s.className) := by
    intro o ho
    simp only [reporterParser, helpOptions, storeFlag, storeText, optionStrings, List.map_cons, List.map_nil,
      List.cons_append, List.nil_append, List.mem_cons, List.not_mem_nil, or_false] at ho
    rcases ho with rfl | rfl | rfl | rfl | rfl | rfl <;>
      refine ⟨?_, ?_⟩ <;> intro f hf <;> cases hf <;> intros <;>
      simp_all only [Option.some.injEq] <;>
      first | rfl | (subst_vars; rfl)
  unfold ArgParser.parse at h
  cases ht : classify reporterParser ws with
  | none => rw [ht] at h; cases h
  | some ts =>
    rw [ht] at h
    obtain ⟨ho, ha⟩ := classify_tokens ht
    have hk : Keeps reporterParser (fun st => st.waiting = reporterParser.positional ∨
        st.waiting = none ∧ st.space.className ∈ ws) (· ∈ ws) := by
      refine ⟨?_, ?_, ?_, ?_, ?_⟩
      · intro n f st hm hi
        exact hi.imp id fun hi => ⟨hi.1, by rw [(hopt _ hm).1 f rfl]; exact hi.2⟩
      · intro n f w s' st hm hi he
        exact hi.imp id fun hi => ⟨hi.1, by rw [(hopt _ hm).2 f rfl _ _ _ he]; exact hi.2⟩
      · intro st hi; exact hi
      · intro q w s' st hq hw hi he
        right
        rcases hi with hi | hi
        · rw [hi] at hq
          simp only [reporterParser, Option.some.injEq] at hq
          subst hq
          simp only [Option.some.injEq] at he
          subst he
          exact ⟨rfl, hw⟩
        · rw [hi.1] at hq; cases hq
      · intro q st hq hr hi
        rcases hi with hi | hi
        · rw [hi] at hq
          simp only [reporterParser, Option.some.injEq] at hq
          subst hq
          cases hr
        · rw [hi.1] at hq; cases hq
    obtain ⟨st', hi, rfl, hr⟩ := consume_keeps hk ts ho ha _ (.inl rfl) h
    rcases hi with hi | hi
    · rw [hi] at hr; cases hr
    · exact hi.2

/-! ## Concrete command lines -/

/-- Names may be cut short where that is clear, and a number may follow its option at once. -/
example : (buildParser "/o".toList).parse ["--cl".toList, "-j4".toList, "rules".toList] =
    .parsed { moduleName := some .rules, clean := true, j := 4, llvmRoot := clangInstallDir "/o".toList } := rfl

/-- A name that is cut too short, a part that there is not, two parts, a number that is none. -/
example : ((buildParser "/o".toList).parse ["--no".toList] = .refused) ∧
    ((buildParser "/o".toList).parse ["clang".toList] = .refused) ∧
    ((buildParser "/o".toList).parse ["core".toList, "rules".toList] = .refused) ∧
    ((buildParser "/o".toList).parse ["-j".toList, "many".toList] = .refused) := ⟨rfl, rfl, rfl, rfl⟩

/-- The last of two that contradict each other counts. -/
example : (testParser "/o".toList).parse ["--use-llvm-clang".toList, "--no-llvm-clang".toList] =
    .parsed { useLlvmClang := false, llvmRoot := clangInstallDir "/o".toList } := rfl

/-- Help comes first, unless something before it is wrong. -/
example : (ciParser.parse ["-reset".toList, "-h".toList, "-j".toList, "x".toList] = .helped) ∧
    (ciParser.parse ["-j".toList, "x".toList, "-h".toList] = .refused) := ⟨rfl, rfl⟩

/-- The task of `googleTest` and the name of a class cannot be left out. -/
example : ((gtestParser "/o".toList).parse ["-clean".toList] = .refused) ∧
    (ruleParser.parse ["-n".toList, "a rule".toList] = .refused) := ⟨rfl, rfl⟩

/-- `C120_unknown_partial` is about words like these. -/
example : NoOption (buildParser []) "--shared".toList ∧ NoOption ruleParser "-x=1".toList := by
  refine ⟨⟨rfl, by decide +kernel, by decide +kernel, by decide +kernel, by decide +kernel, ?_, ?_⟩,
    ⟨rfl, by decide +kernel, by decide +kernel, by decide +kernel, by decide +kernel, ?_, ?_⟩⟩
  · have : (buildParser []).options.all (fun o => !("--shared".toList).isPrefixOf o.1) = true := rfl
    intro o ho hc
    have := List.all_eq_true.1 this o ho
    rw [List.isPrefixOf_iff_prefix.2 (by exact hc)] at this
    cases this
  · have : (buildParser []).options.all (fun o => decide (o.1 ≠ "--".toList)) = true := rfl
    intro o ho
    have := List.all_eq_true.1 this o ho
    exact of_decide_eq_true this
  · have : ruleParser.options.all (fun o => !("-x".toList).isPrefixOf o.1) = true := rfl
    intro o ho hc
    have := List.all_eq_true.1 this o ho
    rw [List.isPrefixOf_iff_prefix.2 (by exact hc)] at this
    cases this
  · have : ruleParser.options.all (fun o => decide (o.1 ≠ "-x".toList)) = true := rfl
    intro o ho
    have := List.all_eq_true.1 this o ho
    exact of_decide_eq_true this

end Oclint
