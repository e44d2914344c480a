import Verif.Model.Version
import Verif.Spec.Version

/-!
# C105: the version that is stated
-/

namespace Oclint
open Spec

theorem ok_pure_inv {α β : Type} {x : Outcome α} {f : α → β} {b : β}
    (h : (x >>= fun a => pure (f a)) = Outcome.ok b) : ∃ a, b = f a := by
  cases x with
  | ok a => exact ⟨a, (Outcome.ok.inj h).symm⟩
  | throws w => cases h
  | ub => cases h

theorem ok_bind_inv {α β : Type} {x : Outcome α} {f : α → Outcome β} {b : β}
    (h : (x >>= f) = Outcome.ok b) : ∃ a, f a = .ok b := by
  cases x with
  | ok a => exact ⟨a, h⟩
  | throws w => cases h
  | ub => cases h

/-- **C105.** Whatever was found, a report of every format but Xcode's states version 24.11. -/
theorem C105_reports_state_partial (info : RuleId → RuleInfo) (clock : Clock) (plug : ReporterPlugin)
    (w : ResultsView) (s : Str) (hx : plug ≠ .xcode) (h : plug.report info clock w = .ok s) :
    StatesVersion "24.11".toList s plug := by
  cases plug with
  | xcode => exact absurd rfl hx
  | html =>
    change htmlReport info clock.text w = .ok s at h
    unfold htmlReport at h
    obtain ⟨a, h⟩ := ok_bind_inv h
    obtain ⟨b, h⟩ := ok_pure_inv h
    unfold htmlFooter endl at h
    have e : "'>OCLint v".toList ++ "24.11".toList ++ "</a>.</p></body></html>\n".toList =
        "'>".toList ++ ("OCLint v".toList ++ (versionText ++ ("</a>.</p>".toList ++
          ("</body>".toList ++ ("</html>".toList ++ ['\n']))))) := by decide +kernel
    unfold StatesVersion
    rw [e, h]
    generalize htmlHead = hd
    generalize htmlDetailsHead = dh
    simp only [List.append_assoc]
    repeat first | exact List.suffix_rfl | apply List.IsSuffix.trans _ (List.suffix_append _ _)
  | json =>
    change jsonReport info clock.now w = .ok s at h
    unfold jsonReport at h
    obtain ⟨a, h⟩ := ok_pure_inv h
    have e : ['{'] ++ jsonKeyString "version".toList versionText false =
        "{\"version\":\"".toList ++ "24.11".toList ++ "\",".toList := by decide +kernel
    unfold StatesVersion
    rw [← e, h]
    unfold jsonHeader
    simp only [List.append_assoc]
    exact ⟨_, List.append_assoc _ _ _⟩
  | pmd =>
    change pmdReport info w = .ok s at h
    unfold pmdReport at h
    obtain ⟨a, h⟩ := ok_bind_inv h
    obtain ⟨b, h⟩ := ok_bind_inv h
    obtain ⟨c, h⟩ := ok_bind_inv h
    obtain ⟨d, h⟩ := ok_pure_inv h
    have e : pmdHeader versionText = "<?xml version=\"1.0\" encoding=\"UTF-8\"?>\n<pmd version=\"oclint-".toList
        ++ "24.11".toList ++ "\">".toList := by decide +kernel
    unfold StatesVersion
    rw [← e, h]
    simp only [List.append_assoc]
    exact List.prefix_append _ _
  | text =>
    change textReport info w = .ok s at h
    unfold textReport at h
    obtain ⟨a, h⟩ := ok_bind_inv h
    obtain ⟨b, h⟩ := ok_pure_inv h
    have e : "\n[OCLint (https://oclint.org) v".toList ++ "24.11".toList ++ "]\n".toList =
        endl ++ (textFooter versionText ++ endl) := by decide +kernel
    unfold StatesVersion
    rw [e, h]
    simp only [List.append_assoc]
    generalize endl ++ (textFooter versionText ++ endl) = last
    repeat first | exact List.suffix_rfl | apply List.IsSuffix.trans _ (List.suffix_append _ _)
  | xml =>
    change xmlReport info clock.utc w = .ok s at h
    unfold xmlReport at h
    obtain ⟨a, h⟩ := ok_bind_inv h
    obtain ⟨b, h⟩ := ok_pure_inv h
    have e : xmlHeader versionText = ("<?xml version=\"1.0\" encoding=\"UTF-8\" ?><oclint version=\"".toList
        ++ "24.11".toList ++ "\" ".toList) ++ "url=\"https://oclint.org\">".toList := by decide +kernel
    unfold StatesVersion
    rw [h, e]
    simp only [List.append_assoc]
    exact ⟨_, by simp only [List.append_assoc]; rfl⟩

theorem takeWhile_stop (p : Char → Bool) (v q : Str) (c : Char) (hv : ∀ x ∈ v, p x = true)
    (hc : p c = false) : (v ++ c :: q).takeWhile p = v := by
  induction v with
  | nil => rw [List.nil_append, List.takeWhile_cons_of_neg (by simp [hc])]
  | cons x v ih =>
    rw [List.cons_append, List.takeWhile_cons_of_pos (hv x (by simp)), ih (fun y hy => hv y (by simp [hy]))]

/-- Characters of versions, decided. -/
def versionChar (c : Char) : Bool := c.isDigit || c = '.'

theorem versionLike_iff (v : Str) : VersionLike v ↔ ∀ c ∈ v, versionChar c = true := by
  simp [VersionLike, versionChar]

theorem prefix_version (p q v v' s : Str) (c : Char) (hc : versionChar c = false)
    (hv : VersionLike v) (hv' : VersionLike v')
    (h : (p ++ v ++ c :: q) <+: s) (h' : (p ++ v' ++ c :: q) <+: s) : v = v' := by
  obtain ⟨t, h⟩ := h
  obtain ⟨t', h'⟩ := h'
  rw [← h'] at h
  simp only [List.append_assoc, List.cons_append] at h
  have := congrArg (List.takeWhile versionChar) (List.append_cancel_left h)
  rwa [takeWhile_stop _ _ _ _ ((versionLike_iff v).mp hv) hc,
    takeWhile_stop _ _ _ _ ((versionLike_iff v').mp hv') hc] at this

theorem suffix_version (p q v v' s : Str) (c : Char) (hc : versionChar c = false)
    (hv : VersionLike v) (hv' : VersionLike v')
    (h : (p ++ c :: v ++ q) <:+ s) (h' : (p ++ c :: v' ++ q) <:+ s) : v = v' := by
  have key : ∀ u : Str, (p ++ c :: u ++ q) <:+ s → (q.reverse ++ u.reverse ++ c :: p.reverse) <+: s.reverse := by
    intro u hu
    have := List.reverse_prefix.mpr hu
    simpa using this
  have rv : ∀ u : Str, VersionLike u → VersionLike u.reverse :=
    fun u hu x hx => hu x (List.mem_reverse.mp hx)
  have := prefix_version _ _ _ _ _ c hc (rv v hv) (rv v' hv') (key v h) (key v' h')
  exact List.reverse_injective this

/-- A report states at most one version. -/
theorem C105_unique (plug : ReporterPlugin) (s v v' : Str) (hv : VersionLike v) (hv' : VersionLike v')
    (h : StatesVersion v s plug) (h' : StatesVersion v' s plug) : v = v' := by
  cases plug with
  | xcode => exact h.elim
  | html =>
    have e : "'>OCLint v".toList = "'>OCLint ".toList ++ ['v'] := by decide
    unfold StatesVersion at h h'
    rw [e] at h h'
    exact suffix_version "'>OCLint ".toList _ v v' s 'v' (by decide) hv hv'
      (by simpa using h) (by simpa using h')
  | json => exact prefix_version _ [','] v v' s '"' (by decide) hv hv' h h'
  | pmd => exact prefix_version _ ['>'] v v' s '"' (by decide) hv hv' h h'
  | text =>
    have e : "\n[OCLint (https://oclint.org) v".toList =
        "\n[OCLint (https://oclint.org) ".toList ++ ['v'] := by decide
    unfold StatesVersion at h h'
    rw [e] at h h'
    exact suffix_version "\n[OCLint (https://oclint.org) ".toList _ v v' s 'v' (by decide) hv hv'
      (by simpa using h) (by simpa using h')
  | xml => exact prefix_version _ [' '] v v' s '"' (by decide) hv hv' h h'

/-- `-version` of both programs states the same version, and when the program was built. -/
theorem C105_version_option (date time : Str) :
    VersionAnswer "OCLint".toList "https://oclint.org".toList "24.11".toList date time
      (oclintVersionPrinter date time) ∧
    VersionAnswer "OCLint DocGen".toList "https://docs.oclint.org/en/stable".toList "24.11".toList date time
      (docgenVersionPrinter date time) := by
  unfold VersionAnswer oclintVersionPrinter docgenVersionPrinter
  have e1 : "OCLint".toList ++ " (".toList ++ "https://oclint.org".toList ++ "):\n  ".toList
      ++ "OCLint".toList ++ " version ".toList ++ "24.11".toList ++ ".\n  Built ".toList =
      "OCLint (".toList ++ homepageText ++ "):\n".toList ++ "  OCLint version ".toList ++ versionText
        ++ ".\n".toList ++ "  Built ".toList := by decide +kernel
  have e2 : "OCLint DocGen".toList ++ " (".toList ++ "https://docs.oclint.org/en/stable".toList
      ++ "):\n  ".toList ++ "OCLint DocGen".toList ++ " version ".toList ++ "24.11".toList
      ++ ".\n  Built ".toList =
      "OCLint DocGen (".toList ++ docpageText ++ "):\n".toList ++ "  OCLint DocGen version ".toList
        ++ versionText ++ ".\n".toList ++ "  Built ".toList := by decide +kernel
  rw [e1, e2]
  exact ⟨rfl, rfl⟩

/-- **C105 is false.** No report, of whatever format and whatever was found, states the version in the
name of the program. -/
theorem C105_release_witness (info : RuleId → RuleInfo) (clock : Clock) (plug : ReporterPlugin)
    (w : ResultsView) (s v : Str) (hv : VersionLike v) (hd : driverExecutable = "oclint-".toList ++ v)
    (h : plug.report info clock w = .ok s) : ¬ StatesVersion v s plug := by
  intro hs
  have hx : plug ≠ .xcode := by rintro rfl; exact hs
  have e : "24.11".toList = v := C105_unique plug s _ _ (by
    rw [versionLike_iff]; decide) hv (C105_reports_state_partial info clock plug w s hx h) hs
  rw [← e] at hd
  exact absurd hd (by decide)

/-- **C105 (bundle).** Both links of a bundle point to the program that was built, and have names of
their own. -/
theorem C105_links (commit : Str) (isRelease : Bool) :
    (∀ l ∈ bundleLinks commit isRelease, l.2 = driverExecutable ∧ l.1 ≠ driverExecutable) ∧
    ((bundleLinks commit isRelease).map (·.1)).Nodup := by
  have hdev : "oclint-".toList ++ oclintDevVersion commit ≠ "oclint-".toList ++ "26.02".toList := by
    intro h
    have := congrArg List.length (List.append_cancel_left h)
    unfold oclintDevVersion oclintVersion at this
    simp only [List.length_append] at this
    have h1 : ".dev.".toList.length = 5 := by decide
    omega
  have hne : "oclint".toList ≠ "oclint-".toList ++ oclintDevVersion commit := by
    intro h
    have := congrArg List.length h
    simp only [List.length_append] at this
    have h1 : "oclint-".toList.length = 7 := by decide
    have h2 : "oclint".toList.length = 6 := by decide
    omega
  constructor
  · intro l hl
    unfold bundleLinks at hl
    rcases List.mem_cons.mp hl with e | hl
    · rw [e]
      exact ⟨by decide, by decide⟩
    · cases isRelease with
      | true => cases hl
      | false =>
        rw [if_neg (by decide)] at hl
        rw [List.mem_singleton.mp hl]
        refine ⟨(by decide : "oclint-".toList ++ oclintVersion = driverExecutable), ?_⟩
        exact hdev
  · unfold bundleLinks
    cases isRelease with
    | true => simp
    | false =>
      rw [if_neg (by decide), List.map_cons, List.map_cons, List.map_nil]
      refine List.nodup_cons.mpr ⟨?_, by simp⟩
      rw [List.mem_singleton]
      exact hne

/-! Concrete cases. -/

example : bundleLinks "1a2b3c4".toList false =
    [("oclint".toList, "oclint-26.02".toList), ("oclint-26.02.dev.1a2b3c4".toList, "oclint-26.02".toList)] := by
  decide +kernel

example : oclintVersionPrinter "Nov 16 2026".toList "12:00:00".toList =
    "OCLint (https://oclint.org):\n  OCLint version 24.11.\n  Built Nov 16 2026 (12:00:00).\n".toList := by
  decide +kernel

end Oclint
