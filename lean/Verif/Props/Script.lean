import Verif.Lemmas.Script
import Verif.Props.SortTable
import Verif.Props.ReportPmd

/-!
# C115: the script in the HTML report
-/

namespace Oclint
open Spec

/-- The text between `<script>` and `</script>` is one function, `sortTable` of one parameter. -/
theorem script_reads : readScript htmlScript = some scriptFunction := by decide +kernel

section
variable (lower : Str → Str) (lt : Str → Str → Bool)

/-- The state when the loop is reached. -/
def startVars (n : Nat) : Vars where
  n := .num n
  table := .table
  rows := .undefined
  switching := .bool true
  i := .undefined
  x := .undefined
  y := .undefined
  shouldSwitch := .undefined
  dir := .str (chars! "asc")
  switchcount := .num 0

/-- The declarations of the script. -/
def declaredVars (n : Nat) : Vars :=
  { startVars n with table := .undefined, switching := .undefined, dir := .undefined }

theorem run_declarations (F n : Nat) (p : Page) :
    runStmt lower lt F
      (.seq (.declare (chars! "table") none) (.seq (.declare (chars! "rows") none)
        (.seq (.declare (chars! "switching") none) (.seq (.declare (chars! "i") none)
        (.seq (.declare (chars! "x") none) (.seq (.declare (chars! "y") none)
        (.seq (.declare (chars! "shouldSwitch") none) (.seq (.declare (chars! "dir") none)
        (.declare (chars! "switchcount") (some (.num 0)))))))))))
      ⟨fun x => if x = chars! "n" then some (.num n) else none, p⟩ = .next ((declaredVars n).at p) := rfl

/-- From the beginning of the function to its loop. -/
theorem run_function (F n : Nat) (p : Page) :
    runStmt lower lt F scriptFunction.body
      ⟨fun x => if x = scriptFunction.parameter then some (.num n) else none, p⟩ =
    (runStmt lower lt F (.whileDo (.var (chars! "switching")) whileBody)
      ({ startVars n with table := if chars! "violations-table" = p.tableId then .table else .null }.at
        p)).andThen (runStmt lower lt F .skip) := by
  unfold scriptFunction
  rw [runStmt]
  refine Eq.trans (congrArg (fun r : JsRun => r.andThen _) (run_declarations lower lt F n p)) ?_
  rw [JsRun.andThen, runStmt, runStmt]
  have e : valueOf lower lt ((declaredVars n).at p) (.call1 (.var (chars! "document"))
      (chars! "getElementById") (.str (chars! "violations-table"))) =
      .ok (if chars! "violations-table" = p.tableId then .table else .null) := by
    rw [valueOf, get_document]; rfl
  rw [e, withValue, set_table, JsRun.andThen, runStmt, runStmt]
  rw [show ∀ s, valueOf lower lt s (.bool true) = .ok (.bool true) from fun _ => rfl]
  rw [withValue, set_switching, JsRun.andThen, runStmt, runStmt]
  rw [show ∀ s, valueOf lower lt s (.str (chars! "asc")) = .ok (.str (chars! "asc")) from fun _ => rfl]
  rw [withValue, set_dir, JsRun.andThen, runStmt]
  rfl

/-- How a call ends. -/
theorem call_ends (n k : Nat) (p : Page) (r : PageRow)
    (hid : p.tableId = chars! "violations-table") (hh : p.head = [r])
    (hnd : (p.rows.map PageRow.id).Nodup) (hk : p.body.length ≤ k) :
    LoopEnds p (runStmt lower lt (k + 1) scriptFunction.body
        ⟨fun x => if x = scriptFunction.parameter then some (.num n) else none, p⟩)
      (sortTable lower lt n k (p.body.map PageRow.cells)) := by
  rw [run_function, if_pos hid.symm, runStmt]
  have h := run_while lower lt (k + 1) (n := n) (h := r) k (startVars n) p .asc 0
    ⟨rfl, rfl, rfl, rfl, .inr rfl⟩ rfl hh hnd (by omega)
  unfold sortTable
  have e : ({ startVars n with table := JsVal.table } : Vars) = startVars n := rfl
  rw [e]
  generalize sortLoop lower lt n k SortDir.asc 0 (List.map PageRow.cells p.body) = o at h ⊢
  generalize rounds _ _ _ _ = run at h ⊢
  cases o with
  | ub => exact h
  | throws e => rw [show run = .failed e from h]; rfl
  | ok o =>
    cases o with
    | none => trivial
    | some rows =>
      obtain ⟨v', body, hr, hb⟩ := h
      exact ⟨v', body, by rw [hr]; rfl, hb⟩

/-- **C115.** The script that is in the page does to the table what `sortTable` of the model does to its
rows: it ends with the same rows, or with the same exception. -/
theorem C115_script_is_model (n k : Nat) (p : Page) (r : PageRow)
    (hid : p.tableId = "violations-table".toList) (hh : p.head = [r])
    (hnd : ((p.head ++ p.body).map PageRow.id).Nodup) (hk : p.body.length ≤ k) :
    ∃ f, readScript htmlScript = some f ∧ f.name = "sortTable".toList ∧
      (∀ rows, sortTable lower lt n k (p.body.map PageRow.cells) = .ok (some rows) →
        ∃ body, callFunction lower lt (k + 1) f n p = .ok (some { p with body := body }) ∧
          body.Perm p.body ∧ body.map PageRow.cells = rows) ∧
      (∀ e, sortTable lower lt n k (p.body.map PageRow.cells) = .throws e →
        callFunction lower lt (k + 1) f n p = .throws e) := by
  refine ⟨scriptFunction, script_reads, rfl, ?_⟩
  have h := call_ends lower lt n k p r hid hh hnd hk
  unfold callFunction
  generalize sortTable lower lt n k (p.body.map PageRow.cells) = o at h ⊢
  generalize runStmt lower lt (k + 1) scriptFunction.body _ = run at h ⊢
  constructor
  · rintro rows rfl
    obtain ⟨v', body, hr, hp, hc⟩ := h
    exact ⟨body, by rw [hr]; rfl, hp, hc⟩
  · rintro e rfl
    rw [show run = .failed e from h]

/-- **C115.** Calling the function of the script with the number of a column that all rows have sorts
the rows of the table by it. -/
theorem C115_click_sorts (h : StrictWeak lt) (n : Nat) (p : Page) (r : PageRow)
    (hid : p.tableId = "violations-table".toList) (hh : p.head = [r])
    (hnd : ((p.head ++ p.body).map PageRow.id).Nodup) (hn : ∀ b ∈ p.body, n < b.cells.length) :
    ∃ f, readScript htmlScript = some f ∧ f.name = "sortTable".toList ∧
      ClickSorts lower lt f n p := by
  refine ⟨scriptFunction, script_reads, rfl, p.body.length * p.body.length + p.body.length + 3, ?_⟩
  intro fuel hf
  obtain ⟨k, rfl⟩ : ∃ k, fuel = k + 1 := ⟨fuel - 1, by omega⟩
  obtain ⟨after, ha, hs1, hs2⟩ := C59_sort_table lower lt h n (p.body.map PageRow.cells)
    (by intro c hc; obtain ⟨b, hb, rfl⟩ := List.mem_map.1 hc; exact hn b hb) k
    (by rw [List.length_map]; omega)
  obtain ⟨f, hf', -, hok, -⟩ := C115_script_is_model lower lt n k p r hid hh hnd (by omega)
  rw [script_reads] at hf'
  cases hf'
  obtain ⟨body, hb, hperm, hc⟩ := hok after ha
  rw [← hc] at hs1 hs2
  exact ⟨body, hb, hperm, hs1, hs2⟩

/-- **C115.** Without the column in one of the first two rows the script stops with a `TypeError` and
nothing has moved. -/
theorem C115_click_missing_cell (n k : Nat) (p : Page) (r a b : PageRow) (rest : List PageRow)
    (hid : p.tableId = "violations-table".toList) (hh : p.head = [r])
    (hnd : ((p.head ++ p.body).map PageRow.id).Nodup) (hb : p.body = a :: b :: rest)
    (hn : a.cells.length ≤ n ∨ b.cells.length ≤ n) (hk : p.body.length ≤ k) :
    ∃ f, readScript htmlScript = some f ∧
      callFunction lower lt (k + 1) f n p = .throws "TypeError".toList := by
  obtain ⟨f, hf, -, -, ht⟩ := C115_script_is_model lower lt n k p r hid hh hnd hk
  refine ⟨f, hf, ht _ ?_⟩
  rw [hb] at hk ⊢
  obtain ⟨k, rfl⟩ : ∃ j, k = j + 1 := ⟨k - 1, by simp at hk; omega⟩
  exact C59_missing_cell lower lt n k a.cells b.cells (rest.map PageRow.cells) hn

/-- **C115.** On a page with no table of that name the script stops with a `TypeError`. -/
theorem C115_click_no_table (n k : Nat) (p : Page) (hid : p.tableId ≠ "violations-table".toList) :
    ∃ f, readScript htmlScript = some f ∧
      callFunction lower lt (k + 1) f n p = .throws "TypeError".toList := by
  refine ⟨scriptFunction, script_reads, ?_⟩
  unfold callFunction
  rw [run_function, if_neg (fun e => hid e.symm)]
  rfl

end

/-! ## The table of a report -/

theorem tableRows_cell (cs : List Str) (attrs : List (Str × Str)) (text : Str) (ts : List Tok) :
    tableRows (some cs) (cellToks attrs text ++ ts) = tableRows (some (cs ++ [text])) ts := by
  cases text <;> rfl

theorem tableRows_row (v : Violation) (rule category cls priority : Str) (ts : List Tok) :
    tableRows none (rowToks v rule category cls priority ++ ts) =
      (tableRows none ts).map (shownRow v rule category priority :: ·) := by
  unfold rowToks
  simp only [List.append_assoc]
  rw [show ∀ t : List Tok, tableRows none ([.open "tr".toList []] ++ t) = tableRows (some []) t from
    fun _ => rfl]
  simp only [tableRows_cell]
  unfold shownRow
  rw [List.append_assoc (decimalInt v.startLine)]
  rfl

theorem tableRows_flatMap (f : Violation → List Tok) (g : Violation → List (List Str))
    (h : ∀ v ts, tableRows none (f v ++ ts) = (tableRows none ts).map (g v ++ ·))
    (l : List Violation) (ts : List Tok) :
    tableRows none (l.flatMap f ++ ts) = (tableRows none ts).map (l.flatMap g ++ ·) := by
  induction l with
  | nil => simp
  | cons v l ih =>
    rw [List.flatMap_cons, List.append_assoc, h, ih, Option.map_map]
    congr 1
    funext x
    simp

theorem tableRows_report (info : RuleId → RuleInfo) (errors warnings violations bugs : List Violation) :
    tableRows none (rowsHtml info errors warnings violations bugs) =
      some (shownTable info errors warnings violations bugs) := by
  have row : ∀ (rule category cls priority : Str) (v : Violation) (ts : List Tok),
      tableRows none (rowToks v rule category cls priority ++ ts) =
        (tableRows none ts).map ([shownRow v rule category priority] ++ ·) :=
    fun rule category cls priority v ts => tableRows_row v rule category cls priority ts
  unfold rowsHtml shownTable
  rw [← List.append_nil (List.flatMap _ bugs)]
  simp only [List.append_assoc]
  rw [tableRows_flatMap (violationRow info) (fun v => match v.rule with
    | none => []
    | some r => [shownRow v (info r).name (info r).category (decimalInt (info r).priority)])]
  · rw [tableRows_flatMap _ _ (row _ _ _ _), tableRows_flatMap _ _ (row _ _ _ _),
      tableRows_flatMap _ _ (row _ _ _ _)]
    simp only [tableRows, Option.map_some, List.append_nil, ← List.flatMap_pure_eq_map]
    rfl
  · intro v ts
    unfold violationRow
    cases v.rule with
    | none => simp
    | some r => exact row _ _ _ _ v ts

theorem shownTable_six (info : RuleId → RuleInfo) (errors warnings violations bugs : List Violation) :
    ∀ cells ∈ shownTable info errors warnings violations bugs, cells.length = 6 := by
  intro cells h
  unfold shownTable at h
  simp only [List.mem_append, List.mem_flatMap, List.mem_map] at h
  rcases h with ((⟨v, -, h⟩ | ⟨v, -, rfl⟩) | ⟨v, -, rfl⟩) | ⟨v, -, rfl⟩
  · cases hr : v.rule with
    | none => rw [hr] at h; cases h
    | some r => rw [hr] at h; rw [List.mem_singleton.1 h]; rfl
  all_goals rfl

theorem pageOf_ids (inner : Str → Str) (id : Str) (table : List (List Str)) :
    (((pageOf inner id table).head ++ (pageOf inner id table).body).map PageRow.id).Nodup := by
  have e : ((pageOf inner id table).head ++ (pageOf inner id table).body).map PageRow.id =
      List.range (table.length + 1) := by
    unfold pageOf
    rw [List.range_succ_eq_map, List.range_eq_range', ← List.zipIdx_map_snd 0 table]
    simp only [List.map_map, List.map_cons, List.singleton_append]
    rfl
  rw [e]
  exact List.nodup_range

/-- **C115.** In a report that reads back, the page has the script, a table of that name with one row
per violation, error, warning and finding, and six headings; each calls the function of the script with
its own number, and that sorts the rows by the column under the heading. -/
theorem C115_report_click (info : RuleId → RuleInfo) (ctime : Str) (w : ResultsView)
    (hrule : ∀ v ∈ w.answer .violations, v.rule ≠ none)
    (hc : ∀ v ∈ w.answer .violations, HtmlClean info v)
    (hd : ∀ ch, ch ≠ .violations → ∀ v ∈ w.answer ch, HtmlSafe v.path ∧ HtmlSafe v.message)
    (lower inner : Str → Str) (lt : Str → Str → Bool) (hlt : StrictWeak lt) :
    ∃ front script middle details rows back f detailToks rowToks,
      htmlReport info ctime w = .ok (front ++ "<script>".toList ++ script ++ "</script>".toList ++ middle
        ++ details ++ rows ++ back) ∧
      readScript script = some f ∧
      scanXml details = some detailToks ∧ scanXml rows = some rowToks ∧
      detailToks.head? = some (.open "table".toList [("id".toList, "violations-table".toList)]) ∧
      (onclicks detailToks).map readCall = (List.range 6).map (fun k => some (f.name, k)) ∧
      tableRows none rowToks = some (shownTable info (w.answer .errors) (w.answer .warnings)
        (w.answer .violations) (w.answer .checkerBugs)) ∧
      ∀ k < 6, ClickSorts lower lt f k (pageOf inner "violations-table".toList
        (shownTable info (w.answer .errors) (w.answer .warnings) (w.answer .violations)
          (w.answer .checkerBugs))) := by
  obtain ⟨summary, details, rows, hr, -, hdt, hrt⟩ := C55_html_reads_back_partial info ctime w hrule hc hd
  refine ⟨"<!DOCTYPE html><html>".toList ++ ("<head>".toList ++ "<title>OCLint Report</title>".toList
      ++ "<style type='text/css'>".toList ++ htmlStyle ++ "</style>".toList), htmlScript,
    "</head>".toList ++ ("<body><h1>OCLint Report</h1><h2>Summary</h2>".toList ++ (summary
      ++ "<h2>Details</h2>".toList)), details, rows,
    "</tbody></table><hr /><p>".toList ++ (ctime
      ++ "| Generated with <a href='https://oclint.org'>OCLint v24.11</a>.</p></body></html>\n".toList),
    scriptFunction, _, _, ?_, script_reads, hdt, hrt, rfl,
    by decide +kernel, tableRows_report info _ _ _ _, ?_⟩
  · rw [hr]
    unfold htmlHead
    generalize htmlScript = script
    generalize htmlStyle = style
    simp only [List.append_assoc]
  · intro k hk
    obtain ⟨f, hf, -, h⟩ := C115_click_sorts lower lt hlt k _ ⟨0, []⟩ rfl rfl
      (pageOf_ids inner "violations-table".toList (shownTable info (w.answer .errors)
        (w.answer .warnings) (w.answer .violations) (w.answer .checkerBugs))) (by
        intro b hb
        obtain ⟨c, hc, rfl⟩ := List.mem_map.1 hb
        rw [List.length_map, shownTable_six _ _ _ _ _ c.1 (List.fst_mem_of_mem_zipIdx hc)]
        exact hk)
    rw [script_reads] at hf
    cases hf
    exact h

/-- Two rows, sorted by their second column: they change places. -/
example : (readScript htmlScript).map (fun f => callFunction id textLt 8 f 1
      (pageOf id "violations-table".toList [["x".toList, "b".toList], ["y".toList, "a".toList]])) =
    some (.ok (some ⟨"violations-table".toList, [⟨0, []⟩],
      [⟨2, ["y".toList, "a".toList]⟩, ⟨1, ["x".toList, "b".toList]⟩]⟩)) := by
  rw [script_reads]
  decide +kernel

/-- Three rows that are ascending already: the equal ones stay in order. -/
example : (readScript htmlScript).map (fun f => callFunction id textLt 12 f 0
      (pageOf id "violations-table".toList [["a".toList], ["b".toList], ["b".toList]])) =
    some (.ok (some ⟨"violations-table".toList, [⟨0, []⟩],
      [⟨2, ["b".toList]⟩, ⟨3, ["b".toList]⟩, ⟨1, ["a".toList]⟩]⟩)) := by
  rw [script_reads]
  decide +kernel

/-- What a heading says to do on a click. -/
example : readCall "sortTable(5)".toList = some ("sortTable".toList, 5) := by decide +kernel

example : readScript "function f(n) { while (n) { break; } }".toList ≠ none := by decide +kernel

example : readScript "function f(n) { while n { break; } }".toList = none := by decide +kernel

end Oclint
