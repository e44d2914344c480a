import Verif.Spec.Script
import Verif.Lemmas.Metrics
import Mathlib.Data.List.Nodup
import Mathlib.Tactic.SplitIfs

/-!
# The script of the HTML report, statement by statement
-/

namespace Oclint
open Spec

/-- The values of the variables of the script. -/
structure Vars where
  n : JsVal
  table : JsVal
  rows : JsVal
  switching : JsVal
  i : JsVal
  x : JsVal
  y : JsVal
  shouldSwitch : JsVal
  dir : JsVal
  switchcount : JsVal

def Vars.look (v : Vars) (z : Str) : Option JsVal :=
  if z = chars! "switchcount" then some v.switchcount
  else if z = chars! "dir" then some v.dir
  else if z = chars! "shouldSwitch" then some v.shouldSwitch
  else if z = chars! "y" then some v.y
  else if z = chars! "x" then some v.x
  else if z = chars! "i" then some v.i
  else if z = chars! "switching" then some v.switching
  else if z = chars! "rows" then some v.rows
  else if z = chars! "table" then some v.table
  else if z = chars! "n" then some v.n
  else none

def Vars.at (v : Vars) (p : Page) : JsState := ⟨v.look, p⟩

def eVar (x : Str) : JsExpr := .var x

/-- `rows[e].getElementsByTagName("TD")[n]` -/
def cellExpr (e : JsExpr) : JsExpr :=
  .item (.call1 (.item (.var (chars! "rows")) e) (chars! "getElementsByTagName") (.str (chars! "TD")))
    (.var (chars! "n"))

def nextRow : JsExpr := .bin (chars! "+") (.var (chars! "i")) (.num 1)

def lowered (x : Str) : JsExpr :=
  .call0 (.member (.var x) (chars! "innerHTML")) (chars! "toLowerCase")

def dirIs (d : Str) : JsExpr := .bin (chars! "==") (.var (chars! "dir")) (.str d)

def condExpr : JsExpr :=
  .bin (chars! "||")
    (.bin (chars! "&&") (dirIs (chars! "asc")) (.bin (chars! ">") (lowered (chars! "x")) (lowered (chars! "y"))))
    (.bin (chars! "&&") (dirIs (chars! "desc")) (.bin (chars! "<") (lowered (chars! "x")) (lowered (chars! "y"))))

def forBody : JsStmt :=
  .seq (.assign (chars! "shouldSwitch") (.bool false))
    (.seq (.assign (chars! "x") (cellExpr (.var (chars! "i"))))
      (.seq (.assign (chars! "y") (cellExpr nextRow))
        (.seq (.ifElse condExpr
          (.seq (.assign (chars! "shouldSwitch") (.bool true)) (.seq .stop .skip)) .skip) .skip)))

def forCond : JsExpr :=
  .bin (chars! "<") (.var (chars! "i"))
    (.bin (chars! "-") (.member (.var (chars! "rows")) (chars! "length")) (.num 1))

def forStmt : JsStmt :=
  .forDo (.assign (chars! "i") (.num 1)) forCond (.incr (chars! "i")) forBody

def switchStmt : JsStmt :=
  .seq (.expr (.call2 (.member (.item (.var (chars! "rows")) (.var (chars! "i"))) (chars! "parentNode"))
      (chars! "insertBefore") (.item (.var (chars! "rows")) nextRow)
      (.item (.var (chars! "rows")) (.var (chars! "i")))))
    (.seq (.assign (chars! "switching") (.bool true)) (.seq (.incr (chars! "switchcount")) .skip))

def turnStmt : JsStmt :=
  .seq (.ifElse (.bin (chars! "&&") (.bin (chars! "==") (.var (chars! "switchcount")) (.num 0))
      (dirIs (chars! "asc")))
    (.seq (.assign (chars! "dir") (.str (chars! "desc")))
      (.seq (.assign (chars! "switching") (.bool true)) .skip)) .skip) .skip

def whileBody : JsStmt :=
  .seq (.assign (chars! "switching") (.bool false))
    (.seq (.assign (chars! "rows") (.member (.var (chars! "table")) (chars! "rows")))
      (.seq forStmt
        (.seq (.ifElse (.var (chars! "shouldSwitch")) switchStmt turnStmt) .skip)))

def scriptFunction : JsFunction where
  name := chars! "sortTable"
  parameter := chars! "n"
  body :=
    .seq (.seq (.declare (chars! "table") none) (.seq (.declare (chars! "rows") none)
        (.seq (.declare (chars! "switching") none) (.seq (.declare (chars! "i") none)
        (.seq (.declare (chars! "x") none) (.seq (.declare (chars! "y") none)
        (.seq (.declare (chars! "shouldSwitch") none) (.seq (.declare (chars! "dir") none)
        (.declare (chars! "switchcount") (some (.num 0)))))))))))
      (.seq (.assign (chars! "table") (.call1 (.var (chars! "document")) (chars! "getElementById")
          (.str (chars! "violations-table"))))
        (.seq (.assign (chars! "switching") (.bool true))
          (.seq (.assign (chars! "dir") (.str (chars! "asc")))
            (.seq (.whileDo (.var (chars! "switching")) whileBody) .skip))))

/-! ## Variables -/

section
variable (lower : Str → Str) (lt : Str → Str → Bool) (F : Nat) (v : Vars) (p : Page) (w : JsVal)

theorem set_switching : setVar (v.at p) (chars! "switching") w = .next ({v with switching := w}.at p) := by
  refine congrArg (fun g => JsRun.next ⟨g, p⟩) (funext fun z => ?_)
  by_cases h : z = chars! "switching"
  · subst h; rfl
  · simp only [Vars.at, Vars.look, h, if_false]

theorem set_rows : setVar (v.at p) (chars! "rows") w = .next ({v with rows := w}.at p) := by
  refine congrArg (fun g => JsRun.next ⟨g, p⟩) (funext fun z => ?_)
  by_cases h : z = chars! "rows"
  · subst h; rfl
  · simp only [Vars.at, Vars.look, h, if_false]

theorem set_i : setVar (v.at p) (chars! "i") w = .next ({v with i := w}.at p) := by
  refine congrArg (fun g => JsRun.next ⟨g, p⟩) (funext fun z => ?_)
  by_cases h : z = chars! "i"
  · subst h; rfl
  · simp only [Vars.at, Vars.look, h, if_false]

theorem set_x : setVar (v.at p) (chars! "x") w = .next ({v with x := w}.at p) := by
  refine congrArg (fun g => JsRun.next ⟨g, p⟩) (funext fun z => ?_)
  by_cases h : z = chars! "x"
  · subst h; rfl
  · simp only [Vars.at, Vars.look, h, if_false]

theorem set_y : setVar (v.at p) (chars! "y") w = .next ({v with y := w}.at p) := by
  refine congrArg (fun g => JsRun.next ⟨g, p⟩) (funext fun z => ?_)
  by_cases h : z = chars! "y"
  · subst h; rfl
  · simp only [Vars.at, Vars.look, h, if_false]

theorem set_shouldSwitch : setVar (v.at p) (chars! "shouldSwitch") w = .next ({v with shouldSwitch := w}.at p) := by
  refine congrArg (fun g => JsRun.next ⟨g, p⟩) (funext fun z => ?_)
  by_cases h : z = chars! "shouldSwitch"
  · subst h; rfl
  · simp only [Vars.at, Vars.look, h, if_false]

theorem set_dir : setVar (v.at p) (chars! "dir") w = .next ({v with dir := w}.at p) := by
  refine congrArg (fun g => JsRun.next ⟨g, p⟩) (funext fun z => ?_)
  by_cases h : z = chars! "dir"
  · subst h; rfl
  · simp only [Vars.at, Vars.look, h, if_false]

theorem set_switchcount : setVar (v.at p) (chars! "switchcount") w = .next ({v with switchcount := w}.at p) := by
  refine congrArg (fun g => JsRun.next ⟨g, p⟩) (funext fun z => ?_)
  by_cases h : z = chars! "switchcount"
  · subst h; rfl
  · simp only [Vars.at, Vars.look, h, if_false]

theorem set_table : setVar (v.at p) (chars! "table") w = .next ({v with table := w}.at p) := by
  refine congrArg (fun g => JsRun.next ⟨g, p⟩) (funext fun z => ?_)
  by_cases h : z = chars! "table"
  · subst h; rfl
  · simp only [Vars.at, Vars.look, h, if_false]

theorem get_i : valueOf lower lt (v.at p) (.var (chars! "i")) = .ok v.i := rfl
theorem get_n : valueOf lower lt (v.at p) (.var (chars! "n")) = .ok v.n := rfl
theorem get_x : valueOf lower lt (v.at p) (.var (chars! "x")) = .ok v.x := rfl
theorem get_y : valueOf lower lt (v.at p) (.var (chars! "y")) = .ok v.y := rfl
theorem get_rows : valueOf lower lt (v.at p) (.var (chars! "rows")) = .ok v.rows := rfl
theorem get_dir : valueOf lower lt (v.at p) (.var (chars! "dir")) = .ok v.dir := rfl
theorem get_table : valueOf lower lt (v.at p) (.var (chars! "table")) = .ok v.table := rfl
theorem get_switching : valueOf lower lt (v.at p) (.var (chars! "switching")) = .ok v.switching := rfl
theorem get_switchcount : valueOf lower lt (v.at p) (.var (chars! "switchcount")) = .ok v.switchcount := rfl
theorem get_shouldSwitch : valueOf lower lt (v.at p) (.var (chars! "shouldSwitch")) = .ok v.shouldSwitch := rfl
theorem get_document : valueOf lower lt (v.at p) (.var (chars! "document")) = .ok .document := rfl
theorem at_page : (v.at p).page = p := rfl

end

/-! ## Expressions -/

section
variable (lower : Str → Str) (lt : Str → Str → Bool) {s : JsState} {a b : JsExpr}

theorem value_and {u : JsVal} (h : valueOf lower lt s a = .ok u) :
    valueOf lower lt s (.bin (chars! "&&") a b) = if truthy u then valueOf lower lt s b else .ok u := by
  rw [valueOf, h]; rfl

theorem value_or {u : JsVal} (h : valueOf lower lt s a = .ok u) :
    valueOf lower lt s (.bin (chars! "||") a b) = if truthy u then .ok u else valueOf lower lt s b := by
  rw [valueOf, h]; rfl

theorem value_or_throws {e : Str} (h : valueOf lower lt s a = .throws e) :
    valueOf lower lt s (.bin (chars! "||") a b) = .throws e := by
  rw [valueOf, h]; rfl

theorem value_lt_str {x y : Str} (ha : valueOf lower lt s a = .ok (.str x))
    (hb : valueOf lower lt s b = .ok (.str y)) :
    valueOf lower lt s (.bin (chars! "<") a b) = .ok (.bool (lt x y)) := by
  rw [valueOf, ha, hb]; rfl

theorem value_gt_str {x y : Str} (ha : valueOf lower lt s a = .ok (.str x))
    (hb : valueOf lower lt s b = .ok (.str y)) :
    valueOf lower lt s (.bin (chars! ">") a b) = .ok (.bool (lt y x)) := by
  rw [valueOf, ha, hb]; rfl

theorem value_eq_str {x y : Str} (ha : valueOf lower lt s a = .ok (.str x))
    (hb : valueOf lower lt s b = .ok (.str y)) :
    valueOf lower lt s (.bin (chars! "==") a b) = .ok (.bool (decide (x = y))) := by
  rw [valueOf, ha, hb]; rfl

theorem value_lt_num {x y : Int} (ha : valueOf lower lt s a = .ok (.num x))
    (hb : valueOf lower lt s b = .ok (.num y)) :
    valueOf lower lt s (.bin (chars! "<") a b) = .ok (.bool (decide (x < y))) := by
  rw [valueOf, ha, hb]; rfl

theorem value_eq_num {x y : Int} (ha : valueOf lower lt s a = .ok (.num x))
    (hb : valueOf lower lt s b = .ok (.num y)) :
    valueOf lower lt s (.bin (chars! "==") a b) = .ok (.bool (decide (x = y))) := by
  rw [valueOf, ha, hb]; rfl

theorem value_add {x y : Int} (ha : valueOf lower lt s a = .ok (.num x))
    (hb : valueOf lower lt s b = .ok (.num y)) :
    valueOf lower lt s (.bin (chars! "+") a b) = .ok (.num (x + y)) := by
  rw [valueOf, ha, hb]; rfl

theorem value_sub {x y : Int} (ha : valueOf lower lt s a = .ok (.num x))
    (hb : valueOf lower lt s b = .ok (.num y)) :
    valueOf lower lt s (.bin (chars! "-") a b) = .ok (.num (x - y)) := by
  rw [valueOf, ha, hb]; rfl

theorem value_bin_throws_left {op e : Str} (ha : valueOf lower lt s a = .throws e) :
    valueOf lower lt s (.bin op a b) = .throws e := by
  rw [valueOf, ha]; rfl

theorem value_gt_throws_right {x : JsVal} {e : Str} (ha : valueOf lower lt s a = .ok x)
    (hb : valueOf lower lt s b = .throws e) :
    valueOf lower lt s (.bin (chars! ">") a b) = .throws e := by
  rw [valueOf, ha, hb]; rfl

theorem value_lt_throws_right {x : JsVal} {e : Str} (ha : valueOf lower lt s a = .ok x)
    (hb : valueOf lower lt s b = .throws e) :
    valueOf lower lt s (.bin (chars! "<") a b) = .throws e := by
  rw [valueOf, ha, hb]; rfl

/-- The text of a cell, in small letters. -/
theorem value_lowered_cell {x : Str} {id k : Nat} {t : Str}
    (hx : valueOf lower lt s (.var x) = .ok (.cell id k))
    (ht : (rowWith s.page id).bind (fun r => r.cells[k]?) = some t) :
    valueOf lower lt s (lowered x) = .ok (.str (lower t)) := by
  have h1 : valueOf lower lt s (.member (.var x) (chars! "innerHTML")) = .ok (.str t) := by
    rw [valueOf, hx]
    show memberOf s.page (.cell id k) (chars! "innerHTML") = _
    unfold memberOf
    dsimp only
    rw [if_pos rfl, ht]
  unfold lowered
  rw [valueOf, h1]; rfl

theorem value_lowered_none {x : Str} (hx : valueOf lower lt s (.var x) = .ok .undefined) :
    valueOf lower lt s (lowered x) = .throws typeError := by
  have h1 : valueOf lower lt s (.member (.var x) (chars! "innerHTML")) = .throws typeError := by
    rw [valueOf, hx]; rfl
  unfold lowered
  rw [valueOf, h1]; rfl

end

/-! ## Rows -/

theorem rowWith_mem {p : Page} (hn : (p.rows.map PageRow.id).Nodup) {r : PageRow} (hr : r ∈ p.rows) :
    rowWith p r.id = some r := by
  unfold rowWith
  generalize p.rows = l at hn hr
  induction l with
  | nil => simp at hr
  | cons a l ih =>
    rw [List.map_cons, List.nodup_cons] at hn
    rcases List.mem_cons.1 hr with rfl | h
    · simp
    · have : a.id ≠ r.id := fun e => hn.1 (e ▸ List.mem_map_of_mem h)
      rw [List.find?_cons_of_neg (by simpa using this)]
      exact ih hn.2 h

section
variable (lower : Str → Str) (lt : Str → Str → Bool)

/-- The value of `rows[e].getElementsByTagName("TD")[n]`. -/
theorem value_cellExpr {v : Vars} {p : Page} {e : JsExpr} {k n : Nat} {r : PageRow}
    (hr : v.rows = .rowsOf) (hn : v.n = .num n)
    (he : valueOf lower lt (v.at p) e = .ok (.num k)) (hk : p.rows[k]? = some r)
    (hnd : (p.rows.map PageRow.id).Nodup) :
    valueOf lower lt (v.at p) (cellExpr e) =
      .ok (match r.cells[n]? with | some _ => .cell r.id n | none => .undefined) := by
  have h1 : valueOf lower lt (v.at p) (.item (.var (chars! "rows")) e) = .ok (.row r.id) := by
    rw [valueOf, get_rows, hr, he]
    show itemOf p .rowsOf (.num (Int.ofNat k)) = _
    unfold itemOf
    simp only [hk]
  have h2 : valueOf lower lt (v.at p) (.call1 (.item (.var (chars! "rows")) e)
      (chars! "getElementsByTagName") (.str (chars! "TD"))) = .ok (.cellsOf r.id) := by
    rw [valueOf, h1]; rfl
  unfold cellExpr
  rw [valueOf, h2, get_n, hn]
  show itemOf p (.cellsOf r.id) (.num (Int.ofNat n)) = _
  unfold itemOf
  simp only [rowWith_mem hnd (List.mem_of_getElem? hk), Option.bind_some]
  cases r.cells[n]? <;> rfl

def dirText : SortDir → Str
  | .asc => chars! "asc"
  | .desc => chars! "desc"

theorem value_dirIs_asc {v : Vars} {p : Page} {d : SortDir} (hd : v.dir = .str (dirText d)) :
    valueOf lower lt (v.at p) (dirIs (chars! "asc")) = .ok (.bool (decide (d = .asc))) := by
  unfold dirIs
  rw [value_eq_str lower lt ((get_dir lower lt v p).trans (congrArg _ hd)) rfl]
  cases d <;> rfl

theorem value_dirIs_desc {v : Vars} {p : Page} {d : SortDir} (hd : v.dir = .str (dirText d)) :
    valueOf lower lt (v.at p) (dirIs (chars! "desc")) = .ok (.bool (decide (d = .desc))) := by
  unfold dirIs
  rw [value_eq_str lower lt ((get_dir lower lt v p).trans (congrArg _ hd)) rfl]
  cases d <;> rfl

def cellVal (r : PageRow) (n : Nat) : JsVal :=
  match r.cells[n]? with
  | some _ => .cell r.id n
  | none => .undefined

/-- The condition of the script is the one of the model. -/
theorem value_cond {v : Vars} {p : Page} {d : SortDir} {n : Nat} {a b : PageRow}
    (hd : v.dir = .str (dirText d)) (hx : v.x = cellVal a n) (hy : v.y = cellVal b n)
    (ha : a ∈ p.rows) (hb : b ∈ p.rows) (hnd : (p.rows.map PageRow.id).Nodup) :
    valueOf lower lt (v.at p) condExpr =
      (outOfOrder lower lt n d a.cells b.cells).bind fun t => .ok (.bool t) := by
  have ex := (get_x lower lt v p).trans (congrArg _ hx)
  have ey := (get_y lower lt v p).trans (congrArg _ hy)
  unfold cellVal at ex ey
  have hasc := value_dirIs_asc lower lt (p := p) hd
  have hdesc := value_dirIs_desc lower lt (p := p) hd
  unfold condExpr outOfOrder
  cases hca : a.cells[n]? with
  | none =>
    rw [hca] at ex
    have lx := value_lowered_none lower lt ex
    have l1 := value_bin_throws_left lower lt (op := chars! ">") (b := lowered (chars! "y")) lx
    have l2 := value_bin_throws_left lower lt (op := chars! "<") (b := lowered (chars! "y")) lx
    cases d with
    | asc =>
      rw [value_or_throws lower lt (e := typeError)]
      · rfl
      · rw [value_and lower lt hasc]; exact l1
    | desc =>
      rw [value_or lower lt (u := .bool false)]
      · rw [if_neg (by decide), value_and lower lt hdesc]; exact l2
      · rw [value_and lower lt hasc]; rfl
  | some ta =>
    rw [hca] at ex
    have lx := value_lowered_cell lower lt (t := ta) ex (by
      show (rowWith p a.id).bind _ = _
      rw [rowWith_mem hnd ha]; exact hca)
    cases hcb : b.cells[n]? with
    | none =>
      rw [hcb] at ey
      have ly := value_lowered_none lower lt ey
      have l1 := value_gt_throws_right lower lt lx ly
      have l2 := value_lt_throws_right lower lt lx ly
      cases d with
      | asc =>
        rw [value_or_throws lower lt (e := typeError)]
        · rfl
        · rw [value_and lower lt hasc]; exact l1
      | desc =>
        rw [value_or lower lt (u := .bool false)]
        · rw [if_neg (by decide), value_and lower lt hdesc]; exact l2
        · rw [value_and lower lt hasc]; rfl
    | some tb =>
      rw [hcb] at ey
      have ly := value_lowered_cell lower lt (t := tb) ey (by
        show (rowWith p b.id).bind _ = _
        rw [rowWith_mem hnd hb]; exact hcb)
      have l1 := value_gt_str lower lt lx ly
      have l2 := value_lt_str lower lt lx ly
      show _ = Outcome.ok _
      cases d with
      | asc =>
        rw [value_or lower lt (u := .bool (lt (lower tb) (lower ta)))]
        · cases lt (lower tb) (lower ta)
          · rw [if_neg (by decide), value_and lower lt hdesc]; rfl
          · rfl
        · rw [value_and lower lt hasc]; exact l1
      | desc =>
        rw [value_or lower lt (u := .bool false)]
        · rw [if_neg (by decide), value_and lower lt hdesc]
          rw [if_pos (by decide), l2]
          cases lt (lower ta) (lower tb) <;> rfl
        · rw [value_and lower lt hasc]; rfl

end

/-! ## Statements -/

section
variable (lower : Str → Str) (lt : Str → Str → Bool) (F : Nat)

/-- How a statement ends after the condition of the script has been looked at. -/
def afterCond (v : Vars) (p : Page) : Outcome Bool → JsRun
  | .ok true => .broke ({v with shouldSwitch := .bool true}.at p)
  | .ok false => .next ({v with shouldSwitch := .bool false}.at p)
  | .throws e => .failed e
  | .ub => .stuck

theorem value_nextRow {v : Vars} {p : Page} {k : Nat} (hi : v.i = .num k) :
    valueOf lower lt (v.at p) nextRow = .ok (.num ((k + 1 : Nat) : Int)) :=
  value_add lower lt (x := k) (y := 1) ((get_i lower lt v p).trans (congrArg _ hi)) rfl

/-- The body of the `for` loop. -/
theorem run_forBody {v : Vars} {p : Page} {d : SortDir} {k n : Nat} {a b : PageRow}
    (hr : v.rows = .rowsOf) (hn : v.n = .num n) (hd : v.dir = .str (dirText d)) (hi : v.i = .num k)
    (ha : p.rows[k]? = some a) (hb : p.rows[k + 1]? = some b)
    (hnd : (p.rows.map PageRow.id).Nodup) :
    runStmt lower lt F forBody (v.at p) =
      afterCond {v with x := cellVal a n, y := cellVal b n} p
        (outOfOrder lower lt n d a.cells b.cells) := by
  unfold forBody
  rw [runStmt, runStmt]
  rw [show valueOf lower lt (v.at p) (.bool false) = .ok (.bool false) from rfl]
  rw [withValue, set_shouldSwitch, JsRun.andThen]
  generalize hv1 : { v with shouldSwitch := JsVal.bool false } = v1
  rw [runStmt, runStmt]
  have e1 : valueOf lower lt (v1.at p) (cellExpr (.var (chars! "i"))) = .ok (cellVal a n) := by
    subst hv1
    exact value_cellExpr lower lt hr hn ((get_i lower lt _ p).trans (congrArg _ hi)) ha hnd
  rw [e1, withValue, set_x, JsRun.andThen]
  generalize hv2 : { v1 with x := cellVal a n } = v2
  rw [runStmt, runStmt]
  have e2 : valueOf lower lt (v2.at p) (cellExpr nextRow) = .ok (cellVal b n) := by
    subst hv2; subst hv1
    exact value_cellExpr lower lt hr hn (value_nextRow lower lt hi) hb hnd
  rw [e2, withValue, set_y, JsRun.andThen]
  generalize hv3 : { v2 with y := cellVal b n } = v3
  rw [runStmt, runStmt]
  have e3 := value_cond lower lt (v := v3) (d := d) (n := n) (a := a) (b := b) (p := p)
    (by subst hv3; subst hv2; subst hv1; exact hd) (by subst hv3; subst hv2; rfl) (by subst hv3; rfl)
    (List.mem_of_getElem? ha) (List.mem_of_getElem? hb) hnd
  rw [e3]
  cases outOfOrder lower lt n d a.cells b.cells with
  | throws e => rfl
  | ub => rfl
  | ok t =>
    cases t with
    | true =>
      show (runStmt lower lt F (.seq (.assign (chars! "shouldSwitch") (.bool true)) (.seq .stop .skip))
        (v3.at p)).andThen _ = _
      rw [runStmt, runStmt]
      rw [show valueOf lower lt (v3.at p) (.bool true) = .ok (.bool true) from rfl]
      rw [withValue, set_shouldSwitch]
      subst hv3; subst hv2; subst hv1
      rfl
    | false =>
      subst hv3; subst hv2; subst hv1
      rfl

/-- One round of the `for` loop and the step behind it. -/
def forRound (s : JsState) : JsRun := (runStmt lower lt F forBody s).andThen (runStmt lower lt F (.incr (chars! "i")))

theorem run_incr_i {v : Vars} {p : Page} {k : Int} (hi : v.i = .num k) :
    runStmt lower lt F (.incr (chars! "i")) (v.at p) = .next ({v with i := .num (k + 1)}.at p) := by
  rw [runStmt, get_i, hi]
  exact set_i v p _

theorem run_incr_count {v : Vars} {p : Page} {k : Int} (hi : v.switchcount = .num k) :
    runStmt lower lt F (.incr (chars! "switchcount")) (v.at p) =
      .next ({v with switchcount := .num (k + 1)}.at p) := by
  rw [runStmt, get_switchcount, hi]
  exact set_switchcount v p _

theorem value_forCond {v : Vars} {p : Page} {k : Nat} (hr : v.rows = .rowsOf) (hi : v.i = .num k) :
    valueOf lower lt (v.at p) forCond = .ok (.bool (decide ((k : Int) < p.rows.length - 1))) := by
  unfold forCond
  refine value_lt_num lower lt ((get_i lower lt v p).trans (congrArg _ hi)) ?_
  refine value_sub lower lt (x := p.rows.length) (y := 1) ?_ rfl
  rw [valueOf, get_rows, hr]
  rfl

theorem outOfOrder_ne_ub (n : Nat) (d : SortDir) (a b : Row) : outOfOrder lower lt n d a b ≠ .ub := by
  unfold outOfOrder
  split <;> nofun

/-- What the `for` loop leaves alone. -/
structure Kept (v v' : Vars) : Prop where
  n : v'.n = v.n
  table : v'.table = v.table
  rows : v'.rows = v.rows
  switching : v'.switching = v.switching
  dir : v'.dir = v.dir
  switchcount : v'.switchcount = v.switchcount

theorem Kept.trans {a b c : Vars} (h : Kept a b) (g : Kept b c) : Kept a c :=
  ⟨g.n.trans h.n, g.table.trans h.table, g.rows.trans h.rows, g.switching.trans h.switching,
    g.dir.trans h.dir, g.switchcount.trans h.switchcount⟩

/-- How the `for` loop ends, given what the pass of the model says about the rows from here on. -/
def ForEnds (v : Vars) (p : Page) (pre rest : List PageRow) (run : JsRun) :
    Outcome (Option (List Row)) → Prop
  | .ok none => ∃ v', run = .next (v'.at p) ∧ Kept v v' ∧
      v'.shouldSwitch = if 2 ≤ rest.length then .bool false else v.shouldSwitch
  | .ok (some rows) => ∃ (v' : Vars) (mid post : List PageRow) (a b : PageRow),
      run = .next (v'.at p) ∧ Kept v v' ∧ v'.shouldSwitch = .bool true ∧
      rest = mid ++ a :: b :: post ∧ v'.i = .num ((pre ++ mid).length : Nat) ∧
      rows = (mid ++ b :: a :: post).map PageRow.cells
  | .throws e => run = .failed e
  | .ub => False

theorem run_for {p : Page} {d : SortDir} {n : Nat} (hnd : (p.rows.map PageRow.id).Nodup) :
    ∀ (rest pre : List PageRow) (v : Vars) (fuel : Nat), p.rows = pre ++ rest → pre ≠ [] →
      rest.length < fuel → v.rows = .rowsOf → v.n = .num n → v.dir = .str (dirText d) →
      v.i = .num (pre.length : Nat) →
      ForEnds v p pre rest
        (rounds (fun s => valueOf lower lt s forCond) (forRound lower lt F) fuel (v.at p))
        (sortPass lower lt n d (rest.map PageRow.cells)) := by
  intro rest
  induction rest with
  | nil =>
    intro pre v fuel hp hpre hf hr hn hd hi
    obtain ⟨fuel, rfl⟩ : ∃ k, fuel = k + 1 := ⟨fuel - 1, by simp at hf; omega⟩
    refine ⟨v, ?_, ⟨rfl, rfl, rfl, rfl, rfl, rfl⟩, rfl⟩
    rw [rounds, value_forCond lower lt hr hi, withValue, hp]
    rw [decide_eq_false (by rw [List.append_nil]; omega)]
    rfl
  | cons a rest ih =>
    intro pre v fuel hp hpre hf hr hn hd hi
    obtain ⟨fuel, rfl⟩ : ∃ k, fuel = k + 1 := ⟨fuel - 1, by simp at hf; omega⟩
    cases rest with
    | nil =>
      refine ⟨v, ?_, ⟨rfl, rfl, rfl, rfl, rfl, rfl⟩, rfl⟩
      rw [rounds, value_forCond lower lt hr hi, withValue, hp]
      rw [decide_eq_false (by simp)]
      rfl
    | cons b rest =>
      have hbody := run_forBody lower lt F (k := pre.length) hr hn hd hi (a := a) (b := b) (p := p)
        (by rw [hp]; simp) (by rw [hp]; simp) hnd
      rw [rounds, value_forCond lower lt hr hi, withValue,
        decide_eq_true (by rw [hp]; simp only [List.length_append, List.length_cons]; omega)]
      rw [if_pos (show truthy (.bool true) = true from rfl)]
      rw [show forRound lower lt F (v.at p) = (runStmt lower lt F forBody (v.at p)).andThen
        (runStmt lower lt F (.incr (chars! "i"))) from rfl, hbody]
      rw [List.map_cons, List.map_cons, sortPass]
      cases hout : outOfOrder lower lt n d a.cells b.cells with
      | ub =>
        exact absurd hout (outOfOrder_ne_ub lower lt n d a.cells b.cells)
      | throws e => exact rfl
      | ok t =>
        cases t with
        | true =>
          exact ⟨_, [], rest, a, b, rfl, ⟨rfl, rfl, rfl, rfl, rfl, rfl⟩, rfl, rfl, by
            simpa using hi, rfl⟩
        | false =>
          have hstep : afterCond {v with x := cellVal a n, y := cellVal b n} p (.ok false) =
            .next ({v with x := cellVal a n, y := cellVal b n, shouldSwitch := .bool false}.at p) := rfl
          rw [hstep, JsRun.andThen]
          rw [run_incr_i lower lt F (k := (pre.length : Nat)) (by exact hi)]
          have := ih (pre ++ [a]) { v with
              x := cellVal a n, y := cellVal b n, shouldSwitch := JsVal.bool false, i := JsVal.num ((pre.length : Nat) + 1) } fuel
            (by rw [hp]; simp) (by simp) (by simp at hf ⊢; omega) hr hn hd (by simp)
          rw [bind_ok']
          show ForEnds v p pre (a :: b :: rest) (rounds _ (forRound lower lt F) fuel _) _
          simp only [Bool.false_eq_true, if_false]
          rw [List.map_cons] at this
          cases hs : sortPass lower lt n d (b.cells :: List.map PageRow.cells rest) with
          | ub => rw [hs] at this; exact this
          | throws e => rw [hs] at this; exact this
          | ok r =>
            rw [hs] at this
            cases r with
            | none =>
              obtain ⟨v', h1, h2, h3⟩ := this
              refine ⟨v', h1, ⟨h2.n, h2.table, h2.rows, h2.switching, h2.dir, h2.switchcount⟩, ?_⟩
              rw [h3, if_pos (c := 2 ≤ (a :: b :: rest).length) (by simp)]
              split <;> rfl
            | some rows =>
              obtain ⟨v', mid, post, x, y, h1, h2, h3, h4, h5, h6⟩ := this
              refine ⟨v', a :: mid, post, x, y, h1, ⟨h2.n, h2.table, h2.rows, h2.switching, h2.dir, h2.switchcount⟩, h3,
                by rw [h4]; rfl, by rw [h5]; simp, by rw [h6]; rfl⟩

/-! ## Switching two rows -/

theorem putBefore_here (r a : PageRow) (mid post : List PageRow) (h : ∀ x ∈ mid, x.id ≠ a.id) :
    putBefore r a.id (mid ++ a :: post) = mid ++ r :: a :: post := by
  induction mid with
  | nil => simp [putBefore]
  | cons x mid ih =>
    rw [List.cons_append, putBefore, if_neg (h x (by simp)), ih fun y hy => h y (by simp [hy])]
    rfl

theorem insertBefore_switch {p : Page} {h a b : PageRow} {mid post : List PageRow}
    (hh : p.head = [h]) (hb : p.body = mid ++ a :: b :: post)
    (hnd : (p.rows.map PageRow.id).Nodup) :
    insertBefore p a.id b.id a.id = some { p with body := mid ++ b :: a :: post } := by
  have hrows : p.rows = h :: (mid ++ a :: b :: post) := by
    unfold Page.rows; rw [hh, hb]; rfl
  have hmem : b ∈ p.rows := by rw [hrows]; simp
  have hnd' := hnd
  rw [hrows] at hnd'
  simp only [List.map_cons, List.map_append, List.nodup_cons, List.nodup_append, List.mem_append,
    List.mem_cons, not_or] at hnd'
  obtain ⟨⟨hm, ha, hb', hp'⟩, hmn, ⟨⟨hab, hap⟩, hbp, -⟩, hdis⟩ := hnd'
  have hmid : ∀ x ∈ mid, x.id ≠ a.id ∧ x.id ≠ b.id := fun x hx =>
    ⟨fun e => hdis _ (List.mem_map_of_mem hx) _ (Or.inl rfl) e,
      fun e => hdis _ (List.mem_map_of_mem hx) _ (Or.inr (Or.inl rfl)) e⟩
  have f1 : [h].filter (fun x => x.id != b.id) = [h] := by simp [hb']
  have f2 : (mid ++ a :: b :: post).filter (fun x => x.id != b.id) = mid ++ a :: post := by
    rw [List.filter_append, List.filter_cons, List.filter_cons]
    rw [List.filter_eq_self.2 (fun x hx => by simpa using (hmid x hx).2),
      List.filter_eq_self.2 (fun x hx => by
        have : b.id ≠ x.id := fun e => hbp (e ▸ List.mem_map_of_mem hx)
        simpa using this.symm)]
    simp [hab]
  unfold insertBefore
  rw [rowWith_mem hnd hmem]
  dsimp only
  rw [if_neg (fun e => hab e.symm), hh, hb, f1, f2, putBefore_here b a mid post fun x hx => (hmid x hx).1]
  rw [if_neg (by simp [ha]), if_pos (by simp)]

/-- `rows[i]` for a row that is there. -/
theorem value_item {v : Vars} {p : Page} {e : JsExpr} {k : Nat} {r : PageRow} (hr : v.rows = .rowsOf)
    (he : valueOf lower lt (v.at p) e = .ok (.num k)) (hk : p.rows[k]? = some r) :
    valueOf lower lt (v.at p) (.item (.var (chars! "rows")) e) = .ok (.row r.id) := by
  rw [valueOf, get_rows, hr, he]
  show itemOf p .rowsOf (.num (Int.ofNat k)) = _
  unfold itemOf
  simp only [hk]

theorem run_switch {v : Vars} {p : Page} {h a b : PageRow} {mid post : List PageRow} {c : Int}
    (hr : v.rows = .rowsOf) (hi : v.i = .num ((mid.length + 1 : Nat) : Int)) (hc : v.switchcount = .num c)
    (hh : p.head = [h]) (hb : p.body = mid ++ a :: b :: post)
    (hnd : (p.rows.map PageRow.id).Nodup) :
    runStmt lower lt F switchStmt (v.at p) =
      .next ({v with switching := .bool true, switchcount := .num (c + 1)}.at
        { p with body := mid ++ b :: a :: post }) := by
  have hrows : p.rows = h :: (mid ++ a :: b :: post) := by
    unfold Page.rows; rw [hh, hb]; rfl
  have ei := value_item lower lt hr ((get_i lower lt v p).trans (congrArg _ hi)) (r := a)
    (by rw [hrows]; simp)
  have en := value_item lower lt hr (value_nextRow lower lt hi) (p := p) (r := b) (by rw [hrows]; simp)
  have ep : valueOf lower lt (v.at p)
      (.member (.item (.var (chars! "rows")) (.var (chars! "i"))) (chars! "parentNode")) =
      .ok (.parentOf a.id) := by
    rw [valueOf, ei]; rfl
  unfold switchStmt
  rw [runStmt, runStmt]
  rw [ep, en, ei]
  have e1 : (withValue (Outcome.ok (JsVal.parentOf a.id)) fun v' =>
      withValue (Outcome.ok (JsVal.row b.id)) fun va =>
        withValue (Outcome.ok (JsVal.row a.id)) fun vb =>
          match v', va, vb with
          | .parentOf q, .row new, .row ref =>
            if chars! "insertBefore" = chars! "insertBefore" then
              match insertBefore (v.at p).page q new ref with
              | some p' => JsRun.next { v.at p with page := p' }
              | none => .stuck
            else .stuck
          | _, _, _ => .stuck) = .next (v.at { p with body := mid ++ b :: a :: post }) := by
    show (match insertBefore p a.id b.id a.id with
      | some p' => JsRun.next { v.at p with page := p' }
      | none => .stuck) = _
    rw [insertBefore_switch hh hb hnd]
    rfl
  refine Eq.trans (congrArg (fun r : JsRun => r.andThen _) e1) ?_
  rw [JsRun.andThen, runStmt, runStmt]
  rw [show ∀ s, valueOf lower lt s (.bool true) = .ok (.bool true) from fun _ => rfl]
  rw [withValue, set_switching, JsRun.andThen, runStmt,
    run_incr_count lower lt F (v := { v with switching := .bool true }) hc]
  rfl

theorem run_turn {v : Vars} {p : Page} {d : SortDir} {c : Nat} (hc : v.switchcount = .num c)
    (hd : v.dir = .str (dirText d)) :
    runStmt lower lt F turnStmt (v.at p) =
      .next ((if c = 0 ∧ d = .asc then
        {v with dir := .str (dirText .desc), switching := .bool true} else v).at p) := by
  have ec := value_eq_num lower lt (b := .num 0) (y := 0)
    ((get_switchcount lower lt v p).trans (congrArg _ hc)) rfl
  have ed := value_dirIs_asc lower lt (p := p) hd
  unfold turnStmt
  rw [runStmt, runStmt, value_and lower lt ec]
  by_cases h0 : c = 0
  · subst h0
    rw [if_pos (by decide), ed]
    cases d with
    | asc =>
      rw [if_pos ⟨rfl, rfl⟩]
      show (runStmt lower lt F (.seq (.assign (chars! "dir") (.str (chars! "desc")))
        (.seq (.assign (chars! "switching") (.bool true)) .skip)) (v.at p)).andThen _ = _
      rw [runStmt, runStmt]
      rw [show ∀ s, valueOf lower lt s (.str (chars! "desc")) = .ok (.str (chars! "desc")) from fun _ => rfl]
      rw [withValue, set_dir, JsRun.andThen, runStmt, runStmt]
      rw [show ∀ s, valueOf lower lt s (.bool true) = .ok (.bool true) from fun _ => rfl]
      rw [withValue, set_switching]
      rfl
    | desc =>
      rw [if_neg (fun h => nomatch h.2)]
      rfl
  · rw [show decide (((c : Nat) : Int) = 0) = false from decide_eq_false (by omega)]
    rw [if_neg (show ¬ truthy (.bool false) = true by decide),
      if_neg (show ¬ (c = 0 ∧ d = .asc) from fun h => h0 h.1)]
    rfl

/-! ## The rounds -/

/-- What holds of the variables before each round. -/
structure Ready (n : Nat) (d : SortDir) (c : Nat) (p : Page) (v : Vars) : Prop where
  table : v.table = .table
  n : v.n = .num n
  dir : v.dir = .str (dirText d)
  switchcount : v.switchcount = .num c
  quiet : 2 ≤ p.body.length ∨ truthy v.shouldSwitch = false

/-- How a round ends. -/
def RoundEnds (n : Nat) (d : SortDir) (c : Nat) (p : Page) (run : JsRun) :
    Outcome (Option (List Row)) → Prop
  | .ok none => ∃ v', run = .next (v'.at p) ∧
      if c = 0 ∧ d = .asc then v'.switching = .bool true ∧ Ready n .desc c p v'
      else v'.switching = .bool false
  | .ok (some rows) => ∃ v' body, run = .next (v'.at { p with body := body }) ∧
      v'.switching = .bool true ∧ body.Perm p.body ∧ body.map PageRow.cells = rows ∧
      Ready n d (c + 1) { p with body := body } v'
  | .throws e => run = .failed e
  | .ub => False

theorem run_round {v : Vars} {p : Page} {n : Nat} {d : SortDir} {c : Nat} {h : PageRow}
    (hready : Ready n d c p v) (hh : p.head = [h]) (hnd : (p.rows.map PageRow.id).Nodup)
    (hF : p.body.length < F) :
    RoundEnds n d c p (runStmt lower lt F whileBody (v.at p))
      (sortPass lower lt n d (p.body.map PageRow.cells)) := by
  have hrows : p.rows = [h] ++ p.body := by unfold Page.rows; rw [hh]
  unfold whileBody
  rw [runStmt, runStmt]
  rw [show ∀ s, valueOf lower lt s (.bool false) = .ok (.bool false) from fun _ => rfl]
  rw [withValue, set_switching, JsRun.andThen, runStmt, runStmt]
  have et : ∀ v : Vars, v.table = .table →
      valueOf lower lt (v.at p) (.member (.var (chars! "table")) (chars! "rows")) = .ok .rowsOf := by
    intro v hv
    rw [valueOf, get_table, hv]; rfl
  rw [et { v with switching := .bool false } hready.table, withValue, set_rows, JsRun.andThen, runStmt]
  unfold forStmt
  rw [runStmt, runStmt]
  rw [show ∀ s, valueOf lower lt s (.num 1) = .ok (.num 1) from fun _ => rfl]
  rw [withValue, set_i, JsRun.andThen]
  have hfor := run_for lower lt F hnd p.body [h]
    { v with switching := JsVal.bool false, rows := JsVal.rowsOf, i := JsVal.num 1 } F hrows (by simp) hF
    rfl hready.n hready.dir rfl
  unfold forRound at hfor
  generalize rounds _ _ F _ = run at hfor ⊢
  cases hs : sortPass lower lt n d (List.map PageRow.cells p.body) with
  | ub => rw [hs] at hfor; exact hfor
  | throws e =>
    rw [hs] at hfor
    rw [show run = .failed e from hfor]
    rfl
  | ok r =>
    rw [hs] at hfor
    cases r with
    | none =>
      obtain ⟨v', rfl, hk, hsw⟩ := hfor
      have hq : truthy v'.shouldSwitch = false := by
        rw [hsw]
        split
        · rfl
        · rcases hready.quiet with h2 | h2
          · contradiction
          · exact h2
      have hsc : v'.switchcount = .num c := hk.switchcount.trans hready.switchcount
      have hdir : v'.dir = .str (dirText d) := hk.dir.trans hready.dir
      rw [JsRun.andThen, runStmt, runStmt, get_shouldSwitch, withValue, hq, if_neg (by decide),
        run_turn lower lt F hsc hdir]
      refine ⟨_, rfl, ?_⟩
      split
      · exact ⟨rfl, hk.table.trans hready.table, hk.n.trans hready.n, rfl, hsc, Or.inr hq⟩
      · exact hk.switching
    | some rows =>
      obtain ⟨v', mid, post, a, b, rfl, hk, hsw, hbody, hi, hr⟩ := hfor
      have hsc : v'.switchcount = .num c := hk.switchcount.trans hready.switchcount
      rw [JsRun.andThen, runStmt, runStmt, get_shouldSwitch, withValue, hsw,
        if_pos (show truthy (.bool true) = true from rfl),
        run_switch lower lt F hk.rows (hi.trans (by simp)) hsc hh hbody hnd]
      refine ⟨_, mid ++ b :: a :: post, rfl, rfl, ?_, hr.symm, hk.table.trans hready.table,
        hk.n.trans hready.n, hk.dir.trans hready.dir, rfl, Or.inl (by simp; omega)⟩
      rw [hbody]
      exact List.Perm.append_left mid (List.Perm.swap a b post)

/-- How the `while` loop ends. -/
def LoopEnds (p : Page) (run : JsRun) : Outcome (Option (List Row)) → Prop
  | .ok none => True
  | .ok (some rows) => ∃ v' body, run = .next (Vars.at v' { p with body := body }) ∧
      body.Perm p.body ∧ body.map PageRow.cells = rows
  | .throws e => run = .failed e
  | .ub => False

theorem run_while {n : Nat} {h : PageRow} (k : Nat) : ∀ (v : Vars) (p : Page) (d : SortDir) (c : Nat),
    Ready n d c p v → v.switching = .bool true → p.head = [h] → (p.rows.map PageRow.id).Nodup →
    p.body.length < F →
    LoopEnds p (rounds (fun s => valueOf lower lt s (.var (chars! "switching")))
        (runStmt lower lt F whileBody) (k + 1) (v.at p))
      (sortLoop lower lt n k d c (p.body.map PageRow.cells)) := by
  induction k with
  | zero => intro v p d c _ _ _ _ _; exact trivial
  | succ k ih =>
    intro v p d c hready hsw hh hnd hF
    have hround := run_round lower lt F hready hh hnd hF
    rw [rounds, get_switching, hsw, withValue, if_pos (show truthy (.bool true) = true from rfl)]
    rw [sortLoop]
    generalize runStmt lower lt F whileBody (v.at p) = run at hround ⊢
    cases hs : sortPass lower lt n d (List.map PageRow.cells p.body) with
    | ub => rw [hs] at hround; exact hround.elim
    | throws e =>
      rw [hs] at hround
      rw [show run = .failed e from hround]
      exact rfl
    | ok r =>
      rw [hs] at hround
      rw [bind_ok']
      cases r with
      | none =>
        obtain ⟨v', rfl, hv⟩ := hround
        dsimp only
        split at hv
        · rename_i hcd
          rw [if_pos hcd]
          exact ih v' p .desc c hv.2 hv.1 hh hnd hF
        · rename_i hcd
          rw [if_neg hcd]
          refine ⟨v', p.body, ?_, List.Perm.refl _, rfl⟩
          rw [rounds, get_switching, hv, withValue, if_neg (by decide)]
      | some rows =>
        obtain ⟨v', body, rfl, hsw', hperm, rfl, hready'⟩ := hround
        dsimp only
        have hnd' : (({ p with body := body } : Page).rows.map PageRow.id).Nodup := by
          refine (List.Perm.nodup_iff (List.Perm.map _ ?_)).2 hnd
          exact List.Perm.append_left p.head hperm
        have := ih v' { p with body := body } d (c + 1) hready' hsw' hh hnd'
          (by rw [show ({ p with body := body } : Page).body = body from rfl, hperm.length_eq]; exact hF)
        dsimp only at this
        cases hl : sortLoop lower lt n k d (c + 1) (List.map PageRow.cells body) with
        | ub => rw [hl] at this; exact this
        | throws e => rw [hl] at this; exact this
        | ok r =>
          rw [hl] at this
          cases r with
          | none => trivial
          | some rows =>
            obtain ⟨v2, body2, h1, h2, h3⟩ := this
            exact ⟨v2, body2, h1, h2.trans hperm, h3⟩

end

end Oclint
