import Verif.Model.Reporters
import Verif.Spec.HtmlPage

/-!
# The head of an HTML report (C55, C61)
-/

namespace Oclint
open Spec

/-- **C55 (HTML).** The head of the page is a title, a style sheet and a script.  Nothing in the style
sheet or the script looks like the end of either to a reader of HTML.  The style sheet reads as rules,
the classes of the cells get their colours and nothing stays open in the script, which defines
`sortTable` and works on the table the rows are in. -/
theorem C55_html_head : ∃ style script rules,
    htmlHead = "<head><title>OCLint Report</title><style type='text/css'>".toList ++ style
      ++ "</style><script>".toList ++ script ++ "</script></head>".toList ∧
    ¬ "</".toList <:+: style ∧ ¬ "</".toList <:+: script ∧
    readStyle style = some rules ∧ rules.length = 13 ∧
    (∀ p ∈ cellColours, styleOf rules ('.' :: p.1) "background-color".toList = some p.2 ∧
      styleOf rules ('.' :: p.1) "font-weight".toList = some "bold".toList) ∧
    styleOf rules ".sortable".toList "cursor".toList = some "pointer".toList ∧
    openBrackets false [] script = some [] ∧
    "function sortTable(n) {".toList <+: script ∧
    "document.getElementById(\"violations-table\")".toList <:+: script ∧
    "<table id=\"violations-table\">".toList <+: htmlDetailsHead := by
  refine ⟨htmlStyle, htmlScript, ((readStyle htmlStyle).getD []), ?_, ?_, ?_, ?_, ?_, ?_, ?_, ?_, ?_, ?_, ?_⟩
  all_goals decide +kernel

end Oclint
