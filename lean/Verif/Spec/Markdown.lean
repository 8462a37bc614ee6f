import Verif.Spec.Validate

/-!
A reader of the text forms of bases and of coefficient objects, line by line, written independently of the
code that produces them.
-/

set_option autoImplicit false

namespace Verif.Spec

/-- The lines of a text. -/
def mdLines (t : String) : List (List Char) := t.toList.splitOn '\n'

/-- The text between `pre` and `post`, if the line has this form. -/
def between (pre post : String) (line : List Char) : Option (List Char) :=
  if pre.toList <+: line then
    let rest := line.drop pre.toList.length
    if post.toList <:+ rest then some (rest.take (rest.length - post.toList.length)) else none
  else none

/-- A row of a table whose first cell is a name in backticks: the name and the text after its cell up to
`post`. -/
def cells (mid post : String) (line : List Char) : Option (String × String) :=
  if "| `".toList <+: line then
    let rest := line.drop 3
    let name := rest.takeWhile (· ≠ '`')
    (between mid post (rest.drop name.length)).map fun v => (String.ofList name, String.ofList v)
  else none

/-- A row of the table of a sector: name, LaTeX code, whether the coefficient is real. -/
def basisRow (line : List Char) : Option (String × String × Bool) :=
  match cells "` | $" "$ | R |" line with
  | some r => some (r.1, r.2, true)
  | none => (cells "` | $" "$ | C |" line).map fun r => (r.1, r.2, false)

/-- Sections with their rows: a line ``### `s` `` begins a section, a row belongs to the last section begun,
other lines say nothing. -/
def sections : List (List Char) → List (String × List (String × String × Bool)) × List (String × String × Bool)
  | [] => ([], [])
  | l :: ls =>
    let r := sections ls
    match between "### `" "`" l with
    | some s => ((String.ofList s, r.2) :: r.1, [])
    | none => match basisRow l with
      | some row => (r.1, row :: r.2)
      | none => r

/-- What the text of a basis says about its sectors: everything after the line `## Sectors`. -/
def basisText (t : String) : List (String × List (String × String × Bool)) :=
  (sections ((mdLines t).dropWhile (· ≠ "## Sectors".toList))).1

/-- The rows of the table of values. -/
def valueRows (t : String) : List (String × String) := (mdLines t).filterMap (cells "` | " " |")

/-- The first line of the form `pre … post`. -/
def field (pre post : String) (t : String) : Option String :=
  ((mdLines t).filterMap fun l => (between pre post l).map String.ofList).head?

/-- No line break. -/
def OneLine (s : String) : Prop := '\n' ∉ s.toList

/-- A name that can be quoted: one line, no backtick. -/
def Quotable (s : String) : Prop := OneLine s ∧ '`' ∉ s.toList

/-- The LaTeX code of a coefficient, empty if there is none. -/
def texString (d : Dict String JVal) : String :=
  match Dict.find d "tex" with
  | some (.str t) => t
  | _ => ""

/-- Whether the coefficient is declared real. -/
def declaredReal (d : Dict String JVal) : Bool :=
  match Dict.find d "real" with
  | some (.bool b) => b
  | _ => false

end Verif.Spec
