import Verif.Model.Eos

/-!
Model of the LaTeX check `_testtex` (`wcxf/classes.py:55-104`).

The executable is external. Its behaviour is a value: not installed, or a return code together with
the lines of the log file it left (`none`: no log file). Temporary directories are counted. Errors while
creating the directory or writing the `.tex` file, and log files that are not decodable text, are not
modelled.
-/

set_option autoImplicit false

namespace Verif

/-- What happens when `latex` is started. -/
inductive LatexRun where
  | missing
  | ran (returncode : Int) (log : Option (List String))

/-- The returned dictionary: key `success`, and key `log` unless absent. -/
structure TexResult where
  success : Bool
  log : Option String
  deriving DecidableEq

/-- Characters removed by `str.strip()`. -/
def pySpace (c : Char) : Bool :=
  let n := c.toNat
  (0x09 ≤ n && n ≤ 0x0d) || (0x1c ≤ n && n ≤ 0x20) || n == 0x85 || n == 0xa0 || n == 0x1680 ||
  (0x2000 ≤ n && n ≤ 0x200a) || n == 0x2028 || n == 0x2029 || n == 0x202f || n == 0x205f || n == 0x3000

/-- `l.strip() == ''`. -/
def isBlank (l : String) : Bool := l.toList.all pySpace

/-- Condition of classes.py:87. -/
def isTexError (l : String) : Bool := contains "Undefined control sequence" l || contains "Emergency stop" l

/-- The loop classes.py:92-98, entered with line number `i` and `l = logl[i]`. -/
def texLoop (logl : List String) (i : Nat) (l acc : String) (hi : i < logl.length) : String :=
  if isBlank l then acc
  else
    let acc' := acc ++ logl[i]
    if h : i + 1 < logl.length then texLoop logl (i + 1) logl[i + 1] acc' h
    else acc'
  termination_by logl.length - i

/-- classes.py:85-98: the excerpt of the log. -/
def texExcerpt (logl : List String) : String :=
  let i := logl.findIdx isTexError
  if h : i < logl.length then texLoop logl i logl[i] "" h else ""

/-- classes.py:55-104 `_testtex`: result and number of temporary directories left behind. Without a log
file the name `logl` is unbound at classes.py:86. -/
def testtex (r : LatexRun) (delete : Bool) : Except PyErr TexResult × Nat :=
  match r with
  | .missing => (.ok ⟨true, none⟩, 1)
  | .ran _ none => (.error .unboundLocal, 1)
  | .ran code (some logl) => (.ok ⟨decide (code = 0), some (texExcerpt logl)⟩, if delete then 0 else 1)

end Verif
