import Mathlib.Data.List.Basic

/-!
Reading a parameter card (Les Houches format): comments start with `#`, a line `Block NAME` starts a block, `DECAY id width`
gives a width, any other line with tokens is an entry of the current block: the last token is the value, those before it the address.
No reference to the model.
-/

set_option autoImplicit false

namespace Verif.Spec

/-- Tokens of a line, without the comment. -/
def lhaTokens (line : List Char) : List (List Char) :=
  ((line.takeWhile fun c => decide (c ≠ '#')).splitOn ' ').filter fun t => decide (t ≠ [])

/-- An entry: block, address, value. -/
abbrev LhaEntry := List (List Char) × List (List Char) × List Char

/-- The entries of lines inside the block `b`. -/
def lhaLines (b : List (List Char)) : List (List Char) → List LhaEntry
  | [] => []
  | line :: ls =>
    match lhaTokens line with
    | [] => lhaLines b ls
    | t :: ts =>
      if t = ['B', 'l', 'o', 'c', 'k'] then lhaLines ts ls
      else if t = ['D', 'E', 'C', 'A', 'Y'] then ([t], ts.dropLast, ts.getLastD []) :: lhaLines b ls
      else (b, (t :: ts).dropLast, ts.getLastD t) :: lhaLines b ls

/-- The entries of a text. -/
def lhaEntries (text : String) : List LhaEntry := lhaLines [] (text.toList.splitOn '\n')

end Verif.Spec
