import Verif.Spec.Card
import Verif.Model.Smeftsim

/-!
The rows of the SMEFTsim card as numbers: an independent description of every row (operator, flavour indices, expression),
from which SmeftsimCertA and SmeftsimCertB prove that it gives the rows of the model.
-/

set_option autoImplicit false

namespace Verif

open Spec

/-- An operator: Warsaw basis name, field content, SMEFTsim name in both model sets. -/
structure SOp where
  chars : List Char
  op : Op
  simA : List Char
  simB : List Char

/-- The operators that conserve baryon and lepton number. -/
def simOps : List SOp := [
  ⟨['G'], .boson,
    ['G'], ['G']⟩,
  ⟨['G', 't', 'i', 'l', 'd', 'e'], .boson,
    ['G', 't', 'i', 'l'], ['G', 't', 'i', 'l']⟩,
  ⟨['W'], .boson,
    ['W'], ['W']⟩,
  ⟨['W', 't', 'i', 'l', 'd', 'e'], .boson,
    ['W', 't', 'i', 'l'], ['W', 't', 'i', 'l']⟩,
  ⟨['p', 'h', 'i'], .boson,
    ['H'], ['H']⟩,
  ⟨['p', 'h', 'i', 'B', 'o', 'x'], .boson,
    ['H', 'b', 'o', 'x'], ['H', 'B', 'o', 'x']⟩,
  ⟨['p', 'h', 'i', 'D'], .boson,
    ['H', 'D', 'D'], ['H', 'D', 'D']⟩,
  ⟨['p', 'h', 'i', 'G'], .boson,
    ['H', 'G'], ['H', 'G']⟩,
  ⟨['p', 'h', 'i', 'G', 't', 'i', 'l', 'd', 'e'], .boson,
    ['H', 'G', 't', 'i', 'l'], ['H', 'G', 't', 'i', 'l']⟩,
  ⟨['p', 'h', 'i', 'W'], .boson,
    ['H', 'W'], ['H', 'W']⟩,
  ⟨['p', 'h', 'i', 'W', 't', 'i', 'l', 'd', 'e'], .boson,
    ['H', 'W', 't', 'i', 'l'], ['H', 'W', 't', 'i', 'l']⟩,
  ⟨['p', 'h', 'i', 'B'], .boson,
    ['H', 'B'], ['H', 'B']⟩,
  ⟨['p', 'h', 'i', 'B', 't', 'i', 'l', 'd', 'e'], .boson,
    ['H', 'B', 't', 'i', 'l'], ['H', 'B', 't', 'i', 'l']⟩,
  ⟨['p', 'h', 'i', 'W', 'B'], .boson,
    ['H', 'W', 'B'], ['H', 'W', 'B']⟩,
  ⟨['p', 'h', 'i', 'W', 't', 'i', 'l', 'd', 'e', 'B'], .boson,
    ['H', 'W', 'B', 't', 'i', 'l'], ['H', 'W', 'B', 't', 'i', 'l']⟩,
  ⟨['e', 'p', 'h', 'i'], .two (b .l) (n .e),
    ['e', 'H'], ['e', 'H']⟩,
  ⟨['e', 'W'], .two (b .l) (n .e),
    ['e', 'W'], ['e', 'W']⟩,
  ⟨['e', 'B'], .two (b .l) (n .e),
    ['e', 'B'], ['e', 'B']⟩,
  ⟨['u', 'p', 'h', 'i'], .two (b .q) (n .u),
    ['u', 'H'], ['u', 'H']⟩,
  ⟨['u', 'G'], .two (b .q) (n .u),
    ['u', 'G'], ['u', 'G']⟩,
  ⟨['u', 'W'], .two (b .q) (n .u),
    ['u', 'W'], ['u', 'W']⟩,
  ⟨['u', 'B'], .two (b .q) (n .u),
    ['u', 'B'], ['u', 'B']⟩,
  ⟨['d', 'p', 'h', 'i'], .two (b .q) (n .d),
    ['d', 'H'], ['d', 'H']⟩,
  ⟨['d', 'G'], .two (b .q) (n .d),
    ['d', 'G'], ['d', 'G']⟩,
  ⟨['d', 'W'], .two (b .q) (n .d),
    ['d', 'W'], ['d', 'W']⟩,
  ⟨['d', 'B'], .two (b .q) (n .d),
    ['d', 'B'], ['d', 'B']⟩,
  ⟨['p', 'h', 'i', 'l', '1'], .two (b .l) (n .l),
    ['H', 'l', '1'], ['H', 'l', '1']⟩,
  ⟨['p', 'h', 'i', 'l', '3'], .two (b .l) (n .l),
    ['H', 'l', '3'], ['H', 'L', '3']⟩,
  ⟨['p', 'h', 'i', 'e'], .two (b .e) (n .e),
    ['H', 'e'], ['H', 'e']⟩,
  ⟨['p', 'h', 'i', 'q', '1'], .two (b .q) (n .q),
    ['H', 'q', '1'], ['H', 'q', '1']⟩,
  ⟨['p', 'h', 'i', 'q', '3'], .two (b .q) (n .q),
    ['H', 'q', '3'], ['H', 'Q', '3']⟩,
  ⟨['p', 'h', 'i', 'u'], .two (b .u) (n .u),
    ['H', 'u'], ['H', 'u']⟩,
  ⟨['p', 'h', 'i', 'd'], .two (b .d) (n .d),
    ['H', 'd'], ['H', 'd']⟩,
  ⟨['p', 'h', 'i', 'u', 'd'], .two (b .u) (n .d),
    ['H', 'u', 'd'], ['H', 'u', 'd']⟩,
  ⟨['l', 'l'], .four (b .l) (n .l) (b .l) (n .l),
    ['l', 'l'], ['l', 'l']⟩,
  ⟨['q', 'q', '1'], .four (b .q) (n .q) (b .q) (n .q),
    ['q', 'q', '1'], ['q', 'q', '1']⟩,
  ⟨['q', 'q', '3'], .four (b .q) (n .q) (b .q) (n .q),
    ['q', 'q', '3'], ['Q', 'Q', '3']⟩,
  ⟨['l', 'q', '1'], .four (b .l) (n .l) (b .q) (n .q),
    ['l', 'q', '1'], ['l', 'q', '1']⟩,
  ⟨['l', 'q', '3'], .four (b .l) (n .l) (b .q) (n .q),
    ['l', 'q', '3'], ['L', 'Q', '3']⟩,
  ⟨['e', 'e'], .four (b .e) (n .e) (b .e) (n .e),
    ['e', 'e'], ['e', 'e']⟩,
  ⟨['u', 'u'], .four (b .u) (n .u) (b .u) (n .u),
    ['u', 'u'], ['u', 'u']⟩,
  ⟨['d', 'd'], .four (b .d) (n .d) (b .d) (n .d),
    ['d', 'd'], ['d', 'd']⟩,
  ⟨['e', 'u'], .four (b .e) (n .e) (b .u) (n .u),
    ['e', 'u'], ['e', 'u']⟩,
  ⟨['e', 'd'], .four (b .e) (n .e) (b .d) (n .d),
    ['e', 'd'], ['e', 'd']⟩,
  ⟨['u', 'd', '1'], .four (b .u) (n .u) (b .d) (n .d),
    ['u', 'd', '1'], ['u', 'd', '1']⟩,
  ⟨['u', 'd', '8'], .four (b .u) (n .u) (b .d) (n .d),
    ['u', 'd', '8'], ['U', 'D', '8']⟩,
  ⟨['l', 'e'], .four (b .l) (n .l) (b .e) (n .e),
    ['l', 'e'], ['l', 'e']⟩,
  ⟨['l', 'u'], .four (b .l) (n .l) (b .u) (n .u),
    ['l', 'u'], ['l', 'u']⟩,
  ⟨['l', 'd'], .four (b .l) (n .l) (b .d) (n .d),
    ['l', 'd'], ['l', 'd']⟩,
  ⟨['q', 'e'], .four (b .q) (n .q) (b .e) (n .e),
    ['q', 'e'], ['q', 'e']⟩,
  ⟨['q', 'u', '1'], .four (b .q) (n .q) (b .u) (n .u),
    ['q', 'u', '1'], ['q', 'u', '1']⟩,
  ⟨['q', 'u', '8'], .four (b .q) (n .q) (b .u) (n .u),
    ['q', 'u', '8'], ['Q', 'U', '8']⟩,
  ⟨['q', 'd', '1'], .four (b .q) (n .q) (b .d) (n .d),
    ['q', 'd', '1'], ['q', 'd', '1']⟩,
  ⟨['q', 'd', '8'], .four (b .q) (n .q) (b .d) (n .d),
    ['q', 'd', '8'], ['Q', 'D', '8']⟩,
  ⟨['l', 'e', 'd', 'q'], .four (b .l) (n .e) (b .d) (n .q),
    ['l', 'e', 'd', 'q'], ['l', 'e', 'd', 'q']⟩,
  ⟨['q', 'u', 'q', 'd', '1'], .four (b .q) (n .u) (b .q) (n .d),
    ['q', 'u', 'q', 'd', '1'], ['q', 'u', 'q', 'd', '1']⟩,
  ⟨['q', 'u', 'q', 'd', '8'], .four (b .q) (n .u) (b .q) (n .d),
    ['q', 'u', 'q', 'd', '8'], ['Q', 'U', 'Q', 'D', '8']⟩,
  ⟨['l', 'e', 'q', 'u', '1'], .four (b .l) (n .e) (b .q) (n .u),
    ['l', 'e', 'q', 'u', '1'], ['l', 'e', 'q', 'u', '1']⟩,
  ⟨['l', 'e', 'q', 'u', '3'], .four (b .l) (n .e) (b .q) (n .u),
    ['l', 'e', 'q', 'u', '3'], ['L', 'e', 'Q', 'u', '3']⟩]

/-- Flavour indices from a number. -/
def ixOf : Op → ℕ → List (Fin 3)
  | .boson, _ => []
  | .two _ _, n => [Fin.ofNat 3 (n / 3), Fin.ofNat 3 n]
  | .four _ _ _ _, n => [Fin.ofNat 3 (n / 27), Fin.ofNat 3 (n / 9), Fin.ofNat 3 (n / 3), Fin.ofNat 3 n]

/-- Expression from a number. -/
def kindOf : ℕ → CKind
  | 0 => .abs
  | 1 => .absOf
  | 2 => .ph
  | 3 => .val
  | _ => .lam

/-- SMEFTsim name. -/
def SOp.sim (o : SOp) : ModelSet → List Char
  | .A => o.simA
  | .B => o.simB

/-- `Abs` or `Ph` for operators with flavour. -/
def partOf (op : Op) (k : CKind) : List Char :=
  match op, k with
  | .boson, _ => []
  | _, .ph => ['P', 'h']
  | _, _ => ['A', 'b', 's']

/-- Comment of the cutoff. -/
def lamComment : ModelSet → List Char
  | .A => ['#', ' ', 'L', 'a', 'm', 'b', 'd', 'a', 'S', 'M', 'E', 'F', 'T']
  | .B => ['#', ' ', 'L', 'a', 'm', 'b', 'd', 'a']

/-- Characters of a flat name. -/
def nameChars (k : List Char) : List (Fin 3) → List Char
  | [] => k
  | i :: is => k ++ '_' :: (i :: is).map flavourDigit

/-- Operator by number. -/
def opNo (n : ℕ) : SOp := simOps.getD n ⟨[], .boson, [], []⟩

/-- Expression of a code. -/
def cKind (c : ℕ) : CKind := kindOf (c % 8)
/-- Operator of a code. -/
def cOp (c : ℕ) : SOp := opNo (c / 8 % 64)
/-- Flavour indices of the coefficient. -/
def cIx (c : ℕ) : List (Fin 3) := ixOf (cOp c).op (c / 512 % 128)
/-- Flavour indices in the comment. -/
def cIx' (c : ℕ) : List (Fin 3) := ixOf (cOp c).op (c / 65536)

/-- A row from its code. -/
def expand (m : ModelSet) (sep : Bool) (addr : List ℕ) (c : ℕ) : CRow :=
  match cKind c with
  | .lam => ⟨addr, .lam, String.ofList [], String.ofList (lamComment m)⟩
  | k => ⟨addr, k, String.ofList (nameChars (cOp c).chars (cIx c)),
      String.ofList ('#' :: ' ' :: 'c' :: (cOp c).sim m ++ partOf (cOp c).op k ++ simIndices sep (cIx' c))⟩

/-- Codes with their addresses. `none`: the address is the index tuple. `some n`: the addresses count from `n`. -/
def addrCodes : Option ℕ → List ℕ → List (List ℕ × ℕ)
  | none, l => l.map fun c => ((cIx c).map fun i => i.val + 1, c)
  | some n, l => (l.zipIdx n).map fun p => ([p.2], p.1)

/-- Rows of a block from their codes. -/
def codeRows (m : ModelSet) (start : Option ℕ) (l : List ℕ) : List CRow :=
  (addrCodes start l).map fun p => expand m start.isNone p.1 p.2

theorem codeRows_append (m : ModelSet) (n : ℕ) (l l' : List ℕ) :
    codeRows m (some n) (l ++ l') = codeRows m (some n) l ++ codeRows m (some (n + l.length)) l' := by
  simp [codeRows, addrCodes, List.zipIdx_append]

end Verif
