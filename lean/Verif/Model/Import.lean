import Verif.Model.History

/-!
Model of the definitions read at package import: `wcxf/__init__.py:8-22`.

Each file is given by the arguments its document passes to the class (`EFT.load`, `Basis.load`, see
`Verif.Model.IO`). The lists are in the order in which `glob` returned the files. An exception stops
the import.
-/

set_option autoImplicit false

namespace Verif

structure EFTFile where
  eft : String
  sectors : Sectors
  kw : Dict String JVal

structure BasisFile where
  eft : String
  basis : String
  sectors : Sectors
  kw : Dict String JVal

/-- `__init__.py:16-18`. -/
def importEFTs (st : Store) : List EFTFile → Store × Except PyErr Unit
  | [] => (st, .ok ())
  | f :: fs => match newEFT st f.eft f.sectors f.kw with
    | (st', .error e) => (st', .error e)
    | (st', .ok _) => importEFTs st' fs

/-- `__init__.py:20-22`. -/
def importBases (st : Store) : List BasisFile → Store × Except PyErr Unit
  | [] => (st, .ok ())
  | f :: fs => match newBasis st f.eft f.basis f.sectors f.kw with
    | (st', .error e) => (st', .error e)
    | (st', .ok _) => importBases st' fs

/-- `__init__.py:16-22`; `st` is the state after the translators and matchers have been registered
(lines 2-3). -/
def importPkg (st : Store) (efts : List EFTFile) (bases children : List BasisFile) :
    Store × Except PyErr Unit :=
  match importEFTs st efts with
  | (st', .error e) => (st', .error e)
  | (st', .ok _) => importBases st' (bases ++ children)

end Verif
