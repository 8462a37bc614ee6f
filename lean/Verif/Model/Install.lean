import Verif.Model.Registered
import Verif.Model.Cli
import Verif.Model.Import

/-!
The registries as they are after `import wcxf`.
-/

set_option autoImplicit false

namespace Verif

/-- The decorator `@wcxf.translator(eft, from_basis, to_basis)` (classes.py:466-480) on one function of
translators/__init__.py. -/
def regTranslator (p : Par) : List String × (Par → Fn) → Option Op
  | ([e, f, t], fn) => some (.newTranslator e f t (fn p))
  | _ => none

/-- The decorator `@wcxf.matcher(from_eft, from_basis, to_eft, to_basis)` (classes.py:483-497) on one function of
matchers/__init__.py. -/
def regMatcher (p : Par) : List String × (Par → Fn) → Option Op
  | ([e, f, e', t], fn) => some (.newMatcher e f e' t (fn p))
  | _ => none

/-- `wcxf/__init__.py:2-3`: the registrations performed by importing the subpackages. (The listings of the bases, which
the functions look up when they are called, are those of `E`.) -/
noncomputable def importOps (E : REnv) (p : Par) : List Op :=
  (matchers E).filterMap (regMatcher p) ++ (translators E).filterMap (regTranslator p)

/-- `wcxf/__init__.py:11-22`: the files of the submodule define EFTs and bases; `files` are these definitions
(`importPkg` in `Verif.Model.Import` is an instance, see `C94_import`). -/
noncomputable def imported (E : REnv) (p : Par) (files : List Op) : Store := run (importOps E p ++ files)

end Verif
