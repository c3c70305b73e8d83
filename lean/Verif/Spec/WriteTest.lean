import Verif.Model.WriteTest
import Verif.Props.AsciiComp
import Verif.Py.Dec
/-!
# What the tests of writing says
-/
namespace Verif.WriteTest
open Verif.Py
open Verif.AsciiComp (FS asciiComp content)

/-- `base` is a file name: `stem` with something else than dots, and a suffix `'.' ++ e` -/
structure Named (dir stem e : Str) : Prop where
  dir : dir = [] ∨ dir.getLast? = some '/'
  stem : '/' ∉ stem ∧ ∃ c ∈ stem, c ≠ '.'
  ext : '/' ∉ e ∧ '.' ∉ e

end Verif.WriteTest
