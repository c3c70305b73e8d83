import Verif.Model.DeckFiles
import Verif.Lemmas.DeckRead
import Verif.Lemmas.Path
/-!
# What the input files of a deck says
-/
namespace Verif.DeckFiles
open Verif.Py Verif.DeckRead

/-- the file of a slot has this text under the key -/
def Says (d : Deck) (slot : Slot) (key : Str) (s : Str) : Prop :=
  ∃ f, d.vt slot = some f ∧ (f.find? fun p => p.1 = key).map Prod.snd = some (.str s)

/-- a name that stands for a file: without quotes, and not one of the names for unused files -/
def Used (s : Str) : Prop :=
  '"' ∉ s ∧ lower (basename s) ∉ (["unused", "nan", "na", "none"].map String.toList)

/-- the path of a file `t` that is named in the file `e`, which is named in the main file: relative to the directory of `e` -/
def nested (d : Deck) (e t : Str) : Str := pjoin (dirname d.filename) (pjoin (dirname e) t)

end Verif.DeckFiles
