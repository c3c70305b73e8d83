import Verif.Model.DeckRead
/-!
# The input files of a FAST input deck — `/repo/weio/fast_input_deck.py:152-218`

The simplifications are those of `Verif.Model.DeckRead`.
-/
namespace Verif.DeckFiles
open Verif.Py Verif.DeckRead

/-- `fst_vt[slot][key].replace('"','')`, where any exception gives None -/
def ref (d : Deck) (slot : Slot) (key : String) : Option Str :=
  match d.vt slot with
  | none => none
  | some f => match getStr f key with
    | .ok s => some (unquote s)
    | .error _ => none

/-- 'none' for what is not there (165, 172, 182, 189, 196) -/
def orNone (o : Option Str) : Str := o.getD "none".toList

/-- `ED_relpath` (161-165) -/
def edRel (d : Deck) : Str := orNone (ref d .fst "EDFile")

/-- `ED_twr_relpath` (168-172) -/
def edTwrRel (d : Deck) : Str :=
  match d.vt .fst, d.vt .ed with
  | some main, some ed => twrRel main ed
  | _, _ => "none".toList

/-- `ED_bld_relpath` (175-182) -/
def edBldRel (d : Deck) : Str :=
  match d.vt .fst, d.vt .ed with
  | some main, some ed => bldRel main ed
  | _, _ => "none".toList

/-- `BD_relpath` (185-189) -/
def bdRel (d : Deck) : Str := orNone (ref d .fst "BDBldFile(1)")

/-- `BD_bld_relpath` (192-196) -/
def bdBldRel (d : Deck) : Str :=
  match ref d .fst "BDBldFile(1)", ref d .bd "BldFile" with
  | some b, some l => pjoin (dirname b) l
  | _, _ => "none".toList

/-- `_fullpath` (211-217) -/
def fullpath (d : Deck) (rel : Str) : Str :=
  if lower (basename (unquote rel)) ∈ unusedNames then "none".toList else pjoin (dirname d.filename) (unquote rel)

/-- `inputFiles` (152-157, 198-207) -/
def inputFiles (d : Deck) : List Str :=
  ([fullpath d (edRel d), fullpath d (edTwrRel d), fullpath d (edBldRel d)] ++ [fullpath d (bdRel d), fullpath d (bdBldRel d)]).filter
    fun f => f ∉ unusedNames

end Verif.DeckFiles
