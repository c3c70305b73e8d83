import Verif.Model.FlexDoc
/-!
# The tables of FLEX documentation files

`/repo/weio/flex_doc_file.py`, lines 196-208: `_toDataFrame`.
-/
namespace Verif.FlexDoc
open Verif.Py

/-- a data frame: its labels and its rows -/
abbrev Frame (F : Type) := List Str × List (List F)

/-- a value of a group: a table is added (206-207) -/
def addTable (k k2 : Str) (v : Val F) (dfs : List (Str × Frame F)) : List (Str × Frame F) :=
  match v with
  | .frame c r => store (k ++ '_' :: k2) (c, r) dfs
  | _ => dfs

/-- the tables of one group (204-207) -/
def addGroup (k : Str) : List (Str × Val F) → List (Str × Frame F) → List (Str × Frame F)
  | [], dfs => dfs
  | (k2, v) :: g, dfs => addGroup k g (addTable k k2 v dfs)

/-- the tables of one key (199-207) -/
def addEntry (k : Str) (e : Entry F) (dfs : List (Str × Frame F)) : List (Str × Frame F) :=
  match e with
  | .one (.frame c r) => store k (c, r) dfs
  | .one _ => dfs
  | .group g => addGroup k g dfs

/-- `_toDataFrame` (196-208), from the tables found so far -/
def framesFrom : Doc F → List (Str × Frame F) → List (Str × Frame F)
  | [], dfs => dfs
  | (k, e) :: d, dfs => framesFrom d (addEntry k e dfs)

/-- `_toDataFrame` (196-208) -/
def toDataFrame (d : Doc F) : List (Str × Frame F) := framesFrom d []

end Verif.FlexDoc
