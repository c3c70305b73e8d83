import Verif.Model.HtcEdit
import Verif.Py.Dec
import Verif.Lemmas.HtcTree
/-!
# What changed HAWC2 files says
-/
namespace Verif.HtcEdit
open Verif.Py

/-- the values of the line at the end of a path of keys -/
def valuesAt {V : Type} : List Str → Kids V → Option (List V)
  | [], _ => none
  | k :: p, d =>
    match (d.find? fun q => q.1 = k).map Prod.snd with
    | none => none
    | some (.line _ v _) => if p = [] then some v else none
    | some (.sec _ _ _ kids) => valuesAt p kids
    | some (.out _ _ _ kids _) => valuesAt p kids

mutual
/-- lines and sections as they are made: names without double underscores, stripped names and comments, no output sections -/
def Plain {V : Type} : Item V → Prop
  | .line n _ c => ¬ ['_', '_'] <:+: n ∧ Htc.stripBlank c = c
  | .sec n bc ec kids => strip n = n ∧ Htc.stripBlank bc = bc ∧ Htc.stripBlank ec = ec ∧ PlainKids kids
  | .out _ _ _ _ _ => False
/-- the contents of a section as they are made -/
def PlainKids {V : Type} : List (Str × Item V) → Prop
  | [] => True
  | (_, x) :: r => Plain x ∧ PlainKids r
end

/-- the key stands for a line, or for nothing -/
def LineOrNone {V : Type} (d : Kids V) (k : Str) : Prop :=
  ∀ q ∈ d, q.1 = k → ∃ n v c, q.2 = .line n v c

/-- there is a section of this key, with this dictionary -/
def HasSec {V : Type} (d : Kids V) (k : Str) (kids : Kids V) : Prop :=
  ∃ x, (d.find? fun q => q.1 = k).map Prod.snd = some x ∧ ((∃ n bc ec, x = .sec n bc ec kids) ∨ ∃ n bc ec ss, x = .out n bc ec kids ss)

/-- the section has the value `v` in front of its line `field` -/
def fits {V : Type} [DecidableEq V] (field : Str) (v : V) (x : Item V) : Bool :=
  match kidsOf x with
  | some kids => decide ((valuesAt [field] kids).bind List.head? = some v)
  | none => false

/-- the line has the value `v` at position `i` -/
def isAt {V : Type} [DecidableEq V] (i : Nat) (v : V) : Item V → Bool
  | .line _ vals _ => decide (vals[i]? = some v)
  | _ => false

end Verif.HtcEdit
