import Verif.Model.HtcQuery
import Verif.Lemmas.HtcEdit
import Verif.Lemmas.Str
/-!
# What the contents of HAWC2 files at paths says
-/
namespace Verif.HtcQuery
open Verif.Py Verif.HtcEdit

/-- the contents at the end of a path of names -/
inductive At {V : Type} : Kids V → List Str → Item V → Prop
  | here (d : Kids V) (k : Str) (x : Item V) : (d.find? fun q => q.1 = k).map Prod.snd = some x → At d [k] x
  | sec (d kids : Kids V) (k : Str) (ks : List Str) (x : Item V) : HasSec d k kids → At kids ks x → At d (k :: ks) x

/-- the path ends at a name that its section does not have -/
inductive Ends {V : Type} : Kids V → List Str → Prop
  | here (d : Kids V) (k : Str) (ks : List Str) : k ∉ d.map Prod.fst → Ends d (k :: ks)
  | sec (d kids : Kids V) (k : Str) (ks : List Str) : HasSec d k kids → Ends kids ks → Ends d (k :: ks)

/-- the text of a path: names with dots or slashes between them -/
inductive PathText : List Str → Str → Prop
  | one (k : Str) : '.' ∉ k → '/' ∉ k → PathText [k] k
  | dot (k : Str) (ks : List Str) (t : Str) : '.' ∉ k → '/' ∉ k → PathText ks t → PathText (k :: ks) (k ++ '.' :: t)
  | slash (k : Str) (ks : List Str) (t : Str) : '.' ∉ k → '/' ∉ k → PathText ks t → PathText (k :: ks) (k ++ '/' :: t)

end Verif.HtcQuery
