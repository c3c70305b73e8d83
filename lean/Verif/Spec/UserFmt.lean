import Verif.Model.UserFmt
import Verif.Lemmas.Hawc2Sel
/-!
# What the user folder says
-/
namespace Verif.UserFmt
open Verif.Py

/-- a class to be offered as a file format: "file" is in its name, which is not just "File", and "error" is not -/
def FileClass (c : Cls) : Prop :=
  lower c.name ≠ "file".toList ∧ "file".toList <:+: lower c.name ∧ ¬ "error".toList <:+: lower c.name

/-- the module has `c` as its first class to be offered -/
def Offers (f : UFile) (c : Cls) : Prop :=
  ∃ pre n post, f.load = .members (pre ++ (n, some c) :: post) ∧ FileClass c ∧ ∀ m ∈ pre, ∀ d, m.2 = some d → ¬ FileClass d

/-- the module cannot be imported, or has no class to be offered -/
def Fails (f : UFile) (e : Msg) : Prop :=
  (f.load = .raises ∧ e = .importing f.path) ∨ ∃ l, f.load = .members l ∧ e = .noClass f.path ∧ ∀ m ∈ l, ∀ d, m.2 = some d → ¬ FileClass d

/-- what the files give, in their order -/
inductive Collected : List UFile → List Cls → List Str → List Msg → Prop
  | nil : Collected [] [] [] []
  | offer (f : UFile) (fs : List UFile) (c : Cls) (cs ps es) (h : Offers f c) (hr : Collected fs cs ps es) : Collected (f :: fs) (c :: cs) (f.path :: ps) es
  | fail (f : UFile) (fs : List UFile) (e : Msg) (cs ps es) (h : Fails f e) (hr : Collected fs cs ps es) : Collected (f :: fs) cs ps (e :: es)

/-- the path is that of a file in a folder -/
def InFolder (f : UFile) : Prop := '/' ∈ f.path

end Verif.UserFmt
