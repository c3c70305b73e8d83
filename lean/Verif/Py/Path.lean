import Verif.Py.Str
/-!
# `os.path` on POSIX systems

Semantics of the functions of CPython's `posixpath` used by weio (trusted base):
`join`, `basename`, `dirname`.
-/
namespace Verif.Py

/-- `os.path.join(a, b)` -/
def pjoin (a b : Str) : Str :=
  if b.head? = some '/' then b
  else if a = [] ∨ a.getLast? = some '/' then a ++ b
  else a ++ '/' :: b

/-- `os.path.basename`: the part behind the last slash -/
def basename (p : Str) : Str := (p.reverse.takeWhile (· ≠ '/')).reverse

/-- the part up to and including the last slash -/
def headPart (p : Str) : Str := (p.reverse.dropWhile (· ≠ '/')).reverse

/-- `os.path.dirname`: trailing slashes are removed unless there is nothing else -/
def dirname (p : Str) : Str :=
  let h := headPart p
  if h.all (· = '/') then h else rstripBy (· = '/') h

end Verif.Py
