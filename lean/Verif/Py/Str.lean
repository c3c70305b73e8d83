/-!
# Python strings

Shared vocabulary for the models.  A Python `str` is a list of code points.
These definitions give the semantics of the CPython built-ins used by weio
(they are part of the trusted base, DESIGN.md):

* `isWs`   — `str.isspace` per character, the set used by `strip()`/`split()`
* `strip`, `lstrip`, `rstrip` — `str.strip()` etc. without argument
* `stripBy p` — `str.strip(chars)`
* `words`  — `str.split()` without argument
* `splitOn c` — `str.split(c)` for a one-character separator
* `lower`  — `str.lower()`; simplification: ASCII letters only
* `find`   — `str.find(sub)`, `none` standing for `-1`
* `replaceChar` — `str.replace(a, b)` for a one-character `a`
* `joinWith` — `sep.join(list)`
-/
namespace Verif.Py

abbrev Str := List Char

/-- CPython `Py_UNICODE_ISSPACE`: the characters removed by `strip()` and
separating words in `split()`. -/
def isWs (c : Char) : Bool :=
  let n := c.toNat
  (9 ≤ n && n ≤ 13) || (28 ≤ n && n ≤ 32) || n == 0x85 || n == 0xA0 || n == 0x1680
    || (0x2000 ≤ n && n ≤ 0x200A) || n == 0x2028 || n == 0x2029 || n == 0x202F
    || n == 0x205F || n == 0x3000

/-- `str.lower()` (ASCII letters only: simplification). -/
def lower (s : Str) : Str := s.map Char.toLower

/-- remove leading characters satisfying `p` (`str.lstrip(chars)`). -/
def lstripBy (p : Char → Bool) (s : Str) : Str := s.dropWhile p

/-- remove trailing characters satisfying `p` (`str.rstrip(chars)`). -/
def rstripBy (p : Char → Bool) (s : Str) : Str := (s.reverse.dropWhile p).reverse

/-- `str.strip(chars)`. -/
def stripBy (p : Char → Bool) (s : Str) : Str := rstripBy p (lstripBy p s)

/-- `str.strip()`. -/
def strip (s : Str) : Str := stripBy isWs s

/-- `str.lstrip()`. -/
def lstrip (s : Str) : Str := lstripBy isWs s

/-- `str.rstrip()`. -/
def rstrip (s : Str) : Str := rstripBy isWs s

/-- `str.startswith(p)`. -/
def startsWith (s p : Str) : Bool := p.isPrefixOf s

/-- `str.find(sub)`: index of the first occurrence, `none` for `-1`. -/
def find (sub : Str) : Str → Option Nat
  | [] => if sub = [] then some 0 else none
  | c :: s => if sub.isPrefixOf (c :: s) then some 0 else (find sub s).map (· + 1)

/-- `str.split(c)` with a one-character separator: always at least one piece. -/
def splitOn (c : Char) : Str → List Str
  | [] => [[]]
  | x :: s =>
    if x = c then [] :: splitOn c s
    else match splitOn c s with
      | [] => [[x]]          -- unreachable
      | p :: ps => (x :: p) :: ps

/-- auxiliary of `words`: `acc` is the word being read. -/
def wordsAux (acc : Str) : Str → List Str
  | [] => if acc = [] then [] else [acc]
  | x :: s =>
    if isWs x then (if acc = [] then wordsAux [] s else acc :: wordsAux [] s)
    else wordsAux (acc ++ [x]) s

/-- `str.split()` without argument. -/
def words (s : Str) : List Str := wordsAux [] s

/-- `str.replace(a, b)` for a one-character `a`. -/
def replaceChar (a : Char) (b : Str) (s : Str) : Str :=
  s.flatMap (fun c => if c = a then b else [c])

/-- `sep.join(parts)`. -/
def joinWith (sep : Str) : List Str → Str
  | [] => []
  | [p] => p
  | p :: ps => p ++ sep ++ joinWith sep ps

end Verif.Py
