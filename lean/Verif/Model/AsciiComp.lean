import Verif.Py.Str
/-!
# Comparison of text files and detection of binary files — `/repo/weio/file.py:157-191`

A file is given by the text that Python's `open(file, 'r')` delivers: decoding and the
translation of line ends are not modelled.
-/
namespace Verif.AsciiComp
open Verif.Py

/-- the line boundaries of `str.splitlines()` other than `\r\n` (CPython documentation) -/
def isBreak (c : Char) : Bool :=
  let n := c.toNat
  (10 ≤ n && n ≤ 13) || (28 ≤ n && n ≤ 30) || n == 0x85 || n == 0x2028 || n == 0x2029

/-- auxiliary of `splitlines`: `acc` is the line being read.  Simplification: no `\r\n`, since
universal newlines leave no `\r` in the text. -/
def splitlinesAux (acc : Str) : Str → List Str
  | [] => if acc = [] then [] else [acc]
  | c :: s => if isBreak c then acc :: splitlinesAux [] s else splitlinesAux (acc ++ [c]) s

/-- `str.splitlines()` -/
def splitlines (s : Str) : List Str := splitlinesAux [] s

/-- one line: `l.replace('\t',' ').strip()` (file.py:178, 183) -/
def clean (l : Str) : Str := strip (replaceChar '\t' [' '] l)

/-- the normalised text of a file (file.py:177-179, 182-184) -/
def norm (t : Str) : Str := joinWith [' '] (words (joinWith ['|'] ((splitlines t).map clean)))

/-- a directory of text files -/
abbrev FS := Str → Option Str

/-- `ascii_comp(file1, file2, bDelete)` (file.py:172-191): the directory afterwards and the
answer; `none` for a file that does not exist (FileNotFoundError) -/
def asciiComp (fs : FS) (file1 file2 : Str) (bDelete : Bool) : FS × Option Bool :=
  match fs file1 with
  | none => (fs, none)
  | some t1 =>
    match fs file2 with
    | none => (fs, none)
    | some t2 =>
      if norm t1 = norm t2 then
        (if bDelete then fun p => if p = file2 then none else fs p else fs, some true)
      else (fs, some false)

/-- the test of one character (file.py:165-166) -/
def weird (c : Char) : Bool := let code := c.toNat; code < 10 || (code > 14 && code < 31)

/-- the first line with its line end: `f.readline()` (file.py:162).  Simplification: the line
ends at `\n` (universal newlines). -/
def readline : Str → Str
  | [] => []
  | c :: s => if c = '\n' then [c] else c :: readline s

/-- `isBinary(filename)` (file.py:157-170); `none` when the start of the file cannot be decoded -/
def isBinary (text : Option Str) : Bool :=
  match text with
  | none => true
  | some t => (readline t).any weird

end Verif.AsciiComp
