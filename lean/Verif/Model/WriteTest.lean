import Verif.Model.AsciiComp
import Verif.Model.Detect
/-!
# The tests of writing that every file object has — `/repo/weio/file.py:111-152`

`test_write_read` and `test_ascii` of the base class, with `read` and `write` (`file.py:27-45`)
for a name that is not empty.  The hooks `_read` and `_write` of a class are parameters.
Simplification: files are texts, as in `AsciiComp`; `_write` writes to the file it is told and to
no other; `self.filename` is a text, i.e. the object has been read.
-/
namespace Verif.WriteTest
open Verif.Py
open Verif.AsciiComp (FS asciiComp)

/-- an argument of an exception, `e.args[0]` (file.py:121, 126): a text or a number -/
inductive Arg where
  | str (s : Str)
  | num (n : Int)
deriving Repr, DecidableEq

/-- an exception of a hook or of `read` (file.py:31-35): its `args` -/
structure Exc where
  args : List Arg
deriving Repr, DecidableEq

/-- how the tests can end other than well (file.py:120-126, 152, 175, 181) -/
inductive Err where
  | plain (msg : Str)     -- Exception(msg)
  | index                 -- IndexError: `e.args[0]` of an exception without arguments
  | type                  -- TypeError: text + number
  | notFound              -- FileNotFoundError of `open`
  | hook (e : Exc)        -- the exception of `write` in `test_ascii` itself
  | differ (a b : Str)    -- Exception('The ascii content of {} and {} are different')
deriving Repr, DecidableEq

/-- the hooks of a class, called at file.py:37 and file.py:45.  `emit`: the text in the file
afterwards (`none` if the file was not opened) and the exception, if any.  `parse`: the data
afterwards, given the data before and the text of the file. -/
structure Hooks (δ : Type) where
  emit : δ → Option Str × Option Exc
  parse : δ → Str → δ × Option Exc

/-- the object, `self.filename` and its data, and the files (file.py:14-25) -/
structure St (δ : Type) where
  fs : FS
  filename : Str
  data : δ

/-- `os.path.splitext(p)` (file.py:117, 135) -/
def splitext (p : Str) : Str × Str :=
  (p.take (p.length - (Detect.splitextExt p).length), Detect.splitextExt p)

/-- one file of a directory set to a content (file.py:45, 128, 149, 188) -/
def setFile (fs : FS) (name : Str) (t : Option Str) : FS := fun p => if p = name then t else fs p

/-- `write(filename)` (file.py:39-45) -/
def write (h : Hooks δ) (s : St δ) (name : Str) : St δ × Option Exc :=
  match h.emit s.data with
  | (none, e) => ({ s with filename := name }, e)
  | (some t, e) => ({ s with filename := name, fs := setFile s.fs name (some t) }, e)

/-- `read(filename)` (file.py:27-37) -/
def read (h : Hooks δ) (s : St δ) (name : Str) : St δ × Option Exc :=
  match s.fs name with
  | none => ({ s with filename := name }, some ⟨[.num 2, .str "File not found:".toList, .str name]⟩)
  | some [] => ({ s with filename := name }, some ⟨[.str "File is empty:".toList, .str name]⟩)
  | some (c :: t) =>
    let r := h.parse s.data (c :: t)
    ({ s with filename := name, data := r.1 }, r.2)

/-- `Exception(text + e.args[0])` (file.py:121, 126) -/
def wrap (text : Str) (e : Exc) : Err :=
  match e.args with
  | [] => .index
  | .str m :: _ => .plain (text ++ m)
  | .num _ :: _ => .type

/-- `'Error writing what we read\n'` (file.py:121) -/
def writing : Str := "Error writing what we read\n".toList

/-- `'Error reading what we wrote\n'` (file.py:126) -/
def reading : Str := "Error reading what we wrote\n".toList

/-- the name `f+'_TMP'+ext` (file.py:118) -/
def tmpName (p : Str) : Str := (splitext p).1 ++ "_TMP".toList ++ (splitext p).2

/-- the name `f+'_TMP2'+ext` (file.py:142) -/
def tmp2Name (p : Str) : Str := (splitext p).1 ++ "_TMP2".toList ++ (splitext p).2

/-- `test_write_read(bDelete)` (file.py:111-129) -/
def testWriteRead (h : Hooks δ) (s : St δ) (bDelete : Bool) : St δ × Except Err Str :=
  let out := tmpName s.filename
  match write h s out with
  | (s1, some e) => (s1, .error (wrap writing e))
  | (s1, none) =>
    match read h s1 out with
    | (s2, some e) => (s2, .error (wrap reading e))
    | (s2, none) =>
      (if bDelete then { s2 with fs := setFile s2.fs out none } else s2, .ok out)

/-- the comparison and what follows (file.py:147-152) -/
def compare (s : St δ) (f1 f2 : Str) (bCompareWritesOnly bDelete : Bool) : St δ × Except Err Unit :=
  match asciiComp s.fs f1 f2 bDelete with
  | (_, none) => (s, .error .notFound)
  | (fs, some true) =>
    ({ s with fs := if bCompareWritesOnly && bDelete then setFile fs f1 none else fs }, .ok ())
  | (fs, some false) => ({ s with fs := fs }, .error (.differ f1 f2))

/-- `test_ascii(bCompareWritesOnly, bDelete)` (file.py:131-152) -/
def testAscii (h : Hooks δ) (s : St δ) (bCompareWritesOnly bDelete : Bool) : St δ × Except Err Unit :=
  match testWriteRead h s false with
  | (s1, .error e) => (s1, .error e)
  | (s1, .ok out) =>
    if bCompareWritesOnly then
      match write h s1 (tmp2Name s.filename) with
      | (s2, some e) => (s2, .error (.hook e))
      | (s2, none) => compare s2 out (tmp2Name s.filename) bCompareWritesOnly bDelete
    else compare s1 ((splitext s.filename).1 ++ (splitext s.filename).2) out bCompareWritesOnly bDelete

end Verif.WriteTest
