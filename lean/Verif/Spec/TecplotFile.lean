import Verif.Model.Tecplot
import Verif.Lemmas.Str
import Mathlib.Data.List.Forall2
/-!
# Tecplot files as people write them

What a section of a Tecplot file says (`Says`), how it may be laid out on lines (`Sect`, `Lines`), and
how rows of numbers may be laid out (`Rows`). Nothing here refers to the reader of
`/repo/weio/tecplot_file.py`; only the keywords (tecplot_file.py:22) and the number texts `Txt` are shared.
-/
namespace Verif.Tecplot
open Verif.Py

/-- what a section says -/
inductive Says (F : Type) where
  | title (t : Str)
  | vars (ns : List Str)
  | zone (k : Str) (v : Val F)
  | aux (k : Str) (v : Val F)
  | text (t : Str)
  | geometry (t : Str)
  | labels (t : Str)
  | varaux (t : Str)
deriving DecidableEq, Repr

/-- its keyword -/
def Says.sec : Says F → Sec
  | .title _ => .title
  | .vars _ => .variables
  | .zone _ _ => .zone
  | .aux _ _ => .aux
  | .text _ => .text
  | .geometry _ => .geometry
  | .labels _ => .customlabels
  | .varaux _ => .varaux

/-! ### What a file says as a whole: the last word counts -/

def lastTitle (ss : List (Says F)) : Option Str :=
  (ss.filterMap fun | .title t => some t | _ => none).getLast?
def lastVars (ss : List (Says F)) : Option (List Str) :=
  (ss.filterMap fun | .vars ns => some ns | _ => none).getLast?
def lastText (ss : List (Says F)) : Option Str :=
  (ss.filterMap fun | .text t => some t | _ => none).getLast?
def lastGeometry (ss : List (Says F)) : Option Str :=
  (ss.filterMap fun | .geometry t => some t | _ => none).getLast?
def lastLabels (ss : List (Says F)) : Option Str :=
  (ss.filterMap fun | .labels t => some t | _ => none).getLast?
def lastVaraux (ss : List (Says F)) : Option Str :=
  (ss.filterMap fun | .varaux t => some t | _ => none).getLast?
/-- the settings of the zone, in order -/
def zoneSettings (ss : List (Says F)) : List (Str × Val F) :=
  ss.filterMap fun | .zone k v => some (k, v) | _ => none
/-- the auxiliary settings, in order -/
def auxSettings (ss : List (Says F)) : List (Str × Val F) :=
  ss.filterMap fun | .aux k v => some (k, v) | _ => none

/-- a dictionary, filled by assignments: the last value of each key -/
def HoldsLast (d : Option (List (Str × Val F))) (asg : List (Str × Val F)) : Prop :=
  (d = none ↔ asg = []) ∧ ∀ k, (d.getD []).lookup k = asg.reverse.lookup k

/-- what has been said is what the document holds -/
structure Holds (d : Doc F) (ss : List (Says F)) : Prop where
  title : d.title = lastTitle ss
  vars : d.vars = lastVars ss
  text : d.text = lastText ss
  geometry : d.geometry = lastGeometry ss
  labels : d.customlabels = lastLabels ss
  varaux : d.varaux = lastVaraux ss
  zone : HoldsLast d.zone (zoneSettings ss)
  aux : HoldsLast d.aux (auxSettings ss)

/-! ### Names of variables -/

/-- names that the reader does not change: no doubled blanks or underscores, and an underscore
before every bracket -/
def Stable (n : Str) : Prop :=
  ¬ [' ', ' '] <:+: n ∧ ¬ ['_', '_'] <:+: n ∧
  ∀ p b q, n = p ++ b :: q → b ∈ ['[', '('] → p.getLast? = some '_'

/-- no separators within a name -/
def NoSeps (n : Str) : Prop := '=' ∉ n ∧ ',' ∉ n ∧ '"' ∉ n ∧ '\n' ∉ n

/-- `"a b", "c"`: names in quotes, between them a comma, a blank, or both -/
inductive QuotedNames : List Str → Str → Prop
  | one (n : Str) : QuotedNames [n] ('"' :: (n ++ ['"']))
  | cons (n m : Str) (ns : List Str) (sep t : Str) :
    sep ∈ [",".toList, " ".toList, ", ".toList] → QuotedNames (m :: ns) t →
    QuotedNames (n :: m :: ns) ('"' :: (n ++ '"' :: (sep ++ t)))

/-- `a, b c`: words, between them blanks and commas -/
inductive PlainNames : List Str → Str → Prop
  | one (n : Str) : PlainNames [n] n
  | cons (n m : Str) (ns : List Str) (sep t : Str) :
    sep ≠ [] → (∀ c ∈ sep, c = ' ' ∨ c = ',') → PlainNames (m :: ns) t →
    PlainNames (n :: m :: ns) (n ++ (sep ++ t))

/-- what may stand before the names: nothing, or an equals sign and blanks -/
def Intro (pre : Str) : Prop := pre = [] ∨ ∃ k, pre = '=' :: List.replicate k ' '

/-- the text of a value, perhaps in quotes: a number if it reads as one -/
inductive ValueText (T : Txt F) : Val F → Str → Prop
  | num (x : F) (w : Str) : strip w = w → '=' ∉ w → '"' ∉ w → T.isNum w = true → T.dec w = some x → ValueText T (.num x) w
  | qnum (x : F) (w : Str) : strip w = w → '=' ∉ w → '"' ∉ w → T.isNum w = true → T.dec w = some x →
      ValueText T (.num x) ('"' :: (w ++ ['"']))
  | txt (w : Str) : strip w = w → '=' ∉ w → '"' ∉ w → T.isNum w = false → ValueText T (.txt w) w
  | qtxt (w : Str) : strip w = w → '=' ∉ w → '"' ∉ w → T.isNum w = false → ValueText T (.txt w) ('"' :: (w ++ ['"']))

/-- the text of a section behind its keyword -/
inductive Content (T : Txt F) : Says F → Str → Prop
  | title (t : Str) : Content T (.title t) t
  | text (t : Str) : Content T (.text t) t
  | geometry (t : Str) : Content T (.geometry t) t
  | labels (t : Str) : Content T (.labels t) t
  | varaux (t : Str) : Content T (.varaux t) t
  | quoted (ns : List Str) (pre t : Str) : (∀ n ∈ ns, NoSeps n ∧ Stable n ∧ n.head? ≠ some ' ') → Intro pre →
      QuotedNames ns t → Content T (.vars ns) (pre ++ t)
  | plain (ns : List Str) (pre t : Str) : (∀ n ∈ ns, NoSeps n ∧ Stable n ∧ IsWord n) → Intro pre →
      PlainNames ns t → Content T (.vars ns) (pre ++ t)
  | zone (k t : Str) (v : Val F) (b : Nat) : '=' ∉ k → ValueText T v t →
      Content T (.zone k v) (k ++ '=' :: (List.replicate b ' ' ++ t))
  | aux (k t : Str) (v : Val F) (b : Nat) : '=' ∉ k → ValueText T v t →
      Content T (.aux k v) (k ++ '=' :: (List.replicate b ' ' ++ t))

/-! ### Lines -/

/-- white space within a line -/
def Blank (s : Str) : Prop := ∀ c ∈ s, isWs c = true ∧ c ≠ '\n'

/-- a text that is not empty and has no white space at its ends -/
def Trimmed (t : Str) : Prop :=
  t ≠ [] ∧ (∀ c, t.head? = some c → isWs c = false) ∧ (∀ c, t.getLast? = some c → isWs c = false)

/-- a line that shows a text, with white space around it -/
def Shows (ln t : Str) : Prop := ∃ a b, Blank a ∧ Blank b ∧ ln = a ++ (t ++ b)

/-- lines that show the given texts one by one, with comment lines anywhere -/
inductive Lines : List Str → List Str → Prop
  | nil : Lines [] []
  | comment (ln t : Str) (ts lns : List Str) : Shows ln ('#' :: t) → Trimmed ('#' :: t) → Lines ts lns → Lines ts (ln :: lns)
  | text (ln t : Str) (ts lns : List Str) : Shows ln t → Lines ts lns → Lines (t :: ts) (ln :: lns)

/-- a line that continues a section: it begins with none of the keywords, is no comment and does not
begin with a number -/
def Continues (T : Txt F) (t : Str) : Prop :=
  Trimmed t ∧ t.head? ≠ some '#' ∧ (∀ s : Sec, ¬ s.kw <+: lower t) ∧ T.isNum ((words (lower t)).headD []) = false

/-- a section: what it says, its keyword as written, the rest of its first line, further lines -/
structure Sect (F : Type) where
  mean : Says F
  kw : Str
  head : Str
  more : List Str

/-- the texts on the lines of a section -/
def Sect.texts (s : Sect F) : List Str := (s.kw ++ s.head) :: s.more

/-- the lines hold what the section says: the keyword in any case, then the content, which may be
broken at blanks -/
structure SectOk (T : Txt F) (s : Sect F) : Prop where
  kw : lower s.kw = s.mean.sec.kw
  trimmed : Trimmed (s.kw ++ s.head)
  more : ∀ t ∈ s.more, Continues T t
  content : Content T s.mean (strip (joinWith [' '] (s.head :: s.more)))

/-- the word of a number -/
def NumWord (T : Txt F) (x : F) (w : Str) : Prop :=
  IsWord w ∧ '#' ∉ w ∧ T.dec w = some x ∧ T.isNum (lower w) = true ∧
    ∃ c, w.head? = some c ∧ c ∈ "+-.0123456789nNiI".toList

/-- a line with the numbers of a row, separated by white space, perhaps with a comment behind them -/
def RowLine (T : Txt F) (r : List F) (ln : Str) : Prop :=
  ∃ t tail, ln = t ++ tail ∧ (tail = [] ∨ ∃ c, tail = ' ' :: '#' :: c) ∧ '#' ∉ t ∧
    List.Forall₂ (NumWord T) r (words t)

/-- lines with rows of numbers, with empty lines and comments in between -/
inductive Rows (T : Txt F) : List (List F) → List Str → Prop
  | nil : Rows T [] []
  | row (r : List F) (ln : Str) (M : List (List F)) (lns : List Str) :
    r ≠ [] → RowLine T r ln → Rows T M lns → Rows T (r :: M) (ln :: lns)
  | skip (ln : Str) (M : List (List F)) (lns : List Str) :
    (Blank ln ∨ ∃ a c, Blank a ∧ ln = a ++ '#' :: c) → Rows T M lns → Rows T M (ln :: lns)

/-- sections other than title and variables need the variables before them if a line follows that
does not begin a section -/
def VarsFirst (S : List (Sect F)) : Prop :=
  ∀ pre s post, S = pre ++ s :: post → s.mean.sec ≠ .title → s.mean.sec ≠ .variables →
    (s.more ≠ [] ∨ post = []) → ∃ v ∈ pre, v.mean.sec = .variables

end Verif.Tecplot
