import Verif.Model.BladedRead
import Verif.Props.Bladed
import Verif.Lemmas.Hawc2Sel
import Verif.Lemmas.DeckRead
import Verif.Lemmas.TurbSimTS
import Verif.Lemmas.Bhawc
import Verif.Lemmas.FastFile
import Verif.Lemmas.Tecplot
import Mathlib.Data.List.TakeWhile
/-!
# What a Bladed result file says
-/
namespace Verif.BladedRead
open Verif.Py Verif.TurbSimTS

/-- a name as it stands in a list of names: as it is, when it is a word without quotes and backslashes, or in single
or double quotes -/
inductive Spelled : Str → Str → Prop
  | bare (w : Str) (h : w ≠ []) (hw : ∀ c ∈ w, isWs c = false ∧ c ≠ '\'' ∧ c ≠ '"' ∧ c ≠ '\\') : Spelled w w
  | single (w : Str) (h : '\'' ∉ w) : Spelled ('\'' :: w ++ ['\'']) w
  | double (w : Str) (h : '"' ∉ w) (hb : '\\' ∉ w) : Spelled ('"' :: w ++ ['"']) w

/-- blanks and tabs (and the end of a line) -/
def Blank (s : Str) : Prop := ∀ c ∈ s, c = ' ' ∨ c = '\t' ∨ c = '\r' ∨ c = '\n'

/-- a text that lists names, with blanks between them -/
inductive Listed : Str → List Str → Prop
  | nil (b : Str) (h : Blank b) : Listed b []
  | cons (b t w r : Str) (ws : List Str) (hb : Blank b) (ht : Spelled t w) (hr : Listed r ws)
      (hs : r = [] ∨ ∃ c r', r = c :: r' ∧ Blank [c]) : Listed (b ++ t ++ r) (w :: ws)

/-- a part of a unit of Bladed: a unit letter, a time squared, or another character -/
inductive Part where
  | T | TT | A | P | L | F | M
  | char (c : Char) (h : c ∉ "TAPLFM".toList)

/-- as Bladed writes it -/
def Part.text : Part → Str
  | T => "T".toList | TT => "TT".toList | A => "A".toList | P => "P".toList | L => "L".toList | F => "F".toList
  | M => "M".toList | char c _ => [c]

/-- the SI unit -/
def Part.si : Part → Str
  | T => "s".toList | TT => "s^2".toList | A => "rad".toList | P => "W".toList | L => "m".toList | F => "N".toList
  | M => "kg".toList | char c _ => [c]

/-- a time or a time squared -/
def Part.isTime : Part → Prop
  | T => True | TT => True | _ => False

/-- no time stands beside a time -/
def Apart : List Part → Prop
  | a :: b :: r => ¬ (a.isTime ∧ b.isTime) ∧ Apart (b :: r)
  | _ => True

/-- one of the first 31 lines, and only the one of index `i`, starts with one of the keys: it is the key `k` and the text `r` -/
def Once (keys : List Str) (ls : List Str) (i : Nat) (k r : Str) : Prop :=
  i < 31 ∧ k ∈ keys ∧ ls[i]? = some (k ++ r) ∧ ∀ j l k', j < 31 → ls[j]? = some l → k' ∈ keys → k' <+: l → j = i

/-- none of the first 31 lines starts with one of the keys -/
def Never (keys : List Str) (ls : List Str) : Prop := ∀ j l k', j < 31 → ls[j]? = some l → k' ∈ keys → ¬ k' <+: l

/-- the text `a` behind the key of line `i` has the list `ws` (in the sense of `P`) and the next line starts with `stop` or is not
there; or the list goes on in the next line -/
def Continued (stop : Str) (P : Str → List Str → Prop) (ls : List Str) (i : Nat) (a : Str) (ws : List Str) : Prop :=
  (P a ws ∧ ∀ n, ls[i + 1]? = some n → stop <+: strip n) ∨
    ∃ n u v, ls[i + 1]? = some n ∧ ¬ stop <+: strip n ∧ P a u ∧ P n v ∧ ws = u ++ v

/-- a list of names in single quotes with one blank between them -/
def Ticks (a : Str) (ws : List Str) : Prop :=
  strip a = joinWith [' '] (ws.map fun w => '\'' :: w ++ ['\'']) ∧ ws ≠ [] ∧ ∀ w ∈ ws, w ≠ [] ∧ '\'' ∉ w ∧ '\t' ∉ w

/-- `a` starts with a blank and, apart from blanks, is `w`, which has no tab -/
def Says (a w : Str) : Prop := (∃ c r, a = c :: r ∧ isWs c = true) ∧ strip a = w ∧ '\t' ∉ w

/-- what a sensor file says -/
structure Sensor (F : Type) where
  ndim : Nat
  nSensors : Nat
  nMajor : Nat
  double : Bool
  category : Str
  names : List Str
  units : List (List Part)
  start : Option F
  step : Option F
  secs : Secs F

/-- the lines of a sensor file say `x` -/
structure Describes {F : Type} (N : Num F) (ls : List Str) (x : Sensor F) : Prop where
  /-- two or three dimensions -/
  ndim : x.ndim = 2 ∨ x.ndim = 3
  /-- `NDIMENS` comes before `DIMENS`; the first size is the number of channels, the last one the number of steps -/
  dims : ∃ i r j q, Once ["NDIMENS".toList] ls i "NDIMENS".toList r ∧ Once ["DIMENS".toList] ls j "DIMENS".toList q ∧ i < j ∧
    (∃ w, (words r).getLast? = some w ∧ N.int w = some (x.ndim : Int)) ∧
    (∃ w, (words q)[0]? = some w ∧ N.int w = some (x.nSensors : Int)) ∧
    (∃ w, (words q)[x.ndim - 1]? = some w ∧ N.int w = some (x.nMajor : Int))
  /-- the format ends in `8` if the numbers have eight bytes -/
  format : ∃ i r f c, Once ["FORMAT".toList] ls i "FORMAT".toList r ∧ Says r (f ++ [c]) ∧ (x.double = true ↔ c = '8')
  /-- the category, in quotes or not -/
  category : ∃ i r q, Once ["GENLAB".toList] ls i "GENLAB".toList r ∧ Says r (q ++ x.category ++ q) ∧ (q = [] ∨ q = ['\'']) ∧ '\'' ∉ x.category
  names : ∃ i r, Once ["VARIAB".toList] ls i "VARIAB".toList r ∧ Continued "VARUNIT".toList Listed ls i r x.names ∧ ∀ w ∈ x.names, '\t' ∉ w
  units : ∃ i r, Once ["VARUNIT".toList] ls i "VARUNIT".toList r ∧
    Continued "AXISLAB".toList Listed ls i r (x.units.map (·.flatMap Part.text)) ∧ (∀ u ∈ x.units, Apart u ∧ '\t' ∉ u.flatMap Part.text)
  start : (x.start = none ∧ Never ["MIN ".toList, "MIN\t".toList] ls) ∨
    ∃ i k r w y, Once ["MIN ".toList, "MIN\t".toList] ls i k r ∧ strip r = w ∧ '\t' ∉ w ∧ N.flt w = some y ∧ x.start = some y
  step : (x.step = none ∧ Never ["STEP".toList] ls) ∨
    ∃ i r w y, Once ["STEP".toList] ls i "STEP".toList r ∧ Says r w ∧ N.flt w = some y ∧ x.step = some y
  /-- the sections of a file of three dimensions -/
  secs : x.ndim = 3 → ∃ i k r, Once ["AXIVAL".toList, "AXITICK".toList] ls i k r ∧
    ((k = "AXIVAL".toList ∧ (∃ c a, r = c :: a ∧ isWs c = true) ∧ ∃ l, (words r).mapM N.flt = some l ∧ x.secs = .vals l) ∨
     (k = "AXITICK".toList ∧ ∃ l, Continued "AXISLAB".toList Ticks ls i r l ∧ x.secs = .ticks l))
  /-- a table of two dimensions may give the values of its axis -/
  axis : x.ndim = 2 → ∀ j r, j < 31 → ls[j]? = some ("AXIVAL".toList ++ r) → ∃ c a l, r = c :: a ∧ isWs c = true ∧ (words r).mapM N.flt = some l
  count : x.names.length = x.nSensors

/-- the number of sections -/
def Secs.length {F : Type} : Secs F → Nat
  | .nil => 0
  | .vals l => l.length
  | .ticks l => l.length

/-- number `i` of a binary data file -/
def sample {F : Type} (D : Dec F) (double : Bool) (b : List UInt8) (i : Nat) : F :=
  if double then D.eight ((b.drop (i * 8)).take 8) else D.four ((b.drop (i * 4)).take 4)

/-- the bytes of a number -/
def width (double : Bool) : Nat := if double then 8 else 4

/-- the label of a column: `name [unit]` -/
def columnLabel (name unit : Str) : Str := name ++ " [".toList ++ unit ++ "]".toList

/-- the labels of the columns of a file of two dimensions -/
def labels2 {F : Type} (x : Sensor F) : List Str := List.zipWith columnLabel x.names (x.units.map (·.flatMap Part.si))

/-- the labels of the columns of a file of three dimensions: for each section all channels; `sec` gives the texts of the sections -/
def labels3 {F : Type} (x : Sensor F) (sec : List Str) : List Str :=
  sec.flatMap fun t => List.zipWith (fun n u => columnLabel (t ++ '-' :: n) u) x.names (x.units.map (·.flatMap Part.si))

/-- the values of channel `c` in a binary file of two dimensions: those of a step follow each other -/
def column2 {F : Type} (D : Dec F) (x : Sensor F) (b : List UInt8) (c : Nat) : List F :=
  (List.range x.nMajor).map fun t => sample D x.double b (t * x.nSensors + c)

/-- the values of channel `c` at section `s` in a binary file of three dimensions -/
def column3 {F : Type} (D : Dec F) (x : Sensor F) (b : List UInt8) (s c : Nat) : List F :=
  (List.range x.nMajor).map fun t => sample D x.double b ((t * x.secs.length + s) * x.nSensors + c)

/-- the table of a file: with a time column if the file has start and step, without if it has no step.  `labels` and `cols` are the
columns of the file. -/
def Gives {F : Type} (N : Num F) (num : F → Str) (D : Dec F) (time : Nat → F → F → F) (pj : Bool) (f : Files F) (x : Sensor F) (labels : List Str)
    (cols : List (List F)) : Prop :=
  (∀ dt t0, x.step = some dt → x.start = some t0 → (columnLabel "Time".toList ['s'] :: labels).Nodup →
    ∃ d, readFiles N num D time pj [f] = .ok [((x.nMajor : Int), d)] ∧ d.name = x.category ∧
      frame d = .ok ((columnLabel "Time".toList ['s'], (List.range x.nMajor).map fun k => time k dt t0) :: labels.zip cols)) ∧
  (x.step = none → labels.Nodup →
    ∃ d, readFiles N num D time pj [f] = .ok [((x.nMajor : Int), d)] ∧ d.name = x.category ∧ frame d = .ok (labels.zip cols)) ∧
  (∀ dt, x.step = some dt → x.start = none → readFiles N num D time pj [f] = .error .key)

/-- a result of two dimensions: the text and the lines of its sensor file, what they say, and its binary data -/
structure Result (F : Type) where
  text : Str
  lines : List Str
  sensor : Sensor F
  bytes : List UInt8

/-- a result of two dimensions that can be read: `n` steps -/
def Result.Good {F : Type} (N : Num F) (n : Nat) (r : Result F) : Prop :=
  HasLines r.text r.lines ∧ Describes N r.lines r.sensor ∧ r.sensor.ndim = 2 ∧ r.sensor.nMajor = n ∧ r.sensor.units.length = r.sensor.names.length ∧
    r.sensor.step ≠ none ∧ r.bytes.length = n * r.sensor.nSensors * width r.sensor.double

/-- its files -/
def Result.files {F : Type} (r : Result F) : Files F := ⟨r.text, .binary r.bytes⟩

/-- its columns with their labels -/
def Result.table {F : Type} (D : Dec F) (r : Result F) : List (Str × List F) :=
  (labels2 r.sensor).zip ((List.range r.sensor.nSensors).map (column2 D r.sensor r.bytes))

end Verif.BladedRead
