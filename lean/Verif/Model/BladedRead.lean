import Verif.Model.Bladed
import Verif.Model.FastDict
import Verif.Model.Hawc2Sel
/-!
# Bladed output files: the sensor file, the data file, one data set

`/repo/weio/bladed_out_file.py`, lines 20-129 (sensor file), 161-219 (data file), 266-372
(data sets, with names and units in lists of their own, and the table).  The texts of numbers,
the decoding of four and eight bytes, the test `isBinary` and `np.loadtxt` are parameters.
-/
namespace Verif.BladedRead
open Verif.Py

/-- exceptions -/
inductive Err where
  | index        -- IndexError
  | key          -- KeyError
  | value        -- ValueError
  | type         -- TypeError
  | unbound      -- UnboundLocalError
  | broken       -- BrokenFormatError
  | notFound     -- FileNotFoundError
  | unmodelled   -- a negative size, which numpy takes in a way of its own
deriving DecidableEq, Repr

/-- `int(s)` and `float(s)`; `none` stands for ValueError (40, 46-47, 67, 113, 116) -/
structure Num (F : Type) where
  int : Str → Option Int
  flt : Str → Option F

/-! ## `shlex.split` (95, 110) -/

/-- state of the tokeniser of Python's `shlex` in posix mode with `whitespace_split`, as used on lines
95 and 110: between words, in a word, inside quotes `q`, behind a backslash in a word (`none`) or in double
quotes.  `t` is the word so far. -/
inductive Sh where
  | sp
  | word (t : Str)
  | quote (q : Char) (t : Str)
  | esc (back : Option Char) (t : Str)
deriving DecidableEq, Repr

/-- `self.whitespace` of `shlex` (95, 110) -/
def shWs (c : Char) : Bool := c == ' ' || c == '\t' || c == '\r' || c == '\n'

/-- the tokeniser (95, 110); `none` is the ValueError of an open quote or a backslash at the end -/
def shGo : Sh → Str → Option (List Str)
  | .sp, [] => some []
  | .word t, [] => some [t]
  | .quote _ _, [] => none
  | .esc _ _, [] => none
  | .sp, c :: r =>
    if shWs c then shGo .sp r
    else if c = '\\' then shGo (.esc none []) r
    else if c = '\'' ∨ c = '"' then shGo (.quote c []) r
    else shGo (.word [c]) r
  | .word t, c :: r =>
    if shWs c then (shGo .sp r).map (t :: ·)
    else if c = '\'' ∨ c = '"' then shGo (.quote c t) r
    else if c = '\\' then shGo (.esc none t) r
    else shGo (.word (t ++ [c])) r
  | .quote q t, c :: r =>
    if c = q then shGo (.word t) r
    else if c = '\\' ∧ q = '"' then shGo (.esc (some q) t) r
    else shGo (.quote q (t ++ [c])) r
  | .esc none t, c :: r => shGo (.word (t ++ [c])) r
  | .esc (some q) t, c :: r => shGo (.quote q (if c ≠ '\\' ∧ c ≠ q then t ++ ['\\', c] else t ++ [c])) r

/-- `shlex.split(s)` (95, 110) -/
def shlex (s : Str) : Except Err (List Str) :=
  match shGo .sp s with
  | some l => .ok l
  | none => .error .value

/-! ## The sensor file (20-129) -/

/-- `dat['SectionList']`: the empty list of a 2-d file (50), numbers (67) or texts (83) -/
inductive Secs (F : Type) where
  | nil
  | vals (l : List F)
  | ticks (l : List Str)
deriving DecidableEq, Repr

/-- the dictionary `dat` (27); an absent key is `none` -/
structure Dat (F : Type) where
  ndim : Option Int := none
  nSensors : Option Int := none
  nMajor : Option Int := none
  nSections : Option Nat := none
  secs : Option (Secs F) := none
  double : Option Bool := none
  category : Option Str := none
  names : Option (List Str) := none
  units : Option (List Str) := none
  start : Option F := none
  step : Option F := none
deriving DecidableEq, Repr

/-- `repUnits` for `TT` (107): from the left, without overlap -/
def repTT : Str → Str
  | 'T' :: 'T' :: r => 's' :: '^' :: '2' :: repTT r
  | c :: r => c :: repTT r
  | [] => []

/-- `repUnits` (106-109) -/
def repUnits (s : Str) : Str :=
  replaceChar 'M' "kg".toList (replaceChar 'F' ['N'] (replaceChar 'L' ['m'] (replaceChar 'P' ['W']
    (replaceChar 'A' "rad".toList (replaceChar 'T' ['s'] (repTT s))))))

/-- `int(temp[i])` for a Python index (40, 46, 47) -/
def intAt (N : Num F) (l : List Str) (i : Int) : Except Err Int :=
  match FastDict.pyIndex l i with
  | none => .error .index
  | some w => match N.int w with
    | none => .error .value
    | some k => .ok k

/-- `float(s)` (113, 116) -/
def fltOf (N : Num F) (s : Str) : Except Err F :=
  match N.flt s with
  | none => .error .value
  | some x => .ok x

/-- `np.array(temp, dtype=float)` (67) -/
def fltsOf (N : Num F) (l : List Str) : Except Err (List F) :=
  match l.mapM N.flt with
  | none => .error .value
  | some x => .ok x

/-- `s.split('\' \'')` (82) -/
def splitTick : Str → List Str
  | '\'' :: ' ' :: '\'' :: r => [] :: splitTick r
  | c :: r => match splitTick r with
    | h :: t => (c :: h) :: t
    | [] => [[c]]
  | [] => [[]]

/-- the line with the next one behind it, unless there is none or it starts with `stop`
(74-79, 89-94, 100-105) -/
def withNext (stop : Str) (line : Str) (next : Option Str) : Str :=
  match next with
  | none => line
  | some n => if startsWith (strip n) stop then line else strip line ++ ' ' :: strip n

/-- one turn of the loop (34-116): `line` is the line, `next` the one behind it -/
def turn (N : Num F) (line : Str) (next : Option Str) (d : Dat F) : Except Err (Dat F) := do
  let t := replaceChar '\t' [' '] line
  if startsWith t "NDIMENS".toList then
    let n ← intAt N (words (strip (t.drop 7))) (-1)
    .ok { d with ndim := some n }
  else if startsWith t "DIMENS".toList then
    let temp := words (strip (t.drop 6))
    let ns ← intAt N temp 0
    match d.ndim with
    | none => .error .key
    | some nd =>
      let nm ← intAt N temp (nd - 1)
      if nd = 2 then .ok { d with nSensors := some ns, nMajor := some nm, nSections := some 1, secs := some .nil }
      else .ok { d with nSensors := some ns, nMajor := some nm }
  else if startsWith t "FORMAT".toList then
    match (strip (t.drop 7)).getLast? with
    | none => .error .index
    | some c => .ok { d with double := some (c == '8') }
  else if startsWith t "GENLAB".toList then
    .ok { d with category := some (replaceChar '\'' [] (strip (t.drop 6))) }
  else if startsWith t "AXIVAL".toList then
    let l ← fltsOf N (words (t.drop 7))
    .ok { d with secs := some (.vals l), nSections := some l.length }
  else if startsWith t "AXITICK".toList then
    let t := withNext "AXISLAB".toList t next
    let l := splitTick (stripBy (· == '\'') (strip (t.drop 7)))
    .ok { d with secs := some (.ticks l), nSections := some l.length }
  else if startsWith t "VARIAB".toList then
    let l ← shlex ((withNext "VARUNIT".toList t next).drop 6)
    .ok { d with names := some l }
  else if startsWith t "VARUNIT".toList then
    let l ← shlex (strip ((withNext "AXISLAB".toList t next).drop 7))
    .ok { d with units := some (l.map repUnits) }
  else if startsWith t "MIN ".toList then
    let x ← fltOf N (strip (t.drop 3))
    .ok { d with start := some x }
  else if startsWith t "STEP".toList then
    let x ← fltOf N (strip (t.drop 4))
    .ok { d with step := some x }
  else .ok d

/-- the loop over the lines (31-116); `n` is the number of turns left: the turn of index 31 breaks (32-33).
The line behind the last turn is still seen by the turns that look ahead. -/
def turns (N : Num F) : Nat → List Str → Dat F → Except Err (Dat F)
  | 0, _, d => .ok d
  | _ + 1, [], d => .ok d
  | n + 1, l :: r, d => do turns N n r (← turn N l r.head? d)

/-- `read_bladed_sensor_file` (20-129) of a file with the text `s` -/
def readSensor (N : Num F) (s : Str) : Except Err (Dat F) := do
  let d ← turns N 31 (Hawc2Sel.keepLines s) {}
  match d.names, d.nSensors, d.nMajor, d.nSections with
  | some names, some ns, some _, some _ => if (names.length : Int) = ns then .ok d else .error .broken
  | _, _, _, _ => .error .broken

/-! ## The data file (161-219) -/

/-- an array of numbers: of no, one or two dimensions -/
inductive Arr (F : Type) where
  | scalar (x : F)
  | vec (l : List F)
  | mat (rows : List (List F))
deriving DecidableEq, Repr

/-- the content of a data file: bytes of a file that `isBinary` takes for binary (178), or the rows
that `np.loadtxt` reads, `none` for its ValueError (199, 214) -/
inductive Data (F : Type) where
  | absent
  | binary (b : List UInt8)
  | text (rows : Option (List (List F)))

/-- what is external to the model of the data files: decoding of four bytes (`np.float32`) and of eight
(`np.float64`), and the value `nan` -/
structure Dec (F : Type) where
  four : List UInt8 → F
  eight : List UInt8 → F
  nan : F
  zero : F

/-- `np.fromfile(fid_2, Precision)` (181): as many items as there are whole ones -/
def fromfile (D : Dec F) (double : Bool) (b : List UInt8) : List F :=
  let k := if double then 8 else 4
  (List.range (b.length / k)).map fun i => (if double then D.eight else D.four) ((b.drop (i * k)).take k)

/-- `np.reshape(data, (nMajor, nSensors))` (188) -/
def reshape2 (nMajor nSens : Nat) (flat : List F) : Except Err (List (List F)) :=
  if flat.length = nMajor * nSens then
    .ok ((List.range nMajor).map fun t => (flat.drop (t * nSens)).take nSens)
  else .error .value

/-- `np.reshape(data, (nMajor, nSections, nSensors))` (185, 214) -/
def reshape3 (nMajor nSec nSens : Nat) (flat : List F) : Except Err (List (List (List F))) :=
  match Bladed.reshape3 nMajor nSec nSens flat with
  | .ok a => .ok a
  | .error _ => .error .value

/-- a size that is not negative -/
def size (n : Int) : Except Err Nat := if 0 ≤ n then .ok n.toNat else .error .unmodelled

/-- the array that `np.loadtxt` returns for rows (199): dimensions of one are dropped -/
def squeeze : List (List F) → Arr F
  | [[x]] => .scalar x
  | [r] => .vec r
  | rows => if rows.all (fun r => r.length = 1) then .vec rows.flatten else .mat rows

/-- the label of a section (143-146): `num` gives the text of a number rounded to two decimals, and the text
of a section that is a number is first read as one -/
def secLabel (N : Num F) (num : F → Str) : F ⊕ Str → Str
  | .inl x => num x ++ ['m']
  | .inr t => match N.flt t with
    | some x => num x ++ ['m']
    | none => t

/-- the elements of `SectionList` (141) -/
def Secs.list : Secs F → List (F ⊕ Str)
  | .nil => []
  | .vals l => l.map .inl
  | .ticks l => l.map .inr

/-- what `read_bladed_output` returns besides `[], {}` (219); `units` is `none` when there is no `ChannelUnit` -/
structure Out (F : Type) where
  data : Arr F
  names : List Str
  units : Option (List Str)
  info : Dat F
deriving DecidableEq, Repr

/-- `OrgData` (131-157) of a 2-d (`inl`) or 3-d (`inr`) array.  `SectionList` is there when `nSections` is. -/
def orgData (N : Num F) (num : F → Str) (D : Dec F) (d : Dat F) (names : List Str) (data : Arr F ⊕ List (List (List F))) :
    Except Err (Out F) :=
  match data with
  | .inl a => .ok ⟨a, names, d.units, d⟩
  | .inr m =>
    let secs := (d.secs.getD .nil).list
    if d.units = none ∧ secs ≠ [] then .error .key   -- 142
    else
      let f := Bladed.orgData D.zero (secLabel N num) secs names (d.units.getD []) m
      .ok ⟨.mat f.rows, f.names, some f.units, d⟩

/-- the data array (175-217): of a 2-d file (`inl`), or of a 3-d one (`inr`) -/
def readData (D : Dec F) (nd : Int) (nMajor nSec nSens : Nat) (double : Option Bool) : Data F →
    Except Err (Arr F ⊕ List (List (List F)))
  | .absent => .error .notFound
  | .binary b => match double with
    | none => .error .key
    | some dbl =>
      let flat := fromfile D dbl b
      if nd = 3 then (reshape3 nMajor nSec nSens flat).map .inr
      else if nd = 2 then (reshape2 nMajor nSens flat).map (.inl ∘ .mat)
      else .ok (.inl (.vec flat))
  | .text rows =>
    if nd = 2 then match rows with
      | some r => .ok (.inl (squeeze r))
      | none => .error .value
    else if nd = 3 then
      match rows.map fun r => reshape3 nMajor nSec nSens r.flatten with
      | some (.ok a) => .ok (.inr a)
      | _ => .ok (.inr (List.replicate nMajor (List.replicate nSec (List.replicate nSens D.nan))))   -- 215-217
    else .error .unbound

/-- `read_bladed_output` (161-219); `none` is the result `[], {}` of a file without step when only
time series are wanted (170-173) -/
def readOutput (N : Num F) (num : F → Str) (D : Dec F) (timeOnly : Bool) (sensor : Str) (data : Data F) :
    Except Err (Option (Out F)) := do
  let d ← readSensor N sensor
  if timeOnly && d.step.isNone then .ok none
  else match d.names, d.nSensors, d.nMajor, d.nSections, d.ndim with
    | some names, some ns, some nm, some nsec, some nd => do
      let a ← readData D nd (← size nm) nsec (← size ns) d.double data
      .ok (some (← orgData N num D d names a))
    | _, _, _, _, _ => .error .broken

/-! ## Data sets (266-372) -/

/-- a data set: the columns with their number of rows, the names and the units (326-346) -/
structure DSet (F : Type) where
  n : Nat
  cols : List (List F)
  sensors : List Str
  units : List Str
  name : Str
deriving DecidableEq, Repr

/-- `len(data)` (318) -/
def Arr.len : Arr F → Except Err Nat
  | .scalar _ => .error .type
  | .vec l => .ok l.length
  | .mat rows => .ok rows.length

/-- the columns of an array in `np.column_stack`, with the number of rows (327, 339): a vector is one column -/
def Arr.cols (zero : F) : Arr F → Nat × List (List F)
  | .scalar x => (1, [[x]])
  | .vec l => (l.length, [l])
  | .mat rows => (rows.length, (List.range (rows.headD []).length).map (Bladed.col zero rows))

/-- a new data set (333-346).  `time k step start` is `k*step + start`. -/
def newSet (zero : F) (time : Nat → F → F → F) (o : Out F) (nm : Int) : Except Err (DSet F) := do
  let a := o.data.cols zero
  let (cols, names, u) ← match o.info.step with
    | none => .ok (a.2, o.names, o.units)
    | some dt => match o.info.start with
      | none => .error .key   -- 338
      | some t0 =>
        if a.1 = nm.toNat then
          .ok (((List.range a.1).map fun k => time k dt t0) :: a.2, "Time".toList :: o.names, o.units.map (['s'] :: ·))
        else .error .value   -- 339
  match u, o.info.category with
  | some u, some cat => .ok ⟨a.1, cols, names, u, cat⟩
  | _, _ => .error .key   -- 341, 345, 346

/-- adding the data of one file (322-346) -/
def addOut (zero : F) (time : Nat → F → F → F) (o : Out F) (nm : Int) : List (Int × DSet F) → Except Err (List (Int × DSet F))
  | [] => match newSet zero time o nm with
    | .error e => .error e
    | .ok d => .ok [(nm, d)]
  | (k, d) :: r =>
    if k = nm then
      let a := o.data.cols zero
      if a.1 = d.n then match o.units with
        | some u => .ok ((k, ⟨d.n, d.cols ++ a.2, d.sensors ++ o.names, d.units ++ u, "Misc_".toList ++ FastLine.showInt k⟩) :: r)
        | none => .error .key   -- 329
      else .error .value   -- 327
    else match addOut zero time o nm r with
      | .error e => .error e
      | .ok r' => .ok ((k, d) :: r')

/-- the loop over the files (296-346): a missing data file and a ValueError are passed over unless there is only
one file; other errors are raised.  ValueErrors of line 318 on are raised. -/
def loop (zero : F) (time : Nat → F → F → F) (only : Bool) : List (Except Err (Option (Out F))) → List (Int × DSet F) →
    Except Err (List (Int × DSet F))
  | [], ds => .ok ds
  | .error e :: r, ds => if only = false ∧ (e = .notFound ∨ e = .value) then loop zero time only r ds else .error e
  | .ok none :: r, ds => loop zero time only r ds
  | .ok (some o) :: r, ds => match o.data.len with
    | .error e => .error e
    | .ok 0 => loop zero time only r ds
    | .ok _ => match addOut zero time o (o.info.nMajor.getD 0) ds with   -- `nMajor` is there, or the file was refused
      | .error e => .error e
      | .ok ds' => loop zero time only r ds'

/-- a sensor file with its data file, as `_read` takes them (291-299): the sensor text and the data -/
structure Files (F : Type) where
  sensor : Str
  data : Data F

/-- `_read` (266-357) after the search for the files, `pj` for a `.$PJ` file; the data sets by name -/
def readFiles (N : Num F) (num : F → Str) (D : Dec F) (time : Nat → F → F → F) (pj : Bool) (files : List (Files F)) :
    Except Err (List (Int × DSet F)) :=
  match files with
  | [] => .error .notFound
  | _ =>
    let only : Bool := files.length = 1
    loop D.zero time only (files.map fun f => readOutput N num D (pj && !only) f.sensor f.data) []

/-- the table of a data set (`toDataFrame`, 362-366): a 1-d or 2-d array with one label for each column -/
def frame (d : DSet F) : Except Err (List (Str × List F)) :=
  match Bladed.frame d.sensors d.units d.cols with
  | .ok l => .ok l
  | .error _ => .error .value

/-- the name of the sensor file that is looked for (279) and of the data file that is then read (176): `%` and `$`
are replaced everywhere, also in the folder -/
def sensorName (base ext : Str) : Str := base ++ replaceChar '$' ['%'] ext

/-- (176) -/
def dataName (sensorFile : Str) : Str := replaceChar '%' ['$'] sensorFile

end Verif.BladedRead
