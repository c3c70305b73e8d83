import Verif.Model.Flex
import Verif.Model.HawcAe
import Verif.Model.FastLine
/-!
# Flex5 result files with their sensor file

`/repo/weio/flex_out_file.py`, `_read` and `_toDataFrame` (35-69), `read_flex_sensor` (131-145), `read_flex_sensor_fake` (147-156).
The values of texts of numbers and `np.arange` are parameters.
-/
namespace Verif.FlexSens
open Verif.Py

/-- exceptions -/
inductive Err where
  | res (e : Flex.Err)  -- of the result file (38-41)
  | index               -- IndexError: a line with too few words (138-142)
  | value               -- ValueError: no number (138-140), or `reshape` (44)
  | broken              -- BrokenFormatError (54)
deriving DecidableEq, Repr

/-- a sensor: the items of the lists at one place -/
structure Sensor (D : Type) where
  id : Int
  gain : D
  offset : D
  unit : Str
  name : Str
  descr : Str
deriving DecidableEq, Repr

/-- `int`, `float`, 1.0 and 0.0 -/
structure Num (D : Type) where
  int : Str → Option Int
  flt : Str → Option D
  one : D
  zero : D

/-- a line of the sensor file (136-143) -/
def sensorLine (φ : Num D) (line : Str) : Except Err (Sensor D) :=
  let w := words (strip line)
  match w[0]? with
  | none => .error .index
  | some w0 => match φ.int w0 with
    | none => .error .value
    | some i => match w[1]? with
      | none => .error .index
      | some w1 => match φ.flt w1 with
        | none => .error .value
        | some g => match w[2]? with
          | none => .error .index
          | some w2 => match φ.flt w2 with
            | none => .error .value
            | some o => match w[5]? with
              | none => .error .index
              | some u => match w[6]? with
                | none => .error .index
                | some n => .ok ⟨i, g, o, u, n, joinWith [' '] (w.drop 7)⟩

/-- `read_flex_sensor` (131-145): the first two lines are skipped -/
def readSensors (φ : Num D) (s : Str) : Except Err (List (Sensor D)) := ((HawcAe.readlines s).drop 2).mapM (sensorLine φ)

/-- `'S{:04d}'.format(i+1)` (154) -/
def fakeName (i : Nat) : Str :=
  let d := FastLine.showInt ((i : Int) + 1)
  'S' :: (List.replicate (4 - d.length) '0' ++ d)

/-- `read_flex_sensor_fake` (147-156) -/
def fakeSensors (φ : Num D) (n : Nat) : List (Sensor D) :=
  (List.range n).map fun i : Nat => ⟨(i : Int) + 1, φ.one, φ.zero, "(NA)".toList, fakeName i, "NA".toList⟩

/-- the object after `_read` -/
structure Out (F D : Type) where
  time : List F
  rows : List (List F)
  sensors : List (Sensor D)

/-- `_read` (35-54); `arange tmin dt nt` is `np.arange(tmin, tmin + nt*dt, dt)`, which must have `nt` numbers (44).
`sensor` is the text of the file `sensor` in the same directory, if there is one (47-48). -/
def readOut (S : Flex.Flt) (φ : Num D) (arange : S.F → S.F → Nat → List S.F) (bs : Bytes) (sensor : Option Str) : Except Err (Out S.F D) :=
  match Flex.readRes S bs, Flex.intAt bs 76 with
  | .error e, _ => .error (.res e)
  | _, .error e => .error (.res e)
  | .ok r, .ok n =>
    let t := arange r.tmin r.dt r.rows.length
    if t.length = r.rows.length then
      match sensor with
      | none => .ok ⟨t, r.rows, fakeSensors φ n.toNat⟩
      | some s => match readSensors φ s with
        | .error e => .error e
        | .ok ss => if ss.length = n.toNat then .ok ⟨t, r.rows, ss⟩ else .error .broken
    else .error .value

/-- a unit without parentheses and brackets (66) -/
def cleanUnit (u : Str) : Str := replaceChar ']' [] (replaceChar '[' [] (replaceChar ')' [] (replaceChar '(' [] u)))

/-- `_toDataFrame` (62-69): the labels and the rows -/
def toDataFrame (o : Out F D) : List Str × List (List F) :=
  (List.zipWith (fun n u => n ++ "_[".toList ++ cleanUnit u ++ "]".toList) ("Time".toList :: o.sensors.map Sensor.name) (['s'] :: o.sensors.map Sensor.unit),
   List.zipWith (fun t r => t :: r) o.time o.rows)

end Verif.FlexSens
