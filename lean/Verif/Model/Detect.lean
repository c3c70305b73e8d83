import Verif.Py.Str
/-!
# Format registry and detection — `/repo/weio/__init__.py`, `/repo/weio/file_formats.py`
-/
namespace Verif.Detect
open Verif.Py

/-- Result of running a format's constructor on a file
(`F=fileformat.constructor(filename=filename, **kwargs)`, file_formats.py:7).
`raises e` stands for any exception other than `WrongFormatError`. -/
inductive Outcome (ρ ε : Type) where
  | accepts (F : ρ)
  | wrongFormat
  | raises (e : ε)
deriving Repr, DecidableEq

/-- `FileFormat` (file_formats.py:16-24): declared extensions and the
constructor, which is an arbitrary function of the file name here
(file-system content and keyword arguments are fixed during one detection). -/
structure Format (ρ ε : Type) where
  name : String
  extensions : List Str
  construct : Str → Outcome ρ ε

/-- `isRightFormat` (file_formats.py:3-14): `ok (some F)` is `(True,F)`,
`ok none` is `(False,None)`, `error e` a re-raised exception. -/
def isRightFormat (fmt : Format ρ ε) (filename : Str) : Except ε (Option ρ) :=
  match fmt.construct filename with
  | .accepts F => .ok (some F)
  | .wrongFormat => .ok none
  | .raises e => .error e

/-- part of a path after the last `'/'` (used by `os.path.splitext`, posixpath). -/
def afterSlash (s : Str) : Str := (s.reverse.takeWhile (· ≠ '/')).reverse

/-- `os.path.splitext(p)[1]` on POSIX (CPython genericpath._splitext): the
extension starts at the last dot of the last path component, unless only dots
precede that dot. -/
def splitextExt (p : Str) : Str :=
  let base := afterSlash p
  let r := base.reverse
  let tail := (r.takeWhile (· ≠ '.')).reverse
  match r.dropWhile (· ≠ '.') with
  | [] => []                                  -- no dot
  | _dot :: stemRev =>
    if stemRev.any (· ≠ '.') then '.' :: tail else []

/-- Tokens of the regular expression built from an extension pattern
(`ef.replace('.','\.').replace('$','\$').replace('*','[.]*')`, __init__.py:224).
`dots` is `[.]*`, `lit c` a literal.  Simplification: characters other than
`. $ *` are taken literally, i.e. extensions containing further regular
expression operators are not modelled. -/
inductive PatTok where
  | lit (c : Char)
  | dots
deriving Repr, DecidableEq

/-- __init__.py:224 -/
def patOf (ef : Str) : List PatTok :=
  ef.map (fun c => if c = '*' then .dots else .lit c)

/-- `[.]*` followed by the rest `k` of the pattern: some number of dots is
consumed (all possibilities are tried, as the backtracking matcher does). -/
def dotsThen (k : Str → Bool) : Str → Bool
  | [] => k []
  | x :: s => k (x :: s) || (decide (x = '.') && dotsThen k s)

/-- `re.match(pat, ext) is not None` (__init__.py:226) for the patterns above:
prefix match with backtracking. -/
def reMatch : List PatTok → Str → Bool
  | [] => fun _ => true
  | .lit c :: pat => fun s => match s with
    | [] => false
    | x :: s => decide (x = c) && reMatch pat s
  | .dots :: pat => dotsThen (reMatch pat)

/-- extension test of `detectFormat` (__init__.py:220-229). -/
def extMatch (extensions : List Str) (ext : Str) : Bool :=
  if extensions.contains ext then true
  else
    let pats := (extensions.filter (fun ef => ef.contains '*')).map patOf
    pats.any (fun pat => reMatch pat ext)

/-- errors leaving `detectFormat`. -/
inductive DetectErr (ε : Type) where
  | notDetected                 -- FormatNotDetectedError
  | propagated (e : ε)          -- exception of a reader
deriving Repr, DecidableEq

/-- the `while` loop of `detectFormat` (__init__.py:216-240).  The second
component lists the formats whose constructor was run, in order. -/
def detectLoop (ext filename : Str) :
    List (Format ρ ε) → Except (DetectErr ε) (Format ρ ε × ρ) × List (Format ρ ε)
  | [] => (.error .notDetected, [])
  | f :: fs =>
    if extMatch f.extensions ext then
      match isRightFormat f filename with
      | .error e => (.error (.propagated e), [f])
      | .ok (some F) => (.ok (f, F), [f])
      | .ok none => let r := detectLoop ext filename fs; (r.1, f :: r.2)
    else detectLoop ext filename fs

/-- `detectFormat` (__init__.py:204-240). -/
def detectFormat (formats : List (Format ρ ε)) (filename : Str) :
    Except (DetectErr ε) (Format ρ ε × ρ) × List (Format ρ ε) :=
  detectLoop (splitextExt (lower filename)) filename formats

/-- outcome of `weio.read`. -/
inductive ReadErr (ε : Type) where
  | notDetected
  | wrongFormat
  | raised (e : ε)
deriving Repr, DecidableEq

/-- `read` (__init__.py:242-250).  `detectFormat` only returns objects made by
the returned format's constructor, so the `isinstance` test of line 248 is true
exactly when the format was detected; with an explicit format the constructor
is run once, on the file name alone. -/
def read (formats : List (Format ρ ε)) (filename : Str) (explicit : Option (Format ρ ε)) :
    Except (ReadErr ε) ρ :=
  match explicit with
  | none =>
    match (detectFormat formats filename).1 with
    | .ok (_, F) => .ok F
    | .error .notDetected => .error .notDetected
    | .error (.propagated e) => .error (.raised e)
  | some f =>
    match f.construct filename with
    | .accepts F => .ok F
    | .wrongFormat => .error .wrongFormat
    | .raises e => .error (.raised e)

/-! ## Registry -/

/-- One python module found in the user directory (`userFileClasses`,
__init__.py:145-178). -/
inductive UserModule (φ : Type) where
  | importError                                  -- 153-159
  | noClass                                      -- 173-178
  | badClass                                     -- class without the static methods, 100-108
  | good (fmt : φ) (priority : Option Int)       -- 109-114
deriving Repr

/-- priority of a user class (__init__.py:110-113): `cls.priority()` or 2. -/
def userPriority (p : Option Int) : Int := p.getD 2

/-- First pass over the user directory (`userFileClasses`, 137-179): `none` is
`UserFormatImportError`; otherwise the classes found and the number of error
messages recorded so far. -/
def userClasses (ignoreErrors : Bool) :
    List (UserModule φ) → Option (List (Option (φ × Option Int)) × Nat)
  | [] => some ([], 0)
  | .importError :: ms | .noClass :: ms =>
    if ignoreErrors then (userClasses ignoreErrors ms).map (fun r => (r.1, r.2 + 1)) else none
  | .badClass :: ms => (userClasses ignoreErrors ms).map (fun r => (none :: r.1, r.2))
  | .good f p :: ms => (userClasses ignoreErrors ms).map (fun r => (some (f, p) :: r.1, r.2))

/-- Second pass (`for cls, f in zip(...)`, 99-114): registration of the classes. -/
def registerUser (ignoreErrors : Bool) :
    List (Option (φ × Option Int)) → Option (List (Int × φ) × Nat)
  | [] => some ([], 0)
  | none :: cs =>
    if ignoreErrors then (registerUser ignoreErrors cs).map (fun r => (r.1, r.2 + 1)) else none
  | some (f, p) :: cs => (registerUser ignoreErrors cs).map (fun r => ((userPriority p, f) :: r.1, r.2))

/-- order used by `np.argsort(priorities, kind='stable')` (117). -/
def prioLe (a b : Int × φ) : Bool := decide (a.1 ≤ b.1)

/-- `np.asarray(formats)[np.argsort(priorities, kind='stable')]` (117): numpy's
stable argsort is a stable sort of the registration list. -/
def sortFormats (regs : List (Int × φ)) : List φ := (regs.mergeSort prioLe).map Prod.snd

/-- value returned by `fileFormats` (119-123 and 22-23). -/
inductive FFResult (φ : Type) where
  | formats (fs : List φ)
  | pair (fs : List φ) (nErrors : Nat)
  | importError
deriving Repr, DecidableEq

/-- `fileFormats(userpath, ignoreErrors)` (16-123).  State: the global
`_FORMATS`.  `lib` is the list of library formats with their priorities in
registration order (63-95); `dir up` the content of the user directory. -/
def fileFormats (lib : List (Int × φ)) (dir : υ → List (UserModule φ))
    (cache : Option (List φ)) (userpath : υ) (ignoreErrors : Bool) :
    Option (List φ) × FFResult φ :=
  match cache with
  | some fs => (cache, .formats fs)
  | none =>
    match userClasses ignoreErrors (dir userpath) with
    | none => (none, .importError)
    | some (cs, n1) =>
      match registerUser ignoreErrors cs with
      | none => (none, .importError)
      | some (us, n2) =>
        let fs := sortFormats (lib ++ us)
        (some fs, if ignoreErrors then .pair fs (n1 + n2) else .formats fs)

/-- a history of calls. -/
def fileFormatsRun (lib : List (Int × φ)) (dir : υ → List (UserModule φ))
    (cache : Option (List φ)) : List (υ × Bool) → Option (List φ) × List (FFResult φ)
  | [] => (cache, [])
  | (u, b) :: cs =>
    let r := fileFormats lib dir cache u b
    let rs := fileFormatsRun lib dir r.1 cs
    (rs.1, r.2 :: rs.2)

/-- The library table: registration order, priority (__init__.py:63-95), class
name and `defaultExtensions()` of each class (the cited class files). -/
def libTable : List (Int × String × List String) := [
  (0,  "CSVFile", [".csv", ".txt"]),                      -- csv_file.py:30
  (0,  "ExcelFile", [".xls", ".xlsx"]),                   -- excel_file.py:18
  (10, "TecplotFile", [".dat"]),                          -- tecplot_file.py:152
  (10, "BladedFile", [".%*", ".$*"]),                     -- bladed_out_file.py:242
  (20, "FASTInputFile", [".dat", ".fst", ".txt", ".fstf"]), -- fast_input_file.py:57
  (20, "FASTOutputFile", [".out", ".outb", ".elm", ".elev"]), -- fast_output_file.py:63
  (20, "FASTWndFile", [".wnd"]),                          -- fast_wind_file.py:22
  (20, "FASTLinearizationFile", [".lin"]),                -- fast_linearization_file.py:38
  (20, "FASTSummaryFile", [".sum", ".yaml"]),             -- fast_summary_file.py:39
  (20, "TurbSimTSFile", [".txt"]),                        -- turbsim_ts_file.py:15
  (20, "TurbSimFile", [".bts"]),                          -- turbsim_file.py:50
  (30, "HAWC2DatFile", [".dat", ".sel"]),                 -- hawc2_dat_file.py:25
  (30, "HAWC2HTCFile", [".htc"]),                         -- hawc2_htc_file.py:18
  (30, "HAWC2StFile", [".st", ".dat"]),                   -- hawc2_st_file.py:16
  (30, "HAWC2PCFile", [".dat", ".pc", ".txt"]),           -- hawc2_pc_file.py:21
  (30, "HAWC2AEFile", [".dat", ".ae", ".txt"]),           -- hawc2_ae_file.py:20
  (30, "HAWCStab2PwrFile", [".pwr", ".txt"]),             -- hawcstab2_pwr_file.py:22
  (30, "HAWCStab2IndFile", [".ind", ".txt"]),             -- hawcstab2_ind_file.py:24
  (30, "HAWCStab2CmbFile", [".cmb"]),                     -- hawcstab2_cmb_file.py:11
  (30, "MannBoxFile", [".u", ".v", ".w", ".bin"]),        -- mannbox_file.py:75
  (40, "FLEXBladeFile", [".bld", ".bla", ".00X"]),        -- flex_blade_file.py:19
  (40, "FLEXProfileFile", [".pro", ".00X"]),              -- flex_profile_file.py:45
  (40, "FLEXOutFile", [".res", ".int"]),                  -- flex_out_file.py:29
  (40, "FLEXWaveKinFile", [".wko"]),                      -- flex_wavekin_file.py:21
  (40, "FLEXDocFile", [".out", "doc"]),                   -- flex_doc_file.py:17
  (50, "BModesOutFile", [".out"]),                        -- bmodes_out_file.py:35
  (50, "ROSCOPerformanceFile", [".txt"]),                 -- rosco_performance_file.py:35
  (60, "NetCDFFile", [".nc"]),                            -- netcdf_file.py:22
  (60, "VTKFile", [".vtk", ".vtp"]),                      -- vtk_file.py:52
  (60, "TDMSFile", [".tdms"]),                            -- tdms_file.py:9
  (60, "ParquetFile", [".parquet"]),                      -- parquet_file.py:10
  (70, "CactusFile", [".in"]),                            -- cactus_file.py:17
  (70, "RAAWMatFile", [".mat"])]                          -- raawmat_file.py:140

end Verif.Detect
