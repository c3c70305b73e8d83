# Formal model of weio — design

Target: the Python package `/repo/weio` (ebranlard/weio), read as text. Nothing
of it was run. All proofs are in Lean 4.33.0 under `lean/Verif`.

## Method

* Each modelled Python function becomes a small total Lean function that follows
  the code branch by branch. Exceptions are values (`Except`/`Option`).
* A mutating method becomes a function returning the new object.
* Python `str` is `List Char` (a list of code points). Files are lists of
  lines, or lists of bytes for the binary formats.
* numpy arrays are lists (with explicit row-major / column-major index maps).
* Floating point is replaced by exact rationals in the quantisation properties.
  Rounding is not modelled, and such claims say "real arithmetic".
* External effects (file-system content, behaviour of a format's parser, dict
  order of Python ≥ 3.7) are parameters or are listed in the trusted base.
* Each property has its own specification, stated without the model's helpers,
  and theorems live in `Verif/Props/*.lean`, apart from models
  (`Verif/Model/*.lean`) and helper lemmas (`Verif/Lemmas/*.lean`).
* When the code violates the property, the negation is proved on a concrete
  witness (theorem name ends in `_fails`) and the strongest true restriction is
  proved as `…_partial`.

## Trusted base

* Lean's kernel; axioms allowed: `propext`, `Classical.choice`, `Quot.sound`.
  (`#print axioms` of each theorem listed in MANIFEST.json is checked by
  `vcheck`; no theorem uses any other axiom, `native_decide` or `sorry`.)
* That the Lean definitions follow the cited Python lines. Every definition
  carries its citation, and simplifications are stated next to it.
* The semantics assumed for Python, numpy and pandas primitives:
  * `Verif/Py/Str.lean`: `str` methods (`strip`, `split`, `find`, `replace`, `join`;
    `lower`/`upper`/`isdigit` on ASCII letters and digits only).
  * `Verif/Py/Bytes.lean`: `struct` on a little-endian machine, `file.read(n)`.
  * `Verif/Py/Path.lean`: `posixpath.join`, `basename`, `dirname`.
  * `Verif/Py/Fmt.lean`: rounding of `%.8f`/`%.15e` of a float to the nearest decimal, ties to even.
  * `Verif/Py/Interp.lean`: `np.interp`, `np.searchsorted` for increasing abscissas.
  * `Verif/Py/Num.lean`: `astype(int)` as truncation; 24-bit rounding for examples of `float32`.
  * `Model/Csv.lean`: `pandas.read_csv(header=None)` and `DataFrame.to_csv(index=False)` for
    texts without quotes.
  * `Model/StepWind.lean`: `np.arange` with exact arithmetic.
  * `Model/Tecplot.lean`: `np.array2string` joins padded words with one blank and wraps at 75
    characters; `np.loadtxt` squeezes.
  * dictionaries keep insertion order (Python ≥ 3.7); `with open(...)` closes the file when an
    exception leaves the block; opening with mode `w` empties the file.

### Parameters and the laws assumed of them

A theorem names the laws it needs as hypotheses; nothing is assumed globally.

| parameter | stands for | laws used |
|-----------|-----------|-----------|
| `Detect`: reader outcome | constructing a format's class on a file | none |
| `FileBase`: `_read`, `_write` | the hooks of a subclass | none |
| `FastLine.PyFloat` | `float(s)`, `repr(x)` | `PyFloat.Lawful`: `repr` is read back, has no blanks or list brackets and is not an integer, a boolean or quoted |
| `FastBin.FloatSys` | float operations, `np.single`, `struct` `f`/`d` | per theorem: exact arithmetic (C18_exact), or monotone rounding (C18_round); stored numbers decode to themselves |
| `Mann.Store` | 4-byte floats | encoded length 4; `dec (enc x) = x` for the numbers of the field |
| `TurbSim.Store4` | 4-byte floats of the header | the same, for the header numbers only |
| `HawcAe.Num` | `float`, `%.17e`, `%d`, `%.15e`, `%.8f` | for the entries of the file only: printed text is read back |
| `Htc.Flt` | `float`, `str` | printed text is read back, has no blanks, comments or separators |
| `Flex.Flt` | `float32` decoding and product | none |
| `Bladed`: `time`, `lab` | time vector, text of a label rounded to two decimals | none (C39, C40), distinct labels where stated |
| `Tecplot.Txt` | words printed for a row, reading a word | printed words are read back, are not keywords |
| `AsciiOut.Num` | `float(..)`, `'{:10.4f}'`, `'{:13.3e}'` | the texts printed are words and are read as the value printed |
| `FastTypes.Env` | Python values of items: arrays, texts, counts, `np.gradient` | C77 only: the text of a text value is that text |
| `FastRead.Num` | `PyFloat` plus cells of tables, `'{:15.8e}'`, `'{:.16e}'`, `'{:.6f}'`, number of numbers at the start of a text | the texts printed are words read as the value printed, for the numbers of the file |
| `ExtPtfm.Num` | `float(..)`, `'{:16.8e}'`, `'{}'`, `int(T/dt)+1` | the texts printed are words after at least one blank, read as the value `rd x`; header numbers are read as themselves |
| `Lin`: `parse` | `float(..)` | none |
| `Rosco`: `parse`, `Fmt` | `float(..)`, `'{:0.4}'`, `'{:.6f}'`, `'{:.2f}'` | C96: the texts printed are words read as `rs x`, `rf x` |
| `Csv.Txt` | which texts are numbers, integers, alphabetic | stated per theorem |
| `Graph.interp` | position of a new node | none |
| `StepWind.rnd` | `np.around(·,0)` | stated per theorem |
| `Writers.Env` | encoding of texts, text of numbers, `struct.pack('<f')` | C48: texts can be encoded; C67: no text is encoded to nothing |
| `Polar.Env` | Python values, `toString` | none |
| `Summary.Env.argsort` | `np.argsort` | permutation (C68); sorted order for numbers (C69) |
| `FlexPro`: `Num`, `str` | `float(..)`, `int(..)`, `str(thickness)` | none |
| `FlexBld`: `Num` | `float(..)`, `int(..)` | none |
| `Yaml`: `Num` | `int(..)`, `float(..)` | none |
| `St`: `Num`, `fmt` | `float(..)`, `int(..)`, `precision % x` | saved files: `int` reads what `%i` prints; texts of numbers are as stated by `Prints` |
| `FastFrame`: `Trig` | `np.sin`, `np.cos`, `np.pi` | none |
| `Hawc2Sel`: `Num` | `float(..)`, `int(..)`, `'%16.8e'`, `'{:.3f}'` | in C137, C138: texts of numbers are words, and integers are read back |
| `DeckRead`: file system | what `FASTInputFile(path)` gives: a file, `FileNotFoundError`, or another exception | C146: no other exceptions |
| `TurbSimTS`: `Num`, `e` | `float(..)`, `int(..)`, `'{:16.8e}'` | in C152, C153: `int` reads what `str` prints; texts of numbers are as stated by `Prints` |
| `MannTurb`: `Store`, `fmt0` | 4-byte floats, `'{:.0f}'` | `Keeps`: four bytes, read back as `rd x`; in C166: `fmt0` prints no underscore |
| `BladedRead`: `Num`, `num`, `Dec`, `time` | `int(s)`, `float(s)`, text of a section rounded to two decimals, decoding of four and eight bytes, `nan`, `k*step+start` | none (C167-C175) |
| `BladedRead`: `Data` | what `isBinary` and `np.loadtxt` make of the data file | none (C169-C175) |
| `BModes`: `flt` | value of the text of a number (`float`, `astype(float)`) | none (C176-C178) |
| `Hs2`: `flt`, `int`, `per1000` | `float(s)`, `int(s)`, `x/1000` | none (C179-C184) |
| `FlexDoc`: `flt`, `Num.flt`, `Num.isInt`, `Num.ofNat` | values of texts of numbers, whether a word is a whole number | none (C185-C191) |
| `FlexSens`: `Num`, `arange` | `int` and `float` of texts, the times of `np.arange` | `arange` gives one time for every row (C192-C194) |
| `WaveKin`: `Num` | `float` and `int` of texts, products, `{:.1f}` | none (C195-C197) |
| `UserFmt`: `UFile`, `Load` | files `glob` finds, and the members of the imported modules, sorted by name | paths contain `/` (C198, C199) |
| `Cactus`: `F`, `Trig`, `flt` | the numbers (a field, exact), cosine, sine, pi and remainder by 360, value of a number text | for C203: cos²+sin²=1 (C200-C205) |
| `FastGraph`: `int`, `round` | `int(x)` of a value, as an integer and as a value | none (C206-C209) |
| `Sheets`: `C`, `V`, `obj`, `fastTime`, … | the cells of the sheets given by pandas, the samples and times of the channels given by nptdms, the signals given by scipy; `np.arange(600, step=…)`, NaN | for C213: exact field, times `t0+i*dt` with `dt>0` (C210-C215) |
| `VtkFile`: `Codec` | big-endian bytes and texts of numbers (`tofile`, `fromfile`), `float`, `numpy.linspace`, `bytes.decode` | `Codec.Laws`, `Kept`, length of `linspace` (C216-C219) |
| `WriteTest`: the hooks `_read` and `_write` | any functions; `_write` may raise before or after writing, and writes to no other file | every subclass |
| `HtcCompare`: the texts of the contents | any lists of lines | `str(x)`, in `Htc` |
| `HtcInclude.Env` | the texts of the files by path, `os.path.isfile`, the name and directory of the main file, the model path | none |
| `HtcQuery`: `int` | the whole number of a text | any partial function; C250 needs that it reads the printed positions |
| `HtcFiles`: `names`, `extra`, `fix` | the HAWC2 files themselves, what is appended for the DTU controller, and the path of a name | any names and functions |
| `NetCdf`: the data set | variables and coordinates that `xarray` reads | any arrays |
| `HtcName`: the paths | made of folder, subfolder and name | any values |
| `HtcAdd`: `isNum` | whether the time of an output is a number | any function |



## Plan per property

| id | model | proof idea |
|----|-------|-----------|
| C01 | `detectFormat` as a loop over a list of formats with an abstract reader result | induction on the format list; spec: least index |
| C02 | same loop, three reader outcomes (ok / WrongFormat / other) | induction |
| C03 | `fileFormats` with cache, stable argsort | insertion sort: permutation, sorted, stable; invariant over calls |
| C04 | same | witness history of two calls; partial: first call |
| C05 | extension match on strings with the library table | negation on three table entries; partial for lower-case dotted extensions, all stems |
| C06 | `File.read/write` as a state machine over an abstract file system | case analysis + invariant over call sequences |
| C07–C10 | list-of-entries model of `FASTInputFileBase` | refinement to a case-insensitive association map; iteration as a state machine |
| C11–C13 | character-level model of `toStringVLD` and `parseFASTInputLine` | lemmas on split/strip/pad; round trip under a decidable `WF` |
| C14 | `parseFASTOutList` over lists of lines | induction |
| C15 | `parseFASTNumTable` (row count and width logic) | induction on rows |
| C16 | chunked reader with stream position | loop invariant on rows read, all sizes |
| C17 | byte-level encoder/decoder | append/take/drop lemmas |
| C18, C24 | affine quantiser over ℚ with truncation | ordered field arithmetic |
| C19, C48 | file store + writer as a sequence of effects with failure point | witness + partial for the success path |
| C20 | loop with the actual Python variable binding behaviour | witness; partial: columns all having units |
| C21, C22 | byte/float index map with y flip; digit-run scanner | div/mod lemmas; induction on characters |
| C23 | index maps of the TurbSim stream | list lemmas by induction on time steps |
| C25 | list functions | index lemma |
| C26 | heap model of numpy view + in-place subtraction | witness; partial for non-view paths |
| C27 | argmin | induction |
| C28 | channel cache state machine | witness; partial: first call / ReadOnly histories |
| C29 | aliasing of attribute list | witness |
| C30–C33 | token-level model of ae/pc parser and printer | list lemmas by induction |
| C34–C36 | rose tree model with line parser | mutual induction |
| C37 | index formulas | div/mod arithmetic, bijection |
| C38 | node-order permutations and offset walk | induction on cells |
| C39–C41 | index maps / dataset dictionary | div/mod, witness |
| C42 | title write/read strings | induction on cycles |
| C43 | deck record with module file names | case analysis on present modules |
| C44, C45 | graph model with caches | invariant over operations |
| C46 | class-level closure state | witness; partial for single-object histories |
| C47 | normalisation function | kernel of a function is an equivalence |
| C49 | label strip/restore | list lemma; witness for the failing path |
| C50–C52 | csv decision logic, wind table | list lemmas |
| C53, C54 | the same line model, comment lines and foreign texts | case analysis of the line parser; witnesses |
| C55 | names and rows of `parseFASTNumTable` | width lemma of the reader |
| C56 | time column of the binary output | arithmetic of `t0 + k*dt` |
| C57, C58 | sizes and coordinates of a Mann box | length lemmas, `arange` as a list |
| C59, C60 | TurbSim `scale`, coordinates after re-reading | sums over lists, field arithmetic |
| C61 | polygons in VTK meshes | offset walk, grouped blocks |
| C62 | time bases when Bladed files are merged | witness; invariant of the merge loop |
| C63, C64 | Tecplot text, character level | lemmas on the seven replacements, word wrapping |
| C65 | `isBinary` on the first line | case analysis over code points |
| C66 | CSV object as state | equality of the two reads; witness |
| C67 | the writers' step language | the last piece emitted is not empty |
| C68, C69 | `NodesDisp`, `toJSON` of SubDyn summaries | loop invariant over degrees of freedom; permutation by argsort |
| C70, C71 | ASCII outputs: write, read, export | words of joined fields; columns of `loadtxt` |
| C72 | CSV with given comment lines and names | lines skipped by `read_csv` as a set of numbers |
| C73 | Counts and tables of FAST inputs | items in order, `write` returns the object and the items emitted |
| C74 | Names of multi-table polars | names of the items handed to the text, suffixes as texts |
| C75 | Reading into an existing wrapper | class decided once, then reused |
| C76 | Dedicated classes give the items | constructors of blades and polars, items and keys |
| C77 | Comment of a FAST input | indices of comment lines, setter and getter per class |
| C78 | Prototypes of dedicated inputs | list of items made without file, any number of tables |
| C79 | External platform round trip | text of the writer, lines, sections with expected numbers of rows |
| C80 | The four binary formats | readers that use up exactly given bytes and fail on each proper prefix |
| C81 | Reading of FAST inputs ends | `while` loop with fuel; each turn moves forward by a positive count |
| C82 | FAST inputs with tables: round trip | inductive predicate of saved items, one lemma per branch of the reading loop; all lines of an item are used up |
| C83 | Airfoil files | instance of C82; every AeroDyn 14 polar by case analysis of the writer |
| C84 | Repeated saving | induction on the number of cycles; invariant of the HydroDyn text |
| C85 | Lists of file names | first word of each line |
| C86 | Layout of tables | spec of texts (words, gaps, remarks), `Spec/FastText` |
| C87 | Hand-written FAST files | spec of lines and documented tables `Spec/FastHand`; induction on it |
| C88 | Format checks | invariant with the counts of the items so far |
| C89 | Layout of Tecplot files | spec of sections and lines `Spec/TecplotFile`; induction on the sections |
| C90 | Refused Tecplot files | same spec, state of the loop without variables |
| C91 | AeroDyn 14 polars | detection by words, then line by line |
| C92 | Linearization files | spec of the parts `Spec/Lin`; one lemma per kind of part; induction on the parts |
| C93 | Linearization files cut short | witnesses; readers of short lists |
| C94 | ROSCO files | spec of the parts `Spec/Rosco`; induction on the parts |
| C95 | ROSCO files cut short | a prefix of the lines is some parts and a piece of the next |
| C96 | ROSCO write/read | the text written is a list of parts of C94; witness for every object |
| C97 | Foreign files in the ROSCO reader | loop without keyword; witnesses |
| C98 | Data frames of linearization files | entries one by one; last two replacements are filters |
| C99 | FLEX profile files | spec `Spec/FlexPro`; induction on sets, polars, rows |
| C100 | FLEX profile files cut short | position of the cut |
| C101 | Rows of polars | witness; first wrong row |
| C102 | Frames of polars | witness; names injective |
| C103 | FLEX blade files | spec `Spec/FlexBld`; rows, dampings, lookup by name |
| C104 | FLEX blade files cut short | position of the cut |
| C105 | Rows of FLEX blades | witness; first wrong row |
| C106 | Small YAML files | spec `Spec/Yaml`; induction on the parts |
| C107 | Rows of YAML matrices | witness; wrong row in the loop |
| C108 | Real matrices with integer rows | witness; corollary of C106 |
| C109 | Lines which are no entries | number of colons |
| C110 | HAWC2 st files | spec `Spec/St`; induction on main sets and sets |
| C111 | Wrong st files | wrong set after a good beginning, `read_badSet` |
| C112 | Cut st files | cases on what remains, from C111 |
| C113 | Main set numbers | witness; dictionary after the loop |
| C114 | Columns of all sets | witness |
| C115 | Saving st files | saved text is a text of C110; witness with `'%15.07e'` |
| C116 | Data frames of st files | induction; `_` is in no number |
| C117 | Functions of columns | lemmas on `np.interp` |
| C118 | Both forms in a file | witness; from C117 |
| C119 | `set_value` | dictionary lemmas |
| C120 | Stiffness matrix | rows of the matrix, `ring` |
| C121 | Positive work | sum of squares |
| C122 | Flexibilities | witness; `field_simp` |
| C123 | Shape functions | `field_simp`, `linear_combination` |
| C124, C125 | Frames of tables | induction over the data; witness |
| C126, C128 | Mode shapes | `ring` on the sum of powers |
| C127 | BeamDyn sections | permutation of 73 columns |
| C129 | AeroDyn blades | `field_simp` |
| C130, C131 | Polars | column by column; witness |
| C132 | Superelements | lists |
| C133 | HAWC2 result headers | columns of lines |
| C134, C135 | Binary HAWC2 results | positions of samples |
| C136 | Text HAWC2 results | lists of rows |
| C137, C138 | Saving HAWC2 results | composition of writer and reader |
| C139 | BHAWC result headers | splitting at tabs and at runs of spaces |
| C140, C141 | Saving BHAWC results | composition of writer and reader |
| C147 | SubDyn files are read when they are asked for | violated: they are read as files of kind HD, and replace HydroDyn in the list of files read; proved when all kinds are asked for. |
| C148 | Decks with AeroDyn 14 can be read | violated for every such deck whose AeroDyn file is there. |
| C149 | Reading another deck forgets the first | violated: modules that the second deck switches off keep the files of the first; proved for the others. |
| C150 | Absolute names of module files are followed | violated for quoted names of AeroDyn and BeamDyn blades and polars when the module file is in a subdirectory; proved when it is not, and for ElastoDyn. |
| C153 | TurbSim time series without title lines | violated: one empty header line appears; the rest proved |
| C155 | two coordinates per point | violated: one number is repeated; other wrong lines refused |
| C162 | Mann fields of different dimensions | violated for dimensions of size one; the others refused |
| C164 | a converted box forgets the box read before | violated: the tower is kept |
| C166 | different names of probe columns | violated for points less than a metre apart |
| C171 | decoding in the stated format | violated: `I*4` is decoded as floats; proved for `R*4`, `R*8` |
| C172 | three-dimensional text files that do not fit | violated: all `nan` and no error; proved for the right count |
| C173 | units when files are put together | violated: units continued by another line shift those of later files; proved for equal counts |
| C174 | data file of `base.$nn` | violated: `%` in a folder name; proved without `%` |
| C175 | table of one text result | violated: a single step is refused; proved from two steps on |
| C178 | BModes output: incomplete files are refused | violated: a file cut between two rows gives a shorter mode |
| C180 | HAWCStab2 files: any number of rows is read | violated: one row gives IndexError |
| C181 | HAWCStab2 files: other files are refused with WrongFormatError | violated: NameError without `#` in the first line |
| C182 | HAWCStab2 induction file: labels and type | violated: first letter lost in `4ALPHA0 [rad]` |
| C183 | HAWCStab2 induction file: wind speed of the name | violated: ValueError for `.txt` |
| C185 | FLEX documentation: values | violated: digits of units are values |
| C187 | FLEX documentation: matrices | violated: the first row is lost; two names are one |
| C190 | FLEX documentation: repeated entries | violated: with two keys the second one stays |
| C195 | FLEX wave kinematics: same position for velocity and acceleration | violated: `u_z` labels have `z*depth*-1`, `a_z` labels `z*depth` (flex_wavekin_file.py:79, 81) |
| C196 | FLEX wave kinematics with several displacements | violated: labels have one elevation for all displacements, the rows one for each (flex_wavekin_file.py:76-84) |
| C199 | user folder: classes defined there, without `__init__.py` | violated: imported classes are taken; `__init__.py` is compared with the full path (__init__.py:148, 163-172) |
| C204 | The table of a CACTUS case any number of times | violated: columns are inserted in the stored frame, the second call raises ValueError; no table without element data |
| C205 | Columns of a node of a CACTUS case together | violated with a dynamic stall file: two columns inserted without moving the counter |
| C208 | graph of a HydroDyn file | violated: rows of `DepthCoefs`, `MemberCoefs` and `MGDepths` are plain `Property` objects, which `addMiscProperty` refuses; filled members raise NotImplementedError |
| C209 | graph of a SubDyn summary | violated: `E=E[7], G=E[8]` are the area and the density (columns 7 and 8), not the moduli (columns 9 and 10) |
| C211 | Excel round trip | violated: `dropna(how='all',axis=0)` drops rows without values (excel_file.py:37) |
| C212 | TDMS: a column for each channel | violated: paths are split at every slash, paths with more than three parts are left out (tdms_file.py:24) |
| C215 | RAAW: index of the tables | violated: the time stamp is that of the last signal (raawmat_file.py:54) |
| C217 | arrays of a VTK file keep their shape | violated: one column, matrices |
| C219 | structured points with fields of numbers are read | violated: `PD.shape[1]` of a 1-D array |
| C223 | setBodyC2 that raises leaves the body as it was | violated: `nsec` is set first (hawc2_htc_file.py:79) |
| C224 | section lines that do not have five numbers | violated: `reshape((-1,5))` (hawc2_htc_file.py:69) |
| C230 | The tests of writing leave the object at its file | violated: `self.filename` is the temporary file afterwards, `file.py:119, 124` |
| C231 | `test_write_read` says what went wrong | violated: `e.args[0]` may be a number or missing, `file.py:121, 126` |
| C233 | `compare` reports different sensors | violated: further sensors of the other file and other types go unnoticed, `htc_contents.py:403, 480` |
| C234 | The marks of `compare` tell the files apart | violated: `+` and `-` are swapped for changed lines, `htc_contents.py:348-349` |
| C236 | Wind files with tabs are text files | violated: a tab in the first line makes the file binary, `file.py:166` |
| C237 | A wind file survives being read and written | violated: without comments the names are written with tabs and the file is refused, `csv_file.py:268` |
| C239 | A HAWC2 file that continues in another one near it can be read without giving a model path | violated: the name is put in lower case before the case-sensitive look-up (htc_file.py:203-208); `C239_fails`, partial for names in lower case |
| C241 | Assigning to an attribute of a HAWC2 section sets it | violated: `sec.x__1 = v` leaves line `x` and adds a line; assigning to a section adds a line `values` (htc_contents.py:66-88); `C241_fails`, partial for other names |
| C242 | Item assignment on a HAWC2 section sets the line | violated: `section[k] = v` adds a second line if k is there (htc_contents.py:217-224); `C242_fails`, partial for new names |
| C243 | The copy of HAWC2 contents is equal to the original | violated: sensors of output sections are lost (htc_contents.py:288-292); `C243_fails`, partial for the others |
| C245 | get_element finds the contents with a given value | violated: NameError for textual keys (htc_contents.py:278); `C245_fails`, partial for positions |
| C247 | Deleting a line of a HAWC2 section | violated: no KeyError for a missing line (htc_contents.py:90-93); `C247_fails`, partial for present ones |
| C248 | contents by a path | violated: a path through a line is a TypeError, also in `get` with a default |
| C249 | sections by their fields | violated: fields that begin with v are taken for positions |
| C251 | input files | violated: the lines of the wakes section are looked for in the wind section |
| C255 | input files of a deck | violated: only files of ElastoDyn and BeamDyn are listed |
| C256 | tables of NetCDF files | violated: no tables for scalars and coordinates |
| C257 | names of simulation files | violated: without a log file, the animation and the visualization keep their names |
| C258 | adding a section | violated: of a given output section only the name is added |


## Modelled / not modelled

Line numbers are those of `/repo/weio`. "Not modelled" lists what a reader might
expect to be covered but is not.

| source | modelled (model file) | not modelled |
|--------|----------------------|--------------|
| `__init__.py`, `file_formats.py` | `fileFormats`, `detectFormat`, `read`, extension tables (`Detect`); `userFileClasses` (`UserFmt`) | `defaultUserDataDir` |
| `file.py` | `read`, `write`, constructor guards (`FileBase`); `isBinary`, `ascii_comp` (`AsciiComp`); `test_write_read`, `test_ascii` (`WriteTest`) | `toDataFrame` default, `encoding` |
| `fast_input_file.py` | dictionary interface (`FastDict`); line parser and printer, main read loop for key/value files, OutList (`FastLine`); numeric and file tables (`FastTable`); the whole of `_read` and `toString`, with AD14 polars, SubDyn, HydroDyn and BeamDyn sections (`FastRead`); polar writer (`Polar`); `_write` (`Writers`); dedicated classes, their sanity checks, comments and prototypes (`FastTypes`); external platform files (`ExtPtfm`); `toDataFrame` of all classes, in exact arithmetic (`FastFrame`) | `toGraph` is modelled with `fast_input_file_graph.py` |
| `fast_output_file.py` | `load_binary_output`, `writeBinary`, `writeDataFrame`, `toDataFrame` units (`FastBin`); ASCII writer steps (`Writers`), ASCII reader and writer (`AsciiOut`) | squeezing of 0-row tables by `loadtxt` beyond the cases in `AsciiOut` |
| `fast_input_deck.py` | `write` (`Deck`); constructor, `readAD`, `read`, `_read` (`DeckRead`); `inputFiles` and the paths (`DeckFiles`) | attributes repeating `fst_vt`, `__repr__` |
| `fast_summary_file.py` | `NodesDisp`, `getModes`, `toJSON`, class-level methods (`Summary`); `toDataFrame` (`SumFrame`) | YAML reader |
| `fast_linearization_file.py` | `write` (`Writers`), `_read` (`Lin`), `short_descr`, `_toDataFrame` (`LinFrame`) | `__repr__` |
| `rosco_performance_file.py` | all but `__repr__` (`Rosco`) | base-class guards (see C06) |
| `fast_wind_file.py` | step wind generator (`StepWind`); reader and writer (`WndFile`) | |
| `mannbox_file.py` | `read`, `write`, coordinates, `closestPoint`, dimensions from the name (`Mann`); `fromTurbSim` (`MannTurb`) | plotting frames |
| `turbsim_file.py` | `read`, `write`, views, statistics, `scale`, `makePeriodic` (`TurbSim`); `fromMannBox`, `toMannBox`, `writeProbes` (`MannTurb`) | `writeInfo`, `checkPeriodic`, fitting |
| `hawc2_dat_file.py`, `wetb/hawc2/Hawc2io.py` | caching channel reader, `_toDataFrame` (`Hawc2`); `_write` steps (`Writers`); `_ReadSelFile`, `ReadBinary`, `ReadAscii`, `_read`, `_write` texts (`Hawc2Sel`) | FLEX sensor files, gtsdf, file names |
| `wetb/hawc2/ae_file.py`, `pc_file.py` | readers, printers, queries, `add_set` (`HawcAe`) | plotting |
| `wetb/hawc2/htc_contents.py`, `htc_file.py` | parser, printer, section operations (`Htc`); `compare` (`HtcCompare`); `readlines` with `continue_in_file` (`HtcInclude`); attributes, items, deletion, `copy`, `get_section`, `get_element`, `set_time` (`HtcEdit`); paths, `get`, `__call__` (`HtcQuery`); `input_files`, `output_files`, `turbulence_files`, `res_file_lst` (`HtcFiles`); `set_name` (`HtcName`); `add_section`, `delete` (`HtcAdd`); `add_hydro` (`HtcHydro`); `add_mann_turbulence` with file names (`HtcMann`) | jinja, encodings, file references, simulation |
| `vtk_file.py` | structured points, cells, writer of cells (`Vtk`); whole files read and written, sections, point data, cell data, binary and ASCII (`VtkFile`) | number encoding, STRUCTURED_GRID and RECTILINEAR_GRID files, OFFSETS cells, negative counts |
| `bladed_out_file.py` | reshaping, labels, merging (`Bladed`); sensor file, data file, data sets with lists of units, names of the files (`BladedRead`) | `isBinary`, `np.loadtxt`, `glob`; negative sizes |
| `flex_out_file.py` | `read_flex_res` (`Flex`), `_read`, `_toDataFrame`, sensor file (`FlexSens`) | `__repr__` |
| `tecplot_file.py` | reader, writer (`Tecplot`) | |
| `csv_file.py` | `_read`, `_write` (`Csv`) | encodings, reading of quoted cells |
| `tools/graph.py` | division, connectivity, caches (`Graph`) | JSON export, modes |
| `flex_profile_file.py` | `_read`, `_toDataFrame` (`FlexPro`); `_write` (`Writers`) | `toString` |
| `flex_blade_file.py` | all but `__repr__` (`FlexBld`) | base-class guards (see C06) |
| `mini_yaml.py` | `yaml_read` (`Yaml`) | `dictIn` |
| `wetb/hawc2/st_file.py`, `hawc2_st_file.py` | reader, `save`, `to_str`, `_value`, `radius_st`, `set_value`, data frames (`St`); `element_stiffnessmatrix`, `shape_function_ori` in exact arithmetic (`StBeam`) | creation of directories, `encoding`, several names in one `set_value` |
| `turbsim_ts_file.py` | `_read`, `columns`, `units`, `toString`, `_toDataFrame` (`TurbSimTS`) | encoding of the file; `str.lower` of letters that are not ASCII |
| `bmodes_out_file.py` | `_read`, `toDataFrame` (`BModes`) | encodings |
| `hawcstab2_pwr_file.py`, `hawcstab2_ind_file.py`, `hawcstab2_cmb_file.py` | `_read` with `np.loadtxt` (`Hs2`) | numbers with other separators in `np.loadtxt`; `CSVFile` for Campbell files; name of the table of an induction file |
| `flex_doc_file.py` | `_read` (`FlexDoc`), `_toDataFrame` (`DocFrame`) | `toString`, `__repr__`; line ends other than line feeds, digits other than ASCII |
| `flex_wavekin_file.py` | `_read` (`WaveKin`) | `__repr__` |
| `cactus_file.py` | geometry file, labels of the time data, `timeDataToOpenFAST`, `elemDataToOpenFAST`, `toDataFrame` (`Cactus`) | the namelist (f90nml), paths, printing |
| `fast_input_file_graph.py` | SubDyn and HydroDyn graphs, nodes and elements of the SubDyn summary graph (`FastGraph`) | colours and drawing data, modes, `toGraph` dispatch |
| `excel_file.py`, `tdms_file.py`, `raawmat_file.py` | `_read`, Excel `_write` (`Sheets`) | what the libraries take from the bytes; `path_key` and `xarray` output of RAAW files; signals with one sample |
| `hawc2_htc_file.py` | bodies, `bodyC2`, `setBodyC2`, `c2` tables (`HtcBody`) | tables of structural files; texts `nan`, `inf` as numbers |
| `flex_*`, `rosco`, `raawmat`, `cactus`, … writers | order of effects (`Writers`) | texts |
| `netcdf_file.py` | `_toDataFrame` (`NetCdf`) | what `xarray` reads and writes |
| `parquet_file.py`, `cactus_element_file.py` | – | all |

## Where the code disagrees with a property

For every row there is a theorem with a witness (name ends in `_fails`), listed
in MANIFEST.json. What remains true is proved under `_partial`.

| id | property | disagreement |
|----|----------|--------------|
| C04 | fileFormats returns the same kind of value on every call | violated by the code: once the list is cached the bare list is returned; proved for histories without earlier success |
| C05 | Every declared extension is reachable | violated for .00X (two formats) and doc; all other extensions proved reachable |
| C06 | Read and write guards of every file object | Proved for the base class. Violated by overriding classes: six raise NameError on empty files, Tecplot and VTK do not use the remembered name. |
| C08 | FAST input object: assigning an unknown key is not silently lost | violated: assignments to absent keys are silently lost |
| C10 | FAST input object: iteration terminates normally | violated for every file: iteration ends in IndexError |
| C11 | FAST input line: write/parse round trip | label and value round trip proved under a well-formedness condition; the description comes back with a leading dash (violated), unquoted multi-word strings and one-element lists are not preserved |
| C12 | FAST input file: saving what was saved changes nothing | violated for descriptions ending with dashes and trailing blank lines |
| C14 | OutList channels: every channel line is read, nothing beyond END | violated: an unterminated list is returned with a warning, an empty list is read back as one empty channel |
| C15 | Numeric tables are never silently truncated | row count, order and widths proved; violated for values: rows longer than the first are cut silently |
| C16 | FAST binary output: chunked reading equals reading at once | proved for 1..163840 columns, every chunking; violated (ZeroDivisionError) for 0 or more columns |
| C17 | FAST binary output: names, units and counts round trip | byte-level round trip proved for units of at most 8 characters and a non-empty first unit; violated otherwise and for time-only data |
| C18 | FAST binary output: bounded error on every value | exact arithmetic proved, any rounding proved when nothing is clipped; violated with single precision offsets |
| C19 | FAST binary output: over-long names are rejected without damaging the existing file | violated: the file is truncated before a name that is too long is found |
| C20 | DataFrame export keeps each column's own unit | violated for columns without unit and for one-letter names directly followed by the unit |
| C23 | TurbSim box: write then read puts every sample back in its place | byte-level round trip for at least two points per direction; boxes with a single y, z or t cannot be written |
| C24 | TurbSim box: bounded quantisation error | real arithmetic as stated; with single precision offsets the int16 value can wrap (C24_single_fails) |
| C25 | TurbSim makePeriodic yields a periodic mirrored series | violated for a single time step: the field is deleted before the error |
| C26 | Computing statistics does not modify a TurbSim field | violated: removeMean writes through a view of the field |
| C28 | HAWC2 output: any history of channel requests returns the requested channels | violated: new channels of a later request are mapped to wrong columns; holds when the first request covers the later ones, and in read-only mode |
| C29 | HAWC2 output: exporting to a data frame is repeatable | violated: the prefix is added again at each export |
| C31 | AE file: queries at every radius | chord, thickness and profile set: every radius; radius_ae violated at radius 0 |
| C32 | Profile-coefficient file: text round trip | violated: %.8f and .15e lose digits; holds for numbers that survive the formats |
| C33 | Profile-coefficient file: lookups never fail within range | violated for a single profile; holds for strictly increasing thicknesses |
| C35 | HTC file: parse of print | Violated: end comments gain tabs, output_at_time comments crash the writer, valueless lines of output sections and comments below empty lines are lost. Proved for all other trees of any depth and width, also up to the order of main bodies. |
| C36 | HTC file: an unterminated section is reported | Violated for a trailing empty line (IndexError). Proved for all lines without such empty lines, overflowing values and output_at_time headers. |
| C37 | Structured VTK grids: generated cells are exactly the grid cells | Violated for the grid of one point (IndexError). Proved for every other grid. |
| C38 | VTK unstructured cells: written connectivity reads back | Violated for no cells and for writable types without a number of nodes in the table; proved for all meshes of the 25 fixed-size types. Encoding of the integers is not modelled. |
| C39 | Bladed output: column mapping is a bijection | Column mapping proved; violated when labels rounded to two decimals coincide (series dropped) or units are missing. |
| C40 | Bladed output: merging files loses no data set | Violated: one merged length drops all other data sets, equal categories replace each other, unreadable files are skipped. Proved otherwise. |
| C42 | Tecplot: title survives write/read cycles | Violated by every title: an equals sign is added in each cycle. The growth is proved, the rest of the file is kept. |
| C43 | FAST deck: written references point to written files | Violated for ServoDyn in every deck with AeroDyn (the reference is that of AeroDyn), for other directories, prefixes with a directory, ice, AeroDyn 14 and decks without structure. Proved for all other modules. |
| C44 | Graph: dividing elements keeps ids unique and the members connected | Violated for elements without properties (raises), with properties as list, or different at the ends. Proved for all other graphs of two-node elements, every n. |
| C45 | Graph: connectivity queries reflect the current graph | Violated: caches are not cleared by additions, and one query raises before any sorting. Proved for all other histories. |
| C46 | SubDyn summary objects are independent | Violated: the default scale, nodes and elements are those of the object read last, and each export renumbers the elements again. Proved for a given scale, and for the object read last. |
| C47 | ASCII comparison is an equivalence that ignores blanks only | Equivalence and blanks proved for every content. Violated: texts that differ in their line structure are equal when a bar character stands for the line break, and the empty file equals one blank line. |
| C48 | Writers do not destroy data when they fail | Violated: writers that fail after opening the file lose its content; the safe states are characterised for the text writers, HAWC2 and TurbSim. Excel, NetCDF and Parquet writers are not modelled; binary FAST output see C19. |
| C49 | AeroDyn polar write leaves the object as it was | Violated by failing writes of several tables (labels stay shortened). Proved for successful writes (up to the numbers of rows) and for one table. |
| C50 | CSV file: written column names are re-read | Violated: names are not written below free header lines; numeric names are re-read as data. Proved otherwise; the number syntax is a parameter. |
| C51 | CSV column-name detection decision | Violated by unit lines, comment headers and single columns; the decision is proved otherwise. |
| C52 | Step wind generator | Exact rationals in place of floating point. Violated when the range is not a multiple of the step and when the time step exceeds the hold time; proved otherwise. |
| C53 | FAST input: every line read as a comment is written back verbatim | violated by END of ... lines |
| C54 | FAST input reader refuses foreign text files with a format error | violated by a blank first line and by unclosed quotes |
| C55 | FAST input tables have one name per column | violated for num tables when the first row is longer than the header |
| C56 | Binary output: the time column is reproduced | violated for non-uniform time steps |
| C57 | Mann box: a file of the wrong size is refused | violated: files that are too long are read without complaint; too short ones are refused |
| C60 | TurbSim coordinates survive writing and reading | violated for times not starting at 0 and y not centred |
| C61 | VTK meshes with polygons: cells and cell data are re-read | Violated: cell data are dropped. The cells are proved. |
| C62 | Bladed output: each series keeps its own time base | Violated for files of equal length and different steps. |
| C63 | Tecplot: variables and data survive writing and reading | Violated for units in brackets, tables with one row or column, rows over 73 characters and files without data. Proved otherwise. |
| C64 | Tecplot: zone settings survive reading and writing | Violated: zones are written as Python dictionaries, several settings on a line are misread. Reading of lines with one setting is proved. |
| C65 | Text files are not taken for binary | Violated by every first line with a tab, and by control characters 14 and 31. Proved for all other texts. |
| C66 | CSV object: reading does not depend on earlier reads | Violated: the separator and names of the first file are kept. Proved for files of the same separator and names. |
| C67 | A successful write leaves something to read | Violated by every linearization object; proved for the other writers with something to write. |
| C69 | SubDyn JSON export: modes and nodes have the same order | Violated when the nodes are not listed from bottom to top; proved otherwise (strictly increasing heights). |
| C70 | FAST ASCII output: names, units and values survive writing and reading | Violated: the description is not written, one row comes back as a vector, blanks and brackets in names and units, time not first. Proved otherwise. |
| C71 | A FAST output file that was read can be exported | Violated for one row of data and for missing units. Proved otherwise. |
| C72 | CSV: comment lines and names given by the user | Violated when a comment line is not among the first lines: the first line of the file is lost. Proved when the comment lines come first and for names inside the comments. |
| C73 | Dedicated FAST inputs: counts written are the numbers of table lines | Violated by objects of the generic class (tower, SubDyn, HydroDyn, ...), whose counts are written as they are. Proved for blades and polars. |
| C75 | Reading another file into a FASTInputFile | Violated: the object keeps the class of its first file. Proved when the first file had the same class or no item. Not for ExtPtfm files. |
| C76 | Objects of dedicated classes give the items of the file | Violated by every object EDBladeFile(filename): its second item is replaced by a text and nearly every access raises. Proved for the other classes. |
| C77 | The comment of a FAST input file can be set and read | Violated: setting it on FASTInputFile always raises, the comment of polars is a property object, the generic class has none, further lines are lost. Proved for one-line comments of blades. |
| C78 | Prototypes of dedicated FAST inputs are complete | Violated: ADBladeFile() cannot be written (np.gradient of no node); with unsteady data the tables after the first have no InclUAdata item. Proved for all other items, any number of tables. |
| C79 | External platform files round trip | Violated: nothing is checked on the loading, whose number of rows must agree with time and time step; numbers that fill their sixteen characters run into each other. Proved otherwise. |
| C81 | Reading an OpenFAST input file ends | Violated by files that announce zero airfoil files and list one: the same line is read for ever. Proved for all texts without such an announcement. |
| C82 | FAST input with tables: saving then reading gives everything back | Violated by nodal lists of channels (the label grows) and several polars in the generic class (unreadable after saving). Proved for every sequence of the other items, any size, under a limit on comments. |
| C83 | Airfoil files survive saving | Violated by every AeroDyn 14 polar (cannot be saved), by coordinates and by several tables (cannot be read again). Proved for one table without coordinates. |
| C84 | Saving repeatedly keeps a FAST input file readable and of the same size | Violated: HydroDyn files grow by seven characters per cycle, lists of one file get a blank line per cycle and end up unreadable. Proved for the files of C82. |
| C85 | File names of lists keep their blanks | Violated by names with blanks; proved for all others. |
| C93 | A linearization file cut short is refused | the code violates it: a file which ends inside a list of operating points is read with fewer points, one which ends after the title of a matrix gives rows without columns, one which ends before the line on Jacobians gives nothing at all (C93_fails). Proved: a file ending inside a matrix after one row or more, one with 32 lines or more without the line on Jacobians, one ending before one of the five counts are refused. |
| C96 | A ROSCO performance object can be saved and read again | violated by every object: the name now is not defined in the module, the existing file is replaced by one line of title (C96_fails). Proved: if now were defined, every object of consistent sizes would be read back as printed. |
| C97 | The ROSCO performance reader refuses foreign text files with a format error | violated by short texts (UnboundLocalError), texts with the word Power (TypeError) or TSR (ValueError) in their first lines. Proved for texts whose first twelve lines have none of the keywords. |
| C101 | Rows of FLEX polars which do not have four numbers are refused | violated by a row of one number, which is read as four equal numbers (numpy repeats it); all other wrong rows are proved refused. |
| C102 | Every polar of a FLEX profile file has its data frame | violated by two polars with the same printed thickness in a set: the first is lost; proved if the printed thicknesses of each set differ. |
| C105 | Rows of a FLEX blade file with too few numbers are refused | violated by a row of one number, which is read as a row of equal numbers (numpy repeats it); all other rows that are too short or have a word that is no number are proved refused. |
| C107 | Rows of a matrix in a small YAML file with another number of elements are refused | violated by a row of one element, which is repeated (numpy); proved for rows of two elements or more. |
| C108 | A matrix of real numbers in a small YAML file is read however its numbers are written | violated if the first row has only integers and another row has a number with a fraction: ValueError; proved if the first row has a number which is no integer. |
| C113 | Main sets of a HAWC2 st file with the same number are not lost silently | violated: the later main set replaces the earlier one; proved: the sets found under a number are those of the last main set of this number. |
| C114 | A HAWC2 st file with a set of neither 19 nor 30 columns is refused | violated: only the columns of the last set of the file are counted, and toDataFrame of the object raises ValueError; proved for the last set. |
| C115 | A saved HAWC2 st file is read back | violated by numbers whose text fills the 15 characters of a column (negative numbers with an exponent of three digits), which run into the number before; proved when the text of every number starts with a blank (so the check of the first lines is passed too, if the first main set has a set). |
| C118 | Functions of the columns of a HAWC2 st file give the column of their name in sets of both forms | violated: the functions are made for the columns of the last set of the file, and `pitch` gives `x_sh` for a set of the other form; proved for the first six columns, which are the same in both forms. |
| C122 | Sideways stiffness of a HAWC2 beam element adds bending and shear flexibility | violated along x: `ROY` is overwritten with the value for the other direction (line 188); proved along y, and along x when I_x/k_y equals I_y/k_x. |
| C125 | A FAST input file that was read can be shown as data frames | violated by a table with more numbers in its rows than names: it is read and toDataFrame raises ValueError; proved for tables with as many numbers as labels. |
| C131 | A polar file without data for unsteady aerodynamics can be shown as a data frame | violated: without `Cd0` a KeyError is raised, for every such file; proved for files with this data. |
| C135 | A cut binary HAWC2 result is refused | violated: a file cut after the first sample of its last channel is read and the sample is given to all scans; proved for all other lengths. |
| C137 | Saving a HAWC2 result and reading it keeps its content | violated: names are cut after thirty characters; the rest is proved for units of at most eleven characters. |
| C138 | A saved HAWC2 result can be read | violated: a last time printed as zero divides by zero in the reader, for every such result; proved for other times. |
| C141 | A saved BHAWC result can be read | violated: with fewer than three channels the file cannot be read, in general; with the word "channel" in the first channels these are lost; with the unit in a description the file cannot be read. Proved for the other results (C140). |
| C147 | SubDyn files are read when they are asked for | Violated: SubDyn is read as kind HD (278), so asking for SD does not give it, and its path replaces that of HydroDyn in inputfiles. Holds when all kinds are asked for. |
| C148 | Decks with AeroDyn 14 can be read | Violated for every deck whose AeroDyn 14 file is there: the polars are taken from AeroDyn15, which is None (119), or ADBlFile(1) is missing (110). Holds when the file is missing, unused or not asked for. |
| C149 | Reading another deck into the same object forgets the first deck | Violated: modules switched off by the second model keep the files of the first. Holds for modules that are switched on. |
| C150 | Absolute names of module files are followed | Violated: a quoted absolute name starts with a quote when joined (110, 120, 291), so it is taken as relative. Holds for ElastoDyn (C143) and when the AeroDyn file is in the directory of the main file. |
| C153 | A TurbSim time series without title lines survives saving | Violated for every such file: it is read back with one empty header line. Everything else is kept. |
| C155 | Every point of a TurbSim time series file has two coordinates | Violated: a single number on a point line is taken as both coordinates. All other wrong lines are refused. |
| C162 | Mann fields of different dimensions are refused | Violated: dimensions of size one are repeated. All other wrong dimensions are refused. |
| C164 | A converted box forgets the box read before | Violated: the tower (`zTwr`, `uTwr`) of the box read before is kept. The result depends on nothing else. |
| C166 | Columns of a probe file have different names | Violated when closest grid points have coordinates with the same text, for instance 0 and 0.25. Holds when the texts differ. |
| C171 | Bladed output: numbers are decoded in the format the sensor file states | Violated: a format of whole numbers (I*4) is decoded as four-byte floats. Proved for R*4 and R*8 (two dimensions). |
| C172 | Bladed output: a three-dimensional text file that does not fit is refused | Violated: with a wrong count of numbers, or an unreadable text, the table has nan everywhere and there is no error. Proved for the right count. |
| C173 | Bladed output: channels keep their units when files are put together | Violated: the words of a line behind the units that is not AXISLAB become further units, and shift those of the files that follow. Proved when each file has as many units as channels. |
| C174 | Bladed output: the data file read is the one asked for | Violated: a % in the name of a folder is replaced too. Proved for names without %. |
| C175 | Bladed output: the table of one text result | Violated: a text file of a single step is refused (ValueError, or TypeError for one channel). Proved for two steps or more. |
| C178 | BModes output: incomplete files are refused | Violated: a file that ends between two rows, or above the table, gives the shorter (or empty) table without an error. Proved for a file that ends within a row. |
| C180 | HAWCStab2 files: any number of operating points or sections is read | Violated: a file of one row gives IndexError. Proved for two rows or more. |
| C181 | HAWCStab2 files: other files are refused with WrongFormatError | Violated: a first line without # gives a NameError (the name of the exception in the message is not bound). Proved for a wrong number of columns. |
| C182 | HAWCStab2 induction file: labels and type | Violated: a name directly behind a number of one digit loses its first letter, as ALPHA0 in the sample file. Proved for two digits, or white space behind the number. |
| C183 | HAWCStab2 induction file: wind speed of the name | Violated: a name with the accepted extension .txt gives a ValueError. Proved for .ind. |
| C185 | A FLEX documentation file: values of entries | Violated: digits in units and texts are values ([kg/m3] adds 3, Flex5 gives 5). Proved for entries whose words are numbers or have no digits. |
| C187 | A FLEX documentation file: matrices | Violated: the first row of every matrix is lost (taken as a header), and Blade_IsolatedMassMatrix and Blade_IsolatedStiffnessMatrix are not known because of a missing comma. Proved: the rows from the second one on of the other matrices. |
| C190 | A FLEX documentation file: repeated entries | Violated: an entry with two keys replaces the earlier one. Proved for entries with one key. |
| C195 | A FLEX wave kinematics file gives the numbers of its header, and labels with heights | Violated: the label of a velocity has the negated height, that of the acceleration at the same point has not. The partial theorem has the rest, with the labels the code gives. Cells with quotes are not modelled. |
| C196 | A FLEX wave kinematics file may have any number of displacements | Violated: one elevation is expected for all displacements, so every such file with another number of displacements than one is refused (C196_refused). Files with one displacement are read. |
| C199 | The classes of the user folder are the ones its modules define | Violated: inspect.getmembers lists imported classes as well, so a module that imports CSVFile registers CSVFile instead of its own class if that name comes first; `__init__.py` is compared with the full path, so it is never left out. The partial theorem has folders without both. |
| C204 | The table of a CACTUS case can be asked for whenever a file was found, any number of times | Violated: the columns are inserted in the stored frame, so the second call always raises ValueError (C204_fails), and without time data or without element data unpacking the result raises (C204_missing). The first call with both gives the columns of rotor, blades, nodes and time data. |
| C205 | The columns of a node of a CACTUS case stand together | Violated: `dalphaD` and `alphaDot2` are inserted without moving the counter, so with a dynamic stall file they end up behind the columns of all later nodes. Holds without that file. |
| C208 | The graph of a HydroDyn file has its joints, members and coefficients | violated by every file with coefficients by depth or by member, filled members or marine growth: an exception is raised; proved for files without these tables |
| C209 | The graph of a SubDyn summary file has the nodes and elements of its tables | violated: the moduli of an element are its area and density; the rest is proved |
| C211 | Writing tables to an Excel file and reading it gives the same tables | violated: rows without values are lost; proved for tables with a name for each column and a value in each row |
| C212 | The table of a TDMS file has a column for each channel | violated: a channel with a slash in its name is left out without a message; proved for names without slashes and quotes |
| C215 | The index of the tables of a RAAW file is the time of the samples | violated when signals start at different times: the start of the last one is taken |
| C217 | Arrays of a VTK file keep their shape | violated: arrays with one column come back without their second index, and the number of components of an array of matrices is wrongly written so that the binary file cannot be read; proved for arrays of numbers and of rows of three or more numbers (pairs are completed by zeros, C216) |
| C219 | Structured points with fields of numbers are read | violated: for a FIELD of single numbers PD.shape[1] fails and the file cannot be read; missing: the partial theorem speaks of the grid of one array of rows of numbers, files with SCALARS and VECTORS are in C218 |
| C223 | setBodyC2 that raises leaves the body as it was | violated: nsec is changed before the exception, so that a file written afterwards declares more sections than it has; proved that all other lines are unchanged |
| C224 | Section lines that do not have five numbers are refused | violated: reshape((-1,5)) makes four rows of five lines of four numbers; proved that lines of different sizes are refused, and lines whose numbers are not a multiple of five in all |
| C230 | The tests of writing leave the object at its file | violated: the object is left at the temporary file, which a passed test has removed, so that the same test again ends with FileNotFoundError; proved that reading the original again puts the object back |
| C231 | test_write_read says what went wrong | violated: e.args[0] of an OSError is a number (TypeError), and is missing for exceptions without arguments (IndexError); proved for exceptions with a text |
| C233 | compare reports different sensors | violated: the loop over the further sensors of the other file runs over those of this file, and the types of sensors are not compared; proved that equal reports mean equal names and values, and that sensors missing in the other file are reported |
| C234 | The marks of compare tell the files apart | violated: the marks of lines with different values are swapped; proved for what only one of the files has |
| C236 | Wind files with tabs are text files | violated: isBinary takes a tab in the first line for a control character; proved for files without tabs in the first line |
| C237 | A wind file survives being read and written | violated: without comment lines the names are written in front, with tabs, and the file is refused as binary; proved for files that start with a comment |
| C239 | A HAWC2 file that continues in another one near it can be read without giving a model path | Violated: while the model path is unknown the name is put in lower case and looked up with the case-sensitive os.path.isfile, so that a name with capitals gives ValueError although the file is there (C239_fails, for every such name). Proved for names in lower case. |
| C241 | Assigning to an attribute of a HAWC2 section sets it | Violated: names with `__1` behind are read as the first line of the name but assigned as a new line; assigning to the name of a section adds a line `values` in it. Proved for all other names. |
| C242 | Item assignment on a HAWC2 section sets the line | Violated for every name that is there: a second line is added and the first keeps its values. Proved for new names. |
| C243 | The copy of HAWC2 contents is equal to the original | Violated: the copy of an output section is a plain section without its sensors. Proved for lines and other sections of any depth. |
| C245 | get_element finds the contents with a given value | Violated: with the name of a line as key the result is never a section, since the code compares with an undefined name (NameError). Proved for whole numbers as keys among lines. |
| C247 | Deleting a line of a HAWC2 section | Violated: deleting a line that is not there is silent, the documentation says KeyError. Proved for contents that are there. |
| C248 | Contents of a HAWC2 file by a path | Violated for a path through a line: HTCLine.__getitem__ adds one to the text in its message, and get does not catch the TypeError. Proved for all other paths, found or not. |
| C249 | Sections of the same name are told apart by their fields | Violated for fields whose names begin with v: they are also taken for positions, and int or the values of a section raise. Proved for sets of fields of which one does not begin with v. |
| C251 | The input files of a HAWC2 file | Violated for the wakes section: its lines are looked for in the wind section, so that no line of it matters. Proved for all other lines. |
| C255 | The input files of a FAST input deck | Violated: only the files of ElastoDyn and BeamDyn are listed, whatever the main file says of AeroDyn, InflowWind, ServoDyn and others. Proved for the five files of ElastoDyn and BeamDyn: all that are named are listed with their paths, and unused ones are not. |
| C256 | Tables of a NetCDF file | Violated for scalars and coordinates: there is no table for them. Proved for all variables of one or two dimensions; no other tables exist, and their order is that of the variables. |
| C257 | set_name names the files of a simulation | Violated for simulations without a log file: the animation and the visualization keep their old names, since they are renamed only with the log file. Proved for simulations with a log file, an animation and a visualization. |
| C258 | add_section adds the section it is given | Violated for output sections: a given output section is replaced by an empty one, so that its lines and sensors are lost. Proved for all other sections. |
