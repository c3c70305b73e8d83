import Verif.Lemmas.FastBin
import Verif.Py.Num
import Mathlib.Tactic.Linarith
import Mathlib.Tactic.FieldSimp
import Mathlib.Tactic.Ring
import Mathlib.Data.Rat.Floor
/-!
# Properties C16–C20 and C56: OpenFAST binary output files
-/
namespace Verif.FastBin
open Verif.Py

/-! ## C16: chunked reading -/

/-- C16 (at most 163840 columns): the buffered reader fails iff the block is too
short; otherwise entry `(i, j)` of the table is item `i*nCols+j` of the block,
whatever the chunk size, and the file is left just after the block. -/
theorem C16_partial (w : Nat) (dec : Bytes → α) (zero : α) (nT nCols nOff : Nat) (bs : Bytes)
    (h0 : 0 < nCols) (h1 : nCols ≤ 163840) :
    (bs.length < w * (nT * nCols) →
      freadTable w dec zero ((nT * nCols : Nat) : Int) nCols nOff bs = .error .shortRead) ∧
    (w * (nT * nCols) ≤ bs.length → ∃ data,
      freadTable w dec zero ((nT * nCols : Nat) : Int) nCols nOff bs
        = .ok (data, bs.drop (w * (nT * nCols))) ∧
      data.length = nT ∧
      ∀ i, i < nT → ∃ row, data[i]? = some row ∧ row.length = nOff + nCols ∧
        ∀ j, j < nCols →
          row[nOff + j]? = some (dec ((bs.drop (w * (i * nCols + j))).take w))) := by
  rw [freadTable_eq w dec zero nT nCols nOff bs h0 h1]
  refine ⟨fun h => by rw [if_pos h], fun h => ?_⟩
  rw [if_neg (by omega)]
  refine ⟨_, rfl, by simp [length_rowsOf], fun i hi => ?_⟩
  rw [List.getElem?_map, getElem?_rowsOf _ _ _ _ hi]
  have hle : nCols * i + nCols ≤ nT * nCols := by
    rw [← Nat.mul_succ, Nat.mul_comm]; exact Nat.mul_le_mul_right _ hi
  refine ⟨_, rfl, by simp [length_rowsOf]; omega, fun j hj => ?_⟩
  rw [List.getElem?_append_right (by simp), List.length_replicate, Nat.add_sub_cancel_left,
    List.getElem?_take, if_pos hj, List.getElem?_drop, List.getElem?_map,
    getElem?_rowsOf _ _ _ _ (by omega), Nat.mul_comm nCols i]
  rfl

/-- a 2×3 table read two bytes at a time -/
example : ∃ data, freadTable 2 (unpackInt 2) 0 ((2 * 3 : Nat) : Int) 3 1
      [1, 0, 2, 0, 3, 0, 4, 0, 5, 0, 255, 255, 7] = .ok (data, [7])
    ∧ data = [[0, 1, 2, 3], [0, 4, 5, -1]] := ⟨_, rfl, rfl⟩

/-- C16 is violated for tables of 0 or more than 163840 columns: a complete block
is refused. -/
theorem C16_fails :
    (∀ bs : Bytes, freadTable 2 (unpackInt 2) 0 ((3 * 0 : Nat) : Int) 0 1 bs = .error .zeroDivision) ∧
    ∃ bs : Bytes, bs.length = 2 * (1 * 163841) ∧
      freadTable 2 (unpackInt 2) 0 ((1 * 163841 : Nat) : Int) 163841 1 bs = .error .zeroDivision := by
  refine ⟨fun bs => rfl, List.replicate (2 * (1 * 163841)) 0, List.length_replicate .., ?_⟩
  unfold freadTable
  rw [if_neg (by decide)]
  exact if_pos (by decide)

/-! ## C17: names, units, description, sizes -/

/-- a name that fits in the file: at most 10 characters of 8 bits, no blanks at
the ends -/
def NameFits (s : Str) : Prop :=
  s.length ≤ 10 ∧ (∀ c ∈ s, c.toNat < 256) ∧
    (∀ c, s.head? = some c → isWs c = false) ∧ (∀ c, s.getLast? = some c → isWs c = false)

/-- `units` are given without parentheses (the first one non-empty), or all with
parentheses; `plain` are the bare units, of at most 8 characters. -/
def UnitsFit (units plain : List Str) : Prop :=
  (∀ u ∈ plain, u.length ≤ 8 ∧ ∀ c ∈ u, c.toNat < 256) ∧
  ((units = plain ∧ ∃ c u us, plain = (c :: u) :: us ∧ c ≠ '(') ∨
   (units = plain.map (fun u => '(' :: u ++ [')']) ∧ plain ≠ []))

theorem fixUnits_fit (units plain : List Str) (h : UnitsFit units plain) :
    fixUnits units = .ok (plain.map (fun u => '(' :: u ++ [')'])) := by
  rcases h.2 with ⟨rfl, c, u, us, rfl, hc⟩ | ⟨rfl, hne⟩
  · simp [fixUnits, firstUnitChar, hc]
  · cases plain with
    | nil => exact absurd rfl hne
    | cons u us => simp [fixUnits, firstUnitChar]

theorem strip_paren (u : Str) : strip ('(' :: u ++ [')']) = '(' :: u ++ [')'] := by
  apply stripBy_eq_self
  · intro c hc; simp at hc; subst hc; decide
  · intro c hc
    rw [List.getLast?_concat] at hc
    injection hc with hc; subst hc; decide

theorem dropEnds_paren (u : Str) : dropEnds ('(' :: u ++ [')']) = u := by
  unfold dropEnds
  rw [List.cons_append, List.drop_succ_cons, List.drop_zero, List.dropLast_concat]

/-- The data set fits: a rectangular table of at least two time steps and one
channel besides time, one name and unit per column, `Time` first. -/
structure Fits (S : FloatSys) (t : Table S.F) (names units plain : List Str) (descr : Str) :
    Prop where
  cols : 2 ≤ t.nCols
  colsMax : t.nCols ≤ 163841
  rect : ∀ r ∈ t.rows, r.length = t.nCols
  steps : 2 ≤ t.rows.length
  stepsMax : t.rows.length < 2 ^ 31
  namesFit : ∀ s ∈ names, NameFits s
  nNames : names.length = t.nCols
  time : names.head? = some "Time".toList
  unitsFit : UnitsFit units plain
  nUnits : plain.length = t.nCols
  descrLen : descr.length < 2 ^ 31
  descrChars : ∀ c ∈ descr, c.toNat < 256
  len32 : ∀ x, (S.enc32 x).length = 4
  len64 : ∀ x, (S.enc64 x).length = 8

/-- Values of one channel as they come back: quantised with the channel's scale
and offset, stored, read and scaled back. -/
def readBack (S : FloatSys) (col : List S.F) (x : S.F) : S.F :=
  let scl := S.dec32 (S.enc32 (colScl S col))
  let off := S.dec32 (S.enc32 (colOff S col))
  if S.isNaN scl && S.isNaN off then S.ofInt 0
  else S.div (S.sub (S.ofInt (quantise S (colScl S col) (colOff S col) x)) off) scl

theorem scaleRow_getElem? (S : FloatSys) (cols : List (List S.F)) (r : List S.F) (j : Nat)
    (col : List S.F) (x : S.F) (hc : cols[j]? = some col) (hx : r[j + 1]? = some x) :
    (scaleRow S ((cols.map (colScl S)).map (fun x => S.dec32 (S.enc32 x)))
      ((cols.map (colOff S)).map (fun x => S.dec32 (S.enc32 x)))
      ((packedRow S (cols.map (colScl S)) (cols.map (colOff S)) r).map S.ofInt))[j]?
    = some (readBack S col x) := by
  have hx' : (r.drop 1)[j]? = some x := by rw [List.getElem?_drop, Nat.add_comm]; exact hx
  have hp : ((packedRow S (cols.map (colScl S)) (cols.map (colOff S)) r).map S.ofInt)[j]?
      = some (S.ofInt (quantise S (colScl S col) (colOff S col) x)) := by
    unfold packedRow
    rw [List.getElem?_map, List.getElem?_zipWith, List.zip, List.getElem?_zipWith, List.getElem?_map,
      List.getElem?_map, hc, hx']
    rfl
  unfold scaleRow
  rw [List.getElem?_zipWith, List.zip, List.getElem?_zipWith, List.getElem?_map, List.getElem?_map,
    List.getElem?_map, List.getElem?_map, hc, hp]
  rfl

/-- Everything that comes back from a written file. -/
theorem write_load (S : FloatSys) (old : Option Bytes) (t : Table S.F) (names units plain : List Str)
    (descr : Str) (h : Fits S t names units plain descr) :
    ∃ bytes data t0 t1 ts, column S t 0 = t0 :: t1 :: ts ∧
      writeBinary S old t names units 2 descr = (some bytes, .ok ()) ∧
      load S bytes = .ok ({ fileID := 2, description := strip descr, names := names,
                            units := plain, data := data }, []) ∧
      data.length = t.rows.length ∧
      ∀ (i : Nat) r, t.rows[i]? = some r → ∃ row, data[i]? = some row ∧
        row[0]? = some (S.add (S.dec64 (S.enc64 t0))
          (S.mul (S.dec64 (S.enc64 (S.sub t1 t0))) (S.ofInt (i : Int)))) ∧
        ∀ j x, j + 1 < t.nCols → r[j + 1]? = some x →
          row[j + 1]? = some (readBack S (column S t (j + 1)) x) := by
  have hsteps := h.steps
  obtain ⟨t0, t1, ts, hcol⟩ : ∃ t0 t1 ts, column S t 0 = t0 :: t1 :: ts := by
    unfold column
    cases hr : t.rows with
    | nil => rw [hr] at hsteps; simp at hsteps
    | cons a l =>
      cases l with
      | nil => rw [hr] at hsteps; simp at hsteps
      | cons b rs => exact ⟨_, _, _, rfl⟩
  have hn := h.nNames
  have hcols := h.cols
  have hmax := h.colsMax
  have htime : "Time".toList ∈ names := by
    have := h.time
    cases names with
    | nil => exact nomatch this
    | cons a l => rw [List.head?_cons] at this; injection this with this; rw [this]; exact List.mem_cons_self ..
  let cols := (List.range (t.nCols - 1)).map (fun j => column S t (j + 1))
  let p : Prepared S.F := ⟨plain.map (fun u => '(' :: u ++ [')']), t0,
    S.sub t1 t0, cols.map (colScl S), cols.map (colOff S)⟩
  have hprep : prepare S t names units = .ok p := by
    unfold prepare
    rw [fixUnits_fit _ _ h.unitsFit]
    simp only
    rw [if_neg (by simpa using htime), if_neg (by rw [h.time]; simp), if_neg (by omega), hcol]
  have hstrip : ∀ s ∈ names, strip s = s := by
    intro s hs
    have := h.namesFit s hs
    exact stripBy_eq_self _ _ this.2.2.1 this.2.2.2
  obtain ⟨bytes, hb, hl⟩ := load_steps S t names descr p (t.nCols - 1) (by omega) (by omega)
    (by omega) h.rect h.stepsMax (fun s hs => ⟨(h.namesFit s hs).1, (h.namesFit s hs).2.1⟩) h.nNames
    (by
      intro s hs
      obtain ⟨u, hu, rfl⟩ := List.mem_map.1 hs
      obtain ⟨h1, h2⟩ := h.unitsFit.1 u hu
      refine ⟨by simp; omega, ?_⟩
      intro c hc
      simp only [List.cons_append, List.mem_cons, List.mem_append, List.not_mem_nil, or_false] at hc
      rcases hc with rfl | hc | rfl
      · decide
      · exact h2 c hc
      · decide)
    (by simp [p, h.nUnits]) h.descrLen h.descrChars (by simp [p, cols]) (by simp [p, cols])
    h.len32 h.len64
  have e1 : names.map strip = names := by
    rw [List.map_congr_left hstrip, List.map_id']
  have e2 : (p.units.map strip).map dropEnds = plain := by
    simp only [p, List.map_map]
    rw [List.map_congr_left (g := id)]
    · simp
    · intro u _
      simp only [Function.comp, strip_paren, dropEnds_paren, id]
  rw [e1, e2] at hl
  refine ⟨bytes, _, t0, t1, ts, hcol, ?_, hl, by simp, ?_⟩
  · unfold writeBinary
    rw [hprep]
    simp only
    rw [if_neg (by decide), hb]
  · intro i r hr
    have hi : i < t.rows.length := (List.getElem?_eq_some_iff.1 hr).1
    rw [List.getElem?_zipWith, List.getElem?_range hi, hr]
    refine ⟨_, rfl, rfl, ?_⟩
    intro j x hj hx
    rw [List.getElem?_cons_succ]
    refine scaleRow_getElem? S cols r j _ x ?_ hx
    simp only [cols, List.getElem?_map]
    rw [List.getElem?_range (by omega)]
    rfl

/-- C17, for data sets that fit (units of at most 8 characters, first unit not
empty, at least one channel besides time): writing succeeds, and reading gives
the same names, units, description, number of time steps and time step. -/
theorem C17_partial (S : FloatSys) (old : Option Bytes) (t : Table S.F)
    (names units plain : List Str) (descr : Str) (h : Fits S t names units plain descr)
    (hd : strip descr = descr) :
    ∃ bytes r, writeBinary S old t names units 2 descr = (some bytes, .ok ()) ∧
      load S bytes = .ok (r, []) ∧
      r.names = names ∧ r.units = plain ∧ r.description = descr ∧
      r.data.length = t.rows.length ∧
      ∃ t0 t1 ts, column S t 0 = t0 :: t1 :: ts ∧
      (S.dec64 (S.enc64 t0) = t0 → S.dec64 (S.enc64 (S.sub t1 t0)) = S.sub t1 t0 →
        ∀ i, i < t.rows.length → ∃ row, r.data[i]? = some row ∧
          row[0]? = some (S.add t0 (S.mul (S.sub t1 t0) (S.ofInt (i : Int))))) := by
  obtain ⟨bytes, data, t0, t1, ts, h1, h2, h3, h4, h5⟩ := write_load S old t names units plain descr h
  refine ⟨bytes, _, h2, h3, rfl, rfl, hd, h4, t0, t1, ts, h1, ?_⟩
  intro e1 e2 i hi
  obtain ⟨row, g1, g2, _⟩ := h5 i t.rows[i] (List.getElem?_eq_getElem hi)
  rw [e1, e2] at g2
  exact ⟨row, g1, g2⟩

/-! ### A float system for the examples: rationals with a given `np.single`
and a given storage of numbers. -/

/-- what is not exact: `np.single` and the storage in 4 and 8 bytes -/
structure Store where
  single : ℚ → ℚ
  e32 : ℚ → Bytes
  d32 : Bytes → ℚ
  e64 : ℚ → Bytes
  d64 : Bytes → ℚ

/-- rational arithmetic with a given `np.single` and given storage -/
abbrev ratSys (st : Store) : FloatSys where
  F := ℚ
  add := (· + ·)
  sub := (· - ·)
  mul := (· * ·)
  div := (· / ·)
  le := fun a b => decide (a ≤ b)
  isNaN := fun _ => false
  ofInt := fun z => (z : ℚ)
  trunc := truncQ
  single := st.single
  enc32 := st.e32
  dec32 := st.d32
  enc64 := st.e64
  dec64 := st.d64

/-- a simple storage of rationals: integers only, no rounding -/
def toyStore : Store :=
  ⟨id, fun x => leBytes 4 (⌊x⌋ % 2 ^ 32).toNat, fun b => unpackInt 4 b,
    fun x => leBytes 8 (⌊x⌋ % 2 ^ 64).toNat, fun b => unpackInt 8 b⟩

abbrev toySys : FloatSys := ratSys toyStore

def toyTable : Table ℚ := { nCols := 2, rows := [[0, 0], [1, 65535], [2, 1]] }

theorem toyFits (names : List Str) (hn : names.head? = some "Time".toList) (hl : names.length = 2)
    (hf : ∀ s ∈ names, NameFits s) :
    Fits toySys toyTable names ["s".toList, "m/s".toList] ["s".toList, "m/s".toList]
      "demo".toList where
  cols := by decide
  colsMax := by decide
  rect := by decide
  steps := by decide
  stepsMax := by decide
  namesFit := hf
  nNames := by rw [hl]; rfl
  time := hn
  unitsFit := ⟨by decide, Or.inl ⟨rfl, 's', [], ["m/s".toList], rfl, by decide⟩⟩
  nUnits := rfl
  descrLen := by decide
  descrChars := by decide
  len32 := fun _ => length_leBytes ..
  len64 := fun _ => length_leBytes ..

theorem toyNames : ∀ s ∈ ["Time".toList, "Wind1VelX".toList], NameFits s := by
  intro s hs
  have : s = "Time".toList ∨ s = "Wind1VelX".toList := by simpa using hs
  rcases this with rfl | rfl
  · exact ⟨by decide, by decide, by simp; decide, by simp; decide⟩
  · exact ⟨by decide, by decide, by simp; decide, by simp; decide⟩

example : ∃ bytes r, writeBinary toySys none toyTable ["Time".toList, "Wind1VelX".toList]
      ["s".toList, "m/s".toList] 2 "demo".toList = (some bytes, .ok ()) ∧
    load toySys bytes = .ok (r, []) ∧ r.names = ["Time".toList, "Wind1VelX".toList] ∧
    r.units = ["s".toList, "m/s".toList] := by
  obtain ⟨b, r, h1, h2, h3, h4, _⟩ := C17_partial toySys none toyTable
    ["Time".toList, "Wind1VelX".toList] ["s".toList, "m/s".toList] ["s".toList, "m/s".toList]
    "demo".toList (toyFits _ rfl rfl toyNames) (by decide)
  exact ⟨b, r, h1, h2, h3, h4⟩

/-- a data set with time only -/
def timeOnly : Table ℚ := { nCols := 1, rows := [[0], [1]] }

/-- C17 is violated
(a) by a unit of 9 characters (the code adds parentheses),
(b) by an empty first unit,
(c) by a data set with the time only: it is written but cannot be read. -/
theorem C17_fails :
    (writeBinary toySys none toyTable ["Time".toList, "Wind1VelX".toList]
      ["s".toList, "kN*m/ms^2".toList] 2 []).2 = .error .structError ∧
    (writeBinary toySys none toyTable ["Time".toList, "Wind1VelX".toList]
      [[], "m/s".toList] 2 []).2 = .error .indexError ∧
    (∃ bytes, writeBinary toySys none timeOnly ["Time".toList] ["s".toList] 2 []
      = (some bytes, .ok ()) ∧ load toySys bytes = .error .zeroDivision) :=
  ⟨rfl, rfl, _, rfl, rfl⟩

/-! ## C18: bounded error -/

/-- C18, stored integers: whatever the arithmetic, they are in the `int16`
range. -/
theorem C18_range (S : FloatSys) (scl off x : S.F) :
    -32768 ≤ quantise S scl off x ∧ quantise S scl off x ≤ 32767 := by
  have := wrap16_range (S.trunc (clip S (S.add (S.mul scl x) off)))
  unfold quantise
  omega

/-- scale, offset and value read back, as rationals -/
def sclQ (st : Store) (col : List ℚ) : ℚ := colScl (ratSys st) col
def offQ (st : Store) (col : List ℚ) : ℚ := colOff (ratSys st) col
def readBackQ (st : Store) (col : List ℚ) (x : ℚ) : ℚ := readBack (ratSys st) col x

theorem quantise_rat (st : Store) (scl off x : ℚ) (h1 : -32768 ≤ scl * x + off)
    (h2 : scl * x + off ≤ 32767) :
    quantise (ratSys st) scl off x = truncQ (scl * x + off) := by
  have hclip : clip (ratSys st) (scl * x + off) = scl * x + off := by
    unfold clip ratSys
    simp only [decide_eq_true_eq, Int.reduceNeg]
    split
    · rename_i h; push_cast at h ⊢; linarith
    · split
      · rename_i h; push_cast at h ⊢; linarith
      · rfl
  show wrap16 (truncQ (clip (ratSys st) (scl * x + off))) = _
  rw [hclip]
  obtain ⟨h3, h4⟩ := truncQ_range _ h1 h2
  exact wrap16_id _ h3 h4

theorem readBackQ_eq (st : Store) (col : List ℚ) (x : ℚ)
    (hs : st.d32 (st.e32 (sclQ st col)) = sclQ st col)
    (ho : st.d32 (st.e32 (offQ st col)) = offQ st col)
    (h1 : -32768 ≤ sclQ st col * x + offQ st col) (h2 : sclQ st col * x + offQ st col ≤ 32767) :
    readBackQ st col x
      = (((truncQ (sclQ st col * x + offQ st col) : Int) : ℚ) - offQ st col) / sclQ st col := by
  have hrb : readBackQ st col x
      = (((quantise (ratSys st) (sclQ st col) (offQ st col) x : Int) : ℚ)
        - st.d32 (st.e32 (offQ st col))) / st.d32 (st.e32 (sclQ st col)) := rfl
  rw [hrb, hs, ho, quantise_rat st _ _ _ h1 h2]

/-- C18, for any rounding `np.single`: as long as the scaled value does not
leave the int16 range (no clipping), the value read back is at most one step
`1/scale` away. -/
theorem C18_round_partial (st : Store) (col : List ℚ) (x : ℚ)
    (hs : st.d32 (st.e32 (sclQ st col)) = sclQ st col)
    (ho : st.d32 (st.e32 (offQ st col)) = offQ st col) (hpos : 0 < sclQ st col)
    (h1 : -32768 ≤ sclQ st col * x + offQ st col) (h2 : sclQ st col * x + offQ st col ≤ 32767) :
    |readBackQ st col x - x| ≤ 1 / sclQ st col := by
  rw [readBackQ_eq st col x hs ho h1 h2]
  generalize sclQ st col = s at *
  generalize offQ st col = o at *
  have he := truncQ_err (s * x + o)
  have : (((truncQ (s * x + o) : Int) : ℚ) - o) / s - x
      = (((truncQ (s * x + o) : Int) : ℚ) - (s * x + o)) / s := by
    field_simp; ring
  rw [this, abs_div, abs_of_pos hpos]
  exact div_le_div_of_nonneg_right he hpos.le

theorem minOf_rat (st : Store) (col : List ℚ) (lo : ℚ) (hlo : lo ∈ col)
    (hmin : ∀ y ∈ col, lo ≤ y) : minOf (ratSys st) col = lo := by
  have key : ∀ (xs : List ℚ) (x : ℚ), lo ∈ x :: xs → (∀ y ∈ x :: xs, lo ≤ y) →
      xs.foldl (fun a b => if decide (a ≤ b) then a else b) x = lo := by
    intro xs
    induction xs with
    | nil => intro x h _; simp at h; simp [h]
    | cons b xs ih =>
      intro x h hm
      simp only [List.foldl_cons]
      apply ih
      · have hx := hm x (by simp)
        have hb := hm b (by simp)
        simp only [List.mem_cons] at h ⊢
        by_cases hxb : x ≤ b
        · rw [if_pos (by simpa using hxb)]
          rcases h with h | h | h
          · exact Or.inl h
          · subst h; exact Or.inl (le_antisymm hx hxb)
          · exact Or.inr h
        · rw [if_neg (by simpa using hxb)]
          rcases h with h | h | h
          · subst h; exact absurd hb hxb
          · exact Or.inl h
          · exact Or.inr h
      · intro y hy
        simp only [List.mem_cons] at hy
        rcases hy with rfl | hy
        · split
          · exact hm x (by simp)
          · exact hm b (by simp)
        · exact hm y (by simp [hy])
  cases col with
  | nil => simp at hlo
  | cons x xs => exact key xs x hlo hmin

theorem maxOf_rat (st : Store) (col : List ℚ) (hi : ℚ) (hhi : hi ∈ col)
    (hmax : ∀ y ∈ col, y ≤ hi) : maxOf (ratSys st) col = hi := by
  have key : ∀ (xs : List ℚ) (x : ℚ), hi ∈ x :: xs → (∀ y ∈ x :: xs, y ≤ hi) →
      xs.foldl (fun a b => if decide (b ≤ a) then a else b) x = hi := by
    intro xs
    induction xs with
    | nil => intro x h _; simp at h; simp [h]
    | cons b xs ih =>
      intro x h hm
      simp only [List.foldl_cons]
      apply ih
      · have hx := hm x (by simp)
        have hb := hm b (by simp)
        simp only [List.mem_cons] at h ⊢
        by_cases hxb : b ≤ x
        · rw [if_pos (by simpa using hxb)]
          rcases h with h | h | h
          · exact Or.inl h
          · subst h; exact Or.inl (le_antisymm hxb hx)
          · exact Or.inr h
        · rw [if_neg (by simpa using hxb)]
          rcases h with h | h | h
          · subst h; exact absurd hb hxb
          · exact Or.inl h
          · exact Or.inr h
      · intro y hy
        simp only [List.mem_cons] at hy
        rcases hy with rfl | hy
        · split
          · exact hm x (by simp)
          · exact hm b (by simp)
        · exact hm y (by simp [hy])
  cases col with
  | nil => simp at hhi
  | cons x xs => exact key xs x hhi hmax

/-- C18 in exact arithmetic (`np.single` does not round, scale and offset are
stored exactly): the value read back differs by at most `range/65535`; in
particular a constant channel comes back exactly. -/
theorem C18_exact_partial (st : Store) (hst : st.single = id) (col : List ℚ) (lo hi x : ℚ)
    (hlo : lo ∈ col) (hhi : hi ∈ col) (hb : ∀ y ∈ col, lo ≤ y ∧ y ≤ hi) (hx : x ∈ col)
    (hs : st.d32 (st.e32 (sclQ st col)) = sclQ st col)
    (ho : st.d32 (st.e32 (offQ st col)) = offQ st col) :
    |readBackQ st col x - x| ≤ (hi - lo) / 65535 := by
  have hmin := minOf_rat st col lo hlo (fun y hy => (hb y hy).1)
  have hmax := maxOf_rat st col hi hhi (fun y hy => (hb y hy).2)
  have hscl : sclQ st col = 65535 / (if hi - lo = 0 then 1 else hi - lo) := by
    have e : sclQ st col = st.single ((65535 : Int) / (if isZero (ratSys st)
        (st.single (maxOf (ratSys st) col - minOf (ratSys st) col : ℚ)) then ((1 : Int) : ℚ)
        else (st.single (maxOf (ratSys st) col - minOf (ratSys st) col : ℚ)) )) := rfl
    rw [e, hmin, hmax, hst]
    have ez : isZero (ratSys st) (id (hi - lo) : ℚ) = decide (hi - lo = 0) := by
      show (decide ((hi - lo : ℚ) ≤ ((0 : Int) : ℚ)) && decide (((0 : Int) : ℚ) ≤ (hi - lo : ℚ))) = _
      rw [Int.cast_zero]
      by_cases h : hi - lo = 0
      · simp [h]
      · rw [decide_eq_false h, ← Bool.decide_and, decide_eq_false]
        intro ⟨h1, h2⟩; exact h (le_antisymm h1 h2)
    rw [ez]
    simp
  have hoff : offQ st col = -32768 - lo * sclQ st col := by
    have e : offQ st col = st.single ((((-32768 : Int) : ℚ))
      - st.single (minOf (ratSys st) col) * sclQ st col) := rfl
    rw [e, hmin, hst]
    simp
  obtain ⟨hx1, hx2⟩ := hb x hx
  have hval : sclQ st col * x + offQ st col = -32768 + sclQ st col * (x - lo) := by
    rw [hoff]; ring
  by_cases h0 : hi - lo = 0
  · have hxl : x = lo := by linarith
    rw [if_pos h0] at hscl
    have hv : sclQ st col * x + offQ st col = ((-32768 : Int) : ℚ) := by
      rw [hval, hxl]; push_cast; ring
    rw [readBackQ_eq st col x hs ho (by rw [hv]; norm_num) (by rw [hv]; norm_num), hv, truncQ_int,
      h0, hoff, hxl, hscl]
    norm_num
  · have hpos : 0 < hi - lo := lt_of_le_of_ne (by linarith) (Ne.symm h0)
    rw [if_neg h0] at hscl
    have hsp : 0 < sclQ st col := by rw [hscl]; positivity
    have hm : sclQ st col * (x - lo) ≤ 65535 := by
      rw [hscl, div_mul_eq_mul_div, div_le_iff₀ hpos]
      nlinarith
    have hm0 : 0 ≤ sclQ st col * (x - lo) := mul_nonneg hsp.le (by linarith)
    have := C18_round_partial st col x hs ho hsp (by rw [hval]; linarith) (by rw [hval]; linarith)
    rw [hscl, one_div_div] at this
    exact this

/-- three values, range 65535, integer scale and offset -/
example : |readBackQ toyStore [0, 65535, 1] 1 - 1| ≤ (65535 - 0) / 65535 :=
  C18_exact_partial toyStore rfl [0, 65535, 1] 0 65535 1 (by simp) (by simp)
    (by intro y hy; simp at hy; rcases hy with rfl | rfl | rfl <;> norm_num) (by simp)
    (by decide +kernel) (by decide +kernel)

/-! ### IEEE single precision -/

/-- C18 is violated by the rounding of the offset to single precision: for the
channel 1000000, 1000001 (range 1) the value 1000000 comes back 576 quantisation
steps too high, with any storage keeping the scale 65535 and the offset
-65535033344 (both single-precision numbers). -/
theorem C18_fails (e64 : ℚ → Bytes) (d64 : Bytes → ℚ) (e32 : ℚ → Bytes) (d32 : Bytes → ℚ)
    (hs : d32 (e32 65535) = 65535) (ho : d32 (e32 (-65535033344)) = -65535033344) :
    readBackQ ⟨single24, e32, d32, e64, d64⟩ [1000000, 1000001] 1000000 - 1000000
      = 576 * ((1000001 - 1000000) / 65535) := by
  let st0 : Store := ⟨single24, fun _ => [], fun _ => 0, fun _ => [], fun _ => 0⟩
  have h1 : sclQ ⟨single24, e32, d32, e64, d64⟩ [1000000, 1000001] = 65535 := by
    show sclQ ⟨single24, fun _ => [], fun _ => 0, fun _ => [], fun _ => 0⟩ [1000000, 1000001] = 65535
    decide +kernel
  have h2 : offQ ⟨single24, e32, d32, e64, d64⟩ [1000000, 1000001] = -65535033344 := by
    show offQ ⟨single24, fun _ => [], fun _ => 0, fun _ => [], fun _ => 0⟩ [1000000, 1000001]
      = -65535033344
    decide +kernel
  have h3 : quantise (ratSys ⟨single24, e32, d32, e64, d64⟩) (65535 : ℚ) (-65535033344 : ℚ)
      (1000000 : ℚ) = -32768 := by
    show quantise (ratSys ⟨single24, fun _ => [], fun _ => 0, fun _ => [], fun _ => 0⟩) (65535 : ℚ)
      (-65535033344 : ℚ) (1000000 : ℚ) = -32768
    decide +kernel
  have hrb : readBackQ ⟨single24, e32, d32, e64, d64⟩ [1000000, 1000001] 1000000
      = (((quantise (ratSys ⟨single24, e32, d32, e64, d64⟩)
          (sclQ ⟨single24, e32, d32, e64, d64⟩ [1000000, 1000001])
          (offQ ⟨single24, e32, d32, e64, d64⟩ [1000000, 1000001]) (1000000 : ℚ) : Int) : ℚ)
        - d32 (e32 (offQ ⟨single24, e32, d32, e64, d64⟩ [1000000, 1000001])))
        / d32 (e32 (sclQ ⟨single24, e32, d32, e64, d64⟩ [1000000, 1000001])) := rfl
  rw [hrb, h1, h2, h3, hs, ho]
  norm_num

/-- such a storage -/
example : (fun b : Bytes => if b = [] then (65535 : ℚ) else -65535033344)
      ((fun x : ℚ => if x = 65535 then ([] : Bytes) else [0]) 65535) = 65535 ∧
    (fun b : Bytes => if b = [] then (65535 : ℚ) else -65535033344)
      ((fun x : ℚ => if x = 65535 then ([] : Bytes) else [0]) (-65535033344)) = -65535033344 := by
  norm_num

/-- C18 in the file: the value loaded for row `i`, channel `j+1` is the one
the bounds above speak about. -/
theorem C18_file (S : FloatSys) (old : Option Bytes) (t : Table S.F)
    (names units plain : List Str) (descr : Str) (h : Fits S t names units plain descr) :
    ∃ bytes r, writeBinary S old t names units 2 descr = (some bytes, .ok ()) ∧
      load S bytes = .ok (r, []) ∧ r.data.length = t.rows.length ∧
      ∀ (i : Nat) inRow, t.rows[i]? = some inRow → ∃ row, r.data[i]? = some row ∧
        ∀ j x, j + 1 < t.nCols → inRow[j + 1]? = some x →
          row[j + 1]? = some (readBack S (t.rows.map (fun r => r.getD (j + 1) (S.ofInt 0))) x) := by
  obtain ⟨bytes, data, t0, t1, ts, h1, h2, h3, h4, h5⟩ := write_load S old t names units plain descr h
  refine ⟨bytes, _, h2, h3, h4, fun i inRow hi => ?_⟩
  obtain ⟨row, g1, _, g3⟩ := h5 i inRow hi
  exact ⟨row, g1, g3⟩

/-! ## C56: the time column -/

/-- times 0, 1, 5 -/
def unevenTable : Table ℚ := { nCols := 2, rows := [[0, 0], [1, 65535], [5, 1]] }

theorem unevenFits : Fits toySys unevenTable ["Time".toList, "Wind1VelX".toList]
    ["s".toList, "m/s".toList] ["s".toList, "m/s".toList] "demo".toList :=
  have h := toyFits _ rfl rfl toyNames
  { cols := by decide, colsMax := by decide, rect := by decide, steps := by decide,
    stepsMax := by decide, namesFit := h.namesFit, nNames := rfl, time := rfl,
    unitsFit := h.unitsFit, nUnits := rfl, descrLen := by decide, descrChars := by decide,
    len32 := h.len32, len64 := h.len64 }

/-- C56 is violated when the time step is not constant: the written time 5 (row 2)
comes back as 2. -/
theorem C56_fails : ∃ bytes r row, writeBinary toySys none unevenTable
      ["Time".toList, "Wind1VelX".toList] ["s".toList, "m/s".toList] 2 "demo".toList
        = (some bytes, .ok ()) ∧
    load toySys bytes = .ok (r, []) ∧ r.data[2]? = some row ∧ row[0]? = some (2 : ℚ) ∧
    unevenTable.rows[2]? = some [5, 1] := by
  obtain ⟨bytes, data, t0, t1, ts, h1, h2, h3, h4, h5⟩ := write_load toySys none unevenTable _ _ _ _
    unevenFits
  obtain ⟨row, g1, g2, _⟩ := h5 2 [5, 1] rfl
  have e : column toySys unevenTable 0 = [(0 : ℚ), 1, 5] := rfl
  rw [e] at h1
  injection h1 with h1 h1'
  injection h1' with h1' _
  subst h1 h1'
  refine ⟨bytes, _, row, h2, h3, g1, ?_, rfl⟩
  rw [g2]
  decide +kernel

/-- C56 for a constant time step (exact arithmetic): the time column comes back. -/
theorem C56_partial (st : Store) (old : Option Bytes) (t : Table ℚ)
    (names units plain : List Str) (descr : Str) (h : Fits (ratSys st) t names units plain descr)
    (t0 dt : ℚ) (htime : ∀ (i : Nat) r, t.rows[i]? = some r → r[0]? = some (t0 + i * dt))
    (h0 : st.d64 (st.e64 t0) = t0) (hdt : st.d64 (st.e64 dt) = dt) :
    ∃ bytes r, writeBinary (ratSys st) old t names units 2 descr = (some bytes, .ok ()) ∧
      load (ratSys st) bytes = .ok (r, []) ∧ r.data.length = t.rows.length ∧
      ∀ (i : Nat) inRow, t.rows[i]? = some inRow → ∃ row, r.data[i]? = some row ∧
        row[0]? = inRow[0]? := by
  obtain ⟨bytes, data, s0, s1, ts, h1, h2, h3, h4, h5⟩ :=
    write_load (ratSys st) old t names units plain descr h
  refine ⟨bytes, _, h2, h3, h4, fun i inRow hi => ?_⟩
  obtain ⟨row, g1, g2, _⟩ := h5 i inRow hi
  refine ⟨row, g1, ?_⟩
  rw [g2, htime i inRow hi]
  have hsteps := h.steps
  unfold column at h1
  have e0 : s0 = t0 := by
    have hr := htime 0 t.rows[0] (List.getElem?_eq_getElem (by omega))
    have := congrArg (·[0]?) h1
    simp only [List.getElem?_map, List.getElem?_eq_getElem (show 0 < t.rows.length by omega),
      Option.map_some, List.getElem?_cons_zero, List.getD, hr, Option.getD_some] at this
    injection this with this
    rw [← this]; push_cast; ring
  have e1 : s1 = t0 + dt := by
    have hr := htime 1 t.rows[1] (List.getElem?_eq_getElem (by omega))
    have := congrArg (·[1]?) h1
    simp only [List.getElem?_map, List.getElem?_eq_getElem (show 1 < t.rows.length by omega),
      Option.map_some, List.getElem?_cons_zero, List.getElem?_cons_succ, List.getD, hr,
      Option.getD_some] at this
    injection this with this
    rw [← this]; push_cast; ring
  subst e0 e1
  have e2 : (ratSys st).sub (s0 + dt : ℚ) s0 = dt := by show (s0 + dt - s0 : ℚ) = dt; ring
  rw [e2]
  show some (st.d64 (st.e64 s0) + st.d64 (st.e64 dt) * ((i : Int) : ℚ)) = _
  rw [h0, hdt]
  congr 1
  push_cast; ring

example : ∃ bytes r, writeBinary toySys none toyTable ["Time".toList, "Wind1VelX".toList]
      ["s".toList, "m/s".toList] 2 "demo".toList = (some bytes, .ok ()) ∧
    load toySys bytes = .ok (r, []) := by
  obtain ⟨b, r, h1, h2, _⟩ := C56_partial toyStore none toyTable
    ["Time".toList, "Wind1VelX".toList] ["s".toList, "m/s".toList] ["s".toList, "m/s".toList]
    "demo".toList (toyFits _ rfl rfl toyNames) 0 1 (by
      intro i r hr
      match i, hr with
      | 0, hr => injection hr with hr; subst hr; simp
      | 1, hr => injection hr with hr; subst hr; simp
      | 2, hr => injection hr with hr; subst hr; simp) (by decide +kernel) (by decide +kernel)
  exact ⟨b, r, h1, h2⟩

/-! ## C19: a failing write -/

/-- C19 is violated: a channel name of 11 characters makes the write fail after
the previous content has been destroyed. -/
theorem C19_fails : ∃ left, writeBinary toySys (some [1, 2, 3]) toyTable
      ["Time".toList, "Wind1VelXYZ".toList] ["s".toList, "m/s".toList] 2 []
      = (some left, .error .structError) ∧ left ≠ [1, 2, 3] :=
  ⟨_, rfl, by decide +kernel⟩

/-- C19 when names and units fit: a failing write (missing or misplaced `Time`,
empty first unit, fewer than two time steps) leaves the file as it was. -/
theorem C19_partial (S : FloatSys) (old : Option Bytes) (t : Table S.F) (names units : List Str)
    (fileID : Int) (descr : Str) (e : Err)
    (hnames : ∀ s ∈ names, s.length ≤ 10 ∧ ∀ c ∈ s, c.toNat < 256)
    (hunits : ∀ s ∈ units, s.length ≤ 8 ∧ ∀ c ∈ s, c.toNat < 256)
    (hd : descr.length < 2 ^ 31 ∧ ∀ c ∈ descr, c.toNat < 256)
    (hT : t.rows.length < 2 ^ 31) (hC : t.nCols < 2 ^ 31)
    (herr : (writeBinary S old t names units fileID descr).2 = .error e) :
    (writeBinary S old t names units fileID descr).1 = old := by
  unfold writeBinary at *
  split
  · rfl
  · rename_i p hp
    rw [hp] at herr
    simp only at herr ⊢
    split at herr
    · exact nomatch herr
    · exfalso
      have hpu : ∀ s ∈ p.units, s.length ≤ 10 ∧ ∀ c ∈ s, c.toNat < 256 := by
        unfold prepare at hp
        split at hp
        · exact nomatch hp
        · rename_i us hus
          have : p.units = us := by
            split at hp
            · exact nomatch hp
            · split at hp
              · exact nomatch hp
              · split at hp
                · exact nomatch hp
                · split at hp
                  · injection hp with hp; rw [← hp]
                  · exact nomatch hp
          rw [this]
          unfold fixUnits at hus
          split at hus
          · exact nomatch hus
          · injection hus with hus
            rw [← hus]
            split
            · intro s hs; exact ⟨by have := (hunits s hs).1; omega, (hunits s hs).2⟩
            · intro s hs
              obtain ⟨u, hu, rfl⟩ := List.mem_map.1 hs
              refine ⟨by have := (hunits u hu).1; simp; omega, ?_⟩
              intro c hc
              simp only [List.cons_append, List.mem_cons, List.mem_append, List.not_mem_nil,
                or_false] at hc
              rcases hc with rfl | hc | rfl
              · decide
              · exact (hunits u hu).2 c hc
              · decide
      obtain ⟨b1, e1, _⟩ := packI_ok 2 (by decide) 2 (by decide)
      obtain ⟨b2, e2, _⟩ := packI_ok 4 (by decide) ((t.nCols : Int) - 1) (by
        refine ⟨?_, ?_⟩ <;> simp <;> omega)
      obtain ⟨b3, e3, _⟩ := packI_ok 4 (by decide) (t.rows.length : Int) (by
        refine ⟨?_, ?_⟩ <;> simp <;> omega)
      obtain ⟨b8, e8, _⟩ := packI_ok 4 (by decide) (descr.length : Int) (by
        refine ⟨?_, ?_⟩ <;> simp <;> omega)
      obtain ⟨b9, e9, _⟩ := packStr_ok descr hd.2
      obtain ⟨bn, en, _⟩ := packNames_ok names hnames
      obtain ⟨bu, eu, _⟩ := packNames_ok p.units hpu
      obtain ⟨bd, ed, _⟩ := packInts_ok _ (packData_range S t p.scl p.off)
      have hsteps : writeSteps S t names descr p
          = ([b1, b2, b3, S.enc64 p.t0, S.enc64 p.dt, p.scl.flatMap S.enc32, p.off.flatMap S.enc32,
              b8, b9] ++ bn ++ bu ++ [bd.flatten]).map .ok := by
        unfold writeSteps
        rw [e1, e2, e3, e8, e9, en, eu, ed]
        simp
      rw [hsteps, runSteps_ok] at herr
      exact nomatch herr

/-- the misplaced time column: the old file survives -/
example : writeBinary toySys (some [1, 2, 3]) toyTable ["A".toList, "Time".toList]
    ["m".toList, "s".toList] 2 [] = (some [1, 2, 3], .error .timeNotFirst) := rfl

/-! ## C20: `writeDataFrame` -/

/-- C20 is violated: a column without unit gets the unit of the previous column,
and as first column it raises `UnboundLocalError`. -/
theorem C20_fails :
    columnLoop none ["Time_[s]".toList, "Flag".toList]
      = .ok [("Time".toList, "s".toList), ("Flag".toList, "s".toList)] ∧
    columnLoop none ["Time".toList, "RotSpeed_[rpm]".toList] = .error .unboundLocal := by
  constructor <;> rfl

/-- one column: `sep` is `_` or nothing, the unit is in brackets of either kind -/
theorem columnTurn_form (unit : Option Str) (name sep u : Str) (op cl : Char) (hn : name ≠ [])
    (hh : ∀ c, name.head? = some c → isWs c = false)
    (hb : op = '[' ∧ cl = ']' ∨ op = '(' ∧ cl = ')') (hu : ∀ c ∈ u, c ≠ op ∧ c ≠ cl)
    (hs : sep = ['_'] ∨ sep = [] ∧ 2 ≤ name.length ∧ name.getLast? ≠ some '_') :
    columnTurn unit (name ++ sep ++ op :: (u ++ [cl])) = .ok (name, some u) := by
  have hnl : 0 < name.length := List.length_pos_iff.2 hn
  have hlast : (name ++ sep ++ op :: (u ++ [cl])).getLast? = some cl := by
    rw [List.getLast?_append, List.getLast?_cons, List.getLast?_concat]
    rfl
  have hclw : isWs cl = false := by rcases hb with ⟨_, rfl⟩ | ⟨_, rfl⟩ <;> decide
  have hstrip : strip (name ++ sep ++ op :: (u ++ [cl])) = name ++ sep ++ op :: (u ++ [cl]) := by
    apply stripBy_eq_self
    · intro c hc
      cases name with
      | nil => exact absurd rfl hn
      | cons a l => exact hh c (by simpa using hc)
    · intro c hc
      rw [hlast] at hc
      injection hc with hc; subst hc; exact hclw
  have hrev : (name ++ sep ++ op :: (u ++ [cl])).reverse = (cl :: u.reverse) ++ op :: (name ++ sep).reverse := by
    simp
  have hne : op ≠ cl := by rcases hb with ⟨rfl, rfl⟩ | ⟨rfl, rfl⟩ <;> decide
  have hidx : (name ++ sep ++ op :: (u ++ [cl])).reverse.idxOf op = u.length + 1 := by
    rw [hrev, List.idxOf_append, if_neg]
    · simp
    · rw [List.mem_cons, List.mem_reverse]
      rintro (hc | hc)
      · exact hne hc
      · exact (hu op hc).1 rfl
  have hlen : (name ++ sep ++ op :: (u ++ [cl])).length = (name ++ sep).length + u.length + 2 := by
    simp; omega
  have hrf : rfind op (name ++ sep ++ op :: (u ++ [cl])) = some (name ++ sep).length := by
    unfold rfind
    simp only
    rw [if_pos (by rw [hrev]; simp), hidx, hlen]
    congr 1
    omega
  have htake : (name ++ sep ++ op :: (u ++ [cl])).take (name ++ sep).length = name ++ sep := List.take_left' rfl
  have hdrop : (name ++ sep ++ op :: (u ++ [cl])).drop ((name ++ sep).length + 1) = u ++ [cl] := by
    rw [show name ++ sep ++ op :: (u ++ [cl]) = (name ++ sep ++ [op]) ++ (u ++ [cl]) by simp]
    exact List.drop_left' (by simp; omega)
  have hfilter : (u ++ [cl]).filter (fun c => decide (c ≠ cl)) = u := by
    rw [List.filter_append, List.filter_eq_self.2]
    · simp
    · intro c hc; simpa using (hu c hc).2
  have hlt : 1 < (name ++ sep).length := by
    rw [List.length_append]
    rcases hs with rfl | ⟨rfl, h2, _⟩
    · simp; omega
    · simp; omega
  have hend : (if (name ++ sep).getLast? = some '_' then (name ++ sep).dropLast else name ++ sep) = name := by
    rcases hs with rfl | ⟨rfl, _, h3⟩
    · rw [List.getLast?_concat, if_pos rfl, List.dropLast_concat]
    · rw [List.append_nil, if_neg h3]
  have hop : (if cl = ']' then '[' else '(') = op := by
    rcases hb with ⟨rfl, rfl⟩ | ⟨rfl, rfl⟩ <;> decide
  have hcl : cl = ']' ∨ cl = ')' := by
    rcases hb with ⟨_, rfl⟩ | ⟨_, rfl⟩
    · exact .inl rfl
    · exact .inr rfl
  unfold columnTurn
  simp only [hstrip, hlast]
  rw [if_pos hcl, hop, hrf]
  simp only
  rw [if_pos hlt, htake, hdrop, hfilter, hend]

theorem columnTurn_unit (unit : Option Str) (name u : Str) (hn : name ≠ [])
    (hh : ∀ c, name.head? = some c → isWs c = false) (hu : ∀ c ∈ u, c ≠ '[' ∧ c ≠ ']') :
    columnTurn unit (name ++ "_[".toList ++ u ++ "]".toList) = .ok (name, some u) := by
  have := columnTurn_form unit name ['_'] u '[' ']' hn hh (.inl ⟨rfl, rfl⟩) hu (.inl rfl)
  rw [← this]
  congr 1
  simp

/-- a column as users write it: name, `_` or nothing, unit in square or round brackets -/
structure Col where
  name : Str
  under : Bool
  round : Bool
  unit : Str

def Col.text (c : Col) : Str :=
  c.name ++ (if c.under then ['_'] else []) ++ (if c.round then '(' else '[') :: (c.unit ++ [if c.round then ')' else ']'])

/-- C20 for columns that all carry a unit, in any of the four ways of writing it; a name directly followed
by the bracket needs two characters -/
theorem C20_forms_partial (cols : List Col)
    (h : ∀ c ∈ cols, c.name ≠ [] ∧ (∀ x, c.name.head? = some x → isWs x = false) ∧
      (∀ x ∈ c.unit, if c.round then x ≠ '(' ∧ x ≠ ')' else x ≠ '[' ∧ x ≠ ']') ∧
      (c.under = false → 2 ≤ c.name.length ∧ c.name.getLast? ≠ some '_')) :
    columnLoop none (cols.map Col.text) = .ok (cols.map fun c => (c.name, c.unit)) := by
  have key : ∀ (unit : Option Str) (cols : List Col),
      (∀ c ∈ cols, c.name ≠ [] ∧ (∀ x, c.name.head? = some x → isWs x = false) ∧
      (∀ x ∈ c.unit, if c.round then x ≠ '(' ∧ x ≠ ')' else x ≠ '[' ∧ x ≠ ']') ∧
      (c.under = false → 2 ≤ c.name.length ∧ c.name.getLast? ≠ some '_')) →
      columnLoop unit (cols.map Col.text) = .ok (cols.map fun c => (c.name, c.unit)) := by
    intro unit cols
    induction cols generalizing unit with
    | nil => intro _; rfl
    | cons c cols ih =>
      intro h
      obtain ⟨h1, h2, h3, h4⟩ := h c (List.mem_cons_self ..)
      have hc : columnTurn unit c.text = .ok (c.name, some c.unit) := by
        rcases c with ⟨nm, un, ro, u⟩
        unfold Col.text
        refine columnTurn_form unit nm _ u _ _ h1 h2 ?_ ?_ ?_
        · cases ro
          · exact .inl ⟨rfl, rfl⟩
          · exact .inr ⟨rfl, rfl⟩
        · cases ro <;> exact h3
        · cases un
          · exact .inr ⟨rfl, h4 rfl⟩
          · exact .inl rfl
      simp only [List.map_cons, columnLoop]
      rw [hc]
      simp only
      rw [ih (some c.unit) (fun x hx => h x (List.mem_cons_of_mem _ hx))]
  exact key none cols h

example : columnLoop none ["Time_[s]".toList, "Pitch(deg)".toList, "Q_(kN)".toList, "RotSpeed[rpm]".toList]
    = .ok [("Time".toList, "s".toList), ("Pitch".toList, "deg".toList), ("Q".toList, "kN".toList),
        ("RotSpeed".toList, "rpm".toList)] :=
  C20_forms_partial [⟨"Time".toList, true, false, "s".toList⟩, ⟨"Pitch".toList, false, true, "deg".toList⟩,
    ⟨"Q".toList, true, true, "kN".toList⟩, ⟨"RotSpeed".toList, false, false, "rpm".toList⟩] (by
    intro c hc
    simp only [List.mem_cons, List.not_mem_nil, or_false] at hc
    rcases hc with rfl | rfl | rfl | rfl <;> exact ⟨by decide, by simp; decide, by decide, by decide⟩)

/-- C20 is violated by names of one letter directly followed by the unit: the column keeps its whole text
as name and gets the unit of the column before -/
theorem C20_short_fails (a : Char) (u : Str) (unit : Str) (ha : a ≠ '[' ∧ isWs a = false)
    (hu : ∀ c ∈ u, c ≠ '[') :
    columnLoop (some unit) [a :: '[' :: (u ++ [']'])] = .ok [(a :: '[' :: (u ++ [']']), unit)] := by
  have hlast : (a :: '[' :: (u ++ [']'])).getLast? = some ']' := by
    rw [List.getLast?_cons, List.getLast?_cons, List.getLast?_concat]; rfl
  have hstrip : strip (a :: '[' :: (u ++ [']'])) = a :: '[' :: (u ++ [']']) := by
    apply stripBy_eq_self
    · intro c hc
      injection hc with hc; subst hc; exact ha.2
    · intro c hc
      rw [hlast] at hc
      injection hc with hc; subst hc; decide
  have hrev : (a :: '[' :: (u ++ [']'])).reverse = (']' :: u.reverse) ++ '[' :: [a] := by simp
  have hidx : (a :: '[' :: (u ++ [']'])).reverse.idxOf '[' = u.length + 1 := by
    rw [hrev, List.idxOf_append, if_neg]
    · simp
    · rw [List.mem_cons, List.mem_reverse]
      rintro (hc | hc)
      · exact absurd hc (by decide)
      · exact hu '[' hc rfl
  have hrf : rfind '[' (a :: '[' :: (u ++ [']'])) = some 1 := by
    unfold rfind
    simp only
    rw [if_pos (by rw [hrev]; simp), hidx]
    simp
  have hturn : columnTurn (some unit) (a :: '[' :: (u ++ [']'])) = .ok (a :: '[' :: (u ++ [']']), some unit) := by
    unfold columnTurn
    simp only [hstrip, hlast]
    rw [if_pos (Or.inl trivial), if_pos trivial, hrf]
    simp
  simp only [columnLoop, hturn]

example : columnLoop none ["Time_[s]".toList, "A[m]".toList] =
    .ok [("Time".toList, "s".toList), ("A[m]".toList, "s".toList)] := rfl

/-- C20 for columns that all carry a unit: names and units are those of the
columns. -/
theorem C20_partial (cols : List (Str × Str))
    (h : ∀ c ∈ cols, c.1 ≠ [] ∧ (∀ x, c.1.head? = some x → isWs x = false) ∧
      ∀ x ∈ c.2, x ≠ '[' ∧ x ≠ ']') :
    columnLoop none (cols.map (fun c => c.1 ++ "_[".toList ++ c.2 ++ "]".toList)) = .ok cols := by
  have key : ∀ (unit : Option Str) (cols : List (Str × Str)),
      (∀ c ∈ cols, c.1 ≠ [] ∧ (∀ x, c.1.head? = some x → isWs x = false) ∧
        ∀ x ∈ c.2, x ≠ '[' ∧ x ≠ ']') →
      columnLoop unit (cols.map (fun c => c.1 ++ "_[".toList ++ c.2 ++ "]".toList)) = .ok cols := by
    intro unit cols
    induction cols generalizing unit with
    | nil => intro _; rfl
    | cons c cols ih =>
      intro h
      obtain ⟨h1, h2, h3⟩ := h c (List.mem_cons_self ..)
      simp only [List.map_cons, columnLoop]
      rw [columnTurn_unit unit c.1 c.2 h1 h2 h3]
      simp only
      rw [ih (some c.2) (fun x hx => h x (List.mem_cons_of_mem _ hx))]
  exact key none cols h

example : columnLoop none ["Time_[s]".toList, "B1_x_[m/s]".toList]
    = .ok [("Time".toList, "s".toList), ("B1_x".toList, "m/s".toList)] :=
  C20_partial [("Time".toList, "s".toList), ("B1_x".toList, "m/s".toList)] (by
    intro c hc
    have : c = ("Time".toList, "s".toList) ∨ c = ("B1_x".toList, "m/s".toList) := by simpa using hc
    rcases this with rfl | rfl
    · exact ⟨by decide, by simp; decide, by decide⟩
    · exact ⟨by decide, by simp; decide, by decide⟩)

/-- C20 through the file: a table with such columns is stored with these names
and units. -/
theorem C20_file_partial (S : FloatSys) (old : Option Bytes) (t : Table S.F)
    (cols : List (Str × Str))
    (h : ∀ c ∈ cols, c.1 ≠ [] ∧ (∀ x, c.1.head? = some x → isWs x = false) ∧
      ∀ x ∈ c.2, x ≠ '[' ∧ x ≠ ']')
    (hf : Fits S t (cols.map Prod.fst) (cols.map Prod.snd) (cols.map Prod.snd) []) :
    ∃ bytes r, writeDataFrame S old t
        (cols.map (fun c => c.1 ++ "_[".toList ++ c.2 ++ "]".toList)) true = (some bytes, .ok ()) ∧
      load S bytes = .ok (r, []) ∧ r.names = cols.map Prod.fst ∧ r.units = cols.map Prod.snd := by
  obtain ⟨b, r, h1, h2, h3, h4, _⟩ := C17_partial S old t _ _ _ [] hf rfl
  refine ⟨b, r, ?_, h2, h3, h4⟩
  unfold writeDataFrame
  rw [C20_partial cols h]
  exact h1

/-- With `binary=False` nothing is written and nothing is raised. -/
theorem C20_ascii_silent (S : FloatSys) (old : Option Bytes) (t : Table S.F) (columns : List Str)
    (nu : List (Str × Str)) (h : columnLoop none columns = .ok nu) :
    writeDataFrame S old t columns false = (old, .ok ()) := by
  unfold writeDataFrame
  rw [h]
  rfl

end Verif.FastBin
