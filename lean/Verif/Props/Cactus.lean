import Verif.Lemmas.Cactus
import Verif.Lemmas.Hawc2Sel
import Verif.Lemmas.Hs2
import Verif.Lemmas.WaveKin
import Mathlib.Data.List.Forall2
import Mathlib.Tactic.Ring
import Mathlib.Tactic.LinearCombination
/-!
# What the table of a CACTUS case has

Properties C200 to C205.
-/
namespace Verif.Cactus
open Verif.Py

/-- **C200**: the first eleven lines of the geometry file: each name has the value said last for it -/
theorem C200 {F : Type} (flt : Str → Option F) (ls : List Str) (es : List (Option (Str × GVal F))) (h : List.Forall₂ (GeomSays flt) (ls.take 11) es) :
    ∃ g, geomLines flt 0 [] ls = .ok g ∧ ∀ k, geomGet g k = lastSaid es k := by
  obtain ⟨g, hg, hk⟩ := geom_lines flt ls 0 [] es (by omega) h
  refine ⟨g, hg, fun k => ?_⟩
  rw [hk k]
  cases lastSaid es k <;> rfl

/-- number texts of the examples -/
def exFlt (s : Str) : Option Rat := if s = "3".toList then some 3 else if s = "10.5".toList then some (21 / 2) else if s = "0".toList then some 0 else none

example : ∃ g, geomLines exFlt 0 [] ["NBlade: 3 ! blades".toList, "! only a comment".toList, "RefR : 10.5".toList, "RotN: 0 0 3".toList, "Type: VAWT".toList] = .ok g ∧
    geomGet g "nblade".toList = some (.num 3) ∧ geomGet g "refr".toList = some (.num (21 / 2)) ∧ geomGet g "rotn".toList = some (.vec [0, 0, 3]) ∧
    geomGet g "type".toList = some (.text " VAWT".toList) := by
  obtain ⟨g, hg, h⟩ := C200 exFlt ["NBlade: 3 ! blades".toList, "! only a comment".toList, "RefR : 10.5".toList, "RotN: 0 0 3".toList, "Type: VAWT".toList]
    [some ("nblade".toList, .num 3), none, some ("refr".toList, .num (21 / 2)), some ("rotn".toList, .vec [0, 0, 3]), some ("type".toList, .text " VAWT".toList)]
    (.cons (.entry "NBlade".toList " 3 ".toList "! blades".toList _ (by decide) (by decide) (by decide) (.inr ⟨_, rfl⟩) (.inl ⟨"3".toList, 3, by decide +kernel, by decide +kernel, rfl⟩))
    (.cons (.blank [] "! only a comment".toList (by decide) (by decide) (.inr ⟨_, rfl⟩))
    (.cons (.entry "RefR ".toList " 10.5".toList [] _ (by decide) (by decide) (by decide) (.inl rfl) (.inl ⟨"10.5".toList, 21 / 2, by decide +kernel, by decide +kernel, rfl⟩))
    (.cons (.entry "RotN".toList " 0 0 3".toList [] _ (by decide) (by decide) (by decide) (.inl rfl)
      (.inr (.inl ⟨[0, 0, 3], (by rw [show words " 0 0 3".toList = ["0".toList, "0".toList, "3".toList] by decide +kernel]; exact .cons (by decide +kernel) (.cons (by decide +kernel) (.cons (by decide +kernel) .nil))), by decide, rfl⟩)))
    (.cons (.entry "Type".toList " VAWT".toList [] _ (by decide) (by decide) (by decide) (.inl rfl)
      (.inr (.inr ⟨⟨"VAWT".toList, by decide +kernel, by decide +kernel⟩, rfl⟩))) .nil)))))
  exact ⟨g, hg, by rw [h]; decide +kernel, by rw [h]; decide +kernel, by rw [h]; decide +kernel, by rw [h]; decide +kernel⟩

/-- **C200**: a line among them with a text and no colon raises IndexError -/
theorem C200_index {F : Type} (flt : Str → Option F) (pre : List Str) (es : List (Option (Str × GVal F))) (l : Str) (rest : List Str) (h : List.Forall₂ (GeomSays flt) pre es)
    (hl : NoColon l) (hp : pre.length ≤ 10) : geomLines flt 0 [] (pre ++ l :: rest) = .error .index := geom_stop flt l rest hl pre 0 [] es h (by omega)

example : geomLines exFlt 0 [] ["NBlade: 3".toList, "no colon ! here: not".toList, "RefR: 3".toList] = .error .index :=
  C200_index exFlt ["NBlade: 3".toList] [some ("nblade".toList, .num 3)] "no colon ! here: not".toList ["RefR: 3".toList]
    (.cons (.entry "NBlade".toList " 3".toList [] _ (by decide) (by decide) (by decide) (.inl rfl) (.inl ⟨"3".toList, 3, by decide +kernel, by decide +kernel, rfl⟩)) .nil)
    ⟨"no colon ".toList, "! here: not".toList, rfl, by decide, by decide, by decide, .inr ⟨_, rfl⟩⟩ (by decide)

/-- **C201**: the columns of the time data: the first eight keep their names, the others get the number of their blade -/
theorem C201 {F : Type} (d : Frame F) (n : Nat) (hn : (d.cols.map Prod.fst).count "Blade Fx Coeff. (-)".toList = n) (h : d.cols.length = 8 + 4 * n) :
    ∃ d', timeFrame d = .ok (d', n) ∧ d'.rows = d.rows ∧ d'.cols.length = d.cols.length ∧ (∀ i : Nat, i < 8 → d'.cols[i]? = d.cols[i]?) ∧
      ∀ (j c : Nat) l, j < n → [" Fx Coeff. (-)", " Fy Coeff. (-)", " Fz Coeff. (-)", " Torque Coeff. (-)"][c]? = some l →
        d'.cols[8 + 4 * j + c]? = d.cols[8 + 4 * j + c]?.map fun x => (bladeLabel "Blade" j l, x.2) := by
  have hl := time_cols d n
  rw [Nat.min_eq_left (by omega)] at hl
  rw [timeFrame]
  simp only [hn]
  rw [if_neg (by rw [hl, List.length_map]; omega)]
  refine ⟨_, rfl, rfl, ?_, ?_, ?_⟩
  · show (List.zip _ _).length = _
    rw [List.length_zip, hl, List.length_map]
    omega
  · intro i hi
    show (List.zip _ _)[i]? = _
    have hc : i < d.cols.length := by omega
    rw [zip_at _ d.cols i d.cols[i].1 (by
      rw [List.getElem?_append_left (by simp; omega), List.getElem?_take, if_pos hi, List.getElem?_map, List.getElem?_eq_getElem hc]; rfl), List.getElem?_eq_getElem hc]
    rfl
  · intro j c l hj hc
    have h4 : c < 4 := by
      by_contra h4
      rw [List.getElem?_eq_none (by simpa using h4)] at hc
      cases hc
    refine zip_at _ d.cols _ _ ?_
    have h8 : ((d.cols.map Prod.fst).take 8).length = 8 := by simp; omega
    rw [List.getElem?_append_right (by omega), h8, show 8 + 4 * j + c - 8 = j * 4 + c by omega,
      WaveKin.getElem?_blocks _ 4 (by intro a; rfl) _ j j c (by rw [List.getElem?_range hj]) h4, List.getElem?_map, hc]
    rfl

/-- the first eight columns of the examples -/
def exHead : List (Str × List Rat) :=
  [("Normalized Time (-)".toList, [0, 1]), ("Theta (rad)".toList, [0, 3]), ("Rev".toList, [1, 1]), ("Torque Coeff. (-)".toList, [1 / 2, 1 / 4]), ("Power Coeff. (-)".toList, [1 / 5, 1 / 3]),
   ("Fx Coeff. (-)".toList, [1, 2]), ("Fy Coeff. (-)".toList, [3, 4]), ("Fz Coeff. (-)".toList, [5, 6])]

/-- time data as in the file -/
def exRaw : Frame Rat :=
  ⟨2, exHead ++ [("Blade Fx Coeff. (-)".toList, [1, 2]), ("Blade Fy Coeff. (-)".toList, [3, 4]), ("Blade Fz Coeff. (-)".toList, [5, 6]), ("Blade Torque Coeff. (-)".toList, [1 / 2, 1 / 4])]⟩

/-- the same with the labels numbered -/
def exTime : Frame Rat :=
  ⟨2, exHead ++ [("Blade1 Fx Coeff. (-)".toList, [1, 2]), ("Blade1 Fy Coeff. (-)".toList, [3, 4]), ("Blade1 Fz Coeff. (-)".toList, [5, 6]), ("Blade1 Torque Coeff. (-)".toList, [1 / 2, 1 / 4])]⟩

example : ∃ d', timeFrame exRaw = .ok (d', 1) ∧ d'.cols[9]? = some ("Blade1 Fy Coeff. (-)".toList, [3, 4]) := by
  obtain ⟨d', h, _, _, _, h'⟩ := C201 exRaw 1 (by decide +kernel) (by decide +kernel)
  exact ⟨d', h, (h' 0 1 _ (by decide) rfl).trans (by decide +kernel)⟩

/-- **C201**: with another number of columns ValueError is raised -/
theorem C201_columns {F : Type} (d : Frame F) (n : Nat) (hn : (d.cols.map Prod.fst).count "Blade Fx Coeff. (-)".toList = n) (h : d.cols.length ≠ 8 + 4 * n) (h8 : 8 ≤ d.cols.length ∨ 0 < n) :
    timeFrame d = .error .value := by
  have hl := time_cols d n
  rw [timeFrame]
  simp only [hn]
  rw [if_pos]
  rw [hl, List.length_map]
  omega

example : timeFrame (⟨2, exRaw.cols.take 11⟩ : Frame Rat) = .error .value := C201_columns _ 1 (by decide +kernel) (by decide +kernel) (by decide)

/-- **C202**: the columns put before those of the time data -/
theorem C202 {F : Type} [Field F] (T : Trig F) (k : Case F) (q : Quant F) (hq : IsQuant T k q) (d : Frame F) (n : Nat) (cp : Nat → F) (r : Coef F) (b : Nat → Coef F)
    (hd : HasData d n cp r b) (hm : 2 ≤ d.rows) (hr : d.rows ≤ k.nr * k.nti) (hf : ∀ x ∈ newTable T k q n cp r b, x.1 ∉ d.cols.map Prod.fst) :
    timeData T k n d = .ok (⟨d.rows, columns d.rows (newTable T k q n cp r b) ++ d.cols⟩, (newTable T k q n cp r b).length) := time_ok T k q hq d n cp r b hd hm hr hf

/-- a case, with simple numbers for cosine, sine and the rest -/
def exTrig : Trig Rat := ⟨fun _ => 3 / 5, fun _ => 4 / 5, 3, id⟩

/-- one revolution with four steps at 60 revolutions per minute -/
def exCase : Case Rat := ⟨1, 4, 60, 2, 2328 / 1000000, 328084 / 100000, 2, true⟩

/-- its quantities -/
def exQuant : Quant Rat := ⟨6, 1, 3, 108 / 10, 108 / 10, 324 / 10⟩

theorem exQuant_is : IsQuant exTrig exCase exQuant := by
  unfold IsQuant
  decide +kernel

/-- the values of two rows -/
def exVals (a b : Rat) : Nat → Rat := fun i => if i = 0 then a else b

/-- the coefficients -/
def exCoef : Coef Rat := ⟨exVals 1 2, exVals 3 4, exVals 5 6, exVals (1 / 2) (1 / 4)⟩

theorem exTime_has : HasData exTime 1 (exVals (1 / 5) (1 / 3)) exCoef (fun _ => exCoef) := by
  refine ⟨by decide +kernel, by unfold Has; decide +kernel, by unfold Has; decide +kernel, by unfold Has; decide +kernel, by unfold Has; decide +kernel, by unfold Has; decide +kernel,
    fun i hi => ?_⟩
  obtain rfl : i = 0 := by omega
  decide +kernel

theorem exTime_new : ∀ x ∈ newTable exTrig exCase exQuant 1 (exVals (1 / 5) (1 / 3)) exCoef (fun _ => exCoef), x.1 ∉ exTime.cols.map Prod.fst := by decide +kernel

example : ∃ d c, timeData exTrig exCase 1 exTime = .ok (d, c) ∧ ("Time_[s]".toList, [0, 1 / 4]) ∈ d.cols ∧ ("RtAeroPwr_[W]".toList, [108 / 10, 108 / 10]) ∈ d.cols ∧ c = 25 := by
  refine ⟨_, _, C202 exTrig exCase exQuant exQuant_is exTime 1 _ exCoef (fun _ => exCoef) exTime_has (by decide) (by decide) exTime_new, ?_, ?_, ?_⟩
  · refine List.mem_append_left _ ?_
    decide +kernel
  · refine List.mem_append_left _ ?_
    decide +kernel
  · decide +kernel

/-- **C202**: more rows than revolutions times steps raise ValueError -/
theorem C202_rows {F : Type} [Field F] (T : Trig F) (k : Case F) (n : Nat) (d : Frame F) (h : k.nr * k.nti < d.rows) : timeData T k n d = .error .value := time_long T k n d h

example : timeData exTrig { exCase with nti := 1 } 1 exTime = .error .value := C202_rows _ _ _ _ (by decide)

/-- **C203**: turning the forces keeps their size, the power is torque times speed but in the first row, which repeats the second -/
theorem C203 {F : Type} [Field F] (T : Trig F) (hT : ∀ a, T.cos a * T.cos a + T.sin a * T.sin a = 1) (k : Case F) (q : Quant F) (hq : IsQuant T k q) (d : Frame F) (n : Nat)
    (cp : Nat → F) (r : Coef F) (b : Nat → Coef F)
    (hd : HasData d n cp r b) (hm : 2 ≤ d.rows) (hr : d.rows ≤ k.nr * k.nti) (hf : ∀ x ∈ newTable T k q n cp r b, x.1 ∉ d.cols.map Prod.fst) :
    ∃ d' c, timeData T k n d = .ok (d', c) ∧ ∀ i, i < d.rows →
      (∃ x y u v, Cell d' "ZAeroFxg_[N]".toList i x ∧ Cell d' "ZAeroFyg_[N]".toList i y ∧ Cell d' "RtAeroFyh_[N]".toList i u ∧ Cell d' "RtAeroFzh_[N]".toList i v ∧
        u ^ 2 + v ^ 2 = x ^ 2 + y ^ 2) ∧
      ∀ j, j < n → ∃ x y u v m m1 p, Cell d' (bladeLabel "Z" j "AeroFxg_[N]") i x ∧ Cell d' (bladeLabel "Z" j "AeroFyg_[N]") i y ∧ Cell d' (bladeLabel "Y" j "AeroFxb_[N]") i u ∧
        Cell d' (bladeLabel "Y" j "AeroFyb_[N]") i v ∧ u ^ 2 + v ^ 2 = x ^ 2 + y ^ 2 ∧ Cell d' (bladeLabel "Y" j "AeroMxb_[N-m]") i m ∧
        Cell d' (bladeLabel "Y" j "AeroMxb_[N-m]") 1 m1 ∧ Cell d' (bladeLabel "Y" j "AeroPwr_[W]") i p ∧ p = (if i = 0 then m1 else m) * q.omega := by
  refine ⟨_, _, time_ok T k q hq d n cp r b hd hm hr hf, fun i hi => ?_⟩
  have cell : ∀ name f, (name, f) ∈ newTable T k q n cp r b → ∀ i, i < d.rows → Cell (⟨d.rows, columns d.rows (newTable T k q n cp r b) ++ d.cols⟩ : Frame F) name i (f i) := by
    intro name f h i hi
    refine ⟨column d.rows f, List.mem_append_left _ (List.mem_map.2 ⟨(name, f), h, rfl⟩), ?_⟩
    simp [column, hi]
  have rot : ∀ x, x ∈ rotorTable T q (fun i : Nat => (i : F) * (2 * T.pi / q.omega / (k.nti : F))) cp r → x ∈ newTable T k q n cp r b :=
    fun x hx => List.mem_append_left _ (List.mem_append_left _ (List.mem_append_left _ hx))
  have bld : ∀ j, j < n → ∀ x, x ∈ bladeTable T q (fun i : Nat => (i : F) * (2 * T.pi / q.omega / (k.nti : F)) * q.omega - 2 * T.pi / (n : F) * (j : F)) j (b j) → x ∈ newTable T k q n cp r b :=
    fun j hj x hx => List.mem_append_left _ (List.mem_append_right _ (List.mem_flatMap.2 ⟨j, List.mem_range.2 hj, hx⟩))
  constructor
  · refine ⟨_, _, _, _, cell _ _ (rot _ (List.mem_of_getElem? (i := 5) rfl)) i hi, cell _ _ (rot _ (List.mem_of_getElem? (i := 6) rfl)) i hi,
      cell _ _ (rot _ (List.mem_of_getElem? (i := 10) rfl)) i hi, cell _ _ (rot _ (List.mem_of_getElem? (i := 11) rfl)) i hi, ?_⟩
    have := hT ((i : F) * (2 * T.pi / q.omega / (k.nti : F)) * q.omega)
    linear_combination ((r.fx i * q.force) ^ 2 + (r.fz i * q.force) ^ 2) * this
  · intro j hj
    refine ⟨_, _, _, _, _, _, _, cell _ _ (bld j hj _ (List.mem_of_getElem? (i := 5) rfl)) i hi, cell _ _ (bld j hj _ (List.mem_of_getElem? (i := 6) rfl)) i hi,
      cell _ _ (bld j hj _ (List.mem_of_getElem? (i := 0) rfl)) i hi, cell _ _ (bld j hj _ (List.mem_of_getElem? (i := 1) rfl)) i hi, ?_,
      cell _ _ (bld j hj _ (List.mem_of_getElem? (i := 3) rfl)) i hi, cell _ _ (bld j hj _ (List.mem_of_getElem? (i := 3) rfl)) 1 (by omega),
      cell _ _ (bld j hj _ (List.mem_of_getElem? (i := 4) rfl)) i hi, ?_⟩
    · have := hT ((i : F) * (2 * T.pi / q.omega / (k.nti : F)) * q.omega - 2 * T.pi / (n : F) * (j : F))
      linear_combination (((b j).fx i * q.force) ^ 2 + ((b j).fz i * q.force) ^ 2) * this
    · simp only [skip0]
      split <;> rfl

example : ∃ d c, timeData exTrig exCase 1 exTime = .ok (d, c) ∧ ∃ x y u v, Cell d "ZAeroFxg_[N]".toList 1 x ∧ Cell d "ZAeroFyg_[N]".toList 1 y ∧ Cell d "RtAeroFyh_[N]".toList 1 u ∧
    Cell d "RtAeroFzh_[N]".toList 1 v ∧ u ^ 2 + v ^ 2 = x ^ 2 + y ^ 2 := by
  obtain ⟨d, c, h, h'⟩ := C203 exTrig (fun _ => (by decide +kernel : (3 / 5 : Rat) * (3 / 5) + (4 / 5) * (4 / 5) = 1)) exCase exQuant exQuant_is exTime 1 _ exCoef (fun _ => exCoef) exTime_has (by decide) (by decide) exTime_new
  exact ⟨d, c, h, (h' 1 (by decide)).1⟩

/-- **C204** fails: the table can be asked for once only, as its columns stay in the stored frame -/
theorem C204_fails {F : Type} [Field F] (T : Trig F) (k : Case F) (n : Nat) (s : F) (d d' : Frame F) (elem ds : Option (List (Row F))) (h : toDataFrame T k n s (some d) elem ds = .ok d') :
    toDataFrame T k n s (some d') elem ds = .error .value := by
  have : "Time_[s]".toList ∈ d'.cols.map Prod.fst := by
    rw [toDataFrame] at h
    split at h
    · cases h
    next h1 =>
    split at h
    · cases h
    split at h
    · cases h
    next h2 =>
    obtain rfl := Except.ok.inj h
    exact elem_names _ _ _ _ _ _ _ _ _ h2 _ (time_name _ _ _ _ _ h1)
  rw [toDataFrame]
  simp only [time_again T k n d' this]

/-- **C204** fails: without time data, or without element data, there is no table -/
theorem C204_missing {F : Type} [Field F] (T : Trig F) (k : Case F) (n : Nat) (s : F) (d : Option (Frame F)) (elem ds : Option (List (Row F))) (h : d = none ∨ elem = none) :
    ∃ e, toDataFrame T k n s d elem ds = .error e := by
  rcases h with rfl | rfl
  · exact ⟨_, rfl⟩
  · cases d with
    | none => exact ⟨_, rfl⟩
    | some d =>
      rw [toDataFrame]
      split
      · exact ⟨_, rfl⟩
      · exact ⟨_, rfl⟩

/-- **C204**, in part: the first time, with time and element data and no dynamic stall data, the columns of the nodes come after the new columns of the rotor and the blades, and
before those of the time data -/
theorem C204_partial {F : Type} [Field F] (T : Trig F) (k : Case F) (q : Quant F) (hq : IsQuant T k q) (d : Frame F) (n : Nat) (cp : Nat → F) (r : Coef F) (b : Nat → Coef F)
    (hd : HasData d n cp r b) (hm : 2 ≤ d.rows) (hr : d.rows ≤ k.nr * k.nti) (hf : ∀ x ∈ newTable T k q n cp r b, x.1 ∉ d.cols.map Prod.fst)
    (hAB : ∀ x ∈ d.cols.map Prod.fst, ¬ "AB".toList <+: x) (rows : List (Row F)) (hn : Numbered rows n) (v : Nat → Nat → String → Nat → F) (hv : HasVals rows v) (sg : F) :
    ∃ nodes, IsNodes rows d.rows nodes ∧
      toDataFrame T k n sg (some d) (some rows) none = .ok ⟨d.rows, columns d.rows (newTable T k q n cp r b) ++ columns d.rows (allNodes T k q n sg v nodes) ++ d.cols⟩ := by
  have e : columns d.rows (newTable T k q n cp r b) = (newTable T k q n cp r b).map fun x => (x.1, column d.rows x.2) := rfl
  have hnames : ∀ x ∈ (columns d.rows (newTable T k q n cp r b)).map Prod.fst, ∃ y ∈ newTable T k q n cp r b, y.1 = x := by
    intro x hx
    rw [e, List.map_map] at hx
    exact List.mem_map.1 hx
  obtain ⟨nodes, h1, h2⟩ := elem_ok T k q hq d.rows n (by omega) hr rows hn v hv (columns d.rows (newTable T k q n cp r b)) d.cols
    (fun x hx => by obtain ⟨y, hy, rfl⟩ := hnames x hx; exact new_AB T k q n cp r b y hy) hAB (fun x hx => by obtain ⟨y, hy, rfl⟩ := hnames x hx; exact hf y hy) sg
  refine ⟨nodes, h1, ?_⟩
  rw [toDataFrame]
  simp only [time_ok T k q hq d n cp r b hd hm hr hf]
  have hl : (newTable T k q n cp r b).length = (columns d.rows (newTable T k q n cp r b)).length := by rw [e, List.length_map]
  rw [hl, h2]

/-- rows of the examples; a value is the length of its label -/
def exRow (b e : Int) : Row Rat := ⟨b, e, fun l => some (l.length : Rat)⟩

/-- two elements with two rows and one with a single row -/
def exRows : List (Row Rat) := [exRow 1 1, exRow 1 2, exRow 1 3, exRow 1 1, exRow 1 2]

theorem exRows_of : ∀ r ∈ exRows, ∃ b e, r = exRow b e := by
  intro r hr
  simp only [exRows, List.mem_cons, List.not_mem_nil, or_false] at hr
  rcases hr with rfl | rfl | rfl | rfl | rfl <;> exact ⟨_, _, rfl⟩

theorem exRows_vals : HasVals exRows (fun _ _ l _ => (l.toList.length : Rat)) := by
  intro b e i r hr l _
  obtain ⟨b', e', rfl⟩ := exRows_of r (List.mem_of_mem_filter (List.mem_of_getElem? hr))
  rfl

theorem exRows_num : Numbered exRows 1 := by
  unfold Numbered
  decide +kernel

theorem exTable : ∃ d, toDataFrame exTrig exCase 1 (-1) (some exTime) (some exRows) none = .ok d := by
  obtain ⟨nodes, _, h⟩ := C204_partial exTrig exCase exQuant exQuant_is exTime 1 _ exCoef (fun _ => exCoef) exTime_has (by decide) (by decide) exTime_new (by decide +kernel) exRows exRows_num _
    exRows_vals (-1)
  exact ⟨_, h⟩

example : ∃ d, toDataFrame exTrig exCase 1 (-1) (some exTime) (some exRows) none = .ok d ∧ toDataFrame exTrig exCase 1 (-1) (some d) (some exRows) none = .error .value := by
  obtain ⟨d, h⟩ := exTable
  exact ⟨d, h, C204_fails _ _ _ _ _ _ _ _ h⟩

example : ∃ e, toDataFrame exTrig exCase 1 (-1) (some exTime) none none = .error e := C204_missing _ _ _ _ _ _ _ (.inr rfl)

/-- the names of the columns of the nodes, one after the other -/
def nodeNames (d : Frame Rat) : List Str := (d.cols.map Prod.fst).filter fun n => decide ("AB1N00".toList <+: n)

theorem exStall : (match toDataFrame exTrig exCase 1 (-1) (some exTime) (some exRows) (some exRows) with
    | .ok d => (nodeNames d).drop ((nodeNames d).length - 3)
    | .error _ => []) = ["AB1N002dalphaD_[deg]".toList, "AB1N001alphaDot2_[rad/s]".toList, "AB1N001dalphaD_[deg]".toList] := by decide +kernel

/-- **C205** fails: with dynamic stall data, columns of the first node come after those of the second -/
theorem C205_fails : ∃ d, toDataFrame exTrig exCase 1 (-1) (some exTime) (some exRows) (some exRows) = .ok d ∧
    (nodeNames d).drop ((nodeNames d).length - 3) = ["AB1N002dalphaD_[deg]".toList, "AB1N001alphaDot2_[rad/s]".toList, "AB1N001dalphaD_[deg]".toList] := by
  have h := exStall
  split at h
  · next d hd => exact ⟨d, hd, h⟩
  · cases h

/-- **C205**, in part: without dynamic stall data the columns of an element with as many rows as the time data stand together -/
theorem C205_partial {F : Type} [Field F] (T : Trig F) (k : Case F) (q : Quant F) (hq : IsQuant T k q) (d : Frame F) (n : Nat) (cp : Nat → F) (r : Coef F) (b : Nat → Coef F)
    (hd : HasData d n cp r b) (hm : 2 ≤ d.rows) (hr : d.rows ≤ k.nr * k.nti) (hf : ∀ x ∈ newTable T k q n cp r b, x.1 ∉ d.cols.map Prod.fst)
    (hAB : ∀ x ∈ d.cols.map Prod.fst, ¬ "AB".toList <+: x) (rows : List (Row F)) (hn : Numbered rows n) (v : Nat → Nat → String → Nat → F) (hv : HasVals rows v) (sg : F) :
    ∃ d', toDataFrame T k n sg (some d) (some rows) none = .ok d' ∧
      (∀ ib ie, (section_ rows ib ie).length = d.rows →
        ["Alpha_[deg]", "Alpha50_[deg]", "Alpha75_[deg]", "Cl_[-]", "Cd_[-]", "Cm_[-]", "Cn_[-]", "Ct_[-]", "Ct2_[-]", "Cxg_[-]", "Cyg_[-]", "Czg_[-]", "ClC_[-]", "Re_[-]", "Gam_[m^2/s]",
          "Vrel_[m/s]", "Vindx_[m/s]", "Vindy_[m/s]"].map (nodeLabel ib ie) <:+: d'.cols.map Prod.fst) ∧
      ∀ ib ie s, nodeLabel ib ie s ∈ d'.cols.map Prod.fst → s ∈ suffixes → (section_ rows ib ie).length = d.rows := by
  obtain ⟨nodes, hN, h⟩ := C204_partial T k q hq d n cp r b hd hm hr hf hAB rows hn v hv sg
  refine ⟨_, h, ?_, ?_⟩
  · intro ib ie hl
    have := (hN.2 ib ie).2 hl
    obtain ⟨l1, l2, rfl⟩ := List.append_of_mem this
    simp only [List.map_append, allNodes_labels, List.flatMap_append, List.flatMap_cons]
    refine ⟨(columns d.rows (newTable T k q n cp r b)).map Prod.fst ++ l1.flatMap (fun x => suffixes.map (nodeLabel x.1 x.2)),
      l2.flatMap (fun x => suffixes.map (nodeLabel x.1 x.2)) ++ d.cols.map Prod.fst, ?_⟩
    simp only [List.append_assoc]
    rfl
  · intro ib ie s hs hsuf
    simp only [List.map_append, allNodes_labels, List.mem_append] at hs
    rcases hs with (hs | hs) | hs
    · obtain ⟨x, hx, he⟩ := List.mem_map.1 hs
      obtain ⟨y, hy, rfl⟩ := List.mem_map.1 hx
      exact absurd (he ▸ node_AB ib ie s) (new_AB T k q n cp r b y hy)
    · obtain ⟨x, hx, hs⟩ := List.mem_flatMap.1 hs
      obtain ⟨s', hs', he⟩ := List.mem_map.1 hs
      obtain ⟨h1, h2, _⟩ := label_inj (suffix_plain s' hs') (suffix_plain s hsuf) he
      rw [← h1, ← h2]
      exact (hN.2 x.1 x.2).1 hx
    · exact absurd (node_AB ib ie s) (hAB _ hs)

example : ∃ d, toDataFrame exTrig exCase 1 (-1) (some exTime) (some exRows) none = .ok d ∧ "AB1N002Cl_[-]".toList ∈ d.cols.map Prod.fst ∧ "AB1N003Cl_[-]".toList ∉ d.cols.map Prod.fst := by
  obtain ⟨d, h, h1, h2⟩ := C205_partial exTrig exCase exQuant exQuant_is exTime 1 _ exCoef (fun _ => exCoef) exTime_has (by decide) (by decide) exTime_new (by decide +kernel) exRows exRows_num _
    exRows_vals (-1)
  refine ⟨d, h, (h1 1 2 (by decide +kernel)).subset (by decide +kernel), fun hh => ?_⟩
  exact absurd (h2 1 3 "Cl_[-]" hh (by decide)) (by decide +kernel)

end Verif.Cactus
