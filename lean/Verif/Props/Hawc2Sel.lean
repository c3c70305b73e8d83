import Verif.Lemmas.Hawc2Sel
import Verif.Lemmas.HawcAe
import Verif.Py.Fmt
import Verif.Lemmas.FastBin
import Mathlib.Data.List.Forall2
import Mathlib.Tactic
/-! # HAWC2 and BHAWC result files -/
namespace Verif.Hawc2Sel
open Verif.Py
open Verif.FastLine (showInt)

/-- **C133** A HAWC2 `.sel` file of a text result gives the number of scans, the time of each, and the name, the
unit and the description of each channel, from their columns. -/
theorem C133 [Field F] [DecidableEq F] (N : Num F) (s : SelText F) (h : s.Ok N) (hf : lower s.format ≠ "binary".toList) :
    readSel N s.text = .ok ⟨s.nrSc, s.chans.length, s.time, s.times, s.chans.map Channel.name, s.chans.map Channel.unit, s.chans.map Channel.descr, .ascii, []⟩ := by
  rw [readHawc_start N s h]
  obtain ⟨h8, hc⟩ := readHawc_chans N s h
  obtain ⟨_, _, _, _, _, ⟨a, b, c, r, hw, ha, hb, hcc⟩, ht⟩ := h
  unfold readHawc
  rw [h8]
  simp only [bind, Except.bind, words_nl, hw, counts_ok N a b c _ s.nrSc _ s.time ha hb hcc ht, nth, List.getElem?_cons_zero, List.getElem?_cons_succ, Int.toNat_natCast]
  simp only [bind, Except.bind, nth] at hc
  rw [hc]
  simp only [if_neg hf, List.map_map]
  rfl

/-- **C133** One of a binary result gives the scale factors too, which follow the channels after two lines. -/
theorem C133_binary [Field F] [DecidableEq F] (N : Num F) (s : SelText F) (h : s.Ok N) (hf : lower s.format = "binary".toList)
    (r1 r2 : Str) (ls r : List Str) (hr : s.rest = r1 :: r2 :: (ls ++ r)) (scale : List F) (hlen : ls.length = s.chans.length)
    (hs : List.Forall₂ (fun l x => N.flt (l ++ ['\n']) = some x) ls scale) :
    readSel N s.text = .ok ⟨s.nrSc, s.chans.length, s.time, s.times, s.chans.map Channel.name, s.chans.map Channel.unit, s.chans.map Channel.descr, .binary, scale⟩ := by
  rw [readHawc_start N s h]
  obtain ⟨h8, hc⟩ := readHawc_chans N s h
  obtain ⟨_, _, hh, hm, hl, ⟨a, b, c, r, hw, ha, hb, hcc⟩, ht⟩ := h
  unfold readHawc
  rw [h8]
  have hsc : (List.range s.chans.length).mapM (fun i => do fltOf N (← nth ((s.title :: (s.head ++ (s.count :: (s.mid ++ (s.lines ++ s.rest))))).map (· ++ ['\n']))
      (i + 12 + s.chans.length + 2))) = .ok scale := by
    have e : (s.title :: (s.head ++ (s.count :: (s.mid ++ (s.lines ++ s.rest))))).map (· ++ ['\n']) =
        ((s.title :: (s.head ++ s.count :: (s.mid ++ s.lines ++ [r1, r2]))).map (· ++ ['\n'])) ++ (ls.map (· ++ ['\n']) ++ (s.rest.drop (2 + ls.length)).map (· ++ ['\n'])) := by
      rw [hr, show 2 + ls.length = ls.length + 2 by omega]
      simp
    have hlen2 : s.chans.length = (ls.map (· ++ ['\n'])).length := by rw [List.length_map, hlen]
    rw [e]
    have := mapM_nth ((s.title :: (s.head ++ s.count :: (s.mid ++ s.lines ++ [r1, r2]))).map (· ++ ['\n'])) (ls.map (· ++ ['\n']))
      ((s.rest.drop (2 + ls.length)).map (· ++ ['\n'])) (fltOf N) scale (14 + s.chans.length) (by simp [hh, hm, hl.length_eq]; omega) (by
        rw [List.forall₂_map_left_iff]
        exact hs.imp (fun l x hlx => by unfold fltOf; rw [hlx]))
    rw [← hlen2] at this
    rw [← this]
    congr 1
    funext i
    rw [show i + 12 + s.chans.length + 2 = i + (14 + s.chans.length) by omega]
  simp only [bind, Except.bind, words_nl, hw, counts_ok N a b c _ s.nrSc _ s.time ha hb hcc ht, nth, List.getElem?_cons_zero, List.getElem?_cons_succ, Int.toNat_natCast]
  simp only [bind, Except.bind, nth] at hc hsc
  rw [hc]
  simp only [if_pos hf, List.map_map, hsc]
  rw [if_neg (by omega)]
  rfl

/-- a text with three lines of channels -/
def exSel (format : Str) (rest : List Str) : SelText ℚ where
  title := "____".toList
  head := ["Version".toList, "Time".toList, "Date".toList, [], "Result".toList, [], "Scans Channels Time Format".toList]
  count := "  2  2  10 ".toList ++ format
  mid := [[], "Channel".toList, []]
  lines := ["     1      Time                           s          Time of the scan".toList,
    "     2      WSP gl. coo.,Vy                m/s        Free wind, gl. coo".toList]
  rest := rest
  nrSc := 2
  time := 10
  format := format
  chans := [⟨"Time".toList, "s".toList, "Time of the scan".toList⟩, ⟨"WSP gl. coo.,Vy".toList, "m/s".toList, "Free wind, gl. coo".toList⟩]

/-- whole numbers only -/
def toyNum : Num ℚ where
  flt s := if FastLine.strIsInt (strip s) then some (FastLine.pyInt (strip s)) else none
  int s := if FastLine.strIsInt s then some (FastLine.pyInt s) else none
  e8 x := showInt x.num
  f3 x := Py.fixed 3 x

theorem exSel_ok (format : Str) (rest : List Str) (hf : IsWord format) (hr : ∀ l ∈ rest, '\n' ∉ l) : (exSel format rest).Ok toyNum := by
  refine ⟨?_, show ¬ "bhawc".toList <:+: lower "____".toList by decide, rfl, rfl, .cons ?_ (.cons ?_ .nil), ⟨"2".toList, "2".toList, "10".toList, [], ?_, rfl, rfl, rfl⟩, show (10 : ℚ) ≠ 0 by decide⟩
  · intro l hl
    simp only [exSel, List.mem_cons, List.mem_append, List.not_mem_nil, or_false, false_or] at hl
    have hnf : '\n' ∉ "  2  2  10 ".toList ++ format := by
      rw [List.mem_append, not_or]
      exact ⟨by decide, HawcAe.IsWord.nl hf⟩
    rcases hl with rfl | (rfl | rfl | rfl | rfl | rfl | rfl | rfl) | rfl | (rfl | rfl | rfl) | (rfl | rfl) | hl
    all_goals first | exact hnf | exact hr l hl | decide
  · exact ⟨"     1      ".toList, "Time                           ".toList, "s          ".toList, "Time of the scan".toList, by decide, by decide, by decide, by decide, by decide, by decide, by decide⟩
  · exact ⟨"     2      ".toList, "WSP gl. coo.,Vy                ".toList, "m/s        ".toList, "Free wind, gl. coo".toList, by decide, by decide, by decide, by decide, by decide, by decide, by decide⟩
  · show words ("  2  2  10 ".toList ++ format) = _
    have : "  2  2  10 ".toList = "  2  2  10".toList ++ [' '] := by decide
    rw [this, List.append_assoc, List.singleton_append, words_append _ _ _ isWs_space, words_word hf]
    have : words "  2  2  10".toList = ["2".toList, "2".toList, "10".toList] := by decide
    rw [this]
    rfl

example : (exSel "ASCII".toList []).Ok toyNum ∧ (exSel "ASCII".toList []).times = [5, 10] :=
  ⟨exSel_ok _ _ ⟨by decide, by decide⟩ (by simp), by decide +kernel⟩

example : (exSel "BINARY".toList [[], "Scale".toList, " 2".toList, " 3".toList]).Ok toyNum ∧
    List.Forall₂ (fun l x => toyNum.flt (l ++ ['\n']) = some x) [" 2".toList, " 3".toList] [2, 3] :=
  ⟨exSel_ok _ _ ⟨by decide, by decide⟩ (by decide), .cons (by decide +kernel) (.cons (by decide +kernel) .nil)⟩

/-- **C134** A binary result file with enough samples gives, for scan `j` and channel `i`, the 16-bit number number
`i` times the number of scans plus `j`, times the scale factor of the channel. -/
theorem C134 [Field F] [DecidableEq F] (N : Num F) (sel text : Str) (bytes : Bytes) (hd : Head F) (n m : Nat) (h : readSel N sel = .ok hd)
    (hf : hd.format = .binary) (hn : hd.nrSc = n) (hm : hd.nrCh = m) (hm0 : 0 < m) (hlen : n * m ≤ bytes.length / 2) :
    read N sel text bytes = .ok ⟨(List.range n).map (fun j => (List.range m).map (fun i => (sample bytes n i j : F) * hd.scale.getD i 0)),
      hd.names, hd.units, hd.descr, false⟩ := by
  rw [read_of N sel text bytes hd h, readAll_binary N hd text bytes (by omega) hf, hf]
  have hcols : (List.range m).mapM (fun i => fillCol n ((int16s bytes (i * n * 2) n).map (fun x : Int => (x : F) * hd.scale.getD i 0))) =
      .ok ((List.range m).map (fun i => (List.range n).map (fun j => (sample bytes n i j : F) * hd.scale.getD i 0))) := by
    refine mapM_map _ _ _ (fun i hi => ?_)
    have hi : i < m := List.mem_range.1 hi
    have : min n ((bytes.length - i * n * 2) / 2) = n := by
      have h1 : n * (i + 1) ≤ n * m := Nat.mul_le_mul_left _ hi
      have h2 : n * (i + 1) = i * n + n := by ring
      omega
    rw [int16s_eq, this, List.map_map]
    unfold fillCol
    rw [if_pos (by simp)]
    rfl
  have : readBinary hd bytes = .ok ((List.range n).map (fun j => (List.range m).map (fun i => (sample bytes n i j : F) * hd.scale.getD i 0))) := by
    unfold readBinary
    rw [hn, hm, if_neg (by omega), Int.toNat_natCast, Int.toNat_natCast]
    simp only [bind, Except.bind]
    rw [hcols]
    simp only [pure, Except.pure, rowsOfCols, List.map_map, Except.ok.injEq]
    apply List.map_congr_left
    intro j hj
    apply List.map_congr_left
    intro i _
    have hj : j < n := List.mem_range.1 hj
    simp [hj]
  simp only [this]
  rfl

example : read toyNum (exSel "BINARY".toList [[], "Scale".toList, "2".toList, "3".toList]).text [] [1, 0, 255, 255, 0, 1, 4, 0] =
    .ok ⟨[[2, 768], [-2, 12]], ["Time".toList, "WSP gl. coo.,Vy".toList], ["s".toList, "m/s".toList], ["Time of the scan".toList, "Free wind, gl. coo".toList], false⟩ := by
  decide +kernel

/-- a header of two scans of two channels in a binary file -/
def exBinary : Str := (exSel "BINARY".toList [[], "Scale".toList, "2".toList, "3".toList]).text

/-- **C135** is violated: a binary file cut after the first sample of its last channel is read, and this sample is
given to all scans. -/
theorem C135_fails : ∃ o : Obj ℚ, read toyNum exBinary [] [1, 0, 2, 0, 4, 0] = .ok o ∧ o.data = [[2, 12], [4, 12]] :=
  ⟨_, rfl, by decide +kernel⟩

/-- **C135** In general: every scan has the sample of the first one. -/
theorem C135_cut [Field F] [DecidableEq F] (N : Num F) (sel text : Str) (bytes : Bytes) (hd : Head F) (n m : Nat) (h : readSel N sel = .ok hd)
    (hf : hd.format = .binary) (hn : hd.nrSc = n) (hm : hd.nrCh = (m + 1 : Nat)) (hn2 : 2 ≤ n) (hcut : bytes.length / 2 = n * m + 1) :
    read N sel text bytes = .ok ⟨(List.range n).map (fun j => (List.range m).map (fun i => (sample bytes n i j : F) * hd.scale.getD i 0) ++
      [(sample bytes n m 0 : F) * hd.scale.getD m 0]), hd.names, hd.units, hd.descr, false⟩ := by
  rw [read_of N sel text bytes hd h, readAll_binary N hd text bytes (by omega) hf, hf]
  have hcols : (List.range (m + 1)).mapM (fun i => fillCol n ((int16s bytes (i * n * 2) n).map (fun x : Int => (x : F) * hd.scale.getD i 0))) =
      .ok ((List.range (m + 1)).map (fun i => if i = m then List.replicate n ((sample bytes n m 0 : F) * hd.scale.getD m 0) else
        (List.range n).map (fun j => (sample bytes n i j : F) * hd.scale.getD i 0))) := by
    refine mapM_map _ _ _ (fun i hi => ?_)
    have hi : i < m + 1 := List.mem_range.1 hi
    rw [int16s_eq]
    by_cases him : i = m
    · subst him
      have : min n ((bytes.length - i * n * 2) / 2) = 1 := by
        have h2 : n * i = i * n := by ring
        omega
      rw [this, if_pos rfl]
      unfold fillCol
      rw [if_neg (by simp; omega)]
      rfl
    · have : min n ((bytes.length - i * n * 2) / 2) = n := by
        have h1 : n * (i + 1) ≤ n * m := Nat.mul_le_mul_left _ (by omega)
        have h2 : n * (i + 1) = i * n + n := by ring
        omega
      rw [this, List.map_map, if_neg him]
      unfold fillCol
      rw [if_pos (by simp)]
      rfl
  have : readBinary hd bytes = .ok ((List.range n).map (fun j => (List.range m).map (fun i => (sample bytes n i j : F) * hd.scale.getD i 0) ++
      [(sample bytes n m 0 : F) * hd.scale.getD m 0])) := by
    unfold readBinary
    rw [hn, hm, if_neg (by omega), Int.toNat_natCast, Int.toNat_natCast]
    simp only [bind, Except.bind]
    rw [hcols]
    simp only [pure, Except.pure, rowsOfCols, List.map_map, Except.ok.injEq]
    apply List.map_congr_left
    intro j hj
    have hj : j < n := List.mem_range.1 hj
    rw [List.range_succ, List.map_append]
    congr 1
    · apply List.map_congr_left
      intro i hi
      have hi : i < m := List.mem_range.1 hi
      simp [show i ≠ m by omega, hj]
    · simp [hj]
  simp only [this]
  rfl

/-- **C135** A file cut elsewhere is refused. -/
theorem C135_partial [Field F] [DecidableEq F] (N : Num F) (sel text : Str) (bytes : Bytes) (hd : Head F) (n m : Nat) (h : readSel N sel = .ok hd)
    (hf : hd.format = .binary) (hn : hd.nrSc = n) (hm : hd.nrCh = (m + 1 : Nat)) (hlen : bytes.length / 2 < n * (m + 1))
    (hcut : bytes.length / 2 ≠ n * m + 1) : read N sel text bytes = .error .wrongFormat := by
  rw [read_of N sel text bytes hd h, readAll_binary N hd text bytes (by omega) hf, hf]
  have : ∃ e, readBinary hd bytes = .error e := by
    unfold readBinary
    rw [hn, hm, if_neg (by omega), Int.toNat_natCast, Int.toNat_natCast]
    obtain ⟨e, he⟩ := mapM_error (fun i => fillCol n ((int16s bytes (i * n * 2) n).map (fun x : Int => (x : F) * hd.scale.getD i 0))) (List.range (m + 1)) (by
      refine ⟨m, by simp, .value, ?_⟩
      rw [int16s_eq]
      have h2 : n * m = m * n := by ring
      have h3 : n * (m + 1) = m * n + n := by ring
      apply fillCol_error
      · simp only [List.length_map, List.length_range]
        intro h
        have := Nat.min_le_right n ((bytes.length - m * n * 2) / 2)
        have hn0 : 0 < n := by
          rcases Nat.eq_zero_or_pos n with rfl | h
          · omega
          · exact h
        omega
      · simp only [List.length_map, List.length_range]
        intro h
        have h4 : n = 1 ∨ (bytes.length - m * n * 2) / 2 = 1 := by
          rcases Nat.le_total n ((bytes.length - m * n * 2) / 2) with g | g
          · rw [Nat.min_eq_left g] at h
            exact .inl h
          · rw [Nat.min_eq_right g] at h
            exact .inr h
        rcases h4 with h4 | h4
        · subst h4
          have := Nat.min_le_right 1 ((bytes.length - m * 1 * 2) / 2)
          omega
        · omega)
    refine ⟨e, ?_⟩
    simp only [bind, Except.bind]
    rw [he]
  obtain ⟨e, he⟩ := this
  simp only [he]

example : read toyNum exBinary [] [1, 0, 2, 0, 4] = .error .wrongFormat ∧ read toyNum exBinary [] [] = .error .wrongFormat :=
  ⟨by decide +kernel, by decide +kernel⟩

/-- **C136** A text result file gives the numbers in the first columns of its lines, as many as there are channels;
with another number of lines than of scans it is refused. -/
theorem C136 [Field F] [DecidableEq F] (N : Num F) (sel text : Str) (bytes : Bytes) (hd : Head F) (n m : Nat) (h : readSel N sel = .ok hd)
    (hf : hd.format ≠ .binary) (hn : hd.nrSc = n) (hm : hd.nrCh = m) (hm0 : 0 < m) (rows : List (List F)) (hd' : DataText N m text rows) :
    (rows.length = n → read N sel text bytes = .ok ⟨rows, hd.names, hd.units, hd.descr, hd.format == .bhawc⟩) ∧
    (rows.length ≠ n → read N sel text bytes = .error .wrongFormat) := by
  rw [read_of N sel text bytes hd h, readAll_ascii N hd text bytes (by omega) hf, readAscii_ok N hd m hm hm0 text rows hd', hn]
  constructor
  · intro hr
    rw [if_pos (.inr (by exact_mod_cast hr.symm))]
  · intro hr
    rw [if_neg (by omega)]

/-- **C136** A line with fewer columns than channels, or with a text which is not a number in one of these
columns, is refused. -/
theorem C136_line [Field F] [DecidableEq F] (N : Num F) (sel text : Str) (bytes : Bytes) (hd : Head F) (m : Nat) (h : readSel N sel = .ok hd)
    (hf : hd.format ≠ .binary) (hm : hd.nrCh = m) (hm0 : 0 < m) (l : Str) (hl : l ∈ splitOn '\n' text) (hc : '#' ∉ l) (hne : words l ≠ [])
    (hbad : (words l).length < m ∨ ∃ w ∈ (words l).take m, N.flt w = none) :
    read N sel text bytes = .error .wrongFormat := by
  rw [read_of N sel text bytes hd h, readAll_ascii N hd text bytes (by omega) hf]
  have hn : noComment l = l := by
    unfold noComment
    clear hl hne hbad
    induction l with
    | nil => rfl
    | cons c l ih =>
      rw [List.takeWhile_cons, if_pos (by simp only [ne_eq, decide_eq_true_eq]; rintro rfl; simp at hc), ih (fun h => hc (by simp [h]))]
  obtain ⟨e, he⟩ := mapM_error (numRow N m) (((splitOn '\n' text).map noComment).filter (fun l => words l ≠ [])) (by
    refine ⟨l, ?_, ?_⟩
    · rw [List.mem_filter]
      exact ⟨List.mem_map.2 ⟨l, hl, hn⟩, by simpa using hne⟩
    · unfold numRow
      by_cases hs : (words l).length < m
      · exact ⟨.value, if_pos hs⟩
      · rw [if_neg hs]
        obtain ⟨w, hw, hw2⟩ := hbad.resolve_left hs
        exact mapM_error _ _ ⟨w, hw, .value, by unfold fltOf; rw [hw2]⟩)
  have : readAscii N hd text = .error e := by
    unfold readAscii
    simp only [hm, Int.toNat_natCast, he]
    rfl
  rw [this]

example : read toyNum (exSel "ASCII".toList []).text "5 1 7\n\n10 3\n".toList [] =
    .ok ⟨[[5, 1], [10, 3]], ["Time".toList, "WSP gl. coo.,Vy".toList], ["s".toList, "m/s".toList], ["Time of the scan".toList, "Free wind, gl. coo".toList], false⟩ ∧
    read toyNum (exSel "ASCII".toList []).text "5 1\n".toList [] = .error .wrongFormat ∧
    read toyNum (exSel "ASCII".toList []).text "5 1\n10 x\n".toList [] = .error .wrongFormat :=
  ⟨by decide +kernel, by decide +kernel, by decide +kernel⟩

/-- numbers with decimals, printed with three decimals -/
def decNum : Num ℚ where
  flt s := match splitOn '.' (strip s) with
    | [a] => if FastLine.strIsInt a then some (FastLine.pyInt a) else none
    | [a, b] => if FastLine.strIsInt (a ++ b) then some (FastLine.pyInt (a ++ b) / 10 ^ b.length) else none
    | _ => none
  int s := if FastLine.strIsInt s then some (FastLine.pyInt s) else none
  e8 x := ' ' :: Py.fixed 3 x
  f3 x := Py.fixed 3 x

/-- two channels in two scans -/
def exObj (name : Str) (time : ℚ) : Obj ℚ where
  data := [[1/2, 7], [time, 8]]
  names := ["Time".toList, name]
  units := ["s".toList, "[m/s]".toList]
  descr := ["Time".toList, "Free wind, gl. coo".toList]
  bhawc := false

/-- **C137** is violated: a name of more than thirty characters is cut by saving and reading. -/
theorem C137_fails : ∃ sel, selText decNum "a.dat".toList (exObj "Free wind speed Vdir_hor, gl. coo".toList 2) = .ok sel ∧
    (read decNum sel (datText decNum (exObj [] 2).data) []).map Obj.names = .ok ["Time".toList, "Free wind speed Vdir_hor, gl.".toList] :=
  ⟨_, rfl, by decide +kernel⟩

/-- **C137** A HAWC2 result that is saved and read gives the numbers as printed, the first thirty characters of the
names, the units without brackets and the descriptions, all without blanks at their ends.  Not included: units of more
than eleven characters. -/
theorem C137_partial [Field F] [DecidableEq F] (N : Num F) (base : Str) (o : Obj F) (m : Nat) (h : CanSave o m) (rd : F → F) (time time' : F)
    (hp : Prints N o rd time time') (ht : time' ≠ 0) (hb : o.bhawc = false) (hbase : '\n' ∉ base)
    (hu : ∀ u ∈ o.units, (noBrackets u).length ≤ 11) (bytes : Bytes) :
    ∃ sel, selText N base o = .ok sel ∧ read N sel (datText N o.data) bytes =
      .ok ⟨o.data.map (·.map rd), o.names.map (fun n => strip (n.take 30)), o.units.map (fun u => strip (noBrackets u)), o.descr.map strip, false⟩ := by
  refine ⟨_, selText_hawc N base o m h hb time time' hp.last, ?_⟩
  have hok := written_ok N base o m h rd time time' hp ht hbase hu
  have hr := C133 N _ hok (by show lower "ASCII".toList ≠ "binary".toList; decide)
  have hm : (written N base o m time time').chans.length = m := by simp [written]
  have := (C136 N _ (datText N o.data) bytes _ o.data.length m hr (by simp) rfl (by simp only [hm]) h.positive _ (datText_ok N o m h rd time time' hp)).1 (by simp)
  rw [this]
  simp only [written, List.map_map, Function.comp_def]
  rw [range_getD o.names m h.names [] (fun n => strip (n.take 30)), range_getD o.units m h.units [] (fun u => strip (noBrackets u)),
    range_getD o.descr m h.descr [] strip]
  rfl

theorem exObj_ok : CanSave (exObj "WSP gl. coo.,Vy".toList 2) 2 ∧ Prints decNum (exObj "WSP gl. coo.,Vy".toList 2) id 2 2 := by
  refine ⟨⟨by decide +kernel, by decide +kernel, rfl, rfl, rfl, by decide, by decide +kernel, by decide⟩, ⟨?_, ?_, ⟨[8], rfl⟩, ⟨?_, ?_⟩, by decide +kernel, by decide +kernel⟩⟩
  · intro n
    simp [decNum, FastLine.strIsInt_showInt, FastLine.pyInt_showInt]
  · intro r hr x hx
    have : ∀ r ∈ (exObj "WSP gl. coo.,Vy".toList 2).data, ∀ x ∈ r, words (decNum.e8 x) = [(decNum.e8 x).tail] ∧ decNum.flt (decNum.e8 x).tail = some x ∧
        '\n' ∉ decNum.e8 x ∧ '#' ∉ decNum.e8 x := by decide +kernel
    exact ⟨_, this r hr x hx⟩
  · decide +kernel
  · decide +kernel

example : ∃ sel, selText decNum "a.dat".toList (exObj "WSP gl. coo.,Vy".toList 2) = .ok sel ∧
    read decNum sel (datText decNum (exObj [] 2).data) [] = .ok { exObj "WSP gl. coo.,Vy".toList 2 with units := ["s".toList, "m/s".toList] } :=
  C137_partial decNum _ _ 2 exObj_ok.1 id 2 2 exObj_ok.2 (by decide) rfl (by decide) (by decide +kernel) []

/-- **C138** is violated: a result saved by the code cannot be read by it when its last time is printed as zero, as
one that ends after less than half a millisecond. -/
theorem C138_fails : ∃ sel, selText decNum "a.dat".toList (exObj "Vy".toList (1 / 4000)) = .ok sel ∧
    read decNum sel (datText decNum (exObj [] (1 / 4000)).data) [] = .error .wrongFormat :=
  ⟨_, rfl, by decide +kernel⟩

/-- **C138** In general: with a last time printed as zero the file which is written cannot be read. -/
theorem C138_zero [Field F] [DecidableEq F] (N : Num F) (base : Str) (o : Obj F) (m : Nat) (h : CanSave o m) (rd : F → F) (time : F)
    (hp : Prints N o rd time 0) (hb : o.bhawc = false) (hbase : '\n' ∉ base) (text : Str) (bytes : Bytes) :
    ∃ sel, selText N base o = .ok sel ∧ read N sel text bytes = .error .wrongFormat := by
  refine ⟨_, selText_hawc N base o m h hb time 0 hp.last, ?_⟩
  have hk := keepLines_unlines _ (written_nl N base o m h rd time 0 hp hbase)
  have he : readSel N (written N base o m time 0).text = .error .zeroDiv := by
    unfold readSel SelText.text
    rw [hk]
    have h0 : mentions "bhawc".toList (rule ++ ['\n']) = false := by decide +kernel
    have h8 : words ((written N base o m time 0).count ++ ['\n']) = [showInt o.data.length, showInt m, N.f3 time, "ASCII".toList] := by
      rw [words_nl]
      exact written_count N base o m h rd time 0 hp
    have hc : counts N [showInt o.data.length, showInt m, N.f3 time, "ASCII".toList] = .error .zeroDiv := by
      simp [counts, nth, intOf, fltOf, hp.int, hp.f3.2.2, bind, Except.bind]
    have e0 : nth ((written N base o m time 0).title :: ((written N base o m time 0).head ++ ((written N base o m time 0).count ::
      ((written N base o m time 0).mid ++ ((written N base o m time 0).lines ++ (written N base o m time 0).rest)))) |>.map (· ++ ['\n'])) 0 = .ok (rule ++ ['\n']) := rfl
    have e8 : nth ((written N base o m time 0).title :: ((written N base o m time 0).head ++ ((written N base o m time 0).count ::
      ((written N base o m time 0).mid ++ ((written N base o m time 0).lines ++ (written N base o m time 0).rest)))) |>.map (· ++ ['\n'])) 8 = .ok ((written N base o m time 0).count ++ ['\n']) := rfl
    simp only [bind, Except.bind, e0, h0, readHawc, e8, h8, hc]
    rfl
  unfold read load
  rw [he]
  rfl

example : CanSave (exObj "Vy".toList (1 / 4000)) 2 ∧ Prints decNum (exObj "Vy".toList (1 / 4000)) (fun x => (decNum.flt (decNum.e8 x).tail).getD 0) (1 / 4000) 0 := by
  refine ⟨⟨by decide +kernel, by decide +kernel, rfl, rfl, rfl, by decide, by decide +kernel, by decide⟩, ⟨?_, ?_, ⟨[8], rfl⟩, ⟨?_, ?_⟩, by decide +kernel, by decide +kernel⟩⟩
  · intro n
    simp [decNum, FastLine.strIsInt_showInt, FastLine.pyInt_showInt]
  · intro r hr x hx
    have : ∀ r ∈ (exObj "Vy".toList (1 / 4000)).data, ∀ x ∈ r, words (decNum.e8 x) = [(decNum.e8 x).tail] ∧
        decNum.flt (decNum.e8 x).tail = some ((decNum.flt (decNum.e8 x).tail).getD 0) ∧ '\n' ∉ decNum.e8 x ∧ '#' ∉ decNum.e8 x := by decide +kernel
    exact ⟨_, this r hr x hx⟩
  · decide +kernel
  · decide +kernel

end Verif.Hawc2Sel
