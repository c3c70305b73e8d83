import Verif.Lemmas.BladedRead
import Verif.Props.Bladed
import Verif.Lemmas.Hawc2Sel
import Verif.Lemmas.DeckRead
import Verif.Lemmas.TurbSimTS
import Verif.Lemmas.Bhawc
import Verif.Lemmas.FastFile
import Verif.Lemmas.Tecplot
import Mathlib.Data.List.TakeWhile
/-!
# Bladed sensor and data files

Properties C167 to C175.
-/
namespace Verif.BladedRead
open Verif.Py Verif.TurbSimTS

/-! #### example files -/

/-- numbers of the examples: digits -/
def exN : Num Nat where
  int w := if w ≠ [] ∧ w.all Char.isDigit then some (w.foldl (fun n c => 10 * n + (c.toNat - 48)) 0 : Nat) else none
  flt w := if w ≠ [] ∧ w.all Char.isDigit then some (w.foldl (fun n c => 10 * n + (c.toNat - 48)) 0) else none

/-- the bytes of the examples: `four` and `eight` give the sum of the bytes -/
def exD : Dec Nat := ⟨fun b => (b.map UInt8.toNat).sum, fun b => 1000 + (b.map UInt8.toNat).sum, 999, 0⟩

/-- the text of a number of the examples -/
def exNum (n : Nat) : Str := Nat.toDigits 10 n

/-- time of the examples -/
def exTime (k dt t0 : Nat) : Nat := k * dt + t0

/-- the lines of a sensor file of two dimensions -/
def exLines2 : List Str := ["FILE run.$04".toList, "ACCESS D".toList, "FORM U".toList, "RECL\t4".toList, "FORMAT\tR*4".toList, "CONTENT 'POWER'".toList,
  "NDIMENS 2".toList, "DIMENS\t2 3".toList, "GENLAB 'Generator variables'".toList, "VARIAB 'Shaft power' Torque".toList,
  "VARUNIT P FL/TT".toList, "AXISLAB 'Time'".toList, "AXIUNIT T".toList, "AXIMETH 2".toList, "MIN 10".toList, "STEP 5".toList]

/-- a sensor file of two dimensions -/
def exText2 : Str := HawcAe.unlines exLines2

/-- what it says -/
def exSensor2 : Sensor Nat := ⟨2, 2, 3, false, "Generator variables".toList, ["Shaft power".toList, "Torque".toList],
  [[.P], [.F, .L, .char '/' (by decide), .TT]], some 10, some 5, .nil⟩

/-- the lines of a sensor file of three dimensions -/
def exLines3 : List Str := ["FILE run.$05".toList, "FORMAT R*8".toList, "NDIMENS 3".toList, "DIMENS 1 2 2".toList, "GENLAB Tower".toList,
  "VARIAB\t'Mx'".toList, "VARUNIT FL".toList, "AXISLAB 'Distance'".toList, "AXIVAL 10 20".toList]

/-- a sensor file of three dimensions -/
def exText3 : Str := HawcAe.unlines exLines3

/-- what it says -/
def exSensor3 : Sensor Nat := ⟨3, 1, 2, true, "Tower".toList, ["Mx".toList], [[.F, .L]], none, none, .vals [10, 20]⟩

theorem exHas2 : HasLines exText2 exLines2 := ⟨by decide +kernel, .inl rfl⟩

theorem exHas3 : HasLines exText3 exLines3 := ⟨by decide +kernel, .inl rfl⟩

/-- `Once`, by looking at the lines -/
theorem exOnce (keys ls : List Str) (i : Nat) (k r : Str) (h : i < 31 ∧ k ∈ keys ∧ ls[i]? = some (k ++ r))
    (hl : (List.range ls.length).all (fun j => j == i || keys.all fun k' => !(k'.isPrefixOf (ls[j]?.getD []))) = true) : Once keys ls i k r := by
  refine ⟨h.1, h.2.1, h.2.2, fun j l k' _ hj hk hp => ?_⟩
  by_contra hne
  obtain ⟨hlt, _⟩ := List.getElem?_eq_some_iff.1 hj
  have := List.all_eq_true.1 hl j (List.mem_range.2 hlt)
  rw [Bool.or_eq_true] at this
  rcases this with e | e
  · exact hne (by simpa using e)
  · have := List.all_eq_true.1 e k' hk
    rw [hj, Option.getD_some, List.isPrefixOf_iff_prefix.2 hp] at this
    cases this

theorem exNever (keys ls : List Str) (hl : ls.all (fun l => keys.all fun k' => !(k'.isPrefixOf l)) = true) : Never keys ls := by
  intro j l k' _ hj hk hp
  have := List.all_eq_true.1 (List.all_eq_true.1 hl l (List.mem_of_getElem? hj)) k' hk
  rw [List.isPrefixOf_iff_prefix.2 hp] at this
  cases this

theorem exBlank : Blank [' '] := by intro c hc; simp at hc; simp [hc]

theorem exBlankTab : Blank ['\t'] := by intro c hc; simp at hc; simp [hc]

theorem exListed1 (b t w : Str) (hb : Blank b) (h : Spelled t w) : Listed (b ++ t ++ []) [w] :=
  .cons b t w [] [] hb h (.nil [] (by intro c hc; cases hc)) (.inl rfl)

theorem exListed2 (t w t' w' : Str) (h : Spelled t w) (h' : Spelled t' w') : Listed ([' '] ++ t ++ ([' '] ++ t' ++ [])) [w, w'] :=
  .cons [' '] t w _ [w'] exBlank h (exListed1 _ t' w' exBlank h') (.inr ⟨' ', t' ++ [], by simp, exBlank⟩)

theorem exDescribes2 : Describes exN exLines2 exSensor2 where
  ndim := .inl rfl
  dims := ⟨6, " 2".toList, 7, "\t2 3".toList, exOnce _ _ _ _ _ (by decide +kernel) (by decide +kernel), exOnce _ _ _ _ _ (by decide +kernel) (by decide +kernel),
    by decide, ⟨"2".toList, by decide +kernel, by decide +kernel⟩, ⟨"2".toList, by decide +kernel, by decide +kernel⟩,
    ⟨"3".toList, by decide +kernel, by decide +kernel⟩⟩
  format := ⟨4, "\tR*4".toList, "R*".toList, '4', exOnce _ _ _ _ _ (by decide +kernel) (by decide +kernel),
    ⟨⟨'\t', "R*4".toList, rfl, rfl⟩, by decide +kernel, by decide +kernel⟩, by decide⟩
  category := ⟨8, " 'Generator variables'".toList, ['\''], exOnce _ _ _ _ _ (by decide +kernel) (by decide +kernel),
    ⟨⟨' ', "'Generator variables'".toList, rfl, rfl⟩, by decide +kernel, by decide +kernel⟩, .inr rfl, by decide +kernel⟩
  names := ⟨9, " 'Shaft power' Torque".toList, exOnce _ _ _ _ _ (by decide +kernel) (by decide +kernel),
    .inl ⟨exListed2 "'Shaft power'".toList _ "Torque".toList _ (.single "Shaft power".toList (by decide)) (.bare _ (by decide) (by decide +kernel)),
      fun n hn => by obtain rfl := Option.some.inj hn; decide +kernel⟩, by decide +kernel⟩
  units := ⟨10, " P FL/TT".toList, exOnce _ _ _ _ _ (by decide +kernel) (by decide +kernel),
    .inl ⟨exListed2 "P".toList _ "FL/TT".toList _ (.bare _ (by decide) (by decide +kernel)) (.bare _ (by decide) (by decide +kernel)),
      fun n hn => by obtain rfl := Option.some.inj hn; decide +kernel⟩, by
      intro u hu
      simp only [exSensor2, List.mem_cons, List.not_mem_nil, or_false] at hu
      rcases hu with rfl | rfl
      · exact ⟨trivial, by decide +kernel⟩
      · exact ⟨by simp [Apart, Part.isTime], by decide +kernel⟩⟩
  start := .inr ⟨14, "MIN ".toList, "10".toList, "10".toList, 10, exOnce _ _ _ _ _ (by decide +kernel) (by decide +kernel), by decide +kernel,
    by decide +kernel, by decide +kernel, rfl⟩
  step := .inr ⟨15, " 5".toList, "5".toList, 5, exOnce _ _ _ _ _ (by decide +kernel) (by decide +kernel),
    ⟨⟨' ', "5".toList, rfl, rfl⟩, by decide +kernel, by decide +kernel⟩, by decide +kernel, rfl⟩
  secs := fun h => absurd h (by decide)
  axis := fun _ j r hj h => by
    exact absurd (List.prefix_append _ _) (exNever ["AXIVAL".toList] exLines2 (by decide +kernel) j _ "AXIVAL".toList hj h (by simp))
  count := rfl

theorem exDescribes3 : Describes exN exLines3 exSensor3 where
  ndim := .inr rfl
  dims := ⟨2, " 3".toList, 3, " 1 2 2".toList, exOnce _ _ _ _ _ (by decide +kernel) (by decide +kernel), exOnce _ _ _ _ _ (by decide +kernel) (by decide +kernel),
    by decide, ⟨"3".toList, by decide +kernel, by decide +kernel⟩, ⟨"1".toList, by decide +kernel, by decide +kernel⟩,
    ⟨"2".toList, by decide +kernel, by decide +kernel⟩⟩
  format := ⟨1, " R*8".toList, "R*".toList, '8', exOnce _ _ _ _ _ (by decide +kernel) (by decide +kernel),
    ⟨⟨' ', "R*8".toList, rfl, rfl⟩, by decide +kernel, by decide +kernel⟩, by decide⟩
  category := ⟨4, " Tower".toList, [], exOnce _ _ _ _ _ (by decide +kernel) (by decide +kernel),
    ⟨⟨' ', "Tower".toList, rfl, rfl⟩, by decide +kernel, by decide +kernel⟩, .inl rfl, by decide +kernel⟩
  names := ⟨5, "\t'Mx'".toList, exOnce _ _ _ _ _ (by decide +kernel) (by decide +kernel),
    .inl ⟨exListed1 ['\t'] "'Mx'".toList _ exBlankTab (.single "Mx".toList (by decide)), fun n hn => by obtain rfl := Option.some.inj hn; decide +kernel⟩,
    by decide +kernel⟩
  units := ⟨6, " FL".toList, exOnce _ _ _ _ _ (by decide +kernel) (by decide +kernel),
    .inl ⟨exListed1 [' '] "FL".toList _ exBlank (.bare _ (by decide) (by decide +kernel)), fun n hn => by obtain rfl := Option.some.inj hn; decide +kernel⟩, by
      intro u hu
      simp only [exSensor3, List.mem_cons, List.not_mem_nil, or_false] at hu
      subst hu
      exact ⟨by simp [Apart, Part.isTime], by decide +kernel⟩⟩
  start := .inl ⟨rfl, exNever _ _ (by decide +kernel)⟩
  step := .inl ⟨rfl, exNever _ _ (by decide +kernel)⟩
  secs := fun _ => ⟨8, "AXIVAL".toList, " 10 20".toList, exOnce _ _ _ _ _ (by decide +kernel) (by decide +kernel),
    .inl ⟨rfl, ⟨' ', "10 20".toList, rfl, rfl⟩, [10, 20], by decide +kernel, rfl⟩⟩
  axis := fun h => absurd h (by decide)
  count := rfl

/-! #### the sensor file -/

/-- **C167**: the entries of a sensor file are what its lines say: the dimensions, the number of channels and steps, the precision, the category, the
names (quoted or not, possibly continued on the next line), the units turned into SI, start and step, and the sections of a file of three dimensions. -/
theorem C167_bladed_sensor {F : Type} (N : Num F) (s : Str) (ls : List Str) (hs : HasLines s ls) (x : Sensor F) (h : Describes N ls x) :
    ∃ d, readSensor N s = .ok d ∧ d.ndim = some (x.ndim : Int) ∧ d.nSensors = some (x.nSensors : Int) ∧ d.nMajor = some (x.nMajor : Int) ∧
      d.double = some x.double ∧ d.category = some x.category ∧ d.names = some x.names ∧
      d.units = some (x.units.map (·.flatMap Part.si)) ∧ d.start = x.start ∧ d.step = x.step ∧ d.nSections.isSome = true ∧
      (x.ndim = 3 → d.secs = some x.secs ∧ d.nSections = some x.secs.length) := readSensor_ok N s ls hs x h

example : ∃ d, readSensor exN exText2 = .ok d ∧ d.names = some ["Shaft power".toList, "Torque".toList] ∧
    d.units = some ["W".toList, "Nm/s^2".toList] ∧ d.nMajor = some 3 ∧ d.start = some 10 ∧ d.step = some 5 := by
  obtain ⟨d, h1, _, _, h4, _, _, h7, h8, h9, h10, _⟩ := C167_bladed_sensor exN exText2 exLines2 exHas2 exSensor2 exDescribes2
  exact ⟨d, h1, h7, h8, h4, h9, h10⟩

example : ∃ d, readSensor exN exText3 = .ok d ∧ d.double = some true ∧ d.secs = some (.vals [10, 20]) ∧ d.nSections = some 2 ∧ d.step = none := by
  obtain ⟨d, h1, _, _, _, h5, _, _, _, _, h10, _, h12⟩ := C167_bladed_sensor exN exText3 exLines3 exHas3 exSensor3 exDescribes3
  exact ⟨d, h1, h5, (h12 rfl).1, (h12 rfl).2, h10⟩

/-- **C168**: a sensor file that is read has, among its first 31 lines, a line of names, and a line with the number of dimensions before one with the
sizes; and there are as many names as channels. -/
theorem C168_bladed_refuse {F : Type} (N : Num F) (s : Str) (ls : List Str) (hs : HasLines s ls) (d : Dat F) (h : readSensor N s = .ok d) :
    (∃ i l, i < 31 ∧ ls[i]? = some l ∧ "VARIAB".toList <+: l) ∧
    (∃ i j l l', i < j ∧ j < 31 ∧ ls[i]? = some l ∧ "NDIMENS".toList <+: l ∧ ls[j]? = some l' ∧ "DIMENS".toList <+: l') ∧
    ∃ names, d.names = some names ∧ d.nSensors = some (names.length : Int) := by
  obtain ⟨ht, names, ns, nm, nsec, h1, h2, _, _, h5⟩ := readSensor_inv N s d h
  obtain ⟨_, k2, k3⟩ := turns_keys N _ 31 d ht
  have at' : ∀ (K : Key) (j : Nat), K.texts = [K.text] → At (Hawc2Sel.keepLines s) K j → ∃ l, ls[j]? = some l ∧ K.text <+: l := by
    rintro K j hK ⟨k, hk, hp⟩
    obtain ⟨l, x, hl, hx, hxl⟩ := kept_key hs K hk hp
    rw [hK, List.mem_singleton] at hx
    exact ⟨l, hl, hx ▸ hxl⟩
  refine ⟨?_, ?_, names, h1, by rw [h2, h5]⟩
  · obtain ⟨i, hi, ha⟩ := k3 (by rw [h1]; simp)
    obtain ⟨l, hl, hp⟩ := at' .var i rfl ha
    exact ⟨i, l, hi, hl, hp⟩
  · obtain ⟨i, j, hij, hj, ha, hb⟩ := k2 (by rw [h2]; simp)
    obtain ⟨l, hl, hp⟩ := at' .ndim i rfl ha
    obtain ⟨l', hl', hp'⟩ := at' .dim j rfl hb
    exact ⟨i, j, l, l', hij, hj, hl, hp, hl', hp'⟩

/-- the two files above are read; with one more name, without names, or with the sizes first they are not -/
example : (readSensor exN exText2).toOption.isSome = true ∧
    readSensor exN "NDIMENS 2\nDIMENS 1 3\nVARIAB a b\nVARUNIT L L\nAXISLAB T\n".toList = .error .broken ∧
    readSensor exN "NDIMENS 2\nDIMENS 1 3\nVARUNIT L\nAXISLAB T\n".toList = .error .broken ∧
    readSensor exN "DIMENS 1 3\nNDIMENS 2\nVARIAB a\nVARUNIT L\nAXISLAB T\n".toList = .error .key := by decide +kernel

/-! #### the data file -/

/-- **C169**: a binary data file of the right size gives number `t*nSensors + c` of the file for channel `c` at step `t`, in three dimensions number
`(t*nSections + s)*nSensors + c` for section `s`; a file of another size is refused. -/
theorem C169_bladed_binary {F : Type} (N : Num F) (num : F → Str) (D : Dec F) (s : Str) (ls : List Str) (hs : HasLines s ls) (x : Sensor F)
    (h : Describes N ls x) (b : List UInt8) :
    (x.ndim = 2 → b.length = x.nMajor * x.nSensors * width x.double →
      ∃ o rows, readOutput N num D false s (.binary b) = .ok (some o) ∧ o.data = .mat rows ∧ rows.length = x.nMajor ∧ o.names = x.names ∧
        o.units = some (x.units.map (·.flatMap Part.si)) ∧ ∀ t c, t < x.nMajor → c < x.nSensors →
        (rows[t]?.bind fun r => r[c]?) = some (sample D x.double b (t * x.nSensors + c))) ∧
    (x.ndim = 3 → x.units.length = x.names.length → b.length = x.nMajor * x.secs.length * x.nSensors * width x.double →
      ∃ o rows, readOutput N num D false s (.binary b) = .ok (some o) ∧ o.data = .mat rows ∧ rows.length = x.nMajor ∧
        ∀ t k c, t < x.nMajor → k < x.secs.length → c < x.nSensors →
        (rows[t]?.bind fun r => r[k * x.nSensors + c]?) = some (sample D x.double b ((t * x.secs.length + k) * x.nSensors + c))) ∧
    (x.ndim = 2 → b.length / width x.double ≠ x.nMajor * x.nSensors → readOutput N num D false s (.binary b) = .error .value) ∧
    (x.ndim = 3 → b.length / width x.double ≠ x.nMajor * x.secs.length * x.nSensors → readOutput N num D false s (.binary b) = .error .value) := by
  obtain ⟨d, nsec, _, _, _, h7, _, _, _, hsec, hro⟩ := readOutput_of N num D false s ls hs x h (.binary b)
  rw [if_neg (by simp)] at hro
  refine ⟨fun e hb => ?_, fun e hu hb => ?_, fun e hb => ?_, fun e hb => ?_⟩
  · rw [hro]
    simp only [readData, fromfile_get D _ b _ hb, e, reshape2_of]
    refine ⟨_, _, rfl, rfl, by simp, rfl, h7, fun t c ht hc => ?_⟩
    simp [ht, hc]
  · obtain ⟨hs1, rfl⟩ := hsec e
    rw [hro]
    simp only [readData, fromfile_get D _ b _ hb, e, reshape3_of]
    simp only [Nat.cast_ofNat, if_true, Except.map, Except.bind, orgData, h7, hs1, Option.getD_some]
    rw [if_neg (by simp)]
    refine ⟨_, _, rfl, rfl, by simp [Bladed.orgData], fun t k c ht hk hc => ?_⟩
    simp only [Bladed.orgData, List.getElem?_map, List.getElem?_range ht, Option.map_some, Option.bind_some, secs_list_length]
    rw [orgRow_of D.zero x.secs.length x.nSensors x.names _ h.count (by simp [hu, h.count])
      fun s c => sample D x.double b ((t * x.secs.length + s) * x.nSensors + c)]
    have hlt : k * x.nSensors + c < x.secs.length * x.nSensors := by
      have := Nat.mul_le_mul_right x.nSensors (show k + 1 ≤ x.secs.length from hk)
      rw [Nat.add_mul, Nat.one_mul] at this
      omega
    have hd : (k * x.nSensors + c) / x.nSensors = k := by
      rw [Nat.add_comm, Nat.add_mul_div_right _ _ (by omega), Nat.div_eq_of_lt hc, Nat.zero_add]
    have hm : (k * x.nSensors + c) % x.nSensors = c := by rw [Nat.add_comm, Nat.add_mul_mod_self_right, Nat.mod_eq_of_lt hc]
    rw [List.getElem?_map, List.getElem?_range hlt, Option.map_some, hd, hm]
  · rw [hro]
    simp only [readData, e, reshape2, fromfile_length, if_neg hb]
    rfl
  · obtain ⟨hs1, rfl⟩ := hsec e
    rw [hro]
    simp only [readData, e, reshape3, Bladed.reshape3, fromfile_length, if_neg hb]
    rfl

/-- a file of two channels and three steps, and one of one channel, two sections and two steps -/
example : (∃ o rows, readOutput exN exNum exD false exText2 (.binary ((List.range 24).map UInt8.ofNat)) = .ok (some o) ∧ o.data = .mat rows ∧
      rows.length = 3 ∧ (rows[2]?.bind fun r => r[1]?) = some 86) ∧
    readOutput exN exNum exD false exText2 (.binary ((List.range 23).map UInt8.ofNat)) = .error .value ∧
    ∃ o rows, readOutput exN exNum exD false exText3 (.binary ((List.range 32).map UInt8.ofNat)) = .ok (some o) ∧ o.data = .mat rows ∧
      rows.length = 2 ∧ (rows[1]?.bind fun r => r[0]?) = some 1156 := by
  have h2 := C169_bladed_binary exN exNum exD exText2 exLines2 exHas2 exSensor2 exDescribes2
  have h3 := C169_bladed_binary exN exNum exD exText3 exLines3 exHas3 exSensor3 exDescribes3
  refine ⟨?_, (h2 _).2.2.1 rfl (by decide +kernel), ?_⟩
  · obtain ⟨o, rows, a, b, c, _, _, e⟩ := (h2 ((List.range 24).map UInt8.ofNat)).1 rfl (by decide +kernel)
    exact ⟨o, rows, a, b, c, (e 2 1 (by decide) (by decide)).trans (by decide +kernel)⟩
  · obtain ⟨o, rows, a, b, c, e⟩ := (h3 ((List.range 32).map UInt8.ofNat)).2.1 rfl rfl (by decide +kernel)
    exact ⟨o, rows, a, b, c, (e 1 0 0 (by decide) (by decide) (by decide)).trans (by decide +kernel)⟩

/-- **C170**: reading one binary result: the table has the time `k*step + start` and one column for each channel (at each section), in order, with the label
`name [unit]` and the numbers of the file; without a step there is no time column, and a step without start is refused. -/
theorem C170_bladed_table {F : Type} (N : Num F) (num : F → Str) (D : Dec F) (time : Nat → F → F → F) (pj : Bool) (s : Str) (ls : List Str)
    (hs : HasLines s ls) (x : Sensor F) (h : Describes N ls x) (h0 : 0 < x.nMajor) (hu : x.units.length = x.names.length) (b : List UInt8) :
    (x.ndim = 2 → b.length = x.nMajor * x.nSensors * width x.double →
      Gives N num D time pj ⟨s, .binary b⟩ x (labels2 x) ((List.range x.nSensors).map (column2 D x b))) ∧
    (x.ndim = 3 → b.length = x.nMajor * x.secs.length * x.nSensors * width x.double →
      Gives N num D time pj ⟨s, .binary b⟩ x (labels3 x (x.secs.list.map (secLabel N num)))
        ((List.range x.secs.length).flatMap fun k => (List.range x.nSensors).map (column3 D x b k))) := by
  refine ⟨fun e hb => ?_, fun e hb => ?_⟩
  · have hc := mat_cols D.zero x.nMajor x.nSensors h0 fun t c => sample D x.double b (t * x.nSensors + c)
    have := gives2 N num D time pj s ls hs x h e h0 hu (.binary b) (.mat ((List.range x.nMajor).map fun t => (List.range x.nSensors).map fun c =>
      sample D x.double b (t * x.nSensors + c))) (by
        intro nsec
        simp only [readData, fromfile_get D _ b _ hb, e, reshape2_of]
        rfl) (by simp [Arr.len]) (by rw [hc]) (by rw [hc]; simp)
    rw [hc] at this
    exact this
  · exact gives3 N num D time pj s ls hs x h e h0 hu (.binary b) (fun t k c => sample D x.double b ((t * x.secs.length + k) * x.nSensors + c)) (by
      simp only [readData, fromfile_get D _ b _ hb, e, reshape3_of]
      rfl)

example : (∃ d, readFiles exN exNum exD exTime false [⟨exText2, .binary ((List.range 24).map UInt8.ofNat)⟩] = .ok [(3, d)] ∧
      d.name = "Generator variables".toList ∧ frame d = .ok [("Time [s]".toList, [10, 15, 20]), ("Shaft power [W]".toList, [6, 38, 70]),
        ("Torque [Nm/s^2]".toList, [22, 54, 86])]) ∧
    ∃ d, readFiles exN exNum exD exTime false [⟨exText3, .binary ((List.range 32).map UInt8.ofNat)⟩] = .ok [(2, d)] ∧
      d.name = "Tower".toList ∧ frame d = .ok [("10m-Mx [Nm]".toList, [1028, 1156]), ("20m-Mx [Nm]".toList, [1092, 1220])] := by
  have h2 := (C170_bladed_table exN exNum exD exTime false exText2 exLines2 exHas2 exSensor2 exDescribes2 (by decide) rfl
    ((List.range 24).map UInt8.ofNat)).1 rfl (by decide +kernel)
  have h3 := (C170_bladed_table exN exNum exD exTime false exText3 exLines3 exHas3 exSensor3 exDescribes3 (by decide) rfl
    ((List.range 32).map UInt8.ofNat)).2 rfl (by decide +kernel)
  obtain ⟨d, a1, a2, a3⟩ := h2.1 5 10 rfl rfl (by decide +kernel)
  obtain ⟨e, b1, b2, b3⟩ := h3.2.1 rfl (by decide +kernel)
  exact ⟨⟨d, a1, a2, a3.trans (by decide +kernel)⟩, e, b1, b2, b3.trans (by decide +kernel)⟩

/-! #### what goes wrong -/

/-- C171 fails: numbers of a format for whole numbers are decoded as four-byte floats: the two files are read alike -/
theorem C171_fails : (readSensor exN "FORMAT I*4\nNDIMENS 2\nDIMENS 1 3\nVARIAB a\n".toList).toOption.map (·.double) = some (some false) ∧
    readSensor exN "FORMAT I*4\nNDIMENS 2\nDIMENS 1 3\nVARIAB a\n".toList = readSensor exN "FORMAT R*4\nNDIMENS 2\nDIMENS 1 3\nVARIAB a\n".toList := by
  decide +kernel

/-- **C171** for real numbers: with a format `R*4` or `R*8` every number of the data file is decoded from its own four resp. eight bytes.  (Missing for the
full property: whole numbers, see `C171_fails`.) -/
theorem C171_partial {F : Type} (N : Num F) (num : F → Str) (D : Dec F) (s : Str) (ls : List Str) (hs : HasLines s ls) (x : Sensor F)
    (h : Describes N ls x) (w : Str) (i : Nat) (r : Str) (hf : Once ["FORMAT".toList] ls i "FORMAT".toList r) (hw : Says r w) (b : List UInt8)
    (h2 : x.ndim = 2) :
    (w = "R*4".toList → b.length = x.nMajor * x.nSensors * 4 → ∃ o rows, readOutput N num D false s (.binary b) = .ok (some o) ∧ o.data = .mat rows ∧
      ∀ t c, t < x.nMajor → c < x.nSensors → (rows[t]?.bind fun r => r[c]?) = some (D.four ((b.drop ((t * x.nSensors + c) * 4)).take 4))) ∧
    (w = "R*8".toList → b.length = x.nMajor * x.nSensors * 8 → ∃ o rows, readOutput N num D false s (.binary b) = .ok (some o) ∧ o.data = .mat rows ∧
      ∀ t c, t < x.nMajor → c < x.nSensors → (rows[t]?.bind fun r => r[c]?) = some (D.eight ((b.drop ((t * x.nSensors + c) * 8)).take 8))) := by
  obtain ⟨i', r', f, c, hf', hw', hd⟩ := h.format
  obtain ⟨hi, hk, hl, ho⟩ := hf
  obtain rfl : i = i' := (ho i' _ "FORMAT".toList hf'.1 hf'.2.2.1 (by simp) (List.prefix_append _ _)).symm
  obtain rfl : r = r' := List.append_cancel_left (Option.some.inj (hl.symm.trans hf'.2.2.1))
  have hwf : w = f ++ [c] := hw.2.1.symm.trans hw'.2.1
  have hg : w.getLast? = some c := by rw [hwf]; simp
  refine ⟨fun e hb => ?_, fun e hb => ?_⟩
  · have hx : x.double = false := by
      rw [e] at hg
      have : c = '4' := (Option.some.inj hg).symm
      cases hdd : x.double
      · rfl
      · rw [hd.1 hdd] at this; cases this
    obtain ⟨o, rows, h1, h2, _, _, _, h5⟩ := (C169_bladed_binary N num D s ls hs x h b).1 h2 (by rw [hx]; exact hb)
    exact ⟨o, rows, h1, h2, fun t c ht hc => by rw [h5 t c ht hc, hx]; rfl⟩
  · have hx : x.double = true := by
      rw [e] at hg
      exact hd.2 (Option.some.inj hg).symm
    obtain ⟨o, rows, h1, h2, _, _, _, h5⟩ := (C169_bladed_binary N num D s ls hs x h b).1 h2 (by rw [hx]; exact hb)
    exact ⟨o, rows, h1, h2, fun t c ht hc => by rw [h5 t c ht hc, hx]; rfl⟩

example : ∃ o rows, readOutput exN exNum exD false exText2 (.binary ((List.range 24).map UInt8.ofNat)) = .ok (some o) ∧ o.data = .mat rows ∧
    (rows[1]?.bind fun r => r[0]?) = some 38 := by
  obtain ⟨o, rows, h1, h2, h3⟩ := (C171_partial exN exNum exD exText2 exLines2 exHas2 exSensor2 exDescribes2 "R*4".toList 4 "\tR*4".toList
    (exOnce _ _ _ _ _ (by decide +kernel) (by decide +kernel)) ⟨⟨'\t', "R*4".toList, rfl, rfl⟩, by decide +kernel, by decide +kernel⟩
    ((List.range 24).map UInt8.ofNat) rfl).1 rfl (by decide +kernel)
  exact ⟨o, rows, h1, h2, (h3 1 0 (by decide) (by decide)).trans (by decide +kernel)⟩

/-- C172 fails: a text file of three dimensions that lacks a row, or that cannot be read, gives `nan` everywhere, without an error -/
theorem C172_fails : (readOutput exN exNum exD false exText3 (.text (some [[1], [2], [3]]))).toOption.bind (·.map (·.data)) =
      some (.mat [[999, 999], [999, 999]]) ∧
    (readOutput exN exNum exD false exText3 (.text none)).toOption.bind (·.map (·.data)) = some (.mat [[999, 999], [999, 999]]) := by
  decide +kernel

/-- **C172** for text files with the right count of numbers: the table of a text file of three dimensions has number `(t*nSections + s)*nSensors + c`
of the file at step `t` for channel `c` at section `s`.  (Missing for the full property: other files are not refused, see `C172_fails`.) -/
theorem C172_partial {F : Type} (N : Num F) (num : F → Str) (D : Dec F) (time : Nat → F → F → F) (pj : Bool) (s : Str) (ls : List Str)
    (hs : HasLines s ls) (x : Sensor F) (h : Describes N ls x) (h0 : 0 < x.nMajor) (hu : x.units.length = x.names.length) (h3 : x.ndim = 3)
    (rows : List (List F)) (hr : rows.flatten.length = x.nMajor * x.secs.length * x.nSensors) :
    Gives N num D time pj ⟨s, .text (some rows)⟩ x (labels3 x (x.secs.list.map (secLabel N num)))
      ((List.range x.secs.length).flatMap fun k => (List.range x.nSensors).map fun c => (List.range x.nMajor).map fun t =>
        (rows.flatten[(t * x.secs.length + k) * x.nSensors + c]?).getD D.nan) := by
  have hfl : rows.flatten = (List.range (x.nMajor * x.secs.length * x.nSensors)).map fun i => (rows.flatten[i]?).getD D.nan := by
    rw [← hr]
    apply List.ext_getElem?
    intro i
    by_cases hi : i < rows.flatten.length
    · rw [List.getElem?_map, List.getElem?_range hi, Option.map_some, List.getElem?_eq_getElem hi]; rfl
    · rw [List.getElem?_eq_none (by omega), List.getElem?_eq_none (by simp only [List.length_map, List.length_range]; omega)]
  refine gives3 N num D time pj s ls hs x h h3 h0 hu (.text (some rows)) (fun t k c => (rows.flatten[(t * x.secs.length + k) * x.nSensors + c]?).getD D.nan) ?_
  have := reshape3_of (fun i => (rows.flatten[i]?).getD D.nan) x.nMajor x.secs.length x.nSensors
  rw [← hfl] at this
  simp only [readData, h3, Option.map_some, this]
  rfl

example : ∃ d, readFiles exN exNum exD exTime false [⟨exText3, .text (some [[1], [2], [3], [4]])⟩] = .ok [(2, d)] ∧
    frame d = .ok [("10m-Mx [Nm]".toList, [1, 3]), ("20m-Mx [Nm]".toList, [2, 4])] := by
  obtain ⟨d, a1, _, a3⟩ := (C172_partial exN exNum exD exTime false exText3 exLines3 exHas3 exSensor3 exDescribes3 (by decide) rfl rfl
    [[1], [2], [3], [4]] rfl).2.1 rfl (by decide +kernel)
  exact ⟨d, a1, a3.trans (by decide +kernel)⟩

/-- one more result for the examples: its units go on in the line behind them -/
def exText4 : Str := "FORMAT R*4\nNDIMENS 2\nDIMENS 1 3\nGENLAB 'Pitch'\nVARIAB 'Pitch angle'\nVARUNIT A\nAXIUNIT T\nAXISLAB 'Time'\nMIN 10\nSTEP 5\n".toList

/-- C173 fails: a sensor file whose line of units is followed by another line than `AXISLAB` has the words of that line as further units.  When its
columns are put together with those of the next file, the units of that one are those of others: the power is said to be in `AXIUNIT`-words. -/
theorem C173_fails : (readFiles exN exNum exD exTime true [⟨exText4, .binary ((List.range 12).map UInt8.ofNat)⟩,
      ⟨exText2, .binary ((List.range 24).map UInt8.ofNat)⟩]).toOption.map (fun l => l.map fun nd => (nd.2.sensors, nd.2.units, nd.2.cols.length)) =
    some [(["Time".toList, "Pitch angle".toList, "Shaft power".toList, "Torque".toList],
      ["s".toList, "rad".toList, "radXIUNIs".toList, "s".toList, "W".toList, "Nm/s^2".toList], 4)] := by decide +kernel

/-- **C173** when each file has as many units as channels: the results of one length are put together in one table, the time of the first one and then
the channels of every file with their own units and values, in order.  (Missing for the full property: other counts of units, see `C173_fails`.) -/
theorem C173_partial {F : Type} (N : Num F) (num : F → Str) (D : Dec F) (time : Nat → F → F → F) (pj : Bool) (n : Nat) (h0 : 0 < n) (r r' : Result F)
    (rs : List (Result F)) (h : ∀ x ∈ r :: r' :: rs, x.Good N n) (dt t0 : F) (hdt : r.sensor.step = some dt) (ht : r.sensor.start = some t0)
    (hnd : (columnLabel "Time".toList ['s'] :: (r :: r' :: rs).flatMap (fun x => labels2 x.sensor)).Nodup) :
    ∃ d, readFiles N num D time pj ((r :: r' :: rs).map Result.files) = .ok [((n : Int), d)] ∧ d.name = "Misc_".toList ++ FastLine.showInt (n : Int) ∧
      frame d = .ok ((columnLabel "Time".toList ['s'], (List.range n).map fun k => time k dt t0) :: (r :: r' :: rs).flatMap (Result.table D)) :=
  merge_ok N num D time pj n h0 r r' rs h dt t0 hdt ht hnd

/-- the lines of another file of three steps -/
def exLines5 : List Str := ["FORMAT R*8".toList, "NDIMENS 2".toList, "DIMENS 1 3".toList, "GENLAB Pitch".toList, "VARIAB \"Pitch angle\"".toList,
  "VARUNIT A".toList, "AXISLAB 'Time'".toList, "MIN\t0".toList, "STEP 5".toList]

/-- what they say -/
def exSensor5 : Sensor Nat := ⟨2, 1, 3, true, "Pitch".toList, ["Pitch angle".toList], [[.A]], some 0, some 5, .nil⟩

theorem exDescribes5 : Describes exN exLines5 exSensor5 where
  ndim := .inl rfl
  dims := ⟨1, " 2".toList, 2, " 1 3".toList, exOnce _ _ _ _ _ (by decide +kernel) (by decide +kernel), exOnce _ _ _ _ _ (by decide +kernel) (by decide +kernel),
    by decide, ⟨"2".toList, by decide +kernel, by decide +kernel⟩, ⟨"1".toList, by decide +kernel, by decide +kernel⟩,
    ⟨"3".toList, by decide +kernel, by decide +kernel⟩⟩
  format := ⟨0, " R*8".toList, "R*".toList, '8', exOnce _ _ _ _ _ (by decide +kernel) (by decide +kernel),
    ⟨⟨' ', "R*8".toList, rfl, rfl⟩, by decide +kernel, by decide +kernel⟩, by decide⟩
  category := ⟨3, " Pitch".toList, [], exOnce _ _ _ _ _ (by decide +kernel) (by decide +kernel),
    ⟨⟨' ', "Pitch".toList, rfl, rfl⟩, by decide +kernel, by decide +kernel⟩, .inl rfl, by decide +kernel⟩
  names := ⟨4, " \"Pitch angle\"".toList, exOnce _ _ _ _ _ (by decide +kernel) (by decide +kernel),
    .inl ⟨exListed1 [' '] "\"Pitch angle\"".toList _ exBlank (.double "Pitch angle".toList (by decide) (by decide)),
      fun n hn => by obtain rfl := Option.some.inj hn; decide +kernel⟩, by decide +kernel⟩
  units := ⟨5, " A".toList, exOnce _ _ _ _ _ (by decide +kernel) (by decide +kernel),
    .inl ⟨exListed1 [' '] "A".toList _ exBlank (.bare _ (by decide) (by decide +kernel)), fun n hn => by obtain rfl := Option.some.inj hn; decide +kernel⟩, by
      intro u hu
      simp only [exSensor5, List.mem_cons, List.not_mem_nil, or_false] at hu
      subst hu
      exact ⟨trivial, by decide +kernel⟩⟩
  start := .inr ⟨7, "MIN\t".toList, "0".toList, "0".toList, 0, exOnce _ _ _ _ _ (by decide +kernel) (by decide +kernel), by decide +kernel,
    by decide +kernel, by decide +kernel, rfl⟩
  step := .inr ⟨8, " 5".toList, "5".toList, 5, exOnce _ _ _ _ _ (by decide +kernel) (by decide +kernel),
    ⟨⟨' ', "5".toList, rfl, rfl⟩, by decide +kernel, by decide +kernel⟩, by decide +kernel, rfl⟩
  secs := fun h => absurd h (by decide)
  axis := fun _ j r hj h => absurd (List.prefix_append _ _) (exNever ["AXIVAL".toList] exLines5 (by decide +kernel) j _ "AXIVAL".toList hj h (by simp))
  count := rfl

example : ∃ d, readFiles exN exNum exD exTime true [⟨exText2, .binary ((List.range 24).map UInt8.ofNat)⟩,
      ⟨HawcAe.unlines exLines5, .binary ((List.range 24).map UInt8.ofNat)⟩] = .ok [(3, d)] ∧ d.name = "Misc_3".toList ∧
    frame d = .ok [("Time [s]".toList, [10, 15, 20]), ("Shaft power [W]".toList, [6, 38, 70]), ("Torque [Nm/s^2]".toList, [22, 54, 86]),
      ("Pitch angle [rad]".toList, [1028, 1092, 1156])] := by
  obtain ⟨d, a1, a2, a3⟩ := C173_partial exN exNum exD exTime true 3 (by decide) ⟨exText2, exLines2, exSensor2, (List.range 24).map UInt8.ofNat⟩
    ⟨HawcAe.unlines exLines5, exLines5, exSensor5, (List.range 24).map UInt8.ofNat⟩ [] (by
      intro x hx
      simp only [List.mem_cons, List.not_mem_nil, or_false] at hx
      rcases hx with rfl | rfl
      · exact ⟨exHas2, exDescribes2, rfl, rfl, rfl, by simp [exSensor2], by decide +kernel⟩
      · exact ⟨⟨by decide +kernel, .inl rfl⟩, exDescribes5, rfl, rfl, rfl, by simp [exSensor5], by decide +kernel⟩) 5 10 rfl rfl (by decide +kernel)
  exact ⟨d, a1, a2.trans (by decide +kernel), a3.trans (by decide +kernel)⟩

/-- C174 fails: with a `%` in the name of the folder, the data of another file are looked for -/
theorem C174_fails : dataName (sensorName "100%/run".toList ".$04".toList) = "100$/run.$04".toList := by decide +kernel

/-- **C174** for names without `%`: the data file that is read for `base.$nn` is this file.  (Missing for the full property: see `C174_fails`.) -/
theorem C174_partial (base ext : Str) (hb : '%' ∉ base) (he : '%' ∉ ext) : dataName (sensorName base ext) = base ++ ext := by
  have : ∀ a b : Str, replaceChar '%' ['$'] (a ++ b) = replaceChar '%' ['$'] a ++ replaceChar '%' ['$'] b := fun a b => by
    simp [replaceChar]
  rw [dataName, sensorName, this, Tecplot.replaceChar_none _ _ _ hb, replaceChar_back '%' '$' ext he]

example : sensorName "out/run".toList ".$04".toList = "out/run.%04".toList ∧
    dataName (sensorName "out/run".toList ".$04".toList) = "out/run.$04".toList :=
  ⟨by decide +kernel, C174_partial "out/run".toList ".$04".toList (by decide) (by decide)⟩

/-- C175 fails: a text file of two dimensions with a single step and several channels is refused -/
theorem C175_fails :
    readFiles exN exNum exD exTime false [⟨"FORMAT R*4\nNDIMENS 2\nDIMENS 2 1\nGENLAB g\nVARIAB a b\nVARUNIT L L\nAXISLAB T\nMIN 0\nSTEP 1\n".toList,
      .text (some [[7, 8]])⟩] = .error .value ∧
    readFiles exN exNum exD exTime false [⟨"FORMAT R*4\nNDIMENS 2\nDIMENS 1 1\nGENLAB g\nVARIAB a\nVARUNIT L\nAXISLAB T\nMIN 0\nSTEP 1\n".toList,
      .text (some [[7]])⟩] = .error .type := by decide +kernel

/-- **C175** for text files of at least two steps: column `c` of the table has entry `c` of every row of the file.  (Missing for the full property: a
single step, see `C175_fails`.) -/
theorem C175_partial {F : Type} (N : Num F) (num : F → Str) (D : Dec F) (time : Nat → F → F → F) (pj : Bool) (s : Str) (ls : List Str)
    (hs : HasLines s ls) (x : Sensor F) (h : Describes N ls x) (h0 : 2 ≤ x.nMajor) (hu : x.units.length = x.names.length) (h2 : x.ndim = 2)
    (g : Nat → Nat → F) :
    Gives N num D time pj ⟨s, .text (some ((List.range x.nMajor).map fun t => (List.range x.nSensors).map fun c => g t c))⟩ x (labels2 x)
      ((List.range x.nSensors).map fun c => (List.range x.nMajor).map fun t => g t c) := by
  have hsq : ∃ a, squeeze ((List.range x.nMajor).map fun t => (List.range x.nSensors).map fun c => g t c) = a ∧ a.len = .ok x.nMajor ∧
      a.cols D.zero = (x.nMajor, (List.range x.nSensors).map fun c => (List.range x.nMajor).map fun t => g t c) := by
    obtain ⟨n, hn⟩ : ∃ n, x.nMajor = n + 2 := ⟨x.nMajor - 2, by omega⟩
    by_cases e : x.nSensors = 1
    · refine ⟨.vec ((List.range x.nMajor).map fun t => g t 0), ?_, by simp [Arr.len], by simp [Arr.cols, e]⟩
      have hc : ((List.range x.nMajor).map fun t => (List.range x.nSensors).map fun c => g t c) =
          [g 0 0] :: [g 1 0] :: ((List.range n).map fun t => [g (t + 2) 0]) := by
        rw [hn, e]; simp [List.range_succ_eq_map]
      have hf : ((List.range x.nMajor).map fun t => g t 0) = ([g 0 0] :: [g 1 0] :: ((List.range n).map fun t => [g (t + 2) 0])).flatten := by
        rw [← hc, e]
        simp only [List.range_one, List.map_cons, List.map_nil]
        induction (List.range x.nMajor) with
        | nil => rfl
        | cons a l ih => simp [ih]
      rw [hc, squeeze]
      · rw [if_pos (by simp), hf]
      · intro y hy; cases hy
      · intro r hr; cases hr
    · refine ⟨.mat ((List.range x.nMajor).map fun t => (List.range x.nSensors).map fun c => g t c), ?_, by simp [Arr.len],
        mat_cols D.zero _ _ (by omega) g⟩
      rw [squeeze]
      · rw [if_neg]
        rw [List.all_map, List.all_eq_true]
        intro hall
        have := hall 0 (List.mem_range.2 (by omega))
        simp at this
        exact e this
      · intro y hy
        have := congrArg List.length hy
        simp at this; omega
      · intro r hr
        have := congrArg List.length hr
        simp at this; omega
  obtain ⟨a, ha, hl, hc⟩ := hsq
  have := gives2 N num D time pj s ls hs x h h2 (by omega) hu
    (.text (some ((List.range x.nMajor).map fun t => (List.range x.nSensors).map fun c => g t c))) a (by
      intro nsec
      simp only [readData, h2, ha]
      rfl) hl (by rw [hc]) (by rw [hc]; simp)
  rw [hc] at this
  exact this

example : ∃ d, readFiles exN exNum exD exTime false [⟨exText2, .text (some [[1, 2], [3, 4], [5, 6]])⟩] = .ok [(3, d)] ∧
    frame d = .ok [("Time [s]".toList, [10, 15, 20]), ("Shaft power [W]".toList, [1, 3, 5]), ("Torque [Nm/s^2]".toList, [2, 4, 6])] := by
  obtain ⟨d, a1, _, a3⟩ := (C175_partial exN exNum exD exTime false exText2 exLines2 exHas2 exSensor2 exDescribes2 (by decide) rfl rfl
    (fun t c => 2 * t + c + 1)).1 5 10 rfl rfl (by decide +kernel)
  exact ⟨d, a1, a3.trans (by decide +kernel)⟩

end Verif.BladedRead
