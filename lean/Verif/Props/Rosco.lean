import Verif.Lemmas.Rosco
import Verif.Lemmas.HawcAe
import Verif.Py.Dec
/-!
# ROSCO performance files — C94, C95, C96, C97

`/repo/weio/rosco_performance_file.py`.
-/
namespace Verif.Rosco
open Verif.Py Verif.FastLine
open Verif.Lin (has has_iff has_false)
open Verif.HawcAe (readlines unlines readlines_unlines)

/-- **C94** From a ROSCO performance file — vectors of pitch angles, tip speed ratios and, or not, wind
speeds, and the tables of the three coefficients with one row per tip speed ratio and one column per
pitch angle, in any order with any other lines, the pitch angles among the first twelve parts —
exactly the numbers written are read. -/
theorem C94 {F : Type} (parse : Str → Option F) (bs : List (Block F)) (p t : List F) (cp ct cq : List (List F))
    (h : ∀ b ∈ bs, b.Ok parse p.length t.length)
    (hvec : ∀ pre b post, bs = pre ++ b :: post → b.isTab → (lastVec .pitch pre).isSome ∧ (lastVec .tsr pre).isSome)
    (htwelve : (lastVec .pitch (bs.take 12)).isSome)
    (hp : lastVec .pitch bs = some p) (ht : lastVec .tsr bs = some t)
    (hcp : lastTab .cp bs = some cp) (hct : lastTab .ct bs = some ct) (hcq : lastTab .cq bs = some cq) :
    load parse (bs.flatMap Block.lines) = .ok ⟨p, t, lastVec .ws bs, cp, ct, cq⟩ := by
  have h12 : ∃ b ∈ bs.take (12 - 0), (vecOf .pitch b).isSome := by
    obtain ⟨v, hv⟩ := Option.isSome_iff_exists.1 htwelve
    have := List.mem_of_getLast? hv
    obtain ⟨b, hb, hb'⟩ := List.mem_filterMap.1 this
    exact ⟨b, hb, by rw [show vecOf Kind.pitch b = some v from hb']; rfl⟩
  obtain ⟨f', -, hl⟩ := loop_blocks parse p.length t.length (bs.flatMap Block.lines).length 0 {} bs []
    ⟨fun p hp => by simp at hp, fun p hp => by simp at hp⟩ h
    (fun pre b post hb hb' => by simpa using hvec pre b post hb hb') (Or.inr (Or.inr h12)) (by simp)
  rw [List.append_nil] at hl
  unfold load
  rw [hl, loop.eq_def, foldl_put parse p.length t.length bs {} h]
  simp only [hp, ht, hcp, hct, hcq, Option.or_none, Option.some_or]

/-- **C94** The data frames of such an object have one row per tip speed ratio: the ratio, then one
coefficient per pitch angle, under as many names. -/
theorem C94_frames {F : Type} (φ : Fmt F) (d : File F)
    (h : ∀ m ∈ [d.cp, d.ct, d.cq], m.length = d.tsr.length ∧ ∀ r ∈ m, r.length = d.pitch.length) :
    toDataFrame φ d = .ok ([("CP", d.cp), ("CT", d.ct), ("CQ", d.cq)].map (fun nm =>
      (nm.1.toList, "TSR_[-]".toList :: d.pitch.map (fun p => "Pitch_".toList ++ φ.two p ++ "_[deg]".toList),
        List.zipWith (· :: ·) d.tsr nm.2))) := by
  have hf : ∀ m ∈ [d.cp, d.ct, d.cq], frame φ d.pitch d.tsr m =
      .ok ("TSR_[-]".toList :: d.pitch.map (fun p => "Pitch_".toList ++ φ.two p ++ "_[deg]".toList), List.zipWith (· :: ·) d.tsr m) := by
    intro m hm
    unfold frame
    rw [if_pos]
    refine ⟨(h m hm).1, fun r hr => ?_⟩
    rw [List.length_cons, List.length_map, (h m hm).2 r hr]
  unfold toDataFrame
  rw [hf d.cp (by simp), hf d.ct (by simp), hf d.cq (by simp)]
  rfl

/-- **C95** A ROSCO performance file cut anywhere before the end of the last of its tables is
refused: no object with missing or partial tables is returned. -/
theorem C95 {F : Type} (parse : Str → Option F) (nP nT : Nat) (hP : 1 ≤ nP) (hT : 1 ≤ nT) (bs : List (Block F))
    (h : ∀ b ∈ bs, b.Ok parse nP nT)
    (hvec : ∀ pre b post, bs = pre ++ b :: post → b.isTab → (lastVec .pitch pre).isSome ∧ (lastVec .tsr pre).isSome)
    (htwelve : (lastVec .pitch (bs.take 12)).isSome)
    (bs1 : List (Block F)) (b : Block F) (bs2 : List (Block F)) (hbs : bs = bs1 ++ b :: bs2)
    (k : Kind) (hk : k = .cp ∨ k = .ct ∨ k = .cq) (hb : ∃ t s ls m, b = .tab k t s ls m) (hk1 : lastTab k bs1 = none)
    (n : Nat) (hn : n < (bs1.flatMap Block.lines).length + b.lines.length) :
    ∃ e, load parse ((bs.flatMap Block.lines).take n) = .error e := by
  refine load_cut parse nP nT hP hT bs h (fun pre b post hb hb' => by simpa using hvec pre b post hb hb') (Or.inr ?_)
    bs1 b bs2 hbs k hk hk1 n (by simpa using hn)
  obtain ⟨v, hv⟩ := Option.isSome_iff_exists.1 htwelve
  have := List.mem_of_getLast? hv
  obtain ⟨b, hb, hb'⟩ := List.mem_filterMap.1 this
  exact ⟨b, hb, by rw [show vecOf Kind.pitch b = some v from hb']; rfl⟩

/-! ### A file -/

/-- a toy number: digits -/
def digitsOf (s : Str) : Option Nat :=
  if s ≠ [] ∧ s.all Char.isDigit then some ((pyInt s).toNat) else none

/-- two pitch angles, three tip speed ratios -/
def exBlocks : List (Block Nat) :=
  [.other "# Rotor performance tables".toList,
   .vec .pitch "# Pitch angle vector".toList "1 2".toList [1, 2],
   .vec .tsr "# TSR vector".toList " 3  4 5 ".toList [3, 4, 5],
   .vec .ws "# Wind speed vector".toList "11".toList [11],
   .other [],
   .tab .cp "# Power coefficient".toList [] ["1 2".toList, "3 4".toList, "5 6".toList] [[1, 2], [3, 4], [5, 6]],
   .other [],
   .tab .ct "#  Thrust coefficient".toList [] ["2 2".toList, "3 4".toList, "5 6".toList] [[2, 2], [3, 4], [5, 6]],
   .tab .cq "# Torque coefficient".toList [] ["3 2".toList, "3 4".toList, "5 6".toList] [[3, 2], [3, 4], [5, 6]]]

instance (k l : Str) : Decidable (k <:+: l) := decidable_of_iff _ (has_iff k l)

theorem exSays (l : Str) (v : List Nat) (h : (words l).map digitsOf = v.map some) : Says digitsOf l v := by
  unfold Says
  generalize words l = ws at h
  induction ws generalizing v with
  | nil =>
    cases v with
    | nil => exact .nil
    | cons _ _ => simp at h
  | cons w ws ih =>
    cases v with
    | nil => simp at h
    | cons x v =>
      simp only [List.map_cons, List.cons.injEq] at h
      exact .cons h.1 (ih v h.2)

theorem exTitle (k : Kind) (l : Str) (h : has k.word l = true)
    (h' : (kinds.takeWhile (· ≠ k)).all (fun k' => !has k'.word l) = true) : IsTitle k l :=
  ⟨(has_iff _ _).1 h, fun k' hk' hi => by
    have := List.all_eq_true.1 h' k' hk'
    rw [(has_iff _ _).2 hi] at this
    simp at this⟩

theorem exOther (l : Str) (h : kinds.all (fun k' => !has k'.word l) = true) : ∀ k ∈ kinds, ¬ k.word <:+: l :=
  fun k' hk' hi => by
    have := List.all_eq_true.1 h k' hk'
    rw [(has_iff _ _).2 hi] at this
    simp at this

theorem exOk : ∀ b ∈ exBlocks, b.Ok digitsOf 2 3 := by
  intro b hb
  simp only [exBlocks, List.mem_cons, List.not_mem_nil, or_false] at hb
  rcases hb with rfl | rfl | rfl | rfl | rfl | rfl | rfl | rfl | rfl
  · exact exOther _ (by decide +kernel)
  · exact ⟨.inl ⟨rfl, rfl⟩, exTitle _ _ (by decide +kernel) (by decide +kernel), exSays _ _ (by decide +kernel)⟩
  · exact ⟨.inr (.inl ⟨rfl, rfl⟩), exTitle _ _ (by decide +kernel) (by decide +kernel), exSays _ _ (by decide +kernel)⟩
  · exact ⟨.inr (.inr rfl), exTitle _ _ (by decide +kernel) (by decide +kernel), exSays _ _ (by decide +kernel)⟩
  · exact exOther _ (by decide +kernel)
  · exact ⟨.inl rfl, exTitle _ _ (by decide +kernel) (by decide +kernel),
      .cons (exSays _ _ (by decide +kernel)) (.cons (exSays _ _ (by decide +kernel)) (.cons (exSays _ _ (by decide +kernel)) .nil)),
      rfl, by decide⟩
  · exact exOther _ (by decide +kernel)
  · exact ⟨.inr (.inl rfl), exTitle _ _ (by decide +kernel) (by decide +kernel),
      .cons (exSays _ _ (by decide +kernel)) (.cons (exSays _ _ (by decide +kernel)) (.cons (exSays _ _ (by decide +kernel)) .nil)),
      rfl, by decide⟩
  · exact ⟨.inr (.inr rfl), exTitle _ _ (by decide +kernel) (by decide +kernel),
      .cons (exSays _ _ (by decide +kernel)) (.cons (exSays _ _ (by decide +kernel)) (.cons (exSays _ _ (by decide +kernel)) .nil)),
      rfl, by decide⟩

theorem exReady : ∀ pre b post, exBlocks = pre ++ b :: post → b.isTab →
    (lastVec .pitch pre).isSome ∧ (lastVec .tsr pre).isSome :=
  fun pre b post h hb => ready_of (exBlocks.take 5) (exBlocks.drop 5) (by
    intro b hb
    simp only [exBlocks, List.take_succ_cons, List.take_zero, List.mem_cons, List.not_mem_nil, or_false] at hb
    rcases hb with rfl | rfl | rfl | rfl | rfl <;> exact id) rfl rfl pre b post
    (by rw [List.take_append_drop]; exact h) hb

/-- what C94 says of the file: other lines, uneven blanks, a wind speed -/
example : load digitsOf (exBlocks.flatMap Block.lines) =
    .ok ⟨[1, 2], [3, 4, 5], some [11], [[1, 2], [3, 4], [5, 6]], [[2, 2], [3, 4], [5, 6]], [[3, 2], [3, 4], [5, 6]]⟩ :=
  C94 digitsOf exBlocks [1, 2] [3, 4, 5] _ _ _ exOk exReady rfl rfl rfl rfl rfl rfl

/-- its power coefficients as a data frame -/
example : (toDataFrame ⟨fun _ => [], fun _ => [], fun n => Nat.toDigits 10 n⟩
    (⟨[1, 2], [3, 4, 5], some [11], [[1, 2], [3, 4], [5, 6]], [[2, 2], [3, 4], [5, 6]], [[3, 2], [3, 4], [5, 6]]⟩ : File Nat)).toOption.map
      (fun l => l.headD ([], [], [])) =
    some ("CP".toList, ["TSR_[-]".toList, "Pitch_1_[deg]".toList, "Pitch_2_[deg]".toList], [[3, 1, 2], [4, 3, 4], [5, 5, 6]]) := by
  rw [C94_frames _ _ (by decide)]
  decide +kernel

/-- every cut of the file before the end of its last table: for example inside the table of torque
coefficients -/
example (n : Nat) (hn : n < 24) : ∃ e, load digitsOf ((exBlocks.flatMap Block.lines).take n) = .error e :=
  C95 digitsOf 2 3 (by decide) (by decide) exBlocks exOk exReady rfl (exBlocks.take 8) _ [] rfl .cq (by decide)
    ⟨_, _, _, _, rfl⟩ rfl n hn

/-! ### Writing -/

/-- **C96, negation** No object can be written: `now` is not defined in the module, the existing file
is replaced by a first line of title, from which nothing can be read. -/
theorem C96_fails {F : Type} (parse : Str → Option F) (φ : Fmt F) (d : File F) :
    write φ none [] d = (.error .name, "# ----- Rotor performance tables for the  wind turbine ----- \n".toList) ∧
    load parse (readlines (write φ none [] d).2) = .error .unbound := by
  refine ⟨rfl, ?_⟩
  have : readlines (write φ none [] d).2 = ["# ----- Rotor performance tables for the  wind turbine ----- ".toList] := by
    show readlines ("# ----- Rotor performance tables for the ".toList ++ [] ++ " wind turbine ----- \n".toList) = _
    decide +kernel
  rw [this]
  refine load_none parse _ {} .cp (by decide) ?_ rfl
  rw [List.length_singleton, loop, step_other parse {} _ [] (exOther _ (by decide +kernel))]
  rfl

/-- the second line of a written file -/
def dateLine (date : Str) : Str :=
  "# ------------ Written on ".toList ++ date ++ " using the ROSCO toolbox ------------ ".toList

/-- the parts of a written file -/
def written {F : Type} (φ : Fmt F) (rs rf : F → F) (date : Str) (d : File F) : List (Block F) :=
  [.other "# ----- Rotor performance tables for the  wind turbine ----- ".toList, .other (dateLine date), .other [],
   .vec .pitch ("# Pitch angle vector, ".toList ++ showInt d.pitch.length ++ " entries - x axis (matrix columns) (deg)".toList)
     (cells φ.short "   ".toList d.pitch) (d.pitch.map rs),
   .vec .tsr ("# TSR vector, ".toList ++ showInt d.tsr.length ++ " entries - y axis (matrix rows) (-)".toList)
     (cells φ.short "    ".toList d.tsr) (d.tsr.map rs)] ++
  (match d.ws with
   | none => []
   | some w => [.vec .ws "# Wind speed vector - z axis (m/s)".toList (cells φ.short "    ".toList w) (w.map rs), .other []]) ++
  [.tab .cp "# Power coefficient".toList [] (d.cp.map (cells φ.fixed "   ".toList)) (d.cp.map (List.map rf)),
   .other [], .other [],
   .tab .ct "#  Thrust coefficient".toList [] (d.ct.map (cells φ.fixed "   ".toList)) (d.ct.map (List.map rf)),
   .other [], .other [],
   .tab .cq "# Torque coefficient".toList [] (d.cq.map (cells φ.fixed "   ".toList)) (d.cq.map (List.map rf)),
   .other []]

theorem unlines_append (a b : List Str) : unlines (a ++ b) = unlines a ++ unlines b := by simp [unlines]

theorem tableText_eq {F : Type} (φ : Fmt F) (m : List (List F)) :
    tableText φ m = unlines (m.map (cells φ.fixed "   ".toList)) := by
  induction m with
  | nil => rfl
  | cons r m ih =>
    have : tableText φ (r :: m) = cells φ.fixed "   ".toList r ++ "\n".toList ++ tableText φ m := by simp [tableText]
    rw [this, ih]
    rfl

theorem write_text {F : Type} (φ : Fmt F) (rs rf : F → F) (date : Str) (d : File F) :
    write φ (some date) [] d = (.ok (), unlines ((written φ rs rf date d).flatMap Block.lines)) := by
  unfold write written dateLine
  simp only [tableText_eq]
  rw [show "# ----- Rotor performance tables for the  wind turbine ----- ".toList =
    "# ----- Rotor performance tables for the ".toList ++ " wind turbine ----- ".toList by decide +kernel]
  rw [show " wind turbine ----- \n".toList = " wind turbine ----- ".toList ++ ['\n'] by decide +kernel]
  rw [show " using the ROSCO toolbox ------------ \n\n".toList = " using the ROSCO toolbox ------------ ".toList ++ ['\n', '\n'] by decide +kernel]
  rw [show " entries - x axis (matrix columns) (deg)\n".toList = " entries - x axis (matrix columns) (deg)".toList ++ ['\n'] by decide +kernel]
  rw [show "\n# TSR vector, ".toList = '\n' :: "# TSR vector, ".toList by decide +kernel]
  rw [show " entries - y axis (matrix rows) (-)\n".toList = " entries - y axis (matrix rows) (-)".toList ++ ['\n'] by decide +kernel]
  rw [show "\n# Wind speed vector - z axis (m/s)\n".toList = '\n' :: ("# Wind speed vector - z axis (m/s)".toList ++ ['\n']) by decide +kernel]
  rw [show "\n# Power coefficient\n\n".toList = '\n' :: ("# Power coefficient".toList ++ ['\n', '\n']) by decide +kernel]
  rw [show "\n#  Thrust coefficient\n\n".toList = '\n' :: ("#  Thrust coefficient".toList ++ ['\n', '\n']) by decide +kernel]
  rw [show "\n# Torque coefficient\n\n".toList = '\n' :: ("# Torque coefficient".toList ++ ['\n', '\n']) by decide +kernel]
  rw [show "\n".toList = ['\n'] by decide +kernel]
  generalize "# ----- Rotor performance tables for the ".toList = s0
  generalize " wind turbine ----- ".toList = s1
  generalize "# ------------ Written on ".toList = s2
  generalize " using the ROSCO toolbox ------------ ".toList = s3
  generalize "# Pitch angle vector, ".toList = s4
  generalize " entries - x axis (matrix columns) (deg)".toList = s5
  generalize "# TSR vector, ".toList = s6
  generalize " entries - y axis (matrix rows) (-)".toList = s7
  generalize "# Wind speed vector - z axis (m/s)".toList = s8
  generalize "# Power coefficient".toList = s9
  generalize "#  Thrust coefficient".toList = s10
  generalize "# Torque coefficient".toList = s11
  generalize "   ".toList = s12
  generalize "    ".toList = s13
  cases d.ws with
  | none => simp [unlines, Block.lines]
  | some w => simp [unlines, Block.lines]

theorem showInt_mem (n : Nat) (c : Char) (h : c ∈ showInt (n : Int)) : c.isDigit = true :=
  Nat.isDigit_of_mem_toDigits (by decide) (by decide) h

/-- a title with a number in it has no keyword that starts with a letter it does not have -/
theorem title_num (a b : Str) (n : Nat) (c : Char) (t : Str) (ha : c ∉ a) (hb : c ∉ b) (hc : c.isDigit = false) :
    ¬ (c :: t) <:+: a ++ showInt (n : Int) ++ b := by
  intro h
  have : c ∈ a ++ showInt (n : Int) ++ b := h.subset (by simp)
  rcases List.mem_append.1 this with h | h
  · rcases List.mem_append.1 h with h | h
    · exact ha h
    · rw [showInt_mem n c h] at hc; simp at hc
  · exact hb h

theorem written_ok {F : Type} (parse : Str → Option F) (φ : Fmt F) (rs rf : F → F) (date : Str) (d : File F)
    (hdate' : ∀ k ∈ kinds, ¬ k.word <:+: dateLine date)
    (hshort : ∀ x ∈ d.pitch ++ d.tsr ++ d.ws.getD [], IsWord (φ.short x) ∧ parse (φ.short x) = some (rs x))
    (hfixed : ∀ m ∈ [d.cp, d.ct, d.cq], ∀ r ∈ m, ∀ x ∈ r, IsWord (φ.fixed x) ∧ parse (φ.fixed x) = some (rf x))
    (hsize : ∀ m ∈ [d.cp, d.ct, d.cq], m.length = d.tsr.length ∧ ∀ r ∈ m, r.length = d.pitch.length) :
    ∀ b ∈ written φ rs rf date d, b.Ok parse d.pitch.length d.tsr.length := by
  have htab : ∀ (k : Kind) (t : Str) (m : List (List F)), (k = .cp ∨ k = .ct ∨ k = .cq) → IsTitle k t → m ∈ [d.cp, d.ct, d.cq] →
      (Block.tab k t [] (m.map (cells φ.fixed "   ".toList)) (m.map (List.map rf))).Ok parse d.pitch.length d.tsr.length := by
    intro k t m hk ht hm
    refine ⟨hk, ht, ?_, by rw [List.length_map]; exact (hsize m hm).1, ?_⟩
    · have := hfixed m hm
      clear hsize hm
      induction m with
      | nil => exact .nil
      | cons r m ih =>
        exact .cons (says_cells parse φ.fixed rf "   ".toList ' ' [' ', ' '] (by decide) (by decide) r (this r (by simp)))
          (ih (fun r hr => this r (by simp [hr])))
    · intro r hr
      obtain ⟨r', hr', rfl⟩ := List.mem_map.1 hr
      rw [List.length_map]
      exact (hsize m hm).2 r' hr'
  intro b hb
  unfold written at hb
  rw [List.mem_append, List.mem_append] at hb
  rcases hb with (hb | hb) | hb
  · simp only [List.mem_cons, List.not_mem_nil, or_false] at hb
    rcases hb with rfl | rfl | rfl | rfl | rfl
    · exact exOther _ (by decide +kernel)
    · exact hdate'
    · exact exOther _ (by decide +kernel)
    · refine ⟨.inl ⟨rfl, by simp⟩, ⟨?_, fun k' hk' => ?_⟩, ?_⟩
      · exact ((has_iff _ _).1 (by decide +kernel : has Kind.pitch.word "# Pitch angle vector, ".toList = true)).trans
          ⟨[], showInt d.pitch.length ++ " entries - x axis (matrix columns) (deg)".toList, by simp only [List.nil_append, List.append_assoc]⟩
      · exact absurd hk' (by decide +revert)
      · exact says_cells parse φ.short rs _ ' ' [' ', ' '] (by decide) (by decide) _ (fun x hx => hshort x (by simp [hx]))
    · refine ⟨.inr (.inl ⟨rfl, by simp⟩), ⟨?_, fun k' hk' => ?_⟩, ?_⟩
      · exact ((has_iff _ _).1 (by decide +kernel : has Kind.tsr.word "# TSR vector, ".toList = true)).trans
          ⟨[], showInt d.tsr.length ++ " entries - y axis (matrix rows) (-)".toList, by simp only [List.nil_append, List.append_assoc]⟩
      · have : k' = .pitch := by revert hk'; cases k' <;> decide
        subst this
        exact title_num _ _ _ 'P' _ (by decide) (by decide) (by decide)
      · exact says_cells parse φ.short rs _ ' ' [' ', ' ', ' '] (by decide) (by decide) _ (fun x hx => hshort x (by simp [hx]))
  · cases hw : d.ws with
    | none => rw [hw] at hb; simp at hb
    | some w =>
      rw [hw] at hb
      simp only [List.mem_cons, List.not_mem_nil, or_false] at hb
      rcases hb with rfl | rfl
      · refine ⟨.inr (.inr rfl), exTitle _ _ (by decide +kernel) (by decide +kernel), ?_⟩
        exact says_cells parse φ.short rs _ ' ' [' ', ' ', ' '] (by decide) (by decide) _ (fun x hx => hshort x (by simp [hw, hx]))
      · exact exOther _ (by decide +kernel)
  · simp only [List.mem_cons, List.not_mem_nil, or_false] at hb
    rcases hb with rfl | rfl | rfl | rfl | rfl | rfl | rfl | rfl
    · exact htab _ _ _ (by decide) (exTitle _ _ (by decide +kernel) (by decide +kernel)) (by simp)
    · exact exOther _ (by decide +kernel)
    · exact exOther _ (by decide +kernel)
    · exact htab _ _ _ (by decide) (exTitle _ _ (by decide +kernel) (by decide +kernel)) (by simp)
    · exact exOther _ (by decide +kernel)
    · exact exOther _ (by decide +kernel)
    · exact htab _ _ _ (by decide) (exTitle _ _ (by decide +kernel) (by decide +kernel)) (by simp)
    · exact exOther _ (by decide +kernel)

theorem written_nl {F : Type} (φ : Fmt F) (rs rf : F → F) (date : Str) (d : File F)
    (hdate : '\n' ∉ date)
    (hshort : ∀ x ∈ d.pitch ++ d.tsr ++ d.ws.getD [], IsWord (φ.short x))
    (hfixed : ∀ m ∈ [d.cp, d.ct, d.cq], ∀ r ∈ m, ∀ x ∈ r, IsWord (φ.fixed x)) :
    ∀ l ∈ (written φ rs rf date d).flatMap Block.lines, '\n' ∉ l := by
  have htab : ∀ (k : Kind) (t : Str) (m : List (List F)), '\n' ∉ t → m ∈ [d.cp, d.ct, d.cq] →
      ∀ l ∈ (Block.tab k t [] (m.map (cells φ.fixed "   ".toList)) (m.map (List.map rf))).lines, '\n' ∉ l := by
    intro k t m ht hm l hl
    simp only [Block.lines, List.mem_cons] at hl
    rcases hl with rfl | rfl | hl
    · exact ht
    · simp
    · obtain ⟨r, hr, rfl⟩ := List.mem_map.1 hl
      exact cells_nl _ _ (by decide) _ (hfixed m hm r hr)
  have htitle : ∀ (a b : Str) (n : Nat), '\n' ∉ a → '\n' ∉ b → '\n' ∉ a ++ showInt (n : Int) ++ b := by
    intro a b n ha hb hm
    rcases List.mem_append.1 hm with h | h
    · rcases List.mem_append.1 h with h | h
      · exact ha h
      · exact absurd (showInt_mem n _ h) (by decide)
    · exact hb h
  intro l hl
  obtain ⟨b, hb, hl⟩ := List.mem_flatMap.1 hl
  unfold written at hb
  rw [List.mem_append, List.mem_append] at hb
  rcases hb with (hb | hb) | hb
  · simp only [List.mem_cons, List.not_mem_nil, or_false] at hb
    rcases hb with rfl | rfl | rfl | rfl | rfl <;> simp only [Block.lines, List.mem_cons, List.not_mem_nil, or_false] at hl
    · subst hl; decide +kernel
    · subst hl
      unfold dateLine
      intro hm
      rcases List.mem_append.1 hm with h | h
      · rcases List.mem_append.1 h with h | h
        · exact absurd h (by decide +kernel)
        · exact hdate h
      · exact absurd h (by decide +kernel)
    · subst hl; simp
    · rcases hl with rfl | rfl
      · exact htitle _ _ _ (by decide +kernel) (by decide +kernel)
      · exact cells_nl _ _ (by decide) _ (fun x hx => hshort x (by simp [hx]))
    · rcases hl with rfl | rfl
      · exact htitle _ _ _ (by decide +kernel) (by decide +kernel)
      · exact cells_nl _ _ (by decide) _ (fun x hx => hshort x (by simp [hx]))
  · cases hw : d.ws with
    | none => rw [hw] at hb; simp at hb
    | some w =>
      rw [hw] at hb
      simp only [List.mem_cons, List.not_mem_nil, or_false] at hb
      rcases hb with rfl | rfl <;> simp only [Block.lines, List.mem_cons, List.not_mem_nil, or_false] at hl
      · rcases hl with rfl | rfl
        · decide +kernel
        · exact cells_nl _ _ (by decide) _ (fun x hx => hshort x (by simp [hw, hx]))
      · subst hl; simp
  · simp only [List.mem_cons, List.not_mem_nil, or_false] at hb
    rcases hb with rfl | rfl | rfl | rfl | rfl | rfl | rfl | rfl
    · exact htab _ _ _ (by decide +kernel) (by simp) l hl
    · simp only [Block.lines, List.mem_cons, List.not_mem_nil, or_false] at hl; subst hl; simp
    · simp only [Block.lines, List.mem_cons, List.not_mem_nil, or_false] at hl; subst hl; simp
    · exact htab _ _ _ (by decide +kernel) (by simp) l hl
    · simp only [Block.lines, List.mem_cons, List.not_mem_nil, or_false] at hl; subst hl; simp
    · simp only [Block.lines, List.mem_cons, List.not_mem_nil, or_false] at hl; subst hl; simp
    · exact htab _ _ _ (by decide +kernel) (by simp) l hl
    · simp only [Block.lines, List.mem_cons, List.not_mem_nil, or_false] at hl; subst hl; simp

/-- **C96 (partial)** If a date `now` were defined, an object with as many rows as tip speed ratios and
columns as pitch angles would be written and read again with every number as printed: `{:0.4}` for
the vectors, `{:.6f}` for the tables. -/
theorem C96_partial {F : Type} (parse : Str → Option F) (φ : Fmt F) (rs rf : F → F) (date : Str) (d : File F)
    (hdate : '\n' ∉ date) (hdate' : ∀ k ∈ kinds, ¬ k.word <:+: dateLine date)
    (hshort : ∀ x ∈ d.pitch ++ d.tsr ++ d.ws.getD [], IsWord (φ.short x) ∧ parse (φ.short x) = some (rs x))
    (hfixed : ∀ m ∈ [d.cp, d.ct, d.cq], ∀ r ∈ m, ∀ x ∈ r, IsWord (φ.fixed x) ∧ parse (φ.fixed x) = some (rf x))
    (hsize : ∀ m ∈ [d.cp, d.ct, d.cq], m.length = d.tsr.length ∧ ∀ r ∈ m, r.length = d.pitch.length) :
    (write φ (some date) [] d).1 = .ok () ∧
    load parse (readlines (write φ (some date) [] d).2) =
      .ok ⟨d.pitch.map rs, d.tsr.map rs, d.ws.map (List.map rs), d.cp.map (List.map rf), d.ct.map (List.map rf),
        d.cq.map (List.map rf)⟩ := by
  rw [write_text φ rs rf date d]
  refine ⟨rfl, ?_⟩
  rw [readlines_unlines _ (written_nl φ rs rf date d hdate (fun x hx => (hshort x hx).1) (fun m hm r hr x hx => (hfixed m hm r hr x hx).1))]
  have hok := written_ok parse φ rs rf date d hdate' hshort hfixed hsize
  have hsp : ∀ pre b post, written φ rs rf date d = pre ++ b :: post → b.isTab →
      (lastVec .pitch pre).isSome ∧ (lastVec .tsr pre).isSome := by
    intro pre b post h hb
    refine ready_of ((written φ rs rf date d).take 5) ((written φ rs rf date d).drop 5) ?_ rfl rfl pre b post
      (by rw [List.take_append_drop]; exact h) hb
    intro b hb
    simp only [written, List.cons_append, List.take_succ_cons, List.take_zero, List.mem_cons, List.not_mem_nil, or_false] at hb
    rcases hb with rfl | rfl | rfl | rfl | rfl <;> exact id
  have h := C94 parse (written φ rs rf date d) (d.pitch.map rs) (d.tsr.map rs) (d.cp.map (List.map rf)) (d.ct.map (List.map rf))
    (d.cq.map (List.map rf)) (by rw [List.length_map, List.length_map]; exact hok) hsp
    (by unfold written; cases d.ws <;> rfl) (by unfold written; cases d.ws <;> rfl) (by unfold written; cases d.ws <;> rfl)
    (by unfold written; cases d.ws <;> rfl) (by unfold written; cases d.ws <;> rfl) (by unfold written; cases d.ws <;> rfl)
  rw [h]
  congr 2
  unfold written
  cases d.ws <;> rfl

/-- a toy format: digits -/
def exFmt : Fmt Nat := ⟨Nat.toDigits 10, Nat.toDigits 10, Nat.toDigits 10⟩

/-- an object -/
def exObj : File Nat := ⟨[1, 2], [3], some [11], [[4, 5]], [[6, 7]], [[8, 9]]⟩

/-- it would be read again as it is -/
example : load digitsOf (readlines (write exFmt (some "Nov-16-26".toList) [] exObj).2) = .ok exObj :=
  (C96_partial digitsOf exFmt id id "Nov-16-26".toList exObj (by decide) (exOther _ (by decide +kernel))
    (by unfold IsWord; decide +kernel) (by unfold IsWord; decide +kernel) (by decide)).2

/-! ### Foreign files -/

/-- **C97 (partial)** A text whose first twelve lines have none of the six keywords is refused with a
format error. -/
theorem C97_partial {F : Type} (parse : Str → Option F) (pre rest : List Str) (hn : pre.length = 12)
    (h : ∀ l ∈ pre, ∀ k ∈ kinds, ¬ k.word <:+: l) : load parse (pre ++ rest) = .error .wrong := by
  have hl : ∀ (pre : List Str) (fuel i : Nat), i + pre.length = 12 → pre ≠ [] → pre.length ≤ fuel →
      (∀ l ∈ pre, ∀ k ∈ kinds, ¬ k.word <:+: l) → loop parse fuel i {} (pre ++ rest) = .error .wrong := by
    intro pre
    induction pre with
    | nil => intro _ _ _ h0; exact absurd rfl h0
    | cons l pre ih =>
      intro fuel i hi _ hf hk
      obtain ⟨fuel, rfl⟩ : ∃ j, fuel = j + 1 := ⟨fuel - 1, by simp at hf; omega⟩
      rw [List.cons_append, loop, step_other parse {} l _ (hk l (by simp))]
      simp only
      by_cases h0 : pre = []
      · subst h0
        rw [if_pos ⟨rfl, by simp at hi; omega⟩]
      · have : pre.length ≠ 0 := fun h => h0 (List.length_eq_zero_iff.1 h)
        rw [if_neg (by rintro ⟨-, h⟩; simp at hi; omega)]
        exact ih fuel (i + 1) (by simp at hi; omega) h0 (by simp at hf; omega) (fun l hl => hk l (by simp [hl]))
  unfold load
  rw [hl pre _ 0 (by omega) (by intro h0; simp [h0] at hn) (by simp) h]

/-- twelve lines of another file -/
example : load digitsOf (List.replicate 12 "1 2 3".toList ++ ["Power".toList]) = .error .wrong :=
  C97_partial digitsOf _ _ (by simp) (fun l hl => by
    rw [List.eq_of_mem_replicate hl]
    exact exOther _ (by decide +kernel))

/-- **C97, negation** Other foreign files end in errors that are not format errors: a short text
(UnboundLocalError), one with the word Power (TypeError), one with TSR in its first lines
(ValueError). -/
theorem C97_fails :
    load digitsOf ["1 2 3".toList] = .error .unbound ∧
    load digitsOf ["Power [kW]".toList, "1 2 3".toList] = .error .type ∧
    load digitsOf ["TSR Cp".toList, "[-] [-]".toList, "1 2".toList] = .error .value := by
  decide +kernel

end Verif.Rosco
