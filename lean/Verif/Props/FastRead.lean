import Verif.Lemmas.FastReadEnd
/-!
# C81 and C82: reading and saving whole OpenFAST input files

Model: `Verif/Model/FastRead.lean`; hypotheses: `Verif/Spec/FastRead.lean`.
-/
namespace Verif.FastRead
open Verif.Py Verif.FastDict Verif.FastLine Verif.FastTable

/-! ### a concrete `Num` for the examples -/

/-- the decimal texts of `toy`, printed on 8 characters -/
abbrev toyN : Num :=
  { toy with
    zero := ⟨"0.0".toList, by decide⟩
    cell := fun x => some (List.replicate (8 - x.1.length) ' ' ++ x.1)
    e15 := fun x => List.replicate (8 - x.1.length) ' ' ++ x.1
    e24 := fun x => List.replicate (8 - x.1.length) ' ' ++ x.1
    f6 := fun x => x.1
    numCount := fun s => ((words s).filter isSDec).length }

/-- a toy float -/
abbrev dec (s : String) (h : isSDec s.toList = true := by decide) : toyN.F := ⟨s.toList, h⟩

/-! ### C81 -/

/-- **C81.** Reading ends when no line announces a list of zero files (`0 NumAFfiles`,
`0 NumFoil`): the loop takes at most as many iterations as the file has lines, and its result does
not depend on a larger bound.  Missing: files that announce zero files (`C81_fails`). -/
theorem C81_partial (N : Num) (lines : List Str)
    (h : ∀ l ∈ lines, ∀ allow e, parseLine N.toPyFloat allow l = .ok e →
      lower e.label = "numfoil".toList ∨ lower e.label = "numaffiles".toList → e.value ≠ .scalar (.int 0)) :
    readLines N lines.length lines ≠ .error .fuel ∧
      ∀ fuel, lines.length ≤ fuel → readLines N fuel lines = readLines N lines.length lines := by
  have hl : ∀ l ∈ lines, LineCounts N l := by
    intro l hl allow e he hx hv
    exact h l hl allow e he hx (by simpa using hv)
  obtain ⟨h1, h2⟩ := loop_ends N lines.length lines.length {} 0 lines (live_start N) hl (Nat.le_refl _)
  unfold readLines
  split
  · exact ⟨by simp [ofLine_fuel], fun _ _ => rfl⟩
  · exact ⟨by simp, fun _ _ => rfl⟩
  · split
    · exact ⟨readAD14_fuel N lines, fun _ _ => rfl⟩
    · exact ⟨h1, h2⟩

/-- the line that is read again and again -/
def spinLine : Str := "\"a.dat\" AFNames".toList

/-- the entry `0 NumAFfiles` -/
def spinZero : Item toyN.F :=
  { label := "NumAFfiles".toList, value := .plain (.scalar (.int 0)) }

/-- the empty list appended each time -/
def spinItem : Item toyN.F :=
  { label := "AFNames".toList, value := .fil [], tabType := .fil }

theorem spin_turn (ds : List (Item toyN.F)) :
    turn toyN 2 { data := spinZero :: ds } 1 spinLine [] =
      .ok (.go { data := spinZero :: (ds ++ [spinItem]) } 1 [spinLine]) := by
  rfl

theorem spin_loop (fuel : Nat) (ds : List (Item toyN.F)) :
    loop toyN 2 fuel { data := spinZero :: ds } 1 [spinLine] = .error .fuel := by
  induction fuel generalizing ds with
  | zero => rfl
  | succ fuel ih => rw [loop, spin_turn]; exact ih _

/-- **C81 fails.** A file that announces zero airfoil files and has a line for them is read for
ever: the same line is read again and again. -/
theorem C81_fails : ∃ text : Str, ∀ fuel, readText toyN fuel text = .error .fuel := by
  refine ⟨"0 NumAFfiles\n\"a.dat\" AFNames".toList, ?_⟩
  intro fuel
  have h1 : splitlines "0 NumAFfiles\n\"a.dat\" AFNames".toList = ["0 NumAFfiles".toList, spinLine] := by decide
  unfold readText readLines
  rw [h1]
  have h2 : isExtPtfm ["0 NumAFfiles".toList, spinLine] = .ok false := by decide
  have h3 : isAD14 ["0 NumAFfiles".toList, spinLine] = false := by decide
  rw [h2]
  simp only [h3]
  rw [if_neg (by simp)]
  cases fuel with
  | zero => rfl
  | succ fuel =>
    have h4 : turn toyN 2 {} 0 "0 NumAFfiles".toList [spinLine] = .ok (.go { data := [spinZero] } 1 [spinLine]) := by rfl
    rw [loop]
    simp only [List.length_cons, List.length_nil]
    rw [h4]
    exact spin_loop fuel []

/-- non-vacuity of `C81_partial`: a file with one airfoil file -/
example : ∀ l ∈ ["1 NumAFfiles".toList, spinLine], ∀ allow e, parseLine toy allow l = .ok e →
    lower e.label = "numfoil".toList ∨ lower e.label = "numaffiles".toList → e.value ≠ .scalar (.int 0) := by
  intro l hl allow e he _ hv
  simp at hl
  rcases hl with rfl | rfl <;> cases allow <;> cases he <;> cases hv

/-! ### C82 -/

/-- the lines of a file that can be saved -/
theorem saved_text (N : Num) (hP : N.toPyFloat.Lawful) (data : List (Item N.F))
    (h : Saved N [] valKinds labKinds data) :
    ∃ tss : List (List Str), toString_ N data = .ok (joinWith ['\n'] tss.flatten ++ lastNewline data) ∧
      List.Forall₂ (ItemLines N) data tss ∧
      (∀ l ∈ tss.flatten, ∀ c ∈ l, isLineBreak c = false) ∧
      List.Forall₂ (fun d t => itemText N d = .ok t) data (tss.map (joinWith ['\n'])) ∧
      (∀ ls ∈ tss, ls ≠ []) ∧
      ∀ (n fuel : Nat) (lines : List Str), (lines = tss.flatten ∨ (EndsBeam data ∧ lines = tss.flatten.dropLast)) →
        lines.length ≤ fuel → 100 * comments data ≤ 35 * n →
        ∃ data', loop N n fuel {} 0 lines = .ok data' ∧ List.Forall₂ (Same N) data data' := by
  obtain ⟨tss, h1, h2⟩ := saved_loop hP h (fun _ h => h) (fun _ h => h)
  obtain ⟨h3, h4, h5⟩ := itemLines_texts data tss h1
  refine ⟨tss, ?_, h1, h5, h3, h4, ?_⟩
  · rw [toString_join N data _ (saved_notBeam h) h3, join_flatten tss h4]
  · intro n fuel lines hl hf hC
    obtain ⟨data', h6, h7⟩ := h2 n fuel {} 0 0 lines (inv_start [] _ _) hl hf (by simpa using hC)
    exact ⟨data', h6, by simpa using h7⟩

/-- a joined text that does not end with a line break ends with a line that is not empty -/
theorem last_line (ls : List Str) (h : ∃ c, (joinWith ['\n'] ls).getLast? = some c ∧ c ≠ '\n') :
    ls.getLast? ≠ some [] := by
  intro hl
  obtain ⟨c, hc, hne⟩ := h
  obtain ⟨pre, rfl⟩ : ∃ pre, ls = pre ++ [[]] := by
    rw [List.getLast?_eq_some_iff] at hl; exact hl
  by_cases hp : pre = []
  · subst hp; simp [joinWith] at hc
  · rw [joinWith_append _ _ _ hp (by simp)] at hc
    simp [joinWith] at hc
    exact hne hc.symm

/-- the lines read back: the empty line after a blade may be lost -/
theorem saved_lines (N : Num) (data : List (Item N.F)) (h : Saved N [] valKinds labKinds data)
    (tss : List (List Str)) (h1 : List.Forall₂ (ItemLines N) data tss)
    (h2 : ∀ l ∈ tss.flatten, ∀ c ∈ l, isLineBreak c = false)
    (hlast : EndsBeam data ∨ ∃ c, (joinWith ['\n'] tss.flatten ++ lastNewline data).getLast? = some c ∧ c ≠ '\n') :
    splitlines (joinWith ['\n'] tss.flatten ++ lastNewline data) = tss.flatten ∨
      (EndsBeam data ∧ splitlines (joinWith ['\n'] tss.flatten ++ lastNewline data) = tss.flatten.dropLast) := by
  by_cases hb : EndsBeam data
  · obtain ⟨pre, h3, h4⟩ := beam_last h hb tss h1
    by_cases hn : lastNewline data = []
    · right
      refine ⟨hb, ?_⟩
      rw [hn, List.append_nil, h3, splitlines_nl pre (fun l hl => h2 l (by rw [h3]; simp [hl])) h4, List.dropLast_concat]
    · left
      have : lastNewline data = ['\n'] := by
        unfold lastNewline at hn ⊢
        split at hn
        · split at hn
          · rename_i hx; rw [if_pos hx]
          · exact absurd rfl hn
        · exact absurd rfl hn
      rw [this, nl_lines _ (by rw [h3]; simp), splitlines_nl _ h2 (by rw [h3]; simp)]
  · left
    rcases hlast with hlast | hlast
    · exact absurd hlast hb
    · rw [lastNewline_plain data hb, List.append_nil] at hlast ⊢
      exact splitlines_join _ h2 (last_line _ hlast)

/-- **C82.** A file made of comments, keys, tables of numbers or words, polars, damping matrices,
lists of at least two files, and, at its end, a list of channels (of the generic form or the form of
SubDyn) or the sections of a BeamDyn blade, can be saved.  If the text saved does not end with an
empty line (a blade may), is not mistaken for another type of file, and at most 35% of its lines are
comments before the channels, it is read back — same labels, values, columns, units, in the same
order — and what was read is saved as the same text.  Missing from the full statement: nodal channel
lists, several polars, airfoil coordinates, lists of one file and the stiffness section of HydroDyn
(see `C82_fails`). -/
theorem C82_partial (N : Num) (hP : N.toPyFloat.Lawful) (data : List (Item N.F))
    (h : Saved N [] valKinds labKinds data) :
    ∃ text, toString_ N data = .ok text ∧
      ∀ fuel, (EndsBeam data ∨ ∃ c, text.getLast? = some c ∧ c ≠ '\n') →
        isExtPtfm (splitlines text) = .ok false → isAD14 (splitlines text) = false →
        100 * comments data ≤ 35 * (splitlines text).length →
        (splitlines text).length ≤ fuel →
        ∃ data', readText N fuel text = .ok data' ∧ List.Forall₂ (Same N) data data' ∧
          toString_ N data' = .ok text := by
  obtain ⟨tss, h1, hi, h2, h3, h4, h5⟩ := saved_text N hP data h
  refine ⟨_, h1, ?_⟩
  intro fuel hlast hext had hC hf
  have hs := saved_lines N data h tss hi h2 hlast
  obtain ⟨data', h6, h7⟩ := h5 _ fuel _ hs hf hC
  refine ⟨data', ?_, h7, ?_⟩
  · unfold readText readLines
    rw [hext]
    simp only [had]
    rw [if_neg (by simp), h6]
  · rw [toString_join N data' _ (same_notBeam _ _ h7 (saved_notBeam h)) (same_texts _ _ _ h7 h3),
      join_flatten tss h4, same_last _ _ h7]

/-- a tower, two files and a list of channels -/
def demo : List (Item toyN.F) :=
  [.comment "--- tower file ---".toList,
   { label := "NTwInpSt".toList, value := .plain (.scalar (.int 2)), descr := "- stations".toList },
   { label := "TowProp".toList, tabType := .numHeader, names := some ["HtFract".toList, "TMassDen".toList],
     units := some ["(-)".toList, "(kg/m)".toList],
     value := .num [[dec "0.0", dec "5590.8"], [dec "1.0", dec "5232.4"]] },
   { label := "NumAFfiles".toList, value := .plain (.scalar (.int 2)), descr := "- number of files".toList },
   { label := "AFNames".toList, tabType := .fil, value := .fil ["a.dat".toList, "b.dat".toList],
     descr := "- names".toList },
   { label := "NumAlf".toList, value := .plain (.scalar (.int 1)), descr := "- lines".toList },
   { label := "AFCoeff".toList, tabType := .numHeaderCom, names := some ["Alpha".toList, "Cl".toList],
     units := some ["(deg)".toList, "(-)".toList], value := .num [[dec "-180.0", dec "0.5"]] },
   { label := "OutList".toList, tabType := .fil, descr := "OUTPUT CHANNELS".toList,
     value := .fil [[], "\"TwrClrnc1\"".toList, "\"TipDxc1\"".toList] }] ++ endEntries _

instance (w : Str) : Decidable (IsWord w) := inferInstanceAs (Decidable (_ ∧ _))
instance (w : Str) : Decidable (IsEnd w) := inferInstanceAs (Decidable (_ = _))

theorem strOK_word (s : Str) (h : words s = [s]) (hw : IsWord s) (hc : isCommentText s = false)
    (hq : s.head? ≠ some '"' ∧ ',' ∉ s) (hi : strIsInt s = false) (hf : (toy.parse s).isNone = true)
    (hb : strIsBool s = false) : StrOK toy s :=
  ⟨⟨by rw [h]; simp [joinWith], by simp [h], by simpa [h] using hw, hc, Or.inl ⟨hq.1, hq.2, s, h⟩⟩, hi,
    by simpa using hf, hb⟩

theorem labelOK_of (s : Str) (h : IsWord s ∧ ',' ∉ s ∧ (toy.parse s).isNone = true ∧ strIsBool s = false ∧
    bangColon s = false) : LabelOK toy s :=
  ⟨h.1, h.2.1, by simpa using h.2.2.1, h.2.2.2.1, h.2.2.2.2⟩

theorem toy_numText (x : toyN.F) (t : Str) (k : Nat) (h : t = List.replicate k ' ' ++ x.1) (hne : x.1 ≠ [])
    (hc : ∀ c ∈ x.1, c.isDigit = true ∨ c = '+' ∨ c = '-' ∨ c = '.' ∨ c = 'e' ∨ c = 'E')
    (hl : lower x.1 = x.1) : NumTextOK toyN t x :=
  ⟨k, x.1, h, hne, hc, by rw [hl]; exact dif_pos x.2⟩

/-- non-vacuity of `C82_partial` -/
example : Saved toyN [] valKinds labKinds demo ∧
    ∃ text, toString_ toyN demo = .ok text ∧ (∃ c, text.getLast? = some c ∧ c ≠ '\n') ∧
      isExtPtfm (splitlines text) = .ok false ∧ isAD14 (splitlines text) = false ∧
      100 * comments demo ≤ 35 * (splitlines text).length := by
  refine ⟨?_, ?_⟩
  · refine .plain _ _ _ _ _ ⟨commentEntry toy "--- tower file ---".toList, rfl, ?_, by decide, by decide, Or.inl (by decide)⟩ ?_
    · exact Or.inl ⟨_, rfl, Or.inl (by right; right; left; decide)⟩
    refine .plain _ _ _ _ _ ⟨⟨"NTwInpSt".toList, .scalar (.int 2), false, "- stations".toList, 0⟩, rfl, ?_,
      by decide, by decide, Or.inl (by decide)⟩ ?_
    · refine Or.inr ⟨rfl, rfl, ⟨⟨by decide, by decide⟩, by decide, by decide, by decide, by decide⟩, by decide,
        Or.inl ⟨.int 2, rfl, trivial, by decide, by decide, by decide⟩⟩
    refine .valTable _ _ _ (mkKind "htfract" "NTwInpSt" "TowProp" 2 0 false) 2 _ _ ?_ ⟨_, rfl, rfl⟩ (by decide +kernel) ?_
    · refine ⟨rfl, rfl, _, rfl, ⟨⟨by decide, by decide, by decide⟩, ?_, ?_, ?_, ?_, by decide⟩,
        Or.inl ⟨rfl, _, rfl, rfl, ?_⟩, Or.inl ⟨rfl, rfl, _, rfl, rfl, ?_⟩⟩
      · intro c hc; cases hc
        exact strOK_word _ (by decide) (by decide) (by decide) (by decide) (by decide) (by decide) (by decide)
      · intro c hc; cases hc
        exact labelOK_of _ (by decide)
      · intro c hc; cases hc; decide
      · intro c hc; cases hc; decide
      · intro u hu; simp at hu; rcases hu with rfl | rfl
        · exact ⟨"-".toList, by decide⟩
        · exact ⟨"kg/m".toList, by decide⟩
      · intro r hr
        simp at hr
        rcases hr with rfl | rfl
        · refine ⟨rfl, ?_⟩
          intro x hx
          simp at hx
          rcases hx with rfl | rfl <;> exact ⟨_, rfl, toy_numText _ _ _ rfl (by decide) (by decide) (by decide)⟩
        · refine ⟨rfl, ?_⟩
          intro x hx
          simp at hx
          rcases hx with rfl | rfl <;> exact ⟨_, rfl, toy_numText _ _ _ rfl (by decide) (by decide) (by decide)⟩
    refine .plain _ _ _ _ _ ⟨⟨"NumAFfiles".toList, .scalar (.int 2), false, "- number of files".toList, 0⟩, rfl, ?_,
      by decide, by decide, Or.inl (by decide)⟩ ?_
    · refine Or.inr ⟨rfl, rfl, ⟨⟨by decide, by decide⟩, by decide, by decide, by decide, by decide⟩, by decide,
        Or.inl ⟨.int 2, rfl, trivial, by decide, by decide, by decide⟩⟩
    refine .files _ _ _ ("afnames".toList, "NumAFfiles".toList, "AFNames".toList) _ _
      ⟨by decide, rfl, by decide, rfl, rfl, ⟨rfl, rfl⟩, by decide, "a.dat".toList, ["b.dat".toList], rfl, by decide,
        by decide, ?_, by decide, by decide, by decide, rfl⟩ ?_
    · exact strOK_word _ (by decide) (by decide) (by decide) (by decide) (by decide) (by decide) (by decide)
    refine .polar _ _ _ 1 _ _ _ ⟨⟨"NumAlf".toList, .scalar (.int 1), false, "- lines".toList, 0⟩, rfl, rfl, ?_,
      by decide, by decide, ?_, by decide⟩ ?_ rfl (by decide) ?_
    · refine Or.inr ⟨rfl, rfl, ⟨⟨by decide, by decide⟩, by decide, by decide, by decide, by decide⟩, by decide,
        Or.inl ⟨.int 1, rfl, trivial, by decide, by decide, by decide⟩⟩
    · intro s hs; simp at hs
    · refine ⟨rfl, rfl, rfl, _, _, _, rfl, rfl, rfl, ⟨by decide, by decide, by decide⟩, rfl, ?_, rfl, by decide, ?_⟩
      · intro u hu; simp at hu; rcases hu with rfl | rfl
        · exact ⟨"deg".toList, by decide⟩
        · exact ⟨"-".toList, by decide⟩
      · intro r hr
        simp at hr
        subst hr
        refine ⟨rfl, ?_⟩
        intro x hx
        simp at hx
        rcases hx with rfl | rfl <;> exact toy_numText _ _ _ rfl (by decide) (by decide) (by decide)
    refine .channels _ _ _ _ ⟨⟨by decide, by decide⟩, rfl, rfl, ⟨rfl, rfl⟩, ⟨by decide, by decide⟩, ⟨_, _, rfl, by decide⟩,
      by decide, by decide, _, rfl, by decide, by decide, by decide, by decide⟩
  · refine ⟨_, rfl, ⟨'-', by decide +kernel⟩, by decide +kernel, by decide +kernel, by decide +kernel⟩

/-- a SubDyn file -/
def demoSub : List (Item toyN.F) :=
  [{ label := "SttcSolve".toList, value := .plain (.scalar (.bool true)), descr := "- static".toList },
   .comment "----- MEMBER OUTPUT SSOutList -----".toList, .comment "\"M1N1FKxe\"".toList] ++ endEntries _

/-- non-vacuity of `C82_partial`, SubDyn -/
example : Saved toyN [] valKinds labKinds demoSub ∧
    ∃ text, toString_ toyN demoSub = .ok text ∧ (∃ c, text.getLast? = some c ∧ c ≠ '\n') ∧
      isExtPtfm (splitlines text) = .ok false ∧ isAD14 (splitlines text) = false ∧
      100 * comments demoSub ≤ 35 * (splitlines text).length := by
  refine ⟨?_, ?_⟩
  · refine .plain _ _ _ _ _ ⟨⟨"SttcSolve".toList, .scalar (.bool true), false, "- static".toList, 0⟩, rfl, ?_,
      by decide, by decide, Or.inl (by decide)⟩ ?_
    · refine Or.inr ⟨rfl, rfl, ⟨⟨by decide, by decide⟩, by decide, by decide, by decide, by decide⟩, by decide,
        Or.inl ⟨.bool true, rfl, trivial, by decide, by decide, by decide⟩⟩
    · refine .subdyn _ _ _ _ ["\"M1N1FKxe\"".toList] ⟨⟨by decide, by decide⟩, ⟨_, rfl, ?_, by decide, by decide, by decide⟩,
        by decide, by decide, by decide⟩
      right; right; left; decide
  · refine ⟨_, rfl, ⟨'-', by decide +kernel⟩, by decide +kernel, by decide +kernel, by decide +kernel⟩

/-- a blade with one section -/
def demoBeam : List (Item toyN.F) :=
  [{ label := "station_total".toList, value := .plain (.scalar (.int 1)), descr := "- stations".toList },
   .comment "--- DISTRIBUTED PROPERTIES ---".toList,
   { label := "BeamProperties".toList, tabType := .beamdyn,
     value := .beam [(dec "0.5", List.replicate 36 (dec "1.5"), List.replicate 36 (dec "-2.25"))] }]

/-- non-vacuity of `C82_partial`, BeamDyn -/
example : Saved toyN [] valKinds labKinds demoBeam ∧ EndsBeam demoBeam ∧
    ∃ text, toString_ toyN demoBeam = .ok text ∧
      isExtPtfm (splitlines text) = .ok false ∧ isAD14 (splitlines text) = false ∧
      100 * comments demoBeam ≤ 35 * (splitlines text).length := by
  refine ⟨?_, ⟨_, rfl, rfl⟩, ?_⟩
  · refine .plain _ _ _ _ _ ⟨⟨"station_total".toList, .scalar (.int 1), false, "- stations".toList, 0⟩, rfl, ?_,
      by decide, by decide, Or.inl (by decide)⟩ ?_
    · refine Or.inr ⟨rfl, rfl, ⟨⟨by decide, by decide⟩, by decide, by decide, by decide, by decide⟩, by decide,
        Or.inl ⟨.int 1, rfl, trivial, by decide, by decide, by decide⟩⟩
    · refine .beam _ _ _ _ _ ⟨⟨_, rfl, ?_, by decide, by decide, by decide, by decide, by decide⟩, rfl, rfl, rfl, ⟨rfl, rfl⟩,
        _, rfl, by simp, ?_, rfl⟩
      · right; right; left; decide
      · intro q hq
        have hq := List.mem_singleton.1 hq
        rw [hq]
        refine ⟨by rfl, by decide, rfl, rfl, ?_, ?_⟩
        · intro y hy
          rw [List.eq_of_mem_replicate (n := 36) (a := dec "1.5") hy]
          exact ⟨5, "1.5".toList, by decide, by decide, by rfl⟩
        · intro y hy
          rw [List.eq_of_mem_replicate (n := 36) (a := dec "-2.25") hy]
          exact ⟨3, "-2.25".toList, by decide, by decide, by rfl⟩
  · refine ⟨_, rfl, by decide +kernel, by decide +kernel, by decide +kernel⟩

/-- a file with two lists of channels -/
def nodalText : Str :=
  ("1 A\n2 B\n3 C\n OutList OUTPUT CHANNELS\n\"GenPwr\"\nEND of input\n---\n1 BldNd_BladesOut\n2 BldNd_BlOutNd\n" ++
   "3 D\n4 E\n OutList OUTPUT CHANNELS\n\"Fx\"\nEND\n").toList

/-- an airfoil file with two tables -/
def polarsText : Str :=
  ("2 NumTabs\n1.0 Re\n1 NumAlf\n! Alpha Cl\n! (deg) (-)\n 0.0 1.0\n1.0 Re\n1 NumAlf\n! Alpha Cl\n" ++
   "! (deg) (-)\n 0.0 1.0\n").toList

/-- the label of the entry `j` -/
def labelAt (r : Except RErr (List (Item F))) (j : Nat) : Option Str :=
  match r with
  | .ok ds => (ds[j]?).map Item.label
  | .error _ => none

/-- the exception -/
def errOf (r : Except RErr (List (Item F))) : Option RErr :=
  match r with
  | .ok _ => none
  | .error e => some e

/-- read and save -/
def cycle (N : Num) (fuel : Nat) (text : Str) : Option Str :=
  match readText N fuel text with
  | .error _ => none
  | .ok ds => match toString_ N ds with
    | .error _ => none
    | .ok t => some t

/-- **C82 fails.** (1) The label of the second list of channels changes each time the file is saved
and read: `OutList_Nodal`, `OutList_Nodal_Nodal`.  (2) An airfoil file with two tables that was read
and saved cannot be read any more. -/
theorem C82_fails :
    (∃ t2 t3, labelAt (readText toyN 20 nodalText) 10 = some "OutList_Nodal".toList ∧
      cycle toyN 20 nodalText = some t2 ∧
      labelAt (readText toyN 20 t2) 10 = some "OutList_Nodal_Nodal".toList ∧ cycle toyN 20 t2 = some t3 ∧
      labelAt (readText toyN 20 t3) 10 = some "OutList_Nodal_Nodal_Nodal".toList) ∧
    (∃ t2, errOf (readText toyN 20 polarsText) = none ∧ cycle toyN 20 polarsText = some t2 ∧
      errOf (readText toyN 20 t2) = some .wrongFormat) := by
  refine ⟨⟨((cycle toyN 20 nodalText).getD []), ((cycle toyN 20 ((cycle toyN 20 nodalText).getD [])).getD []), ?_, ?_, ?_, ?_, ?_⟩,
    ((cycle toyN 20 polarsText).getD []), ?_, ?_, ?_⟩ <;> decide +kernel

/-! ### C83: airfoil files -/

/-- every AeroDyn 14 polar that can be read cannot be saved: the writer does not know tables without
header. -/
theorem C83_ad14_fails (N : Num) (fuel : Nat) (lines : List Str) (data : List (Item N.F))
    (hext : isExtPtfm lines = .ok false) (had : isAD14 lines = true)
    (h : readLines N fuel lines = .ok data) : toString_ N data = .error .unknown := by
  have hval : ∀ (ls : List Str) (vs : List (Item N.F)), ls.mapM (ad14Value N) = .ok vs →
      ∀ d ∈ vs, ∃ t, itemText N d = .ok t := by
    intro ls
    induction ls with
    | nil => intro vs hvs d hd; cases hvs; simp at hd
    | cons l ls ih =>
      intro vs hvs d hd
      rw [List.mapM_cons] at hvs
      cases hv : ad14Value N l with
      | error e => rw [hv] at hvs; cases hvs
      | ok x =>
        cases hm : ls.mapM (ad14Value N) with
        | error e => rw [hv, hm] at hvs; cases hvs
        | ok xs =>
          rw [hv, hm] at hvs
          cases hvs
          rcases List.mem_cons.1 hd with rfl | hd
          · unfold ad14Value at hv
            split at hv
            · cases hv
            · split at hv
              · cases hv
              · cases hv; exact ⟨_, rfl⟩
          · exact ih xs hm d hd
  have hstr : ∀ (ds : List (Item N.F)) (last : Item N.F) (len j : Nat), (∀ d ∈ ds, ∃ t, itemText N d = .ok t) →
      itemText N last = .error .unknown → toStringFrom N len j (ds ++ [last]) = .error .unknown := by
    intro ds last len
    induction ds with
    | nil => intro j _ hl; rw [List.nil_append, toStringFrom, hl]
    | cons d ds ih =>
      intro j hds hl
      obtain ⟨t, ht⟩ := hds d (by simp)
      rw [List.cons_append, toStringFrom, ht, ih (j + 1) (fun d hd => hds d (by simp [hd])) hl]
  unfold readLines at h
  rw [hext] at h
  simp only [had, if_true] at h
  unfold readAD14 at h
  extract_lets m at h
  split at h
  · cases h
  · split at h
    · cases h
    · rename_i vs hvs
      split at h
      · cases h
      · cases h
        unfold toString_
        apply hstr
        · intro d hd
          rcases List.mem_append.1 hd with hd | hd
          · simp only [List.mem_cons, List.not_mem_nil, or_false] at hd
            rcases hd with rfl | rfl <;> exact ⟨_, rfl⟩
          · exact hval _ vs hvs d hd
        · rfl

/-- airfoil coordinates -/
def coordText : Str := "3 NumCoords\n! a\n! b\n! c\n0.25 0.0\n! x\n! y\n! x/c y/c\n1.0 0.0\n0.0 0.1\n".toList

/-- **C83 fails.** A file of airfoil coordinates that was read and saved is refused when it is read
again: the reference point is written with a comma. -/
theorem C83_coords_fails : ∃ t2, errOf (readText toyN 20 coordText) = none ∧ cycle toyN 20 coordText = some t2 ∧
    errOf (readText toyN 20 t2) = some .wrongFormat := by
  refine ⟨(cycle toyN 20 coordText).getD [], ?_, ?_, ?_⟩ <;> decide +kernel

/-- an AeroDyn 14 polar -/
def ad14Lines : List Str :=
  ["Airfoil".toList, "written by hand".toList, "1 Number of airfoil tables".toList, "0.0 Table ID parameter".toList] ++
  List.replicate 8 "1.0 value".toList ++ ["0.0 Angle of attack".toList, "0.5 Minimum CD".toList, "-180.0 0.0 0.1".toList,
   "180.0 0.0 0.1".toList]

/-- non-vacuity of `C83_ad14_fails` -/
example : isExtPtfm ad14Lines = .ok false ∧ isAD14 ad14Lines = true ∧
    errOf (readLines toyN 0 ad14Lines) = none := by
  refine ⟨?_, ?_, ?_⟩ <;> decide +kernel

/-- entries before the polar -/
theorem saved_pre (N : Num) (v l : List Kind) (pre : List (Item N.F)) (tail : List (Item N.F)) (b : List (Item N.F))
    (hpre : ∀ a x c, pre = a ++ x :: c → PlainOK N (b ++ a) x) (h : Saved N (b ++ pre) v l tail) :
    Saved N b v l (pre ++ tail) := by
  induction pre generalizing b with
  | nil => simpa using h
  | cons x pre ih =>
    refine .plain _ _ _ _ _ (by simpa using hpre [] x pre rfl) (ih (b ++ [x]) ?_ (by simpa using h))
    intro a y c e
    have := hpre (x :: a) y c (by rw [e]; rfl)
    simpa using this

/-- **C83.** An airfoil file with one table and no coordinates (AeroDyn 15) can be saved and is read
back: same keys, same table, and then saved as the same text.  Missing: AeroDyn 14 polars
(`C83_ad14_fails`), coordinates (`C83_coords_fails`), several tables (`C82_fails` for the generic
class, and C74). -/
theorem C83_partial (N : Num) (hP : N.toPyFloat.Lawful) (pre : List (Item N.F)) (d0 d : Item N.F) (m : Nat)
    (hpre : ∀ a x c, pre = a ++ x :: c → PlainOK N a x) (h0 : KeyOK N "numalf" d0) (hd : PolarOK N m d)
    (hm : lookup (pre ++ [d0]) "NumAlf".toList = some (.plain (.scalar (.int m)))) :
    ∃ text, toString_ N (pre ++ [d0, d]) = .ok text ∧
      ∀ fuel, (∃ c, text.getLast? = some c ∧ c ≠ '\n') →
        isExtPtfm (splitlines text) = .ok false → isAD14 (splitlines text) = false →
        100 * comments (pre ++ [d0, d]) ≤ 35 * (splitlines text).length → (splitlines text).length ≤ fuel →
        ∃ data', readText N fuel text = .ok data' ∧ List.Forall₂ (Same N) (pre ++ [d0, d]) data' ∧
          toString_ N data' = .ok text := by
  have hs : Saved N [] valKinds labKinds (pre ++ [d0, d]) := by
    apply saved_pre N _ _ pre [d0, d] [] (by simpa using hpre)
    refine .polar _ _ _ m _ _ _ h0 hd (by simpa using hm) (by decide) (.nil _ _ _)
  obtain ⟨text, h1, h2⟩ := C82_partial N hP _ hs
  exact ⟨text, h1, fun fuel hl => h2 fuel (Or.inr hl)⟩

/-- non-vacuity of `C83_partial` -/
example : ∃ (pre : List (Item toyN.F)) (d0 d : Item toyN.F), pre.length = 1 ∧
    (∀ a x c, pre = a ++ x :: c → PlainOK toyN a x) ∧ KeyOK toyN "numalf" d0 ∧ PolarOK toyN 1 d ∧
    lookup (pre ++ [d0]) "NumAlf".toList = some (.plain (.scalar (.int 1))) ∧
    ∃ text, toString_ toyN (pre ++ [d0, d]) = .ok text ∧ (∃ c, text.getLast? = some c ∧ c ≠ '\n') ∧
      isExtPtfm (splitlines text) = .ok false ∧ isAD14 (splitlines text) = false ∧
      100 * comments (pre ++ [d0, d]) ≤ 35 * (splitlines text).length := by
  refine ⟨[{ label := "NumTabs".toList, value := .plain (.scalar (.int 1)), descr := "- tables".toList }],
   { label := "NumAlf".toList, value := .plain (.scalar (.int 1)), descr := "- lines".toList },
   { label := "AFCoeff".toList, tabType := .numHeaderCom, names := some ["Alpha".toList, "Cl".toList],
     units := some ["(deg)".toList, "(-)".toList], value := .num [[dec "-180.0", dec "0.5"]] }, rfl, ?_, ?_, ?_, rfl,
     _, rfl, ⟨'5', by decide +kernel⟩, by decide +kernel, by decide +kernel, by decide +kernel⟩
  · intro a x c h
    cases a with
    | cons _ a => cases a <;> simp at h
    | nil =>
      simp at h
      rw [← h.1]
      refine ⟨⟨"NumTabs".toList, .scalar (.int 1), false, "- tables".toList, 0⟩, rfl, ?_,
        by decide, by decide, Or.inl (by decide)⟩
      exact Or.inr ⟨rfl, rfl, ⟨⟨by decide, by decide⟩, by decide, by decide, by decide, by decide⟩, by decide,
        Or.inl ⟨.int 1, rfl, trivial, by decide, by decide, by decide⟩⟩
  · refine ⟨⟨"NumAlf".toList, .scalar (.int 1), false, "- lines".toList, 0⟩, rfl, rfl, ?_,
      by decide, by decide, ?_, by decide⟩
    · refine Or.inr ⟨rfl, rfl, ⟨⟨by decide, by decide⟩, by decide, by decide, by decide, by decide⟩, by decide,
        Or.inl ⟨.int 1, rfl, trivial, by decide, by decide, by decide⟩⟩
    · intro s hs; simp at hs
  · refine ⟨rfl, rfl, rfl, _, _, _, rfl, rfl, rfl, ⟨by decide, by decide, by decide⟩, rfl, ?_, rfl, by decide, ?_⟩
    · intro u hu; simp at hu; rcases hu with rfl | rfl
      · exact ⟨"deg".toList, by decide⟩
      · exact ⟨"-".toList, by decide⟩
    · intro r hr
      simp at hr
      subst hr
      refine ⟨rfl, ?_⟩
      intro x hx
      simp at hx
      rcases hx with rfl | rfl <;> exact toy_numText _ _ _ rfl (by decide) (by decide) (by decide)

/-! ### C84: saving again and again -/

/-- `n` times -/
def cycles (N : Num) (fuel : Nat) : Nat → Str → Option Str
  | 0, t => some t
  | n + 1, t => match cycle N fuel t with
    | none => none
    | some t => cycles N fuel n t

/-- **C84.** The files of C82 can be read and saved any number of times: the text stays the same.
Missing: the files of `C84_fails`, and those missing in `C82_partial`. -/
theorem C84_partial (N : Num) (hP : N.toPyFloat.Lawful) (data : List (Item N.F))
    (h : Saved N [] valKinds labKinds data) (text : Str) (ht : toString_ N data = .ok text) (fuel : Nat)
    (hlast : EndsBeam data ∨ ∃ c, text.getLast? = some c ∧ c ≠ '\n')
    (hext : isExtPtfm (splitlines text) = .ok false) (had : isAD14 (splitlines text) = false)
    (hC : 100 * comments data ≤ 35 * (splitlines text).length) (hf : (splitlines text).length ≤ fuel) (n : Nat) :
    cycles N fuel n text = some text := by
  obtain ⟨text', h1, h2⟩ := C82_partial N hP data h
  rw [ht] at h1
  injection h1 with h1
  subst h1
  obtain ⟨data', h3, _, h4⟩ := h2 fuel hlast hext had hC hf
  have hc : cycle N fuel text = some text := by unfold cycle; rw [h3]; simp only; rw [h4]
  induction n with
  | zero => rfl
  | succ n ih => rw [cycles, hc]; exact ih

/-- the lines of a file with a stiffness section whose first line is `f` -/
def stiffFile (f : Str) : List Str :=
  ["1             A             -".toList, "2             B             -".toList, "3             C             -".toList,
   "--- ADDITIONAL STIFFNESS ---".toList, f] ++ List.replicate 18 "0.0".toList

/-- the entries -/
def stiffData (f : Str) : List (Item toyN.F) :=
  [{ label := "A".toList, value := .plain (.scalar (.int 1)), descr := "-".toList },
   { label := "B".toList, value := .plain (.scalar (.int 2)), descr := "-".toList },
   { label := "C".toList, value := .plain (.scalar (.int 3)), descr := "-".toList },
   .comment "--- ADDITIONAL STIFFNESS ---".toList,
   { label := "KDAdd".toList, tabType := .fil, value := .fil (f :: List.replicate 18 "0.0".toList) }]

theorem stiff_read (f : Str) : readLines toyN 23 (stiffFile f) = .ok (stiffData f) := by
  rfl

theorem stiff_write (f : Str) : toString_ toyN (stiffData f) = .ok (joinWith ['\n'] (stiffFile (f ++ " KDAdd ".toList))) := by
  have h := toString_join toyN (stiffData f)
    ["1             A             -".toList, "2             B             -".toList, "3             C             -".toList,
     "--- ADDITIONAL STIFFNESS ---".toList, joinWith ['\n'] ((f ++ " KDAdd ".toList) :: List.replicate 18 "0.0".toList)]
    (by
      intro d hd
      simp [stiffData, Item.comment] at hd
      rcases hd with rfl | rfl | rfl | rfl <;> simp)
    (.cons rfl (.cons rfl (.cons rfl (.cons rfl (.cons (by
      show (.ok (filText f "KDAdd".toList [] _) : Except WErr Str) = _
      unfold filText
      rw [joinWith_cons _ _ _ (by simp)]
      simp) .nil)))))
  rw [h, lastNewline_plain _ (by rintro ⟨d, h, ht⟩; cases h; cases ht), List.append_nil]
  rfl

theorem stiff_cycle (f : Str) (hf : ∀ c ∈ f, isLineBreak c = false) :
    cycle toyN 23 (joinWith ['\n'] (stiffFile f)) = some (joinWith ['\n'] (stiffFile (f ++ " KDAdd ".toList))) := by
  unfold cycle readText
  rw [splitlines_join, stiff_read]
  · simp only
    rw [stiff_write]
  · intro l hl
    unfold stiffFile at hl
    rcases List.mem_append.1 hl with hl | hl
    · simp only [List.mem_cons, List.not_mem_nil, or_false] at hl
      rcases hl with rfl | rfl | rfl | rfl | rfl
      · decide
      · decide
      · decide
      · decide
      · exact hf
    · rw [List.eq_of_mem_replicate hl]; decide
  · unfold stiffFile
    rw [List.getLast?_append]
    simp

theorem stiff_cycles (n : Nat) (f : Str) (hf : ∀ c ∈ f, isLineBreak c = false) :
    cycles toyN 23 n (joinWith ['\n'] (stiffFile f))
      = some (joinWith ['\n'] (stiffFile (f ++ (List.replicate n " KDAdd ".toList).flatten))) := by
  induction n generalizing f with
  | zero => simp [cycles]
  | succ n ih =>
    rw [cycles, stiff_cycle f hf]
    simp only
    rw [ih]
    · rw [List.replicate_succ, List.flatten_cons, List.append_assoc]
    · exact breaks_append _ _ hf (by decide)

/-- a list of one file -/
def oneFile : Str := "1 NumAFfiles\n\"a.dat\" AFNames - list\n1 C\n".toList

/-- **C84 fails.** (1) A HydroDyn file grows by seven characters at each cycle of reading and saving.
(2) A file with a list of one file gets a blank line more at each cycle; the small file given here can
be read and saved twice, and not a third time: too many of its lines are blank. -/
theorem C84_fails :
    (∃ text fuel, ∀ n, ∃ t, cycles toyN fuel n text = some t ∧ t.length = text.length + 7 * n) ∧
    (∃ t1 t2, cycle toyN 20 oneFile = some t1 ∧ cycle toyN 20 t1 = some t2 ∧
      (splitlines t1).length = (splitlines oneFile).length + 1 ∧ (splitlines t2).length = (splitlines oneFile).length + 2 ∧
      errOf (readText toyN 20 t2) = some .wrongFormat) := by
  refine ⟨⟨joinWith ['\n'] (stiffFile []), 23, ?_⟩, (cycle toyN 20 oneFile).getD [],
    (cycle toyN 20 ((cycle toyN 20 oneFile).getD [])).getD [], ?_, ?_, ?_, ?_, ?_⟩
  · intro n
    refine ⟨_, stiff_cycles n [] (by simp), ?_⟩
    have hlen : ∀ f : Str, (joinWith ['\n'] (stiffFile f)).length = (joinWith ['\n'] (stiffFile [])).length + f.length := by
      intro f
      obtain ⟨H, hH, e⟩ : ∃ H, H ≠ [] ∧ ∀ f : Str, stiffFile f = H ++ (f :: List.replicate 18 "0.0".toList) :=
        ⟨(stiffFile []).take 4, by decide, fun _ => rfl⟩
      rw [e f, e []]
      rw [joinWith_append _ _ _ hH (by simp), joinWith_append _ _ _ hH (by simp),
        joinWith_cons _ _ _ (by simp), joinWith_cons _ _ _ (by simp)]
      simp only [List.length_append, List.length_nil]
      omega
    rw [hlen]
    simp
    omega
  all_goals decide +kernel

/-! ### C85: names in a list of files -/

/-- **C85.** Each line of a list of files gives its first word, up to the first blank: names without
blanks are kept, whatever follows them.  Missing: names with blanks (`C85_fails`). -/
theorem C85_partial (names : List Str) (rests : List Str) (h : ∀ w ∈ names, IsWord w)
    (hlen : rests.length = names.length) :
    parseFil (names.zipWith (fun w r => w ++ ' ' :: r) rests) names.length = .ok names := by
  unfold parseFil
  rw [if_neg (by simp [hlen])]
  induction names generalizing rests with
  | nil => cases rests <;> rfl
  | cons w ws ih =>
    cases rests with
    | nil => simp at hlen
    | cons r rs =>
      have hw := h w (by simp)
      have ih := ih rs (fun w hw => h w (by simp [hw])) (by simpa using hlen)
      rw [List.zipWith_cons_cons, List.mapM_cons, ih, words_word_cons hw _ _ isWs_space]
      simp only [strip_word hw]
      rfl

/-- non-vacuity of `C85_partial`, quotes are part of the name. -/
example : ∀ w ∈ ["\"a.dat\"".toList, "b.dat".toList], IsWord w := by decide

/-- **C85 fails.** A name with a blank, between quotes, is cut at the blank. -/
theorem C85_fails : ∃ lines, parseFil lines 1 = .ok ["\"AF".toList] ∧ lines = ["\"AF files/a.dat\" AFNames".toList] :=
  ⟨_, by decide, rfl⟩

end Verif.FastRead
