import Verif.Lemmas.FastHandFile
import Verif.Props.FastRead
/-!
# C87: what a hand-written OpenFAST input file says is what is read

Model: `Verif/Model/FastRead.lean`; the files: `Verif/Spec/FastHand.lean`.
-/
namespace Verif.FastRead
open Verif.Py Verif.FastDict Verif.FastLine Verif.FastTable

/-- **C87.** From a file made of comments, lines `value label`, `v1, v2 label`, tables of the documented
kinds with as many rows as an earlier key says, polars, file lists and a final list of channels, the
reader gives exactly the items these lines stand for, in their order: labels, values, names and units of
columns.  At most 35% of the lines are comments; the file is neither an ExtPtfm file (first line
starting with `!`) nor an AeroDyn 14 polar (third line starting with an integer). -/
theorem C87 (N : Num) (hP : N.toPyFloat.Lawful) (lines : List Str) (ds : List (Seen N.F)) (c fuel : Nat)
    (h : Hand N [] docVals docLabs lines ds c) (hc : 100 * c ≤ 35 * lines.length)
    (hext : lines.length < 10 ∨ ∃ ch r, lines.head? = some (ch :: r) ∧ ch ≠ '!')
    (had : lines.length < 14 ∨ ∀ w ws, words (lines.getD 2 []) = w :: ws → ¬ IntText w)
    (hf : lines.length ≤ fuel) :
    ∃ data, readLines N fuel lines = .ok data ∧ data.map Item.seen = ds := by
  have h0 : HInv N [] docVals docLabs 0 {} :=
    ⟨rfl, vals_docs.symm, labs_docs.symm, rfl, rfl, rfl, rfl, by simp [KpSeen], fun _ h => h, fun _ h => h⟩
  obtain ⟨data, hd, hs⟩ := hand_count h hP {} lines.length 0 fuel 0 h0 (by omega) hf
  refine ⟨data, ?_, hs⟩
  rw [readLines_loop N lines fuel hext had]
  exact hd

/-- **C87.** The value found under a key in the file read is that of the first line with this label,
whatever the case. -/
theorem C87_value (N : Num) (hP : N.toPyFloat.Lawful) (lines : List Str) (ds : List (Seen N.F)) (c fuel : Nat)
    (h : Hand N [] docVals docLabs lines ds c) (hc : 100 * c ≤ 35 * lines.length)
    (hext : lines.length < 10 ∨ ∃ ch r, lines.head? = some (ch :: r) ∧ ch ≠ '!')
    (had : lines.length < 14 ∨ ∀ w ws, words (lines.getD 2 []) = w :: ws → ¬ IntText w)
    (hf : lines.length ≤ fuel) (key : Str) (pre post : List (Seen N.F)) (d : Seen N.F) (hd : ds = pre ++ d :: post)
    (hpre : ∀ q ∈ pre, lower q.label ≠ lower key) (hk : lower d.label = lower key) :
    ∃ data, readLines N fuel lines = .ok data ∧ lookup data key = some d.value := by
  obtain ⟨data, h1, h2⟩ := C87 N hP lines ds c fuel h hc hext had hf
  refine ⟨data, h1, ?_⟩
  rw [lookup_seen, h2, hd]
  unfold valueOf
  rw [List.find?_append, List.find?_eq_none.2 (by intro q hq; simpa using hpre q hq)]
  simp [hk]

/-! ### an example -/

/-- a blade file written by hand -/
def handFile : List Str :=
  ["------- ELASTODYN BLADE FILE -------".toList,
   "".toList,
   "False  Echo   - Echo input".toList,
   "\t\"AF Info.dat\" PolarFile   - quoted name".toList,
   "0.5 !rem: x 7 BldFl1Sh(2) - a number after a remark".toList,
   "1,  2 OutNd - nodes".toList,
   "  +2   nblinpst   - number of stations".toList,
   "  BlFract  PitchAxis".toList,
   "  (-)  (-) ! units".toList,
   "  0.0  0.25 ! root".toList,
   "  1.0  0.25".toList,
   "  OutList  - OUTPUT CHANNELS".toList,
   "\"GenPwr\"".toList]

/-- what it says -/
def handItems : List (Seen toyN.F) :=
  [.comm _ "------- ELASTODYN BLADE FILE -------".toList,
   .comm _ [],
   ⟨"Echo".toList, .plain (.scalar (.bool false)), false, none, none⟩,
   ⟨"PolarFile".toList, .plain (.scalar (.str "\"AF Info.dat\"".toList)), false, none, none⟩,
   ⟨"BldFl1Sh(2)".toList, .plain (.scalar (.flt (dec "0.5"))), false, none, none⟩,
   ⟨"OutNd".toList, .plain (.list [.int 1, .int 2]), false, none, none⟩,
   ⟨"nblinpst".toList, .plain (.scalar (.int 2)), false, none, none⟩,
   ⟨"BldProp".toList, .num [[dec "0.0", dec "0.25"], [dec "1.0", dec "0.25"]], false,
     some ["BlFract".toList, "PitchAxis".toList], some ["(-)".toList, "(-)".toList]⟩,
   ⟨"OutList".toList, .fil [[], "\"GenPwr\"".toList], false, none, none⟩]

theorem noSection_of (l : Str) (h : sections.all (fun s => (find s.toList (upper l)).isNone) = true) : NoSection l := by
  intro s hs hi
  obtain ⟨i, e⟩ := find_of_infix _ _ hi
  have := List.all_eq_true.1 h s hs
  rw [e] at this
  cases this

theorem notEnd_of (l : Str) (h : ∀ a, (words l).head? = some a → ¬ "end".toList <+: lower a) : NotEnd l := by
  intro a b r hw he
  exact absurd he (h a (by rw [hw]; rfl))

theorem labelText_of (lab : Str) (h1 : lab ≠ []) (h2 : ∀ c ∈ lab, c.isAlphanum = true ∨ c ∈ ['"', '\'', '_', '(', ')', '-'])
    (h4 : toyN.parse lab = none)
    (h5 : lower lab ∉ ["true".toList, "t".toList, "false".toList, "f".toList]) : LabelText toyN lab := ⟨h1, h2, h4, h5⟩

theorem words_ok (l : Str) (w : Str) (h : w ∈ words l) : IsWord w := words_isWord l w h

theorem textOK_one (w : Str) (h1 : w ≠ []) (h0 : ∀ c ∈ w, isWs c = false) (h2 : isCommentText w = false)
    (h3 : w.head? ≠ some '"') (h4 : ',' ∉ w) : TextOK w [w] :=
  ⟨by simp [joinWith], by simp, by simp; exact ⟨h1, h0⟩, h2, .inl ⟨h3, h4, w, rfl⟩⟩

example : Hand toyN [] docVals docLabs handFile handItems 2 ∧ 100 * 2 ≤ 35 * handFile.length := by
  refine ⟨?_, by decide⟩
  unfold handFile handItems
  refine .comment _ _ _ _ _ _ _ (.inl ?_) (noSection_of _ (by decide +kernel)) ?_
  · right; right; left; exact ⟨_, rfl⟩
  refine .comment _ _ _ _ _ _ _ (.inr (by intro c hc; cases hc)) (noSection_of _ (by decide +kernel)) ?_
  refine .key _ _ _ _ _ _ _ _ _ ?_ (by intro s hs; cases hs) (by decide) ?_
  · exact ⟨"False".toList, ["False".toList], [], ["-".toList, "Echo".toList, "input".toList], by decide,
      textOK_one _ (by decide) (by decide) (by decide) (by decide) (by decide), .no _ (by rfl) (by decide), .nil, .inl rfl,
      notEnd_of _ (by intro a ha; injection ha with ha; subst ha; decide), noSection_of _ (by decide +kernel),
      labelText_of _ (by decide) (by decide) (by rfl) (by decide), by simp⟩
  refine .key _ _ _ _ _ _ _ _ _ ?_ ?_ (by decide) ?_
  · refine ⟨"\"AF Info.dat\"".toList, ["\"AF".toList, "Info.dat\"".toList], [], ["-".toList, "quoted".toList, "name".toList],
      by decide, ⟨by decide, by decide, ?_, by decide, .inr ⟨by decide, ["\"AF".toList], "Info.dat\"".toList, rfl, by decide, by decide⟩⟩,
      .str _ (by rfl) (by decide), .nil, .inl rfl,
      notEnd_of _ (by intro a ha; injection ha with ha; subst ha; decide), noSection_of _ (by decide +kernel),
      labelText_of _ (by decide) (by decide) (by rfl) (by decide), by simp⟩
    unfold IsWord; decide
  · intro s hs; injection hs with hs; subst hs; decide
  refine .key _ _ _ _ _ _ _ _ _ ?_ (by intro s hs; cases hs) (by decide) ?_
  · refine ⟨"0.5".toList, ["0.5".toList], ["!rem:".toList, "x".toList, "7".toList],
      ["-".toList, "a".toList, "number".toList, "after".toList, "a".toList, "remark".toList], by decide,
      textOK_one _ (by decide) (by decide) (by decide) (by decide) (by decide), .flt _ _ ?_ (by rfl),
      .tag _ _ _ ⟨by decide, by decide⟩ (.num _ _ (by rfl) (by unfold Tag; decide) .nil), .inr (by decide),
      notEnd_of _ (by intro a ha; injection ha with ha; subst ha; decide), noSection_of _ (by decide +kernel),
      labelText_of _ (by decide) (by decide) (by rfl) (by decide), ?_⟩
    · rw [← intText_iff]; decide
    · rintro ⟨d, hd, he⟩
      exfalso
      revert he
      simp only [List.nil_append, List.cons_append, List.mem_cons, List.not_mem_nil, or_false] at hd
      rcases hd with rfl | rfl | rfl | rfl <;> decide
  refine .list _ _ _ _ _ _ _ _ _ ?_ (by decide) ?_
  · refine ⟨["1".toList, "2".toList], ["-".toList, "nodes".toList], by decide, by decide, ?_, noSection_of _ (by decide +kernel),
      labelText_of _ (by decide) (by decide) (by rfl) (by decide), ?_⟩
    · refine .cons ⟨by unfold IsWord; decide, by decide, .nat 1, by intro s hs; cases hs⟩
        (.cons ⟨by unfold IsWord; decide, by decide, .nat 2, by intro s hs; cases hs⟩ .nil)
    · intro t ht; injection ht with ht; subst ht; decide
  refine .key _ _ _ _ _ _ _ _ _ ?_ (by intro s hs; cases hs) (by decide) ?_
  · exact ⟨"+2".toList, ["+2".toList], [], ["-".toList, "number".toList, "of".toList, "stations".toList], by decide,
      textOK_one _ (by decide) (by decide) (by decide) (by decide) (by decide), .plus 2, .nil, .inl rfl,
      notEnd_of _ (by intro a ha; injection ha with ha; subst ha; decide), noSection_of _ (by decide +kernel),
      labelText_of _ (by decide) (by decide) (by rfl) (by decide), by simp⟩
  refine .valTable _ _ _ { word := "blfract", rows := .key "NBlInpSt", name := "BldProp" } 2 _ ["  (-)  (-) ! units".toList]
    ["  0.0  0.25 ! root".toList, "  1.0  0.25".toList] _ _ _ "BlFract".toList "PitchAxis".toList _ _ _ ?_ (by rfl) ⟨_, rfl, rfl⟩ rfl rfl ?_ ?_
  · exact ⟨⟨[], by decide⟩, textOK_one _ (by decide) (by decide) (by decide) (by decide) (by decide), .str _ (by rfl) (by decide),
      (label_ok _ (labelText_of _ (by decide) (by decide) (by rfl) (by decide))).1, by decide,
      notEnd_of _ (by intro a ha; injection ha with ha; subst ha; decide), noSection_of _ (by decide +kernel)⟩
  · have k : ∀ s : String, (h : isSDec s.toList = true) →
        (∀ k ∈ ["true".toList, "false".toList, "print".toList], ¬ k <:+: lower s.toList) →
        lower s.toList = s.toList → Stands toyN s.toList ⟨s.toList, h⟩ := by
      intro s h hk hl
      refine .inr (.inr ⟨hk, ?_⟩)
      rw [hl]
      exact dif_pos h
    refine .num ["BlFract".toList, "PitchAxis".toList] (some ["-".toList, "-".toList]) 2
      [["0.0".toList, "0.25".toList], ["1.0".toList, "0.25".toList]] _ (by decide)
      (.two (.inl ⟨"  BlFract  PitchAxis".toList, by decide, by decide, .inl rfl⟩)
        ⟨by unfold UnitWord; decide, "  (-)  (-) ".toList, .inl (by decide), by decide, .inr ⟨'!', " units".toList, by decide, by decide⟩⟩ rfl)
      (.cons ⟨"  0.0  0.25 ".toList, by decide, by decide, by decide, .inr ⟨'!', " root".toList, by decide, by decide⟩⟩
        (.cons ⟨"  1.0  0.25".toList, by decide, by decide, by decide, .inl rfl⟩ .nil))
      (.cons ⟨rfl, .cons (k "0.0" _ (by decide) (by decide)) (.cons (k "0.25" _ (by decide) (by decide)) .nil)⟩
        (.cons ⟨rfl, .cons (k "1.0" _ (by decide) (by decide)) (.cons (k "0.25" _ (by decide) (by decide)) .nil)⟩ .nil))
      (by intro ts ht; injection ht with ht; subst ht; rfl) (by simp) (.inl (by decide)) (by simp)
  refine .channelsEnd _ _ _ _ _ ["\"GenPwr\"".toList] ⟨⟨"OUTPUT CHANNELS", by simp, ?_, ?_⟩, "  ".toList, "  - OUTPUT CHANNELS".toList,
    by decide, by decide, by decide, by decide, ?_⟩ ?_ (by decide)
  · exact find_infix _ _ 13 (by decide +kernel)
  · decide
  · intro c hc; injection hc with hc; subst hc; decide
  · decide

end Verif.FastRead
