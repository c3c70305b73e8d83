import Verif.Lemmas.HtcFile
import Verif.Py.Dec
/-!
# C34–C36: HAWC2 HTC files
-/
namespace Verif.Htc
open Verif.Py Verif.FastLine

/-- tenths, written with one decimal: used in examples -/
abbrev tenths : Flt where
  F := Int
  parse s :=
    match splitOn '.' s with
    | [a] => if strIsInt a then some (pyInt a * 10) else none
    | [a, b] => if strIsInt a && strIsInt b && b.length == 1 then some (pyInt a * 10 + pyInt b) else none
    | _ => none
  repr x := showInt (x / 10) ++ '.' :: showInt (x % 10)
  kind x := if x % 10 = 0 then .int (x / 10) else .frac

/-! ## C34 -/

/-- `addContents` for a sequence of entries -/
def addAll (keys : List Str) (items : List (Node F)) (nds : List (Node F)) : List Str × List (Node F) :=
  nds.foldl (fun s nd => addContents s.1 s.2 nd) (keys, items)

theorem addAll_spec (nds : List (Node F)) : ∀ (keys : List Str) (items : List (Node F)), keys.Nodup →
    (addAll keys items nds).1.Nodup ∧ (addAll keys items nds).2 = items ++ nds ∧
    ∃ ks, (addAll keys items nds).1 = keys ++ ks ∧ ks.length = nds.length ∧
      ∀ i k nd, ks[i]? = some k → nds[i]? = some nd →
        (nd.name ∉ keys ++ ks.take i → k = nd.name) ∧
        (nd.name ∈ keys ++ ks.take i → ∃ j : Nat, 2 ≤ j ∧ k = nd.name ++ "__".toList ++ showInt j) := by
  induction nds with
  | nil => intro keys items h; exact ⟨h, by simp [addAll], [], by simp [addAll], rfl, by simp⟩
  | cons a l ih =>
    intro keys items h
    have hn : (keys ++ [newKey keys a.name]).Nodup := by
      rw [List.nodup_append]
      refine ⟨h, by simp, ?_⟩
      intro x hx y hy
      rw [List.mem_singleton] at hy
      subst hy
      rintro rfl
      exact newKey_not_mem keys a.name hx
    obtain ⟨h1, h2, ks, h3, h4, h5⟩ := ih (keys ++ [newKey keys a.name]) (items ++ [a]) hn
    have e : addAll keys items (a :: l) = addAll (keys ++ [newKey keys a.name]) (items ++ [a]) l := rfl
    rw [e]
    refine ⟨h1, by rw [h2]; simp, newKey keys a.name :: ks, by rw [h3]; simp, by simp [h4], ?_⟩
    intro i k nd hk hnd
    cases i with
    | zero =>
      simp at hk hnd
      subst hk hnd
      simp only [List.take_zero, List.append_nil]
      unfold newKey
      refine ⟨fun hm => by rw [if_pos hm], fun hm => ?_⟩
      rw [if_neg (by simpa using hm)]
      exact freeKey_form keys a.name _ 2
    | succ i =>
      simp at hk hnd
      have := h5 i k nd hk hnd
      simpa using this

/-- **C34, nothing is lost**: after adding any sequence of entries to an empty
section, the entries are all there in the order of the additions, there is one key
per entry and the keys are pairwise distinct.  An entry has its own name as key
when no earlier entry took it, and its name followed by `__` and a number from 2
on otherwise. -/
theorem C34_kept (nds : List (Node F)) :
    (addAll [] [] nds).2 = nds ∧ (addAll [] [] nds).1.length = nds.length ∧ (addAll [] [] nds).1.Nodup ∧
    ∀ i k nd, (addAll [] [] nds).1[i]? = some k → nds[i]? = some nd →
      (nd.name ∉ (addAll [] [] nds).1.take i → k = nd.name) ∧
      (nd.name ∈ (addAll [] [] nds).1.take i →
        ∃ j : Nat, 2 ≤ j ∧ k = nd.name ++ "__".toList ++ showInt j) := by
  obtain ⟨h1, h2, ks, h3, h4, h5⟩ := addAll_spec nds [] [] List.nodup_nil
  rw [List.nil_append] at h3
  rw [h3] at h1 ⊢
  refine ⟨by simpa using h2, h4, h1, fun i k nd hk hnd => ?_⟩
  have := h5 i k nd hk hnd
  simpa using this

/-- **C34, every entry is found**: looking a key up gives the entry that was added
under it. -/
theorem C34_lookup (nds : List (Node F)) (i : Nat) (k : Str) (nd : Node F)
    (hk : (addAll [] [] nds).1[i]? = some k) (hnd : nds[i]? = some nd) :
    (((addAll [] [] nds).1.zip (addAll [] [] nds).2).find? (fun p => p.1 = k)).map Prod.snd = some nd := by
  obtain ⟨h1, h2, h3, hrest⟩ := C34_kept nds
  clear hrest
  rw [h1]
  generalize hks : (addAll [] [] nds).1 = ks at *
  clear hks h1
  induction ks generalizing nds i with
  | nil => simp at hk
  | cons a ks ih =>
    cases nds with
    | nil => simp at h2
    | cons b l =>
      cases i with
      | zero => simp at hk hnd; subst hk hnd; simp
      | succ i =>
        simp at hk hnd
        have hne : a ≠ k := by
          rintro rfl
          exact (List.nodup_cons.mp h3).1 (List.mem_of_getElem? hk)
        rw [List.zip_cons_cons, List.find?_cons_of_neg (by simpa using hne)]
        exact ih l i hnd hk (by simpa using h2) (List.nodup_cons.mp h3).2

def dup (s : String) (n : Int) : Node Int := .line s.toList [.int n] []

example : (addAll [] [] [dup "sec" 1, .sec .plain "sec__2".toList [] [] [] [] [], dup "sec" 2, dup "sec" 3]).1
    = ["sec".toList, "sec__2".toList, "sec__3".toList, "sec__4".toList] := by decide +kernel

/-- **C34, all are written under their original names**: the text of a section made of
lines (which are not called `main_body`) has one line per entry, in the order of the
additions, starting with the name of the entry and not with its key. -/
theorem C34_written (P : Flt) (level : Nat) (name : Str) (ls : List (Str × List (Val P.F) × Str))
    (h : ∀ l ∈ ls, l.1 ≠ [] ∧ l.1 ≠ "main_body".toList) :
    nodeText P level (.sec .plain name [] []
        (addAll [] [] (ls.map (fun l => .line l.1 l.2.1 l.2.2))).1
        (addAll [] [] (ls.map (fun l => .line l.1 l.2.1 l.2.2))).2 []) =
      some (List.replicate (2 * level) ' ' ++ "begin ".toList ++ name ++ ";\n".toList ++
        (ls.map (fun l => List.replicate (2 * (level + 1)) ' ' ++ l.1 ++ valsText P l.2.1 ++ ";".toList ++
          cmtText l.2.2 ++ "\n".toList)).flatten ++
        List.replicate (2 * level) ' ' ++ "end ".toList ++ name ++ ";\n".toList) := by
  rw [(C34_kept (ls.map (fun l => (.line l.1 l.2.1 l.2.2 : Node P.F)))).1]
  have hit : itemTexts P (level + 1) (ls.map (fun l => (.line l.1 l.2.1 l.2.2 : Node P.F)))
      = some (ls.map (fun l => (false, indent (level + 1) ++ l.1 ++ valsText P l.2.1 ++ ';' :: cmtText l.2.2 ++ ['\n']))) := by
    induction ls with
    | nil => rw [List.map_nil, itemTexts]; rfl
    | cons a l ih =>
      have ha := h a (by simp)
      rw [List.map_cons, itemTexts, nodeText, if_neg ha.1, ih (fun x hx => h x (by simp [hx]))]
      have : decide ((Node.line a.1 a.2.1 a.2.2 : Node P.F).name = "main_body".toList) = false := decide_eq_false ha.2
      rw [this]
      rfl
  rw [nodeText, hit]
  have hm : mainFirst (ls.map (fun l => (false, indent (level + 1) ++ l.1 ++ valsText P l.2.1 ++ ';' :: cmtText l.2.2 ++ ['\n'])))
      = (ls.map (fun l => List.replicate (2 * (level + 1)) ' ' ++ l.1 ++ valsText P l.2.1 ++ ";".toList ++
          cmtText l.2.2 ++ "\n".toList)).flatten := by
    unfold mainFirst
    rw [List.filter_eq_nil_iff.mpr (by simp), List.filter_eq_self.mpr (by simp), List.map_map]
    simp [indent, Function.comp_def]
  simp only [beginText, hm]
  have e1 : ";\n".toList = [';', '\n'] := rfl
  have e2 : cmtText [] = [] := rfl
  have e3 : tabNl [] = [] := rfl
  simp only [e1, e2, e3, endText, indent, List.map_nil, List.flatten_nil, List.append_assoc, List.cons_append, List.nil_append]

example : nodeText tenths 0 (.sec .plain "x".toList [] []
      (addAll [] [] [dup "sec" 1, dup "sec" 2]).1 (addAll [] [] [dup "sec" 1, dup "sec" 2]).2 [])
    = some "begin x;\n  sec\t1;\n  sec\t2;\nend x;\n".toList := by decide +kernel

/-! ## C35 -/

/-- reading and writing a text -/
def reprint (P : Flt) (t : Str) : Option Str :=
  match load P t with
  | .ok f => fileText P f
  | .error _ => none

theorem reprint_some {P : Flt} {s t : Str} (h : reprint P s = some t) :
    ∃ f, load P s = .ok f ∧ fileText P f = some t := by
  unfold reprint at h
  split at h
  · rename_i f hf
    exact ⟨f, hf, h⟩
  · exact nomatch h

/-- **C35 fails**: a comment behind the `end` of a section gains a tab each time the
file is read and written. -/
theorem C35_fails : ∃ f t f', load tenths "begin x;\nend x; note\nexit;".toList = .ok f ∧
    fileText tenths f = some t ∧ load tenths t = .ok f' ∧ f' ≠ f := by
  have h1 : reprint tenths "begin x;\nend x; note\nexit;".toList
      = some "  begin x;\n  end x;\t note\nexit;".toList := by decide +kernel
  have h2 : reprint tenths "  begin x;\n  end x;\t note\nexit;".toList
      = some "  begin x;\n  end x;\t\t note\nexit;".toList := by decide +kernel
  obtain ⟨f, hf, ht⟩ := reprint_some h1
  obtain ⟨f', hf', ht'⟩ := reprint_some h2
  refine ⟨f, _, f', hf, ht, hf', ?_⟩
  rintro rfl
  rw [ht] at ht'
  revert ht'
  decide +kernel

/-- **C35 fails too**: a comment behind the `begin` of an `output_at_time` section
makes writing raise (IndexError), although reading accepts it. -/
theorem C35_atTime_fails :
    ∃ f, load tenths "begin output_at_time aero 15.0; note\nend output_at_time;\nexit;".toList = .ok f ∧
    fileText tenths f = none := by
  have h : (match load tenths "begin output_at_time aero 15.0; note\nend output_at_time;\nexit;".toList with
      | .ok f => (fileText tenths f).isNone
      | .error _ => false) = true := by decide +kernel
  split at h
  · rename_i f hf
    exact ⟨f, hf, by simpa using h⟩
  · exact nomatch h

/-- **C35 fails too**: in an output section a `time` line without values is read as an
unnamed sensor, `time` is lost. -/
theorem C35_time_fails : ∃ f, load tenths "begin output;\ntime;\nend output;\nexit;".toList = .ok f ∧
    fileText tenths f = some "  begin output;\n     ;\n  end output;\nexit;".toList :=
  reprint_some (by decide +kernel)

/-- **C35 fails too**: a comment below an empty line is lost. -/
theorem C35_comment_fails : ∃ f, load tenths "a 1;\n\n;keep me\nb 2;\nexit;".toList = .ok f ∧
    fileText tenths f = some "  a\t1;\n  b\t2;\nexit;".toList :=
  reprint_some (by decide +kernel)

/-- **C35 (partial)**: the text of every file whose entries survive printing
(`FileWF`: names, values and comments are texts of the form the parser makes, main
bodies come first in every section, keys are those made by adding the entries, the
comment of an `end` line starts below it, an `output_at_time` section has no comment
behind its `begin`, lines of output sections have values) is parsed to the same file:
for any nesting, any number of entries, sensors and comment lines.

Missing: the cases of `C35_fails`, `C35_atTime_fails`, `C35_time_fails`,
`C35_comment_fails`; see `C35_norm_partial` for other orders. -/
theorem C35_partial (P : Flt) (f : File P.F) (h : FileWF P f) :
    ∃ t, fileText P f = some t ∧ load P t = .ok f := load_fileText P f h

/-- **C35, any order of the entries (partial)**: without the conditions on the order and
on the keys, and with lines without name, the parsed file is the file with main bodies
moved to the front of their sections, unnamed lines removed and keys numbered afresh;
printing and parsing once more changes nothing. -/
theorem C35_norm_partial (P : Flt) (f : File P.F) (h : FileFine P f) :
    (∃ t, fileText P f = some t ∧ load P t = .ok (normFile f)) ∧
    ∃ t, fileText P (normFile f) = some t ∧ load P t = .ok (normFile f) :=
  ⟨load_norm P f h, load_fileText P _ (normFile_WF P f h)⟩

/-- a nested file with repeated lines, sensors, comments over two lines -/
def sampleFile : File Int where
  comments := [";head\n".toList]
  keys := ["top".toList]
  items := [.sec .plain "top".toList "about top\n;more".toList []
    ["main_body".toList, "sec".toList, "sec__2".toList, "output".toList]
    [.sec .plain "main_body".toList [] "\n;end".toList ["name".toList]
        [.line "name".toList [.str "tower".toList] []] [],
      .line "sec".toList [.int 1, .flt 5, .int (-3)] "first".toList,
      .line "sec".toList [] [],
      .sec .output "output".toList [] [] ["filename".toList]
        [.line "filename".toList [.str "./res/x".toList] []]
        [⟨"mbdy".toList, "forcevec".toList, [.str "tower".toList, .int 1, .flt 25], "moment".toList⟩]] []]

/-! Checkers, to show that the sample meets the hypotheses. -/

def isWordB (w : Str) : Bool := !w.isEmpty && w.all (fun c => !isWs c)
def cmtB (c : Str) : Bool :=
  (splitOn '\n' c).all (fun p => strip p == p && !p.contains '\r') && (splitOn '\n' c).tail.all (fun p => p.head? == some ';')
def valB (f : Str → Except Err (Val Int)) (v : Val Int) : Bool :=
  isWordB (showVal tenths v) && !(showVal tenths v).contains ';' && decide (f (showVal tenths v) = .ok v)
def lineB (pl : Bool) (name : Str) (vals : List (Val Int)) (cmt : Str) : Bool :=
  isWordB name && !name.contains ';' && !decide (['_', '_'] <:+: name) && !isBegin name && !isEnd name &&
    vals.all (valB (fmtValue tenths)) && cmtB cmt && (pl || (decide (name ∈ settings) && !vals.isEmpty))
def sensorB (s : Sensor Int) : Bool :=
  isWordB s.typ && !s.typ.contains ';' && isWordB s.sens && !s.sens.contains ';' && !isBegin s.typ && !isEnd s.typ &&
    !decide (s.typ ∈ settings) && s.vals.all (valB (fmtSensor tenths)) && cmtB s.cmt
def headB (k : Kind Int) (name bc ec : Str) : Bool :=
  cmtB bc && cmtB ec && (splitOn '\n' ec).headD [] == [] &&
  match k with
  | .plain => isWordB name && !name.contains ';' && lower name == name && name != "output".toList &&
      !startsWith name "output_at_time".toList
  | .output => name == "output".toList
  | .atTime typ t => name == "output_at_time".toList && bc == [] && isWordB typ && !typ.contains ';' && lower typ == typ &&
      isWordB (tenths.repr t) && !(tenths.repr t).contains ';' && decide (tenths.parse (lower (tenths.repr t)) = some t)
def sortedB (nds : List (Node F)) : Bool := (nds.dropWhile isMain).all (fun nd => !isMain nd)
mutual
def wfB (pl : Bool) : Node Int → Bool
  | .line name vals cmt => lineB pl name vals cmt
  | .sec k name bc ec keys items sensors =>
    headB k name bc ec && keys == foldKeys [] items && sortedB items && wfsB k.isPlain items && sensors.all sensorB &&
      (!k.isPlain || sensors.isEmpty)
def wfsB (pl : Bool) : List (Node Int) → Bool
  | [] => true
  | nd :: nds => wfB pl nd && wfsB pl nds
end

theorem isWordB_ok {w : Str} (h : isWordB w = true) : IsWord w := by
  unfold isWordB at h
  rw [Bool.and_eq_true, List.all_eq_true] at h
  refine ⟨by simpa using h.1, fun c hc => ?_⟩
  have := h.2 c hc
  simpa using this

theorem cmtB_ok {c : Str} (h : cmtB c = true) : CmtOk c := by
  unfold cmtB at h
  rw [Bool.and_eq_true, List.all_eq_true, List.all_eq_true] at h
  constructor
  · intro p hp
    have := h.1 p hp
    simpa using this
  · intro p hp
    have := h.2 p hp
    simpa using this

theorem valB_ok {f} {v : Val Int} (h : valB f v = true) : ValOk tenths f v := by
  unfold valB at h
  rw [Bool.and_eq_true, Bool.and_eq_true] at h
  exact ⟨isWordB_ok h.1.1, by simpa using h.1.2, of_decide_eq_true h.2⟩

theorem lineB_ok {pl name vals cmt} (h : lineB pl name vals cmt = true) : LineOk tenths pl name vals cmt := by
  unfold lineB at h
  simp only [Bool.and_eq_true] at h
  obtain ⟨⟨⟨⟨⟨⟨⟨h1, h2⟩, h3⟩, h4⟩, h5⟩, h6⟩, h7⟩, h8⟩ := h
  refine ⟨isWordB_ok h1, by simpa using h2, by simpa using h3, by simpa using h4, by simpa using h5,
    fun v hv => valB_ok (List.all_eq_true.mp h6 v hv), cmtB_ok h7, fun hp => ?_⟩
  rw [hp, Bool.false_or, Bool.and_eq_true] at h8
  exact ⟨of_decide_eq_true h8.1, by rintro rfl; exact nomatch h8.2⟩

theorem sensorB_ok {s : Sensor Int} (h : sensorB s = true) : SensorOk tenths s := by
  unfold sensorB at h
  simp only [Bool.and_eq_true] at h
  obtain ⟨⟨⟨⟨⟨⟨⟨⟨h1, h2⟩, h3⟩, h4⟩, h5⟩, h6⟩, h7⟩, h8⟩, h9⟩ := h
  exact ⟨isWordB_ok h1, by simpa using h2, isWordB_ok h3, by simpa using h4, by simpa using h5, by simpa using h6,
    by simpa using h7, fun v hv => valB_ok (List.all_eq_true.mp h8 v hv), cmtB_ok h9⟩

theorem headB_ok {k : Kind Int} {name bc ec} (h : headB k name bc ec = true) : HeadOk tenths k name bc ec := by
  unfold headB at h
  rw [Bool.and_eq_true, Bool.and_eq_true, Bool.and_eq_true] at h
  obtain ⟨⟨⟨h1, h2⟩, h3⟩, h4⟩ := h
  refine ⟨cmtB_ok h1, cmtB_ok h2, beq_iff_eq.mp h3, ?_⟩
  cases k with
  | plain =>
    simp only [Bool.and_eq_true] at h4
    obtain ⟨⟨⟨⟨a1, a2⟩, a3⟩, a4⟩, a5⟩ := h4
    exact ⟨Clean.word (isWordB_ok a1) (by simpa using a2), beq_iff_eq.mp a3, bne_iff_ne.mp a4, (Bool.not_eq_true' _).mp a5⟩
  | output => exact beq_iff_eq.mp h4
  | atTime typ t =>
    rw [Bool.and_eq_true, Bool.and_eq_true, Bool.and_eq_true, Bool.and_eq_true, Bool.and_eq_true, Bool.and_eq_true,
      Bool.and_eq_true] at h4
    obtain ⟨⟨⟨⟨⟨⟨⟨a1, a2⟩, a3⟩, a4⟩, a5⟩, a6⟩, a7⟩, a8⟩ := h4
    exact ⟨beq_iff_eq.mp a1, beq_iff_eq.mp a2, isWordB_ok a3, by simpa using a4, beq_iff_eq.mp a5, isWordB_ok a6,
      by simpa using a7, of_decide_eq_true a8⟩

theorem mem_takeWhile_true (p : α → Bool) (l : List α) (x : α) (h : x ∈ l.takeWhile p) : p x = true := by
  induction l with
  | nil => simp at h
  | cons a l ih =>
    by_cases ha : p a = true
    · rw [List.takeWhile_cons_of_pos ha] at h
      rcases List.mem_cons.mp h with rfl | h
      · exact ha
      · exact ih h
    · rw [List.takeWhile_cons_of_neg ha] at h
      simp at h

theorem sortedB_ok {nds : List (Node F)} (h : sortedB nds = true) : MainSorted nds := by
  refine ⟨nds.takeWhile isMain, nds.dropWhile isMain, (List.takeWhile_append_dropWhile).symm, ?_, ?_⟩
  · intro x hx
    exact of_decide_eq_true (mem_takeWhile_true isMain nds x hx)
  · intro x hx
    have := List.all_eq_true.mp h x hx
    exact of_decide_eq_false ((Bool.not_eq_true' _).mp this)

mutual
theorem wfB_ok : (nd : Node Int) → ∀ pl, wfB pl nd = true → WF tenths pl nd
  | .line name vals cmt => by
    intro pl h
    rw [wfB] at h
    exact lineB_ok h
  | .sec k name bc ec keys items sensors => by
    intro pl h
    rw [wfB] at h
    simp only [Bool.and_eq_true] at h
    obtain ⟨⟨⟨⟨⟨h1, h2⟩, h3⟩, h4⟩, h5⟩, h6⟩ := h
    rw [WF]
    refine ⟨headB_ok h1, beq_iff_eq.mp h2, sortedB_ok h3, wfsB_ok items _ h4,
      fun s hs => sensorB_ok (List.all_eq_true.mp h5 s hs), fun hp => ?_⟩
    rw [hp] at h6
    simpa using h6
theorem wfsB_ok : (nds : List (Node Int)) → ∀ pl, wfsB pl nds = true → WFs tenths pl nds
  | [] => by intro pl _; rw [WFs]; trivial
  | nd :: nds => by
    intro pl h
    rw [wfsB, Bool.and_eq_true] at h
    rw [WFs]
    exact ⟨wfB_ok nd pl h.1, wfsB_ok nds pl h.2⟩
end

theorem sampleFile_WF : FileWF tenths sampleFile where
  init := by
    intro c hc
    simp only [sampleFile, List.mem_singleton] at hc
    subst hc
    exact ⟨";head".toList, by decide +kernel, by decide +kernel, by decide +kernel, by decide +kernel, by decide +kernel⟩
  keys := by decide +kernel
  sorted := sortedB_ok (by decide +kernel)
  noexit := by
    intro x hx
    simp only [sampleFile, List.mem_singleton] at hx
    subst hx
    decide +kernel
  items := wfsB_ok _ _ (by decide +kernel)

example : ∃ t, fileText tenths sampleFile = some t ∧ load tenths t = .ok sampleFile :=
  C35_partial tenths sampleFile sampleFile_WF

example : fileText tenths sampleFile = some (";head\n  begin top;\tabout top\n;more\n    begin main_body;\n      " ++
    "name\ttower;\n    end main_body;\n;end\n    sec\t1 0.5 -3;\tfirst\n    sec;\n    begin output;\n      filename\t./res/x;\n" ++
    "      mbdy forcevec\ttower 1 2.5;\tmoment\n    end output;\n  end top;\nexit;").toList := by decide +kernel

/-- the entries of the sample in another order -/
def shuffled : File Int :=
  ⟨[], [], [.line [] [] [], .line "b".toList [.int 2] [], .sec .plain "main_body".toList [] [] [] [.line "c".toList [] []] []]⟩

theorem shuffled_fine : FileFine tenths shuffled where
  init := by simp [shuffled]
  noexit := by
    intro x hx
    simp only [shuffled, List.mem_cons, List.not_mem_nil, or_false] at hx
    rcases hx with rfl | rfl | rfl <;> decide +kernel
  items := by
    unfold shuffled
    simp only [Fines, Fine, and_true]
    exact ⟨Or.inl rfl, Or.inr (lineB_ok (by decide +kernel)), Or.inr ⟨headB_ok (by decide +kernel),
      Or.inr (lineB_ok (by decide +kernel)), by simp, by simp⟩⟩

example : ∃ t, fileText tenths shuffled = some t ∧ load tenths t = .ok (normFile shuffled) :=
  (C35_norm_partial tenths shuffled shuffled_fine).1

example : ((normFile shuffled).items.map Node.name, (normFile shuffled).keys)
    = (["main_body".toList, "b".toList], ["main_body".toList, "b".toList]) := by decide +kernel

/-! ## C36 -/

/-- **C36 fails**: when the lines end with an empty line, the missing `end` shows as an
IndexError and not as the documented error. -/
theorem C36_fails : sectionFrom tenths 10 "begin x;".toList ["".toList] = .error .index ∧
    sectionFrom tenths 10 "begin x;".toList ["a 1;".toList, "".toList] = .error .index ∧
    sectionFrom tenths 10 "begin x;".toList ["a 1;".toList] = .error (.noEnd "x".toList) := by
  refine ⟨rfl, rfl, rfl⟩

/-- **C36 fails too**: in an output section two empty lines in a row raise IndexError. -/
theorem C36_output_fails :
    sectionFrom tenths 10 "begin output;".toList ["".toList, "".toList, "end output;".toList] = .error .index := rfl

/-- **C36 (partial)**: reading a section that is never closed (counting `begin` and `end`
lines, `closeAt 1`) raises the documented error, for all lines without two empty lines
in a row or an empty line at the end (`BlanksOk`) whose values do not overflow and whose
header is not `output_at_time` (`LineGood`).  Reading one that is closed succeeds, and
leaves the lines behind its `end`.

Missing: the empty lines of `C36_fails`, `C36_output_fails`; other exceptions that come
first (`inf` values, malformed `output_at_time` headers). -/
theorem C36_partial (P : Flt) (l : Str) (rest : List Str) (n : Nat) (hn : rest.length < n) (hb : isBegin l = true)
    (hbl : BlanksOk (rest.dropWhile isComment)) (hl : LineGood P l) (hg : ∀ x ∈ rest, LineGood P x) :
    (closeAt 1 rest = none → ∃ m, sectionFrom P n l rest = .error (.noEnd m)) ∧
    (∀ r, closeAt 1 rest = some r → ∃ nd, sectionFrom P n l rest = .ok (nd, r.dropWhile isComment)) := by
  obtain ⟨k, nm, bc, ho⟩ := openSec_ok P l rest hl hb
  have := secLoop_close P n k nm bc [] [] [] (rest.dropWhile isComment)
    (by have := length_dropWhile_le isComment rest; omega) hbl
    (fun x hx => hg x ((List.dropWhile_sublist _).subset hx))
  rw [closeAt_drop 0 rest] at this
  unfold sectionFrom
  rw [ho]
  exact this

/-- **C36, the name in the message (partial)**: when the section has no sections inside,
the error names it. -/
theorem C36_named_partial (P : Flt) : ∀ (n : Nat) (k : Kind P.F) (nm bc : Str) (keys : List Str)
    (items : List (Node P.F)) (sens : List (Sensor P.F)) (ls : List Str), ls.length < n →
    BlanksOk ls → (∀ l ∈ ls, LineGood P l) → (∀ l ∈ ls, isBegin l = false ∧ isEnd l = false) →
    secLoop P n k nm bc keys items sens ls = .error (.noEnd nm) := by
  intro n
  induction n with
  | zero => intro k nm bc keys items sens ls hl; omega
  | succ n ih =>
    intro k nm bc keys items sens ls hl hbl hg hbe
    cases ls with
    | nil => rfl
    | cons l0 rest0 =>
      obtain ⟨l, rest, hs, hnb, hsuf⟩ : ∃ l rest, skipBlank (l0 :: rest0) = l :: rest ∧ strip l ≠ [] ∧
          (l :: rest) <:+ (l0 :: rest0) := by
        by_cases hb : strip l0 = []
        · cases rest0 with
          | nil => exact absurd hb hbl
          | cons l1 r1 =>
            refine ⟨l1, r1, by simp [skipBlank, hb], ?_, List.suffix_cons _ _⟩
            rcases hbl.1 with h | h
            · exact absurd hb h
            · exact h
        · exact ⟨l0, rest0, by simp [skipBlank, hb], hb, List.suffix_rfl⟩
      have hlen := hsuf.length_le
      simp only [List.length_cons] at hlen hl
      have hdw := length_dropWhile_le isComment rest
      have hsub : rest.dropWhile isComment <:+ (l0 :: rest0) :=
        (List.dropWhile_suffix _).trans ((List.suffix_cons _ _).trans hsuf)
      have hlm : l ∈ l0 :: rest0 := hsuf.subset (by simp)
      obtain ⟨x, hx⟩ := lineFromLine_ok P k l rest (hg l hlm) hnb
      simp only [secLoop, hs, (hbe l hlm).1, (hbe l hlm).2, Bool.false_eq_true, if_false, hx]
      cases x with
      | inl nd =>
        exact ih k nm bc _ _ sens _ (by omega) (hbl.suffix hsub) (fun y hy => hg y (hsub.subset hy))
          (fun y hy => hbe y (hsub.subset hy))
      | inr s =>
        exact ih k nm bc _ _ _ _ (by omega) (hbl.suffix hsub) (fun y hy => hg y (hsub.subset hy))
          (fun y hy => hbe y (hsub.subset hy))

theorem lineGood_tenths (l : Str)
    (h : isBegin l = true → startsWith (lower ((strip ((splitOn ';' l).headD [])).drop 6)) "output_at_time".toList = false) :
    LineGood tenths l := by
  refine ⟨fun w _ x _ => ?_, h⟩
  simp only
  split <;> exact nofun

example : ∃ m, sectionFrom tenths 9 "begin x;".toList
    ["a 1;".toList, "".toList, "begin y;".toList, ";note".toList, "end y;".toList] = .error (.noEnd m) :=
  (C36_partial tenths _ _ 9 (by decide) (by decide +kernel)
    (by
      refine ⟨Or.inl ?_, Or.inr ?_, Or.inl ?_, Or.inl ?_, (show strip "end y;".toList ≠ [] from ?_)⟩ <;> decide +kernel)
    (lineGood_tenths _ (by decide +kernel))
    (by
      intro x hx
      simp only [List.mem_cons, List.not_mem_nil, or_false] at hx
      rcases hx with rfl | rfl | rfl | rfl | rfl <;> exact lineGood_tenths _ (by decide +kernel))).1 (by decide +kernel)

end Verif.Htc
