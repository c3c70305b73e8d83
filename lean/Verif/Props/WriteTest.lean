import Verif.Lemmas.WriteTest
import Verif.Props.AsciiComp
import Verif.Py.Dec
/-!
# The tests of writing

Properties C227 to C231.
-/
namespace Verif.WriteTest
open Verif.Py
open Verif.AsciiComp (FS asciiComp content)

/-- **C227**: the test of writing and reading passes for a class that writes its data and reads
them again: the object then has the data of the file written, and the file is there, or removed
with `bDelete` -/
theorem C227_pass (h : Hooks δ) (s : St δ) (b : Bool) (t : Str) (d : δ) (ht : t ≠ [])
    (hw : h.emit s.data = (some t, none)) (hp : h.parse s.data t = (d, none)) :
    (testWriteRead h s b).2 = .ok (tmpName s.filename) ∧ (testWriteRead h s b).1.data = d ∧
    (testWriteRead h s b).1.fs (tmpName s.filename) = if b then none else some t := by
  obtain ⟨c, t, rfl⟩ := List.exists_cons_of_ne_nil ht
  rw [twr_ok h s b c t d hw hp]
  exact ⟨rfl, rfl, by simp [setFile]⟩

/-- **C227**: it passes for no other: the writer and the reader raised nothing, and the reader was
given the text of the file written (or, if the writer wrote no file, of an older one of that
name) -/
theorem C227_only (h : Hooks δ) (s : St δ) (b : Bool) (name : Str) (hok : (testWriteRead h s b).2 = .ok name) :
    ∃ o t d, h.emit s.data = (o, none) ∧ h.parse s.data t = (d, none) ∧ t ≠ [] ∧
      (o = some t ∨ o = none ∧ s.fs (tmpName s.filename) = some t) ∧
      (testWriteRead h s b).1.data = d ∧ name = tmpName s.filename := by
  obtain ⟨h1, h2, h3, h4⟩ := twr_inv h s b name hok
  obtain ⟨c, t, h5, h6⟩ := read_ok h _ _ h2
  rw [(write_name h s _).2] at h6
  rw [h3]
  rw [write] at h1 h5
  cases hE : h.emit s.data with
  | mk o e =>
    rw [hE] at h1 h5
    cases o with
    | none =>
      simp only at h1 h5
      exact ⟨none, c :: t, _, by rw [h1], h6, by simp, .inr ⟨rfl, h5⟩, rfl, h4⟩
    | some t' =>
      simp only at h1 h5
      simp only [setFile, if_true] at h5
      exact ⟨some t', c :: t, _, by rw [h1], h6, by simp, .inl h5, rfl, h4⟩

/-- **C227**: whatever happens, no file but the temporary one is touched; in particular not the
file of the object -/
theorem C227_others (h : Hooks δ) (s : St δ) (b : Bool) (p : Str) (hp : p ≠ tmpName s.filename) :
    (testWriteRead h s b).1.fs p = s.fs p ∧ s.filename ≠ tmpName s.filename :=
  ⟨(twr_frame h s b).1 p hp, fun e => (tmp_ne s.filename).1 e.symm⟩

/-- **C227**: the names of the temporary files: the mark goes before the extension, in the same
directory -/
theorem C227_name (dir stem e : Str) (hn : Named dir stem e) :
    tmpName (dir ++ stem ++ '.' :: e) = dir ++ stem ++ "_TMP".toList ++ '.' :: e ∧
    tmp2Name (dir ++ stem ++ '.' :: e) = dir ++ stem ++ "_TMP2".toList ++ '.' :: e := by
  have he : Detect.splitextExt (dir ++ stem ++ '.' :: e) = '.' :: e := by
    rw [Detect.splitextExt]
    rw [List.append_assoc, afterSlash_eq dir _ hn.dir (by
      simp only [List.mem_append, List.mem_cons, not_or]
      exact ⟨hn.stem.1, by decide, hn.ext.1⟩)]
    have hr : (stem ++ '.' :: e).reverse = e.reverse ++ '.' :: stem.reverse := by simp
    rw [hr]
    have hs := takeWhile_append_stop (fun x => decide (x ≠ '.')) e.reverse ('.' :: stem.reverse) (by
      intro x hx
      have : x ∈ e := by simpa using hx
      exact decide_eq_true (fun (h : x = '.') => hn.ext.2 (h ▸ this))) (by intro x hx; cases hx; rfl)
    rw [hs.1, hs.2]
    simp only
    obtain ⟨c, hc, hc'⟩ := hn.stem.2
    rw [if_pos (by simp only [List.any_reverse, List.any_eq_true]; exact ⟨c, hc, by simpa using hc'⟩), List.reverse_reverse]
  have hs : splitext (dir ++ stem ++ '.' :: e) = (dir ++ stem, '.' :: e) := by
    rw [splitext, he]
    congr 1
    rw [List.length_append, Nat.add_sub_cancel, List.take_left']
    rfl
  rw [tmpName, tmp2Name, hs]
  exact ⟨rfl, rfl⟩

/-- a class for the examples: the data are the text of the file -/
def exHooks : Hooks Str := ⟨fun d => (some d, none), fun _ t => (t, none)⟩

/-- a class that doubles blanks on writing -/
def exHooks2 : Hooks Str := ⟨fun d => (some (replaceChar ' ' [' ', ' '] d), none), fun _ t => (t, none)⟩

/-- an object read from `dir/a.b.dat` -/
def exSt : St Str :=
  ⟨fun p => if p = "d.x/a.b.dat".toList then some "1 2\n3\n".toList else none, "d.x/a.b.dat".toList, "1 2\n3\n".toList⟩

example : Named "d.x/".toList "a.b".toList "dat".toList :=
  ⟨.inr (by decide), ⟨by decide, 'a', by decide⟩, by decide⟩

example : tmpName exSt.filename = "d.x/a.b_TMP.dat".toList := by decide +kernel

example : (testWriteRead exHooks2 exSt false).2 = .ok "d.x/a.b_TMP.dat".toList ∧
    (testWriteRead exHooks2 exSt false).1.fs "d.x/a.b_TMP.dat".toList = some "1  2\n3\n".toList := by decide +kernel

/-- **C228**: the comparison with the original: for a class that writes and reads, the test passes
if the text written has the words and lines of the original; then the temporary file is removed,
or kept without `bDelete`, and nothing else has changed on the disk -/
theorem C228_pass (h : Hooks δ) (s : St δ) (b : Bool) (t u : Str) (d : δ) (ht : t ≠ [])
    (hw : h.emit s.data = (some t, none)) (hp : h.parse s.data t = (d, none)) (hu : s.fs s.filename = some u)
    (hc : content u = content t) :
    (testAscii h s false b).2 = .ok () ∧ (testAscii h s false b).1.data = d ∧
    ∀ p, (testAscii h s false b).1.fs p = if p = tmpName s.filename then (if b then none else some t) else s.fs p := by
  obtain ⟨c, t, rfl⟩ := List.exists_cons_of_ne_nil ht
  have hT := twr_ok h s false c t d hw hp
  rw [testAscii, hT]
  simp only [Bool.false_eq_true, if_false, splitext_join]
  rw [(compare_eq _ s.filename (tmpName s.filename) u (c :: t) false b
    (by simp [setFile, (tmp_ne s.filename).1.symm, hu]) (by simp [setFile])).1 hc]
  refine ⟨rfl, rfl, fun p => ?_⟩
  cases b <;> by_cases h1 : p = tmpName s.filename <;> simp [setFile, h1]

/-- **C228**: and it raises if words or lines differ, with both files left for inspection.
(Both texts without bars and not empty: see C47.) -/
theorem C228_differ (h : Hooks δ) (s : St δ) (b : Bool) (t u : Str) (d : δ) (ht : t ≠ [])
    (hw : h.emit s.data = (some t, none)) (hp : h.parse s.data t = (d, none)) (hu : s.fs s.filename = some u)
    (hbar : '|' ∉ u ∧ '|' ∉ t) (hne : u ≠ []) (hc : content u ≠ content t) :
    (testAscii h s false b).2 = .error (.differ s.filename (tmpName s.filename)) ∧
    ∀ p, (testAscii h s false b).1.fs p = if p = tmpName s.filename then some t else s.fs p := by
  obtain ⟨c, t, rfl⟩ := List.exists_cons_of_ne_nil ht
  have hT := twr_ok h s false c t d hw hp
  rw [testAscii, hT]
  simp only [Bool.false_eq_true, if_false, splitext_join]
  rw [(compare_eq _ s.filename (tmpName s.filename) u (c :: t) false b
    (by simp [setFile, (tmp_ne s.filename).1.symm, hu]) (by simp [setFile])).2 hbar.1 hbar.2 hne ht hc]
  exact ⟨rfl, fun p => rfl⟩

/-- **C228**: a failure of the writer or of the reader is a failure of the test -/
theorem C228_hooks (h : Hooks δ) (s : St δ) (w b : Bool) (e : Err) (he : (testWriteRead h s false).2 = .error e) :
    (testAscii h s w b).2 = .error e := by
  rw [testAscii]
  cases hT : testWriteRead h s false with
  | mk s1 r =>
    rw [hT] at he
    simp only at he
    subst he
    rfl

/-- **C228**: whatever the options and the outcome, no files but the two temporary ones are
touched; in particular not the file of the object -/
theorem C228_others (h : Hooks δ) (s : St δ) (w b : Bool) (p : Str) (hp : p ≠ tmpName s.filename) (hp2 : p ≠ tmp2Name s.filename) :
    (testAscii h s w b).1.fs p = s.fs p ∧ s.filename ≠ tmpName s.filename ∧ s.filename ≠ tmp2Name s.filename := by
  refine ⟨?_, fun e => (tmp_ne s.filename).1 e.symm, fun e => (tmp_ne s.filename).2.1 e.symm⟩
  have hf := (twr_frame h s false).1 p hp
  have hok := C227_only h s false
  rw [testAscii]
  cases hT : testWriteRead h s false with
  | mk s1 r =>
    rw [hT] at hf hok
    simp only at hf
    cases r with
    | error e => exact hf
    | ok out =>
      obtain ⟨_, _, _, -, -, -, -, -, rfl⟩ := hok out rfl
      cases w with
      | true =>
        simp only [if_true]
        have hw := write_frame h s1 (tmp2Name s.filename) p hp2
        cases hW : write h s1 (tmp2Name s.filename) with
        | mk s2 o =>
          rw [hW] at hw
          cases o with
          | some e => exact hw.trans hf
          | none => exact (compare_frame s2 _ _ _ _ p (fun _ => hp) hp2).trans (hw.trans hf)
      | false =>
        simp only [Bool.false_eq_true, if_false]
        exact (compare_frame s1 _ _ _ _ p (fun h => by cases h) hp).trans hf

example : (testAscii exHooks2 exSt false true).2 = .ok () ∧
    (testAscii exHooks2 exSt false true).1.fs "d.x/a.b_TMP.dat".toList = none ∧
    (testAscii exHooks2 exSt false true).1.fs "d.x/a.b.dat".toList = some "1 2\n3\n".toList := by decide +kernel

example : (testAscii exHooks2 { exSt with data := "1 2\n4\n".toList } false true).2 =
    .error (.differ "d.x/a.b.dat".toList "d.x/a.b_TMP.dat".toList) := by decide +kernel

/-- **C229**: with `bCompareWritesOnly` the file written and the file written again after reading
it are compared: the test passes if they have the same words and lines; then both are removed, or
kept without `bDelete` -/
theorem C229_pass (h : Hooks δ) (s : St δ) (b : Bool) (t u : Str) (d : δ) (ht : t ≠ [])
    (hw : h.emit s.data = (some t, none)) (hp : h.parse s.data t = (d, none)) (hu : h.emit d = (some u, none))
    (hc : content t = content u) :
    (testAscii h s true b).2 = .ok () ∧ (testAscii h s true b).1.data = d ∧
    ∀ p, (testAscii h s true b).1.fs p =
      if p = tmpName s.filename then (if b then none else some t)
      else if p = tmp2Name s.filename then (if b then none else some u) else s.fs p := by
  obtain ⟨c, t, rfl⟩ := List.exists_cons_of_ne_nil ht
  have hT := twr_ok h s false c t d hw hp
  have hne := (tmp_ne s.filename).2.2
  rw [testAscii, hT]
  simp only [if_true, write, hu]
  rw [(compare_eq _ (tmpName s.filename) (tmp2Name s.filename) (c :: t) u true b
    (by simp [setFile, hne]) (by simp [setFile])).1 hc]
  refine ⟨rfl, rfl, fun p => ?_⟩
  cases b <;> by_cases h1 : p = tmpName s.filename <;> by_cases h2 : p = tmp2Name s.filename <;> simp_all [setFile]

/-- **C229**: and it raises if they differ, with both left for inspection.
(Both texts without bars and not empty: see C47.) -/
theorem C229_differ (h : Hooks δ) (s : St δ) (b : Bool) (t u : Str) (d : δ) (ht : t ≠ [])
    (hw : h.emit s.data = (some t, none)) (hp : h.parse s.data t = (d, none)) (hu : h.emit d = (some u, none))
    (hbar : '|' ∉ t ∧ '|' ∉ u) (hune : u ≠ []) (hc : content t ≠ content u) :
    (testAscii h s true b).2 = .error (.differ (tmpName s.filename) (tmp2Name s.filename)) ∧
    ∀ p, (testAscii h s true b).1.fs p =
      if p = tmpName s.filename then some t else if p = tmp2Name s.filename then some u else s.fs p := by
  obtain ⟨c, t, rfl⟩ := List.exists_cons_of_ne_nil ht
  have hT := twr_ok h s false c t d hw hp
  have hne := (tmp_ne s.filename).2.2
  rw [testAscii, hT]
  simp only [if_true, write, hu]
  rw [(compare_eq _ (tmpName s.filename) (tmp2Name s.filename) (c :: t) u true b
    (by simp [setFile, hne]) (by simp [setFile])).2 hbar.1 hbar.2 ht hune hc]
  refine ⟨rfl, fun p => ?_⟩
  simp only [setFile]
  by_cases h1 : p = tmpName s.filename <;> by_cases h2 : p = tmp2Name s.filename <;> simp_all

example : (testAscii exHooks2 exSt true true).2 = .ok () ∧
    (testAscii exHooks2 exSt true true).1.fs "d.x/a.b_TMP2.dat".toList = none := by decide +kernel

/-- a class that adds a line on each writing -/
def exHooks3 : Hooks Str := ⟨fun d => (some ("! x\n".toList ++ d), none), fun _ t => (t, none)⟩

example : (testAscii exHooks3 exSt true true).2 =
    .error (.differ "d.x/a.b_TMP.dat".toList "d.x/a.b_TMP2.dat".toList) := by decide +kernel

/-- **C230** fails: a test that passes leaves the object at the temporary file, which it has just
removed: the same test again does not find its file -/
theorem C230_fails :
    (testAscii exHooks exSt false true).2 = .ok () ∧
    (testAscii exHooks exSt false true).1.filename = "d.x/a.b_TMP.dat".toList ∧
    (testAscii exHooks exSt false true).1.fs "d.x/a.b_TMP.dat".toList = none ∧
    (testAscii exHooks (testAscii exHooks exSt false true).1 false true).2 = .error .notFound := by decide +kernel

/-- **C230** fails for every class: after a test, whatever its outcome, the object is at a
temporary file -/
theorem C230_name_fails (h : Hooks δ) (s : St δ) (w b : Bool) :
    (testAscii h s w b).1.filename ≠ s.filename ∧ (testWriteRead h s b).1.filename ≠ s.filename := by
  have h1 := (twr_frame h s b).2
  have h2 := (twr_frame h s false).2
  have hn := tmp_ne s.filename
  refine ⟨?_, by rw [h1]; exact hn.1⟩
  rw [testAscii]
  cases hT : testWriteRead h s false with
  | mk s1 r =>
    rw [hT] at h2
    simp only at h2
    cases r with
    | error e => exact fun e => hn.1 (h2.symm.trans e)
    | ok out =>
      cases w with
      | true =>
        simp only [if_true]
        have hw := write_name h s1 (tmp2Name s.filename)
        cases hW : write h s1 (tmp2Name s.filename) with
        | mk s2 o =>
          rw [hW] at hw
          cases o with
          | some e => exact fun e => hn.2.1 (hw.1.symm.trans e)
          | none => exact fun e => hn.2.1 (hw.1.symm.trans ((compare_name s2 _ _ _ _).1.symm.trans e))
      | false =>
        simp only [Bool.false_eq_true, if_false]
        exact fun e => hn.1 (h2.symm.trans ((compare_name s1 _ _ _ _).1.symm.trans e))

/-- **C230**: reading the original again puts the object back: it is still as it was.
(Missing for the full property: the object is not put back by the tests themselves.) -/
theorem C230_partial (h : Hooks δ) (s : St δ) (w b : Bool) (u : Str) (hu : s.fs s.filename = some u) (hne : u ≠ []) :
    (read h (testAscii h s w b).1 s.filename).1.filename = s.filename ∧
    (read h (testAscii h s w b).1 s.filename).1.data = (h.parse (testAscii h s w b).1.data u).1 := by
  have hf := C228_others h s w b s.filename (tmp_ne s.filename).1.symm (tmp_ne s.filename).2.1.symm
  obtain ⟨c, u, rfl⟩ := List.exists_cons_of_ne_nil hne
  refine ⟨(read_frame h _ _).2, ?_⟩
  rw [read, hf.1, hu]

/-- **C231** fails: the errors of the system (`OSError`, `PermissionError`) have a number as their
first argument, and the message cannot be put together: a TypeError hides them.  So does an
IndexError an exception without arguments. -/
theorem C231_fails (h : Hooks δ) (s : St δ) (b : Bool) (o : Option Str) (n : Int) (as : List Arg) :
    (h.emit s.data = (o, some ⟨.num n :: as⟩) → (testWriteRead h s b).2 = .error .type) ∧
    (h.emit s.data = (o, some ⟨[]⟩) → (testWriteRead h s b).2 = .error .index) := by
  constructor
  · intro he
    rw [testWriteRead]
    cases o <;> simp only [write, he] <;> rfl
  · intro he
    rw [testWriteRead]
    cases o <;> simp only [write, he] <;> rfl

/-- **C231**: an exception with a text as its first argument is reported with this text, after the
step it happened in.  (Missing for the full property: other exceptions.) -/
theorem C231_partial (h : Hooks δ) (s : St δ) (b : Bool) (m : Str) (as : List Arg) :
    (∀ o, h.emit s.data = (o, some ⟨.str m :: as⟩) →
      (testWriteRead h s b).2 = .error (.plain ("Error writing what we read\n".toList ++ m))) ∧
    (∀ t d, t ≠ [] → h.emit s.data = (some t, none) → h.parse s.data t = (d, some ⟨.str m :: as⟩) →
      (testWriteRead h s b).2 = .error (.plain ("Error reading what we wrote\n".toList ++ m))) ∧
    (h.emit s.data = (some [], none) →
      (testWriteRead h s b).2 = .error (.plain ("Error reading what we wrote\n".toList ++ "File is empty:".toList))) := by
  refine ⟨fun o he => ?_, fun t d ht he hp => ?_, fun he => ?_⟩
  · rw [testWriteRead]
    cases o <;> simp only [write, he] <;> rfl
  · obtain ⟨c, t, rfl⟩ := List.exists_cons_of_ne_nil ht
    have : setFile s.fs (tmpName s.filename) (some (c :: t)) (tmpName s.filename) = some (c :: t) := by simp [setFile]
    rw [testWriteRead]
    simp only [write, he, read, this, hp]
    rfl
  · have : setFile s.fs (tmpName s.filename) (some []) (tmpName s.filename) = some [] := by simp [setFile]
    rw [testWriteRead]
    simp only [write, he, read, this]
    rfl

example : (testWriteRead ⟨fun _ => (none, some ⟨[.num 13, .str "Permission denied".toList]⟩), fun d _ => (d, none)⟩ exSt true).2 =
    .error .type := by decide +kernel

example : (testWriteRead ⟨fun d => (some d, none), fun d _ => (d, some ⟨[.str "bad line".toList]⟩)⟩ exSt true).2 =
    .error (.plain "Error reading what we wrote\nbad line".toList) := by decide +kernel

end Verif.WriteTest
