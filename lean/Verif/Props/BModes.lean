import Verif.Lemmas.BModes
import Verif.Lemmas.TurbSimTS
import Verif.Lemmas.FastHand
import Verif.Lemmas.Hawc2Sel
/-!
# BModes output files

Properties C176 to C178.
-/
namespace Verif.BModes
open Verif.Py Verif.TurbSimTS

/-- the numbers of the examples: digits -/
def exFlt (w : Str) : Option Nat := if w ≠ [] ∧ w.all Char.isDigit then some (w.foldl (fun n c => 10 * n + (c.toNat - 48)) 0) else none

/-- **C176**: the frequencies and the tables of a BModes file are those of its modes, in order: the number behind `freq = `, and the rows of
numbers from the fourth line behind it up to a blank line or one with `===` in front.  The table of the last mode may end with the file. -/
theorem C176_bmodes {F : Type} (flt : Str → Option F) (s first : Str) (ps : List (Part F)) (last : List (Mode F)) (hlast : last.length ≤ 1)
    (hs : HasLines s (first :: (ps.flatMap Part.text ++ last.flatMap Mode.text))) (hf : "BModes".toList <:+: first) (h : ∀ p ∈ ps, p.Good flt)
    (hl : ∀ m ∈ last, m.Good flt) :
    read flt s = .ok ((ps.flatMap Part.modes ++ last).map Mode.freq, (ps.flatMap Part.modes ++ last).map Mode.rows) := by
  rw [read_lines flt s first _ hs hf, go_parts flt ps h]
  match last, hlast with
  | [], _ => simp [go, Except.map]
  | [m], _ =>
    have hm := hl m (by simp)
    have := go_rows flt m hm []
    rw [List.append_nil] at this
    rw [List.flatMap_cons, List.flatMap_nil, List.append_nil, this, go, shape_ok flt m.lines m.rows hm.2.1 hm.2.2]
    simp [bind, Except.bind, Except.map]

/-- a mode for the examples -/
def exMode : Mode Nat := ⟨"---- mode No. 1  (freq = 000000000042 Hz)".toList, ([], "span_loc twist".toList, []), ["0 1 2 3 4 5".toList, " 10  1 2 3 4 7".toList],
  42, [[0, 1, 2, 3, 4, 5], [10, 1, 2, 3, 4, 7]]⟩

/-- another one -/
def exMode2 : Mode Nat := ⟨"mode 2 freq = 55".toList, ([], [], []), ["7 7 7 7 7 7".toList], 55, [[7, 7, 7, 7, 7, 7]]⟩

theorem exGood : exMode.Good exFlt :=
  ⟨⟨"---- mode No. 1  (".toList, "000000000042".toList, " Hz)".toList, by decide +kernel, by decide, by decide +kernel, .inl rfl, by decide +kernel⟩,
    .cons ⟨fun h => absurd ((ends_iff _).2 h) (by decide +kernel), by decide +kernel⟩
      (.cons ⟨fun h => absurd ((ends_iff _).2 h) (by decide +kernel), by decide +kernel⟩ .nil), by decide⟩

theorem exGood2 : exMode2.Good exFlt :=
  ⟨⟨"mode 2 ".toList, "55".toList, [], by decide +kernel, by decide, by decide +kernel, .inr ⟨by decide, rfl⟩, by decide +kernel⟩,
    .cons ⟨fun h => absurd ((ends_iff _).2 h) (by decide +kernel), by decide +kernel⟩ .nil, by decide⟩

/-- the parts of an example -/
def exParts : List (Part Nat) := [.other [], .mode exMode [' '], .other "text".toList]

theorem exParts_good : ∀ p ∈ exParts, p.Good exFlt := by
  intro p hp
  simp only [exParts, List.mem_cons, List.not_mem_nil, or_false] at hp
  rcases hp with rfl | rfl | rfl
  · show Plain []
    intro h
    exact absurd (List.IsInfix.length_le h) (by decide)
  · exact ⟨exGood, .inl (by decide)⟩
  · show Plain "text".toList
    intro h
    exact absurd (List.IsInfix.length_le h) (by decide)

/-- its text -/
def exText : Str := HawcAe.unlines ("Results of BModes".toList :: (exParts.flatMap Part.text ++ exMode2.text))

theorem exRead : read exFlt exText = .ok ([42, 55], [[[0, 1, 2, 3, 4, 5], [10, 1, 2, 3, 4, 7]], [[7, 7, 7, 7, 7, 7]]]) :=
  C176_bmodes exFlt exText "Results of BModes".toList exParts [exMode2] (by decide) ⟨by decide +kernel, .inl (by simp [exText])⟩
    ⟨"Results of ".toList, [], by decide⟩ exParts_good (by intro m hm; rw [List.mem_singleton.1 hm]; exact exGood2)

example : read exFlt exText = .ok ([42, 55], [[[0, 1, 2, 3, 4, 5], [10, 1, 2, 3, 4, 7]], [[7, 7, 7, 7, 7, 7]]]) := exRead

/-- **C176**, the refusal: a file without `BModes` in its first line is refused -/
theorem C176_refuse {F : Type} (flt : Str → Option F) (s : Str) (ls : List Str) (hs : HasLines s ls) (h : ∀ l, ls.head? = some l → ¬ "BModes".toList <:+: l) :
    read flt s = .error .wrong := by
  rw [read, readlines_of hs]
  cases ls with
  | nil => rfl
  | cons l r =>
    simp only
    cases hf : find "BModes".toList l with
    | none => rfl
    | some i => exact absurd ((Hawc2Sel.find_isSome _ _).1 (by rw [hf]; rfl)) (h l rfl)

example : read exFlt "ElastoDyn\nBModes\n".toList = .error .wrong :=
  C176_refuse exFlt _ ["ElastoDyn".toList, "BModes".toList] ⟨by decide, .inl (by decide)⟩ (by
    intro l hl
    obtain rfl := Option.some.inj hl
    rw [← Hawc2Sel.find_isSome]; decide +kernel)

/-- **C177**: the tables of a file: `Mode_1`, `Mode_2`, … in the order of the frequencies, each with the six labels and the rows of its mode; if a mode
has not six columns, or no rows, there are no tables but a ValueError. -/
theorem C177_bmodes_tables {F : Type} (flt : Str → Option F) (s first : Str) (ps : List (Part F)) (hs : HasLines s (first :: ps.flatMap Part.text))
    (hf : "BModes".toList <:+: first) (h : ∀ p ∈ ps, p.Good flt) :
    ∃ fs ms, read flt s = .ok (fs, ms) ∧ fs.length = ms.length ∧
      ((∀ m ∈ ps.flatMap Part.modes, m.rows ≠ [] ∧ ∀ r ∈ m.rows, r.length = 6) → ∃ t, frames ms = .ok t ∧ t.length = fs.length ∧
        ∀ (k : Nat) (m : Mode F), (ps.flatMap Part.modes)[k]? = some m → fs[k]? = some m.freq ∧
          t[k]? = some ("Mode_".toList ++ FastLine.showInt ((k : Int) + 1),
            ["span_loc".toList, "s-s disp".toList, "s-s slope".toList, "f-a disp".toList, "f-a slope".toList, "twist".toList], m.rows)) ∧
      ((∃ m ∈ ps.flatMap Part.modes, m.rows = [] ∨ ∃ r ∈ m.rows, r.length ≠ 6) → frames ms = .error .value) := by
  have hr := C176_bmodes flt s first ps [] (by simp) (by simpa using hs) hf h (by simp)
  rw [List.append_nil] at hr
  refine ⟨_, _, hr, by simp, fun h6 => ?_, ?_⟩
  · obtain ⟨t, h1, h2, h3⟩ := framesFrom_ok 0 ((ps.flatMap Part.modes).map Mode.rows) (by
      intro m hm
      obtain ⟨x, hx, rfl⟩ := List.mem_map.1 hm
      exact h6 x hx)
    refine ⟨t, h1, by simpa using h2, fun k m hk => ⟨by simp [hk], ?_⟩⟩
    have := h3 k m.rows (by simp [hk])
    rw [Nat.zero_add] at this
    exact this
  · rintro ⟨m, hm, hb⟩
    refine framesFrom_bad 0 _ m.rows (List.mem_map.2 ⟨m, hm, rfl⟩) ?_
    rintro ⟨h1, h2⟩
    rcases hb with hb | ⟨r, hr, hl⟩
    · exact h1 hb
    · exact hl (h2 r hr)

example : ∃ fs ms t, read exFlt (HawcAe.unlines ("BModes".toList :: exParts.flatMap Part.text)) = .ok (fs, ms) ∧ frames ms = .ok t ∧ fs[0]? = some 42 ∧
    t[0]? = some ("Mode_1".toList, labels, [[0, 1, 2, 3, 4, 5], [10, 1, 2, 3, 4, 7]]) := by
  obtain ⟨fs, ms, h1, _, h2, _⟩ := C177_bmodes_tables exFlt (HawcAe.unlines ("BModes".toList :: exParts.flatMap Part.text)) "BModes".toList exParts
    ⟨by decide +kernel, .inl rfl⟩ (List.infix_refl _) exParts_good
  obtain ⟨t, h3, _, h4⟩ := h2 (by decide +kernel)
  obtain ⟨h5, h6⟩ := h4 0 exMode rfl
  exact ⟨fs, ms, t, h1, h3, h5, h6.trans (by decide +kernel)⟩

/-- C178 fails: a file that ends in the middle of the table of a mode gives the shorter table, without an error -/
theorem C178_fails : read exFlt "BModes\nmode 1 freq = 42\n\n\n\n0 1 2 3 4 5\n1 1 2 3 4 5\n\n".toList = .ok ([42], [[[0, 1, 2, 3, 4, 5], [1, 1, 2, 3, 4, 5]]]) ∧
    read exFlt "BModes\nmode 1 freq = 42\n\n\n\n0 1 2 3 4 5\n".toList = .ok ([42], [[[0, 1, 2, 3, 4, 5]]]) ∧
    read exFlt "BModes\nmode 1 freq = 42\n\n".toList = .ok ([42], [[]]) := by decide +kernel

/-- **C178** for a file that ends in the middle of a row (not the first one): it is refused.  (Missing for the full property: a file that ends
between rows, see `C178_fails`.) -/
theorem C178_partial {F : Type} (flt : Str → Option F) (s first : Str) (ps : List (Part F)) (m : Mode F) (row : Str)
    (hs : HasLines s (first :: (ps.flatMap Part.text ++ (m.text ++ [row])))) (hf : "BModes".toList <:+: first) (h : ∀ p ∈ ps, p.Good flt)
    (hm : m.Good flt) (hne : m.lines ≠ []) (hrow : ¬ Ends row) (hshort : ∀ l ∈ m.lines, (words row).length < (words l).length) :
    read flt s = .error .value := by
  rw [read_lines flt s first _ hs hf, go_parts flt ps h, go_rows flt m hm, go, if_neg (fun e => hrow ((ends_iff row).1 e)), go]
  obtain ⟨l, hl⟩ := List.exists_mem_of_ne_nil _ hne
  rw [shape_ragged flt _ (words l) (words row) (by simp; exact .inl ⟨l, hl, rfl⟩) (by simp) (by have := hshort l hl; omega)]
  rfl

example : read exFlt (HawcAe.unlines ("BModes".toList :: ([] ++ (exMode.text ++ ["20 1".toList])))) = .error .value :=
  C178_partial exFlt _ "BModes".toList [] exMode "20 1".toList ⟨by decide +kernel, .inl rfl⟩ (List.infix_refl _) (by simp) exGood (by decide)
    (fun h => absurd ((ends_iff _).2 h) (by decide +kernel)) (by decide +kernel)

end Verif.BModes
