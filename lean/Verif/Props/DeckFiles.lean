import Verif.Lemmas.DeckFiles
import Verif.Lemmas.DeckRead
import Verif.Lemmas.Path
/-!
# The input files of a FAST input deck

Property C255.
-/
namespace Verif.DeckFiles
open Verif.Py Verif.DeckRead

/-- **C255** fails: only what the main file says of ElastoDyn and BeamDyn matters for the input files; other modules are never there -/
theorem C255_fails : (∀ (d d' : Deck) (main main' : File), d.filename = d'.filename → d.vt .ed = d'.vt .ed → d.vt .bd = d'.vt .bd →
      d.vt .fst = some main → d'.vt .fst = some main' → main.get "EDFile" = main'.get "EDFile" → main.get "BDBldFile(1)" = main'.get "BDBldFile(1)" →
      inputFiles d = inputFiles d') ∧
    ∃ d : Deck, Says d .fst "AeroFile".toList "AD.dat".toList ∧ Used "AD.dat".toList ∧ (d.vt .ad15).isSome ∧
      pjoin (dirname d.filename) "AD.dat".toList ∉ inputFiles d := by
  constructor
  · intro d d' main main' h1 h2 h3 h4 h5 h6 h7
    have e1 : ref d .fst "EDFile" = ref d' .fst "EDFile" := by rw [ref, ref, h4, h5]; simp only [getStr_congr _ _ _ h6]
    have e2 : ref d .fst "BDBldFile(1)" = ref d' .fst "BDBldFile(1)" := by rw [ref, ref, h4, h5]; simp only [getStr_congr _ _ _ h7]
    have e3 : ref d .bd "BldFile" = ref d' .bd "BldFile" := by rw [ref, ref, h3]
    have e4 : edTwrRel d = edTwrRel d' := by
      rw [edTwrRel, edTwrRel, h4, h5, h2]
      cases d'.vt .ed with
      | none => rfl
      | some ed => simp only [twrRel, getStr_congr _ _ _ h6]
    have e5 : edBldRel d = edBldRel d' := by
      rw [edBldRel, edBldRel, h4, h5, h2]
      cases d'.vt .ed with
      | none => rfl
      | some ed => simp only [bldRel, getStr_congr _ _ _ h6]
    have e6 : ∀ r, fullpath d r = fullpath d' r := by intro r; rw [fullpath, fullpath, h1]
    simp only [inputFiles, edRel, bdRel, bdBldRel, e1, e2, e3, e4, e5, e6]
  · refine ⟨⟨"main.fst".toList, [], fun _ => none, fun s => if s = .fst then some [("AeroFile".toList, .str "AD.dat".toList)] else
      if s = .ad15 then some [] else none, [], []⟩, ⟨_, rfl, rfl⟩, ?_, rfl, by decide +kernel⟩
    exact ⟨by decide +kernel, by decide +kernel⟩

/-- **C255**: the input files have the files of ElastoDyn, its tower and its blade, of BeamDyn and its blade, each relative to the file that names it,
and nothing that is unused.  (Missing for the full property: all other modules.) -/
theorem C255_partial (d : Deck) :
    (∀ e, Says d .fst "EDFile".toList e → Used e → pjoin (dirname d.filename) e ∈ inputFiles d) ∧
    (∀ e t, Says d .fst "EDFile".toList e → '"' ∉ e → Says d .ed "TwrFile".toList t → '"' ∉ t → Used (pjoin (dirname e) t) → nested d e t ∈ inputFiles d) ∧
    (∀ e t, Says d .fst "EDFile".toList e → '"' ∉ e → '"' ∉ t → Used (pjoin (dirname e) t) →
      (Says d .ed "BldFile(1)".toList t ∨ (Says d .ed "BldFile1".toList t ∧ ∀ ed, d.vt .ed = some ed → "BldFile(1)".toList ∉ ed.map Prod.fst)) →
      nested d e t ∈ inputFiles d) ∧
    (∀ b, Says d .fst "BDBldFile(1)".toList b → Used b → pjoin (dirname d.filename) b ∈ inputFiles d) ∧
    (∀ b t, Says d .fst "BDBldFile(1)".toList b → '"' ∉ b → Says d .bd "BldFile".toList t → '"' ∉ t → Used (pjoin (dirname b) t) → nested d b t ∈ inputFiles d) ∧
    (inputFiles d).length ≤ 5 ∧
    (∀ p ∈ inputFiles d, ∃ r, p = pjoin (dirname d.filename) r ∧ lower (basename r) ∉ (["unused", "nan", "na", "none"].map String.toList)) := by
  refine ⟨?_, ?_, ?_, ?_, ?_, ?_, ?_⟩
  · intro e h hu
    obtain ⟨main, h1, h2⟩ := says_get h
    exact listed d (edRel d) e (by rw [edRel, ref, h1]; simp only [h2, unquote_id hu.1]; rfl) hu (by simp)
  · intro e t h hq h' hq' hu
    obtain ⟨main, h1, h2⟩ := says_get h
    obtain ⟨ed, h3, h4⟩ := says_get h'
    exact listed d (edTwrRel d) _ (by rw [edTwrRel, h1, h3]; simp only [twrRel, h2, h4, unquote_id hq', unquote_id (dirname_noQuote hq)]) hu (by simp)
  · intro e t h hq hq' hu hb
    obtain ⟨main, h1, h2⟩ := says_get h
    have hx : ∃ ed, d.vt .ed = some ed ∧ getStr ed (if ed.has "BldFile(1)" then "BldFile(1)" else "BldFile1") = .ok t := by
      rcases hb with hb | ⟨hb, hn⟩
      · obtain ⟨ed, h3, h4⟩ := says_get hb
        refine ⟨ed, h3, ?_⟩
        have : ed.has "BldFile(1)" = true := by
          rw [getStr] at h4
          rw [File.has]
          cases hg : ed.get "BldFile(1)" with
          | none => rw [hg] at h4; cases h4
          | some _ => rfl
        rw [if_pos this, h4]
      · obtain ⟨ed, h3, h4⟩ := says_get hb
        refine ⟨ed, h3, ?_⟩
        have : ¬ ed.has "BldFile(1)" = true := by
          rw [File.has, File.get]
          have : (ed.find? fun p => p.1 = "BldFile(1)".toList) = none := by
            rw [List.find?_eq_none]
            intro p hp hh
            exact hn ed h3 (List.mem_map.2 ⟨p, hp, of_decide_eq_true hh⟩)
          rw [this]
          simp
        rw [if_neg this, h4]
    obtain ⟨ed, h3, h4⟩ := hx
    exact listed d (edBldRel d) _ (by rw [edBldRel, h1, h3]; simp only [bldRel, h2, h4, unquote_id hq', unquote_id hq]) hu (by simp)
  · intro e h hu
    obtain ⟨main, h1, h2⟩ := says_get h
    exact listed d (bdRel d) e (by rw [bdRel, ref, h1]; simp only [h2, unquote_id hu.1]; rfl) hu (by simp)
  · intro e t h hq h' hq' hu
    obtain ⟨main, h1, h2⟩ := says_get h
    obtain ⟨ed, h3, h4⟩ := says_get h'
    exact listed d (bdBldRel d) _ (by rw [bdBldRel, ref, ref, h1, h3]; simp only [h2, h4, unquote_id hq', unquote_id hq]) hu (by simp)
  · rw [inputFiles]
    exact List.length_filter_le _ _
  · intro p hp
    rw [inputFiles, List.mem_filter] at hp
    have hn := of_decide_eq_true hp.2
    simp only [List.cons_append, List.nil_append, List.mem_cons, List.not_mem_nil, or_false] at hp
    rcases hp.1 with rfl | rfl | rfl | rfl | rfl
    all_goals exact ⟨_, (fullpath_none d _ hn).1, (fullpath_none d _ hn).2⟩

/-- **C255**: without files of ElastoDyn and BeamDyn, and without a name of a BeamDyn file, the input files are that of ElastoDyn alone -/
theorem C255_alone (d : Deck) (e : Str) (h : Says d .fst "EDFile".toList e) (hu : Used e) (h1 : d.vt .ed = none) (h2 : d.vt .bd = none)
    (h3 : ∀ f, d.vt .fst = some f → "BDBldFile(1)".toList ∉ f.map Prod.fst) : inputFiles d = [pjoin (dirname d.filename) e] := by
  obtain ⟨main, m1, m2⟩ := says_get h
  have hb : ref d .fst "BDBldFile(1)" = none := by
    have : main.get "BDBldFile(1)" = none := by
      rw [File.get, Option.map_eq_none_iff, List.find?_eq_none]
      intro p hp hh
      exact h3 main m1 (List.mem_map.2 ⟨p, hp, of_decide_eq_true hh⟩)
    rw [ref, m1]
    simp only [getStr, this]
  have e1 : edRel d = e := by rw [edRel, ref, m1]; simp only [m2, unquote_id hu.1]; rfl
  have e2 : edTwrRel d = "none".toList := by rw [edTwrRel, m1, h1]
  have e3 : edBldRel d = "none".toList := by rw [edBldRel, m1, h1]
  have e4 : bdRel d = "none".toList := by rw [bdRel, hb]; rfl
  have e5 : bdBldRel d = "none".toList := by rw [bdBldRel, hb]
  have hn : fullpath d "none".toList = "none".toList := by
    rw [fullpath]
    exact if_pos (by decide +kernel)
  obtain ⟨g1, g2⟩ := fullpath_mem d e hu
  have key : ∀ (P : Str → Bool) (a b : Str), P a = true → P b = false → List.filter P [a, b, b, b, b] = [a] := by
    intro P a b ha hb
    simp [ha, hb]
  rw [inputFiles, e1, e2, e3, e4, e5, hn, ← g1]
  exact key _ _ _ (decide_eq_true g2) (by decide +kernel)

/-! A concrete case: ElastoDyn alone -/

example : ∃ d : Deck, Says d .fst "EDFile".toList "ED.dat".toList ∧ Used "ED.dat".toList ∧ d.vt .ed = none ∧ d.vt .bd = none ∧
    ∀ f, d.vt .fst = some f → "BDBldFile(1)".toList ∉ f.map Prod.fst := by
  refine ⟨⟨"main.fst".toList, [], fun _ => none, fun s => if s = .fst then some [("EDFile".toList, .str "ED.dat".toList)] else none, [], []⟩,
    ⟨_, rfl, rfl⟩, ⟨by decide +kernel, by decide +kernel⟩, rfl, rfl, ?_⟩
  intro f hf
  cases hf
  decide +kernel

/-! A concrete case: the tower of an ElastoDyn file in a subdirectory -/

example : let d : Deck := ⟨"run/main.fst".toList, [], fun _ => none, fun s => if s = .fst then some [("EDFile".toList, .str "ed/ED.dat".toList)] else
      if s = .ed then some [("TwrFile".toList, .str "tower.dat".toList), ("BldFile1".toList, .str "unused".toList)] else none, [], []⟩
    inputFiles d = ["run/ed/ED.dat".toList, "run/ed/tower.dat".toList] ∧ Used (pjoin (dirname "ed/ED.dat".toList) "tower.dat".toList) ∧
      nested d "ed/ED.dat".toList "tower.dat".toList = "run/ed/tower.dat".toList :=
  ⟨by decide +kernel, ⟨by decide +kernel, by decide +kernel⟩, by decide +kernel⟩

end Verif.DeckFiles
