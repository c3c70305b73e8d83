import Verif.Spec.DeckFiles
import Verif.Lemmas.DeckRead
import Verif.Lemmas.Path
/-!
# Lemmas on the input files of a deck
-/
namespace Verif.DeckFiles
open Verif.Py Verif.DeckRead

theorem says_get {d : Deck} {slot : Slot} {key : String} {s : Str} (h : Says d slot key.toList s) : ∃ f, d.vt slot = some f ∧ getStr f key = .ok s := by
  obtain ⟨f, h1, h2⟩ := h
  refine ⟨f, h1, ?_⟩
  rw [getStr, File.get, h2]

theorem unused_noSlash : ∀ x ∈ unusedNames, '/' ∉ x ∧ lower x = x := by decide +kernel

theorem pjoin_unused (a r : Str) (h : pjoin a r ∈ unusedNames) : lower (basename r) ∈ unusedNames := by
  obtain ⟨h1, h2⟩ := unused_noSlash _ h
  have hr : pjoin a r = r := by
    rw [pjoin] at h1 ⊢
    split at h1
    · rw [if_pos (by assumption)]
    · rename_i hh
      rw [if_neg hh]
      split at h1
      · rename_i h3
        rw [if_pos h3]
        rcases h3 with rfl | h3
        · rfl
        · exact absurd (List.mem_append_left _ (List.mem_of_getLast? h3)) h1
      · exact absurd (by simp) h1
  rw [hr] at h h1 h2
  rw [basename_plain r h1, h2]
  exact h

theorem unquote_id {s : Str} (h : '"' ∉ s) : unquote s = s := by
  rw [unquote, List.filter_eq_self]
  intro c hc
  exact decide_eq_true (fun e => h (e ▸ hc))

theorem fullpath_mem (d : Deck) (rel : Str) (hu : Used rel) : fullpath d rel = pjoin (dirname d.filename) rel ∧ fullpath d rel ∉ unusedNames := by
  have e : fullpath d rel = pjoin (dirname d.filename) rel := by
    rw [fullpath, unquote_id hu.1]
    exact if_neg hu.2
  refine ⟨e, ?_⟩
  rw [e]
  exact fun h => hu.2 (pjoin_unused _ _ h)

theorem dirname_noQuote {s : Str} (h : '"' ∉ s) : '"' ∉ dirname s := by
  have h1 : ∀ c ∈ headPart s, c ∈ s := by
    intro c hc
    rw [headPart, List.mem_reverse] at hc
    exact List.mem_reverse.1 ((List.dropWhile_suffix _).subset hc)
  intro hm
  rw [dirname] at hm
  split at hm
  · exact h (h1 _ hm)
  · rw [rstripBy, List.mem_reverse] at hm
    exact h (h1 _ (List.mem_reverse.1 ((List.dropWhile_suffix _).subset hm)))

theorem listed (d : Deck) (rel p : Str) (hp : p = rel) (hu : Used p)
    (hm : fullpath d rel ∈ [fullpath d (edRel d), fullpath d (edTwrRel d), fullpath d (edBldRel d)] ++ [fullpath d (bdRel d), fullpath d (bdBldRel d)]) :
    pjoin (dirname d.filename) p ∈ inputFiles d := by
  subst hp
  obtain ⟨h1, h2⟩ := fullpath_mem d p hu
  rw [inputFiles, List.mem_filter, ← h1]
  exact ⟨hm, decide_eq_true h2⟩

theorem fullpath_none (d : Deck) (rel : Str) (h : fullpath d rel ∉ unusedNames) :
    fullpath d rel = pjoin (dirname d.filename) (unquote rel) ∧ lower (basename (unquote rel)) ∉ unusedNames := by
  rw [fullpath] at h ⊢
  split at h
  · exact absurd (by decide +kernel) h
  · rename_i hh
    exact ⟨if_neg hh, hh⟩

theorem getStr_congr (f g : File) (key : String) (h : f.get key = g.get key) : getStr f key = getStr g key := by
  rw [getStr, getStr, h]

end Verif.DeckFiles
