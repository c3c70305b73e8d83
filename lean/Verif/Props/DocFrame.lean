import Verif.Lemmas.DocFrame
import Verif.Props.FlexDoc
import Verif.Lemmas.FlexBld
/-!
# The tables of FLEX documentation files

Property C240.
-/
namespace Verif.FlexDoc
open Verif.Py

/-- **C240**: the tables of any file that can be read: their names are distinct and are names of table sections; a table of the name
`key_sub` is the one that the object holds under `key` and `sub`, and each table of the object is among them -/
theorem C240_tables {F : Type} (N : Num F) (flt : Str → F) (s : Str) (d : Doc F) (h : read N flt s = .ok d) :
    ((toDataFrame d).map Prod.fst).Nodup ∧
    (∀ t ∈ toDataFrame d, '#' :: t.1 ∈ tableNames ∧ ∃ key sub, t.1 = key ++ '_' :: sub ∧ get d key (some sub) = some (.frame t.2.1 t.2.2)) ∧
    ∀ key sub cols rows, get d key (some sub) = some (.frame cols rows) → (key ++ '_' :: sub, cols, rows) ∈ toDataFrame d := by
  have hok := read_ok N flt s d h
  have hnd : ((toDataFrame d).map Prod.fst).Nodup := framesFrom_nodup d [] List.nodup_nil
  refine ⟨hnd, ?_, ?_⟩
  · intro t ht
    have hl := look_frames_other.look_of_mem _ hnd t.1 t.2 ht
    rcases look_frames_other d hok t.1 [] t.2 hl with h1 | ⟨k, sb, c, r, h1, h2, h3⟩
    · cases h1
    · refine ⟨?_, k, sb, h1, ?_⟩
      · rw [get_some] at h2
        cases hlk : look k d with
        | none => rw [hlk] at h2; cases h2
        | some e =>
          cases e with
          | one v => rw [hlk] at h2; cases h2
          | group g =>
            rw [hlk] at h2
            rw [h1]
            exact (hok.entries _ (look_mem k d _ hlk)).2 (sb, .frame c r) (look_mem sb g _ h2) c r rfl
      · rw [h3]; exact h2
  · intro key sub cols rows hg
    have hk : '_' ∉ key := by
      rw [get_some] at hg
      cases hlk : look key d with
      | none => rw [hlk] at hg; cases hg
      | some e => exact hok.keys _ (look_mem key d _ hlk)
    exact look_mem _ _ _ ((look_frames d hok key sub hk cols rows []).1 hg)

/-- **C240**: each table section of a file gives the table of its name, with the labels and the rows of the file; there are no other tables -/
theorem C240_sections {F : Type} (N : Num F) (flt : Str → F) (s first : Str) (prog : Item F) (its : List (Item F)) (h : IsDoc N flt s first prog its) :
    ∃ d, read N flt s = .ok d ∧
      (∀ l key sub head lines labels rows, Item.table l key sub head lines labels rows ∈ its → (key, sub) ≠ ("Global".toList, "Mode1_Shape".toList) →
        (key ++ '_' :: sub, labels, rows) ∈ toDataFrame d) ∧
      ∀ t ∈ toDataFrame d, ∃ l key sub head lines labels rows, Item.table l key sub head lines labels rows ∈ its ++ [prog] ∧ t.1 = key ++ '_' :: sub := by
  obtain ⟨d, h1, h2⟩ := C188 N flt s first prog its h
  obtain ⟨d', h1', h3, -, h4⟩ := C186 N flt s first prog its h
  obtain rfl : d = d' := by rw [h1] at h1'; cases h1'; rfl
  obtain ⟨-, ht, hm⟩ := C240_tables N flt s d h1
  refine ⟨d, h1, fun l key sub head lines labels rows hi hne => hm _ _ _ _ (h2 l key sub head lines labels rows hi hne), ?_⟩
  intro t htm
  obtain ⟨hin, key, sub, e1, e2⟩ := ht t htm
  have hp := h4 _ _ _ e2
  obtain ⟨it, hit, hpl⟩ := List.mem_flatMap.1 hp
  have hgood := h.good it hit
  have hname : nameOf key (some sub) ∈ tableNames := by rw [nameOf, ← e1]; exact hin
  cases it with
  | skip l => cases hpl
  | stray l => cases hpl
  | entry l k sb v =>
    obtain ⟨⟩ := List.mem_singleton.1 hpl
    exact absurd hname hgood.1.2.1
  | other l k sb =>
    obtain ⟨⟩ := List.mem_singleton.1 hpl
    exact absurd hname hgood.1.2.1
  | table l k sb hd lines labels rows =>
    obtain ⟨⟩ := List.mem_singleton.1 hpl
    exact ⟨l, key, sub, hd, lines, labels, rows, hit, e1⟩
  | matrix l k sb lost lines rows =>
    obtain ⟨⟩ := List.mem_singleton.1 hpl
    exact absurd ((table_iff _).1 hname) (matrix_in _ hgood.2.1).2

example : ∃ d, read toy id exText = .ok d ∧ ("Tower_SectionData".toList, ["z_[m]".toList, "mass_per_length_[kg_m]".toList],
    [["0".toList, "1.5".toList], ["2.5".toList, "7".toList]]) ∈ toDataFrame d := by
  obtain ⟨d, h1, h2, -⟩ := C240_sections _ _ _ _ _ _ exDoc
  exact ⟨d, h1, h2 "#Tower_SectionData".toList "Tower".toList "SectionData".toList "2 z [m] mass per length [kg m]".toList ["Fnd 1.5".toList, "2.5 7".toList] _ _
    (by simp [exItems]) (by decide)⟩

end Verif.FlexDoc
