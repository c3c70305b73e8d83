import Verif.Lemmas.FlexDoc
import Verif.Lemmas.Hs2
import Verif.Lemmas.FastHand
/-!
# FLEX documentation files

Properties C185 to C191.
-/
namespace Verif.FlexDoc
open Verif.Py Verif.TurbSimTS Verif.Hs2

/-- **C185**, what does not hold: the digits of a unit are values -/
theorem C185_fails : ∃ (N : Num Str) (d : Doc Str), read N id "#Program Flex\n#Environment_AirDensity 1.234 [kg/m3]\n".toList = .ok d ∧
    get d "Environment".toList (some "AirDensity".toList) = some (.vec ["1.234".toList, "3".toList]) :=
  ⟨toy, exGet toy _ ((_, _), _) (by decide +kernel)⟩

/-- **C185** (partial): an entry whose words are numbers or have no digits has the numbers as its value, a single one as a number.
Missing: words with digits that are not numbers, as units and file names (`C185_fails`). -/
theorem C185_partial {F : Type} (N : Num F) (flt : Str → F) (s first : Str) (prog : Item F) (its : List (Item F)) (h : IsDoc N flt s first prog its) :
    ∃ d, read N flt s = .ok d ∧ ∀ l key sub v, Item.entry l key sub v ∈ its ++ [prog] → get d key sub = some v := by
  obtain ⟨d, h1, h2, _⟩ := read_all N flt s first prog its h
  refine ⟨d, h1, fun l key sub v hm => ?_⟩
  rw [h2 _ hm (key, sub, v) (by simp [Item.says])]
  have hn := (h.good _ hm).1.2.1
  rw [fin, if_neg]
  rintro ⟨e1, e2⟩
  simp only at e1 e2
  rw [e1, e2] at hn
  exact hn (by decide +kernel)

example : ∃ d, read toy id exText = .ok d ∧ get d "Environment".toList (some "WaterDepth".toList) = some (.num "2.5e1".toList) ∧
    get d "Hub".toList (some "Offsets".toList) = some (.vec ["-1".toList, "+.5".toList, "3.".toList]) ∧ get d "Mass".toList none = some (.num "3.0".toList) := by
  obtain ⟨d, h1, h2⟩ := C185_partial _ _ _ _ _ _ exDoc
  exact ⟨d, h1, h2 _ _ _ _ (List.mem_append_left _ (.tail _ (.head _))), h2 _ _ _ _ (List.mem_append_left _ (.tail _ (.tail _ (.head _)))),
    h2 "#Mass 3.0".toList _ _ _ (List.mem_append_left _ (by simp [exItems]))⟩

/-- **C186**: every part of the file is found under its keys, and nothing else is in the object -/
theorem C186 {F : Type} (N : Num F) (flt : Str → F) (s first : Str) (prog : Item F) (its : List (Item F)) (h : IsDoc N flt s first prog its) :
    ∃ d, read N flt s = .ok d ∧
      (∀ it ∈ its ++ [prog], ∀ u ∈ it.says, (u.1, u.2.1) ≠ ("Global".toList, some "Mode1_Shape".toList) → get d u.1 u.2.1 = some u.2.2) ∧
      (∀ p ∈ (its ++ [prog]).flatMap Item.places, ∃ v, get d p.1 p.2 = some v) ∧
      ∀ k sub v, get d k sub = some v → (k, sub) ∈ (its ++ [prog]).flatMap Item.places := by
  obtain ⟨d, h1, h2, h3⟩ := read_all N flt s first prog its h
  obtain ⟨d', h1', hi, _⟩ := read_items N flt s first prog its h
  obtain rfl : d = d' := by rw [h1] at h1'; exact Except.ok.inj h1'
  refine ⟨d, h1, ?_, ?_, h3⟩
  · intro it hit u hu hne
    rw [h2 it hit u hu, fin, if_neg]
    rintro ⟨e1, e2⟩
    exact hne (by rw [e1, e2])
  · intro p hp
    obtain ⟨it, hit, hp⟩ := List.mem_flatMap.1 hp
    rw [known_places flt it N (known_of N flt it (h.good it hit))] at hp
    obtain ⟨u, hu, rfl⟩ := List.mem_map.1 hp
    rcases hi.val u (List.mem_flatMap.2 ⟨_, List.mem_map.2 ⟨it, hit, rfl⟩, hu⟩) with hv | hv <;> exact ⟨_, hv⟩

example : ∃ d, read toy id exText = .ok d ∧ (∃ v, get d "Program".toList none = some v) ∧ get d "Hub".toList none = none := by
  obtain ⟨d, h1, _, h3, h4⟩ := C186 _ _ _ _ _ _ exDoc
  refine ⟨d, h1, h3 ("Program".toList, none) (by decide +kernel), ?_⟩
  cases hg : get d "Hub".toList none with
  | none => rfl
  | some v => exact absurd (h4 _ _ _ hg) (by decide +kernel)

/-- **C187**, what does not hold: the first row of a matrix is lost, and two matrices of the blade are no matrices -/
theorem C187_fails : ∃ (N : Num Str) (d : Doc Str),
    read N id "#Program Flex\n#EVA_Eigenfrequencies\n0.3 0.4\n#Blade_IsolatedMassMatrix\n1 2\n3 4\n".toList = .ok d ∧
    get d "EVA".toList (some "Eigenfrequencies".toList) = some (.mat []) ∧ get d "Blade".toList (some "IsolatedMassMatrix".toList) = some (.vec []) :=
  ⟨toy, exGet2 toy _ ((_, _), _) ((_, _), _) (by decide +kernel)⟩

/-- **C187** (partial): a matrix of the file has the rows from the second one on.  Missing: the first row, and the two matrices of `C187_fails`. -/
theorem C187_partial {F : Type} (N : Num F) (flt : Str → F) (s first : Str) (prog : Item F) (its : List (Item F)) (h : IsDoc N flt s first prog its) :
    ∃ d, read N flt s = .ok d ∧ ∀ l key sub lost lines rows, Item.matrix l key sub lost lines rows ∈ its → get d key (some sub) = some (.mat rows) := by
  obtain ⟨d, h1, h2, _⟩ := read_all N flt s first prog its h
  refine ⟨d, h1, fun l key sub lost lines rows hm => ?_⟩
  rw [h2 _ (List.mem_append_left _ hm) (key, some sub, .mat rows) (by simp [Item.says])]
  unfold fin
  split <;> rfl

example : ∃ d, read toy id exText = .ok d ∧ get d "EVA".toList (some "MassMatrix".toList) = some (.mat [["3".toList, "4".toList]]) := by
  obtain ⟨d, h1, h2⟩ := C187_partial _ _ _ _ _ _ exDoc
  exact ⟨d, h1, h2 "#EVA_MassMatrix".toList _ _ "1 2".toList ["3 4".toList] _ (by simp [exItems])⟩

/-- **C188**: a table has the labels of its header, or numbered ones if these are not as many as its columns, and the numbers of its lines -/
theorem C188 {F : Type} (N : Num F) (flt : Str → F) (s first : Str) (prog : Item F) (its : List (Item F)) (h : IsDoc N flt s first prog its) :
    ∃ d, read N flt s = .ok d ∧ ∀ l key sub head lines labels rows, Item.table l key sub head lines labels rows ∈ its →
      (key, sub) ≠ ("Global".toList, "Mode1_Shape".toList) → get d key (some sub) = some (.frame labels rows) := by
  obtain ⟨d, h1, h2, _⟩ := read_all N flt s first prog its h
  refine ⟨d, h1, fun l key sub head lines labels rows hm hne => ?_⟩
  rw [h2 _ (List.mem_append_left _ hm) (key, some sub, .frame labels rows) (by simp [Item.says]), fin, if_neg]
  rintro ⟨e1, e2⟩
  simp only at e1 e2
  exact hne (by rw [e1, Option.some.inj e2])

example : ∃ d, read toy id exText = .ok d ∧ get d "Tower".toList (some "SectionData".toList) =
    some (.frame ["z_[m]".toList, "mass_per_length_[kg_m]".toList] [["0".toList, "1.5".toList], ["2.5".toList, "7".toList]]) := by
  obtain ⟨d, h1, h2⟩ := C188 _ _ _ _ _ _ exDoc
  exact ⟨d, h1, h2 "#Tower_SectionData".toList _ _ "2 z [m] mass per length [kg m]".toList ["Fnd 1.5".toList, "2.5 7".toList] _ _ (by simp [exItems]) (by decide)⟩

/-- **C189**: the shape of the first global mode, of four columns without labels of their own, has the heights and the two displacements -/
theorem C189 {F : Type} (N : Num F) (flt : Str → F) (s first : Str) (prog : Item F) (its : List (Item F)) (h : IsDoc N flt s first prog its) :
    ∃ d, read N flt s = .ok d ∧ ∀ l head lines rows,
      Item.table l "Global".toList "Mode1_Shape".toList head lines ["C0".toList, "C1".toList, "C2".toList, "C3".toList] rows ∈ its →
      get d "Global".toList (some "Mode1_Shape".toList) = some (.frame ["H_[m]".toList, "U_FA_[-]".toList, "U_SS_[]".toList] (rows.map fun r => r.drop 1)) := by
  obtain ⟨d, h1, h2, _⟩ := read_all N flt s first prog its h
  refine ⟨d, h1, fun l head lines rows hm => ?_⟩
  have hg := h.good _ (List.mem_append_left _ hm)
  rw [h2 _ (List.mem_append_left _ hm) ("Global".toList, some "Mode1_Shape".toList, .frame ["C0".toList, "C1".toList, "C2".toList, "C3".toList] rows)
    (List.mem_singleton.2 rfl), fin, if_pos ⟨rfl, rfl⟩]
  simp only [adjustVal]
  rw [if_pos (by decide)]
  obtain ⟨_, _, _, _, _, _, hlen, cols, _, hx⟩ := hg
  have hw : (rows.headD []).length = 4 := by
    rcases hx with ⟨e1, e2⟩ | ⟨_, e2, _⟩
    · rw [← e1, ← e2]; rfl
    · rw [← e2]; rfl
  refine congrArg some (congrArg (Val.frame _) (List.map_congr_left ?_))
  intro r hr
  have := hlen r hr
  rw [hw] at this
  match r, this with
  | [a, b, c, e], _ => simp

example : ∃ d, read toy id exText = .ok d ∧ get d "Global".toList (some "Mode1_Shape".toList) =
    some (.frame ["H_[m]".toList, "U_FA_[-]".toList, "U_SS_[]".toList] [["1".toList, "2".toList, "3".toList]]) := by
  obtain ⟨d, h1, h2⟩ := C189 _ _ _ _ _ _ exDoc
  exact ⟨d, h1, h2 "#Global_Mode1_Shape".toList "x y".toList ["0 1 2 3".toList] [["0".toList, "1".toList, "2".toList, "3".toList]] (by simp [exItems])⟩

/-- **C190**, what does not hold: of two entries with the same two keys the second one stays -/
theorem C190_fails : ∃ (N : Num Str) (d : Doc Str), read N id "#Program Flex\n#Hub_Mass 1.5\n#Hub_Mass 2.5\n".toList = .ok d ∧
    get d "Hub".toList (some "Mass".toList) = some (.num "2.5".toList) :=
  ⟨toy, exGet toy _ ((_, _), _) (by decide +kernel)⟩

/-- **C190** (partial): an entry with one key is refused if the key is there already.  Missing: entries with two keys (`C190_fails`). -/
theorem C190_partial {F : Type} (N : Num F) (flt : Str → F) (s first : Str) (its : List (Item F)) (l key : Str) (rest : List Str)
    (hs : HasLines s (first :: (its.flatMap Item.text ++ l :: rest))) (hp : "#Program".toList <+: strip first) (hg : ∀ it ∈ its, it.Good N flt) (hc : Closed its)
    (hd : (its.flatMap Item.places).Pairwise Distinct) (hl : (Item.other l key none : Item F).Good N flt) (sub : Option Str)
    (hk : (key, sub) ∈ its.flatMap Item.places) : read N flt s = .error .duplicate := by
  have hh : l.head? = some '#' := by obtain ⟨_, _, h, _⟩ := hl; exact h
  obtain ⟨d, hi, e⟩ := go_items_bad N flt s first its (l :: rest) hs hp hg hc hd (by
    intro x hx
    simp at hx
    subst hx
    exact fun h => h.2 hh)
  have hk' : ∃ v, get d key sub = some v := by
    obtain ⟨it, hit, hp⟩ := List.mem_flatMap.1 hk
    rw [known_places flt it N (known_of N flt it (hg it hit))] at hp
    obtain ⟨u, hu, hu'⟩ := List.mem_map.1 hp
    obtain ⟨rfl, rfl⟩ := Prod.mk.inj hu'
    rcases hi.val u (List.mem_flatMap.2 ⟨_, List.mem_map.2 ⟨it, hit, rfl⟩, hu⟩) with hv | hv <;> exact ⟨_, hv⟩
  have hlook : ∃ x, look key d = some x := by
    obtain ⟨v, hv⟩ := hk'
    cases hx : look key d with
    | some x => exact ⟨x, rfl⟩
    | none => cases sub <;> simp [get_none, get_some, hx] at hv
  obtain ⟨x, hx⟩ := hlook
  have hst := step_entry N flt d l key none _ (known_of N flt _ hl)
  rw [put] at hst
  simp only [setOne, hx] at hst
  rw [e, List.cons_append, go, hst]
  rfl

example : read toy id "#Program Flex\n#Mass 1.5\n#Mass 2.5\n".toList = .error .duplicate :=
  C190_partial toy id _ "#Program Flex".toList [.other "#Mass 1.5".toList "Mass".toList none] "#Mass 2.5".toList "Mass".toList [] ⟨by decide +kernel, .inl rfl⟩ (by decide +kernel)
    (by
      intro it hit
      rw [List.mem_singleton.1 hit]
      exact ⟨exName _ _ (by decide +kernel), ["1.5".toList], exNamed _ _ _ (by decide +kernel)⟩) ⟨trivial, trivial⟩ (by simp [Item.places])
    ⟨exName _ _ (by decide +kernel), ["2.5".toList], exNamed _ _ _ (by decide +kernel)⟩ none (by simp [Item.places])

/-- **C191**: a file whose first line is not that of a program is refused -/
theorem C191_program {F : Type} (N : Num F) (flt : Str → F) (s first : Str) (ls : List Str) (hs : HasLines s (first :: ls)) (hp : ¬ "#Program".toList <+: strip first) :
    read N flt s = .error .wrong := by
  rw [read, readlines_of hs]
  simp only
  rw [if_neg]
  rw [startsWith, List.isPrefixOf_iff_prefix]
  exact hp

example : read toy id "Program Flex\n#Mass 1\n".toList = .error .wrong :=
  C191_program toy id _ "Program Flex".toList ["#Mass 1".toList] ⟨by decide +kernel, .inl rfl⟩ (by decide +kernel)

/-- **C191**: a table without rows is refused -/
theorem C191_rows {F : Type} (N : Num F) (flt : Str → F) (s first : Str) (its : List (Item F)) (l name : Str) (ws : List Str) (h : Str) (rest : List Str)
    (hs : HasLines s (first :: (its.flatMap Item.text ++ l :: h :: rest))) (hp : "#Program".toList <+: strip first) (hg : ∀ it ∈ its, it.Good N flt) (hc : Closed its)
    (hd : (its.flatMap Item.places).Pairwise Distinct) (hl : Named l name ws) (hn : name ∈ tableNames) (hr : ∀ x, rest.head? = some x → ¬ RowLine x) :
    read N flt s = .error .index := by
  obtain ⟨d, hi, e⟩ := go_items_bad N flt s first its (l :: h :: rest) hs hp hg hc hd (by
    intro x hx
    simp at hx
    subst hx
    exact fun hx => hx.2 hl.1)
  rw [e, List.cons_append, List.cons_append, go, step_section N flt d l name ws hl hn]
  show go N flt (.head name true) d _ = _
  rw [go]
  have hf : finish N d name true h ([] : List (List F)) = .error .index := by simp [finish]
  cases hx : rest ++ [strip first] with
  | nil => simp at hx
  | cons x r =>
    have : ¬ (x ≠ [] ∧ x.head? ≠ some '#') := by
      cases rest with
      | nil =>
        simp at hx
        obtain ⟨t, ht⟩ := hp
        rw [← hx.1, ← ht]
        simp
      | cons y rest =>
        simp at hx
        have := hr y rfl
        rw [hx.1] at this
        exact this
    rw [go, if_neg this, hf]

example : read toy id "#Program Flex\n#Tower_SectionData\nz m\n\n#Mass 1\n".toList = .error .index :=
  C191_rows toy id _ "#Program Flex".toList [] "#Tower_SectionData".toList "#Tower_SectionData".toList [] "z m".toList ["".toList, "#Mass 1".toList]
    ⟨by decide +kernel, .inl rfl⟩ (by decide +kernel) (by intro it hit; cases hit) trivial (by simp) (exNamed _ _ _ (by decide +kernel)) (by decide +kernel)
    (by intro x hx h; simp at hx; subst hx; exact h.1 rfl)

/-- **C191**: a table with a word that is no number is refused -/
theorem C191_cells {F : Type} (N : Num F) (flt : Str → F) (s first : Str) (its : List (Item F)) (l name : Str) (ws : List Str) (h : Str) (lines : List Str)
    (rows : List (List F)) (bad : Str) (rest : List Str)
    (hs : HasLines s (first :: (its.flatMap Item.text ++ l :: h :: (lines ++ bad :: rest)))) (hp : "#Program".toList <+: strip first)
    (hg : ∀ it ∈ its, it.Good N flt) (hc : Closed its) (hd : (its.flatMap Item.places).Pairwise Distinct) (hl : Named l name ws) (hn : name ∈ tableNames)
    (hrow : ∀ r ∈ lines, RowLine r) (hr : List.Forall₂ (fun r row => List.Forall₂ (CellSays N) (words r) row) lines rows) (hb : RowLine bad)
    (w : Str) (hw : w ∈ words bad) (hw1 : w ∉ ["Fnd".toList, "Twr".toList, "COG".toList]) (hw2 : N.flt w = none) : read N flt s = .error .value := by
  obtain ⟨d, hi, e⟩ := go_items_bad N flt s first its (l :: h :: (lines ++ bad :: rest)) hs hp hg hc hd (by
    intro x hx
    simp at hx
    subst hx
    exact fun hx => hx.2 hl.1)
  have hno : ∀ l : List Str, w ∈ l → l.mapM (cell N) = none := by
    intro l hm
    have hcell : cell N w = none := by
      simp only [List.mem_cons, List.not_mem_nil, or_false, not_or] at hw1
      rw [cell, if_neg hw1.1, if_neg hw1.2.1, if_neg hw1.2.2, hw2]
    induction l with
    | nil => cases hm
    | cons a l ih =>
      rw [List.mapM_cons]
      rcases List.mem_cons.1 hm with rfl | hm
      · rw [hcell]; rfl
      · rw [ih hm]; cases cell N a <;> rfl
  rw [e, List.cons_append, List.cons_append, go, step_section N flt d l name ws hl hn]
  show go N flt (.head name true) d _ = _
  rw [go, List.append_assoc, go_rows N flt name h true lines rows hrow (hr.imp fun _ _ hx => by simpa using cells N _ _ hx), List.cons_append, go,
    if_pos (show bad ≠ [] ∧ bad.head? ≠ some '#' from hb), if_pos rfl, hno _ hw]

example : read toy id "#Program Flex\n#Tower_SectionData\nz m\n1 2\n3 x\n".toList = .error .value :=
  C191_cells toy id _ "#Program Flex".toList [] "#Tower_SectionData".toList "#Tower_SectionData".toList [] "z m".toList ["1 2".toList] [["1".toList, "2".toList]] "3 x".toList []
    ⟨by decide +kernel, .inl rfl⟩ (by decide +kernel) (by intro it hit; cases hit) trivial (by simp) (exNamed _ _ _ (by decide +kernel)) (by decide +kernel)
    (by unfold RowLine; decide) (.cons (.cons (.inr (.inr (.inr ⟨by decide, by decide, by decide, rfl⟩)))
      (.cons (.inr (.inr (.inr ⟨by decide, by decide, by decide, rfl⟩))) .nil)) .nil) (by unfold RowLine; decide) "x".toList (by decide +kernel) (by decide) rfl

end Verif.FlexDoc
