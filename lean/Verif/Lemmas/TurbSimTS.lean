import Verif.Spec.TurbSimTS
import Verif.Lemmas.St
import Verif.Lemmas.HawcAe
import Verif.Lemmas.Hawc2Sel
import Verif.Lemmas.Bhawc
import Verif.Lemmas.DeckRead
import Verif.Lemmas.Yaml
import Mathlib.Data.List.Forall2
import Mathlib.Tactic
/-!
# Lemmas on a TurbSim time series file
-/
namespace Verif.TurbSimTS
open Verif.Py
open Verif.St (Num)
open Verif.DeckRead (bind_ok ok_bind)

theorem splitOn_tail (a : List Str) (l : Str) (h : ∀ x ∈ a ++ [l], '\n' ∉ x) : splitOn '\n' (HawcAe.unlines a ++ l) = a ++ [l] := by
  induction a with
  | nil => simpa [HawcAe.unlines] using splitOn_noSep '\n' l (h l (by simp))
  | cons x t ih =>
    have e : HawcAe.unlines (x :: t) ++ l = x ++ '\n' :: (HawcAe.unlines t ++ l) := by
      simp [HawcAe.unlines]
    rw [e, splitOn_append _ _ _ (h x (by simp)), ih (fun y hy => h y (by simp at hy ⊢; tauto))]
    rfl

theorem readlines_of {s : Str} {ls : List Str} (h : HasLines s ls) : HawcAe.readlines s = ls := by
  obtain ⟨hn, h | ⟨a, l, rfl, hl, h⟩⟩ := h
  · rw [h, HawcAe.readlines_unlines ls hn]
  · rw [h]
    unfold HawcAe.readlines
    simp only [splitOn_tail a l hn]
    rw [if_neg]
    simpa using hl

theorem mentions_comp (l : Str) : Hawc2Sel.mentions "ncomp".toList l = true ↔ IsComp l := Hawc2Sel.mentions_iff _ _

theorem findComp_ok (i : Nat) (last : Option Str) (head : List Str) (l : Str) (ls : List Str) (hi : i + head.length ≤ 10)
    (hh : ∀ x ∈ head, ¬ IsComp x) (hl : IsComp l) : findComp i last (head ++ l :: ls) = .ok (head.map strip, l, ls) := by
  induction head generalizing i last with
  | nil =>
    rw [List.nil_append, findComp, if_neg (by simp at hi; omega), if_pos ((mentions_comp l).2 hl)]
    rfl
  | cons x t ih =>
    rw [List.cons_append, findComp, if_neg (by simp at hi; omega), if_neg (fun h => hh x (by simp) ((mentions_comp x).1 h)),
      ih (i + 1) (some x) (by simp at hi; omega) (fun y hy => hh y (by simp [hy]))]
    rfl

theorem firstInt_ok {F : Type} {φ : Num F} {l : Str} {n : Int} (h : Starts φ l n) : firstInt φ l = .ok n := by
  obtain ⟨w, t, hw, hn⟩ := h
  unfold firstInt
  rw [hw]
  simp only [hn]

theorem starts_strip {F : Type} {φ : Num F} {l : Str} {n : Int} (h : Starts φ l n) : Starts φ (strip l) n := by
  unfold Starts
  rw [words_strip]
  exact h

theorem pointRow_ok {F : Type} {φ : Num F} {l : Str} {x y : F} (h : RowSays φ l [x, y]) : pointRow φ l = .ok (x, y) := by
  unfold pointRow
  rw [St.mapM_some _ _ _ h]

theorem readPoints_ok {F : Type} (φ : Num F) (pts : List (Str × F × F)) (ls : List Str)
    (h : ∀ p ∈ pts, RowSays φ p.1 [p.2.1, p.2.2]) : readPoints φ pts.length (pts.map Prod.fst ++ ls) = .ok (pts.map Prod.snd, ls) := by
  induction pts with
  | nil => rfl
  | cons p t ih =>
    rw [List.length_cons, readPoints]
    simp only [List.map_cons, List.cons_append, List.headD_cons, List.tail_cons]
    rw [pointRow_ok (h p (by simp)), ih (fun q hq => h q (by simp [hq]))]
    rfl

theorem strip_ne {F : Type} {φ : Num F} {l : Str} {r : List F} (hr : r ≠ []) (h : RowSays φ l r) : strip l ≠ [] := by
  intro e
  unfold RowSays at h
  rw [← words_strip, e, words_nil] at h
  cases h
  exact hr rfl

theorem takeWhile_app {α : Type} (p : α → Bool) (a b : List α) (ha : ∀ x ∈ a, p x = true) (hb : b = [] ∨ ∃ x t, b = x :: t ∧ p x = false) :
    (a ++ b).takeWhile p = a := by
  induction a with
  | nil =>
    rcases hb with rfl | ⟨x, t, rfl, hx⟩
    · rfl
    · simp [hx]
  | cons x t ih =>
    rw [List.cons_append, List.takeWhile_cons, if_pos (ha x (by simp)), ih (fun y hy => ha y (by simp [hy]))]

theorem blank_tail {rest : List Str} (h : rest = [] ∨ ∃ b r, rest = b :: r ∧ ∀ c ∈ b, isWs c = true) :
    rest = [] ∨ ∃ x t, rest = x :: t ∧ decide (strip x ≠ []) = false := by
  rcases h with h | ⟨b, r, h, hb⟩
  · exact .inl h
  · refine .inr ⟨b, r, h, ?_⟩
    rw [(Hawc2Sel.strip_nil_iff b).2 hb]
    rfl

theorem readData_ok {F : Type} (φ : Num F) (rows : List (Str × List F)) (rest : List Str)
    (h : ∀ r ∈ rows, r.2 ≠ [] ∧ RowSays φ r.1 r.2) (hk : ∃ k, ∀ r ∈ rows, r.2.length = k)
    (hr : rest = [] ∨ ∃ b r, rest = b :: r ∧ ∀ c ∈ b, isWs c = true) :
    readData φ (rows.map Prod.fst ++ rest) = .ok (rows.map Prod.snd) := by
  unfold readData
  rw [takeWhile_app _ _ _ _ (blank_tail hr)]
  · rw [St.array_ok φ _ (rows.map Prod.snd)]
    · rw [List.map_map, List.forall₂_map_left_iff, List.forall₂_map_right_iff, List.forall₂_same]
      intro r hr
      show List.Forall₂ _ (words (strip r.1)) r.2
      rw [words_strip]
      exact (h r hr).2
    · obtain ⟨k, hk⟩ := hk
      refine ⟨k, fun r hr => ?_⟩
      obtain ⟨p, hp, rfl⟩ := List.mem_map.1 hr
      exact hk p hp
  · intro l hl
    obtain ⟨p, hp, rfl⟩ := List.mem_map.1 hl
    exact decide_eq_true (strip_ne (h p hp).1 (h p hp).2)

theorem read_lines {F : Type} (φ : Num F) (s : Str) (head : List Str) (l : Str) (ls : List Str) (hs : HasLines s (head ++ l :: ls))
    (hi : head.length ≤ 10) (hh : ∀ x ∈ head, ¬ IsComp x) (hl : IsComp l) : read φ s = readBody φ (head.map strip) l ls := by
  unfold read
  rw [readlines_of hs, findComp_ok 0 none head l ls (by omega) hh hl]
  rfl

theorem readBody_ok {F : Type} (φ : Num F) (h : List Str) (l n i a b : Str) (ls : List Str) (c : Int) (k : Nat) (m : Int)
    (hl : Starts φ l c) (hn : Starts φ n (k : Int)) (hi : Starts φ i m) :
    readBody φ h l (n :: i :: a :: b :: ls) = (do
      let (ps, r) ← readPoints φ k ls
      let d ← readData φ (r.drop 3)
      .ok ⟨h, c, m, ps, d⟩) := by
  unfold readBody
  simp only [List.headD_cons, List.tail_cons, List.drop_succ_cons, List.drop_zero]
  rw [firstInt_ok hl, firstInt_ok (starts_strip hn), firstInt_ok (starts_strip hi)]
  simp only [ok_bind]
  rw [if_neg (by omega), Int.toNat_natCast]

theorem read_ok {F : Type} (φ : Num F) (t : TsText F) (h : t.Ok φ) (s : Str) (hs : HasLines s t.lines) :
    read φ s = .ok ⟨t.head.map strip, t.nComp, t.id, t.pts.map Prod.snd, t.rows.map Prod.snd⟩ := by
  rw [read_lines φ s _ _ _ hs h.len h.head h.comp, readBody_ok φ _ _ _ _ _ _ _ _ _ _ h.nComp h.num h.id,
    readPoints_ok φ t.pts _ h.pts]
  simp only [ok_bind, List.drop_succ_cons, List.drop_zero]
  rw [readData_ok φ t.rows t.rest h.rows h.width h.rest]
  rfl

/-! writing -/

theorem comp_ok (ic : Nat) (h : ic < 3) : comp ic = .ok (['u', 'v', 'w'].getD ic 'w') := by
  unfold comp
  have : ic = 0 ∨ ic = 1 ∨ ic = 2 := by omega
  rcases this with rfl | rfl | rfl <;> rfl

/-- the name of a column in the file -/
def fileName (p : Nat × Nat) : Str := "Point".toList ++ St.showInt ((p.2 : Int) + 1) ++ [['u', 'v', 'w'].getD p.1 'w']

/-- components and points in the order of the columns -/
def pairs (m n : Nat) : List (Nat × Nat) := (List.range m).flatMap (fun ic => (List.range n).map (fun ip => (ic, ip)))

theorem mem_pairs {m n : Nat} {p : Nat × Nat} (h : p ∈ pairs m n) : p.1 < m ∧ p.2 < n := by
  obtain ⟨i, hi, h⟩ := List.mem_flatMap.1 h
  obtain ⟨j, hj, rfl⟩ := List.mem_map.1 h
  exact ⟨List.mem_range.1 hi, List.mem_range.1 hj⟩

theorem length_pairs (m n : Nat) : (pairs m n).length = m * n := by
  unfold pairs
  rw [List.length_flatMap]
  simp

theorem columns_ok {F : Type} (o : Obj F) (h : o.nComp ≤ 3) :
    columns o = .ok ("Time".toList :: (pairs o.nComp.toNat o.points.length).map fileName) := by
  unfold columns
  rw [Hawc2Sel.mapM_map _ fileName]
  · rfl
  · intro p hp
    rw [comp_ok p.1 (by have := (mem_pairs hp).1; omega)]
    rfl

theorem nl_center (s : Str) (h : '\n' ∉ s) : '\n' ∉ center16 s := by
  unfold center16
  simp [h]

theorem words_center (s : Str) : words (center16 s) = words s := by
  unfold center16
  rw [words_append_allWs _ _ (by intro c hc; rw [(List.mem_replicate.1 hc).2]; rfl), HawcAe.words_replicate]

theorem nl_showInt (n : Int) : '\n' ∉ St.showInt n := fun h => by
  have := (HawcAe.isWord_showInt n).2 _ h
  revert this
  decide

theorem nl_vld (n : Int) (lab descr : Str) (h1 : '\n' ∉ lab) (h2 : '\n' ∉ descr) : '\n' ∉ vld n lab descr := by
  unfold vld
  simp only [List.mem_append, List.mem_cons, not_or]
  refine ⟨Hawc2Sel.not_mem_padTo _ _ (nl_showInt n), by decide, ⟨Hawc2Sel.not_mem_padTo _ _ h1, by decide⟩, h2⟩

theorem words_vld (n : Int) (lab descr : Str) : ∃ t, words (vld n lab descr) = St.showInt n :: t := by
  unfold vld Hawc2Sel.padTo
  have hw : IsWord (St.showInt n) := HawcAe.isWord_showInt n
  cases hk : 13 - (St.showInt n).length with
  | zero =>
    rw [List.replicate_zero, List.append_nil, words_word_cons hw _ _ (by decide)]
    exact ⟨_, rfl⟩
  | succ k =>
    rw [List.replicate_succ, List.append_assoc, List.cons_append, words_word_cons hw _ _ (by decide)]
    exact ⟨_, rfl⟩

theorem starts_vld {F : Type} (φ : Num F) (n : Int) (lab descr : Str) (h : φ.int (St.showInt n) = some n) : Starts φ (vld n lab descr) n := by
  obtain ⟨t, ht⟩ := words_vld n lab descr
  exact ⟨_, _, ht, h⟩

theorem isComp_vld (n : Int) (descr : Str) : IsComp (vld n "nComp".toList descr) := by
  unfold IsComp vld
  rw [Hawc2Sel.lower_append]
  refine List.IsInfix.trans ?_ (List.suffix_append _ _).isInfix
  show "ncomp".toList <:+: lower (' ' :: ("nComp".toList ++ List.replicate 8 ' ' ++ " - ".toList ++ descr))
  refine ⟨[' '], lower (List.replicate 8 ' ' ++ " - ".toList ++ descr), ?_⟩
  simp only [lower, List.map_append, List.map_cons, List.append_assoc]
  rfl

theorem words_two {F : Type} (φ : Num F) (e : F → Str) (rd : F → F) (r : List F) (h : ∀ x ∈ r, Prints φ e rd x) :
    List.Forall₂ (fun w x => φ.flt w = some x) (words (St.rowText e r)) (r.map rd) := by
  induction r with
  | nil => exact .nil
  | cons x t ih =>
    obtain ⟨j, w, hf, hw, hx⟩ := h x (by simp)
    have ih := ih (fun y hy => h y (by simp [hy]))
    rw [St.rowText, List.flatMap_cons, hf, List.append_assoc, HawcAe.words_replicate]
    cases t with
    | nil =>
      rw [List.flatMap_nil, List.append_nil, words_word hw]
      exact .cons hx .nil
    | cons y t =>
      obtain ⟨j', w', hf', -⟩ := h y (by simp)
      have : (y :: t).flatMap e = ' ' :: (List.replicate j' ' ' ++ w' ++ t.flatMap e) := by
        rw [List.flatMap_cons, hf', List.replicate_succ]
        simp
      rw [St.rowText] at ih
      rw [this, words_word_cons hw _ _ (by decide), ← words_cons_ws ' ' _ (by decide), ← this]
      exact .cons hx ih

theorem nl_row {F : Type} (φ : Num F) (e : F → Str) (rd : F → F) (r : List F) (h : ∀ x ∈ r, Prints φ e rd x) :
    '\n' ∉ St.rowText e r := by
  intro hm
  obtain ⟨x, hx, hc⟩ := List.mem_flatMap.1 hm
  obtain ⟨j, w, hf, hw, -⟩ := h x hx
  rw [hf, List.mem_append] at hc
  rcases hc with hc | hc
  · exact absurd (List.mem_replicate.1 hc).2 (by decide)
  · have := hw.2 _ hc
    revert this
    decide

theorem unlines_app (a b : List Str) : HawcAe.unlines (a ++ b) = HawcAe.unlines a ++ HawcAe.unlines b := by
  unfold HawcAe.unlines
  exact List.flatMap_append

theorem joinWith_unlines (a : List Str) (l : Str) : joinWith ['\n'] (a ++ [l]) = HawcAe.unlines a ++ l := by
  induction a with
  | nil => rfl
  | cons x t ih =>
    rw [List.cons_append, joinWith_cons _ _ _ (by simp), ih]
    simp [HawcAe.unlines]

theorem join_header (h : List Str) (hh : h ≠ []) : joinWith ['\n'] h ++ ['\n'] = HawcAe.unlines h := by
  obtain ⟨a, l, rfl⟩ : ∃ a l, h = a ++ [l] := ⟨h.dropLast, h.getLast hh, (List.dropLast_append_getLast hh).symm⟩
  rw [joinWith_unlines, unlines_app]
  simp [HawcAe.unlines]

/-- the lines of the file which is written, with what they say; `hd` is the header in the file -/
def written {F : Type} (e : F → Str) (rd : F → F) (o : Obj F) (hd : List Str) : TsText F where
  head := hd
  compLine := vld o.nComp "nComp".toList "Number of velocity components in the file".toList
  numLine := vld (o.points.length : Int) "nPoints".toList "Number of time series points contained in this file(-)".toList
  idLine := vld o.id "RefPtID".toList "Index of the reference point (1-nPoints)".toList
  nComp := o.nComp
  id := o.id
  title := center16 "Pointyi".toList ++ center16 "Pointzi".toList ++ ' ' :: "! nPoints listed in order of increasing height".toList
  unit := center16 "(m)".toList ++ center16 "(m)".toList
  pts := o.points.map (fun p => (e p.1 ++ e p.2, rd p.1, rd p.2))
  sep := "--------Time Series-------------------------------------------------------------".toList
  names := ("Time".toList :: (pairs o.nComp.toNat o.points.length).map fileName).flatMap center16
  units := (units o).flatMap center16
  rows := o.data.map (fun r => (St.rowText e r, r.map rd))
  rest := []

theorem point_says {F : Type} (φ : Num F) (e : F → Str) (rd : F → F) (a b : F) (ha : Prints φ e rd a) (hb : Prints φ e rd b) :
    RowSays φ (e a ++ e b) [rd a, rd b] := by
  have := words_two φ e rd [a, b] (by simp [ha, hb])
  simpa [St.rowText, RowSays] using this

theorem written_ok {F : Type} (φ : Num F) (e : F → Str) (rd : F → F) (o : Obj F) (h : Writable φ e rd o) (hd : List Str)
    (hl : hd.length ≤ 10) (hh : ∀ l ∈ hd, ¬ IsComp l) : (written e rd o hd).Ok φ where
  len := hl
  head := hh
  comp := isComp_vld _ _
  nComp := starts_vld φ _ _ _ (h.ints _)
  num := by
    show Starts φ (vld _ _ _) ((o.points.map _).length : Int)
    rw [List.length_map]
    exact starts_vld φ _ _ _ (h.ints _)
  id := starts_vld φ _ _ _ (h.ints _)
  pts := by
    intro p hp
    obtain ⟨q, hq, rfl⟩ := List.mem_map.1 hp
    exact point_says φ e rd _ _ (h.pts q hq).1 (h.pts q hq).2
  rows := by
    intro r hr
    obtain ⟨q, hq, rfl⟩ := List.mem_map.1 hr
    refine ⟨by simpa using (h.rows q hq).1, words_two φ e rd q (h.rows q hq).2⟩
  width := by
    obtain ⟨k, hk⟩ := h.width
    refine ⟨k, fun r hr => ?_⟩
    obtain ⟨q, hq, rfl⟩ := List.mem_map.1 hr
    simpa using hk q hq
  rest := .inl rfl

theorem nl_fileName (p : Nat × Nat) (h : p.1 < 3) : '\n' ∉ fileName p := by
  unfold fileName
  have : p.1 = 0 ∨ p.1 = 1 ∨ p.1 = 2 := by omega
  simp only [List.mem_append, not_or]
  refine ⟨⟨by decide, nl_showInt _⟩, ?_⟩
  rcases this with h | h | h <;> rw [h] <;> decide

theorem written_nl {F : Type} (φ : Num F) (e : F → Str) (rd : F → F) (o : Obj F) (h : Writable φ e rd o) (hd : List Str)
    (hh : ∀ l ∈ hd, '\n' ∉ l) : ∀ l ∈ (written e rd o hd).lines, '\n' ∉ l := by
  intro l hl
  unfold TsText.lines at hl
  simp only [List.mem_append, List.mem_cons] at hl
  rcases hl with hl | rfl | rfl | rfl | rfl | rfl | hl | rfl | rfl | rfl | hl | hl
  · exact hh l hl
  · exact nl_vld _ _ _ (by decide) (by decide)
  · exact nl_vld _ _ _ (by decide) (by decide)
  · exact nl_vld _ _ _ (by decide) (by decide)
  · show '\n' ∉ center16 "Pointyi".toList ++ center16 "Pointzi".toList ++ ' ' :: "! nPoints listed in order of increasing height".toList
    decide
  · show '\n' ∉ center16 "(m)".toList ++ center16 "(m)".toList
    decide
  · obtain ⟨p, hp, rfl⟩ := List.mem_map.1 hl
    obtain ⟨q, hq, rfl⟩ := List.mem_map.1 hp
    have := nl_row φ e rd [q.1, q.2] (by simp [h.pts q hq])
    simpa [St.rowText] using this
  · show '\n' ∉ "--------Time Series-------------------------------------------------------------".toList
    decide
  · intro hm
    obtain ⟨x, hx, hc⟩ := List.mem_flatMap.1 hm
    refine nl_center x ?_ hc
    rcases List.mem_cons.1 hx with rfl | hx
    · decide
    · obtain ⟨p, hp, rfl⟩ := List.mem_map.1 hx
      have h1 := (mem_pairs hp).1
      have h2 := h.comp
      exact nl_fileName p (by omega)
  · intro hm
    obtain ⟨x, hx, hc⟩ := List.mem_flatMap.1 hm
    refine nl_center x ?_ hc
    rcases List.mem_cons.1 hx with rfl | hx
    · decide
    · rw [(List.mem_replicate.1 hx).2]
      decide
  · obtain ⟨p, hp, rfl⟩ := List.mem_map.1 hl
    obtain ⟨q, hq, rfl⟩ := List.mem_map.1 hp
    exact nl_row φ e rd q (h.rows q hq).2
  · cases hl

theorem written_lines {F : Type} (φ : Num F) (e : F → Str) (rd : F → F) (o : Obj F) (h : Writable φ e rd o) (hd : List Str)
    (hh : ∀ l ∈ hd, '\n' ∉ l) (hj : joinWith ['\n'] o.header ++ ['\n'] = HawcAe.unlines hd) :
    ∃ s, toString e o = .ok s ∧ HasLines s (written e rd o hd).lines := by
  refine ⟨_, by rw [toString, columns_ok o h.comp]; rfl, written_nl φ e rd o h hd hh, ?_⟩
  rw [hj, ← unlines_app]
  have hp : (written e rd o hd).pts.map Prod.fst = o.points.map (fun p => e p.1 ++ e p.2) := by simp [written]
  have hr : (written e rd o hd).rows.map Prod.fst = o.data.map (St.rowText e) := by simp [written]
  by_cases h0 : o.data = []
  · left
    have : joinWith ['\n'] (o.data.map (St.rowText e)) = [] := by rw [h0]; rfl
    rw [this, List.append_nil]
    unfold TsText.lines
    rw [hp, hr, h0]
    congr 1
  · right
    obtain ⟨a, l, hal⟩ : ∃ a l, o.data = a ++ [l] := ⟨o.data.dropLast, o.data.getLast h0, (List.dropLast_append_getLast h0).symm⟩
    rw [hal, List.map_append, List.map_cons, List.map_nil, joinWith_unlines, ← List.append_assoc, ← unlines_app]
    refine ⟨_, _, ?_, ?_, rfl⟩
    · unfold TsText.lines
      rw [hp, hr, hal]
      simp only [List.map_append, List.map_cons, List.map_nil, List.nil_append, List.cons_append, List.append_assoc]
      rfl
    · have hl := h.rows l (by rw [hal]; simp)
      intro e0
      have := words_two φ e rd l hl.2
      rw [e0, words_nil] at this
      have hn : l.map rd = [] := by cases this' : l.map rd with
        | nil => rfl
        | cons => rw [this'] at this; cases this
      exact hl.1 (by simpa using hn)

theorem saved_read {F : Type} (φ : Num F) (e : F → Str) (rd : F → F) (o : Obj F) (h : Writable φ e rd o) (hd : List Str)
    (hl : hd.length ≤ 10) (hh : ∀ l ∈ hd, '\n' ∉ l ∧ strip l = l ∧ ¬ IsComp l)
    (hj : joinWith ['\n'] o.header ++ ['\n'] = HawcAe.unlines hd) :
    ∃ s, toString e o = .ok s ∧ read φ s = .ok (o.rounded rd hd) := by
  obtain ⟨s, hs, hL⟩ := written_lines φ e rd o h hd (fun l hl => (hh l hl).1) hj
  refine ⟨s, hs, ?_⟩
  rw [read_ok φ _ (written_ok φ e rd o h hd hl (fun l hl => (hh l hl).2.2)) s hL]
  have : (written e rd o hd).head.map strip = hd := by
    show hd.map strip = hd
    conv_rhs => rw [← List.map_id hd]
    exact List.map_congr_left (fun l hl => (hh l hl).2.1)
  rw [this]
  unfold Obj.rounded
  congr 2 <;> simp [written]

/-! refused files -/

theorem pointRow_bad {F : Type} (φ : Num F) (l : Str)
    (h : (∃ w ∈ words l, φ.flt w = none) ∨ ((words l).length ≠ 1 ∧ (words l).length ≠ 2)) : pointRow φ l = .error .value := by
  unfold pointRow
  rcases h with ⟨w, hw, hn⟩ | ⟨h1, h2⟩
  · rw [Yaml.mapM_none φ.flt _ w hw hn]
  · cases hm : (words l).mapM φ.flt with
    | none => rfl
    | some r =>
      have := (St.forall₂_of_mapM _ _ _ hm).length_eq
      rw [this] at h1 h2
      rcases r with _ | ⟨x, _ | ⟨y, _ | ⟨z, t⟩⟩⟩
      · rfl
      · simp at h1
      · simp at h2
      · rfl

theorem pointRow_error {F : Type} (φ : Num F) (l : Str) (e : Err) (h : pointRow φ l = .error e) : e = .value := by
  unfold pointRow at h
  split at h <;> simp at h <;> exact h.symm

theorem readPoints_bad {F : Type} (φ : Num F) (n : Nat) (ls : List Str) (k : Nat) (hk : k < n)
    (h : pointRow φ (ls.getD k []) = .error .value) : readPoints φ n ls = .error .value := by
  induction n generalizing ls k with
  | zero => omega
  | succ n ih =>
    rw [readPoints]
    cases hp : pointRow φ (ls.headD []) with
    | error e =>
      rw [pointRow_error φ _ e hp]
      rfl
    | ok p =>
      cases k with
      | zero =>
        exfalso
        have : ls.getD 0 [] = ls.headD [] := by cases ls <;> rfl
        rw [this, hp] at h
        cases h
      | succ k =>
        have : ls.tail.getD k [] = ls.getD (k + 1) [] := by cases ls <;> simp
        rw [ok_bind, ih ls.tail k (by omega) (by rw [this]; exact h)]
        rfl

theorem readData_bad {F : Type} (φ : Num F) (rows rest : List Str) (hb : ∀ r ∈ rows, words r ≠ [])
    (h : (∃ r ∈ rows, ∃ w ∈ words r, φ.flt w = none) ∨ (∃ r ∈ rows, ∃ r' ∈ rows, (words r).length ≠ (words r').length))
    (hr : rest = [] ∨ ∃ b r, rest = b :: r ∧ ∀ c ∈ b, isWs c = true) : readData φ (rows ++ rest) = .error .value := by
  unfold readData
  rw [takeWhile_app _ _ _ _ (blank_tail hr)]
  · rcases h with ⟨r, hr, w, hw, hn⟩ | ⟨r, hr, r', hr', hne⟩
    · rw [St.array_bad φ _ ⟨words (strip r), List.mem_map.2 ⟨r, hr, rfl⟩, w, by rw [words_strip]; exact hw, hn⟩]
    · rw [St.array_ragged φ _ (words (strip r)) (words (strip r')) (List.mem_map.2 ⟨r, hr, rfl⟩) (List.mem_map.2 ⟨r', hr', rfl⟩)
        (by rw [words_strip, words_strip]; exact hne)]
  · intro l hl
    refine decide_eq_true (fun e => hb l hl ?_)
    rw [← words_strip, e, words_nil]

theorem readPoints_rest {F : Type} (φ : Num F) (n : Nat) (ls : List Str) (r : List (F × F) × List Str) (h : readPoints φ n ls = .ok r) :
    r.2 = ls.drop n := by
  induction n generalizing ls r with
  | zero =>
    cases h
    rfl
  | succ n ih =>
    rw [readPoints] at h
    obtain ⟨p, -, h⟩ := bind_ok _ _ _ h
    obtain ⟨q, hq, h⟩ := bind_ok _ _ _ h
    cases h
    rw [show (p :: q.1, q.2).2 = q.2 from rfl, ih _ _ hq]
    cases ls <;> simp

theorem readPoints_error {F : Type} (φ : Num F) (n : Nat) (ls : List Str) (e : Err) (h : readPoints φ n ls = .error e) : e = .value := by
  induction n generalizing ls with
  | zero => cases h
  | succ n ih =>
    rw [readPoints] at h
    cases hp : pointRow φ (ls.headD []) with
    | error e' =>
      rw [hp] at h
      rw [pointRow_error φ _ e' hp] at h
      cases h
      rfl
    | ok p =>
      rw [hp, ok_bind] at h
      cases hq : readPoints φ n ls.tail with
      | error e' =>
        rw [hq] at h
        cases h
        exact ih _ hq
      | ok q =>
        rw [hq] at h
        cases h

theorem firstInt_none {F : Type} (φ : Num F) (l : Str) (h : ∀ n, ¬ Starts φ l n) : ∃ e, firstInt φ l = .error e := by
  unfold firstInt
  split
  · exact ⟨_, rfl⟩
  · rename_i w t hw
    cases hn : φ.int w with
    | none => exact ⟨_, rfl⟩
    | some n => exact absurd ⟨w, t, hw, hn⟩ (h n)

theorem starts_strip_iff {F : Type} (φ : Num F) (l : Str) (n : Int) : Starts φ (strip l) n ↔ Starts φ l n := by
  unfold Starts
  rw [words_strip]

theorem readBody_counts {F : Type} (φ : Num F) (h : List Str) (l : Str) (ls : List Str)
    (hc : (∀ n, ¬ Starts φ l n) ∨ (∀ n : Int, 0 ≤ n → ¬ Starts φ (ls.getD 0 []) n) ∨ (∀ n, ¬ Starts φ (ls.getD 1 []) n)) :
    ∃ e, readBody φ h l ls = .error e := by
  have e0 : ls.headD [] = ls.getD 0 [] := by cases ls <;> rfl
  have e1 : ls.tail.headD [] = ls.getD 1 [] := by
    rcases ls with _ | ⟨a, _ | ⟨b, t⟩⟩ <;> rfl
  unfold readBody
  rw [e0, e1]
  cases h1 : firstInt φ l with
  | error e => exact ⟨e, rfl⟩
  | ok n1 =>
    rw [ok_bind]
    cases h2 : firstInt φ (strip (ls.getD 0 [])) with
    | error e => exact ⟨e, rfl⟩
    | ok n2 =>
      rw [ok_bind]
      cases h3 : firstInt φ (strip (ls.getD 1 [])) with
      | error e => exact ⟨e, rfl⟩
      | ok n3 =>
        rw [ok_bind]
        rcases hc with hc | hc | hc
        · obtain ⟨e, he⟩ := firstInt_none φ l hc
          rw [he] at h1
          cases h1
        · by_cases hn : n2 < 0
          · rw [if_pos hn]
            exact ⟨_, rfl⟩
          · exfalso
            refine hc n2 (by omega) ?_
            rw [← starts_strip_iff]
            unfold firstInt at h2
            split at h2
            · cases h2
            · rename_i w t hw
              cases hi : φ.int w with
              | none => rw [hi] at h2; cases h2
              | some n =>
                rw [hi] at h2
                cases h2
                exact ⟨w, t, hw, hi⟩
        · obtain ⟨e, he⟩ := firstInt_none φ (strip (ls.getD 1 [])) (fun n hn => hc n ((starts_strip_iff φ _ _).1 hn))
          rw [he] at h3
          cases h3

theorem findComp_long (i : Nat) (last : Option Str) (ls : List Str) (h : ∀ l ∈ ls.take (11 - i), ¬ IsComp l) (hl : 11 < i + ls.length)
    (hi : i ≤ 11) : findComp i last ls = .error .broken := by
  induction ls generalizing i last with
  | nil => simp at hl; omega
  | cons l t ih =>
    rw [findComp]
    by_cases h10 : i > 10
    · rw [if_pos h10]
    · have e : (l :: t).take (11 - i) = l :: t.take (11 - (i + 1)) := by
        rw [show 11 - i = (11 - (i + 1)) + 1 by omega, List.take_succ_cons]
      rw [e] at h
      rw [if_neg h10, if_neg (fun hm => h l (by simp) ((mentions_comp l).1 hm)),
        ih (i + 1) (some l) (fun x hx => h x (List.mem_cons_of_mem _ hx)) (by simp at hl; omega) (by omega)]
      rfl

theorem findComp_short (i : Nat) (last : Option Str) (ls : List Str) (h : ∀ l ∈ ls, ¬ IsComp l) (hl : i + ls.length ≤ 11) :
    (∃ e, findComp i last ls = .error e ∧ e = .unbound) ∨ ∃ hd l, findComp i last ls = .ok (hd, l, []) := by
  induction ls generalizing i last with
  | nil =>
    cases last with
    | none => exact .inl ⟨_, rfl, rfl⟩
    | some l => exact .inr ⟨_, _, rfl⟩
  | cons l t ih =>
    rw [findComp, if_neg (by simp at hl; omega), if_neg (fun hm => h l (by simp) ((mentions_comp l).1 hm))]
    rcases ih (i + 1) (some l) (fun x hx => h x (by simp [hx])) (by simp at hl; omega) with ⟨e, he, e'⟩ | ⟨hd, l', he⟩
    · rw [he]
      exact .inl ⟨_, rfl, e'⟩
    · rw [he]
      exact .inr ⟨_, _, rfl⟩

theorem starts_nil {F : Type} (φ : Num F) (n : Int) : ¬ Starts φ [] n := by
  rintro ⟨w, t, h, -⟩
  cases h

/-! data frames -/

theorem colName_file (p : Nat × Nat) (h : p.1 < 3) : colName (fileName p) "(m/s)".toList = compName p.1 p.2 := by
  unfold colName
  have e : (fileName p).map (fun x => if x = ' ' then '_' else x) = fileName p := by
    conv_rhs => rw [← List.map_id (fileName p)]
    refine List.map_congr_left (fun c hc => ?_)
    rw [if_neg]
    · rfl
    · rintro rfl
      unfold fileName at hc
      simp only [List.mem_append] at hc
      rcases hc with (hc | hc) | hc
      · revert hc; decide
      · have := (HawcAe.isWord_showInt ((p.2 : Int) + 1)).2 _ hc
        revert this
        decide
      · have : p.1 = 0 ∨ p.1 = 1 ∨ p.1 = 2 := by omega
        rcases this with h | h | h <;> rw [h] at hc <;> revert hc <;> decide
  rw [e]
  rfl

theorem names_eq (m n : Nat) (hm : m ≤ 3) : ∀ k, (pairs m n).length ≤ k →
    List.zipWith colName ((pairs m n).map fileName) (List.replicate k "(m/s)".toList) = (pairs m n).map (fun p => compName p.1 p.2) := by
  have key : ∀ (l : List (Nat × Nat)), (∀ p ∈ l, p.1 < 3) → ∀ k, l.length ≤ k →
      List.zipWith colName (l.map fileName) (List.replicate k "(m/s)".toList) = l.map (fun p => compName p.1 p.2) := by
    intro l
    induction l with
    | nil => intros; rfl
    | cons p t ih =>
      intro h k hk
      cases k with
      | zero => simp at hk
      | succ k =>
        rw [List.replicate_succ, List.map_cons, List.zipWith_cons_cons, ih (fun q hq => h q (by simp [hq])) k (by simpa using hk),
          colName_file p (h p (by simp)), List.map_cons]
  exact key _ (fun p hp => by have := (mem_pairs hp).1; omega)

theorem nodup_pairs (m n : Nat) : (pairs m n).Nodup := by
  unfold pairs
  rw [List.nodup_flatMap]
  refine ⟨fun i _ => List.Nodup.map (fun a b h => by simpa using h) List.nodup_range, ?_⟩
  refine List.Pairwise.imp ?_ (List.nodup_range (n := m))
  intro a b hab
  rw [Function.onFun, List.disjoint_left]
  intro p hp hq
  obtain ⟨x, -, rfl⟩ := List.mem_map.1 hp
  obtain ⟨y, -, hy⟩ := List.mem_map.1 hq
  exact hab (by simpa using (congrArg Prod.fst hy).symm)

theorem compName_inj {a b c d : Nat} (ha : a < 3) (hc : c < 3) (h : compName a b = compName c d) : a = c ∧ b = d := by
  unfold compName at h
  have h1 := List.append_cancel_right h
  obtain ⟨h2, h3⟩ := List.append_inj' h1 rfl
  have h4 := List.append_cancel_left h2
  have h5 := St.showInt_inj _ _ h4
  refine ⟨?_, by omega⟩
  have e1 : a = 0 ∨ a = 1 ∨ a = 2 := by omega
  have e2 : c = 0 ∨ c = 1 ∨ c = 2 := by omega
  rcases e1 with rfl | rfl | rfl <;> rcases e2 with rfl | rfl | rfl <;> first | rfl | (revert h3; decide)

theorem compName_ne (a b : Nat) : "Time_[s]".toList ≠ compName a b := by
  intro h
  have := congrArg List.head? h
  simp [compName] at this

theorem pairs_getElem (m n i j : Nat) (hi : i < m) (hj : j < n) : (pairs m n)[i * n + j]? = some (i, j) := by
  induction m with
  | zero => omega
  | succ m ih =>
    have e : pairs (m + 1) n = pairs m n ++ (List.range n).map (fun ip => (m, ip)) := by
      unfold pairs
      rw [List.range_succ, List.flatMap_append]
      simp
    rw [e]
    by_cases him : i < m
    · rw [List.getElem?_append_left, ih him]
      rw [length_pairs]
      calc i * n + j < i * n + n := by omega
        _ = (i + 1) * n := by ring
        _ ≤ m * n := Nat.mul_le_mul_right _ him
    · have : i = m := by omega
      subst this
      rw [List.getElem?_append_right (by rw [length_pairs]; omega), length_pairs, Nat.add_sub_cancel_left]
      simp [hj]

theorem frame_names {F : Type} (o : Obj F) (h : o.nComp ≤ 3) :
    List.zipWith colName ("Time".toList :: (pairs o.nComp.toNat o.points.length).map fileName) (units o) =
      "Time_[s]".toList :: (pairs o.nComp.toNat o.points.length).map (fun p => compName p.1 p.2) := by
  unfold units
  rw [List.zipWith_cons_cons, names_eq _ _ (by omega) _ (by rw [length_pairs, Nat.mul_comm])]
  rfl

end Verif.TurbSimTS
