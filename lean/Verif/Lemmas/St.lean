import Verif.Spec.St
import Verif.Lemmas.HawcAe
import Verif.Lemmas.Yaml
import Verif.Py.Fmt
import Mathlib.Data.List.Forall2
import Mathlib.Tactic
/-!
# Lemmas on a HAWC2 st file
-/
namespace Verif.St
open Verif.Py
open Verif.HawcAe (dset dget padLeft)
open Verif.Rosco (fitRow)

theorem splitOn_marks (c : Char) (pre : Str) (xs : List Str) (hp : c ∉ pre) (h : ∀ x ∈ xs, c ∉ x) :
    splitOn c (pre ++ xs.flatMap (fun x => c :: x)) = pre :: xs := by
  induction xs generalizing pre with
  | nil => simpa using splitOn_noSep c pre hp
  | cons x t ih =>
    rw [List.flatMap_cons, List.cons_append, splitOn_append c pre _ hp, ih x (h x (by simp)) (fun y hy => h y (by simp [hy]))]

/-- the last piece may go on with other marks -/
theorem splitOn_marks_rest (c : Char) (pre : Str) (xs : List Str) (hp : c ∉ pre) (h : ∀ x ∈ xs, c ∉ x) (t : Str) :
    splitOn c (pre ++ xs.flatMap (fun x => c :: x) ++ c :: t) = pre :: xs ++ splitOn c t := by
  induction xs generalizing pre with
  | nil => simpa using splitOn_append c pre t hp
  | cons x xs ih =>
    rw [List.flatMap_cons, List.cons_append, List.append_assoc, List.cons_append, splitOn_append c pre _ hp,
      ih x (h x (by simp)) (fun y hy => h y (by simp [hy]))]
    simp

theorem cells_row {F : Type} (φ : Num F) (l : Str) (r : List F) (h : RowSays φ l r) :
    List.Forall₂ (fun w x => φ.flt w = some x) (cells l) r := by
  obtain ⟨a, ha, hs, hw⟩ := h
  unfold cells
  rcases ha with rfl | ⟨c, rfl⟩
  · rw [splitOn_noSep ';' _ hs]
    exact hw
  · rw [splitOn_append ';' a c hs]
    exact hw

theorem mapM_some {α β : Type} (f : α → Option β) (l : List α) (r : List β) (h : List.Forall₂ (fun a b => f a = some b) l r) :
    l.mapM f = some r := by
  induction h with
  | nil => rfl
  | cons h1 _ ih => simp [List.mapM_cons, h1, ih]

theorem cells_rows {F : Type} (φ : Num F) (ls : List Str) (rows : List (List F)) (h : List.Forall₂ (RowSays φ) ls rows) :
    List.Forall₂ (fun ws r => List.Forall₂ (fun w x => φ.flt w = some x) ws r) (ls.map cells) rows := by
  induction h with
  | nil => exact .nil
  | cons h1 _ ih => exact .cons (cells_row φ _ _ h1) ih

theorem cells_width {F : Type} (φ : Num F) (k : Nat) (ll : List (List Str)) (rows : List (List F))
    (h : List.Forall₂ (fun ws r => List.Forall₂ (fun w x => φ.flt w = some x) ws r) ll rows) (hk : ∀ r ∈ rows, r.length = k) :
    ∀ ws ∈ ll, ws.length = k := by
  induction h with
  | nil => simp
  | cons h1 _ ih =>
    intro ws hws
    rcases List.mem_cons.1 hws with rfl | hws
    · rw [h1.length_eq]
      exact hk _ (by simp)
    · exact ih (fun r hr => hk r (by simp [hr])) ws hws

theorem all_width (k : Nat) (ll : List (List Str)) (h : ∀ ws ∈ ll, ws.length = k) :
    (ll.all (fun r => r.length = (ll.headD []).length)) = true := by
  rw [List.all_eq_true]
  intro r hr
  cases ll with
  | nil => simp at hr
  | cons a t => simp [h r hr, h a (by simp)]

theorem array_ok {F : Type} (φ : Num F) (ll : List (List Str)) (rows : List (List F))
    (h : List.Forall₂ (fun ws r => List.Forall₂ (fun w x => φ.flt w = some x) ws r) ll rows) (hk : ∃ k, ∀ r ∈ rows, r.length = k) :
    array φ ll = .ok rows := by
  obtain ⟨k, hk⟩ := hk
  unfold array
  rw [if_pos (all_width k ll (cells_width φ k ll rows h hk)),
    mapM_some (fun ws => ws.mapM φ.flt) ll rows (h.imp (fun _ _ h => mapM_some _ _ _ h))]

theorem header_ok {F : Type} (φ : Num F) (l : Str) (n k : Int) (h : HeadSays φ l n k) : header φ l = .ok (n, k) := by
  obtain ⟨a, b, t, hw, ha, hb⟩ := h
  unfold header
  rw [hw]
  simp [ha, hb]

theorem splitOn_text {F : Type} (s : SetText F) (h : ∀ l ∈ s.first :: (s.lines ++ s.more), '#' ∉ l ∧ '$' ∉ l ∧ '\n' ∉ l) :
    splitOn '\n' s.text = s.first :: (s.lines ++ s.more) :=
  splitOn_join '\n' _ (by simp) (fun l hl => (h l hl).2.2)

theorem rowLines_ok {F : Type} (φ : Num F) (first : Str) (ls more : List Str) (rows : List (List F))
    (h : List.Forall₂ (RowSays φ) ls rows) :
    rowLines (first :: (ls ++ more)) rows.length = .ok (ls.map cells) := by
  have hl := h.length_eq
  unfold rowLines
  rw [if_neg (by simp; omega)]
  simp [← hl]

theorem setLoop_ok {F : Type} (φ : Num F) (ss : List (SetText F)) (h : ∀ s ∈ ss, s.Ok φ) (rest : List Str) (d : Sets F)
    (hn : ((d.map Prod.fst) ++ ss.map SetText.nr).Nodup) (last : Option (List (List Str))) :
    setLoop φ (ss.map SetText.text ++ rest) d last =
      setLoop φ rest (d ++ ss.map SetText.entry) ((ss.getLast?.map (fun s => s.lines.map cells)).or last) := by
  induction ss generalizing d last with
  | nil => simp
  | cons s t ih =>
    obtain ⟨h1, h2, h3, h4⟩ := h s (by simp)
    rw [List.map_cons, List.cons_append, setLoop, splitOn_text s h1]
    simp only [List.headD_cons, header_ok φ _ _ _ h2]
    rw [if_neg (by
      rw [List.map_cons, List.nodup_append] at hn
      intro hm
      exact hn.2.2 _ hm _ (by simp) rfl), rowLines_ok φ _ _ _ _ h3]
    simp only [array_ok φ _ _ (cells_rows φ _ _ h3) h4]
    rw [ih (fun s hs => h s (by simp [hs])) (d ++ [(s.nr, s.rows)]) (by simpa using hn)]
    congr 1
    · simp [SetText.entry]
    · cases t with
      | nil => simp
      | cons a t =>
        rw [List.getLast?_cons_cons]
        obtain ⟨x, hx⟩ : ∃ x, (a :: t).getLast? = some x := by
          cases hq : (a :: t).getLast? with
          | none => simp at hq
          | some x => exact ⟨x, rfl⟩
        simp [hx]

theorem mem_setText {F : Type} (φ : Num F) (s : SetText F) (h : s.Ok φ) : '#' ∉ s.text ∧ '$' ∉ s.text := by
  constructor
  · intro hc
    rcases mem_joinWith ['\n'] _ '#' hc with hc | ⟨w, hw, hcw⟩
    · simp at hc
    · exact (h.1 w hw).1 hcw
  · intro hc
    rcases mem_joinWith ['\n'] _ '$' hc with hc | ⟨w, hw, hcw⟩
    · simp at hc
    · exact (h.1 w hw).2.1 hcw

theorem setTexts {F : Type} (ss : List (SetText F)) :
    ss.flatMap (fun s => '$' :: s.text) = (ss.map SetText.text).flatMap (fun x => '$' :: x) := by
  rw [List.flatMap_map]

theorem mainTexts {F : Type} (ms : List (MainText F)) :
    ms.flatMap (fun s => '#' :: s.text) = (ms.map MainText.text).flatMap (fun x => '#' :: x) := by
  rw [List.flatMap_map]

theorem mainNr_ok {F : Type} (φ : Num F) (l : Str) (n : Int) (h : NrSays φ l n) (t : Str) : mainNr φ (l ++ '\n' :: t) = .ok n := by
  obtain ⟨w, ws, hw, hn⟩ := h
  unfold mainNr
  rw [words_strip, words_append l '\n' t (by decide), hw]
  simp [hn]

theorem mem_mainText {F : Type} (φ : Num F) (m : MainText F) (h : m.Ok φ) : '#' ∉ m.text := by
  obtain ⟨h1, h2, -, h4, -⟩ := h
  simp only [MainText.text, List.mem_append, List.mem_cons, List.mem_flatMap, not_or, not_exists, not_and]
  refine ⟨⟨h1.1, by decide, h2.1⟩, fun s hs => ⟨by decide, (mem_setText φ s (h4 s hs)).1⟩⟩

/-- what the dictionary of main sets is after main sets were read -/
theorem mainLoop_ok {F : Type} (φ : Num F) (ms : List (MainText F)) (h : ∀ m ∈ ms, m.Ok φ) (rest : List Str)
    (d : List (Int × Sets F)) (last : Option (List (List Str))) :
    mainLoop φ (ms.map MainText.text ++ rest) d last =
      mainLoop φ rest ((ms.map MainText.entry).foldl (fun d e => dset d e.1 e.2) d)
        (((ms.flatMap MainText.sets).getLast?.map (fun s => s.lines.map cells)).or last) := by
  induction ms generalizing d last with
  | nil => simp
  | cons m t ih =>
    obtain ⟨h1, h2, h3, h4, h5⟩ := h m (by simp)
    rw [List.map_cons, List.cons_append, mainLoop]
    have hnr : mainNr φ m.text = .ok m.nr := by
      rw [MainText.text, List.append_assoc, List.cons_append]
      exact mainNr_ok φ _ _ h3 _
    have hsp : (splitOn '$' m.text).tail = m.sets.map SetText.text := by
      rw [MainText.text, setTexts, splitOn_marks '$' _ _ (by simp [h1.2, h2.2])
        (fun x hx => by
          obtain ⟨s, hs, rfl⟩ := List.mem_map.1 hx
          exact (mem_setText φ s (h4 s hs)).2)]
      rfl
    have hset := setLoop_ok φ m.sets h4 [] [] (by simpa using h5) last
    rw [List.append_nil, List.nil_append, setLoop] at hset
    simp only [hnr, hsp, hset]
    rw [ih (fun s hs => h s (by simp [hs])) _]
    congr 1
    rw [List.flatMap_cons, List.getLast?_append]
    cases (t.flatMap MainText.sets).getLast? <;> simp

theorem foldl_dset_new {V : Type} (es d : List (Int × V)) (h : ((d ++ es).map Prod.fst).Nodup) :
    es.foldl (fun d e => dset d e.1 e.2) d = d ++ es := by
  induction es generalizing d with
  | nil => simp
  | cons e t ih =>
    have he : e.1 ∉ d.map Prod.fst := by
      rw [List.map_append, List.map_cons, List.nodup_append] at h
      intro hm
      exact h.2.2 _ hm _ (by simp) rfl
    rw [List.foldl_cons, HawcAe.dset_new _ _ _ he, ih _ (by simpa using h)]
    simp

theorem dget_dset {V : Type} (d : List (Int × V)) (k : Int) (v : V) (n : Int) :
    dget (dset d k v) n = if n = k then some v else dget d n := by
  unfold dset
  by_cases hk : k ∈ d.map Prod.fst
  · rw [if_pos hk]
    induction d with
    | nil => simp at hk
    | cons p t ih =>
      unfold dget at ih ⊢
      rw [List.map_cons, List.find?_cons, List.find?_cons]
      by_cases hp : p.1 = k
      · rw [if_pos hp]
        by_cases hn : n = k
        · subst hn
          simp
        · simp only [if_neg hn]
          have h1 : (decide (k = n)) = false := by simp; exact fun h => hn h.symm
          have h2 : (decide (p.1 = n)) = false := by simp; exact fun h => hn (h.symm.trans hp)
          simp only [h1, h2]
          clear ih hk
          induction t with
          | nil => rfl
          | cons q t ih =>
            rw [List.map_cons, List.find?_cons, List.find?_cons]
            by_cases hq : q.1 = k
            · rw [if_pos hq]
              have h3 : (decide (q.1 = n)) = false := by simp; exact fun h => hn (h.symm.trans hq)
              simp only [h1, h3]
              exact ih
            · rw [if_neg hq]
              cases decide (q.1 = n) with
              | true => rfl
              | false => exact ih
      · rw [if_neg hp]
        by_cases hpn : p.1 = n
        · have : n ≠ k := fun h => hp (hpn.trans h)
          simp [hpn, this]
        · simp only [hpn, decide_false]
          refine ih ?_
          rw [List.map_cons] at hk
          rcases List.mem_cons.1 hk with h | h
          · exact absurd h.symm hp
          · exact h
  · rw [if_neg hk]
    unfold dget
    rw [List.find?_append]
    by_cases hn : n = k
    · subst hn
      have : d.find? (fun p => p.1 = n) = none := by
        rw [List.find?_eq_none]
        intro p hp h
        simp at h
        exact hk (List.mem_map.2 ⟨p, hp, h⟩)
      simp [this]
    · have hkn : ¬ k = n := fun h => hn h.symm
      simp [hn, hkn]

theorem dget_foldl {V : Type} (es d : List (Int × V)) (n : Int) :
    dget (es.foldl (fun d e => dset d e.1 e.2) d) n =
      (((es.filter (fun e => e.1 = n)).getLast?).map Prod.snd).or (dget d n) := by
  induction es generalizing d with
  | nil => simp
  | cons e t ih =>
    rw [List.foldl_cons, ih, dget_dset]
    by_cases he : e.1 = n
    · rw [List.filter_cons_of_pos (by simpa using he), List.getLast?_cons]
      rw [if_pos he.symm]
      cases (t.filter (fun e => e.1 = n)).getLast? <;> simp
    · rw [List.filter_cons_of_neg (by simpa using he), if_neg (fun h => he h.symm)]

theorem splitOn_file {F : Type} (φ : Num F) (pre : Str) (ms : List (MainText F)) (hp : '#' ∉ pre) (h : ∀ m ∈ ms, m.Ok φ) :
    (splitOn '#' (fileText pre ms)).tail = ms.map MainText.text := by
  rw [fileText, mainTexts, splitOn_marks '#' _ _ hp (fun x hx => by
    obtain ⟨m, hm, rfl⟩ := List.mem_map.1 hx
    exact mem_mainText φ m (h m hm))]
  rfl

theorem splitOn_file_rest {F : Type} (φ : Num F) (pre : Str) (ms : List (MainText F)) (hp : '#' ∉ pre) (h : ∀ m ∈ ms, m.Ok φ) (t : Str) :
    (splitOn '#' (fileText pre ms ++ '#' :: t)).tail = ms.map MainText.text ++ splitOn '#' t := by
  rw [fileText, mainTexts, splitOn_marks_rest '#' _ _ hp (fun x hx => by
    obtain ⟨m, hm, rfl⟩ := List.mem_map.1 hx
    exact mem_mainText φ m (h m hm))]
  rfl

/-- the columns of a set, from the lines it was read from -/
theorem read_last {F : Type} (φ : Num F) (ms : List (MainText F)) (h : ∀ m ∈ ms, m.Ok φ) (k : Nat) (hl : LastWidth ms k) :
    ∃ r t, (ms.flatMap MainText.sets).getLast?.map (fun s => s.lines.map cells) = some (r :: t) ∧ r.length = k := by
  obtain ⟨s, hs, r, t, hr, hk⟩ := hl
  have hmem := List.mem_of_getLast? hs
  obtain ⟨m, hm, hsm⟩ := List.mem_flatMap.1 hmem
  obtain ⟨-, -, h3, -⟩ := (h m hm).2.2.2.1 s hsm
  have := cells_rows φ _ _ h3
  rw [hr] at this
  cases hc : s.lines.map cells with
  | nil => rw [hc] at this; cases this
  | cons a u =>
    rw [hc] at this
    cases this with
    | cons h1 _ => exact ⟨a, u, by rw [hs]; simp [hc], by rw [h1.length_eq, hk]⟩

theorem splitOn_pre (c : Char) (a r : Str) (ha : c ∉ a) :
    splitOn c (a ++ r) = (a ++ (splitOn c r).headD []) :: (splitOn c r).tail := by
  induction a with
  | nil =>
    cases h : splitOn c r with
    | nil => exact absurd h (splitOn_ne_nil c r)
    | cons p ps => simp [h]
  | cons x t ih =>
    have hx : x ≠ c := fun hx => ha (by simp [hx])
    rw [List.cons_append, splitOn, if_neg hx, ih (fun h => ha (by simp [h]))]
    simp

theorem splitOn_head_char (c x : Char) (t : Str) (h : x ≠ c) : ∃ u, (splitOn c (x :: t)).headD [] = x :: u := by
  rw [splitOn, if_neg h]
  cases hs : splitOn c t with
  | nil => exact absurd hs (splitOn_ne_nil c t)
  | cons p ps => exact ⟨p, by simp⟩

theorem splitOn_rest_hash (a rest : Str) (ha : '#' ∉ a) (hr : EndsSet rest) :
    ∃ q qs, splitOn '#' (a ++ rest) = (a ++ q) :: qs ∧ (q = [] ∨ ∃ t, q = '$' :: t) := by
  rw [splitOn_pre '#' a rest ha]
  rcases hr with rfl | ⟨t, rfl | rfl⟩
  · exact ⟨[], [], by simp [splitOn], .inl rfl⟩
  · obtain ⟨u, hu⟩ := splitOn_head_char '#' '$' t (by decide)
    exact ⟨_, _, rfl, .inr ⟨u, hu⟩⟩
  · exact ⟨[], splitOn '#' t, by simp [splitOn], .inl rfl⟩

/-- a file with a main set that starts well and has a set on which the reading of sets stops -/
theorem read_badSet {F : Type} (φ : Num F) (pre : Str) (ms : List (MainText F)) (hp : '#' ∉ pre) (h : ∀ m ∈ ms, m.Ok φ)
    (m : MainText F) (hm : m.Ok φ) (bad rest : Str) (hbad : '#' ∉ bad ∧ '$' ∉ bad)
    (hr : EndsSet rest) (e : SErr) (he : ∀ q last, setLoop φ (bad :: q) (m.sets.map SetText.entry) last = .error e) :
    read φ (fileText pre (ms ++ [m]) ++ '$' :: bad ++ rest) = .error e := by
  obtain ⟨h1, h2, h3, h4, h5⟩ := hm
  have hm := mem_mainText φ m ⟨h1, h2, h3, h4, h5⟩
  obtain ⟨q, qs, hq, hq'⟩ := splitOn_rest_hash (m.text ++ '$' :: bad) rest (by simp [hm, hbad.1]) hr
  have hsplit : (splitOn '#' (fileText pre (ms ++ [m]) ++ '$' :: bad ++ rest)).tail =
      ms.map MainText.text ++ (m.text ++ '$' :: bad ++ q) :: qs := by
    rw [← hq, ← splitOn_file_rest φ pre ms hp h]
    simp [fileText]
  have hms := mainLoop_ok φ ms h ((m.text ++ '$' :: bad ++ q) :: qs) [] none
  unfold read
  rw [hsplit, hms, mainLoop]
  have hnr : mainNr φ (m.text ++ '$' :: bad ++ q) = .ok m.nr := by
    rw [MainText.text]
    simp only [List.append_assoc, List.cons_append]
    exact mainNr_ok φ _ _ h3 _
  have hsp : ∃ qs', (splitOn '$' (m.text ++ '$' :: bad ++ q)).tail = m.sets.map SetText.text ++ bad :: qs' := by
    refine ⟨(splitOn '$' q).tail, ?_⟩
    have hb : splitOn '$' (bad ++ q) = bad :: (splitOn '$' q).tail := by
      rw [splitOn_pre '$' bad q hbad.2]
      rcases hq' with rfl | ⟨t, rfl⟩
      · simp [splitOn]
      · simp [splitOn]
    rw [MainText.text, setTexts, List.append_assoc, List.cons_append, splitOn_marks_rest '$' _ _ (by simp [h1.2, h2.2])
        (fun x hx => by
          obtain ⟨s, hs, rfl⟩ := List.mem_map.1 hx
          exact (mem_setText φ s (h4 s hs)).2), hb]
    rfl
  obtain ⟨qs', hsp⟩ := hsp
  have hset := setLoop_ok φ m.sets h4 (bad :: qs') [] (by simpa using h5)
  simp only [hnr, hsp, hset, List.nil_append, he]

theorem splitOn_lines (first : Str) (ls : List Str) (hl : ∀ l ∈ first :: ls, '\n' ∉ l) :
    splitOn '\n' (joinWith ['\n'] (first :: ls)) = first :: ls := splitOn_join '\n' _ (by simp) hl

theorem PlainLines.text {ls : List Str} (h : PlainLines ls) : '#' ∉ joinWith ['\n'] ls ∧ '$' ∉ joinWith ['\n'] ls := by
  constructor
  · intro hc
    rcases mem_joinWith ['\n'] _ '#' hc with hc | ⟨w, hw, hcw⟩
    · simp at hc
    · exact (h w hw).1 hcw
  · intro hc
    rcases mem_joinWith ['\n'] _ '$' hc with hc | ⟨w, hw, hcw⟩
    · simp at hc
    · exact (h w hw).2.1 hcw

theorem array_bad {F : Type} (φ : Num F) (ll : List (List Str)) (h : ∃ ws ∈ ll, ∃ w ∈ ws, φ.flt w = none) :
    array φ ll = .error .value := by
  obtain ⟨ws, hws, w, hw, hf⟩ := h
  unfold array
  split
  · rw [Yaml.mapM_none (fun ws => ws.mapM φ.flt) ll ws hws (Yaml.mapM_none φ.flt ws w hw hf)]
  · rfl

theorem array_ragged {F : Type} (φ : Num F) (ll : List (List Str)) (a b : List Str) (ha : a ∈ ll) (hb : b ∈ ll)
    (h : a.length ≠ b.length) : array φ ll = .error .value := by
  unfold array
  rw [if_neg]
  rw [List.all_eq_true]
  intro hall
  have h1 := hall a ha
  have h2 := hall b hb
  simp only [decide_eq_true_eq] at h1 h2
  exact h (h1.trans h2.symm)

theorem rowLines_take (first : Str) (ls : List Str) (k : Nat) (h : k ≤ ls.length) :
    rowLines (first :: ls) k = .ok ((ls.take k).map cells) := by
  unfold rowLines
  rw [if_neg (by simp; omega)]
  simp

/-- the lines of equal signs and names which `save` writes before each set -/
def bars (w : Nat) (cols : List Str) : List Str :=
  [List.replicate (w * cols.length) '=', cols.flatMap (center w), List.replicate (w * cols.length) '=', []]

/-- the sets which `save` writes -/
def setsOf {F : Type} (fmt : F → Str) (w : Nat) (cols : List Str) : Sets F → List (SetText F)
  | [] => []
  | s :: t => ⟨showInt s.1 ++ ' ' :: showInt s.2.length, s.2.map (rowText fmt), if t.isEmpty then [[]] else bars w cols, s.1, s.2⟩ ::
    setsOf fmt w cols t

/-- the main set which `save` writes -/
def mainOf {F : Type} (fmt : F → Str) (w : Nat) (cols : List Str) (m : Int × Sets F) : MainText F :=
  ⟨showInt m.1 ++ " ; set number".toList, if m.2.isEmpty then [] else joinWith ['\n'] (bars w cols), m.1, setsOf fmt w cols m.2⟩

theorem setsOf_entry {F : Type} (fmt : F → Str) (w : Nat) (cols : List Str) (ss : Sets F) :
    (setsOf fmt w cols ss).map SetText.entry = ss := by
  induction ss with
  | nil => rfl
  | cons s t ih => rw [setsOf, List.map_cons, ih]; rfl

theorem setsOf_text {F : Type} (fmt : F → Str) (w : Nat) (cols : List Str) (ss : Sets F) (h : ∀ s ∈ ss, s.2 ≠ []) :
    ss.flatMap (fun s => joinWith ['\n'] (bars w cols) ++
        ('$' :: showInt s.1 ++ ' ' :: showInt s.2.length ++ ['\n']) ++ toStr fmt s.2 ++ ['\n']) =
      (if ss.isEmpty then [] else joinWith ['\n'] (bars w cols)) ++ (setsOf fmt w cols ss).flatMap (fun s => '$' :: s.text) := by
  induction ss with
  | nil => rfl
  | cons s t ih =>
    have hj : ∀ more : List Str, more ≠ [] → joinWith ['\n'] ((showInt s.1 ++ ' ' :: showInt s.2.length) :: (s.2.map (rowText fmt) ++ more)) =
        showInt s.1 ++ ' ' :: showInt s.2.length ++ ['\n'] ++ toStr fmt s.2 ++ ['\n'] ++ joinWith ['\n'] more := by
      intro more hm
      rw [joinWith_cons _ _ _ (by simp [hm]), joinWith_append _ _ _ (by simpa using h s (by simp)) hm, toStr]
      simp
    rw [List.flatMap_cons, if_neg (by simp), ih (fun s hs => h s (by simp [hs]))]
    rw [setsOf, List.flatMap_cons, SetText.text]
    cases t with
    | nil =>
      simp only [List.isEmpty_nil, if_true, hj [[]] (by simp)]
      simp [setsOf, joinWith]
    | cons a t =>
      simp only [List.isEmpty_cons, Bool.false_eq_true, if_false, hj (bars w cols) (by simp [bars])]
      simp only [List.append_assoc, List.cons_append]

theorem save_text {F : Type} (fmt : F → Str) (w : Nat) (o : Obj F) (h : ∀ m ∈ o.main, ∀ s ∈ m.2, s.2 ≠ []) :
    save fmt w o = fileText (showInt o.main.length ++ " ; number of sets, Nset\n".toList) (o.main.map (mainOf fmt w o.cols)) := by
  unfold save fileText
  simp only [List.flatMap_map]
  congr 1
  apply List.flatMap_congr
  intro m hm
  have := setsOf_text fmt w o.cols m.2 (h m hm)
  simp only [mainOf, MainText.text]
  have h2 : ∀ a b c d : Str, (a ++ b ++ '\n' :: c) ++ d = a ++ b ++ '\n' :: (c ++ d) := by simp
  rw [h2, ← this]
  simp [bars, joinWith]

theorem words_blanks (k : Nat) (s : Str) : words (List.replicate k ' ' ++ s) = words s := HawcAe.words_replicate k s

theorem rowText_words {F : Type} (φ : Num F) (fmt : F → Str) (r : List F) (h : ∀ x ∈ r, Prints φ fmt x) :
    List.Forall₂ (fun w x => φ.flt w = some x) (words (rowText fmt r)) r := by
  induction r with
  | nil => exact .nil
  | cons x t ih =>
    obtain ⟨j, w, hf, hw, -, -, -, hx⟩ := h x (by simp)
    have ih := ih (fun y hy => h y (by simp [hy]))
    rw [rowText, List.flatMap_cons, hf, List.append_assoc, words_blanks]
    cases t with
    | nil =>
      rw [List.flatMap_nil, List.append_nil, words_word hw]
      exact .cons hx .nil
    | cons y t =>
      obtain ⟨j', w', hf', -⟩ := h y (by simp)
      have : (y :: t).flatMap fmt = ' ' :: (List.replicate j' ' ' ++ w' ++ t.flatMap fmt) := by
        rw [List.flatMap_cons, hf', List.replicate_succ]
        simp
      rw [rowText] at ih
      rw [this, words_word_cons hw _ _ isWs_space, ← words_cons_ws ' ' _ isWs_space, ← this]
      exact .cons hx ih

theorem not_mem_rowText {F : Type} (φ : Num F) (fmt : F → Str) (r : List F) (h : ∀ x ∈ r, Prints φ fmt x) (c : Char)
    (hc : c = ';' ∨ c = '#' ∨ c = '$' ∨ c = '\n') : c ∉ rowText fmt r := by
  intro hm
  obtain ⟨x, hx, hcx⟩ := List.mem_flatMap.1 hm
  obtain ⟨j, w, hf, hw, h1, h2, h3, -⟩ := h x hx
  rw [hf] at hcx
  rcases List.mem_append.1 hcx with hcx | hcx
  · have := List.eq_of_mem_replicate hcx
    rcases hc with rfl | rfl | rfl | rfl <;> exact absurd this (by decide)
  · rcases hc with rfl | rfl | rfl | rfl
    · exact h1 hcx
    · exact h2 hcx
    · exact h3 hcx
    · exact HawcAe.IsWord.nl hw hcx

theorem isWord_showInt (n : Int) : IsWord (showInt n) := HawcAe.isWord_showInt n

theorem showInt_plain (n : Int) (c : Char) (hc : c = ';' ∨ c = '#' ∨ c = '$' ∨ c = '\n') : c ∉ showInt n := by
  intro hm
  have hd : ∀ k : Nat, c ∈ Nat.toDigits 10 k → False := fun k hk => by
    have := Nat.isDigit_of_mem_toDigits (by decide) (by decide) hk
    rcases hc with rfl | rfl | rfl | rfl <;> exact absurd this (by decide)
  cases n with
  | ofNat k => exact hd k hm
  | negSucc k =>
    rcases List.mem_cons.1 hm with h | h
    · rcases hc with rfl | rfl | rfl | rfl <;> exact absurd h (by decide)
    · exact hd _ h

theorem center_plain (w : Nat) (s : Str) (c : Char) (hc : c ≠ ' ') (hs : c ∉ s) : c ∉ center w s := by
  unfold center
  simp only [List.mem_append, not_or]
  refine ⟨⟨fun h => hc (List.eq_of_mem_replicate h), hs⟩, fun h => hc (List.eq_of_mem_replicate h)⟩

theorem bars_plain (w : Nat) (cols : List Str) (hc : cols = stc ∨ cols = fpm) : PlainLines (bars w cols) := by
  have hcol : ∀ c, c = '#' ∨ c = '$' ∨ c = '\n' → c ∉ cols.flatMap (center w) := by
    intro c h hm
    obtain ⟨s, hs, hcs⟩ := List.mem_flatMap.1 hm
    refine center_plain w s c (by rcases h with rfl | rfl | rfl <;> decide) ?_ hcs
    have h1 : ∀ s ∈ stc, '#' ∉ s ∧ '$' ∉ s ∧ '\n' ∉ s := by decide +kernel
    have h2 : ∀ s ∈ fpm, '#' ∉ s ∧ '$' ∉ s ∧ '\n' ∉ s := by decide +kernel
    have h3 : '#' ∉ s ∧ '$' ∉ s ∧ '\n' ∉ s := by
      rcases hc with rfl | rfl
      · exact h1 s hs
      · exact h2 s hs
    rcases h with rfl | rfl | rfl
    · exact h3.1
    · exact h3.2.1
    · exact h3.2.2
  have heq : ∀ c, c = '#' ∨ c = '$' ∨ c = '\n' → c ∉ List.replicate (w * cols.length) '=' := by
    intro c h hm
    have := List.eq_of_mem_replicate hm
    rcases h with rfl | rfl | rfl <;> exact absurd this (by decide)
  intro l hl
  simp only [bars, List.mem_cons, List.not_mem_nil, or_false] at hl
  rcases hl with rfl | rfl | rfl | rfl
  · exact ⟨heq _ (by simp), heq _ (by simp), heq _ (by simp)⟩
  · exact ⟨hcol _ (by simp), hcol _ (by simp), hcol _ (by simp)⟩
  · exact ⟨heq _ (by simp), heq _ (by simp), heq _ (by simp)⟩
  · simp

theorem setsOf_ok {F : Type} (φ : Num F) (hint : ∀ n, φ.int (showInt n) = some n) (fmt : F → Str) (w : Nat) (cols : List Str)
    (hc : cols = stc ∨ cols = fpm) (ss : Sets F) (h : ∀ s ∈ ss, ∃ k, ∀ r ∈ s.2, r.length = k)
    (hx : ∀ s ∈ ss, ∀ r ∈ s.2, ∀ x ∈ r, Prints φ fmt x) : ∀ s ∈ setsOf fmt w cols ss, s.Ok φ := by
  have key : ∀ s ∈ ss, ∀ more, PlainLines more →
      SetText.Ok φ ⟨showInt s.1 ++ ' ' :: showInt s.2.length, s.2.map (rowText fmt), more, s.1, s.2⟩ := by
    intro s hs more hm
    refine ⟨?_, ?_, ?_, h s hs⟩
    · intro l hl
      rcases List.mem_cons.1 hl with rfl | hl
      · have : ∀ c, c = '#' ∨ c = '$' ∨ c = '\n' → c ∉ showInt s.1 ++ ' ' :: showInt s.2.length := by
          intro c hc' hm'
          have hc'' : c = ';' ∨ c = '#' ∨ c = '$' ∨ c = '\n' := .inr hc'
          rcases List.mem_append.1 hm' with h | h
          · exact showInt_plain _ c hc'' h
          · rcases List.mem_cons.1 h with h | h
            · rcases hc' with rfl | rfl | rfl <;> exact absurd h (by decide)
            · exact showInt_plain _ c hc'' h
        exact ⟨this _ (by simp), this _ (by simp), this _ (by simp)⟩
      rcases List.mem_append.1 hl with hl | hl
      · obtain ⟨r, hr, rfl⟩ := List.mem_map.1 hl
        have := not_mem_rowText φ fmt r (hx s hs r hr)
        exact ⟨this _ (by simp), this _ (by simp), this _ (by simp)⟩
      · exact hm l hl
    · refine ⟨showInt s.1, showInt s.2.length, [], ?_, hint _, hint _⟩
      rw [words_word_cons (isWord_showInt s.1) _ _ isWs_space, words_word (isWord_showInt _)]
    · rw [List.forall₂_map_left_iff, List.forall₂_same]
      intro r hr
      exact ⟨_, .inl rfl, not_mem_rowText φ fmt r (hx s hs r hr) _ (by simp), rowText_words φ fmt r (hx s hs r hr)⟩
  clear h hx
  induction ss with
  | nil => simp [setsOf]
  | cons s t ih =>
    intro s' hs'
    rw [setsOf] at hs'
    rcases List.mem_cons.1 hs' with rfl | hs'
    · refine key s (by simp) _ ?_
      split
      · intro l hl
        rw [List.mem_singleton.1 hl]
        simp
      · exact bars_plain w cols hc
    · exact ih (fun s hs => key s (by simp [hs])) s' hs'

theorem setsOf_nr {F : Type} (fmt : F → Str) (w : Nat) (cols : List Str) (ss : Sets F) :
    (setsOf fmt w cols ss).map SetText.nr = ss.map Prod.fst := by
  conv_rhs => rw [← setsOf_entry fmt w cols ss]
  rw [List.map_map]
  rfl

theorem mainOf_ok {F : Type} (φ : Num F) (hint : ∀ n, φ.int (showInt n) = some n) (fmt : F → Str) (w : Nat) (cols : List Str)
    (hc : cols = stc ∨ cols = fpm) (m : Int × Sets F) (hn : (m.2.map Prod.fst).Nodup) (h : ∀ s ∈ m.2, ∃ k, ∀ r ∈ s.2, r.length = k)
    (hx : ∀ s ∈ m.2, ∀ r ∈ s.2, ∀ x ∈ r, Prints φ fmt x) : (mainOf fmt w cols m).Ok φ := by
  have hb := (bars_plain w cols hc).text
  refine ⟨?_, ?_, ?_, setsOf_ok φ hint fmt w cols hc m.2 h hx, ?_⟩
  · have h1 := showInt_plain m.1 '#' (by simp)
    have h2 := showInt_plain m.1 '$' (by simp)
    simp only [mainOf, List.mem_append, not_or]
    exact ⟨⟨h1, by decide⟩, ⟨h2, by decide⟩⟩
  · simp only [mainOf]
    split
    · simp
    · exact hb
  · refine ⟨showInt m.1, [[';'], "set".toList, "number".toList], ?_, hint _⟩
    have : words (showInt m.1 ++ ' ' :: "; set number".toList) = _ := words_word_cons (HawcAe.isWord_showInt m.1) _ _ isWs_space
    simp only [mainOf]
    exact this
  · simp only [mainOf, setsOf_nr]
    exact hn

theorem cols_facts (cols : List Str) (h : cols = stc ∨ cols = fpm) : cols.Nodup ∧ 0 < cols.length := by
  rcases h with rfl | rfl
  · exact ⟨by decide +kernel, by decide +kernel⟩
  · exact ⟨by decide +kernel, by decide +kernel⟩

theorem column_ok {F : Type} [Inhabited F] (rows : List (List F)) (k c : Nat) (h0 : rows ≠ []) (hk : ∀ r ∈ rows, r.length = k) (hc : c < k) :
    column rows c = .ok (rows.map (fun r => r.getD c default)) := by
  cases rows with
  | nil => exact absurd rfl h0
  | cons r t =>
    simp only [column]
    rw [if_pos (by rw [hk r (by simp)]; exact hc)]

theorem zip_maps {α β γ : Type} (f : α → β) (g : α → γ) (l : List α) : (l.map f).zip (l.map g) = l.map (fun a => (f a, g a)) := by
  induction l with
  | nil => rfl
  | cons a t ih => simp [ih]

theorem query_width (o : Obj ℚ) (m s : Int) (rows : List (List ℚ)) (h1 : getSet o m s = .ok rows) (h2 : rows ≠ []) (k : Nat)
    (h3 : ∀ r ∈ rows, r.length = k) (h5 : o.cols = stc ∨ o.cols = fpm) (c : Nat) (hck : c < k) (name : Str)
    (hc : o.cols[c]? = some name) (x y : ℚ) (hy : interp x (rows.map (fun r => (r.getD 0 0, r.getD c 0))) = some y) :
    query o name x m s = .ok y := by
  obtain ⟨hnd, -⟩ := cols_facts o.cols h5
  obtain ⟨hlt, hcn⟩ := List.getElem?_eq_some_iff.1 hc
  have hmem : name ∈ o.cols := List.mem_of_getElem? hc
  have hidx : o.cols.idxOf name = c := by
    rw [← hcn]
    exact hnd.idxOf_getElem c hlt
  unfold query
  rw [if_pos hmem, hidx, valueAt, h1]
  simp only [column_ok rows _ 0 h2 h3 (by omega), column_ok rows _ c h2 h3 hck, zip_maps]
  rw [show (default : ℚ) = 0 from rfl, hy]

theorem query_eq (o : Obj ℚ) (m s : Int) (rows : List (List ℚ)) (h : BeamSet o m s rows) (c : Nat) (name : Str)
    (hc : o.cols[c]? = some name) (x y : ℚ) (hy : interp x (rows.map (fun r => (r.getD 0 0, r.getD c 0))) = some y) :
    query o name x m s = .ok y :=
  query_width o m s rows h.1 h.2.1 _ h.2.2.1 h.2.2.2.2 c (List.getElem?_eq_some_iff.1 hc).1 name hc x y hy

theorem fst_map (rows : List (List ℚ)) (c : Nat) :
    (rows.map (fun r => (r.getD 0 0, r.getD c 0))).map Prod.fst = rows.map (fun r => r.getD 0 0) := by
  rw [List.map_map]
  rfl

theorem interp_node (pts : List (ℚ × ℚ)) (hinc : Increasing (pts.map Prod.fst)) (i : Nat) (a b : ℚ) (h : pts[i]? = some (a, b)) :
    interp a pts = some b := by
  by_cases hl : i + 1 < pts.length
  · obtain ⟨c, d, hq⟩ : ∃ c d, pts[i + 1] = (c, d) := ⟨_, _, rfl⟩
    have hcd : pts[i + 1]? = some (c, d) := by rw [List.getElem?_eq_getElem hl, hq]
    have hlt : a < c := by
      unfold Increasing at hinc
      rw [List.pairwise_iff_getElem] at hinc
      obtain ⟨hi, hi'⟩ := List.getElem?_eq_some_iff.1 h
      have := hinc i (i + 1) (by simpa using hi) (by simpa using hl) (by omega)
      simpa [hi', hq] using this
    rw [interp_between a pts i a b c d hinc h hcd le_rfl hlt.le]
    simp
  · have hlast : pts.getLast? = some (a, b) := by
      obtain ⟨hi, hi'⟩ := List.getElem?_eq_some_iff.1 h
      rw [List.getLast?_eq_getElem?, show pts.length - 1 = i by omega, h]
    exact interp_right a a b pts hinc hlast le_rfl

theorem queryAll_width (o : Obj ℚ) (m s : Int) (rows : List (List ℚ)) (h1 : getSet o m s = .ok rows) (h2 : rows ≠ []) (k : Nat)
    (h3 : ∀ r ∈ rows, r.length = k) (h4 : Increasing (rows.map (fun r => r.getD 0 0))) (h5 : o.cols = stc ∨ o.cols = fpm)
    (c : Nat) (hck : c < k) (name : Str) (hc : o.cols[c]? = some name) : queryAll o name m s = .ok (rows.map (fun r => r.getD c 0)) := by
  have hq : ∀ r ∈ rows, query o name (r.getD 0 0) m s = .ok (r.getD c 0) := by
    intro r hr
    obtain ⟨i, hi, hri⟩ := List.getElem_of_mem hr
    refine query_width o m s rows h1 h2 k h3 h5 c hck name hc _ _ (interp_node _ (by rw [fst_map]; exact h4) i _ _ ?_)
    rw [List.getElem?_map, List.getElem?_eq_getElem hi, hri]
    rfl
  unfold queryAll radii
  simp only [h1, column_ok rows _ 0 h2 h3 (by omega)]
  rw [show (default : ℚ) = 0 from rfl]
  clear h1 h2 h3 h4
  induction rows with
  | nil => rfl
  | cons r t ih =>
    have ih := ih (fun r hr => hq r (by simp [hr]))
    rw [List.map_cons, List.mapM_cons, hq r (by simp), ih]
    rfl

theorem getSet_some {F : Type} (o : Obj F) (m s : Int) (rows : List (List F)) (h : getSet o m s = .ok rows) :
    ∃ sets, dget o.main m = some sets ∧ dget sets s = some rows := by
  unfold getSet at h
  cases hd : dget o.main m with
  | none => rw [hd] at h; simp at h
  | some sets =>
    rw [hd] at h
    simp only [Option.bind_some] at h
    cases hs : dget sets s with
    | none => rw [hs] at h; simp at h
    | some rows' =>
      rw [hs] at h
      simp only at h
      injection h with h
      exact ⟨sets, rfl, by rw [hs, h]⟩

theorem forall₂_of_mapM {α β : Type} (f : α → Option β) (l : List α) (r : List β) (h : l.mapM f = some r) :
    List.Forall₂ (fun a b => f a = some b) l r := by
  induction l generalizing r with
  | nil =>
    simp at h
    rw [h]
    exact .nil
  | cons a t ih =>
    rw [List.mapM_cons] at h
    cases ha : f a with
    | none => simp [ha] at h
    | some x =>
      cases ht : t.mapM f with
      | none => simp [ha, ht] at h
      | some y =>
        simp [ha, ht] at h
        rw [← h]
        exact .cons ha (ih y ht)

theorem argmin_le {α : Type} (f : α → ℚ) (best : α) (l : List α) :
    argminFrom f best l ∈ best :: l ∧ ∀ a ∈ best :: l, f (argminFrom f best l) ≤ f a := by
  induction l generalizing best with
  | nil => simp [argminFrom]
  | cons b t ih =>
    rw [argminFrom]
    obtain ⟨h1, h2⟩ := ih (if f b < f best then b else best)
    have h3 : f (if f b < f best then b else best) ≤ f b ∧ f (if f b < f best then b else best) ≤ f best := by
      split
      · exact ⟨le_rfl, by linarith⟩
      · exact ⟨by linarith, le_rfl⟩
    have h4 := h2 _ (List.mem_cons_self ..)
    constructor
    · rcases List.mem_cons.1 h1 with h | h
      · rw [h]
        split <;> simp
      · simp [h]
    · intro a ha
      rcases List.mem_cons.1 ha with rfl | ha
      · linarith
      · rcases List.mem_cons.1 ha with rfl | ha
        · linarith
        · exact h2 a (by simp [ha])

theorem showInt_inj (a b : Int) (h : showInt a = showInt b) : a = b := by
  have := congrArg FastLine.pyInt h
  unfold showInt at this
  rw [FastLine.pyInt_showInt, FastLine.pyInt_showInt] at this
  exact this

theorem showInt_under (n : Int) : '_' ∉ showInt n := by
  intro hm
  have hd : ∀ k : Nat, '_' ∈ Nat.toDigits 10 k → False := fun k hk =>
    absurd (Nat.isDigit_of_mem_toDigits (by decide) (by decide) hk) (by decide)
  cases n with
  | ofNat k => exact hd k hm
  | negSucc k =>
    rcases List.mem_cons.1 hm with h | h
    · exact absurd h (by decide)
    · exact hd _ h

theorem mapM_except {α β ε : Type} (f : α → Except ε β) (g : α → β) (l : List α) (h : ∀ a ∈ l, f a = .ok (g a)) :
    l.mapM f = .ok (l.map g) := by
  induction l with
  | nil => rfl
  | cons a t ih =>
    rw [List.mapM_cons, h a (by simp), ih (fun b hb => h b (by simp [hb]))]
    rfl

end Verif.St
