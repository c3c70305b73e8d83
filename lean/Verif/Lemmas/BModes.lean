import Verif.Spec.BModes
import Verif.Lemmas.TurbSimTS
import Verif.Lemmas.FastHand
import Verif.Lemmas.Hawc2Sel
/-!
# Lemmas on a BModes output file
-/
namespace Verif.BModes
open Verif.Py Verif.TurbSimTS

theorem find_at (k l : Str) (n : Nat) (h : k <+: l.drop n) (hn : ∀ i < n, ¬ k <+: l.drop i) (hne : k ≠ []) : find k l = some n := by
  induction l generalizing n with
  | nil => simp at h; exact absurd h hne
  | cons c l ih =>
    cases n with
    | zero =>
      rw [List.drop_zero] at h
      rw [find, if_pos (List.isPrefixOf_iff_prefix.2 h)]
    | succ n =>
      have h0 := hn 0 (by omega)
      rw [List.drop_zero] at h0
      rw [find, if_neg (fun e => h0 (List.isPrefixOf_iff_prefix.1 e)),
        ih n (by simpa using h) fun i hi => by have := hn (i + 1) (by omega); simpa using this]
      rfl

theorem find_freq {F : Type} (flt : Str → Option F) (l : Str) (f : F) (h : HasFreq flt l f) :
    ∃ i, find "freq = ".toList l = some (i + 1) ∧ freqOf flt l (i + 1) = .ok f := by
  obtain ⟨pre, w, post, hl, hne, hno, hw, hf⟩ := h
  obtain ⟨i, hi⟩ : ∃ i, pre.length = i + 1 := ⟨pre.length - 1, by have := List.length_pos_of_ne_nil hne; omega⟩
  refine ⟨i, ?_, ?_⟩
  · rw [← hi]
    refine find_at _ _ _ ?_ hno (by decide)
    rw [hl]
    simp
  · have : (l.drop (i + 1 + 7)).take 12 = w := by
      have e : l = (pre ++ "freq = ".toList) ++ (w ++ post) := by rw [hl]; simp
      rw [e, List.drop_append_of_le_length (by simp [hi]), List.drop_of_length_le (by simp [hi]), List.nil_append]
      rcases hw with hw | ⟨hw, rfl⟩
      · rw [List.take_append_of_le_length (by omega), List.take_of_length_le (by omega)]
      · simp; omega
    rw [freqOf, this, hf]

theorem plain_find (l : Str) (h : Plain l) : find "freq = ".toList l = none := by
  cases hf : find "freq = ".toList l with
  | none => rfl
  | some i => exact absurd ((Hawc2Sel.find_isSome _ _).1 (by rw [hf]; rfl)) h

theorem ends_iff (l : Str) : (strip l = [] ∨ startsWith l "===".toList = true) ↔ Ends l := by
  rw [Hawc2Sel.strip_nil_iff, Ends, startsWith, List.isPrefixOf_iff_prefix]

theorem go_table {F : Type} (flt : Str → Option F) (acc : List (List Str)) (lines : List Str) (hl : ∀ l ∈ lines, ¬ Ends l) (r : List Str) :
    go flt (.table acc) (lines ++ r) = go flt (.table (acc ++ lines.map words)) r := by
  induction lines generalizing acc with
  | nil => simp
  | cons l lines ih =>
    rw [List.cons_append, go, if_neg (fun e => hl l (by simp) ((ends_iff l).1 e)), ih _ fun x hx => hl x (by simp [hx])]
    simp

theorem shape_ok {F : Type} (flt : Str → Option F) (lines : List Str) (rows : List (List F)) (h : List.Forall₂ (HasRow flt) lines rows)
    (he : ∀ r ∈ rows, ∀ r' ∈ rows, r.length = r'.length) : shapeOf flt (lines.map words) = .ok rows := by
  have hm : (lines.map words).mapM (fun r => r.mapM flt) = some rows := by
    induction h with
    | nil => rfl
    | cons hr _ ih =>
      rw [List.map_cons, List.mapM_cons, hr.2, ih fun r hr r' hr' => he r (by simp [hr]) r' (by simp [hr'])]
      rfl
  rw [shapeOf, hm]
  simp only
  rw [if_pos]
  rw [List.all_eq_true]
  intro r hr
  cases rows with
  | nil => cases hr
  | cons a t => simpa using he r hr a (by simp)

theorem rows_not_end {F : Type} (flt : Str → Option F) (lines : List Str) (rows : List (List F)) (h : List.Forall₂ (HasRow flt) lines rows) :
    ∀ l ∈ lines, ¬ Ends l := by
  intro l hl
  induction h with
  | nil => cases hl
  | cons h _ ih =>
    rcases List.mem_cons.1 hl with rfl | hl
    · exact h.1
    · exact ih hl

theorem go_rows {F : Type} (flt : Str → Option F) (m : Mode F) (h : m.Good flt) (r : List Str) :
    go flt .scan (m.text ++ r) = (go flt (.table (m.lines.map words)) r).map fun p => (m.freq :: p.1, p.2) := by
  obtain ⟨hf, hr, _⟩ := h
  obtain ⟨i, h1, h2⟩ := find_freq flt m.head m.freq hf
  have e : go flt (.skip 2) ([m.skip.1, m.skip.2.1, m.skip.2.2] ++ (m.lines ++ r)) = go flt (.table (m.lines.map words)) r := by
    have : go flt (.skip 2) ([m.skip.1, m.skip.2.1, m.skip.2.2] ++ (m.lines ++ r)) = go flt (.table []) (m.lines ++ r) := rfl
    rw [this, go_table]
    · simp
    · exact rows_not_end flt _ _ hr
  have : m.text ++ r = m.head :: ([m.skip.1, m.skip.2.1, m.skip.2.2] ++ (m.lines ++ r)) := by simp [Mode.text]
  rw [this, go, h1]
  simp only [h2, e, bind, Except.bind]
  cases go flt (.table (m.lines.map words)) r <;> rfl

theorem go_parts {F : Type} (flt : Str → Option F) (ps : List (Part F)) (h : ∀ p ∈ ps, p.Good flt) (r : List Str) :
    go flt .scan (ps.flatMap Part.text ++ r) = (go flt .scan r).map fun p =>
      ((ps.flatMap Part.modes).map Mode.freq ++ p.1, (ps.flatMap Part.modes).map Mode.rows ++ p.2) := by
  induction ps with
  | nil => cases h : go flt .scan r <;> simp [Except.map, h]
  | cons p ps ih =>
    have ih := ih fun q hq => h q (by simp [hq])
    cases p with
    | other l =>
      have hp : Plain l := h (.other l) (by simp)
      have e : go flt .scan ((Part.other l :: ps).flatMap Part.text ++ r) = go flt .scan (ps.flatMap Part.text ++ r) := by
        rw [List.flatMap_cons]
        show go flt .scan (l :: (ps.flatMap Part.text ++ r)) = _
        rw [go, plain_find l hp]
      rw [e, ih]
      rfl
    | mode m stop =>
      obtain ⟨hm, hs⟩ : m.Good flt ∧ Ends stop := h (.mode m stop) (by simp)
      have e : (Part.mode m stop :: ps).flatMap Part.text ++ r = m.text ++ (stop :: (ps.flatMap Part.text ++ r)) := by
        simp [Part.text]
      rw [e, go_rows flt m hm, go, if_pos ((ends_iff stop).2 hs), shape_ok flt m.lines m.rows hm.2.1 hm.2.2]
      simp only [bind, Except.bind]
      rw [ih]
      cases go flt .scan r <;> simp [Except.map, Part.modes]

theorem read_lines {F : Type} (flt : Str → Option F) (s first : Str) (ls : List Str) (hs : HasLines s (first :: ls)) (hf : "BModes".toList <:+: first) :
    read flt s = go flt .scan ls := by
  rw [read, readlines_of hs]
  simp only
  obtain ⟨i, hi⟩ := Option.isSome_iff_exists.1 ((Hawc2Sel.find_isSome "BModes".toList first).2 hf)
  rw [hi]

theorem framesFrom_ok {F : Type} (i : Nat) (ms : List (List (List F))) (h : ∀ m ∈ ms, m ≠ [] ∧ ∀ r ∈ m, r.length = 6) :
    ∃ t, framesFrom i ms = .ok t ∧ t.length = ms.length ∧ ∀ k m, ms[k]? = some m → t[k]? = some ("Mode_".toList ++ FastLine.showInt (((i + k : Nat) : Int) + 1), labels, m) := by
  induction ms generalizing i with
  | nil => exact ⟨[], rfl, rfl, by simp⟩
  | cons m ms ih =>
    obtain ⟨t, h1, h2, h3⟩ := ih (i + 1) fun x hx => h x (by simp [hx])
    have hm := h m (by simp)
    refine ⟨_, by rw [framesFrom, if_pos ⟨hm.1, by rw [List.all_eq_true]; intro r hr; simpa using hm.2 r hr⟩, h1]; rfl, by simp [h2], ?_⟩
    intro k x hk
    cases k with
    | zero => simp at hk; subst hk; simp
    | succ k =>
      simp only [List.getElem?_cons_succ] at hk ⊢
      rw [h3 k x hk, show i + 1 + k = i + (k + 1) by omega]

theorem framesFrom_bad {F : Type} (i : Nat) (ms : List (List (List F))) (m : List (List F)) (hm : m ∈ ms) (h : ¬ (m ≠ [] ∧ ∀ r ∈ m, r.length = 6)) :
    framesFrom i ms = .error .value := by
  induction ms generalizing i with
  | nil => cases hm
  | cons x ms ih =>
    rw [framesFrom]
    by_cases hx : x ≠ [] ∧ x.all (fun row => row.length = 6) = true
    · rw [if_pos hx]
      rcases List.mem_cons.1 hm with rfl | hm
      · exact absurd ⟨hx.1, fun r hr => by have := List.all_eq_true.1 hx.2 r hr; simpa using this⟩ h
      · rw [ih (i + 1) hm]; rfl
    · rw [if_neg hx]

theorem mapM_none {F : Type} (flt : Str → Option F) (acc : List (List Str)) (x : List Str) (hx : x ∈ acc) (h : x.mapM flt = none) :
    acc.mapM (fun r => r.mapM flt) = none := by
  induction acc with
  | nil => cases hx
  | cons a acc ih =>
    rw [List.mapM_cons]
    rcases List.mem_cons.1 hx with rfl | hx
    · rw [h]; rfl
    · rw [ih hx]
      cases a.mapM flt <;> rfl

theorem mapM_length {F : Type} (flt : Str → Option F) (r : List Str) (row : List F) (h : r.mapM flt = some row) : row.length = r.length := by
  induction r generalizing row with
  | nil => simp at h; simp [h]
  | cons a r ih =>
    rw [List.mapM_cons] at h
    cases ha : flt a with
    | none => rw [ha] at h; cases h
    | some y =>
      cases hr : r.mapM flt with
      | none => rw [ha, hr] at h; cases h
      | some t =>
        rw [ha, hr] at h
        obtain rfl := Option.some.inj h
        simp [ih t hr]

theorem mapM_get {F : Type} (flt : Str → Option F) (acc : List (List Str)) (m : List (List F)) (h : acc.mapM (fun r => r.mapM flt) = some m)
    (x : List Str) (hx : x ∈ acc) : ∃ row ∈ m, row.length = x.length := by
  induction acc generalizing m with
  | nil => cases hx
  | cons a acc ih =>
    rw [List.mapM_cons] at h
    cases ha : a.mapM flt with
    | none => rw [ha] at h; cases h
    | some y =>
      cases hr : acc.mapM (fun r => r.mapM flt) with
      | none => rw [ha, hr] at h; cases h
      | some t =>
        rw [ha, hr] at h
        obtain rfl := Option.some.inj h
        rcases List.mem_cons.1 hx with rfl | hx
        · exact ⟨y, by simp, mapM_length flt _ _ ha⟩
        · obtain ⟨row, h1, h2⟩ := ih t hr hx
          exact ⟨row, by simp [h1], h2⟩

theorem shape_ragged {F : Type} (flt : Str → Option F) (acc : List (List Str)) (x y : List Str) (hx : x ∈ acc) (hy : y ∈ acc) (h : x.length ≠ y.length) :
    shapeOf flt acc = .error .value := by
  rw [shapeOf]
  cases hm : acc.mapM (fun r => r.mapM flt) with
  | none => rfl
  | some m =>
    simp only
    rw [if_neg]
    intro hall
    rw [List.all_eq_true] at hall
    obtain ⟨a, ha, hal⟩ := mapM_get flt acc m hm x hx
    obtain ⟨b, hb, hbl⟩ := mapM_get flt acc m hm y hy
    have h1 := hall a ha
    have h2 := hall b hb
    simp only [decide_eq_true_eq] at h1 h2
    exact h (by omega)

end Verif.BModes
