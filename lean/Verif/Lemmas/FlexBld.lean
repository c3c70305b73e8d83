import Verif.Spec.FlexBld
import Verif.Lemmas.Str
import Verif.Py.Dec
import Mathlib.Data.List.Forall2
import Mathlib.Tactic
/-!
# Lemmas on a FLEX blade file
-/
namespace Verif.FlexBld
open Verif.Py
open Verif.Rosco (fitRow)

theorem layout_eq (v : Nat) (h : v ≤ 3) :
    layout v = some ((structNames v).length, (aeroNames v).length, structNames v, aeroNames v) := by
  interval_cases v <;> rfl

theorem mapM_ok {F : Type} (φ : Num F) (ws : List Str) (v : List F)
    (h : List.Forall₂ (fun w x => φ.parse w = some x) ws v) : ws.mapM φ.parse = some v := by
  induction h with
  | nil => rfl
  | cons h _ ih => rw [List.mapM_cons, h, ih]; rfl

theorem starts_take {F : Type} (φ : Num F) (l : Str) (v : List F) (h : Starts φ l v) :
    ((words l).take v.length).mapM φ.parse = some v := by
  obtain ⟨ws, more, hw, hf⟩ := h
  rw [hw, List.take_left' (List.Forall₂.length_eq hf)]
  exact mapM_ok φ _ _ hf

theorem fitRow_eq {F : Type} (n : Nat) (r : List F) (h : r.length = n) : fitRow n r = some r := by
  unfold fitRow; rw [if_pos h]

theorem readRows_ok {F : Type} (φ : Num F) (n : Nat) (ls : List Str) (m : List (List F)) (rest : List Str)
    (h : List.Forall₂ (Starts φ) ls m) (hw : ∀ r ∈ m, r.length = n) :
    readRows φ n ls.length (ls ++ rest) = some (m, rest) := by
  induction h with
  | nil => rfl
  | @cons l r ls m h _ ih =>
    have hl := hw r (by simp)
    rw [List.length_cons, readRows]
    simp only [List.cons_append, List.headD_cons, List.tail_cons]
    rw [ih (fun r hr => hw r (List.mem_cons_of_mem _ hr))]
    have := starts_take φ l r h
    rw [hl] at this
    rw [this]
    simp [fitRow_eq n r hl]

theorem readRows_bad {F : Type} (φ : Num F) (n k : Nat) (ls : List Str) (m : List (List F)) (rest : List Str)
    (h : List.Forall₂ (Starts φ) ls m) (hw : ∀ r ∈ m, r.length = n) (hk : ls.length < k)
    (hbad : (((words (rest.headD [])).take n).mapM φ.parse).bind (fitRow n) = none) :
    readRows φ n k (ls ++ rest) = none := by
  induction h generalizing k with
  | nil =>
    obtain ⟨k, rfl⟩ : ∃ j, k = j + 1 := ⟨k - 1, by simp at hk; omega⟩
    rw [List.nil_append, readRows]
    cases e : ((words (rest.headD [])).take n).mapM φ.parse with
    | none => rfl
    | some r =>
      rw [e, Option.bind_some] at hbad
      simp [hbad]
  | @cons l r ls m h _ ih =>
    obtain ⟨k, rfl⟩ : ∃ j, k = j + 1 := ⟨k - 1, by simp at hk; omega⟩
    have hl := hw r (by simp)
    rw [readRows]
    simp only [List.cons_append, List.headD_cons, List.tail_cons]
    rw [ih k (fun r hr => hw r (List.mem_cons_of_mem _ hr)) (by simp at hk; omega)]
    have := starts_take φ l r h
    rw [hl] at this
    rw [this]
    simp [fitRow_eq n r hl]

theorem splitOn_head (c : Char) (s a : Str) (h : s = a ∨ ∃ more, s = a ++ c :: more) (hc : c ∉ a) : (splitOn c s).headD [] = a := by
  induction a generalizing s with
  | nil =>
    rcases h with rfl | ⟨more, rfl⟩
    · rfl
    · rw [List.nil_append, splitOn]; simp
  | cons x a ih =>
    have hx : x ≠ c := fun e => hc (by simp [e])
    have ha : c ∉ a := fun e => hc (by simp [e])
    obtain ⟨s', rfl, hs'⟩ : ∃ s', s = x :: s' ∧ (s' = a ∨ ∃ more, s' = a ++ c :: more) := by
      rcases h with rfl | ⟨more, rfl⟩
      · exact ⟨a, rfl, .inl rfl⟩
      · exact ⟨_, rfl, .inr ⟨more, rfl⟩⟩
    have := ih s' hs' ha
    rw [splitOn, if_neg (by simpa using hx)]
    cases hsp : splitOn c s' with
    | nil => rw [hsp] at this; simp at this; simp [← this]
    | cons y ys => rw [hsp] at this; simp at this; simp [this]

theorem damp_semi {F : Type} (φ : Num F) (l : Str) (v : List F) (h : StartsSemi φ l v) : dampLine φ l = some v := by
  obtain ⟨a, hs, hc, hf⟩ := h
  unfold dampLine
  rw [splitOn_head ';' _ a hs hc]
  exact mapM_ok φ _ _ hf

theorem damping_ok {F : Type} (φ : Num F) (c : Content F) (beta : Str) (damp rest : List Str)
    (hb : ∃ w more, words beta = w :: more ∧ φ.parse w = some c.betaC) (hd : DampOk φ c damp) :
    damping φ c.version (beta :: (damp ++ rest)) = .ok (c.betaC, c.flap, c.edge, c.tors, rest) := by
  obtain ⟨w, more, hw, hp⟩ := hb
  unfold damping
  simp only [List.headD_cons]
  rw [words_strip, hw]
  simp only [hp]
  rcases hd with ⟨h3, l, rfl, hl, hf, he, ht⟩ | ⟨h3, s0, l1, l2, l3, s1, s2, rfl, h1, h2, h3'⟩
  · rw [if_neg (by exact_mod_cast h3)]
    simp only [List.cons_append, List.nil_append, List.tail_cons, List.headD_cons]
    have := starts_take φ l _ hl
    rw [List.length_append, hf, he] at this
    rw [words_strip, this]
    simp only
    rw [List.take_left' hf, List.take_of_length_le (by simp [hf, he]), List.drop_left' hf, ht]
  · rw [if_pos (by exact_mod_cast h3)]
    simp only [List.cons_append, List.nil_append, List.tail_cons, List.headD_cons, damp_semi φ _ _ h1, damp_semi φ _ _ h2,
      damp_semi φ _ _ h3']

/-- what damping leaves -/
theorem damping_rest {F : Type} (φ : Num F) (v : Int) (ls : List Str) (b : F) (f e t : List F) (rest : List Str)
    (h : damping φ v ls = .ok (b, f, e, t, rest)) : rest = ls.drop (if v = 3 then 7 else 2) := by
  unfold damping at h
  split at h
  · cases h
  · split at h
    · cases h
    · split at h
      · rename_i h3
        rw [if_pos h3]
        simp only at h
        split at h
        · cases h
          simp only [← List.drop_one, List.drop_drop]
        · cases h
      · rename_i h3
        rw [if_neg h3]
        split at h
        · cases h
        · cases h
          simp only [← List.drop_one, List.drop_drop]

theorem damp_len {F : Type} (φ : Num F) (c : Content F) (damp : List Str) (hd : DampOk φ c damp) :
    1 + damp.length = if (c.version : Int) = 3 then 7 else 2 := by
  rcases hd with ⟨h3, l, rfl, -⟩ | ⟨h3, s0, l1, l2, l3, s1, s2, rfl, -⟩
  · rw [if_neg (by exact_mod_cast h3)]; rfl
  · rw [if_pos (by exact_mod_cast h3)]; rfl

/-- a position in a list of names -/
theorem lookup_zip {F : Type} (ns : List String) (r : List F) (h : r.length = ns.length) (k : String) :
    (ns.zip r).lookup k = if k ∈ ns then r[ns.idxOf k]? else none := by
  induction ns generalizing r with
  | nil => simp
  | cons n ns ih =>
    cases r with
    | nil => simp at h
    | cons x r =>
      rw [List.zip_cons_cons, List.lookup_cons]
      by_cases hk : k = n
      · subst hk; simp
      · have hb : (k == n) = false := by simpa using hk
        rw [hb]
        simp only
        rw [ih r (by simpa using h)]
        have : (n :: ns).idxOf k = ns.idxOf k + 1 := List.idxOf_cons_ne _ (fun e => hk e.symm)
        rw [this]
        simp [hk]

theorem allColumns_eq {F : Type} (sh ah : List String) (struct aero : List (List F))
    (hs : ∀ r ∈ struct, r.length = sh.length) (ha : ∀ r ∈ aero, r.length = ah.length) :
    allColumns sh ah struct aero = headersAll.map (fun h => (h, List.zipWith (fun s a => (sh.zip s ++ (ah.zip a).tail).lookup h) struct aero)) := by
  unfold allColumns
  simp only
  refine List.map_congr_left (fun h _ => ?_)
  congr 1
  have key : ∀ s a, s ∈ struct → a ∈ aero → (sh.zip s ++ (ah.zip a).tail).lookup h =
      if h ∈ sh ++ ah.tail then (s ++ a.tail)[(sh ++ ah.tail).idxOf h]? else none := by
    intro s a hs' ha'
    rw [← lookup_zip (sh ++ ah.tail) (s ++ a.tail) (by simp [hs s hs', ha a ha'])]
    rw [List.zip_append (by rw [hs s hs'])]
    congr 2
    cases ah with
    | nil => simp
    | cons x ah => cases a <;> simp
  clear hs ha
  induction struct generalizing aero with
  | nil => simp [column]
  | cons s struct ih =>
    cases aero with
    | nil => simp [column]
    | cons a aero =>
      have := ih aero (fun s a hs ha => key s a (by simp [hs]) (by simp [ha]))
      rw [List.zipWith_cons_cons, List.zipWith_cons_cons, key s a (by simp) (by simp), ← this]
      unfold column
      split <;> simp

theorem width_pos (v : Nat) : 5 ≤ (structNames v).length ∧ 5 ≤ (aeroNames v).length := by
  constructor
  · unfold structNames; split <;> simp
  · unfold aeroNames; split <;> simp

theorem fit_nil {F : Type} (φ : Num F) (n : Nat) (hn : 2 ≤ n) (rest : List Str) (hr : rest = []) :
    (((words (rest.headD [])).take n).mapM φ.parse).bind (fitRow n) = none := by
  subst hr
  show (((words []).take n).mapM φ.parse).bind (fitRow n) = none
  rw [show words [] = [] from rfl, List.take_nil]
  show fitRow n [] = none
  unfold fitRow
  rw [if_neg (by simp; omega)]

theorem version_ok {F : Type} (φ : Num F) (t : Text) (c : Content F) (h : t.Ok φ c) : versionOf φ (strip t.title) = c.version := by
  unfold versionOf
  rcases h.version.2 with e | ⟨e, h0⟩
  · rw [e]; rfl
  · rw [e, h0]; rfl

/-- the reader after the first two lines -/
def body {F : Type} (φ : Num F) (v : Nat) (n : Nat) (ls : List Str) : Except BErr (Blade F) :=
  match readRows φ (structNames v).length n ls with
  | none => .error .wrong
  | some (struct, rest) =>
    match damping φ v rest with
    | .error e => .error e
    | .ok (b, f, e, t, rest) =>
      match readRows φ (aeroNames v).length n rest with
      | none => .error .wrong
      | some (aero, rest) => .ok ⟨v, b, f, e, t, strip (rest.headD []), allColumns (structNames v) (aeroNames v) struct aero⟩

theorem read_body {F : Type} (φ : Num F) (t : Text) (c : Content F) (h : t.Ok φ c) (ls : List Str) :
    read φ (t.title :: t.count :: ls) = body φ c.version t.struct.length ls := by
  obtain ⟨w, more, hw, hi⟩ := h.count
  unfold read
  simp only [List.headD_cons, List.tail_cons]
  rw [words_strip, hw]
  simp only [hi]
  rw [version_ok φ t c h, layout_eq _ h.version.1]
  simp only
  rw [if_neg (by omega)]
  rfl

theorem fit_bad {F : Type} (φ : Num F) (n : Nat) (bad : Str)
    (hbad : (words bad).length < n ∧ (words bad).length ≠ 1 ∨ ∃ w ∈ (words bad).take n, φ.parse w = none) :
    (((words bad).take n).mapM φ.parse).bind (fitRow n) = none := by
  rcases hbad with ⟨h4, h1⟩ | ⟨w, hw, hn⟩
  · rw [List.take_of_length_le (by omega)]
    cases e : (words bad).mapM φ.parse with
    | none => rfl
    | some r =>
      have hl : r.length = (words bad).length := by
        generalize words bad = ws at e
        clear h4 h1
        induction ws generalizing r with
        | nil => simp at e; subst e; rfl
        | cons w ws ih =>
          rw [List.mapM_cons] at e
          cases hw : φ.parse w with
          | none => simp [hw] at e
          | some x =>
            cases hws : ws.mapM φ.parse with
            | none => simp [hw, hws] at e
            | some y =>
              simp [hw, hws] at e
              subst e
              simp [ih y hws]
      rw [Option.bind_some]
      unfold fitRow
      rw [if_neg (by omega)]
      match r, hl with
      | [], _ => rfl
      | [_], hl => simp at hl; omega
      | _ :: _ :: _, _ => rfl
  · have : ((words bad).take n).mapM φ.parse = none := by
      generalize (words bad).take n = ws at hw
      induction ws with
      | nil => simp at hw
      | cons w' ws ih =>
        rw [List.mapM_cons]
        rcases List.mem_cons.1 hw with rfl | hw
        · rw [hn]; rfl
        · rw [ih hw]
          cases φ.parse w' <;> rfl
    rw [this]; rfl

end Verif.FlexBld
