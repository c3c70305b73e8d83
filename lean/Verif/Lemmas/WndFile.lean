import Verif.Spec.WndFile
import Verif.Lemmas.Str
import Verif.Props.Csv
import Verif.Props.AsciiComp
import Verif.Py.Dec
/-!
# Lemmas on deterministic wind files
-/
namespace Verif.WndFile
open Verif.Py Verif.Csv

theorem strip_nil_iff (l : Str) : strip l = [] ↔ words l = [] := by
  constructor
  · intro h
    have := words_strip l
    rw [h] at this
    rw [← this]; rfl
  · intro h
    cases hs : strip l with
    | nil => rfl
    | cons c s =>
      have hc := Verif.AsciiComp.strip_head? l c (by rw [hs]; rfl)
      have : words (c :: s) ≠ [] := by
        rw [words, wordsAux, if_neg (by simp [hc])]
        intro hw
        have key : ∀ (s acc : Str), acc ≠ [] → wordsAux acc s ≠ [] := by
          intro s
          induction s with
          | nil => intro acc ha; rw [wordsAux, if_neg ha]; simp
          | cons x s ih =>
            intro acc ha
            rw [wordsAux]
            split
            · first
                | (rw [if_neg ha]; simp)
                | simp
            · exact ih _ (by simp)
        exact key _ _ (by simp) hw
      rw [← hs, words_strip] at this
      exact absurd h this

theorem dataLines_rows (skip : Nat → Bool) (lines : List Str) (i : Nat)
    (h : ∀ k l, lines[k]? = some l → skip (i + k) = true → strip (uncomment (some '!') l) = []) :
    (dataLines skip (some '!') i lines).map words = rows lines ∧
    ∀ d ∈ dataLines skip (some '!') i lines, ∃ l ∈ lines, d = l.takeWhile (· ≠ '!') := by
  induction lines generalizing i with
  | nil => exact ⟨rfl, by simp [dataLines]⟩
  | cons l ls ih =>
    have hi := ih (i + 1) (fun k x hx hs => h (k + 1) x (by simpa using hx) (by rw [← hs]; congr 1; omega))
    have h0 := h 0 l rfl
    have hr : rows (l :: ls) = if words (l.takeWhile (· ≠ '!')) = [] then rows ls else words (l.takeWhile (· ≠ '!')) :: rows ls := by
      rw [rows, List.map_cons]
      by_cases e : words (l.takeWhile (· ≠ '!')) = []
      · rw [if_pos e, List.filter_cons_of_neg (by simpa using e)]; rfl
      · rw [if_neg e, List.filter_cons_of_pos (by simpa using e)]; rfl
    have hmem : ∀ d ∈ dataLines skip (some '!') (i + 1) ls, ∃ x ∈ l :: ls, d = x.takeWhile (· ≠ '!') := fun d hd => by
      obtain ⟨x, hx, e⟩ := hi.2 d hd
      exact ⟨x, List.mem_cons_of_mem _ hx, e⟩
    rw [dataLines]
    simp only
    by_cases hs : skip i = true
    · rw [if_pos hs]
      have e : words (l.takeWhile (· ≠ '!')) = [] := (strip_nil_iff _).1 (h0 (by simpa using hs))
      rw [hr, if_pos e]
      exact ⟨hi.1, hmem⟩
    · rw [if_neg hs]
      by_cases e : strip (uncomment (some '!') l) = []
      · have e' : words (l.takeWhile (· ≠ '!')) = [] := (strip_nil_iff _).1 e
        rw [if_pos e, hr, if_pos e']
        exact ⟨hi.1, hmem⟩
      · have e' : ¬ words (l.takeWhile (· ≠ '!')) = [] := fun h => e ((strip_nil_iff _).2 h)
        rw [if_neg e, hr, if_neg e', List.map_cons, hi.1]
        refine ⟨rfl, fun d hd => ?_⟩
        rcases List.mem_cons.1 hd with rfl | hd
        · exact ⟨l, List.mem_cons_self, rfl⟩
        · exact hmem d hd

theorem mark_blank (l : Str) (h : (strip l).head? = some '!') : strip (uncomment (some '!') l) = [] := by
  rw [strip_nil_iff]
  have h1 : ∀ l : Str, (l.dropWhile isWs).head? = some '!' → words (l.takeWhile (· ≠ '!')) = [] := by
    intro l
    induction l with
    | nil => intro h; simp at h
    | cons c l ih =>
      intro h
      by_cases hc : isWs c = true
      · rw [List.dropWhile_cons, if_pos hc] at h
        rw [List.takeWhile_cons]
        split
        · rw [words_cons_ws _ _ hc]; exact ih h
        · rfl
      · rw [List.dropWhile_cons, if_neg hc] at h
        simp only [List.head?_cons, Option.some.injEq] at h
        subst h
        rw [List.takeWhile_cons, if_neg (by simp)]
        rfl
  apply h1
  have hs : strip l <+: l.dropWhile isWs := by
    rw [strip, stripBy]
    rw [← List.reverse_suffix, rstripBy, List.reverse_reverse]
    exact List.dropWhile_suffix _
  obtain ⟨t, ht⟩ := hs
  rw [← ht]
  cases hq : strip l with
  | nil => rw [hq] at h; cases h
  | cons x q => rw [hq] at h; rw [List.cons_append]; exact h

theorem commented_mem (n : Nat) (ls : List Str) :
    (∀ h ∈ commented '!' n ls, h.head? = some '!') ∧
    ∀ (k : Nat) l, ls[k]? = some l → k < (commented '!' n ls).length → (strip l).head? = some '!' := by
  induction n generalizing ls with
  | zero => simp [commented]
  | succ n ih =>
    cases ls with
    | nil => simp [commented]
    | cons l ls =>
      rw [commented]
      by_cases h : (strip l).head? = some '!'
      · rw [if_pos h]
        refine ⟨?_, ?_⟩
        · intro x hx
          rcases List.mem_cons.1 hx with rfl | hx
          · exact h
          · exact (ih ls).1 x hx
        · intro k x hx hk
          cases k with
          | zero => cases hx; exact h
          | succ k => exact (ih ls).2 k x (by simpa using hx) (by simpa using hk)
      · rw [if_neg h]
        simp

theorem binary_first (l0 : Str) (ls : List Str) (h : ∀ c ∈ l0, 32 ≤ c.toNat) :
    AsciiComp.isBinary (some (joinWith ['\n'] (l0 :: ls))) = false := by
  have hr : ∀ t : Str, AsciiComp.readline (l0 ++ t) = l0 ++ AsciiComp.readline t := by
    intro t
    induction l0 with
    | nil => rfl
    | cons c l0 ih =>
      have hc := h c (by simp)
      rw [List.cons_append, AsciiComp.readline, if_neg (by rintro rfl; exact absurd hc (by decide)),
        ih (fun c hc => h c (by simp [hc]))]
      rfl
  have ht : ∃ t, joinWith ['\n'] (l0 :: ls) = l0 ++ t ∧ (AsciiComp.readline t = [] ∨ AsciiComp.readline t = ['\n']) := by
    cases ls with
    | nil => exact ⟨[], by simp [joinWith], .inl rfl⟩
    | cons a ls =>
      refine ⟨'\n' :: joinWith ['\n'] (a :: ls), ?_, .inr ?_⟩
      · rw [joinWith_cons _ _ _ (by simp), List.append_assoc]; rfl
      · rw [AsciiComp.readline, if_pos rfl]
  obtain ⟨t, ht, hl⟩ := ht
  rw [AsciiComp.isBinary, ht]
  rw [hr, List.any_append, Bool.or_eq_false_iff]
  constructor
  · rw [List.any_eq_false]
    intro c hc
    have := h c hc
    have e : ¬ (c.toNat < 10 ∨ c.toNat > 14 ∧ c.toNat < 31) := by omega
    simpa [AsciiComp.weird] using e
  · rcases hl with hl | hl <;> rw [hl] <;> decide

theorem binary_tab (a b : Str) (ls : List Str) (ha : '\n' ∉ a) :
    AsciiComp.isBinary (some (joinWith ['\n'] ((a ++ '\t' :: b) :: ls))) = true := by
  obtain ⟨t, ht⟩ : ∃ t, joinWith ['\n'] ((a ++ '\t' :: b) :: ls) = a ++ '\t' :: t := by
    cases ls with
    | nil => exact ⟨b, by simp [joinWith]⟩
    | cons x ls => exact ⟨b ++ '\n' :: joinWith ['\n'] (x :: ls), by rw [joinWith_cons _ _ _ (by simp)]; simp⟩
  rw [AsciiComp.isBinary, ht]
  have hr : '\t' ∈ AsciiComp.readline (a ++ '\t' :: t) := by
    clear ht
    induction a with
    | nil => rw [List.nil_append, AsciiComp.readline, if_neg (by decide)]; exact List.mem_cons_self
    | cons c a ih =>
      rw [List.cons_append, AsciiComp.readline, if_neg (by rintro rfl; exact ha (by simp))]
      exact List.mem_cons_of_mem _ (ih (fun h => ha (by simp [h])))
  rw [List.any_eq_true]
  exact ⟨_, hr, by decide⟩

theorem excluded_first (T : Txt) (l0 : Str) (ls : List Str) (h : First T l0) : excluded T (l0 :: ls) = .ok false := by
  have e : readline (l0 :: ls) 0 = some (strip l0) := by simp [readline]
  rw [excluded, e]
  simp only [words_strip]
  have := h.csv
  split
  · rename_i w0 w1 r hw
    have := this w0 w1 r hw
    cases h1 : T.isInt w0 <;> cases h2 : T.isAlpha w1 <;> simp_all
  · rfl

/-- cells of rows of words -/
theorem pad_words (n : Nat) (r : List Str) (h : ∀ w ∈ r, w ≠ []) :
    pad n r = r.map some ++ List.replicate (n - r.length) none := by
  rw [pad]
  congr 1
  apply List.map_congr_left
  intro w hw
  rw [toCell, if_neg (h w hw)]

theorem rows_words (lines : List Str) (r : List Str) (h : r ∈ rows lines) (w : Str) (hw : w ∈ r) : IsWord w := by
  rw [rows, List.mem_filter, List.mem_map] at h
  obtain ⟨⟨l, -, rfl⟩, -⟩ := h
  exact words_isWord _ w hw

/-- what the reader gives -/
theorem read_eq (T : Txt) (l0 : Str) (ls r : List Str) (rs : List (List Str)) (hf : First T l0)
    (hq : ∀ l ∈ l0 :: ls, '"' ∉ l) (hr : rows (l0 :: ls) = r :: rs) :
    read T new (l0 :: ls) = if rs.any (fun x => decide (r.length < x.length)) then .error .wrongFormat else
      .ok { new with
        sep := some .ws, header := commented '!' 100 (l0 :: ls), commentLines := List.range (commented '!' 100 (l0 :: ls)).length,
        colNames := if r.length = 8 then wndNames else (List.range r.length).map genName,
        columns := if r.length = 8 then wndNames else (List.range r.length).map genName,
        data := (r :: rs).map fun x => x.map some ++ List.replicate (r.length - x.length) none } := by
  rw [read, binary_first l0 ls hf.text]
  simp only [Bool.false_eq_true, if_false]
  rw [Csv.read, excluded_first T l0 ls hf]
  have hcols : cols = wndNames := by decide +kernel
  have hlen : cols.length = 8 := by decide +kernel
  have hlen' : wndNames.length = 8 := by decide +kernel
  have hstrip : wndNames.map strip = wndNames := by decide +kernel
  simp only [new, safeSep, readHeader, detectSep, readNames, hlen, gt_iff_lt, Nat.succ_pos, if_true]
  simp only [readData, tabWs]
  have hd := dataLines_rows (skips { sep := some Sep.ws, colNames := cols, commentChar := some '!', header := commented '!' 100 (l0 :: ls), commentLines := List.range (commented '!' 100 (l0 :: ls)).length }
    (commented '!' 100 (l0 :: ls)).length) (l0 :: ls) 0 (by
      intro k l hl hs
      apply mark_blank
      refine (commented_mem 100 (l0 :: ls)).2 k l hl ?_
      simpa [skips] using hs)
  rw [readCsv]
  generalize dataLines _ (some '!') 0 (l0 :: ls) = ds at hd ⊢
  rw [if_neg (by
    rw [Bool.not_eq_true, List.any_eq_false]
    intro d hd'
    obtain ⟨l, hl, rfl⟩ := hd.2 d hd'
    simpa using fun hm => hq l hl ((List.takeWhile_prefix _).subset hm))]
  have hc : ds.map (cells .ws) = r :: rs := by
    rw [← hr, ← hd.1]; rfl
  rw [hc]
  simp only
  by_cases hw : (rs.any fun x => decide (r.length < x.length)) = true
  · rw [if_pos hw, if_pos hw]
  · rw [if_neg hw, if_neg hw]
    simp only
    have hp : (r :: rs).map (pad r.length) = (r :: rs).map fun x => x.map some ++ List.replicate (r.length - x.length) none := by
      apply List.map_congr_left
      intro x hx
      exact pad_words _ _ (fun w hw => (rows_words (l0 :: ls) x (by rw [hr]; exact hx) w hw).1)
    rw [hp]
    by_cases h8 : r.length = 8
    · rw [if_pos h8, if_neg (by omega), hcols, hstrip]
    · rw [if_neg h8, if_pos (by omega)]
      have hg : ((List.range r.length).map genName).map strip = (List.range r.length).map genName := by
        rw [List.map_map]
        exact List.map_congr_left (fun i _ => strip_genName i)
      rw [hg]

theorem takeWhile_all (p : Char → Bool) (l : Str) (h : ∀ c ∈ l, p c = true) : l.takeWhile p = l := by
  induction l with
  | nil => rfl
  | cons c l ih => rw [List.takeWhile_cons, if_pos (h c (by simp)), ih (fun c hc => h c (by simp [hc]))]

theorem words_join_tab (ws : List Str) (h : ∀ w ∈ ws, IsWord w) : words (joinWith ['\t'] ws) = ws := by
  induction ws with
  | nil => rfl
  | cons w ws ih =>
    have hw := h w (by simp)
    by_cases hn : ws = []
    · subst hn; simpa [joinWith] using words_word hw
    · rw [joinWith_cons _ _ _ hn, List.append_assoc, List.singleton_append, words_word_cons hw _ _ (by decide),
        ih (fun w hw => h w (by simp [hw]))]

theorem mem_join_tab (ws : List Str) (c : Char) (h : c ∈ joinWith ['\t'] ws) : c = '\t' ∨ ∃ w ∈ ws, c ∈ w := by
  induction ws with
  | nil => simp [joinWith] at h
  | cons w ws ih =>
    by_cases hn : ws = []
    · subst hn; exact .inr ⟨w, by simp, by simpa [joinWith] using h⟩
    · rw [joinWith_cons _ _ _ hn, List.mem_append, List.mem_append] at h
      rcases h with (h | h) | h
      · exact .inr ⟨w, by simp, h⟩
      · exact .inl (by simpa using h)
      · rcases ih h with h | ⟨x, hx, h⟩
        · exact .inl h
        · exact .inr ⟨x, by simp [hx], h⟩

theorem rows_chars (lines : List Str) (r : List Str) (h : r ∈ rows lines) (w : Str) (hw : w ∈ r) :
    '!' ∉ w ∧ ∃ l ∈ lines, ∀ c ∈ w, c ∈ l := by
  rw [rows, List.mem_filter, List.mem_map] at h
  obtain ⟨⟨l, hl, rfl⟩, -⟩ := h
  have key : ∀ (s acc : Str) (w : Str), w ∈ wordsAux acc s → ∀ c ∈ w, c ∈ acc ∨ c ∈ s := by
    intro s
    induction s with
    | nil =>
      intro acc w hw c hc
      rw [wordsAux] at hw
      split at hw
      · cases hw
      · rw [List.mem_singleton] at hw; subst hw; exact .inl hc
    | cons x s ih =>
      intro acc w hw c hc
      rw [wordsAux] at hw
      split at hw
      · split at hw
        · rcases ih _ w hw c hc with h | h
          · cases h
          · exact .inr (by simp [h])
        · rcases List.mem_cons.1 hw with rfl | hw
          · exact .inl hc
          · rcases ih _ w hw c hc with h | h
            · cases h
            · exact .inr (by simp [h])
      · rcases ih _ w hw c hc with h | h
        · rcases List.mem_append.1 h with h | h
          · exact .inl h
          · exact .inr (by simp at h; simp [h])
        · exact .inr (by simp [h])
  have hm : ∀ c ∈ w, c ∈ l.takeWhile (· ≠ '!') := fun c hc => by
    rcases key _ _ w hw c hc with h | h
    · cases h
    · exact h
  refine ⟨fun h => ?_, l, hl, fun c hc => (List.takeWhile_prefix _).subset (hm c hc)⟩
  have := List.all_takeWhile (p := fun x => decide (x ≠ '!')) (l := l)
  rw [List.all_eq_true] at this
  simpa using this _ (hm _ h)

end Verif.WndFile
