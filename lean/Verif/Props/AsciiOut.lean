import Verif.Model.AsciiOut
import Verif.Lemmas.HawcAe
import Verif.Py.Dec
/-!
# C70 — ASCII output round trip;  C71 — what was read can be exported
-/
namespace Verif.AsciiOut
open Verif.Py

/-! ## Lemmas -/

theorem fields_cons (w : Str) (ws : List Str) (h : ws ≠ []) : fields (w :: ws) = HawcAe.padLeft 10 w ++ '\t' :: fields ws := by
  unfold fields
  rw [List.map_cons, joinWith_cons _ _ _ (by simpa using h)]
  simp

theorem words_fields (ws : List Str) (h : ∀ w ∈ ws, IsWord w) : words (fields ws) = ws := by
  induction ws with
  | nil => rfl
  | cons w ws ih =>
    cases ws with
    | nil =>
      show words (HawcAe.padLeft 10 w) = [w]
      rw [HawcAe.words_pad, words_word (h w List.mem_cons_self)]
    | cons v ws =>
      rw [fields_cons _ _ (by simp), HawcAe.words_pad_cons 10 (h w List.mem_cons_self) _ _ (by decide),
        ih (fun x hx => h x (List.mem_cons_of_mem _ hx))]

theorem mem_fields (ws : List Str) (c : Char) (hc : c ∈ fields ws) : c = '\t' ∨ c = ' ' ∨ ∃ w ∈ ws, c ∈ w := by
  rcases mem_joinWith _ _ _ hc with h | ⟨w, hw, h⟩
  · left; simpa using h
  · right
    obtain ⟨v, hv, rfl⟩ := List.mem_map.1 hw
    unfold HawcAe.padLeft at h
    rcases List.mem_append.1 h with h | h
    · left; exact List.eq_of_mem_replicate h
    · right; exact ⟨v, hv, h⟩

theorem nl_fields (ws : List Str) (h : ∀ w ∈ ws, IsWord w) : '\n' ∉ fields ws := by
  intro hc
  rcases mem_fields ws _ hc with h' | h' | ⟨w, hw, h'⟩
  · exact absurd h' (by decide)
  · exact absurd h' (by decide)
  · exact HawcAe.IsWord.nl (h w hw) h'

/-- a text in which the comment mark does not occur is not cut -/
theorem find_none (l : Str) (h : 'T' ∉ l) : find "This".toList l = none := by
  induction l with
  | nil => rfl
  | cons c l ih =>
    have hc : c ≠ 'T' := fun e => h (e ▸ List.mem_cons_self)
    have : ("This".toList.isPrefixOf (c :: l)) = false := by
      simp [List.isPrefixOf, Ne.symm hc]
    rw [find, this, ih (fun e => h (List.mem_cons_of_mem _ e))]
    rfl

theorem cut_self (l : Str) (h : 'T' ∉ l) : cut l = l := by
  unfold cut
  rw [find_none l h]

theorem isWs_toLower (c : Char) : isWs c.toLower = isWs c := by
  unfold Char.toLower
  split
  · rename_i h
    have h1 : 65 ≤ c.val.toNat := by simpa [UInt32.le_iff_toNat_le] using h.1
    have h2 : c.val.toNat ≤ 90 := by simpa [UInt32.le_iff_toNat_le] using h.2
    have e : c.toNat = c.val.toNat := rfl
    have e2 : ∀ p, (Char.mk (c.val + ('a'.val - 'A'.val)) p).toNat = c.val.toNat + 32 := by
      intro p
      show (c.val + ('a'.val - 'A'.val)).toNat = _
      have : ('a'.val - 'A'.val) = 32 := by decide
      rw [this, UInt32.toNat_add]
      have : (32 : UInt32).toNat = 32 := rfl
      omega
    have h3 : isWs c = false := by
      unfold isWs
      rw [e]
      simp
      omega
    rw [h3]
    unfold isWs
    rw [e2]
    simp
    omega
  · rfl

theorem wordsAux_lower (acc s : Str) : wordsAux (lower acc) (lower s) = (wordsAux acc s).map lower := by
  induction s generalizing acc with
  | nil =>
    show wordsAux (lower acc) [] = _
    unfold wordsAux
    cases acc <;> simp [lower]
  | cons c s ih =>
    show wordsAux (lower acc) (c.toLower :: lower s) = _
    simp only [wordsAux, isWs_toLower]
    have e : lower acc = [] ↔ acc = [] := by simp [lower]
    have i1 := ih []
    have i2 := ih (acc ++ [c])
    have e2 : lower (acc ++ [c]) = lower acc ++ [c.toLower] := by simp [lower]
    rw [e2] at i2
    have e0 : lower [] = [] := rfl
    rw [e0] at i1
    by_cases hw : isWs c = true
    · by_cases ha : acc = []
      · simp [hw, ha, e0, i1]
      · simp [hw, e, ha, i1]
    · simp only [hw, i2]
      simp

theorem words_lower (s : Str) : words (lower s) = (words s).map lower := wordsAux_lower [] s

/-- the line of the names is recognised -/
theorem isTime_iff (l : Str) : isTime l = true ↔ ∃ w, (words l).head? = some w ∧ lower w = "time".toList := by
  unfold isTime
  have e : l ++ " dummy".toList = l ++ ' ' :: "dummy".toList := rfl
  rw [decide_eq_true_iff, e, words_lower, words_append _ _ _ isWs_space]
  cases hw : words l with
  | nil =>
    simp only [List.nil_append, List.head?_nil]
    constructor
    · intro h
      exact absurd h (by decide)
    · rintro ⟨w, hw, _⟩
      exact nomatch hw
  | cons w ws => simp

theorem numRows_map (N : Num F) (rows : List (List Str)) (vals : List (List F)) (hlen : rows.length = vals.length)
    (hne : ∀ r ∈ rows, r ≠ []) (hw : ∀ r ∈ rows, ∀ w ∈ r, IsWord w ∧ 'T' ∉ w)
    (hp : ∀ p ∈ rows.zip vals, p.1.mapM N.parse = some p.2) : numRows N (rows.map fields) = .ok vals := by
  induction rows generalizing vals with
  | nil =>
    cases vals with
    | nil => rfl
    | cons v vals => simp at hlen
  | cons r rows ih =>
    cases vals with
    | nil => simp at hlen
    | cons v vals =>
      have hcut : cut (fields r) = fields r := by
        refine cut_self _ (fun hc => ?_)
        rcases mem_fields r _ hc with h | h | ⟨w, hw', h⟩
        · exact absurd h (by decide)
        · exact absurd h (by decide)
        · exact (hw r List.mem_cons_self w hw').2 h
      have hwords : words (fields r) = r := words_fields r (fun w h => (hw r List.mem_cons_self w h).1)
      have hr : r ≠ [] := hne r List.mem_cons_self
      have hparse : r.mapM N.parse = some v := hp (r, v) (by simp)
      have := ih vals (by simpa using hlen) (fun x hx => hne x (List.mem_cons_of_mem _ hx))
        (fun x hx => hw x (List.mem_cons_of_mem _ hx)) (fun p hp' => hp p (by simp [hp']))
      simp only [List.map_cons, numRows, hcut, hwords, if_neg hr, hparse, this]

theorem splitOn_last (c : Char) (s : Str) (hs : c ∉ s) (ls : List Str) (h : ∀ l ∈ ls, c ∉ l) :
    splitOn c (ls.foldr (fun l r => l ++ c :: r) s) = ls ++ [s] := by
  induction ls with
  | nil => exact splitOn_noSep c s hs
  | cons l ls ih =>
    rw [List.foldr_cons, splitOn_append _ _ _ (h l List.mem_cons_self), ih (fun x hx => h x (List.mem_cons_of_mem _ hx))]
    rfl

/-- the texts of the numbers of a row: the first with four decimals, the others with three -/
def cells (N : Num F) : List F → List Str
  | [] => []
  | t :: r => N.f4 t :: r.map N.e3

theorem cells_length (N : Num F) (r : List F) : (cells N r).length = r.length := by
  cases r <;> simp [cells]

theorem rowTexts_ok (N : Num F) (rows : List (List F)) (h : ∀ r ∈ rows, r ≠ []) :
    rowTexts N (.mat rows) = .ok (rows.map fun r => fields (cells N r)) := by
  show rows.mapM (rowText N) = _
  induction rows with
  | nil => rfl
  | cons r rows ih =>
    have hr := h r List.mem_cons_self
    cases r with
    | nil => exact absurd rfl hr
    | cons t r =>
      rw [List.mapM_cons, ih (fun x hx => h x (List.mem_cons_of_mem _ hx))]
      rfl

/-- the lines of the text that is written -/
theorem readlines_text (a b : Str) (rows : List Str) (ha : '\n' ∉ a) (hb : '\n' ∉ b) (hr : ∀ r ∈ rows, '\n' ∉ r)
    (hne : rows ≠ []) (hne' : ∀ r ∈ rows, r ≠ []) :
    HawcAe.readlines (a ++ '\n' :: (b ++ '\n' :: joinWith ['\n'] rows)) = a :: b :: rows := by
  unfold HawcAe.readlines
  rw [splitOn_append _ _ _ ha, splitOn_append _ _ _ hb, splitOn_join _ _ hne hr]
  have : (a :: b :: rows).getLast? ≠ some [] := by
    obtain ⟨x, hx⟩ : ∃ x, rows.getLast? = some x := by
      cases h : rows.getLast? with
      | none => exact absurd (List.getLast?_eq_none_iff.1 h) hne
      | some x => exact ⟨x, rfl⟩
    have e : (a :: b :: rows).getLast? = some x := by simp [List.getLast?_cons, hx]
    rw [e]
    intro h
    injection h with h
    exact hne' x (List.mem_of_getLast? hx) h
  simp only [if_neg this]

/-- what the code asks of names: words, the first of them `time` in any spelling -/
structure NamesOk (names : List Str) : Prop where
  word : ∀ n ∈ names, IsWord n
  time : ∃ n, names.head? = some n ∧ lower n = "time".toList

/-- units without blanks and brackets -/
def UnitsOk (units : List Str) : Prop := ∀ u ∈ units, ∀ c ∈ u, isWs c = false ∧ bracket c = false

/-- the texts of the numbers that occur are words without the letter T that `float` accepts -/
def CellsOk (N : Num F) (rows : List (List F)) : Prop :=
  ∀ r ∈ rows, ∀ w ∈ cells N r, IsWord w ∧ 'T' ∉ w ∧ (N.parse w).isSome

theorem unit_back (u : Str) (h : ∀ c ∈ u, isWs c = false ∧ bracket c = false) : clean (inner ('(' :: (u ++ [')']))) = u := by
  unfold inner clean
  simp only [List.drop_succ_cons, List.drop_zero, List.dropLast_concat]
  rw [List.filter_eq_self]
  intro c hc
  simp [(h c hc).2]

/-- the numbers read back from the texts of a row -/
theorem parse_cells (N : Num F) (ws : List Str) (h : ∀ w ∈ ws, (N.parse w).isSome) : ∃ v, ws.mapM N.parse = some v := by
  induction ws with
  | nil => exact ⟨[], rfl⟩
  | cons w ws ih =>
    obtain ⟨v, hv⟩ := ih (fun x hx => h x (List.mem_cons_of_mem _ hx))
    obtain ⟨x, hx⟩ := Option.isSome_iff_exists.1 (h w List.mem_cons_self)
    exact ⟨x :: v, by rw [List.mapM_cons, hx, hv]; rfl⟩

theorem mapM_get {α β : Type} (f : α → Option β) (l : List α) (v : List β) (h : l.mapM f = some v) :
    v.length = l.length ∧ ∀ (i : Nat) (x : α), l[i]? = some x → f x = v[i]? := by
  induction l generalizing v with
  | nil =>
    injection h with h
    subst h
    exact ⟨rfl, fun i x hx => by simp at hx⟩
  | cons a l ih =>
    rw [List.mapM_cons] at h
    cases ha : f a with
    | none => rw [ha] at h; exact nomatch h
    | some b =>
      cases hl : l.mapM f with
      | none => rw [ha, hl] at h; exact nomatch h
      | some w =>
        rw [ha, hl] at h
        injection h with h
        subst h
        obtain ⟨h1, h2⟩ := ih w hl
        refine ⟨by simp [h1], fun i x hx => ?_⟩
        cases i with
        | zero => simp at hx; subst hx; simpa using ha
        | succ i => simpa using h2 i x (by simpa using hx)

theorem squeeze_mat (rows : List (List F)) (m : Nat) (hm : 2 ≤ m) (h2 : 2 ≤ rows.length) (hl : ∀ r ∈ rows, r.length = m) :
    squeeze rows = .mat rows := by
  match rows, h2 with
  | a :: b :: rows, _ =>
    unfold squeeze
    have : (a :: b :: rows).all (fun r => r.length = 1) = false := by
      have := hl a List.mem_cons_self
      simp only [List.all_cons, Bool.and_eq_false_iff]
      left
      simp
      omega
    simp [this]

/-- **C70** for objects with at least two rows and two columns, names that are words and begin with
the time, and units without blanks and brackets: the text is written and read back with the same
names, the same units, and in each place the number that its text stands for. -/
theorem C70_partial (N : Num F) (o : Obj F) (us : List Str) (rows : List (List F)) (m : Nat)
    (hu : o.units = some us) (hd : o.data = .mat rows) (hn : NamesOk o.names) (huo : UnitsOk us) (hc : CellsOk N rows)
    (hm : 2 ≤ m) (h2 : 2 ≤ rows.length) (hl : ∀ r ∈ rows, r.length = m) :
    ∃ text rows', write N o = .ok text ∧ read N text = .ok ⟨[], o.names, some us, .mat rows'⟩ ∧ rows'.length = rows.length ∧
      (∀ r ∈ rows', r.length = m) ∧
      ∀ (i j : Nat) (row row' : List F) (x : F), rows[i]? = some row → rows'[i]? = some row' → row[j]? = some x →
        row'[j]? = N.parse (if j = 0 then N.f4 x else N.e3 x) := by
  have hrne : ∀ r ∈ rows, r ≠ [] := fun r hr e => by have := hl r hr; rw [e] at this; simp at this; omega
  have hw : ∀ r ∈ rows, ∀ w ∈ cells N r, IsWord w ∧ 'T' ∉ w := fun r hr w hw => ⟨(hc r hr w hw).1, (hc r hr w hw).2.1⟩
  have hcne : ∀ r ∈ rows, cells N r ≠ [] := fun r hr e => by
    have := cells_length N r
    rw [e] at this
    simp at this
    exact hrne r hr (List.eq_nil_of_length_eq_zero this.symm)
  have hfne : ∀ r ∈ rows, fields (cells N r) ≠ [] := fun r hr e => by
    have := words_fields (cells N r) (fun w h => (hw r hr w h).1)
    rw [e] at this
    exact hcne r hr this.symm
  -- the numbers that are read
  have hex : ∃ vals : List (List F), vals.length = rows.length ∧ ∀ p ∈ (rows.map (cells N)).zip vals, p.1.mapM N.parse = some p.2 := by
    clear h2 hw hcne hfne hrne hd
    induction rows with
    | nil => exact ⟨[], rfl, by simp⟩
    | cons r rows ih =>
      obtain ⟨vals, h1, h2⟩ := ih (fun r hr => hc r (List.mem_cons_of_mem _ hr)) (fun r hr => hl r (List.mem_cons_of_mem _ hr))
      obtain ⟨v, hv⟩ := parse_cells N (cells N r) (fun w hw => (hc r List.mem_cons_self w hw).2.2)
      refine ⟨v :: vals, by simp [h1], fun p hp => ?_⟩
      simp only [List.map_cons, List.zip_cons_cons, List.mem_cons] at hp
      rcases hp with rfl | hp
      · exact hv
      · exact h2 p hp
  obtain ⟨vals, hv1, hv2⟩ := hex
  have hvi : ∀ (i : Nat) (row row' : List F), rows[i]? = some row → vals[i]? = some row' → (cells N row).mapM N.parse = some row' := by
    intro i row row' h1 h2
    refine hv2 (cells N row, row') ?_
    rw [List.mem_iff_getElem?]
    exact ⟨i, by rw [List.getElem?_zip_eq_some]; exact ⟨by rw [List.getElem?_map, h1]; rfl, h2⟩⟩
  have hvl : ∀ r ∈ vals, r.length = m := by
    intro r hr
    obtain ⟨i, hi⟩ := List.mem_iff_getElem?.1 hr
    have hlt : i < rows.length := by rw [← hv1]; exact (List.getElem?_eq_some_iff.1 hi).1
    have h1 := hvi i rows[i] r (List.getElem?_eq_getElem hlt) hi
    have h3 := (mapM_get _ _ _ h1).1
    rw [h3, cells_length]
    exact hl _ (List.getElem_mem hlt)
  have htext : write N o = .ok (fields o.names ++ '\n' :: (fields (us.map fun x => '(' :: (x ++ [')'])) ++ '\n' ::
      joinWith ['\n'] (rows.map fun r => fields (cells N r)))) := by
    unfold write
    rw [hu, hd, rowTexts_ok N rows hrne]
  refine ⟨_, vals, htext, ?_, hv1, hvl, ?_⟩
  · unfold read
    have hup : ∀ u ∈ us.map (fun x => '(' :: (x ++ [')'])), IsWord u := by
      intro u hu
      obtain ⟨x, hx, rfl⟩ := List.mem_map.1 hu
      refine ⟨by simp, fun c hc => ?_⟩
      simp only [List.mem_cons, List.mem_append, List.not_mem_nil, or_false] at hc
      rcases hc with rfl | hc | rfl
      · decide
      · exact (huo x hx c hc).1
      · decide
    have hrows : rows ≠ [] := by intro e; rw [e] at h2; simp at h2
    rw [readlines_text _ _ _ (nl_fields _ hn.word) (nl_fields _ hup)
      (by
        intro r hr
        obtain ⟨x, hx, rfl⟩ := List.mem_map.1 hr
        exact nl_fields _ (fun w h => (hw x hx w h).1)) (by simpa using hrows)
      (by
        intro r hr
        obtain ⟨x, hx, rfl⟩ := List.mem_map.1 hr
        exact hfne x hx)]
    have htime : isTime (fields o.names) = true := by
      rw [isTime_iff, words_fields _ hn.word]
      exact hn.time
    have hnum : numRows N (rows.map fun r => fields (cells N r)) = .ok vals := by
      have := numRows_map N (rows.map (cells N)) vals (by simp [hv1])
        (by
          intro r hr
          obtain ⟨x, hx, rfl⟩ := List.mem_map.1 hr
          exact hcne x hx)
        (by
          intro r hr
          obtain ⟨x, hx, rfl⟩ := List.mem_map.1 hr
          exact hw x hx) hv2
      rw [List.map_map] at this
      exact this
    have hall : vals.all (fun r => r.length = (vals.headD []).length) = true := by
      rw [List.all_eq_true]
      intro r hr
      cases vals with
      | nil => exact nomatch hr
      | cons v vals =>
        have e1 := hvl r hr
        have e2 := hvl v List.mem_cons_self
        simp [e1, e2]
    have hload : loadtxt N (rows.map fun r => fields (cells N r)) = .ok (.mat vals) := by
      unfold loadtxt
      rw [hnum]
      simp only [hall, if_true]
      rw [squeeze_mat vals m hm (by omega) hvl]
    have hnd : noData (.mat vals : Arr F) = .ok false := by
      unfold noData
      have : vals.length ≠ 0 := by omega
      simp [this]
    have hunits : ((us.map fun x => '(' :: (x ++ [')'])).map inner).map clean = us := by
      rw [List.map_map, List.map_map]
      conv => rhs; rw [← List.map_id us]
      exact List.map_congr_left (fun u hu => unit_back u (huo u hu))
    simp only [header, htime, if_true, List.tail_cons, List.headD_cons, hload, hnd]
    rw [words_fields _ hn.word, words_fields _ hup, hunits]
  · intro i j row row' x h1 h2 h3
    have h4 := (mapM_get _ _ _ (hvi i row row' h1 h2)).2 j
    cases row with
    | nil => simp at h3
    | cons t r =>
      cases j with
      | zero =>
        simp only [List.getElem?_cons_zero, Option.some.injEq] at h3
        subst h3
        exact (h4 (N.f4 t) (by simp [cells])).symm
      | succ j =>
        have := h4 (N.e3 x) (by simpa [cells] using ⟨x, by simpa using h3, rfl⟩)
        simpa using this.symm

/-- **C70, second save**: when printing a number that was read from a printed text gives that text
again, saving what was re-read changes nothing. -/
theorem C70_again_partial (N : Num F) (hN : ∀ x y, (N.parse (N.f4 x) = some y → N.f4 y = N.f4 x) ∧ (N.parse (N.e3 x) = some y → N.e3 y = N.e3 x))
    (o : Obj F) (us : List Str) (rows : List (List F)) (m : Nat)
    (hu : o.units = some us) (hd : o.data = .mat rows) (hn : NamesOk o.names) (huo : UnitsOk us) (hc : CellsOk N rows)
    (hm : 2 ≤ m) (h2 : 2 ≤ rows.length) (hl : ∀ r ∈ rows, r.length = m) :
    ∃ text o', write N o = .ok text ∧ read N text = .ok o' ∧ write N o' = .ok text := by
  obtain ⟨text, rows', h1, h3, h4, h5, h6⟩ := C70_partial N o us rows m hu hd hn huo hc hm h2 hl
  refine ⟨text, _, h1, h3, ?_⟩
  have hrne : ∀ r ∈ rows, r ≠ [] := fun r hr e => by have := hl r hr; rw [e] at this; simp at this; omega
  have hrne' : ∀ r ∈ rows', r ≠ [] := fun r hr e => by have := h5 r hr; rw [e] at this; simp at this; omega
  have hcells : rows'.map (fun r => fields (cells N r)) = rows.map (fun r => fields (cells N r)) := by
    apply List.ext_getElem?
    intro i
    rw [List.getElem?_map, List.getElem?_map]
    by_cases hi : i < rows.length
    · have e1 : rows[i]? = some rows[i] := List.getElem?_eq_getElem hi
      have e2 : rows'[i]? = some rows'[i] := List.getElem?_eq_getElem (by omega)
      rw [e1, e2, Option.map_some, Option.map_some]
      congr 2
      have hlr : rows[i].length = m := hl _ (List.getElem_mem hi)
      have hlr' : rows'[i].length = m := h5 _ (List.getElem_mem (by omega))
      have key := h6 i
      rw [e1, e2] at key
      generalize rows[i] = row at *
      generalize rows'[i] = row' at *
      match row, row', hlr, hlr' with
      | t :: r, t' :: r', hlr, hlr' =>
        have k0 := key 0 _ _ t rfl rfl rfl
        simp only [List.getElem?_cons_zero, if_true] at k0
        have hf : N.f4 t' = N.f4 t := (hN t t').1 k0.symm
        have hr : r'.map N.e3 = r.map N.e3 := by
          apply List.ext_getElem?
          intro j
          rw [List.getElem?_map, List.getElem?_map]
          simp only [List.length_cons] at hlr hlr'
          by_cases hj : j < r.length
          · have f1 : r[j]? = some r[j] := List.getElem?_eq_getElem hj
            have f2 : r'[j]? = some r'[j] := List.getElem?_eq_getElem (by omega)
            have kj := key (j + 1) _ _ r[j] rfl rfl (by simp)
            simp only [List.getElem?_cons_succ, f2, Nat.succ_ne_zero, if_false] at kj
            rw [f1, f2, Option.map_some, Option.map_some, (hN r[j] r'[j]).2 kj.symm]
          · have f1 : r[j]? = none := List.getElem?_eq_none (by omega)
            have f2 : r'[j]? = none := List.getElem?_eq_none (by omega)
            rw [f1, f2]
        show N.f4 t' :: r'.map N.e3 = N.f4 t :: r.map N.e3
        rw [hf, hr]
      | [], _, hlr, _ => simp at hlr; omega
      | _ :: _, [], _, hlr' => simp at hlr'; omega
    · have e1 : rows[i]? = none := List.getElem?_eq_none (by omega)
      have e2 : rows'[i]? = none := List.getElem?_eq_none (by omega)
      rw [e1, e2]
  rw [← h1]
  unfold write
  rw [hu, hd]
  simp only [rowTexts_ok N rows hrne, rowTexts_ok N rows' hrne', hcells]

/-- **C70 is violated by every object with one row**: it is re-read as a vector, which cannot be
written again. -/
theorem C70_fails (N : Num F) (o : Obj F) (us : List Str) (row : List F)
    (hu : o.units = some us) (hd : o.data = .mat [row]) (hn : NamesOk o.names) (huo : UnitsOk us) (hc : CellsOk N [row])
    (hm : 2 ≤ row.length) :
    ∃ text o', write N o = .ok text ∧ read N text = .ok o' ∧ (∃ v, o'.data = .vec v) ∧ write N o' = .error .index ∧
      (o.names.length = us.length → 2 ≤ us.length → toDataFrame o' = .error .value) := by
  have hrne : ∀ r ∈ [row], r ≠ [] := fun r hr e => by simp at hr; subst hr; subst e; simp at hm
  have hw : ∀ w ∈ cells N row, IsWord w ∧ 'T' ∉ w := fun w hw => ⟨(hc row (by simp) w hw).1, (hc row (by simp) w hw).2.1⟩
  have hcne : cells N row ≠ [] := fun e => by
    have := cells_length N row
    rw [e] at this
    simp at this
    omega
  have hfne : fields (cells N row) ≠ [] := fun e => by
    have := words_fields (cells N row) (fun w h => (hw w h).1)
    rw [e] at this
    exact hcne this.symm
  obtain ⟨v, hv⟩ := parse_cells N (cells N row) (fun w hw => (hc row (by simp) w hw).2.2)
  have hvl : v.length = row.length := by rw [(mapM_get _ _ _ hv).1, cells_length]
  refine ⟨_, ⟨[], o.names, some us, .vec v⟩, by unfold write; rw [hu, hd, rowTexts_ok N _ hrne], ?_, ⟨v, rfl⟩, ?_, ?_⟩
  · unfold read
    have hup : ∀ u ∈ us.map (fun x => '(' :: (x ++ [')'])), IsWord u := by
      intro u hu
      obtain ⟨x, hx, rfl⟩ := List.mem_map.1 hu
      refine ⟨by simp, fun c hc => ?_⟩
      simp only [List.mem_cons, List.mem_append, List.not_mem_nil, or_false] at hc
      rcases hc with rfl | hc | rfl
      · decide
      · exact (huo x hx c hc).1
      · decide
    rw [readlines_text _ _ _ (nl_fields _ hn.word) (nl_fields _ hup)
      (by
        intro r hr
        simp at hr
        subst hr
        exact nl_fields _ (fun w h => (hw w h).1)) (by simp)
      (by
        intro r hr
        simp at hr
        subst hr
        exact hfne)]
    have htime : isTime (fields o.names) = true := by
      rw [isTime_iff, words_fields _ hn.word]
      exact hn.time
    have hnum : numRows N ([row].map fun r => fields (cells N r)) = .ok [v] := by
      have := numRows_map N [cells N row] [v] rfl (by intro r hr; simp at hr; subst hr; exact hcne)
        (by intro r hr; simp at hr; subst hr; exact hw) (by intro p hp; simp at hp; subst hp; exact hv)
      exact this
    have hload : loadtxt N ([row].map fun r => fields (cells N r)) = .ok (.vec v) := by
      unfold loadtxt
      rw [hnum]
      match v, hvl with
      | [], hvl => simp at hvl; omega
      | [x], hvl => simp at hvl; omega
      | x :: y :: v, _ => simp [squeeze]
    have hnd : noData (.vec v : Arr F) = .ok false := by
      unfold noData
      have : v.length ≠ 0 := by omega
      simp [this]
    have hunits : ((us.map fun x => '(' :: (x ++ [')'])).map inner).map clean = us := by
      rw [List.map_map, List.map_map]
      conv => rhs; rw [← List.map_id us]
      exact List.map_congr_left (fun u hu => unit_back u (huo u hu))
    simp only [header, htime, if_true, List.tail_cons, List.headD_cons, hload, hnd]
    rw [words_fields _ hn.word, words_fields _ hup, hunits]
  · match v, hvl with
    | [], hvl => simp at hvl; omega
    | x :: v, _ => rfl
  · intro h1 h2
    unfold toDataFrame columns
    simp only [List.length_zipWith]
    rw [if_neg (by omega)]

/-! Concrete cases, with whole numbers in place of floats. -/

/-- whole numbers -/
abbrev toyNum : Num Int where
  parse := fun s => if FastLine.strIsInt s then some (FastLine.pyInt s) else none
  f4 := FastLine.showInt
  e3 := FastLine.showInt

abbrev toyObj : Obj Int := ⟨[], ["Time".toList, "RotSpeed".toList], some ["s".toList, "rpm".toList], .mat [[0, 12], [1, -13]]⟩

example : write toyNum toyObj = .ok "      Time\t  RotSpeed\n       (s)\t     (rpm)\n         0\t        12\n         1\t       -13".toList := by
  decide +kernel

example : read toyNum "Made by hand\n\nTime Speed\n(s) (rpm)\n0 12\n\n1 -13 This is a comment\n".toList =
    .ok ⟨["Made by hand".toList, []], ["Time".toList, "Speed".toList], some ["s".toList, "rpm".toList], .mat [[0, 12], [1, -13]]⟩ := by
  decide +kernel

theorem toy_names : NamesOk toyObj.names where
  word := by
    intro n hn
    simp only [List.mem_cons, List.not_mem_nil, or_false] at hn
    rcases hn with rfl | rfl <;> exact ⟨by decide, by decide⟩
  time := ⟨_, rfl, by decide⟩

theorem toy_units : UnitsOk ["s".toList, "rpm".toList] := by
  intro u hu
  simp only [List.mem_cons, List.not_mem_nil, or_false] at hu
  rcases hu with rfl | rfl <;> decide

theorem toy_cells (rows : List (List Int)) : CellsOk toyNum rows := by
  intro r _ w hw
  have : ∃ n : Int, w = FastLine.showInt n := by
    cases r with
    | nil => exact nomatch hw
    | cons t r =>
      rcases List.mem_cons.1 hw with rfl | hw
      · exact ⟨t, rfl⟩
      · obtain ⟨n, _, rfl⟩ := List.mem_map.1 hw
        exact ⟨n, rfl⟩
  obtain ⟨n, rfl⟩ := this
  refine ⟨HawcAe.isWord_showInt n, ?_, by simp [FastLine.strIsInt_showInt]⟩
  intro hT
  have hd : ∀ k, 'T' ∉ Nat.toDigits 10 k := by
    intro k hk
    have := Nat.isDigit_of_mem_toDigits (by decide : 0 < 10) (by decide : (10 : Nat) ≤ 10) hk
    exact absurd this (by decide)
  cases n with
  | ofNat k => exact hd k hT
  | negSucc k =>
    rcases List.mem_cons.1 hT with h | h
    · exact absurd h (by decide)
    · exact hd _ h

/-- the hypotheses of C70 are met -/
example : ∃ text rows', write toyNum toyObj = .ok text ∧ read toyNum text = .ok ⟨[], toyObj.names, toyObj.units, .mat rows'⟩ := by
  obtain ⟨t, r, h1, h2, _⟩ := C70_partial toyNum toyObj _ _ 2 rfl rfl toy_names toy_units (toy_cells _) (by decide) (by decide) (by decide)
  exact ⟨t, r, h1, h2⟩

example : ∃ text o', write toyNum toyObj = .ok text ∧ read toyNum text = .ok o' ∧ write toyNum o' = .ok text := by
  refine C70_again_partial toyNum ?_ toyObj _ _ 2 rfl rfl toy_names toy_units (toy_cells _) (by decide) (by decide) (by decide)
  intro x y
  simp only [FastLine.strIsInt_showInt, if_true, FastLine.pyInt_showInt]
  constructor <;> (intro h; injection h with h; rw [h])

/-- a single row -/
example : ∃ text o', write toyNum { toyObj with data := .mat [[0, 12]] } = .ok text ∧ read toyNum text = .ok o' ∧
    write toyNum o' = .error .index := by
  obtain ⟨t, o', h1, h2, _, h3, _⟩ := C70_fails toyNum { toyObj with data := .mat [[0, 12]] } _ _ rfl rfl toy_names toy_units (toy_cells _) (by decide)
  exact ⟨t, o', h1, h2, h3⟩

/-- **C70 is violated by the description**: it is not written. -/
theorem C70_description_fails :
    read toyNum "Made by hand\nTime Speed\n(s) (rpm)\n0 12\n1 -13\n".toList =
      .ok ⟨["Made by hand".toList], ["Time".toList, "Speed".toList], some ["s".toList, "rpm".toList], .mat [[0, 12], [1, -13]]⟩ ∧
    write toyNum ⟨["Made by hand".toList], ["Time".toList, "Speed".toList], some ["s".toList, "rpm".toList], .mat [[0, 12], [1, -13]]⟩ =
      .ok "      Time\t     Speed\n       (s)\t     (rpm)\n         0\t        12\n         1\t       -13".toList := by
  decide +kernel

/-- **C70 is violated by units with a blank or brackets and by names with a blank**: units
`1/(s)` and `deg C` and the name `Wind 1` come back changed. -/
theorem C70_names_fails :
    (write toyNum ⟨[], ["Time".toList, "Wind 1".toList], some ["1/(s)".toList, "deg C".toList], .mat [[0, 12], [1, -13]]⟩ >>= read toyNum) =
      .ok ⟨[], ["Time".toList, "Wind".toList, "1".toList], some ["1/s".toList, "de".toList, "".toList], .mat [[0, 12], [1, -13]]⟩ := by
  decide +kernel

/-- **C70 is violated when the time is not the first name**: the file that is written cannot be
read. -/
theorem C70_time_fails :
    (write toyNum ⟨[], ["Azimuth".toList, "Time".toList], some ["deg".toList, "s".toList], .mat [[0, 12], [1, -13]]⟩ >>= read toyNum) =
      .error .wrongFormat := by
  decide +kernel

/-! ## C71 -/

/-- a matrix that was read is rectangular -/
theorem read_mat (N : Num F) (text : Str) (o : Obj F) (h : read N text = .ok o) (rows : List (List F)) (hd : o.data = .mat rows) :
    ∃ us m, o.units = some us ∧ ∀ r ∈ rows, r.length = m := by
  unfold read at h
  split at h
  · exact nomatch h
  · split at h
    · exact nomatch h
    · rename_i data hload
      split at h
      · exact nomatch h
      · exact nomatch h
      · injection h with h
        subst h
        simp only at hd
        subst hd
        unfold loadtxt at hload
        split at hload
        · exact nomatch hload
        · rename_i rs _
          split at hload
          · rename_i hall
            injection hload with hload
            have : rs = rows := by
              match rs with
              | [] => simp [squeeze] at hload
              | [[]] => simp [squeeze] at hload
              | [[x]] => simp [squeeze] at hload
              | [x :: y :: r] => simp [squeeze] at hload
              | r :: r' :: rs =>
                simp only [squeeze] at hload
                split at hload
                · exact nomatch hload
                · injection hload
            subst this
            refine ⟨_, (rs.headD []).length, rfl, fun r hr => ?_⟩
            have := List.all_eq_true.1 hall r hr
            simpa using this
          · exact nomatch hload

/-- **C71** for files with at least two rows of data, as many units as names, and a row with as
many numbers as names: what was read can be exported, one column per name, with the rows that
were read. -/
theorem C71_partial (N : Num F) (text : Str) (o : Obj F) (h : read N text = .ok o) (rows : List (List F)) (hd : o.data = .mat rows)
    (hlen : ∀ us, o.units = some us → us.length = o.names.length) (row : List F) (hrow : row ∈ rows) (hl : row.length = o.names.length) :
    ∃ us cols, o.units = some us ∧ toDataFrame o = .ok ⟨cols, rows⟩ ∧ cols.length = o.names.length ∧
      ∀ (i : Nat) n u, o.names[i]? = some n → us[i]? = some u → cols[i]? = some (n ++ "_[".toList ++ secToS u ++ [']']) := by
  obtain ⟨us, m, hu, hm⟩ := read_mat N text o h rows hd
  have hlen := hlen us hu
  have hc : (columns o).length = o.names.length := by
    unfold columns
    rw [hu]
    simp [hlen]
  refine ⟨us, columns o, hu, ?_, hc, ?_⟩
  · unfold toDataFrame
    rw [hd]
    simp only [hc]
    rw [if_pos]
    rw [List.all_eq_true]
    intro r hr
    simp [hm r hr, ← hl, hm row hrow]
  · intro i n u hn hu'
    unfold columns
    rw [hu]
    simp only [List.getElem?_zipWith, hn, hu']

/-- a concrete case -/
example : ∃ us cols, toyObj.units = some us ∧ toDataFrame toyObj = .ok ⟨cols, [[0, 12], [1, -13]]⟩ ∧ cols.length = 2 := by
  obtain ⟨us, cols, h1, h2, h3, _⟩ := C71_partial toyNum "Time RotSpeed\n(s) (rpm)\n0 12\n1 -13".toList toyObj (by decide +kernel) _ rfl
    (by intro us h; injection h with h; subst h; rfl) [0, 12] (by simp) rfl
  exact ⟨us, cols, h1, h2, h3⟩

/-- units: each `sec`, found from left to right, becomes `s`; anything else is kept -/
theorem C71_sec :
    (∀ u : Str, ¬ "sec".toList <:+: u → secToS u = u) ∧
    (∀ a b : Str, ¬ "sec".toList <:+: a ++ "se".toList → secToS (a ++ "sec".toList ++ b) = a ++ 's' :: secToS b) := by
  have hne : ∀ (c : Char) (r : Str), ¬ "sec".toList <+: c :: r → secToS (c :: r) = c :: secToS r := by
    intro c r h
    refine secToS.eq_2 c r ?_
    intro r' h1 h2
    apply h
    rw [h1, h2]
    exact ⟨r', rfl⟩
  constructor
  · intro u
    induction u with
    | nil => intro _; rfl
    | cons c r ih =>
      intro h
      rw [hne c r (fun hp => h hp.isInfix), ih (fun hp => h (hp.trans (List.suffix_cons c r).isInfix))]
  · intro a b
    induction a with
    | nil => intro _; rfl
    | cons c a ih =>
      intro h
      have hnp : ¬ "sec".toList <+: c :: (a ++ "sec".toList ++ b) := by
        rintro ⟨t, ht⟩
        apply h
        cases a with
        | nil =>
          simp only [List.nil_append] at ht
          injection ht with h1 h2
          injection h2 with h3 h4
          exact absurd h3 (by decide)
        | cons d a =>
          cases a with
          | nil =>
            injection ht with h1 h2
            injection h2 with h3 h4
            injection h4 with h5 h6
            exact absurd h5 (by decide)
          | cons e a =>
            injection ht with h1 h2
            injection h2 with h3 h4
            injection h4 with h5 h6
            subst h1; subst h3; subst h5
            exact ⟨[], a ++ "se".toList, rfl⟩
      have := hne c (a ++ "sec".toList ++ b) hnp
      rw [List.cons_append, List.cons_append, List.cons_append, this,
        ih (fun hp => h (hp.trans (List.suffix_cons c _).isInfix))]

example : secToS "sec".toList = "s".toList ∧ secToS "m/sec^2".toList = "m/s^2".toList := by decide

/-- an object whose data is a vector (one column of several rows, or one row of several columns) gives a
data frame exactly when there is one name: then the vector is the column -/
theorem C71_vector (o : Obj F) (v : List F) (hd : o.data = .vec v)
    (hlen : ∀ us, o.units = some us → us.length = o.names.length) :
    (o.names.length = 1 → ∃ cols, toDataFrame o = .ok ⟨cols, v.map fun x => [x]⟩ ∧ cols.length = 1) ∧
    (o.names.length ≠ 1 → toDataFrame o = .error .value) := by
  have hc : (columns o).length = o.names.length := by
    unfold columns
    cases hu : o.units with
    | none => rfl
    | some us => simp [hlen us hu]
  constructor
  · intro h1
    exact ⟨columns o, by simp only [toDataFrame, hd, hc, h1, if_true], by rw [hc, h1]⟩
  · intro h1
    simp only [toDataFrame, hd, hc, if_neg h1]

/-- a file of one column -/
example : read toyNum "Time\n(sec)\n0\n1\n2".toList = .ok ⟨[], ["Time".toList], some ["sec".toList], .vec [0, 1, 2]⟩ ∧
    toDataFrame (⟨[], ["Time".toList], some ["sec".toList], .vec [0, 1, 2]⟩ : Obj Int) =
      .ok ⟨["Time_[s]".toList], [[0], [1], [2]]⟩ := by decide +kernel

/-- **C71 is violated**: a file with one row of data, and a file with a missing unit, are read but
cannot be exported. -/
theorem C71_fails :
    (read toyNum "Time Speed\n(s) (rpm)\n0 12\n".toList = .ok ⟨[], ["Time".toList, "Speed".toList], some ["s".toList, "rpm".toList], .vec [0, 12]⟩ ∧
      toDataFrame (⟨[], ["Time".toList, "Speed".toList], some ["s".toList, "rpm".toList], .vec [0, 12]⟩ : Obj Int) = .error .value) ∧
    (read toyNum "Time Speed\n(s)\n0 12\n1 13".toList = .ok ⟨[], ["Time".toList, "Speed".toList], some ["s".toList], .mat [[0, 12], [1, 13]]⟩ ∧
      toDataFrame (⟨[], ["Time".toList, "Speed".toList], some ["s".toList], .mat [[0, 12], [1, 13]]⟩ : Obj Int) = .error .value) := by
  decide +kernel

/-- the export of the toy object -/
example : toDataFrame toyObj = .ok ⟨["Time_[s]".toList, "RotSpeed_[rpm]".toList], [[0, 12], [1, -13]]⟩ := by decide +kernel

end Verif.AsciiOut
