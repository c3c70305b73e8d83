import Verif.Lemmas.FastFile
import Verif.Props.FastLine
/-!
# C12, C13, C53: files made of key/value lines and comments

Model: `Verif/Model/FastLine.lean` (`readText`, `fileText`).
-/
namespace Verif.FastLine
open Verif.Py Verif.FastDict

/-! ### specification -/

/-- a comment line: after leading blanks, it starts with `#`, `!`, `--` or `==`. -/
def IsCommentLine (l : Str) : Prop :=
  let r := l.dropWhile isWs
  r.head? = some '#' ∨ r.head? = some '!' ∨ "--".toList <+: r ∨ "==".toList <+: r

/-- a blank line. -/
def IsBlank (l : Str) : Prop := ∀ c ∈ l, isWs c = true

/-- the entry kept for a comment line. -/
def commentEntry (P : PyFloat) (l : Str) : Entry (EVal P.F) := ⟨[], .scalar (.str l), true, [], 0⟩

/-- an entry that can be saved: a comment or blank line, a scalar or a list,
with a label made of letters, digits, quotes, parentheses, `_` and `-`, that does
not start a table; the description, once stripped of blanks and dashes, has
single blanks and no dash at its ends. -/
def EntryOK (P : PyFloat) (d : Entry (EVal P.F)) : Prop :=
  (∃ l, d = commentEntry P l ∧ (IsCommentLine l ∨ IsBlank l)) ∨
  (d.isComment = false ∧ d.tabType = 0 ∧ LabelOK P d.label ∧ hasSpecialChars d.label = false ∧
    ((∃ v, d.value = .scalar v ∧ ScalarOK P d.label v ∧
        descrText d.descr = joinWith [' '] (words (descrText d.descr)) ∧
        (descrText d.descr).head? ≠ some '-' ∧ (descrText d.descr).getLast? ≠ some '-') ∨
     (∃ vs, d.value = .list vs ∧ ListOK P vs ∧ d.descr = joinWith [' '] (words d.descr))))

/-- what is read back for an entry: only the description of a scalar may change. -/
def reread (P : PyFloat) (d : Entry (EVal P.F)) : Entry (EVal P.F) :=
  if d.isComment then d
  else match d.value with
    | .scalar _ => { d with descr := if descrText d.descr = [] then ['-'] else '-' :: ' ' :: descrText d.descr }
    | .list _ => d

/-! ### comment lines -/

theorem wordsAux_acc (acc s : Str) (h : acc ≠ []) : ∃ w ws, wordsAux acc s = (acc ++ w) :: ws := by
  induction s generalizing acc with
  | nil => exact ⟨[], [], by simp [wordsAux, h]⟩
  | cons x s ih =>
    simp only [wordsAux]
    split
    · exact ⟨[], wordsAux [] s, by simp⟩
    · obtain ⟨w, ws, hw⟩ := ih (acc ++ [x]) (by simp)
      exact ⟨x :: w, ws, by rw [hw]; simp⟩

theorem wordsAux_prefix (acc p s : Str) (h : ∀ c ∈ p, isWs c = false) :
    wordsAux acc (p ++ s) = wordsAux (acc ++ p) s := by
  induction p generalizing acc with
  | nil => simp
  | cons x p ih =>
    have hx := h x (by simp)
    simp only [List.cons_append, wordsAux, hx]
    rw [if_neg (by simp), ih _ (fun c hc => h c (by simp [hc]))]
    simp

theorem clean_prefix (l p s : Str) (h : ∀ c ∈ p, isWs c = false) (hne : p ≠ [])
    (hl : l.dropWhile isWs = p ++ s) : startsWith (cleanLine l) p = true := by
  rw [cleanLine_eq, ← words_dropWhile, hl, words, wordsAux_prefix _ _ _ h]
  obtain ⟨w, ws, hw⟩ := wordsAux_acc ([] ++ p) s (by simpa using hne)
  rw [hw]
  unfold startsWith
  rw [List.isPrefixOf_iff_prefix]
  cases ws with
  | nil => exact ⟨w, by simp [joinWith]⟩
  | cons a b => exact ⟨w ++ [' '] ++ joinWith [' '] (a :: b), by simp [joinWith]⟩

theorem isCommentText_of_comment (l : Str) (h : IsCommentLine l) : isCommentText (cleanLine l) = true := by
  unfold isCommentText
  simp only [Bool.or_eq_true]
  have key : ∀ c, (l.dropWhile isWs).head? = some c → ∃ s, l.dropWhile isWs = [c] ++ s := by
    intro c hc
    cases hr : l.dropWhile isWs with
    | nil => rw [hr] at hc; simp at hc
    | cons x s => rw [hr] at hc; simp at hc; subst hc; exact ⟨s, rfl⟩
  rcases h with h | h | ⟨s, h⟩ | ⟨s, h⟩
  · obtain ⟨s, hs⟩ := key _ h
    exact Or.inl (Or.inl (Or.inl (Or.inl (clean_prefix l _ s (by decide) (by simp) hs))))
  · obtain ⟨s, hs⟩ := key _ h
    exact Or.inl (Or.inl (Or.inl (Or.inr (clean_prefix l _ s (by decide) (by simp) hs))))
  · exact Or.inl (Or.inl (Or.inr (clean_prefix l "--".toList s (by decide) (by decide) h.symm)))
  · exact Or.inl (Or.inr (clean_prefix l "==".toList s (by decide) (by decide) h.symm))

theorem isCommentText_of_blank (l : Str) (h : IsBlank l) : isCommentText (cleanLine l) = true := by
  have : words l = [] := by
    have := words_append_allWs [] l h
    simpa [words_nil] using this
  rw [cleanLine_eq, this]; rfl

/-- **C13 (line).** A comment line is kept verbatim as a comment, and written
back unchanged. -/
theorem C13_line (P : PyFloat) (allow : Bool) (l : Str) (h : IsCommentLine l ∨ IsBlank l) :
    parseLine P allow l = .ok (commentEntry P l) ∧ entryText P (commentEntry P l) = l := by
  have hc : isCommentText (cleanLine l) = true := by
    rcases h with h | h
    · exact isCommentText_of_comment l h
    · exact isCommentText_of_blank l h
  refine ⟨?_, rfl⟩
  unfold parseLine
  simp only [hc, if_true]
  rfl

/-! ### C13 at file level -/

theorem step_data (P : PyFloat) (n : Nat) (s s' : RState P.F) (line : Str) (h : step P n s line = .ok s') :
    ∃ d, parseLine P s.allow line = .ok d ∧ s'.data = s.data ++ [d] := by
  unfold step at h
  split at h
  · exact nomatch h
  · split at h
    · exact nomatch h
    · next d hd =>
      refine ⟨d, hd, ?_⟩
      by_cases ht : isTable P d = true
      · rw [if_pos ht] at h; exact nomatch h
      · rw [if_neg ht] at h
        extract_lets allow i nC special nW at h
        by_cases h1 : (special && decide (3 < i)) = true
        · rw [if_pos h1] at h; exact nomatch h
        · rw [if_neg h1] at h
          by_cases h2 : 100 * nC > 35 * n
          · rw [if_pos h2] at h; exact nomatch h
          · rw [if_neg h2] at h
            by_cases h3 : 10 * nW > n
            · rw [if_pos h3] at h; exact nomatch h
            · rw [if_neg h3] at h
              injection h with h; rw [← h]

theorem fold_data (P : PyFloat) (n : Nat) (lines : List Str) (s s' : RState P.F)
    (h : lines.foldlM (step P n) s = .ok s') :
    ∃ ds : List (Entry (EVal P.F)), s'.data = s.data ++ ds ∧ ds.length = lines.length ∧
      ∀ (i : Nat) (l : Str), lines[i]? = some l → ∃ d allow, ds[i]? = some d ∧ parseLine P allow l = .ok d := by
  induction lines generalizing s with
  | nil =>
    simp [pure, Except.pure] at h
    subst h
    exact ⟨[], by simp, rfl, by simp⟩
  | cons l lines ih =>
    simp only [List.foldlM_cons, bind, Except.bind] at h
    split at h
    · simp at h
    · next s1 hs1 =>
      obtain ⟨d, hd, hdata⟩ := step_data P n s s1 l hs1
      obtain ⟨ds, h1, h2, h3⟩ := ih s1 h
      refine ⟨d :: ds, by rw [h1, hdata]; simp, by simp [h2], ?_⟩
      intro i l' hi
      cases i with
      | zero => simp at hi; subst hi; exact ⟨d, s.allow, rfl, hd⟩
      | succ i => simpa using h3 i l' (by simpa using hi)

theorem readLines_data (P : PyFloat) (lines : List Str) (data : List (Entry (EVal P.F)))
    (h : readLines P lines = .ok data) :
    data.length = lines.length ∧
      ∀ (i : Nat) (l : Str), lines[i]? = some l → ∃ d allow, data[i]? = some d ∧ parseLine P allow l = .ok d := by
  unfold readLines at h
  split at h
  · simp at h
  · simp at h
  · split at h
    · simp at h
    · split at h
      · next s hs =>
        injection h with h
        subst h
        obtain ⟨ds, h1, h2, h3⟩ := fold_data P _ lines {} s hs
        simp at h1
        rw [h1]
        exact ⟨h2, h3⟩
      · simp at h

/-! newlines never appear inside a written entry -/

theorem showVal_num_noNL (P : PyFloat) (hP : P.Lawful) (v : Val P.F) (h : IsNum v) : '\n' ∉ showVal P v := by
  intro hc
  have := (numText_show P hP v h).word.2 _ hc
  revert this; decide

theorem listItem_isNum (P : PyFloat) (t : Str) : IsNum (listItem P t) := by
  unfold listItem
  split
  · trivial
  · split <;> trivial

theorem takeList_isNum (P : PyFloat) (ss : List Str) (vs : List (Val P.F)) (ts : List Str)
    (h : takeList P ss = .ok (vs, ts)) : ∀ v ∈ vs, IsNum v := by
  induction ss generalizing vs ts with
  | nil => simp [takeList] at h
  | cons s ss ih =>
    rw [takeList] at h
    split at h
    · split at h
      · next vs' ts' he =>
        injection h with h
        injection h with h1 h2
        subst h1
        intro v hv
        rcases List.mem_cons.1 hv with rfl | hv
        · exact listItem_isNum P s
        · exact ih vs' ts' he v hv
      · simp at h
    · injection h with h
      injection h with h1 h2
      subst h1
      simp

theorem mergeTail_noNL (m : Str) (ws : List Str) (m' : Str) (r : List Str) (hm : '\n' ∉ m)
    (h : ∀ w ∈ ws, '\n' ∉ w) (he : mergeTail m ws = .ok (m', r)) : '\n' ∉ m' ∧ ∀ w ∈ r, '\n' ∉ w := by
  induction ws generalizing m with
  | nil =>
    rw [mergeTail] at he
    split at he
    · injection he with he; injection he with h1 h2; subst h1; subst h2; exact ⟨hm, by simp⟩
    · simp at he
  | cons w ws ih =>
    rw [mergeTail] at he
    split at he
    · injection he with he; injection he with h1 h2; subst h1; subst h2; exact ⟨hm, h⟩
    · refine ih (m ++ ' ' :: w) ?_ (fun w hw => h w (by simp [hw])) he
      simp [hm, h w (by simp)]

theorem mergeValue_noNL (ws : List Str) (m' : Str) (r : List Str)
    (h : ∀ w ∈ ws, '\n' ∉ w) (he : mergeValue ws = .ok (m', r)) : '\n' ∉ m' ∧ ∀ w ∈ r, '\n' ∉ w := by
  cases ws with
  | nil => simp [mergeValue] at he
  | cons w ws =>
    rw [mergeValue] at he
    split at he
    · exact mergeTail_noNL w ws m' r (h w (by simp)) (fun w hw => h w (by simp [hw])) he
    · injection he with he; injection he with h1 h2; subst h1; subst h2
      exact ⟨h w (by simp), fun w hw => h w (by simp [hw])⟩

theorem findLabel_mem (P : PyFloat) (ws : List Str) (lab : Str) (r : List Str)
    (h : findLabel P ws = some (lab, r)) : lab ∈ ws ∧ ∀ w ∈ r, w ∈ ws := by
  fun_induction findLabel P ws with
  | case1 => simp at h
  | case2 => simp at h
  | case3 => simp at h
  | case4 w => simp at h; simp [h.1, h.2]
  | case5 w x rr hb ih =>
    obtain ⟨h1, h2⟩ := ih h
    exact ⟨by simp [h1], fun w hw => by simp [h2 w hw]⟩
  | case6 w x rr hb hf ih =>
    obtain ⟨h1, h2⟩ := ih h
    refine ⟨List.mem_cons_of_mem _ h1, fun w hw => List.mem_cons_of_mem _ (h2 w hw)⟩
  | case7 w x rr hb hf =>
    simp at h
    obtain ⟨rfl, rfl⟩ := h
    exact ⟨by simp, fun w hw => List.mem_cons_of_mem _ hw⟩

theorem mem_splitOn (c : Char) (s w : Str) (h : w ∈ splitOn c s) : ∀ x ∈ w, x ∈ s := by
  induction s generalizing w with
  | nil => simp [splitOn] at h; subst h; simp
  | cons y s ih =>
    simp only [splitOn] at h
    split at h
    · rcases List.mem_cons.1 h with rfl | h
      · simp
      · intro x hx; exact List.mem_cons_of_mem _ (ih w h x hx)
    · split at h
      · simp at h; subst h; intro x hx; simp at hx; simp [hx]
      · next p ps hp =>
        rcases List.mem_cons.1 h with rfl | h
        · intro x hx
          rcases List.mem_cons.1 hx with rfl | hx
          · simp
          · exact List.mem_cons_of_mem _ (ih p (by rw [hp]; simp) x hx)
        · intro x hx; exact List.mem_cons_of_mem _ (ih w (by rw [hp]; simp [h]) x hx)

theorem mem_stripBy (p : Char → Bool) (s : Str) (c : Char) (h : c ∈ stripBy p s) : c ∈ s := by
  unfold stripBy at h
  obtain ⟨t, h1, _⟩ := rstripBy_append p (lstripBy p s)
  have : c ∈ lstripBy p s := by rw [h1]; simp [h]
  unfold lstripBy at this
  exact (List.dropWhile_sublist p).subset this

theorem cleanLine_noNL (l : Str) : '\n' ∉ cleanLine l := by
  rw [cleanLine_eq]
  intro h
  rcases mem_joinWith _ _ _ h with h | ⟨w, hw, hc⟩
  · revert h; decide
  · have := (words_isWord l w hw).2 _ hc
    revert this; decide

theorem words_noNL (l : Str) : ∀ w ∈ words l, '\n' ∉ w := by
  intro w hw hc
  have := (words_isWord l w hw).2 _ hc
  revert this; decide

theorem showScalar_noNL (P : PyFloat) (hP : P.Lawful) (v : Val P.F) (h : ∀ s, v = .str s → '\n' ∉ s) :
    '\n' ∉ showVal P v := by
  cases v with
  | int n => exact showVal_num_noNL P hP _ trivial
  | flt x => exact showVal_num_noNL P hP _ trivial
  | bool b => exact showVal_num_noNL P hP _ trivial
  | str s => exact h s rfl

theorem joinWith_noNL (sep : Str) (ws : List Str) (h1 : '\n' ∉ sep) (h2 : ∀ w ∈ ws, '\n' ∉ w) :
    '\n' ∉ joinWith sep ws := by
  intro h
  rcases mem_joinWith _ _ _ h with h | ⟨w, hw, hc⟩
  · exact h1 h
  · exact h2 w hw hc

theorem pad13_noNL (s : Str) (h : '\n' ∉ s) : '\n' ∉ pad13 s := by
  unfold pad13
  simp only [List.mem_append, not_or]
  refine ⟨h, fun hc => ?_⟩
  have := List.eq_of_mem_replicate hc
  revert this; decide

theorem rstrip_newline (s : Str) : rstripBy isWs (s ++ ['\n']) = rstripBy isWs s := by
  unfold rstripBy
  rw [List.reverse_append]
  show (List.dropWhile isWs ('\n' :: s.reverse)).reverse = _
  rw [List.dropWhile_cons_of_pos (by decide)]

theorem entryText_noNL (P : PyFloat) (hP : P.Lawful) (allow : Bool) (l : Str) (d : Entry (EVal P.F))
    (hl : '\n' ∉ l) (h : parseLine P allow l = .ok d) : '\n' ∉ entryText P d := by
  unfold parseLine at h
  simp only at h
  split at h
  · injection h with h; subst h; exact hl
  · split at h
    · simp at h
    · next vs ts hlp =>
      split at h
      · simp at h
      · next v splits hvs =>
        have hnum : ∀ v ∈ vs, IsNum v := by
          unfold listPart at hlp
          split at hlp
          · split at hlp
            · exact takeList_isNum P _ _ _ hlp
            · injection hlp with hlp; injection hlp with h1 h2; subst h1; simp
          · injection hlp with hlp; injection hlp with h1 h2; subst h1; simp
        have hval : (∀ w ∈ splits, '\n' ∉ w) ∧ ((v = .list vs) ∨ ∃ x, v = .scalar x ∧ '\n' ∉ showVal P x) := by
          unfold valueAndSplits at hvs
          split at hvs
          · injection hvs with hvs; injection hvs with h1 h2; subst h1; subst h2
            exact ⟨words_noNL _, Or.inl rfl⟩
          · split at hvs
            · next m r hm =>
              injection hvs with hvs; injection hvs with h1 h2; subst h1; subst h2
              obtain ⟨hm1, hm2⟩ := mergeValue_noNL _ m r
                (fun w hw hc => cleanLine_noNL l (mem_splitOn _ _ _ hw _ hc)) hm
              refine ⟨hm2, Or.inr ⟨_, rfl, showScalar_noNL P hP _ ?_⟩⟩
              intro s hs
              unfold scalarOf at hs
              split at hs
              · split at hs
                · simp at hs
                · next r0 rr =>
                  split at hs
                  · injection hs with hs; subst hs
                    have := hm2 r0 (by simp)
                    simp [hm1, this]
                  · simp at hs
              · split at hs
                · simp at hs
                · split at hs
                  · simp at hs
                  · injection hs with hs; subst hs; exact hm1
            · simp at hvs
        split at h
        · next lab r hfl =>
          injection h with h; subst h
          obtain ⟨hlab, hr⟩ := findLabel_mem P splits lab r hfl
          have hlab' : '\n' ∉ strip lab := fun hc => hval.1 lab hlab (mem_stripBy _ _ _ hc)
          have hd' : '\n' ∉ joinWith [' '] r :=
            joinWith_noNL _ _ (by decide) (fun w hw => hval.1 w (hr w hw))
          have hls : '\n' ∉ joinWith ", ".toList (vs.map (showVal P)) := by
            refine joinWith_noNL _ _ (by decide) ?_
            intro w hw
            obtain ⟨x, hx, rfl⟩ := List.mem_map.1 hw
            exact showVal_num_noNL P hP x (hnum x hx)
          unfold entryText
          simp only
          split
          · rcases hval.2 with hv | ⟨x, hv, hx⟩
            · subst hv; exact hls
            · subst hv; exact hx
          · rcases hval.2 with hv | ⟨x, hv, hx⟩
            · subst hv
              simp only [List.mem_append, not_or]
              exact ⟨⟨⟨⟨hls, by decide⟩, hlab'⟩, by decide⟩, hd'⟩
            · subst hv
              simp only
              have hdt : '\n' ∉ descrText (joinWith [' '] r) := fun hc =>
                hd' (mem_stripBy _ _ _ (mem_stripBy _ _ _ (mem_stripBy _ _ _ hc)))
              have hbody : '\n' ∉ pad13 (showVal P x) ++ [' '] ++ pad13 (strip lab) ++ " - ".toList ++ descrText (joinWith [' '] r) := by
                simp only [List.mem_append, not_or]
                exact ⟨⟨⟨⟨pad13_noNL _ hx, by decide⟩, pad13_noNL _ hlab'⟩, by decide⟩, hdt⟩
              intro hc
              unfold toStringVLD at hc
              -- the final newline is stripped
              generalize hB : pad13 (showVal P x) ++ [' '] ++ pad13 (strip lab) ++ " - ".toList ++ descrText (joinWith [' '] r) = B at hc hbody
              have hBne : ∃ c ∈ B, isWs c = false := ⟨'-', by rw [← hB]; simp, by decide⟩
              unfold strip stripBy lstripBy at hc
              have e : List.dropWhile isWs (B ++ ['\n']) = List.dropWhile isWs B ++ ['\n'] := by
                clear hc hB hbody
                induction B with
                | nil => simp at hBne
                | cons b B ih =>
                  by_cases hb : isWs b = true
                  · rw [List.cons_append, List.dropWhile_cons_of_pos hb, List.dropWhile_cons_of_pos hb]
                    apply ih
                    obtain ⟨c, hc, hcw⟩ := hBne
                    rcases List.mem_cons.1 hc with rfl | hc
                    · rw [hb] at hcw; simp at hcw
                    · exact ⟨c, hc, hcw⟩
                  · rw [List.cons_append, List.dropWhile_cons_of_neg hb, List.dropWhile_cons_of_neg hb]
                    rfl
              rw [e, rstrip_newline] at hc
              have h3 : '\n' ∈ stripBy isWs B := hc
              exact hbody (mem_stripBy _ _ _ h3)
        · injection h with h; subst h; exact hl

/-- **C13 (file).** In a file read successfully, the entry at the position of a
comment (or blank) line is that line, verbatim, and the text written has the
same line at the same position. -/
theorem C13_file (P : PyFloat) (hP : P.Lawful) (lines : List Str) (data : List (Entry (EVal P.F)))
    (h : readLines P lines = .ok data) (hnl : ∀ l ∈ lines, '\n' ∉ l)
    (i : Nat) (l : Str) (hi : lines[i]? = some l) (hc : IsCommentLine l ∨ IsBlank l) :
    data[i]? = some (commentEntry P l) ∧ (splitOn '\n' (fileText P data))[i]? = some l := by
  obtain ⟨hlen, hall⟩ := readLines_data P lines data h
  obtain ⟨d, allow, hd, hp⟩ := hall i l hi
  have hcl := C13_line P allow l hc
  rw [hcl.1] at hp
  injection hp with hp
  subst hp
  refine ⟨hd, ?_⟩
  unfold fileText
  rw [splitOn_join]
  · rw [List.getElem?_map, hd]; simp [hcl.2]
  · intro e
    simp at e
    rw [e] at hd; simp at hd
  · intro w hw
    obtain ⟨e, he, rfl⟩ := List.mem_map.1 hw
    obtain ⟨j, hj⟩ := List.mem_iff_getElem?.1 he
    have hjl : j < lines.length := by
      rw [← hlen]
      exact (List.getElem?_eq_some_iff.1 hj).1
    obtain ⟨d', allow', hd', hp'⟩ := hall j lines[j] (by simp [hjl])
    rw [hj] at hd'
    injection hd' with hd'
    subst hd'
    exact entryText_noNL P hP allow' _ _ (hnl _ (List.getElem_mem hjl)) hp'

example : IsCommentLine "   !---- NREL \"5MW\", 1, 2 -----".toList := by
  right; left; decide

/-! ### C53 -/

/-- C53 fails: the line `END of input file` is kept as a comment whose value is
only its first word, so that it is written back as `END`. -/
theorem C53_fails :
    ¬ (∀ (l : Str) (d : Entry (EVal toy.F)), parseLine toy false l = .ok d → d.isComment = true →
        entryText toy d = l) := by
  intro h
  have h1 := h "END of input file".toList _ rfl rfl
  revert h1
  decide

/-- **C53.** Any other line read as a comment is written back verbatim. -/
theorem C53_partial (P : PyFloat) (allow : Bool) (l : Str) (d : Entry (EVal P.F))
    (h : parseLine P allow l = .ok d) (hc : d.isComment = true)
    (hend : ¬ (startsWith (lower (cleanLine l)) "end".toList = true ∧ (words l)[1]? = some "of".toList)) :
    d = commentEntry P l ∧ entryText P d = l := by
  suffices hd : d = commentEntry P l by subst hd; exact ⟨rfl, rfl⟩
  unfold parseLine at h
  simp only at h
  split at h
  · injection h with h; exact h.symm
  · split at h
    · simp at h
    · split at h
      · simp at h
      · split at h
        · injection h with h
          exfalso
          apply hend
          rw [← h] at hc
          simp only [isEndOf, Bool.and_eq_true, beq_iff_eq] at hc
          refine ⟨hc.1, ?_⟩
          have := hc.2.2
          rw [cleanLine_eq, words_join _ (words_isWord l)] at this
          exact this
        · injection h with h; exact h.symm

example : ∃ d, parseLine toy false "HtFract".toList = .ok d ∧ d.isComment = true := ⟨_, rfl, rfl⟩

/-! ### C12 -/

theorem entry_reread (P : PyFloat) (hP : P.Lawful) (allow : Bool) (d : Entry (EVal P.F)) (h : EntryOK P d) :
    parseLine P allow (entryText P d) = .ok (reread P d) ∧ entryText P (reread P d) = entryText P d := by
  rcases h with ⟨l, rfl, hl⟩ | ⟨hc, ht, hlab, _, hv⟩
  · have := C13_line P allow l hl
    rw [this.2]
    exact ⟨this.1, this.2⟩
  · obtain ⟨label, value, isComment, descr, tabType⟩ := d
    simp only at hc ht hlab hv
    subst hc; subst ht
    rcases hv with ⟨v, rfl, hv, hd1, hd2, hd3⟩ | ⟨vs, rfl, hv, hd⟩
    · have h1 := C11_scalar_partial P hP allow label descr v hlab hv
      have hdescr : joinWith [' '] ("-".toList :: words (descrText descr))
          = (if descrText descr = [] then ['-'] else '-' :: ' ' :: descrText descr) := by
        by_cases hn : descrText descr = []
        · rw [if_pos hn, hn]; rfl
        · rw [if_neg hn, joinWith_cons_head, ← hd1]
          · rfl
          · intro e; rw [e] at hd1; exact hn hd1
      rw [hdescr] at h1
      refine ⟨h1, ?_⟩
      have hback := descrText_reread (descrText descr)
        (fun c hc => ⟨strip_head _ c hc, fun e => hd2 (by rw [hc, e])⟩)
        (fun c hc => ⟨strip_last _ c hc, fun e => hd3 (by rw [hc, e])⟩)
      show strip (toStringVLD P v label (if descrText descr = [] then ['-'] else '-' :: ' ' :: descrText descr))
        = strip (toStringVLD P v label descr)
      unfold toStringVLD
      rw [hback]
    · have h1 := C11_list_partial P hP allow label descr vs hlab hv
      rw [← hd] at h1
      exact ⟨h1, rfl⟩

theorem reread_label (P : PyFloat) (d : Entry (EVal P.F)) : (reread P d).label = d.label ∧
    (reread P d).value = d.value ∧ (reread P d).isComment = d.isComment := by
  unfold reread
  split
  · exact ⟨rfl, rfl, rfl⟩
  · split
    · exact ⟨rfl, rfl, rfl⟩
    · exact ⟨rfl, rfl, rfl⟩

theorem step_ok (P : PyFloat) (hP : P.Lawful) (n : Nat) (s : RState P.F) (d : Entry (EVal P.F)) (h : EntryOK P d)
    (hsec : isSection (entryText P d) = false) (htab : isTable P d = false)
    (hW : s.nWrongLabels = 0)
    (hC : 100 * (s.nComments + (if d.isComment then 1 else 0)) ≤ 35 * n) :
    ∃ s', step P n s (entryText P d) = .ok s' ∧ s'.data = s.data ++ [reread P d] ∧ s'.nWrongLabels = 0 ∧
      s'.nComments = s.nComments + (if d.isComment then 1 else 0) := by
  obtain ⟨hp, _⟩ := entry_reread P hP s.allow d h
  obtain ⟨hl, hv, hc⟩ := reread_label P d
  have hspec : (!(reread P d).isComment && hasSpecialChars (reread P d).label) = false := by
    rw [hl, hc]
    rcases h with ⟨l, rfl, _⟩ | ⟨_, _, _, hs, _⟩
    · rfl
    · rw [hs]; simp
  have hemp : (!(reread P d).isComment && (reread P d).label.isEmpty) = false := by
    rw [hl, hc]
    rcases h with ⟨l, rfl, _⟩ | ⟨_, _, hlab, _, _⟩
    · rfl
    · have := hlab.word.1
      cases hd : d.label with
      | nil => exact absurd hd this
      | cons a b => simp
  have htab' : isTable P (reread P d) = false := by
    unfold isTable at htab ⊢
    rw [hl, hv]; exact htab
  unfold step
  rw [hsec, hp]
  simp only [htab', hspec, hemp]
  have hnc : (if (reread P d).isComment = true then s.nComments + 1 else s.nComments)
      = s.nComments + (if d.isComment then 1 else 0) := by
    rw [hc]; split <;> simp
  rw [hnc]
  rw [if_neg (by simp), if_neg (by simp), if_neg (by simp), if_neg (by omega),
    if_neg (by simp [hW])]
  exact ⟨_, rfl, rfl, by simp [hW], rfl⟩

theorem fold_ok (P : PyFloat) (hP : P.Lawful) (n : Nat) (data : List (Entry (EVal P.F)))
    (h : ∀ d ∈ data, EntryOK P d)
    (hsec : ∀ d ∈ data, isSection (entryText P d) = false) (htab : ∀ d ∈ data, isTable P d = false)
    (s : RState P.F) (hW : s.nWrongLabels = 0)
    (hC : 100 * (s.nComments + data.countP (·.isComment)) ≤ 35 * n) :
    ∃ s', (data.map (entryText P)).foldlM (step P n) s = .ok s' ∧ s'.data = s.data ++ data.map (reread P) := by
  induction data generalizing s with
  | nil => exact ⟨s, rfl, by simp⟩
  | cons d data ih =>
    rw [List.countP_cons] at hC
    obtain ⟨s1, h1, h2, h3, h4⟩ := step_ok P hP n s d (h d (by simp)) (hsec d (by simp)) (htab d (by simp)) hW
      (by split at hC <;> simp_all <;> omega)
    obtain ⟨s', h5, h6⟩ := ih (fun d hd => h d (by simp [hd])) (fun d hd => hsec d (by simp [hd]))
      (fun d hd => htab d (by simp [hd])) s1 h3 (by rw [h4]; split at hC <;> simp_all <;> omega)
    refine ⟨s', ?_, ?_⟩
    · simp only [List.map_cons, List.foldlM_cons, bind, Except.bind, h1]
      exact h5
    · rw [h6, h2]; simp

/-- **C12.** For a file made of well-formed entries and comments: the text
written is read back (same labels, same values, same comments, in order), and
writing what was read gives the same text.  The hypotheses: the file does not
enter a table or a section or a special file type, at most 35% of its lines are
comments (otherwise the reader refuses it), and its last line is not empty.
Missing from the full statement: descriptions with dashes at their ends or runs
of blanks, and a trailing blank line (`C12_fails`). -/
theorem C12_partial (P : PyFloat) (hP : P.Lawful) (data : List (Entry (EVal P.F)))
    (h : ∀ d ∈ data, EntryOK P d)
    (hline : ∀ d ∈ data, ∀ c ∈ entryText P d, isLineBreak c = false)
    (hlast : (data.map (entryText P)).getLast? ≠ some [])
    (hsec : ∀ d ∈ data, isSection (entryText P d) = false) (htab : ∀ d ∈ data, isTable P d = false)
    (hext : isExtPtfm (data.map (entryText P)) = .ok false) (had : isAD14 (data.map (entryText P)) = false)
    (hC : 100 * data.countP (·.isComment) ≤ 35 * data.length) :
    ∃ data', readText P (fileText P data) = .ok data' ∧
      data'.map Entry.label = data.map Entry.label ∧ data'.map Entry.value = data.map Entry.value ∧
      data'.map Entry.isComment = data.map Entry.isComment ∧
      fileText P data' = fileText P data := by
  refine ⟨data.map (reread P), ?_, ?_, ?_, ?_, ?_⟩
  · unfold readText
    have : splitlines (fileText P data) = data.map (entryText P) := by
      apply splitlines_join _ _ hlast
      intro l hl
      obtain ⟨d, hd, rfl⟩ := List.mem_map.1 hl
      exact hline d hd
    rw [this]
    unfold readLines
    rw [hext]
    simp only [had]
    obtain ⟨s', h1, h2⟩ := fold_ok P hP (data.map (entryText P)).length data h hsec htab {} rfl
      (by simpa using hC)
    rw [if_neg (by simp), h1]
    simp only
    rw [h2]
    rfl
  · rw [List.map_map]; apply List.map_congr_left; intro d _; exact (reread_label P d).1
  · rw [List.map_map]; apply List.map_congr_left; intro d _; exact (reread_label P d).2.1
  · rw [List.map_map]; apply List.map_congr_left; intro d _; exact (reread_label P d).2.2
  · unfold fileText
    rw [List.map_map]
    congr 1
    apply List.map_congr_left
    intro d hd
    exact (entry_reread P hP false d (h d hd)).2

/-- C12 fails in general: with the description `x - -` each save removes a dash;
and a trailing blank line is lost. -/
theorem C12_fails :
    (∃ (data data' : List (Entry (EVal toy.F))), readText toy (fileText toy data) = .ok data' ∧
      fileText toy data' ≠ fileText toy data) ∧
    (∃ (text : Str) (data data' : List (Entry (EVal toy.F))),
      readText toy text = .ok data ∧ readText toy (fileText toy data) = .ok data' ∧
      fileText toy data' ≠ fileText toy data) := by
  constructor
  · refine ⟨[⟨"Lab".toList, .scalar (.int 1), false, "x - -".toList, 0⟩],
      [⟨"Lab".toList, .scalar (.int 1), false, "- x -".toList, 0⟩], ?_, ?_⟩
    · rfl
    · decide
  · refine ⟨"1 A\n1 B\n1 C\n\n".toList,
      [⟨"A".toList, .scalar (.int 1), false, [], 0⟩, ⟨"B".toList, .scalar (.int 1), false, [], 0⟩,
       ⟨"C".toList, .scalar (.int 1), false, [], 0⟩, commentEntry toy []],
      [⟨"A".toList, .scalar (.int 1), false, "-".toList, 0⟩, ⟨"B".toList, .scalar (.int 1), false, "-".toList, 0⟩,
       ⟨"C".toList, .scalar (.int 1), false, "-".toList, 0⟩], ?_, ?_, ?_⟩
    · rfl
    · rfl
    · decide

/-- non-vacuity of `C12_partial`. -/
example : ∃ data : List (Entry (EVal toy.F)),
    (∀ d ∈ data, EntryOK toy d) ∧ data.length = 3 ∧ data.countP (·.isComment) = 1 ∧
    100 * data.countP (·.isComment) ≤ 35 * data.length ∧
    isExtPtfm (data.map (entryText toy)) = .ok false ∧ isAD14 (data.map (entryText toy)) = false ∧
    (data.map (entryText toy)).getLast? ≠ some [] ∧
    (∀ d ∈ data, ∀ c ∈ entryText toy d, isLineBreak c = false) ∧
    (∀ d ∈ data, isSection (entryText toy d) = false) ∧ (∀ d ∈ data, isTable toy d = false) := by
  refine ⟨[commentEntry toy "--- Simulation, control ---".toList,
    ⟨"TMax".toList, .scalar (.int 600), false, "- Total run time (s)".toList, 0⟩,
    ⟨"BldGagNd".toList, .list [.int 3, .int 5], false, "nodes".toList, 0⟩], ?_, rfl, by decide, by decide,
    rfl, by decide, by decide, by decide, by decide, by decide⟩
  intro d hd
  simp at hd
  rcases hd with rfl | rfl | rfl
  · exact Or.inl ⟨_, rfl, Or.inl (by right; right; left; decide)⟩
  · refine Or.inr ⟨rfl, rfl, ⟨⟨by decide, by decide⟩, by decide, by decide, by decide, by decide⟩, by decide,
      Or.inl ⟨.int 600, rfl, trivial, by decide, by decide, by decide⟩⟩
  · refine Or.inr ⟨rfl, rfl, ⟨⟨by decide, by decide⟩, by decide, by decide, by decide, by decide⟩, by decide,
      Or.inr ⟨_, rfl, ⟨by simp, ?_, ?_⟩, by decide⟩⟩
    · intro v hv; simp at hv; rcases hv with rfl | rfl <;> trivial
    · intro v hv; simp at hv; subst hv; decide

/-! ### C14: writing a channel list -/

/-- the text of a channel list entry followed by the `END` line. -/
def outListFile (label descr : Str) (chans : List Str) : Str :=
  filText [] label descr chans ++ ['\n'] ++ "END".toList

/-- **C14 (writing).** A non-empty channel list written after its header line and
before `END` is read back unchanged.  Missing: the empty list
(`C14_empty_fails`). -/
theorem C14_write_partial (label descr : Str) (chans : List Str) (hne : chans ≠ [])
    (h1 : ∀ c ∈ label, isLineBreak c = false) (h2 : ∀ c ∈ descr, isLineBreak c = false)
    (h3 : ∀ l ∈ chans, ∀ c ∈ l, isLineBreak c = false)
    (h4 : ∀ c ∈ chans, ¬ IsEnd c) (h5 : chans.length ≤ 200) :
    ∃ header, splitlines (outListFile label descr chans) = header :: chans ++ ["END".toList] ∧
      parseOutList 0 ((splitlines (outListFile label descr chans)).drop 1) = .ok chans := by
  have e : outListFile label descr chans
      = joinWith ['\n'] ((' ' :: (label ++ ' ' :: descr)) :: chans ++ ["END".toList]) := by
    rw [List.cons_append, joinWith_cons _ _ _ (by simp), joinWith_append _ _ _ hne (by simp)]
    simp [outListFile, filText, joinWith]
  have hs : splitlines (outListFile label descr chans)
      = (' ' :: (label ++ ' ' :: descr)) :: chans ++ ["END".toList] := by
    rw [e]
    apply splitlines_join
    · intro l hl c hc
      simp only [List.cons_append, List.mem_cons, List.mem_append, List.not_mem_nil, or_false] at hl
      rcases hl with rfl | hl | rfl
      · simp only [List.mem_cons, List.mem_append] at hc
        rcases hc with rfl | hc | rfl | hc
        · decide
        · exact h1 c hc
        · decide
        · exact h2 c hc
      · exact h3 l hl c hc
      · revert c; decide
    · rw [List.getLast?_append]; simp
  refine ⟨_, hs, ?_⟩
  rw [hs]
  exact (C14_read_partial chans [] h4).1 _ (by unfold IsEnd; decide) h5

/-- C14 fails for the empty list: it is read back as one empty channel. -/
theorem C14_empty_fails :
    parseOutList 0 ((splitlines (outListFile "OutList".toList [] [])).drop 1) = .ok [[]] := rfl

example : ∀ c ∈ ["\"GenPwr\"".toList, "RotSpeed".toList], ¬ IsEnd c := by
  intro c hc
  simp at hc
  rcases hc with rfl | rfl <;> (unfold IsEnd; decide)

/-! ### C54: unreadable files are refused with a format error -/

/-- C54 fails: a text of ten lines starting with a blank line, or one having a
value with an unclosed quote, raises another exception. -/
theorem C54_fails :
    readLines toy (List.replicate 10 []) = .error .other ∧
    readLines toy ["\"a b".toList] = .error .other := ⟨rfl, rfl⟩

theorem takeList_err (P : PyFloat) (ss : List Str) (e : Err) (h : takeList P ss = .error e) :
    e = .wrongFormat := by
  induction ss with
  | nil => simp [takeList] at h; exact h.symm
  | cons s ss ih =>
    rw [takeList] at h
    split at h
    · split at h
      · simp at h
      · next e' he => injection h with h; subst h; exact ih he
    · simp at h

/-- a line whose value (after blanks) does not start with a double quote. -/
def NoQuote (l : Str) : Prop := (l.dropWhile isWs).head? ≠ some '"'

theorem parseLine_err (P : PyFloat) (allow : Bool) (l : Str) (e : Err) (hq : NoQuote l)
    (h : parseLine P allow l = .error e) : e = .wrongFormat := by
  unfold parseLine at h
  simp only at h
  split at h
  · simp at h
  · next hc =>
    split at h
    · next e' he =>
      injection h with h; subst h
      unfold listPart at he
      split at he
      · split at he
        · exact takeList_err P _ _ he
        · simp at he
      · simp at he
    · split at h
      · next e' he =>
        exfalso
        unfold valueAndSplits at he
        split at he
        · simp at he
        · split at he
          · simp at he
          · next e2 hm =>
            -- the first word does not start with a quote
            have hwne : words l ≠ [] := by
              intro hw
              rw [cleanLine_eq, hw] at hc
              exact hc rfl
            have hs : splitOn ' ' (cleanLine l) = words l := by
              rw [cleanLine_eq]
              exact splitOn_join _ _ hwne (fun w hw => (words_isWord l w hw).space)
            rw [hs] at hm
            cases hw : words l with
            | nil => exact hwne hw
            | cons w r =>
              rw [hw] at hm
              have hq2 : w.head? ≠ some '"' := by
                intro hh
                apply hq
                rw [← words_dropWhile] at hw
                have hd := List.head?_dropWhile_not isWs l
                cases hl : l.dropWhile isWs with
                | nil => rw [hl] at hw; simp [words, wordsAux] at hw
                | cons x t =>
                  rw [hl] at hw hd
                  simp at hd
                  rw [words, wordsAux, if_neg (by simp [hd])] at hw
                  obtain ⟨w', ws', he⟩ := wordsAux_acc ([] ++ [x]) t (by simp)
                  rw [he] at hw
                  injection hw with hw1 _
                  rw [← hw1] at hh
                  simpa using hh
              simp [mergeValue, hq2] at hm
      · split at h
        · simp at h
        · simp at h

theorem step_err (P : PyFloat) (n : Nat) (s : RState P.F) (l : Str) (e : Err) (hq : NoQuote l)
    (h : step P n s l = .error e) : e = .wrongFormat ∨ e = .unmodelled := by
  unfold step at h
  split at h
  · injection h with h; exact Or.inr h.symm
  · split at h
    · next e' he => injection h with h; subst h; exact Or.inl (parseLine_err P _ l _ hq he)
    · next d hd =>
      by_cases ht : isTable P d = true
      · rw [if_pos ht] at h; injection h with h; exact Or.inr h.symm
      · rw [if_neg ht] at h
        extract_lets allow i nC special nW at h
        by_cases h1 : (special && decide (3 < i)) = true
        · rw [if_pos h1] at h; injection h with h; exact Or.inl h.symm
        · rw [if_neg h1] at h
          by_cases h2 : 100 * nC > 35 * n
          · rw [if_pos h2] at h; injection h with h; exact Or.inl h.symm
          · rw [if_neg h2] at h
            by_cases h3 : 10 * nW > n
            · rw [if_pos h3] at h; injection h with h; exact Or.inl h.symm
            · rw [if_neg h3] at h
              exact nomatch h

theorem fold_err (P : PyFloat) (n : Nat) (lines : List Str) (hq : ∀ l ∈ lines, NoQuote l)
    (s : RState P.F) (e : Err) (he : lines.foldlM (step P n) s = .error e) :
    e = .wrongFormat ∨ e = .unmodelled := by
  induction lines generalizing s with
  | nil => simp [pure, Except.pure] at he
  | cons l ls ih =>
    simp only [List.foldlM_cons, bind, Except.bind] at he
    split at he
    · next e2 hs =>
      injection he with he; subst he
      exact step_err P n s l _ (hq l (by simp)) hs
    · next s1 hs => exact ih (fun l hl => hq l (by simp [hl])) s1 he

/-- **C54.** A text whose first two lines are not empty and where no value starts
with a double quote is either read, or refused with a WrongFormatError (so that
format detection goes on), or enters a table, section or special file type (not
modelled). -/
theorem C54_partial (P : PyFloat) (lines : List Str) (e : Err)
    (h0 : lines.getD 0 [] ≠ []) (h1 : lines.getD 1 [] ≠ [])
    (hq : ∀ l ∈ lines, NoQuote l)
    (h : readLines P lines = .error e) : e = .wrongFormat ∨ e = .unmodelled := by
  unfold readLines at h
  split at h
  · next e' he =>
    exfalso
    unfold isExtPtfm at he
    split at he
    · simp at he
    · split at he
      · next hh => rw [List.head?_eq_none_iff] at hh; exact h0 hh
      · split at he
        · simp at he
        · split at he
          · next hh => rw [List.head?_eq_none_iff] at hh; exact h1 hh
          · split at he
            · simp at he
            · split at he
              · simp at he
              · split at he <;> simp at he
  · injection h with h; exact Or.inr h.symm
  · split at h
    · injection h with h; exact Or.inr h.symm
    · split at h
      · simp at h
      · next e' he =>
        injection h with h; subst h
        exact fold_err P _ lines hq {} _ he

example : readLines toy ["time data".toList, "x# 2".toList, "a b".toList, "a b,2;3 c".toList,
    "1 2".toList] = .error .wrongFormat := rfl

/-! ### the lines of a text -/

/-- the ends of lines of Python texts (documentation of `str.splitlines`) -/
def lineEnds : List Char :=
  ['\n', '\r', '\x0b', '\x0c', '\x1c', '\x1d', '\x1e', '\u0085', '\u2028', '\u2029']

theorem isLineBreak_iff (c : Char) : isLineBreak c = true ↔ c ∈ lineEnds := by
  constructor
  · intro h
    have hn : c.toNat ∈ [10, 11, 12, 13, 28, 29, 30, 0x85, 0x2028, 0x2029] := by
      unfold isLineBreak at h
      simp only [Bool.or_eq_true, Bool.and_eq_true, decide_eq_true_eq, beq_iff_eq] at h
      simp only [List.mem_cons, List.not_mem_nil, or_false]
      omega
    have h2 : ∀ n ∈ [10, 11, 12, 13, 28, 29, 30, 0x85, 0x2028, 0x2029], Char.ofNat n ∈ lineEnds := by decide
    have := h2 _ hn
    rwa [Char.ofNat_toNat] at this
  · exact fun h => (by decide : ∀ c ∈ lineEnds, isLineBreak c = true) c h

theorem splitlinesAux_any (acc s rest : Str) (e : Char) (h : ∀ c ∈ s, c ∉ lineEnds) (he : e ∈ lineEnds) :
    splitlinesAux acc false (s ++ e :: rest) = (acc ++ s) :: splitlinesAux [] (e == '\r') rest := by
  induction s generalizing acc with
  | nil =>
    have h1 := (isLineBreak_iff e).2 he
    rw [List.nil_append, splitlinesAux, if_neg (by simp), if_pos h1, List.append_nil]
  | cons x s ih =>
    have hx : ¬ isLineBreak x = true := fun hb => h x (by simp) ((isLineBreak_iff x).1 hb)
    rw [List.cons_append, splitlinesAux, if_neg (by simp), if_neg hx, ih _ (fun c hc => h c (by simp [hc]))]
    simp

theorem splitlinesAux_cr (s : Str) (h : s.head? ≠ some '\n') : splitlinesAux [] true s = splitlinesAux [] false s := by
  cases s with
  | nil => rfl
  | cons c s =>
    have hc : c ≠ '\n' := by rintro rfl; exact h rfl
    simp [splitlinesAux, hc]

/-- **C12 (lines).** The lines of a file end at any of Python's ends of lines, `\r\n` counting
for one; a text without one of them is a single line. -/
theorem C12_lines (l rest : Str) (hl : ∀ c ∈ l, c ∉ lineEnds) :
    (∀ e ∈ lineEnds, (e = '\r' → rest.head? ≠ some '\n') → splitlines (l ++ e :: rest) = l :: splitlines rest) ∧
    splitlines (l ++ '\r' :: '\n' :: rest) = l :: splitlines rest ∧
    (l ≠ [] → splitlines l = [l]) ∧ splitlines [] = [] := by
  refine ⟨?_, ?_, ?_, rfl⟩
  · intro e he hr
    unfold splitlines
    rw [splitlinesAux_any [] l rest e hl he, List.nil_append]
    by_cases hc : e = '\r'
    · subst hc
      rw [show ('\r' == '\r') = true from rfl, splitlinesAux_cr rest (hr rfl)]
    · rw [beq_false_of_ne hc]
  · unfold splitlines
    rw [splitlinesAux_any [] l _ '\r' hl (by decide), List.nil_append]
    rw [show ('\r' == '\r') = true from rfl, splitlinesAux, if_pos ⟨rfl, rfl⟩]
  · intro hne
    have := splitlinesAux_last [] l false (by
      intro c hc
      cases hb : isLineBreak c with
      | false => rfl
      | true => exact absurd ((isLineBreak_iff c).1 hb) (hl c hc)) (by simpa using hne)
    simpa [splitlines] using this

example : splitlines "a b\r\nc\n\nd".toList = ["a b".toList, "c".toList, [], "d".toList] := by decide

end Verif.FastLine
