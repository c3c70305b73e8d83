import Verif.Spec.Hs2
import Verif.Lemmas.TurbSimTS
import Verif.Lemmas.Tecplot
import Verif.Lemmas.Hawc2Sel
import Verif.Lemmas.Bhawc
import Mathlib.Data.List.Forall2
import Mathlib.Data.List.TakeWhile
/-!
# Lemmas on a HAWCStab2 file
-/
namespace Verif.Hs2
open Verif.Py Verif.TurbSimTS

theorem blank_nil : Blank [] := fun c hc => by cases hc

theorem blank_space : Blank [' '] := fun c hc => by rw [List.mem_singleton.1 hc]; rfl

theorem not_ws_bracket : isWs ']' = false := by decide

theorem strip_keep (a : Str) (c : Char) (B : Str) (d : Char) (t : Str) (ha : Blank a) (hc : isWs c = false) (hd : isWs d = false) :
    ∃ t', t' <+: t ∧ strip (a ++ (c :: B ++ d :: t)) = c :: B ++ d :: t' := by
  rw [Hawc2Sel.strip_ws_append a _ ha]
  obtain ⟨u, h1, h2⟩ := rstripBy_append isWs t
  refine ⟨rstripBy isWs t, ⟨u, h1.symm⟩, ?_⟩
  have e : c :: B ++ d :: t = (c :: B ++ d :: rstripBy isWs t) ++ u := by
    conv_lhs => rw [h1]
    simp
  rw [e, Hawc2Sel.strip_append_ws _ _ h2]
  refine stripBy_eq_self _ _ ?_ ?_
  · intro x hx
    simp at hx
    subst hx
    exact hc
  · intro x hx
    rw [List.getLast?_append_of_ne_nil _ (by simp)] at hx
    cases hr : rstripBy isWs t with
    | nil => rw [hr] at hx; simp at hx; subst hx; exact hd
    | cons y r =>
      rw [hr, List.getLast?_cons_cons] at hx
      rw [← hr] at hx
      unfold rstripBy at hx
      rw [List.getLast?_reverse] at hx
      have := List.head?_dropWhile_not isWs t.reverse
      rw [hx] at this
      simpa using this

theorem Trimmed.cons {t : Str} (h : Trimmed t) : ∃ c r, t = c :: r ∧ isWs c = false := by
  obtain ⟨hne, h1, _⟩ := h
  cases t with
  | nil => exact absurd rfl hne
  | cons c r => exact ⟨c, r, rfl, h1 c rfl⟩

theorem splitOn_ends (c : Char) (segs : List Str) (t : Str) (h : ∀ x ∈ segs, c ∉ x) (ht : c ∉ t) :
    splitOn c (segs.flatMap (fun x => x ++ [c]) ++ t) = segs ++ [t] := by
  induction segs with
  | nil => simpa using splitOn_noSep c t ht
  | cons x segs ih =>
    have : (x :: segs).flatMap (fun x => x ++ [c]) ++ t = x ++ c :: (segs.flatMap (fun x => x ++ [c]) ++ t) := by simp
    rw [this, splitOn_append c _ _ (h x (by simp)), ih fun y hy => h y (by simp [hy])]
    rfl

theorem strip_trim (a t b : Str) (ha : Blank a) (hb : Blank b) (ht : Trimmed t) : strip (a ++ (t ++ b)) = t := by
  rw [Hawc2Sel.strip_ends a t b ha hb]
  exact stripBy_eq_self _ _ ht.2.1 ht.2.2

theorem ws_not_mem {c : Char} {t : Str} (h : Blank t) (hc : isWs c = false) : c ∉ t := fun hm => by rw [h c hm] at hc; cases hc

theorem Col.strip_text (c : Col) (h : c.Good) : strip c.text = c.num ++ c.mid ++ c.field := by
  obtain ⟨h1, h2, h3, h4, h5, _⟩ := h
  rw [Col.text]
  refine strip_trim _ _ _ h1 h5 ⟨?_, ?_, ?_⟩
  · intro e
    simp at e
    exact h2.1 e.1
  · intro x hx
    obtain ⟨y, r, e⟩ := List.exists_cons_of_ne_nil h2.1
    rw [e] at hx
    simp at hx
    subst hx
    exact h2.2 _ (by rw [e]; simp)
  · intro x hx
    rw [List.getLast?_append_of_ne_nil _ h4.1] at hx
    exact h4.2.2 x hx

theorem Col.text_no (c : Col) (h : c.Good) : ']' ∉ c.text := by
  obtain ⟨h1, _, h3, _, h5, h6, h7⟩ := h
  rw [Col.text]
  simp only [List.mem_append, not_or]
  exact ⟨ws_not_mem h1 not_ws_bracket, ⟨⟨h6, ws_not_mem h3 not_ws_bracket⟩, h7⟩, ws_not_mem h5 not_ws_bracket⟩

theorem header_of (s : Str) (h : Head) (hg : h.Good) (ls : List Str) (hs : HasLines s (h.text :: ls)) :
    ∃ x tl, header s = '#' :: x ∧ ']' ∉ tl ∧
      strip x = h.field ++ h.fill ++ [']'] ++ h.cols.flatMap (fun c => c.text ++ [']']) ++ tl := by
  obtain ⟨hl, hga, hf, hfn, hfi, hc, ht⟩ := hg
  obtain ⟨B, eB⟩ : ∃ B, h.fill ++ [']'] ++ h.cols.flatMap (fun c => c.text ++ [']']) = B ++ [']'] := by
    rcases List.eq_nil_or_concat h.cols with e | ⟨i, c, e⟩
    · exact ⟨h.fill, by rw [e]; simp⟩
    · refine ⟨h.fill ++ [']'] ++ i.flatMap (fun c => c.text ++ [']']) ++ c.text, ?_⟩
      rw [e]
      simp [List.concat_eq_append]
  obtain ⟨c, r, e, hcw⟩ := hf.cons
  have e1 : h.text = h.lead ++ ('#' :: (h.gap ++ (h.field ++ B)) ++ ']' :: h.tail) := by
    rw [Head.text]
    have : h.field ++ h.fill ++ [']'] ++ h.cols.flatMap (fun c => c.text ++ [']']) ++ h.tail
        = h.field ++ (h.fill ++ [']'] ++ h.cols.flatMap (fun c => c.text ++ [']'])) ++ h.tail := by simp
    rw [this, eB]
    simp
  obtain ⟨t1, hp1, h1⟩ := strip_keep h.lead '#' (h.gap ++ (h.field ++ B)) ']' h.tail hl (by decide) not_ws_bracket
  obtain ⟨t2, hp2, h2⟩ := strip_keep h.gap c (r ++ B) ']' t1 hga hcw not_ws_bracket
  refine ⟨h.gap ++ (h.field ++ B) ++ ']' :: t1, t2, ?_, ?_, ?_⟩
  · rw [header, readlines_of hs]
    simp only [List.headD_cons]
    rw [e1, h1]
    rfl
  · intro hm
    exact ht (hp1.subset (hp2.subset hm))
  · have e2 : h.gap ++ (h.field ++ B) ++ ']' :: t1 = h.gap ++ (c :: (r ++ B) ++ ']' :: t1) := by rw [e]; simp
    have e3 : h.field ++ h.fill ++ [']'] ++ h.cols.flatMap (fun c => c.text ++ [']']) ++ t2
        = h.field ++ (h.fill ++ [']'] ++ h.cols.flatMap (fun c => c.text ++ [']'])) ++ t2 := by simp
    rw [e2, h2, e3, eB, e]
    simp

theorem pieces_of (p x tl : Str) (h : Head) (hg : h.Good) (htl : ']' ∉ tl) (num mid : Str) (hp : p = num ++ mid) (hn : IsWord num) (hm : Blank mid) (hnn : ']' ∉ num)
    (hx : strip x = h.field ++ h.fill ++ [']'] ++ h.cols.flatMap (fun c => c.text ++ [']']) ++ tl) :
    pieces p x = ((⟨[], num, mid, h.field, h.fill⟩ : Col) :: h.cols).map fun c => c.num ++ c.mid ++ c.field ++ [']'] := by
  obtain ⟨hl, hga, hf, hfn, hfi, hc, ht⟩ := hg
  have h0 : (⟨[], num, mid, h.field, h.fill⟩ : Col).Good := ⟨blank_nil, hn, hm, hf, hfi, hnn, hfn⟩
  have hall : ∀ c ∈ (⟨[], num, mid, h.field, h.fill⟩ : Col) :: h.cols, c.Good := by
    intro c hcm
    rcases List.mem_cons.1 hcm with rfl | hcm
    · exact h0
    · exact hc c hcm
  generalize hcs : (⟨[], num, mid, h.field, h.fill⟩ : Col) :: h.cols = cs at hall
  have e : p ++ strip x = (cs.map Col.text).flatMap (fun x => x ++ [']']) ++ tl := by
    rw [hx, ← hcs, hp]
    simp [Col.text, List.flatMap_map]
  rw [pieces, e, splitOn_ends _ _ _ (by
    intro y hy
    obtain ⟨c, hcm, rfl⟩ := List.mem_map.1 hy
    exact c.text_no (hall c hcm)) htl]
  rw [List.dropLast_append_of_ne_nil (by simp)]
  simp only [List.dropLast_singleton, List.append_nil, List.map_map]
  exact List.map_congr_left fun c hcm => by simp [c.strip_text (hall c hcm)]

theorem trimmed_bracket {f : Str} (h : Trimmed f) : Trimmed (f ++ [']']) := by
  refine ⟨by simp, ?_, ?_⟩
  · intro c hc
    obtain ⟨x, r, rfl, hx⟩ := h.cons
    simp at hc
    subst hc
    exact hx
  · intro c hc
    simp at hc
    subst hc
    exact not_ws_bracket

theorem replaceChar_under (t : Str) : replaceChar ' ' ['_'] t = under t := by
  induction t with
  | nil => rfl
  | cons c t ih =>
    show replaceChar ' ' ['_'] (c :: t) = (if c = ' ' then '_' else c) :: under t
    rw [Tecplot.replaceChar_cons, ih]
    by_cases h : c = ' ' <;> simp [h]

theorem pwrLabel_of (c : Col) (h : c.Good) (hs : c.Spaced) : pwrLabel (c.num ++ c.mid ++ c.field ++ [']']) = under (c.field ++ [']']) := by
  obtain ⟨t, ht⟩ := hs
  obtain ⟨_, h2, h3, h4, _⟩ := h
  have e : c.num ++ c.mid ++ c.field ++ [']'] = c.num ++ ' ' :: (t ++ (c.field ++ [']'])) := by rw [ht]; simp
  rw [pwrLabel, e, splitOn_append _ _ _ h2.space, List.tail_cons, join_splitOn]
  have := strip_trim t (c.field ++ [']']) [] (fun x hx => h3 x (by rw [ht]; simp [hx])) (by intro x hx; cases hx) (trimmed_bracket h4)
  rw [List.append_nil] at this
  rw [this, replaceChar_under]

theorem under_nobracket (t : Str) (h : '[' ∉ t) : '[' ∉ under t := by
  intro hm
  obtain ⟨c, hc, he⟩ := List.mem_map.1 hm
  split at he
  · exact absurd he (by decide)
  · subst he; exact h hc

theorem under_chain (t : Str) (h : t.IsChain (fun a b => ¬ (bl a ∧ bl b))) : (under t).IsChain (fun a b => ¬ (a = '_' ∧ b = '_')) := by
  unfold under
  rw [List.isChain_map]
  refine h.imp ?_
  intro a b hab hc
  refine hab ⟨?_, ?_⟩
  · have := hc.1
    split at this
    · left; assumption
    · right; exact this
  · have := hc.2
    split at this
    · left; assumption
    · right; exact this

/-- passing over a text without double underscores -/
theorem rep_pass (x r : Str) (n : Nat) (hn : x.length + r.length ≤ n) (h : (x ++ r.take 1).IsChain (fun a b => ¬ (a = '_' ∧ b = '_'))) :
    FastRead.replaceFuel "__".toList ['_'] n (x ++ r) = x ++ FastRead.replaceFuel "__".toList ['_'] (n - x.length) r := by
  induction x generalizing n with
  | nil => simp
  | cons c x ih =>
    obtain ⟨n, rfl⟩ : ∃ k, n = k + 1 := ⟨n - 1, by simp at hn; omega⟩
    have hno : startsWith (c :: (x ++ r)) "__".toList = false := by
      rw [startsWith, Bool.eq_false_iff]
      intro hp
      rw [List.isPrefixOf_iff_prefix] at hp
      obtain ⟨t, ht⟩ := hp
      have ht : '_' :: '_' :: t = c :: (x ++ r) := ht
      injection ht with h1 h2
      subst h1
      cases x with
      | nil =>
        cases r with
        | nil => cases h2
        | cons d r =>
          simp at h2
          rw [← h2.1] at h
          simp at h
      | cons d x =>
        simp at h2
        rw [← h2.1] at h
        simp at h
    rw [List.cons_append, FastRead.replaceFuel, if_neg (by rw [hno]; simp), ih n (by simp at hn; omega) (by
      rw [List.cons_append] at h
      exact h.tail)]
    simp

theorem rep_two (r : Str) (n : Nat) : FastRead.replaceFuel "__".toList ['_'] (n + 1) ('_' :: '_' :: r) = '_' :: FastRead.replaceFuel "__".toList ['_'] n r := by
  rw [FastRead.replaceFuel, if_pos (by simp [startsWith])]
  rfl

theorem rep_all (x : Str) (n : Nat) (hn : x.length ≤ n) (h : x.IsChain (fun a b => ¬ (a = '_' ∧ b = '_'))) :
    FastRead.replaceFuel "__".toList ['_'] n x = x := by
  have := rep_pass x [] n (by simpa using hn) (by simpa using h)
  rw [List.append_nil] at this
  rw [this]
  cases n - x.length <;> simp [FastRead.replaceFuel]

theorem indField_label (field name unit : Str) (h : IndField field name unit) :
    FastRead.replaceStr "__".toList ['_'] (replaceChar '[' ['_', '['] (replaceChar ' ' ['_'] (field ++ [']']))) = under name ++ '_' :: '[' :: under unit ++ [']'] := by
  obtain ⟨hf, hn, hu, hcn, hl, hcu⟩ := h
  have hcn' : (under name).IsChain (fun a b => ¬ (a = '_' ∧ b = '_')) := under_chain name hcn
  have hlast : (under name ++ ['_']).IsChain (fun a b => ¬ (a = '_' ∧ b = '_')) := by
    rw [List.isChain_append]
    refine ⟨hcn', by simp, ?_⟩
    intro a ha b hb hab
    unfold under at ha
    rw [List.getLast?_map] at ha
    cases hg : name.getLast? with
    | none => rw [hg] at ha; simp at ha
    | some d =>
      rw [hg] at ha
      simp only [Option.map_some, Option.mem_def, Option.some.injEq] at ha
      refine hl d hg ?_
      rw [hab.1] at ha
      split at ha
      · left; assumption
      · right; exact ha
  have hunit : ('[' :: under unit ++ [']']).IsChain (fun a b => ¬ (a = '_' ∧ b = '_')) := by
    rw [List.isChain_append]
    refine ⟨?_, by simp, ?_⟩
    · rw [List.isChain_cons]
      exact ⟨fun y _ h => absurd h.1 (by decide), under_chain unit hcu⟩
    · intro a _ b hb h
      simp at hb
      rw [h.2] at hb
      exact absurd hb (by decide)
  rw [replaceChar_under]
  have eb : ∀ t, '[' ∉ t → replaceChar '[' ['_', '['] t = t := fun t ht => Tecplot.replaceChar_none _ _ _ ht
  rcases hf with rfl | rfl
  · have e : under (name ++ '[' :: unit ++ [']']) = under name ++ '[' :: (under unit ++ [']']) := by simp [under]
    rw [e, Tecplot.replaceChar_append, Tecplot.replaceChar_cons, if_pos rfl, eb _ (under_nobracket _ hn),
      eb _ (by simp only [List.mem_append, not_or]; exact ⟨under_nobracket _ hu, by decide⟩)]
    rw [FastRead.replaceStr, rep_pass _ _ _ (by simp) (by simpa using hlast)]
    have := rep_all ('_' :: ('[' :: under unit ++ [']']))
      ((under name ++ (['_', '['] ++ (under unit ++ [']']))).length - (under name).length) (by simp) (by
        rw [List.isChain_cons]
        refine ⟨fun y hy h => ?_, hunit⟩
        simp at hy
        rw [h.2] at hy
        exact absurd hy (by decide))
    have e2 : ['_', '['] ++ (under unit ++ [']']) = '_' :: ('[' :: under unit ++ [']']) := by simp
    rw [e2] at this ⊢
    rw [this]
    simp
  · have e : under (name ++ ' ' :: '[' :: unit ++ [']']) = under name ++ '_' :: '[' :: (under unit ++ [']']) := by simp [under]
    rw [e, Tecplot.replaceChar_append, Tecplot.replaceChar_cons, if_neg (by decide), Tecplot.replaceChar_cons, if_pos rfl, eb _ (under_nobracket _ hn),
      eb _ (by simp only [List.mem_append, not_or]; exact ⟨under_nobracket _ hu, by decide⟩)]
    have e2 : ['_'] ++ (['_', '['] ++ (under unit ++ [']'])) = '_' :: '_' :: ('[' :: under unit ++ [']']) := by simp
    rw [e2, FastRead.replaceStr, rep_pass _ _ _ (by simp) (by simpa using hlast)]
    have e3 : (under name ++ '_' :: '_' :: ('[' :: under unit ++ [']'])).length - (under name).length = (('[' :: under unit ++ [']']).length + 1) + 1 := by
      rw [List.length_append]
      simp
    rw [e3, rep_two, rep_all _ _ (by omega) hunit]
    simp

theorem drop_two (c : Col) (h : c.Good) (ht : c.Two) : strip ((c.num ++ c.mid ++ c.field ++ [']']).drop 2) = c.field ++ [']'] := by
  obtain ⟨_, _, h3, h4, _⟩ := h
  obtain ⟨g, hg, e⟩ : ∃ g, Blank g ∧ (c.num ++ c.mid ++ c.field ++ [']']).drop 2 = g ++ (c.field ++ [']']) := by
    rcases ht with ht | ⟨ht, hm⟩
    · refine ⟨c.mid, h3, ?_⟩
      match hn : c.num, ht with
      | [a, b], _ => simp
    · match hn : c.num, hm' : c.mid, ht, hm with
      | [a], b :: m, _, _ => exact ⟨m, fun x hx => h3 x (by rw [hm']; simp [hx]), by simp⟩
  have := strip_trim g (c.field ++ [']']) [] hg (by intro x hx; cases hx) (trimmed_bracket h4)
  rw [List.append_nil] at this
  rw [e, this]

theorem line_take (a b : Str) (ha : '#' ∉ a) (hb : b = [] ∨ b.head? = some '#') : (a ++ b).takeWhile (fun c => decide (c ≠ '#')) = a := by
  induction a with
  | nil =>
    rcases hb with rfl | hb
    · rfl
    · cases b with
      | nil => rfl
      | cons c b => simp at hb; subst hb; simp
  | cons c a ih =>
    have hc : c ≠ '#' := fun e => ha (by simp [e])
    have := ih fun h => ha (by simp [h])
    simp only [List.cons_append, List.takeWhile_cons]
    rw [this]
    simp [hc]

theorem words_blank (a : Str) (h : Blank a) : words a = [] := by
  have := words_append_allWs [] a h
  simpa [words_nil] using this

theorem rows_mapM {F : Type} (flt : Str → Option F) (ls : List Str) (rows : List (List F)) (h : Rows flt ls rows) :
    ((ls.map fun l => words (l.takeWhile (fun c => decide (c ≠ '#')))).filter (fun x => decide (x ≠ []))).mapM (fun r => r.mapM flt) = some rows := by
  induction h with
  | nil => rfl
  | skip a b ls rows ha hb _ ih =>
    rw [List.map_cons, line_take a b (ws_not_mem ha (by decide)) hb, words_blank a ha]
    simpa using ih
  | row a b row ls rows ha hb hw hr _ ih =>
    rw [List.map_cons, line_take a b ha hb, List.filter_cons, if_pos (by simpa using hw), List.mapM_cons, hr, ih]
    rfl

theorem loadtxt_ok {F : Type} (flt : Str → Option F) (ls : List Str) (rows : List (List F)) (h : Rows flt ls rows) (n : Nat) (hw : ∀ r ∈ rows, r.length = n) :
    loadtxt flt ls = some rows := by
  rw [loadtxt, rows_mapM flt ls rows h]
  simp only
  rw [if_pos]
  rw [List.all_eq_true]
  intro r hr
  cases rows with
  | nil => cases hr
  | cons x t => simp [hw r hr, hw x (by simp)]

theorem loadtxt_rows {F : Type} (flt : Str → Option F) (ls : List Str) (rows m : List (List F)) (h : Rows flt ls rows) (hm : loadtxt flt ls = some m) : m = rows := by
  rw [loadtxt, rows_mapM flt ls rows h] at hm
  simp only at hm
  split at hm
  · exact (Option.some.inj hm).symm
  · cases hm

theorem data_ok {F : Type} (flt : Str → Option F) (s l : Str) (ls : List Str) (hs : HasLines s (l :: ls)) (rows : List (List F)) (h : Rows flt ls rows)
    (n : Nat) (hn : 2 ≤ n) (hw : ∀ r ∈ rows, r.length = n) (h2 : 2 ≤ rows.length) : data flt s n = .ok rows := by
  rw [data, readlines_of hs, List.tail_cons, loadtxt_ok flt ls rows h n hw]
  simp only
  have : (rows.headD []).length = n := by
    cases rows with
    | nil => simp at h2
    | cons x t => exact hw x (by simp)
  rw [this, if_neg (by omega), if_neg (by simp)]

theorem data_rows {F : Type} (flt : Str → Option F) (s l : Str) (ls : List Str) (hs : HasLines s (l :: ls)) (rows : List (List F)) (h : Rows flt ls rows)
    (n : Nat) (m : List (List F)) (hd : data flt s n = .ok m) : m = rows := by
  rw [data, readlines_of hs, List.tail_cons] at hd
  cases hl : loadtxt flt ls with
  | none => rw [hl] at hd; cases hd
  | some x =>
    rw [hl] at hd
    simp only at hd
    split at hd
    · cases hd
    · split at hd
      · cases hd
      · obtain rfl := Except.ok.inj hd
        exact loadtxt_rows flt ls rows _ h hl

theorem pwr_cols (s : Str) (h : Head) (hg : h.Good) (hsp : ∀ c ∈ h.cols, c.Spaced) (ls : List Str) (hs : HasLines s (h.text :: ls)) :
    ∃ x, header s = '#' :: x ∧ (pieces "0 ".toList x).map pwrLabel = h.fields.map fun f => under (f ++ [']']) := by
  obtain ⟨x, tl, h1, h2, h3⟩ := header_of s h hg ls hs
  refine ⟨x, h1, ?_⟩
  have h0 : (⟨[], ['0'], [' '], h.field, h.fill⟩ : Col).Good :=
    ⟨blank_nil, (⟨by simp, by decide⟩ : IsWord ['0']), blank_space, hg.2.2.1, hg.2.2.2.2.1, (by decide : ']' ∉ ['0']), hg.2.2.2.1⟩
  rw [pieces_of "0 ".toList x tl h hg h2 ['0'] [' '] rfl ⟨by simp, by decide⟩ blank_space (by decide) h3, List.map_map, List.map_cons,
    Head.fields, List.map_cons, List.map_map]
  congr 1
  · exact pwrLabel_of _ h0 ⟨[], rfl⟩
  · exact List.map_congr_left fun c hc => pwrLabel_of c (hg.2.2.2.2.2.1 c hc) (hsp c hc)

theorem ind_cols (s : Str) (h : Head) (hg : h.Good) (hsp : ∀ c ∈ h.cols, c.Two) (ls : List Str) (hs : HasLines s (h.text :: ls))
    (labels : List (Str × Str)) (hl : List.Forall₂ (fun f nu => IndField f nu.1 nu.2) h.fields labels) :
    ∃ x, header s = '#' :: x ∧ (pieces "00".toList x).map indLabel = labels.map fun nu => under nu.1 ++ '_' :: '[' :: under nu.2 ++ [']'] := by
  obtain ⟨x, tl, h1, h2, h3⟩ := header_of s h hg ls hs
  refine ⟨x, h1, ?_⟩
  have h0 : (⟨[], ['0', '0'], [], h.field, h.fill⟩ : Col).Good :=
    ⟨blank_nil, (⟨by simp, by decide⟩ : IsWord ['0', '0']), blank_nil, hg.2.2.1, hg.2.2.2.2.1, (by decide : ']' ∉ ['0', '0']), hg.2.2.2.1⟩
  rw [pieces_of "00".toList x tl h hg h2 ['0', '0'] [] rfl ⟨by simp, by decide⟩ blank_nil (by decide) h3, List.map_map]
  have key : ∀ (cs : List Col) (labels : List (Str × Str)), (∀ c ∈ cs, c.Good ∧ c.Two) → List.Forall₂ (fun f nu => IndField f nu.1 nu.2) (cs.map Col.field) labels →
      cs.map (indLabel ∘ fun c => c.num ++ c.mid ++ c.field ++ [']']) = labels.map fun nu => under nu.1 ++ '_' :: '[' :: under nu.2 ++ [']'] := by
    intro cs
    induction cs with
    | nil => intro labels _ hf; cases hf; rfl
    | cons c cs ih =>
      intro labels hc hf
      rw [List.map_cons] at hf
      cases hf with
      | cons ha hb =>
        rw [List.map_cons, List.map_cons, ih _ (fun y hy => hc y (by simp [hy])) hb]
        congr 1
        simp only [Function.comp]
        rw [indLabel, drop_two c (hc c (by simp)).1 (hc c (by simp)).2]
        exact indField_label _ _ _ ha
  refine key _ labels ?_ (by simpa [Head.fields] using hl)
  intro c hc
  rcases List.mem_cons.1 hc with rfl | hc
  · exact ⟨h0, .inl rfl⟩
  · exact ⟨hg.2.2.2.2.2.1 c hc, hsp c hc⟩

theorem wind_of (pre w ext : Str) (u : Char) (hu : u = 'u' ∨ u = 'U') (hne : w ≠ []) (hw : ∀ c ∈ w, c.isDigit = true) (he : lower ext = ".ind".toList) :
    windText (pre ++ '_' :: u :: w ++ ext) = w := by
  have hd : ∀ c : Char, c.isDigit = true → c.toLower = c ∧ c ≠ '_' ∧ c ≠ 'u' ∧ ¬ (c = '.' ∨ c = 'i' ∨ c = 'n' ∨ c = 'd') := by
    intro c hc
    have hb : 48 ≤ c.toNat ∧ c.toNat ≤ 57 := by
      simp only [Char.isDigit, Bool.and_eq_true, decide_eq_true_eq] at hc
      exact ⟨by have := UInt32.le_iff_toNat_le.1 hc.1; simpa using this, by have := UInt32.le_iff_toNat_le.1 hc.2; simpa using this⟩
    refine ⟨?_, ?_, ?_, ?_⟩
    · rw [Char.toLower, dif_neg]
      intro h
      have := UInt32.le_iff_toNat_le.1 h.1
      have h65 : ('A'.val).toNat = 65 := by decide
      rw [h65] at this
      exact absurd this (by change ¬ 65 ≤ c.toNat; omega)
    · rintro rfl; exact absurd hb (by decide)
    · rintro rfl; exact absurd hb (by decide)
    · rintro (rfl | rfl | rfl | rfl) <;> exact absurd hb (by decide)
  have hlw : lower w = w := by
    unfold lower
    conv_rhs => rw [← List.map_id w]
    exact List.map_congr_left fun c hc => (hd c (hw c hc)).1
  have hlu : u.toLower = 'u' := by rcases hu with rfl | rfl <;> decide
  have e : lower (pre ++ '_' :: u :: w ++ ext) = lower pre ++ '_' :: ('u' :: (w ++ ".ind".toList)) := by
    rw [← he]
    conv_rhs => rw [← hlw]
    simp only [lower, List.map_append, List.map_cons, hlu, List.cons_append, List.append_assoc]
    rfl
  have hno : '_' ∉ 'u' :: (w ++ ".ind".toList) := by
    simp only [List.mem_cons, List.mem_append, not_or]
    exact ⟨by decide, fun h => (hd _ (hw _ h)).2.1 rfl, by decide⟩
  have hlast : ∀ a : Str, (splitOn '_' (a ++ '_' :: ('u' :: (w ++ ".ind".toList)))).getLastD [] = 'u' :: (w ++ ".ind".toList) := by
    intro a
    have : ∃ xs, splitOn '_' (a ++ '_' :: ('u' :: (w ++ ".ind".toList))) = xs ++ splitOn '_' ('u' :: (w ++ ".ind".toList)) := by
      generalize 'u' :: (w ++ ".ind".toList) = z
      induction a with
      | nil => exact ⟨[[]], by have := splitOn_append '_' [] z (by simp); simpa using this⟩
      | cons c a ih =>
        obtain ⟨xs, hx⟩ := ih
        by_cases hc : c = '_'
        · subst hc
          exact ⟨[] :: xs, by have := splitOn_append '_' [] (a ++ '_' :: z) (by simp); simpa [hx] using this⟩
        · cases xs with
          | nil =>
            exfalso
            have h1 : joinWith ['_'] (splitOn '_' (a ++ '_' :: z)) = joinWith ['_'] (splitOn '_' z) := by rw [hx]; rfl
            rw [join_splitOn, join_splitOn] at h1
            have := congrArg List.length h1
            simp at this
            omega
          | cons x xs =>
            refine ⟨(c :: x) :: xs, ?_⟩
            rw [List.cons_append, splitOn, hx]
            simp [hc]
    obtain ⟨xs, hx⟩ := this
    rw [hx, splitOn_noSep _ _ hno]
    simp
  rw [windText, e, hlast]
  have hr : rstripBy (fun c => decide (c = '.' ∨ c = 'i' ∨ c = 'n' ∨ c = 'd')) ('u' :: (w ++ ".ind".toList)) = 'u' :: w := by
    obtain ⟨i, d, rfl⟩ : ∃ i d, w = i ++ [d] := by
      rcases List.eq_nil_or_concat w with h | ⟨i, d, h⟩
      · exact absurd h hne
      · exact ⟨i, d, by rw [h, List.concat_eq_append]⟩
    have hdd := (hd d (hw d (by simp))).2.2.2
    unfold rstripBy
    simp only [List.reverse_cons, List.reverse_append]
    simp [hdd]
  rw [hr]
  unfold lstripBy
  obtain ⟨c, t, rfl⟩ := List.exists_cons_of_ne_nil hne
  have hc := (hd c (hw c (by simp))).2.2.1
  simp [List.dropWhile_cons, hc]

theorem digits_strip (w : Str) (hne : w ≠ []) (hw : ∀ c ∈ w, c.isDigit = true) : strip w = w :=
  strip_word ⟨hne, fun c hc => by
    have h := hw c hc
    cases hws : isWs c with
    | false => rfl
    | true =>
      exfalso
      have hb : 48 ≤ c.toNat ∧ c.toNat ≤ 57 := by
        simp only [Char.isDigit, Bool.and_eq_true, decide_eq_true_eq] at h
        exact ⟨by have := UInt32.le_iff_toNat_le.1 h.1; simpa using this, by have := UInt32.le_iff_toNat_le.1 h.2; simpa using this⟩
      simp only [isWs, Bool.or_eq_true, Bool.and_eq_true, beq_iff_eq, decide_eq_true_eq] at hws
      omega⟩

theorem splitOn_length (c : Char) (t : Str) : (splitOn c t).length = t.count c + 1 := by
  induction t with
  | nil => rfl
  | cons x t ih =>
    by_cases h : x = c
    · subst h
      have := splitOn_append x [] t (by simp)
      rw [List.nil_append] at this
      rw [this, List.length_cons, ih]
      simp
    · rw [List.count_cons_of_ne h, ← ih, splitOn]
      cases hs : splitOn c t with
      | nil => exact absurd hs (splitOn_ne_nil c t)
      | cons y ys => simp [h]

theorem strip_count (t : Str) : (strip t).count ']' = t.count ']' := by
  have hz : ∀ b : Str, (∀ c ∈ b, isWs c = true) → b.count ']' = 0 := fun b hb => List.count_eq_zero.2 (ws_not_mem hb not_ws_bracket)
  obtain ⟨u, h1, h2⟩ := rstripBy_append isWs (t.dropWhile isWs)
  have e : t = t.takeWhile isWs ++ (strip t ++ u) := by
    conv_lhs => rw [← List.takeWhile_append_dropWhile (p := isWs) (l := t), h1]
    rfl
  conv_rhs => rw [e]
  rw [List.count_append, List.count_append, hz u h2, hz (t.takeWhile isWs) fun c hc => List.mem_takeWhile_imp hc]
  simp

theorem header_hash (s lead x : Str) (ls : List Str) (hs : HasLines s ((lead ++ '#' :: x) :: ls)) (hl : Blank lead) :
    ∃ y, header s = '#' :: y ∧ y.count ']' = x.count ']' := by
  have hc := strip_count (lead ++ '#' :: x)
  have hh : (strip (lead ++ '#' :: x)).head? = some '#' := by
    rw [Hawc2Sel.strip_ws_append _ _ hl]
    have : '#' :: x = ['#'] ++ x := rfl
    rw [this, Tecplot.strip_word_append _ _ ⟨by simp, by decide⟩]
    rfl
  rw [header, readlines_of hs, List.headD_cons]
  obtain ⟨y, hy⟩ := List.head?_eq_some_iff.1 hh
  refine ⟨y, hy, ?_⟩
  rw [hy] at hc
  simpa [ws_not_mem hl not_ws_bracket, List.count_eq_zero.2 (ws_not_mem hl not_ws_bracket)] using hc

theorem pieces_length (p y : Str) (hp : ']' ∉ p) : (pieces p y).length = y.count ']' := by
  rw [pieces, List.length_map, List.length_dropLast, splitOn_length, List.count_append, strip_count, List.count_eq_zero.2 hp]
  simp

theorem fields_length (h : Head) : h.fields.length = h.cols.length + 1 := by simp [Head.fields]

theorem numbered_length (x : Char) (n : Nat) : (numbered x n).length = n := by simp [numbered]

end Verif.Hs2
