import Verif.Spec.Yaml
import Verif.Lemmas.FlexBld
import Verif.Lemmas.FlexPro
import Verif.Py.Dec
import Mathlib.Data.List.Forall2
import Mathlib.Tactic
/-!
# Lemmas on a small YAML file
-/
namespace Verif.Yaml
open Verif.Py
open Verif.Rosco (fitRow)
open Verif.FlexPro (setKey)

theorem clean_reads (l s : Str) (h : Reads l s) : cleanComment l = s := by
  obtain ⟨a, ha, hc, hs⟩ := h
  unfold cleanComment
  rw [FlexBld.splitOn_head '#' l a ha hc, hs]

theorem strip_head (s : Str) : (strip s).head? = (s.dropWhile isWs).head? := by
  unfold strip stripBy lstripBy
  obtain ⟨t, h1, h2⟩ := rstripBy_append isWs (s.dropWhile isWs)
  cases hr : rstripBy isWs (s.dropWhile isWs) with
  | cons x r => rw [hr] at h1; rw [h1]; rfl
  | nil =>
    rw [hr, List.nil_append] at h1
    cases hd : s.dropWhile isWs with
    | nil => rfl
    | cons x r =>
      have hx := h2 x (by rw [← h1, hd]; simp)
      have := List.head?_dropWhile_not (p := isWs) (l := s)
      rw [hd] at this
      simp [hx] at this

theorem dash_head (l s : Str) (h : Reads l s) : isDash l = decide (s.head? = some '-') := by
  obtain ⟨a, ha, hc, hs⟩ := h
  unfold isDash
  rw [strip_head, ← hs, strip_head]
  rcases ha with rfl | ⟨more, rfl⟩
  · rfl
  · rw [List.dropWhile_append]
    cases hd : a.dropWhile isWs with
    | nil =>
      have hash : isWs '#' = false := by decide
      simp [hash]
    | cons x r => rfl

theorem filter_cells (cells : List Str) (h : ∀ w ∈ cells, ',' ∉ w ∧ '[' ∉ w ∧ ']' ∉ w) :
    (joinWith [','] cells).filter (fun c => c ≠ ']' && c ≠ '[') = joinWith [','] cells := by
  rw [List.filter_eq_self]
  intro c hc
  rcases mem_joinWith _ _ _ hc with hc | ⟨w, hw, hcw⟩
  · simp at hc; subst hc; decide
  · have := h w hw
    simp only [ne_eq, decide_not, Bool.and_eq_true, Bool.not_eq_eq_eq_not, Bool.not_true, decide_eq_false_iff_not]
    exact ⟨fun e => this.2.2 (e ▸ hcw), fun e => this.2.1 (e ▸ hcw)⟩

theorem pieces_row (l : Str) (ws : List Str) (h : DashRow l ws) (hne : ws ≠ []) :
    (pieces l).map strip = ws ∧ (∀ p ∈ pieces l, p = [] → [] ∈ ws) ∧ isDash l = true := by
  obtain ⟨blank, cells, hr, hb, hc, rfl⟩ := h
  have hcne : cells ≠ [] := by rintro rfl; simp at hne
  have hblank : blank.filter (fun c => c ≠ ']' && c ≠ '[') = blank := by
    rw [List.filter_eq_self]
    intro c hc
    have := hb c hc
    simp only [ne_eq, decide_not, Bool.and_eq_true, Bool.not_eq_eq_eq_not, Bool.not_true, decide_eq_false_iff_not]
    constructor
    · rintro rfl; exact absurd this (by decide)
    · rintro rfl; exact absurd this (by decide)
  have hp : pieces l = splitOn ',' (blank ++ joinWith [','] cells) := by
    unfold pieces
    rw [clean_reads l _ hr]
    simp only [List.drop_succ_cons, List.drop_zero]
    rw [List.filter_append, hblank]
    congr 2
    rw [List.filter_cons_of_neg (by simp), List.filter_append, filter_cells cells hc]
    simp
  have hblank' : ',' ∉ blank := fun hm => absurd (hb ',' hm) (by decide)
  obtain ⟨c0, cs, rfl⟩ := List.exists_cons_of_ne_nil hcne
  have hp' : pieces l = (blank ++ c0) :: cs := by
    rw [hp]
    have : blank ++ joinWith [','] (c0 :: cs) = joinWith [','] ((blank ++ c0) :: cs) := by
      cases cs with
      | nil => rfl
      | cons c1 cs => rw [joinWith_cons [','] c0 (c1 :: cs) (by simp), joinWith_cons [','] (blank ++ c0) (c1 :: cs) (by simp)]; simp
    rw [this, splitOn_join ',' _ (by simp)]
    intro w hw
    rcases List.mem_cons.1 hw with rfl | hw
    · intro hm
      rcases List.mem_append.1 hm with hm | hm
      · exact hblank' hm
      · exact (hc c0 (by simp)).1 hm
    · exact (hc w (by simp [hw])).1
  have hs : strip (blank ++ c0) = strip c0 := by
    unfold strip stripBy lstripBy
    congr 1
    rw [List.dropWhile_append_of_pos]
    exact hb
  refine ⟨?_, ?_, ?_⟩
  · rw [hp', List.map_cons, hs]; rfl
  · intro p hpm hpe
    rw [hp'] at hpm
    have hsn : strip [] = [] := rfl
    rcases List.mem_cons.1 hpm with h0 | h0
    · have : c0 = [] := by
        rw [hpe] at h0
        exact (List.append_eq_nil_iff.1 h0.symm).2
      rw [this, List.map_cons, hsn]; simp
    · rw [hpe] at h0
      exact List.mem_map.2 ⟨[], by simp [h0], hsn⟩
  · rw [dash_head l _ hr]; rfl

theorem elems_row (l : Str) (ws : List Str) (h : DashRow l ws) (hne : ws ≠ []) (hw : ∀ w ∈ ws, w ≠ []) :
    firstElems l = ws ∧ rowElems l = ws := by
  obtain ⟨h1, h2, -⟩ := pieces_row l ws h hne
  constructor
  · unfold firstElems
    rw [h1, List.filter_eq_self]
    intro w hw'
    simpa using hw w hw'
  · unfold rowElems
    rw [List.filter_eq_self.2, h1]
    intro p hp
    simp only [ne_eq, decide_not, Bool.not_eq_eq_eq_not, Bool.not_true, decide_eq_false_iff_not]
    intro he
    exact hw [] (h2 p hp he) rfl

theorem mapM_ok {α β : Type} (f : α → Option β) (ws : List α) (v : List β)
    (h : List.Forall₂ (fun w x => f w = some x) ws v) : ws.mapM f = some v := by
  induction h with
  | nil => rfl
  | cons h _ ih => rw [List.mapM_cons, h, ih]; rfl

theorem mapM_none {α β : Type} (f : α → Option β) (ws : List α) (w : α) (hw : w ∈ ws) (hn : f w = none) : ws.mapM f = none := by
  induction ws with
  | nil => simp at hw
  | cons w' ws ih =>
    rw [List.mapM_cons]
    rcases List.mem_cons.1 hw with rfl | hw
    · rw [hn]; rfl
    · rw [ih hw]
      cases f w' <;> rfl

theorem fill_ok {α : Type} (conv : Str → Option α) (k : Nat) (hk : 1 ≤ k) (ls : List Str) (rows : List (List Str)) (m : List (List α))
    (h : List.Forall₂ DashRow ls rows) (hr : ∀ r ∈ rows, r.length = k ∧ ∀ w ∈ r, w ≠ [])
    (hm : List.Forall₂ (List.Forall₂ (fun w x => conv w = some x)) rows m) : fill conv k ls = some m := by
  unfold fill
  apply mapM_ok
  induction h generalizing m with
  | nil => cases hm; exact .nil
  | @cons l r ls rows h _ ih =>
    cases hm with
    | @cons _ x _ m hx hm =>
      refine .cons ?_ (ih m (fun r hr' => hr r (List.mem_cons_of_mem _ hr')) hm)
      have hr0 := hr r (by simp)
      rw [(elems_row l r h (by intro e; rw [e] at hr0; simp at hr0; omega) hr0.2).2, mapM_ok conv r x hx, Option.bind_some]
      unfold fitRow
      rw [if_pos (by rw [← hr0.1, List.Forall₂.length_eq hx])]

theorem takeWhile_dash (ls : List Str) (rows : List (List Str)) (h : List.Forall₂ DashRow ls rows) (hr : ∀ r ∈ rows, r ≠ [])
    (rest : List Str) (hrest : ∀ l, rest.head? = some l → isDash l = false) :
    (ls ++ rest).takeWhile isDash = ls := by
  induction h with
  | nil =>
    cases rest with
    | nil => rfl
    | cons l rest => rw [List.nil_append, List.takeWhile_cons_of_neg]; simp [hrest l rfl]
  | @cons l r ls rows h _ ih =>
    rw [List.cons_append, List.takeWhile_cons_of_pos (pieces_row l r h (hr r (by simp))).2.2,
      ih (fun r hr' => hr r (List.mem_cons_of_mem _ hr'))]

theorem readDashList_ok {F : Type} (φ : Num F) (ls : List Str) (rows : List (List Str)) (v : Val F) (rest : List Str)
    (h : List.Forall₂ DashRow ls rows) (hne : rows ≠ []) (hk : ∃ k, 1 ≤ k ∧ ∀ r ∈ rows, r.length = k ∧ ∀ w ∈ r, w ≠ [])
    (hm : MatOk φ rows v) (hrest : ∀ l, rest.head? = some l → isDash l = false) :
    readDashList φ (ls ++ rest) = .ok (v, ls.length) := by
  obtain ⟨k, hk1, hk⟩ := hk
  have hrn : ∀ r ∈ rows, r ≠ [] := by
    intro r hr e
    have := (hk r hr).1
    rw [e] at this
    simp at this
    omega
  have htw := takeWhile_dash ls rows h hrn rest hrest
  cases h with
  | nil => exact absurd rfl hne
  | @cons l r ls rows h hls =>
    have hr0 := hk r (by simp)
    have hf := (elems_row l r h (hrn r (by simp)) hr0.2).1
    rw [List.cons_append] at htw ⊢
    rw [readDashList]
    rw [htw, hf, hr0.1]
    rcases hm with ⟨m, rfl, hm⟩ | ⟨m, rfl, hm, w, hw, hn⟩
    · have h1 : r.mapM φ.int = some (m.headD []) := by
        cases hm with
        | cons hx _ => exact mapM_ok _ _ _ hx
      rw [h1]
      simp only
      rw [if_neg (hrn r (by simp)), fill_ok φ.int k hk1 (l :: ls) (r :: rows) m (.cons h hls) hk hm]
    · rw [mapM_none φ.int r w hw hn]
      have h1 : r.mapM φ.flt = some (m.headD []) := by
        cases hm with
        | cons hx _ => exact mapM_ok _ _ _ hx
      rw [h1]
      simp only
      rw [fill_ok φ.flt k hk1 (l :: ls) (r :: rows) m (.cons h hls) hk hm]

/-- the first line of well-formed parts is no dash line -/
theorem head_noDash {F : Type} (φ : Num F) (bs : List (Block F)) (h : ∀ b ∈ bs, b.Ok φ) (tail : List Str)
    (ht : ∀ l, tail.head? = some l → isDash l = false) :
    ∀ l, (bs.flatMap Block.lines ++ tail).head? = some l → isDash l = false := by
  intro l hl
  cases bs with
  | nil => exact ht l (by simpa using hl)
  | cons b bs =>
    have hb := h b (by simp)
    cases b with
    | blank l' =>
      simp only [List.flatMap_cons, Block.lines, List.cons_append, List.head?_cons, Option.some.injEq] at hl
      subst hl
      rw [dash_head l' _ hb]; rfl
    | pair l' key val v =>
      simp only [List.flatMap_cons, Block.lines, List.cons_append, List.head?_cons, Option.some.injEq] at hl
      subst hl
      rw [dash_head l' _ hb.1]
      cases key with
      | nil => rfl
      | cons c key => simpa using hb.2.2.2.1
    | mat l' key ls rows v =>
      simp only [List.flatMap_cons, Block.lines, List.cons_append, List.head?_cons, Option.some.injEq] at hl
      subst hl
      rw [dash_head l' _ hb.1]
      cases key with
      | nil => rfl
      | cons c key => simpa using hb.2.2.1

theorem loop_blocks {F : Type} (φ : Num F) (bs : List (Block F)) (h : ∀ b ∈ bs, b.Ok φ) (f : Nat) (d : List (Str × Val F))
    (tail : List Str) (ht : ∀ l, tail.head? = some l → isDash l = false) (hf : (bs.flatMap Block.lines ++ tail).length ≤ f) :
    ∃ f', tail.length ≤ f' ∧ loop φ f d (bs.flatMap Block.lines ++ tail) =
      loop φ f' ((bs.filterMap Block.entry).foldl (fun d e => setKey d e.1 e.2) d) tail := by
  induction bs generalizing f d with
  | nil => exact ⟨f, by simpa using hf, rfl⟩
  | cons b bs ih =>
    have hb := h b (by simp)
    have hbs := fun b hb => h b (List.mem_cons_of_mem _ hb)
    have hn := head_noDash φ bs hbs tail ht
    rw [List.flatMap_cons, List.append_assoc] at hf ⊢
    cases b with
    | blank l =>
      simp only [Block.lines, List.cons_append, List.nil_append, List.length_cons] at hf ⊢
      obtain ⟨f, rfl⟩ : ∃ j, f = j + 1 := ⟨f - 1, by omega⟩
      rw [loop]
      rw [clean_reads l _ hb, if_pos rfl]
      exact ih hbs f d (by omega)
    | pair l key val v =>
      simp only [Block.lines, List.cons_append, List.nil_append, List.length_cons] at hf ⊢
      obtain ⟨f, rfl⟩ : ∃ j, f = j + 1 := ⟨f - 1, by omega⟩
      obtain ⟨h1, h2, h3, -, h5, h6⟩ := hb
      rw [loop]
      rw [clean_reads l _ h1, if_neg (by simp), splitOn_append ':' key val h2, splitOn_noSep ':' val h3]
      simp only
      rw [if_neg h5]
      have hv : scalar φ val = v := by
        rw [h6]
        unfold scalar
        cases φ.int (strip val) with
        | some i => rfl
        | none => cases φ.flt (strip val) <;> rfl
      rw [hv]
      exact ih hbs f _ (by omega)
    | mat l key ls rows v =>
      simp only [Block.lines, List.cons_append, List.length_cons, List.length_append] at hf ⊢
      obtain ⟨f, rfl⟩ : ∃ j, f = j + 1 := ⟨f - 1, by omega⟩
      obtain ⟨h1, h2, -, h4, h5, h6, h7⟩ := hb
      rw [loop]
      rw [clean_reads l _ h1, if_neg (by simp), splitOn_append ':' key [] h2]
      simp only [splitOn]
      rw [if_pos (show strip [] = [] from rfl), readDashList_ok φ ls rows v _ h4 h5 h6 h7 hn]
      simp only
      rw [List.drop_left]
      exact ih hbs f _ (by simp only [List.length_append] at hf ⊢; omega)

theorem mapM_length {α β : Type} (f : α → Option β) (ws : List α) (r : List β) (e : ws.mapM f = some r) : r.length = ws.length := by
  induction ws generalizing r with
  | nil => simp at e; subst e; rfl
  | cons w ws ih =>
    rw [List.mapM_cons] at e
    cases hw : f w with
    | none => simp [hw] at e
    | some x =>
      cases hws : ws.mapM f with
      | none => simp [hw, hws] at e
      | some y =>
        simp [hw, hws] at e
        subst e
        simp [ih y hws]

theorem fill_bad {α : Type} (conv : Str → Option α) (k : Nat) (ls : List Str) (bad : Str) (hm : bad ∈ ls)
    (h : (rowElems bad).length ≠ k ∧ (rowElems bad).length ≠ 1) : fill conv k ls = none := by
  unfold fill
  refine mapM_none _ _ bad hm ?_
  cases e : (rowElems bad).mapM conv with
  | none => rfl
  | some r =>
    have hl := mapM_length _ _ _ e
    rw [Option.bind_some]
    unfold fitRow
    rw [if_neg (by omega)]
    match r, hl with
    | [], _ => rfl
    | [_], hl => simp at hl; omega
    | _ :: _ :: _, _ => rfl

theorem readDashList_bad {F : Type} (φ : Num F) (ls : List Str) (rows : List (List Str)) (v : Val F) (rest : List Str)
    (h : List.Forall₂ DashRow ls rows) (hne : rows ≠ []) (hk : ∃ k, 1 ≤ k ∧ ∀ r ∈ rows, r.length = k ∧ ∀ w ∈ r, w ≠ [])
    (hm : MatOk φ rows v) (bad : Str) (ws : List Str) (hbad : DashRow bad ws) (hws : ∀ w ∈ ws, w ≠ []) (h0 : 2 ≤ ws.length)
    (hlen : ∀ r ∈ rows, r.length ≠ ws.length) :
    readDashList φ (ls ++ bad :: rest) = .error .value := by
  obtain ⟨k, hk1, hk⟩ := hk
  have hrn : ∀ r ∈ rows, r ≠ [] := by
    intro r hr e
    have := (hk r hr).1
    rw [e] at this
    simp at this
    omega
  have hwn : ws ≠ [] := by rintro rfl; simp at h0
  have hmem : bad ∈ (ls ++ bad :: rest).takeWhile isDash := by
    clear hk hm hlen hne
    induction h with
    | nil =>
      rw [List.nil_append, List.takeWhile_cons_of_pos (pieces_row bad ws hbad hwn).2.2]
      simp
    | @cons l r ls rows h _ ih =>
      rw [List.cons_append, List.takeWhile_cons_of_pos (pieces_row l r h (hrn r (by simp))).2.2]
      exact List.mem_cons_of_mem _ (ih (fun r hr' => hrn r (List.mem_cons_of_mem _ hr')))
  have hre := (elems_row bad ws hbad hwn hws).2
  cases h with
  | nil => exact absurd rfl hne
  | @cons l r ls rows h hls =>
    have hr0 := hk r (by simp)
    have hf := (elems_row l r h (hrn r (by simp)) hr0.2).1
    have hl0 := hlen r (by simp)
    rw [List.cons_append] at hmem ⊢
    rw [readDashList]
    rw [hf]
    rcases hm with ⟨m, rfl, hm⟩ | ⟨m, rfl, hm, w, hw, hn⟩
    · have h1 : r.mapM φ.int = some (m.headD []) := by
        cases hm with
        | cons hx _ => exact mapM_ok _ _ _ hx
      rw [h1]
      simp only
      rw [if_neg (hrn r (by simp)), fill_bad φ.int _ _ bad hmem (by rw [hre]; omega)]
    · rw [mapM_none φ.int r w hw hn]
      have h1 : r.mapM φ.flt = some (m.headD []) := by
        cases hm with
        | cons hx _ => exact mapM_ok _ _ _ hx
      rw [h1]
      simp only
      rw [fill_bad φ.flt _ _ bad hmem (by rw [hre]; omega)]

theorem splitOn_count (c : Char) (s : Str) : (splitOn c s).length = s.count c + 1 := by
  induction s with
  | nil => rfl
  | cons x s ih =>
    rw [splitOn]
    by_cases hx : x = c
    · rw [if_pos hx, List.length_cons, ih, hx, List.count_cons_self]
    · rw [if_neg hx, List.count_cons_of_ne hx]
      cases hsp : splitOn c s with
      | nil => exact absurd hsp (splitOn_ne_nil c s)
      | cons y ys => rw [hsp] at ih; simpa using ih

end Verif.Yaml
