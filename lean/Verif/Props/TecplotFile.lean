import Verif.Lemmas.TecplotFile
import Verif.Props.Tecplot
/-!
# C89, C90: Tecplot files as people write them

C89 what is read from such a file, C90 what is refused.
-/
namespace Verif.Tecplot
open Verif.Py

/-- reading the lines of a file -/
theorem readDoc_lines (T : Txt F) (lns : List Str) (hne : lns ≠ []) (hnl : ∀ l ∈ lns, '\n' ∉ l) :
    readDoc T (joinWith ['\n'] lns) = loop T lns none {} := by
  rw [readDoc, splitOn_join _ _ hne hnl]

/-- **C89**: a Tecplot file is read as it is meant, however its header is laid out: keywords in any
case, white space around lines, comment lines anywhere in the header, sections broken over several
lines, names of variables in quotes or plain, rows with comments and empty lines between them. The
title, the variables and other texts are those said last; each setting of the zone and of the
auxiliary data has the value said last; the data are the rows of numbers. -/
theorem C89 (T : Txt F) (S : List (Sect F)) (hdr : List Str) (ns : List Str) (r : List F) (M : List (List F))
    (ln : Str) (lns : List Str)
    (hok : ∀ s ∈ S, SectOk T s) (hh : Lines (S.flatMap Sect.texts) hdr) (hv : VarsFirst S)
    (hvars : lastVars (S.map Sect.mean) = some ns)
    (hfirst : RowLine T r ln) (hrows : Rows T M lns) (hM : M ≠ []) (hcols : 2 ≤ ns.length)
    (hwidth : ∀ x ∈ r :: M, x.length = ns.length) (hnl : ∀ l ∈ hdr ++ ln :: lns, '\n' ∉ l) :
    ∃ d, readDoc T (joinWith ['\n'] (hdr ++ ln :: lns)) = .ok d ∧ Holds d (S.map Sect.mean) ∧ d.data = some (r :: M) := by
  have hS : S ≠ [] := by rintro rfl; exact nomatch hvars
  have hr : r ≠ [] := by
    have := hwidth r (by simp)
    rintro rfl; simp at this; omega
  obtain ⟨s, m, d2, h1, h2, h3⟩ := loop_header T S hS hok hdr hh none {} {} rfl (by
    intro pre s post he hn hx
    have := (needsVars_iff _).1 hn
    exact .inr (hv pre s post he this.1 this.2 hx))
  obtain ⟨hH, _⟩ := holds_foldl (S.map Sect.mean)
  refine ⟨{ (S.map Sect.mean).foldl apply {} with data := some (r :: M) }, ?_,
    ⟨hH.title, hH.vars, hH.text, hH.geometry, hH.labels, hH.varaux, hH.zone, hH.aux⟩, rfl⟩
  rw [readDoc_lines T _ (by simp) hnl, h1, loop_row T r hr ln hfirst lns s m d2 h3, loadData, h2]
  have hvs : ((S.map Sect.mean).foldl apply {}).vars = some ns := by rw [hH.vars, hvars]
  simp only [hvs]
  have hl : loadtxt T (ln :: lns) ns.length = .ok (r :: M) := by
    obtain ⟨rows, e1, e2⟩ := rows_load T M lns hrows
    rw [loadtxt, List.map_cons, loadLine_rowLine T r ln hfirst, allSome, e1]
    simp only [Option.map_some]
    rw [List.filter_cons_of_pos (by simpa using hr), e2]
    obtain ⟨r', M', rfl⟩ := List.exists_cons_of_ne_nil hM
    have h0 := hwidth r (by simp)
    simp only
    rw [if_pos, if_neg (by omega), if_neg (by omega)]
    rw [List.all_eq_true]
    intro x hx
    refine decide_eq_true ?_
    rw [h0]
    exact hwidth x (List.mem_cons_of_mem _ hx)
  rw [hl]

/-- **C90**: a file whose header does not give the variables is refused at its first row of numbers -/
theorem C90_novars (T : Txt F) (S : List (Sect F)) (hdr : List Str) (r : List F) (hr : r ≠ []) (ln : Str) (lns : List Str)
    (hok : ∀ s ∈ S, SectOk T s) (hh : Lines (S.flatMap Sect.texts) hdr) (hno : ∀ s ∈ S, s.mean.sec ≠ .variables)
    (hfirst : RowLine T r ln) (hnl : ∀ l ∈ hdr ++ ln :: lns, '\n' ∉ l) :
    readDoc T (joinWith ['\n'] (hdr ++ ln :: lns)) = .error .wrong := by
  rw [readDoc_lines T _ (by simp) hnl]
  by_cases hS : S = []
  · subst hS
    rw [lines_nil hh T]
    obtain ⟨t, tail, rfl, htail, hnh, hw⟩ := hfirst
    -- no section at all: the row begins with a number, which is no keyword
    have hrow := loop_row T r hr (t ++ tail) ⟨t, tail, rfl, htail, hnh, hw⟩ lns .variables [] {} (by simp [needsVars])
    rw [loop.eq_def] at hrow ⊢
    simp only at hrow ⊢
    by_cases e1 : strip (t ++ tail) = []
    · rw [if_pos e1] at hrow
      exfalso
      have hwl : words (strip (t ++ tail)) ≠ [] := by
        rw [words_strip]
        obtain ⟨x, xs, rfl⟩ := List.exists_cons_of_ne_nil hr
        cases hws : words t with
        | nil => rw [hws] at hw; exact nomatch hw
        | cons w ws =>
          rcases htail with rfl | ⟨c, rfl⟩
          · rw [List.append_nil, hws]; simp
          · rw [words_append _ _ _ isWs_space, hws]; simp
      rw [e1] at hwl
      exact hwl rfl
    · obtain ⟨c, hc1, hc2⟩ := rowLine_head hr hw htail
      have hlh : (lower (strip (t ++ tail))).head? = some c.toLower := by rw [lower_head?, hc1]; rfl
      have hcl : c.toLower ∈ "+-.0123456789ni".toList := by
        have : ∀ c ∈ "+-.0123456789nNiI".toList, c.toLower ∈ "+-.0123456789ni".toList := by decide
        exact this c hc2
      have hnh' : c.toLower ≠ '#' := by
        intro e; rw [e] at hcl; exact absurd hcl (by decide)
      rw [if_neg e1, if_neg (by rw [hlh]; intro e; injection e with e; exact hnh' e), secOf_num _ _ hlh hcl]
  · rcases loop_novars T S hS hok hno hdr hh none {} {} rfl rfl with h | ⟨s, m, d2, d3, _, h1, h2, h3, h4⟩
    · exact h _
    · rw [h1]
      by_cases hn : needsVars s = true
      · obtain ⟨t, tail, rfl, htail, hnh, hw⟩ := hfirst
        obtain ⟨c, hc1, hc2⟩ := rowLine_head hr hw htail
        have hlh : (lower (strip (t ++ tail))).head? = some c.toLower := by rw [lower_head?, hc1]; rfl
        have hcl : c.toLower ∈ "+-.0123456789ni".toList := by
          have : ∀ c ∈ "+-.0123456789nNiI".toList, c.toLower ∈ "+-.0123456789ni".toList := by decide
          exact this c hc2
        have hnh' : c.toLower ≠ '#' := by
          intro e; rw [e] at hcl; exact absurd hcl (by decide)
        have e1 : strip (t ++ tail) ≠ [] := by intro h0; rw [h0] at hc1; exact nomatch hc1
        rw [loop.eq_def]
        simp only
        rw [if_neg e1, if_neg (by rw [hlh]; intro e; injection e with e; exact hnh' e), secOf_num _ _ hlh hcl]
        simp only [hn, h3, Option.isNone_none, Bool.and_self, if_true]
      · rw [loop_row T r hr ln hfirst lns s m d2 (fun e => absurd e hn), loadData, h2]
        simp only [h4]

/-- **C90**: a section other than title and variables that goes on over a second line before the
variables are given is refused, whatever follows -/
theorem C90_early (T : Txt F) (S : List (Sect F)) (s : Sect F) (hdr : List Str) (ln t : Str) (lns : List Str)
    (hok : ∀ x ∈ S ++ [s], SectOk T x) (hh : Lines ((S ++ [s]).flatMap Sect.texts) hdr)
    (hno : ∀ x ∈ S, x.mean.sec ≠ .variables) (hs : s.mean.sec ≠ .title ∧ s.mean.sec ≠ .variables)
    (hln : Shows ln t) (ht : Trimmed t) (hc : t.head? ≠ some '#') (hk : ∀ k : Sec, ¬ k.kw <+: lower t)
    (hnl : ∀ l ∈ hdr ++ ln :: lns, '\n' ∉ l) :
    readDoc T (joinWith ['\n'] (hdr ++ ln :: lns)) = .error .wrong := by
  rw [readDoc_lines T _ (by simp) hnl]
  have hno' : ∀ x ∈ S ++ [s], x.mean.sec ≠ .variables := by
    intro x hx
    rcases List.mem_append.1 hx with hx | hx
    · exact hno x hx
    · rw [List.mem_singleton] at hx; rw [hx]; exact hs.2
  rcases loop_novars T (S ++ [s]) (by simp) hok hno' hdr hh none {} {} rfl rfl with h | ⟨σ, m, d2, d3, h0, h1, h2, h3, h4⟩
  · exact h _
  · rw [List.getLast?_concat] at h0
    injection h0 with h0
    rw [h1]
    exact loop_early T ln t hln ht hc hk lns σ m d2 ((needsVars_iff σ).2 (h0 ▸ hs)) h3

/-- **C90**: a file that does not begin with a section is refused -/
theorem C90_nosection (T : Txt F) (cs : List Str) (ln t : Str) (lns : List Str) (hcs : Lines [] cs)
    (hln : Shows ln t) (ht : Trimmed t) (hc : t.head? ≠ some '#') (hk : ∀ k : Sec, ¬ k.kw <+: lower t)
    (hnl : ∀ l ∈ cs ++ ln :: lns, '\n' ∉ l) :
    readDoc T (joinWith ['\n'] (cs ++ ln :: lns)) = .error .wrong := by
  rw [readDoc_lines T _ (by simp) hnl, lines_nil hcs T, loop_nosection T ln t hln ht hc hk]

/-- **C90**: rows that do not match the number of variables are refused: with `BrokenFormatError` if
all rows have the same length, with `WrongFormatError` otherwise -/
theorem C90_width (T : Txt F) (S : List (Sect F)) (hdr : List Str) (ns : List Str) (r r' : List F) (M : List (List F))
    (ln : Str) (lns : List Str)
    (hok : ∀ s ∈ S, SectOk T s) (hh : Lines (S.flatMap Sect.texts) hdr) (hv : VarsFirst S)
    (hvars : lastVars (S.map Sect.mean) = some ns)
    (hfirst : RowLine T r ln) (hrows : Rows T (r' :: M) lns) (hr : 2 ≤ r.length)
    (hwidth : ∃ x ∈ r :: r' :: M, x.length ≠ ns.length) (hnl : ∀ l ∈ hdr ++ ln :: lns, '\n' ∉ l) :
    readDoc T (joinWith ['\n'] (hdr ++ ln :: lns))
      = .error (if ∀ x ∈ r' :: M, x.length = r.length then .broken else .wrong) := by
  have hS : S ≠ [] := by rintro rfl; exact nomatch hvars
  have hr' : r ≠ [] := by rintro rfl; simp at hr
  obtain ⟨s, m, d2, h1, h2, h3⟩ := loop_header T S hS hok hdr hh none {} {} rfl (by
    intro pre s post he hn hx
    have := (needsVars_iff _).1 hn
    exact .inr (hv pre s post he this.1 this.2 hx))
  obtain ⟨hH, _⟩ := holds_foldl (S.map Sect.mean)
  rw [readDoc_lines T _ (by simp) hnl, h1, loop_row T r hr' ln hfirst lns s m d2 h3, loadData, h2]
  have hvs : ((S.map Sect.mean).foldl apply {}).vars = some ns := by rw [hH.vars, hvars]
  simp only [hvs]
  have hl : loadtxt T (ln :: lns) ns.length
      = .error (if ∀ x ∈ r' :: M, x.length = r.length then .broken else .wrong) := by
    obtain ⟨rows, e1, e2⟩ := rows_load T (r' :: M) lns hrows
    rw [loadtxt, List.map_cons, loadLine_rowLine T r ln hfirst, allSome, e1]
    simp only [Option.map_some]
    rw [List.filter_cons_of_pos (by simpa using hr'), e2]
    simp only
    by_cases hall : ∀ x ∈ r' :: M, x.length = r.length
    · rw [if_pos hall, if_pos, if_neg (by omega), if_pos]
      · obtain ⟨x, hx, hne⟩ := hwidth
        intro e
        rcases List.mem_cons.1 hx with rfl | hx
        · exact hne e
        · exact hne ((hall x hx).trans e)
      · rw [List.all_eq_true]
        intro x hx
        exact decide_eq_true (hall x hx)
    · rw [if_neg hall, if_neg]
      intro h
      rw [List.all_eq_true] at h
      exact hall fun x hx => of_decide_eq_true (h x hx)
  rw [hl]

/-! ### Example -/

theorem trimmed_of {t : Str} (h : t ≠ []) (h1 : t.head?.all (fun c => !isWs c) = true)
    (h2 : t.getLast?.all (fun c => !isWs c) = true) : Trimmed t := by
  refine ⟨h, fun c hc => ?_, fun c hc => ?_⟩
  · rw [hc] at h1; simpa using h1
  · rw [hc] at h2; simpa using h2

/-- the sections of the example -/
def exSects : List (Sect Nat) :=
  [⟨.title "= my wind".toList, "Title".toList, " = my".toList, ["wind".toList]⟩,
   ⟨.vars ["x_[m]".toList, "y".toList], "VARIABLES".toList, " = x_[m] ,".toList, ["y".toList]⟩,
   ⟨.zone "T".toList (.txt "a b".toList), "ZONE".toList, " T= \"a b\"".toList, []⟩,
   ⟨.zone "I".toList (.num 3), "zone".toList, " I=3".toList, []⟩,
   ⟨.zone "T".toList (.txt "c".toList), "ZONE".toList, " T=c".toList, []⟩]

/-- the header of the example -/
def exHdr : List Str :=
  ["# a test".toList, "  Title = my".toList, "wind ".toList, "VARIABLES = x_[m] ,".toList, "#".toList, "  y".toList,
   "ZONE T= \"a b\"".toList, "zone I=3".toList, "ZONE T=c".toList]

theorem stable_y : Stable "y".toList := by
  refine ⟨by decide, by decide, ?_⟩
  intro p b q h hb
  have hlen := congrArg List.length h
  rw [List.length_append, List.length_cons] at hlen
  have h5 : "y".toList.length = 1 := rfl
  have hp : p = [] := List.length_eq_zero_iff.1 (by omega)
  subst hp
  have : 'y' = b := by injection h
  subst this
  exact absurd hb (by decide)

theorem exOk : ∀ s ∈ exSects, SectOk exTxt s := by
  intro s hs
  simp only [exSects, List.mem_cons, List.not_mem_nil, or_false] at hs
  rcases hs with rfl | rfl | rfl | rfl | rfl
  · refine ⟨by decide, trimmed_of (by decide) (by decide) (by decide), ?_, ?_⟩
    · intro t ht
      rw [List.mem_singleton] at ht
      subst ht
      exact ⟨trimmed_of (by decide) (by decide) (by decide), by decide, by intro k; cases k <;> decide, by decide⟩
    · exact .title _
  · refine ⟨by decide, trimmed_of (by decide) (by decide) (by decide), ?_, ?_⟩
    · intro t ht
      rw [List.mem_singleton] at ht
      subst ht
      exact ⟨trimmed_of (by decide) (by decide) (by decide), by decide, by intro k; cases k <;> decide, by decide⟩
    · refine Content.plain _ "= ".toList ("x_[m]".toList ++ (" , ".toList ++ "y".toList)) ?_ (.inr ⟨1, rfl⟩)
        (.cons _ _ [] _ _ (by decide) (by decide) (.one _))
      intro n hn
      simp only [List.mem_cons, List.not_mem_nil, or_false] at hn
      rcases hn with rfl | rfl
      · exact ⟨by unfold NoSeps; decide, stable_x, by unfold IsWord; decide⟩
      · exact ⟨by unfold NoSeps; decide, stable_y, by unfold IsWord; decide⟩
  · exact ⟨by decide, trimmed_of (by decide) (by decide) (by decide), by simp,
      .zone "T".toList _ _ 1 (by decide) (.qtxt "a b".toList (by decide) (by decide) (by decide) (by decide))⟩
  · exact ⟨by decide, trimmed_of (by decide) (by decide) (by decide), by simp,
      .zone "I".toList _ _ 0 (by decide) (.num 3 "3".toList (by decide) (by decide) (by decide) (by decide) (by decide))⟩
  · exact ⟨by decide, trimmed_of (by decide) (by decide) (by decide), by simp,
      .zone "T".toList _ _ 0 (by decide) (.txt "c".toList (by decide) (by decide) (by decide) (by decide))⟩

theorem exLines : Lines (exSects.flatMap Sect.texts) exHdr := by
  have tr : ∀ t : Str, t ≠ [] ∧ t.head?.all (fun c => !isWs c) = true ∧ t.getLast?.all (fun c => !isWs c) = true →
      Trimmed t := fun t h => trimmed_of h.1 h.2.1 h.2.2
  have sh : ∀ a b ln t : Str, (∀ c ∈ a ++ b, isWs c = true ∧ c ≠ '\n') ∧ ln = a ++ (t ++ b) → Shows ln t :=
    fun a b ln t h => ⟨a, b, fun c hc => h.1 c (by simp [hc]), fun c hc => h.1 c (by simp [hc]), h.2⟩
  exact .comment _ " a test".toList _ _ (sh [] [] _ _ (by decide)) (tr _ (by decide))
    (.text _ "Title = my".toList _ _ (sh "  ".toList [] _ _ (by decide))
    (.text _ "wind".toList _ _ (sh [] " ".toList _ _ (by decide))
    (.text _ "VARIABLES = x_[m] ,".toList _ _ (sh [] [] _ _ (by decide))
    (.comment _ [] _ _ (sh [] [] _ _ (by decide)) (tr _ (by decide))
    (.text _ "y".toList _ _ (sh "  ".toList [] _ _ (by decide))
    (.text _ "ZONE T= \"a b\"".toList _ _ (sh [] [] _ _ (by decide))
    (.text _ "zone I=3".toList _ _ (sh [] [] _ _ (by decide))
    (.text _ "ZONE T=c".toList _ _ (sh [] [] _ _ (by decide)) .nil))))))))

theorem exVarsFirst : VarsFirst exSects := by
  intro pre s post h h1 h2 hx
  rcases pre with _ | ⟨a, _ | ⟨b, pre⟩⟩
  · injection h with h _; subst h; exact absurd rfl h1
  · injection h with _ h; injection h with h _; subst h; exact absurd rfl h2
  · injection h with _ h; injection h with h _
    subst h
    exact ⟨_, List.mem_cons_of_mem _ List.mem_cons_self, rfl⟩

theorem exNum : ∀ n < 10, NumWord exTxt n [Char.ofNat (48 + n)] := by
  intro n hn
  refine ⟨?_, ?_, ?_, ?_, _, rfl, ?_⟩
  · unfold IsWord; revert n; decide
  · revert n; decide
  · revert n; decide
  · revert n; decide
  · revert n; decide

example : (∀ s ∈ exSects, SectOk exTxt s) ∧ Lines (exSects.flatMap Sect.texts) exHdr ∧ VarsFirst exSects ∧
    lastVars (exSects.map Sect.mean) = some ["x_[m]".toList, "y".toList] ∧ RowLine exTxt [1, 2] "1 2".toList ∧
    Rows exTxt [[3, 4]] ["  ".toList, " 3\t4 # last".toList, []] :=
  ⟨exOk, exLines, exVarsFirst, by decide,
   ⟨"1 2".toList, [], rfl, .inl rfl, by decide, .cons (exNum 1 (by decide)) (.cons (exNum 2 (by decide)) .nil)⟩,
   .skip _ _ _ (.inl (by unfold Blank; decide)) (.row _ _ _ _ (by decide)
    ⟨" 3\t4".toList, " # last".toList, rfl, .inr ⟨_, rfl⟩, by decide,
      .cons (exNum 3 (by decide)) (.cons (exNum 4 (by decide)) .nil)⟩
    (.skip _ _ _ (.inl (by unfold Blank; decide)) .nil))⟩

example : readDoc exTxt (joinWith ['\n'] (exHdr ++ ["1 2".toList, "  ".toList, " 3\t4 # last".toList, []]))
    = .ok { doc (some "= my wind".toList) ["x_[m]".toList, "y".toList] [[1, 2], [3, 4]] with
        zone := some [("T".toList, .txt "c".toList), ("I".toList, .num 3)] } := by decide +kernel

-- C90: a zone that goes on before the variables; a title without variables; too many numbers
example : (∀ x ∈ ([] : List (Sect Nat)) ++ [⟨.zone "T".toList (.txt "a b".toList), "ZONE".toList, " T= \"a b\"".toList, []⟩],
    SectOk exTxt x) ∧ Shows " I=3".toList "I=3".toList ∧ Trimmed "I=3".toList ∧ ∀ k : Sec, ¬ k.kw <+: lower "I=3".toList := by
  refine ⟨fun x hx => ?_, ⟨" ".toList, [], by unfold Blank; decide, by unfold Blank; decide, rfl⟩,
    trimmed_of (by decide) (by decide) (by decide), by intro k; cases k <;> decide⟩
  rw [List.nil_append, List.mem_singleton] at hx
  exact exOk x (by simp [exSects, hx])
example : readDoc exTxt "ZONE T= \"a b\"\n I=3\nVARIABLES = x y\n1 2\n3 4".toList = .error .wrong := by decide +kernel
example : readDoc exTxt "TITLE = a\n1 2\n3 4".toList = .error .wrong := by decide +kernel
example : readDoc exTxt "VARIABLES = x y\n1 2 3\n3 4 5".toList = .error .broken := by decide +kernel
example : readDoc exTxt "# data\n1 2\n3 4".toList = .error .wrong := by decide +kernel

/-! ### Long rows -/

theorem words_nl (a b : Str) : words (a ++ '\n' :: b) = words a ++ words b := words_append a '\n' b (by decide)

theorem words_wrap (ws : List Str) (u : Str) :
    words (joinWith ['\n'] (wrap (u ++ [' ']) ws)) = words u ++ ws.flatMap words := by
  have hu : ∀ u : Str, words (rstrip (u ++ [' '])) = words u := fun u => by
    rw [rstrip, words_rstrip, words_append_ws _ _ isWs_space]
  have hj : ∀ (a : Str) (l : List Str), l ≠ [] → words (joinWith ['\n'] (a :: l)) = words a ++ words (joinWith ['\n'] l) := by
    intro a l hl
    rw [joinWith_cons _ _ _ hl, List.append_assoc, List.singleton_append, words_nl]
  have hne : ∀ ws line, wrap line ws ≠ [] := by
    intro ws
    induction ws with
    | nil => intro line; simp [wrap]
    | cons w ws ih =>
      intro line
      cases ws with
      | nil => rw [wrap]; split <;> simp
      | cons w' ws => rw [wrap]; split <;> simp [ih]
  induction ws generalizing u with
  | nil => rw [wrap]; show words (u ++ [' ']) = _; rw [words_append_ws _ _ isWs_space]; simp
  | cons w ws ih =>
    cases ws with
    | nil =>
      rw [wrap]
      split
      · rw [hj _ _ (by simp), hu]
        show _ ++ words (' ' :: w) = _
        rw [words_cons_ws _ _ isWs_space]; simp
      · show words (u ++ [' '] ++ w) = _
        rw [List.append_assoc, List.singleton_append, words_append _ _ _ isWs_space]; simp
    | cons w' ws =>
      rw [wrap]
      split
      · rw [hj _ _ (hne _ _), hu]
        have := ih (' ' :: w)
        rw [words_cons_ws _ _ isWs_space] at this
        have e : ' ' :: w ++ [' '] = (' ' :: w) ++ [' '] := rfl
        rw [e, this]; simp
      · have := ih (u ++ [' '] ++ w)
        rw [this, List.append_assoc, List.singleton_append, words_append _ _ _ isWs_space]; simp

theorem wrap_length (ws : List Str) (line : Str) (hl : line.length ≤ 75) (he : line.getLast? = some ' ')
    (hn : ws ≠ []) (hw : ∀ w ∈ ws, w.length ≤ 73) : ∀ l ∈ wrap line ws, l.length ≤ 74 := by
  have hr : ∀ line : Str, line.length ≤ 75 → line.getLast? = some ' ' → (rstrip line).length ≤ 74 := by
    intro line h1 h2
    obtain ⟨u, rfl⟩ := List.getLast?_eq_some_iff.1 h2
    have : rstrip (u ++ [' ']) = rstrip u := by
      unfold rstrip rstripBy
      rw [List.reverse_append]
      show (List.dropWhile isWs (' ' :: u.reverse)).reverse = _
      rw [List.dropWhile_cons_of_pos (by decide)]
    rw [this]
    obtain ⟨v, hv, _⟩ := rstripBy_append isWs u
    have h3 := congrArg List.length hv
    rw [List.length_append] at h3
    rw [List.length_append, List.length_singleton] at h1
    show (rstripBy isWs u).length ≤ 74
    omega
  induction ws generalizing line with
  | nil => exact absurd rfl hn
  | cons w ws ih =>
    have h73 := hw w (by simp)
    cases ws with
    | nil =>
      intro l h
      rw [wrap] at h
      split at h
      · simp only [List.mem_cons, List.not_mem_nil, or_false] at h
        rcases h with rfl | rfl
        · exact hr _ hl he
        · rw [List.length_cons]; omega
      · rw [List.mem_singleton] at h
        subst h
        rw [List.length_append]; omega
    | cons w' ws =>
      intro l h
      rw [wrap] at h
      split at h
      · rcases List.mem_cons.1 h with rfl | h
        · exact hr _ hl he
        · refine ih _ ?_ ?_ (by simp) (fun x hx => hw x (by simp [hx])) l h
          · simp; omega
          · rw [List.getLast?_concat]
      · refine ih _ ?_ ?_ (by simp) (fun x hx => hw x (by simp [hx])) l h
        · simp; omega
        · rw [List.getLast?_concat]

/-- **C63**, long rows: the text of a row holds the words of all its numbers in order, however many
lines it takes -/
theorem C63_row (T : Txt F) (row : List F) : words (rowText T row) = (T.fmt row).flatMap words := by
  have h := words_wrap (T.fmt row) []
  have hd : ∀ s : Str, (∀ c, s.head? = some c → isWs c = true) → words (s.drop 1) = words s := by
    intro s hs
    cases s with
    | nil => rfl
    | cons c s => rw [words_cons_ws _ _ (hs c rfl)]; rfl
  have hpre : ∀ ws line, line.head? = some ' ' → ∃ l ls, wrap line ws = l :: ls ∧ (l = [] ∨ l.head? = some ' ') := by
    intro ws
    have hr : ∀ line : Str, line.head? = some ' ' → rstrip line = [] ∨ (rstrip line).head? = some ' ' := by
      intro line hl
      obtain ⟨v, hv, _⟩ := rstripBy_append isWs line
      cases hc : rstrip line with
      | nil => exact .inl rfl
      | cons a b =>
        right
        have hc' : rstripBy isWs line = a :: b := hc
        rw [hc'] at hv
        rw [hv] at hl
        exact hl
    induction ws with
    | nil => intro line hl; exact ⟨line, [], rfl, .inr hl⟩
    | cons w ws ih =>
      intro line hl
      have ha : ∀ x : Str, (line ++ x).head? = some ' ' := fun x => by rw [List.head?_append, hl]; rfl
      cases ws with
      | nil =>
        rw [wrap]
        split
        · exact ⟨_, _, rfl, hr line hl⟩
        · exact ⟨_, _, rfl, .inr (ha _)⟩
      | cons w' ws =>
        rw [wrap]
        split
        · exact ⟨_, _, rfl, hr line hl⟩
        · exact ih _ (by rw [List.append_assoc]; exact ha _)
  rw [rowText, hd, show ([' '] : Str) = [] ++ [' '] from rfl, h, words_nil, List.nil_append]
  intro c hc
  obtain ⟨l, ls, e, hl⟩ := hpre (T.fmt row) [' '] rfl
  rw [e] at hc
  cases ls with
  | nil =>
    rcases hl with rfl | hl
    · exact nomatch hc
    · have hc : l.head? = some c := hc
      rw [hl] at hc; injection hc with hc; rw [← hc]; decide
  | cons x ls =>
    have hc : (l ++ ['\n'] ++ joinWith ['\n'] (x :: ls)).head? = some c := hc
    rcases hl with rfl | hl
    · have hc : some '\n' = some c := hc
      injection hc with hc; rw [← hc]; decide
    · rw [List.append_assoc, List.head?_append, hl] at hc
      injection hc with hc; rw [← hc]; decide

/-- **C63**, long rows: no line of the text is longer than 74 characters -/
theorem C63_lines (T : Txt F) (row : List F) (hne : T.fmt row ≠ []) (hw : ∀ w ∈ T.fmt row, w.length ≤ 73) :
    ∃ ls, rowText T row = (joinWith ['\n'] ls).drop 1 ∧ ∀ l ∈ ls, l.length ≤ 74 :=
  ⟨_, rfl, wrap_length _ _ (by simp) rfl hne hw⟩

example : exTxt.fmt (List.replicate 40 1) ≠ [] ∧ (∀ w ∈ exTxt.fmt (List.replicate 40 1), w.length ≤ 73) ∧
    '\n' ∈ rowText exTxt (List.replicate 40 1) := by decide +kernel

end Verif.Tecplot
