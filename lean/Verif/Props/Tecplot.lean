import Verif.Lemmas.Tecplot
/-!
# C42, C63, C64: Tecplot files

C42 the title, C63 variables and data, C64 zones and auxiliary data over write/read cycles.
-/
namespace Verif.Tecplot
open Verif.Py

/-- a document with a title, variables and data only -/
def doc (t : Option Str) (vs : List Str) (M : List (List F)) : Doc F :=
  { title := t, vars := some vs, data := some M }

/-- a table that can be written: at least two rows and columns, faithful texts on one line each -/
structure TableOk (T : Txt F) (vs : List Str) (M : List (List F)) : Prop where
  rows : 2 ≤ M.length
  cols : 2 ≤ vs.length
  width : ∀ r ∈ M, r.length = vs.length
  texts : ∀ r ∈ M, RowOk T r
  names : ∀ n ∈ vs, NameOk n

theorem loadData_written (T : Txt F) (t : Option Str) (vs : List Str) (M : List (List F)) (h : TableOk T vs M) :
    loadData T (some (.variables, "VARIABLES".toList ++ rstripBy isWs (" = ".toList ++ Q ',' vs))) { title := t }
        (M.map (fun r => joinWith [' '] (T.fmt r)) ++ [[]])
      = .ok (doc t (vs.map norm) M) := by
  have hne : vs ≠ [] := by
    have := h.cols
    rintro rfl; simp at this
  have hp : process T .variables ("VARIABLES".toList ++ rstripBy isWs (" = ".toList ++ Q ',' vs)) { title := t }
      = .ok { title := t, vars := some (vs.map norm) } := by
    have e : strip (List.drop (Sec.kw .variables).length ("VARIABLES".toList ++ rstripBy isWs (" = ".toList ++ Q ',' vs)))
        = "= ".toList ++ Q ',' vs := by
      show strip (rstripBy isWs (" = ".toList ++ Q ',' vs)) = _
      rw [strip_rstrip]
      show strip (' ' :: '=' :: ' ' :: Q ',' vs) = _
      rw [strip_cons_ws _ _ isWs_space]
      obtain ⟨_, h2⟩ := Q_ends ',' vs hne
      apply stripBy_eq_self
      · intro c hc; injection hc with hc; rw [← hc]; decide
      · intro c hc
        rw [List.getLast?_cons, List.getLast?_cons, h2] at hc
        injection hc with hc
        rw [← hc]; decide
    rw [process]
    simp only [e, procVars_written vs hne h.names]
  rw [loadData, flush]
  simp only [hp, List.length_map]
  rw [loadtxt_rows T M _ h.cols h.rows h.width h.texts]
  rfl

theorem splitOn_lines (ls : List Str) (h : ∀ l ∈ ls, '\n' ∉ l) :
    splitOn '\n' (ls.flatMap (· ++ ['\n'])) = ls ++ [[]] := by
  induction ls with
  | nil => rfl
  | cons l t ih =>
    have : (l :: t).flatMap (· ++ ['\n']) = l ++ '\n' :: t.flatMap (· ++ ['\n']) := by simp
    rw [this, splitOn_append _ _ _ (h l (by simp)), ih (fun x hx => h x (by simp [hx]))]
    rfl

/-- **C42/C63**: what one write/read cycle gives: the data unchanged, the title with an equals sign
in front, the names with their brackets marked -/
theorem C63_cycle (T : Txt F) (t : Option Str) (vs : List Str) (M : List (List F)) (h : TableOk T vs M)
    (ht : ∀ s, t = some s → '\n' ∉ s) :
    cycle T (doc t vs M) = .ok (doc (t.map fun s => strip (" = ".toList ++ s)) (vs.map norm) M) := by
  have hq : '\n' ∉ Q ',' vs := by
    intro hm
    rcases mem_joinWith _ _ _ hm with hm | ⟨s, hs, hm⟩
    · exact absurd hm (by decide)
    · obtain ⟨n, hn, rfl⟩ := List.mem_map.1 hs
      have := (h.names n hn).2.2.2.1
      rw [quoted, List.mem_cons, List.mem_append] at hm
      rcases hm with hm | hm | hm
      · exact absurd hm (by decide)
      · exact this hm
      · exact absurd hm (by decide)
  have hrow : ∀ r ∈ M, r ≠ [] := by
    intro r hr e
    have := h.width r hr
    have h2 := h.cols
    rw [e, List.length_nil] at this
    omega
  have hrows : M.map (rowText T) = M.map (fun r => joinWith [' '] (T.fmt r)) :=
    List.map_congr_left fun r hr => rowText_fits T r (hrow r hr) (h.texts r hr)
  have hnl : ∀ l ∈ M.map (fun r => joinWith [' '] (T.fmt r)), '\n' ∉ l := by
    intro l hl
    obtain ⟨r, hr, rfl⟩ := List.mem_map.1 hl
    exact row_noChar (h.texts r hr).1 _ (.inr rfl)
  obtain ⟨r, rs, hM⟩ : ∃ r rs, M = r :: rs := by
    have := h.rows
    cases M with
    | nil => simp at this
    | cons r rs => exact ⟨r, rs, rfl⟩
  obtain ⟨x, xs, hr⟩ : ∃ x xs, r = x :: xs := by
    cases r with
    | nil => exact absurd rfl (hrow [] (by rw [hM]; simp))
    | cons x xs => exact ⟨x, xs, rfl⟩
  have hdata : ∀ t : Option Str, loop T (M.map (fun r => joinWith [' '] (T.fmt r)) ++ [[]])
      (some (.variables, "VARIABLES".toList ++ rstripBy isWs (" = ".toList ++ Q ',' vs))) { title := t }
      = .ok (doc t (vs.map norm) M) := by
    intro t
    have hl := loadData_written T t vs M h
    have hok := h.texts r (by rw [hM]; simp)
    rw [hr] at hok
    rw [hM, hr, List.map_cons, List.cons_append, loop_data T x xs hok _ _ _ _ rfl]
    rw [hM, hr, List.map_cons, List.cons_append] at hl
    exact hl
  have hv : "VARIABLES = ".toList ++ Q ',' vs = "VARIABLES".toList ++ (" = ".toList ++ Q ',' vs) := by
    rw [← List.append_assoc]; rfl
  have hnv : '\n' ∉ "VARIABLES = ".toList ++ Q ',' vs := by
    rw [List.mem_append]
    rintro (hm | hm)
    · exact absurd hm (by decide)
    · exact hq hm
  cases t with
  | none =>
    have hw : writeDoc T (doc none vs M)
        = .ok ((("VARIABLES = ".toList ++ Q ',' vs) :: M.map (fun r => joinWith [' '] (T.fmt r))).flatMap (· ++ ['\n'])) := by
      rw [← hrows]; simp [writeDoc, doc, keyLine, Q]
    rw [cycle, hw]
    simp only
    rw [readDoc, splitOn_lines, List.cons_append, hv, loop_variables T _ _ none {} {} rfl]
    · exact hdata none
    · intro l hl
      rcases List.mem_cons.1 hl with rfl | hl
      · exact hnv
      · exact hnl l hl
  | some s =>
    have hs := ht s rfl
    have hw : writeDoc T (doc (some s) vs M)
        = .ok ((("TITLE = ".toList ++ s) :: ("VARIABLES = ".toList ++ Q ',' vs) ::
          M.map (fun r => joinWith [' '] (T.fmt r))).flatMap (· ++ ['\n'])) := by
      rw [← hrows]; simp [writeDoc, doc, keyLine, Q]
    have hts : "TITLE = ".toList ++ s = "TITLE".toList ++ (" = ".toList ++ s) := by
      rw [← List.append_assoc]; rfl
    have hfl : flush T (some (.title, "TITLE".toList ++ rstripBy isWs (" = ".toList ++ s))) ({} : Doc F)
        = .ok { title := some (strip (" = ".toList ++ s)) } := by
      have e : strip (List.drop (Sec.kw .title).length ("TITLE".toList ++ rstripBy isWs (" = ".toList ++ s)))
          = strip (" = ".toList ++ s) := by
        show strip (rstripBy isWs (" = ".toList ++ s)) = _
        rw [strip_rstrip]
      rw [flush]
      simp only [process]
      rw [e]
    rw [cycle, hw]
    simp only
    rw [readDoc, splitOn_lines, List.cons_append, List.cons_append, hv, hts, loop_title,
      loop_variables T _ _ _ _ _ hfl]
    · exact hdata _
    · intro l hl
      rcases List.mem_cons.1 hl with rfl | hl
      · rw [List.mem_append]
        rintro (hm | hm)
        · exact absurd hm (by decide)
        · exact hs hm
      · rcases List.mem_cons.1 hl with rfl | hl
        · exact hnv
        · exact hnl l hl

/-- **C42 is violated by every title**: the title read back is never the title written -/
theorem C42_fails (T : Txt F) (t : Str) (vs : List Str) (M : List (List F)) (h : TableOk T vs M) (ht : '\n' ∉ t) :
    ∃ t' d, cycle T (doc (some t) vs M) = .ok d ∧ d.title = some t' ∧ t' ≠ t := by
  refine ⟨strip (" = ".toList ++ t), _, C63_cycle T _ vs M h (by rintro s ⟨⟩; exact ht), rfl, ?_⟩
  intro e
  have hc := strip_count (" = ".toList ++ t) '=' (by decide)
  rw [e, List.count_append] at hc
  have : (" = ".toList).count '=' = 1 := by decide
  omega

/-- `n` cycles -/
def cycles (T : Txt F) : Nat → Doc F → Except Err (Doc F)
  | 0, d => .ok d
  | n + 1, d => match cycle T d with
    | .error e => .error e
    | .ok d => cycles T n d

/-- **C42**, what does hold: after `n` cycles the title is the given one behind `n` equals signs,
the rest of the file is unchanged. (Missing for the full property: the title itself.) -/
theorem C42_partial (T : Txt F) (n : Nat) (t : Str) (vs : List Str) (M : List (List F)) (h : TableOk T vs M)
    (hst : ∀ v ∈ vs, Stable v) (ht : '\n' ∉ t) (hs : strip t = t) (hne : t ≠ []) :
    cycles T n (doc (some t) vs M)
      = .ok (doc (some ((List.replicate n "= ".toList).flatten ++ t)) vs M) := by
  induction n generalizing t with
  | zero => rfl
  | succ n ih =>
    have hv : vs.map norm = vs := by
      conv => rhs; rw [← List.map_id vs]
      exact List.map_congr_left fun v hv => norm_stable v (hst v hv)
    have hlast : ∀ c, t.getLast? = some c → isWs c = false := by
      intro c hc
      have h1 : strip t = rstripBy isWs (lstripBy isWs t) := rfl
      obtain ⟨u, hu⟩ := List.getLast?_eq_some_iff.1 hc
      by_contra hw
      have hw : isWs c = true := by simpa using hw
      have h2 : (lstripBy isWs t).length ≤ t.length := (List.dropWhile_suffix isWs).length_le
      have h3 : (rstripBy isWs (lstripBy isWs t)).length < t.length := by
        by_cases hl : lstripBy isWs t = t
        · rw [hl, hu, rstripBy, List.reverse_append, List.length_reverse]
          show (List.dropWhile isWs (c :: u.reverse)).length < _
          rw [List.dropWhile_cons_of_pos hw]
          have := (List.dropWhile_suffix isWs (l := u.reverse)).length_le
          simp at this ⊢; omega
        · obtain ⟨v, hv, _⟩ := rstripBy_append isWs (lstripBy isWs t)
          have hlen : (lstripBy isWs t).length < t.length := by
            refine lt_of_le_of_ne h2 fun e => hl ?_
            exact (List.dropWhile_suffix isWs).eq_of_length e
          have := congrArg List.length hv
          rw [List.length_append] at this
          omega
      rw [← h1, hs] at h3
      omega
    have hstrip : strip (" = ".toList ++ t) = "= ".toList ++ t := by
      show strip (' ' :: '=' :: ' ' :: t) = _
      rw [strip_cons_ws _ _ isWs_space]
      apply stripBy_eq_self
      · intro c hc; injection hc with hc; rw [← hc]; decide
      · intro c hc
        obtain ⟨l, hl⟩ : ∃ l, t.getLast? = some l := by
          rw [List.getLast?_eq_some_getLast hne]; exact ⟨_, rfl⟩
        rw [List.getLast?_cons, List.getLast?_cons, hl] at hc
        injection hc with hc
        rw [← hc]; exact hlast l hl
    have hc := C63_cycle T (some t) vs M h (by rintro s ⟨⟩; exact ht)
    rw [cycles, hc, hv]
    simp only [Option.map_some, hstrip]
    rw [ih]
    · congr 3
      rw [← List.append_assoc]
      congr 1
      rw [List.replicate_succ', List.flatten_append]
      simp
    · rw [List.mem_append]
      rintro (hm | hm)
      · exact absurd hm (by decide)
      · exact ht hm
    · rw [← hstrip]
      have : strip (strip (" = ".toList ++ t)) = strip ("= ".toList ++ t) := by rw [hstrip]
      rw [this]
      show _ = strip (' ' :: ("= ".toList ++ t))
      rw [strip_cons_ws _ _ isWs_space]
    · simp

/-! ### Example texts: digits -/

/-- numbers below ten, written as one digit -/
abbrev exTxt : Txt Nat where
  fmt := fun row => row.map fun n => [Char.ofNat (48 + n)]
  dec := fun s => match s with
    | [c] => if '0' ≤ c ∧ c ≤ '9' then some (c.toNat - 48) else none
    | _ => none
  isNum := fun s => match s with
    | [c] => '0' ≤ c ∧ c ≤ '9'
    | _ => false
  dict := fun d => '{' :: (d.flatMap (fun p => p.1 ++ ':' :: (match p.2 with | .txt s => s | .num _ => "0".toList))) ++ ['}']

theorem exTable : TableOk exTxt ["x_[m]".toList, "y".toList] [[1, 2], [3, 4], [5, 6]] := by
  have hd : ∀ n < 10, NumText exTxt n [Char.ofNat (48 + n)] := by
    intro n hn
    refine ⟨0, 0, [Char.ofNat (48 + n)], by simp, ?_, ?_, ?_, ?_, _, rfl, ?_⟩
    · unfold IsWord; revert n; decide
    · revert n; decide
    · revert n; decide
    · revert n; decide
    · revert n; decide
  refine ⟨by decide, by decide, by decide, ?_, by unfold NameOk; decide⟩
  intro r hr
  simp only [List.mem_cons, List.not_mem_nil, or_false] at hr
  refine ⟨?_, ?_⟩
  · rcases hr with rfl | rfl | rfl <;>
      exact .cons (hd _ (by decide)) (.cons (hd _ (by decide)) .nil)
  · rcases hr with rfl | rfl | rfl <;> decide

example : ('\n' ∉ "Wind".toList) ∧ strip "Wind".toList = "Wind".toList ∧ "Wind".toList ≠ [] := by decide
example : cycle exTxt (doc (some "Wind".toList) ["x_[m]".toList, "y".toList] [[1, 2], [3, 4], [5, 6]])
    = .ok (doc (some "= Wind".toList) ["x_[m]".toList, "y".toList] [[1, 2], [3, 4], [5, 6]]) := by decide +kernel

/-- executable form of `Stable` for the examples -/
theorem stable_x : Stable "x_[m]".toList := by
  refine ⟨by decide, by decide, ?_⟩
  intro p b q h hb
  have hlen := congrArg List.length h
  rw [List.length_append, List.length_cons] at hlen
  have h5 : "x_[m]".toList.length = 5 := rfl
  rw [h5] at hlen
  have hbi : "x_[m]".toList[p.length]? = some b := by rw [h]; simp
  have hp : p = "x_[m]".toList.take p.length := by rw [h]; simp
  have hl : p.length < 5 := by omega
  have key : ∀ i < 5, ("x_[m]".toList[i]? = some '[' ∨ "x_[m]".toList[i]? = some '(') →
      ("x_[m]".toList.take i).getLast? = some '_' := by decide
  rw [hp]
  apply key _ hl
  rw [hbi]
  simpa using hb

/-! ### C63 -/

/-- C63 fails: a unit in brackets behind a blank gets an underscore -/
theorem C63_name_fails : cycle exTxt (doc none ["t [s]".toList, "y".toList] [[1, 2], [3, 4]])
    = .ok (doc none ["t _[s]".toList, "y".toList] [[1, 2], [3, 4]]) := by decide +kernel

/-- C63 fails: without data the variables are not read at all -/
theorem C63_nodata_fails :
    cycle exTxt { title := none, vars := some ["x".toList, "y".toList] } = .ok {} := by decide +kernel

/-- C63 fails: a table with one row, or one column, cannot be read back -/
theorem C63_small_fails :
    cycle exTxt (doc none ["x".toList, "y".toList] [[1, 2]]) = .error .wrong ∧
    cycle exTxt (doc none ["x".toList] [[1], [2]]) = .error .wrong := by decide +kernel

/-- C63 fails: rows of more than 73 characters are wrapped and cannot be read back -/
theorem C63_wide_fails :
    cycle exTxt (doc none (List.replicate 40 "x".toList) [List.replicate 40 1, List.replicate 40 2]) = .error .wrong := by
  decide +kernel

/-- **C63**: names without doubled blanks or underscores, with an underscore before each bracket and
without quotes, commas and equals signs, and the data, survive writing and reading.
(Missing for the full property: other names, tables without rows, with one row or one column, rows
of more than 73 characters.) -/
theorem C63_partial (T : Txt F) (vs : List Str) (M : List (List F)) (h : TableOk T vs M)
    (hst : ∀ v ∈ vs, Stable v) : cycle T (doc none vs M) = .ok (doc none vs M) := by
  have hv : vs.map norm = vs := by
    conv => rhs; rw [← List.map_id vs]
    exact List.map_congr_left fun v hv => norm_stable v (hst v hv)
  have := C63_cycle T none vs M h (by intro s hs; exact nomatch hs)
  rwa [hv] at this

example : TableOk exTxt ["x_[m]".toList, "y".toList] [[1, 2], [3, 4], [5, 6]] ∧ Stable "x_[m]".toList :=
  ⟨exTable, stable_x⟩

/-! ### C64 -/

/-- C64 fails: a zone read from a file is written so that it is read back differently -/
theorem C64_fails :
    readDoc exTxt "VARIABLES = x y\nZONE T=\"a\"\n1 2\n3 4\n".toList
      = .ok { doc none ["x".toList, "y".toList] [[1, 2], [3, 4]] with zone := some [("T".toList, .txt "a".toList)] } ∧
    cycle exTxt
        { doc none ["x".toList, "y".toList] [[1, 2], [3, 4]] with zone := some [("T".toList, .txt "a".toList)] }
      = .ok { doc none ["x".toList, "y".toList] [[1, 2], [3, 4]] with zone := some [([], .txt "{T:a}".toList)] } := by
  decide +kernel

/-- C64 fails: of several settings on one zone line only the first is read, with a wrong value -/
theorem C64_multi_fails :
    readDoc exTxt "VARIABLES = x y\nZONE T=\"a\", I=3\n1 2\n3 4\n".toList
      = .ok { doc none ["x".toList, "y".toList] [[1, 2], [3, 4]] with
        zone := some [("T".toList, .txt "a, I".toList)] } := by decide +kernel

/-- a line `key="value"` -/
theorem procPair_quoted (T : Txt F) (k v : Str) (hk : '=' ∉ k) (hv : '=' ∉ v) (hq : '"' ∉ v) (hs : strip v = v)
    (hn : T.isNum v = false) : procPair T (k ++ '=' :: quoted v) = .ok (k, .txt v) := by
  have e : splitOn '=' (k ++ '=' :: quoted v) = [k, quoted v] := by
    rw [splitOn_append _ _ _ hk, splitOn_noSep]
    rw [quoted, List.mem_cons, List.mem_append]
    rintro (h | h | h)
    · exact absurd h (by decide)
    · exact hv h
    · exact absurd h (by decide)
  have e2 : replaceChar '"' [] (quoted v) = v := by
    rw [quoted, replaceChar_cons, if_pos rfl, replaceChar_append, replaceChar_none _ _ _ hq]
    simp [replaceChar]
  rw [procPair, e]
  simp only [e2, hs, hn, Bool.false_eq_true, if_false]

theorem setKey_last (k : Str) (v : Val F) (z : List (Str × Val F)) (hk : ∀ p ∈ z, p.1 ≠ k) :
    setKey k v z = z ++ [(k, v)] := by
  induction z with
  | nil => rfl
  | cons p z ih =>
    rw [setKey, if_neg (hk p (by simp)), ih fun q hq => hk q (by simp [hq])]; rfl

/-- **C64**: each zone line with one setting of a new key adds its key and value to the zone read so
far. (Missing: writing zones, several settings on one line.) -/
theorem C64_partial (T : Txt F) (d : Doc F) (k v : Str) (hk : '=' ∉ k) (hkw : IsWord k) (hv : '=' ∉ v)
    (hq : '"' ∉ v) (hs : strip v = v) (hn : T.isNum v = false) (hnew : ∀ p ∈ d.zone.getD [], p.1 ≠ k) :
    process T .zone ("ZONE ".toList ++ (k ++ '=' :: quoted v)) d
      = .ok { d with zone := some (d.zone.getD [] ++ [(k, .txt v)]) } := by
  have e : strip (List.drop (Sec.kw .zone).length ("ZONE ".toList ++ (k ++ '=' :: quoted v))) = k ++ '=' :: quoted v := by
    show strip (' ' :: (k ++ '=' :: quoted v)) = _
    rw [strip_cons_ws _ _ isWs_space, strip_word_append _ _ hkw]
    congr 1
    have : '=' :: quoted v = ("=\"".toList ++ v) ++ ['"'] := by simp [quoted]
    rw [this, rstripBy, List.reverse_append]
    show (List.dropWhile isWs ('"' :: _)).reverse = _
    rw [List.dropWhile_cons_of_neg (by decide)]
    simp
  rw [process]
  simp only [e, procPair_quoted T k v hk hv hq hs hn, Except.map, setKey_last k _ _ hnew]

example : '=' ∉ "T".toList ∧ IsWord "T".toList ∧ '"' ∉ "a b".toList ∧ strip "a b".toList = "a b".toList ∧
    exTxt.isNum "a b".toList = false ∧ (∀ p ∈ ({} : Doc Nat).zone.getD [], p.1 ≠ "T".toList) := by
  unfold IsWord; decide

end Verif.Tecplot
