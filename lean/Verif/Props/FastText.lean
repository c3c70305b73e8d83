import Verif.Lemmas.FastText
import Verif.Props.FastRead
import Verif.Props.FastTable
/-!
# C86: what is read from a table of an OpenFAST input file

Model: `Verif/Model/FastTable.lean`, `Verif/Model/FastRead.lean`; the text of a table as a user
writes it: `Verif/Spec/FastText.lean`.
-/
namespace Verif.FastRead
open Verif.Py Verif.FastDict Verif.FastLine Verif.FastTable

/-! ### Lemmas -/

theorem heads_length {names : List Str} {us : Option (List Str)} {heads : List Str} (h : Heads names us heads) :
    heads ≠ [] ∧ heads.length = (if us = none then 1 else 2) := by
  cases h <;> simp

theorem heads_names {names : List Str} {us : Option (List Str)} {heads : List Str} (hne : names ≠ [])
    (h : Heads names us heads) (rest : List Str) : headerNames ((heads ++ rest).getD 0 []) = names := by
  cases h with
  | one h => exact headerNames_text _ _ hne h
  | two h _ _ => exact headerNames_text _ _ hne h

theorem col_rewrap : rewrapUnit "Col".toList = inParens "Col".toList := by decide

/-- the units of a table -/
theorem heads_units {names : List Str} {us : Option (List Str)} {heads : List Str} (hne : names ≠ [])
    (h : Heads names us heads) (rest : List Str) (extra w : Nat) :
    tableUnits (heads ++ rest) heads.length names.length extra w
      = us.map (fun us => ((us ++ List.replicate extra "Col".toList).take w).map inParens) := by
  cases h with
  | one h => rfl
  | @two us h u hh hu hl =>
    unfold tableUnits
    have hus : us ≠ [] := by
      rintro rfl
      simp at hl
      exact hne (List.length_eq_zero_iff.1 hl.symm)
    rw [if_neg (by simp)]
    have e : ([h, u] ++ rest).getD 1 [] = u := rfl
    rw [e, ← hl, headerUnits_text us u hus hu]
    simp only [Option.map_some, Option.some.injEq]
    have e2 : us.map inParens ++ List.replicate extra "Col".toList
        = (us.map (fun u => (inParens u, u)) ++ List.replicate extra ("Col".toList, "Col".toList)).map Prod.fst := by
      simp
    have e3 : us ++ List.replicate extra "Col".toList
        = (us.map (fun u => (inParens u, u)) ++ List.replicate extra ("Col".toList, "Col".toList)).map Prod.snd := by
      simp [Function.comp_def]
    rw [e2, e3, ← List.map_take, ← List.map_take, List.map_map, List.map_map]
    apply List.map_congr_left
    intro p hp
    have hp := List.mem_of_mem_take hp
    simp only [Function.comp]
    rcases List.mem_append.1 hp with hp | hp
    · obtain ⟨u, hum, rfl⟩ := List.mem_map.1 hp
      exact rewrap_inParens u (hu.1 u hum)
    · rw [List.eq_of_mem_replicate hp]; exact col_rewrap

theorem row_values (N : Num) (w : Nat) (ts : List Str) (r : List N.F) (l : Str) (hl : RowText ts l)
    (hr : r.length = w) (h : List.Forall₂ (Stands N) (ts.take w) r) :
    numRow (conv N) w (numTokens l) = .ok r := by
  have hm : ∀ (ts : List Str) (r : List N.F), List.Forall₂ (Stands N) ts r → (ts.map lower).mapM (conv N) = some r := by
    intro ts r h
    induction h with
    | nil => rfl
    | cons ha _ ih =>
      rw [List.map_cons, List.mapM_cons, conv_stands N _ _ ha, ih]; rfl
  unfold numRow
  rw [numTokens_text ts l hl, ← List.map_take, hm _ _ h]
  simp [hr]

theorem rows_values (N : Num) (w : Nat) (toks : List (List Str)) (lines : List Str) (rows : List (List N.F))
    (hl : List.Forall₂ RowText toks lines)
    (hv : List.Forall₂ (fun ts r => r.length = w ∧ List.Forall₂ (Stands N) (ts.take w) r) toks rows) :
    numRows (conv N) w lines = .ok rows := by
  induction hl generalizing rows with
  | nil => cases hv; rfl
  | cons ha _ ih =>
    cases hv with
    | cons hb hv =>
      rw [numRows, row_values N w _ _ _ ha hb.1 hb.2]
      simp only [ih _ hv]

theorem lines_drop (heads offs lines : List Str) :
    (heads ++ offs ++ lines).drop (heads.length + offs.length) = lines := by
  rw [← List.length_append, List.drop_left]

theorem lines_get (heads offs lines : List Str) :
    (heads ++ offs ++ lines)[heads.length + offs.length]? = lines.head? := by
  rw [List.getElem?_append_right (by simp), ← List.length_append, Nat.sub_self]
  cases lines <;> rfl

/-- how the names are completed -/
theorem pad_take (names : List Str) (w : Nat) (h : w ≤ names.length) : padNames w names = names.take w := by
  unfold padNames
  rw [Nat.sub_eq_zero_of_le h]; simp

/-! ### C86 -/

/-- **C86 for numeric tables.** The values, names and units read from a table are those written,
whatever the spacing, the comments behind the rows and header lines, the notation of the units and the
case of logical words.  `heads`: one or two header lines; `offs`: lines between header and data, which
are ignored; `w`: the number of values of the first row.  Names in excess are cut; missing names are
completed with `Col` when the last name is `NodeCnt`. -/
theorem C86_num (N : Num) (names : List Str) (us : Option (List Str)) (heads offs : List Str) (hne : names ≠ [])
    (hh : Heads names us heads) (w : Nat) (toks : List (List Str)) (lines : List Str) (rows : List (List N.F))
    (hl : List.Forall₂ RowText toks lines)
    (hv : List.Forall₂ (fun ts r => r.length = w ∧ List.Forall₂ (Stands N) (ts.take w) r) toks rows)
    (hw : ∀ ts, toks.head? = some ts → ts.length = w) (hz : toks = [] → w = names.length)
    (hc : us = none → EndsNodeCnt names → w = names.length) :
    readNum N (heads ++ offs ++ lines) rows.length heads.length offs.length = .ok
      (if names.length < w ∧ ¬ EndsNodeCnt names then ⟨.num rows, some names, us.map (·.map inParens)⟩
       else ⟨.num rows, some (padNames w names), us.map fun u => (padNames w u).map inParens⟩) := by
  obtain ⟨hh1, hh2⟩ := heads_length hh
  have hH0 : heads.length ≠ 0 := by rw [hh2]; split <;> omega
  have hlen : rows.length = lines.length := by rw [← hv.length_eq, hl.length_eq]
  have hnames : ∀ rest, headerNames ((heads ++ rest).getD 0 []) = names := fun rest => heads_names hne hh rest
  have husl : ∀ u, us = some u → u.length = names.length := by
    intro u hu
    cases hh with
    | one _ => cases hu
    | two _ _ h => cases hu; exact h
  have hD : (dataWidth numTokens (heads ++ offs ++ lines) (heads.length + offs.length)).getD names.length = w := by
    unfold dataWidth
    rw [lines_get]
    cases hl with
    | nil => exact (hz rfl).symm
    | cons ha _ =>
      simp only [List.head?_cons, Option.map_some, Option.getD_some]
      rw [numTokens_text _ _ ha, List.length_map, hw _ rfl]
  -- the names
  have hP : parseNum (conv N) N.numCount (heads ++ offs ++ lines) rows.length heads.length offs.length
      = .ok ⟨rows, if names.length < w ∧ ¬ EndsNodeCnt names then names else padNames w names⟩ := by
    unfold parseNum
    rw [if_neg (by simp [hlen]; omega)]
    have ht : tableNames N.numCount (heads ++ offs ++ lines) heads.length offs.length = .ok names := by
      unfold tableNames
      rw [if_neg hH0, List.append_assoc, hnames]
    rw [ht]
    simp only [lines_drop, hH0, if_false]
    have hnum := rows_values N w toks lines rows hl hv
    cases hl with
    | nil =>
      cases hv
      have := hz rfl
      simp only
      rw [if_neg (by omega), pad_take _ _ (by omega), List.take_of_length_le (by omega)]
    | @cons ts l _ _ ha hrest =>
      have hwl : (numTokens l).length = w := by rw [numTokens_text _ _ ha, List.length_map, hw _ rfl]
      simp only [hwl]
      rw [if_neg (by simp [hne])]
      unfold extendNames
      by_cases hx : w ≠ names.length ∧ EndsNodeCnt names
      · have h2 : 2 ≤ heads.length := by
          rw [hh2]
          split
          · next hu => exact absurd (hc hu hx.2) hx.1
          · exact Nat.le_refl _
        rw [if_pos hx, if_pos h2]
        simp only [hnum]
        rw [if_neg (by intro h; exact h.2 hx.2)]
        rfl
      · rw [if_neg hx]
        simp only [hnum]
        by_cases hlt : names.length < w
        · rw [if_pos ⟨hlt, fun he => hx ⟨by omega, he⟩⟩, List.take_of_length_le (by omega)]
        · rw [if_neg (fun h => hlt h.1), pad_take _ _ (by omega)]
  unfold readNum
  rw [hP]
  simp only
  have hn0 : headerNames ((heads ++ offs ++ lines).getD 0 []) = names := by rw [List.append_assoc]; exact hnames _
  rw [hn0, hD, List.append_assoc, heads_units hne hh, if_neg hH0]
  by_cases hcase : names.length < w ∧ ¬ EndsNodeCnt names
  · rw [if_pos hcase, if_pos hcase]
    have : numExtra names w = 0 := by
      unfold numExtra; rw [if_neg (fun h => hcase.2 h.2)]
    rw [this]
    have hu : us.map (fun us => ((us ++ List.replicate 0 "Col".toList).take w).map inParens) = us.map (·.map inParens) := by
      cases us with
      | none => rfl
      | some u =>
        have := husl u rfl
        simp only [Option.map_some, List.replicate_zero, List.append_nil]
        rw [List.take_of_length_le (by omega)]
    rw [hu]
  · rw [if_neg hcase, if_neg hcase]
    have hu : us.map (fun us => ((us ++ List.replicate (numExtra names w) "Col".toList).take w).map inParens)
        = us.map fun u => (padNames w u).map inParens := by
      cases us with
      | none => rfl
      | some u =>
        have hul := husl u rfl
        simp only [Option.map_some]
        unfold numExtra padNames
        by_cases he : w ≠ names.length ∧ EndsNodeCnt names
        · rw [if_pos he, hul]
        · rw [if_neg he, hul]
          have : w - names.length = 0 := by
            by_contra h0
            exact hcase ⟨by omega, fun h => he ⟨by omega, h⟩⟩
          rw [this]
    rw [hu]

/-- a conversion that fails -/
theorem mapM_bad {F : Type} (conv : Str → Option F) (a : List Str) (t : Str) (b : List Str) (h : conv t = none) :
    (a ++ t :: b).mapM conv = none := by
  induction a with
  | nil => rw [List.nil_append, List.mapM_cons, h]; rfl
  | cons x a ih =>
    rw [List.cons_append, List.mapM_cons, ih]
    cases conv x <;> rfl

theorem numRows_bad {F : Type} (conv : Str → Option F) (w : Nat) (a : List Str) (l : Str) (b : List Str)
    (h : numRow conv w (numTokens l) = .error .broken) : numRows conv w (a ++ l :: b) = .error .broken := by
  induction a with
  | nil => rw [List.nil_append, numRows, h]
  | cons x a ih =>
    rw [List.cons_append, numRows, ih]
    split
    · next e he =>
      have : e = .broken := by
        unfold numRow at he
        split at he
        · injection he with he; exact he.symm
        · split at he
          · injection he with he; exact he.symm
          · cases he
      rw [this]
    · rfl

/-- **C86 for wrong numeric tables.** A row with fewer values than the first one is refused, and so is
a value of one of the first columns that is no number. -/
theorem C86_num_refused (N : Num) (names : List Str) (us : Option (List Str)) (heads offs : List Str) (hne : names ≠ [])
    (hh : Heads names us heads) (first ts : List Str) (l0 : Str) (before after : List Str) (l : Str)
    (hf : RowText first l0) (hb : (before ++ l :: after).head? = some l0) (hr : RowText ts l)
    (hbad : ts.length < first.length ∨
      ∃ t ∈ ts.take first.length, (∀ k ∈ ["true".toList, "false".toList, "print".toList], ¬ k <:+: lower t) ∧
        N.parse (lower t) = none) :
    readNum N (heads ++ offs ++ (before ++ l :: after)) (before ++ l :: after).length heads.length offs.length
      = .error .broken := by
  obtain ⟨hh1, hh2⟩ := heads_length hh
  have hH0 : heads.length ≠ 0 := by rw [hh2]; split <;> omega
  have hrow : numRow (conv N) first.length (numTokens l) = .error .broken := by
    unfold numRow
    rw [numTokens_text _ _ hr, ← List.map_take]
    rcases hbad with hbad | ⟨t, ht, hk, hp⟩
    · split
      · rfl
      · next r hm =>
        have := (mapM_some _ _ _ hm) |> congrArg List.length
        simp at this
        rw [if_pos (by omega)]
    · have hc : conv N (lower t) = none := by
        have h1 := hk "true".toList (by simp)
        have h2 := hk "false".toList (by simp)
        have h3 := hk "print".toList (by simp)
        have h4 : ¬ "noprint".toList <:+: lower t := by
          intro hi
          exact h3 (List.IsInfix.trans (by decide) hi)
        unfold conv
        generalize "true".toList = A at h1 ⊢
        generalize "false".toList = B at h2 ⊢
        generalize "print".toList = C at h3 ⊢
        generalize "noprint".toList = D at h4 ⊢
        unfold replaceStr
        rw [replaceFuel_infix A _ _ _ h1, replaceFuel_infix B _ _ _ h2, replaceFuel_infix D _ _ _ h4,
          replaceFuel_infix C _ _ _ h3, hp]
      obtain ⟨a, b, e⟩ := List.append_of_mem ht
      rw [e, List.map_append, List.map_cons, mapM_bad _ _ _ _ hc]
  unfold readNum parseNum
  rw [if_neg (by simp; omega)]
  have ht : tableNames N.numCount (heads ++ offs ++ (before ++ l :: after)) heads.length offs.length = .ok names := by
    unfold tableNames
    rw [if_neg hH0, List.append_assoc, heads_names hne hh]
  rw [ht]
  simp only [lines_drop]
  have hbad := numRows_bad (conv N) first.length before l after hrow
  generalize before ++ l :: after = body at hb hbad ⊢
  cases body with
  | nil => simp at hb
  | cons x body =>
    simp only [List.head?_cons, Option.some.injEq] at hb
    subst hb
    have hwl : (numTokens x).length = first.length := by rw [numTokens_text _ _ hf, List.length_map]
    simp only [hwl]
    rw [if_neg (by simp [hne])]
    cases hx : extendNames names first.length heads.length with
    | error e =>
      unfold extendNames at hx
      split at hx
      · split at hx
        · cases hx
        · cases hx; rfl
      · cases hx
    | ok nm =>
      simp only [hbad]
      rfl

/-- **C86 for tables without units.** More or fewer values than names is refused when the last name is
`NodeCnt` and there is no line of units. -/
theorem C86_nodecnt_refused (N : Num) (names : List Str) (h : Str) (hne : names ≠ []) (hh : HeadText names h)
    (he : EndsNodeCnt names) (offs : List Str) (first : List Str) (l0 : Str) (rest : List Str) (hf : RowText first l0)
    (hw : first.length ≠ names.length) :
    readNum N ([h] ++ offs ++ (l0 :: rest)) (l0 :: rest).length 1 offs.length = .error .broken := by
  have hl := lines_drop [h] offs (l0 :: rest)
  unfold readNum parseNum
  rw [if_neg (by simp; omega)]
  have ht : tableNames N.numCount ([h] ++ offs ++ (l0 :: rest)) 1 offs.length = .ok names := by
    unfold tableNames
    rw [if_neg (by simp), List.append_assoc, heads_names hne (.one hh)]
  rw [ht]
  simp only [List.length_singleton] at hl
  simp only [hl]
  have hwl : (numTokens l0).length = first.length := by rw [numTokens_text _ _ hf, List.length_map]
  simp only [hwl]
  rw [if_neg (by simp [hne])]
  unfold extendNames
  rw [if_pos ⟨hw, he⟩, if_neg (by simp)]
  rfl

/-! ### mixed tables -/

theorem mixRows_text (w : Nat) (toks : List (List Str)) (lines : List Str) (hl : List.Forall₂ RowText toks lines)
    (hd : ∀ l ∈ lines, ¬ "---".toList <+: l) : mixRows w lines = .ok (toks.map (mixRow w)) := by
  induction hl with
  | nil => rfl
  | @cons ts l _ _ ha _ ih =>
    obtain ⟨h1, h2⟩ := mixTokens_text _ _ ha
    rw [mixRows, if_neg, ih (fun l hl => hd l (by simp [hl]))]
    · simp only [h1, List.map_cons]
    · intro hs
      exact hd l (by simp) ((List.isPrefixOf_iff_prefix.1 hs).trans h2)

theorem mixRow_eq (w : Nat) (ts : List Str) :
    mixRow w ts = (ts.take w).map some ++ List.replicate (w - ts.length) none := by
  unfold mixRow
  have e : ts.take (min ts.length w) = ts.take w := by
    rcases Nat.le_total ts.length w with h | h
    · rw [Nat.min_eq_left h, List.take_length, List.take_of_length_le h]
    · rw [Nat.min_eq_right h]
  simp only [e]
  have e2 : w - (ts.take w).length = w - ts.length := by simp; omega
  rw [e2]

theorem mixCells_num (N : Num) (w : Nat) (toks : List (List Str)) (val : Str → N.F)
    (hval : ∀ ts ∈ toks, ∀ t ∈ ts.take w, N.parse t = some (val t)) :
    mixCells N (toks.map (mixRow w)) = toks.map fun ts => (ts.take w).map (fun t => .num (val t)) ++
      List.replicate (w - ts.length) (.num N.zero) := by
  unfold mixCells
  rw [if_pos, List.map_map]
  · apply List.map_congr_left
    intro ts hts
    rw [Function.comp, mixRow_eq, List.map_append, List.map_map, List.map_replicate]
    have : (ts.take w).map (cellFloat N ∘ some) = (ts.take w).map (fun t => .num (val t)) := by
      apply List.map_congr_left
      intro t ht
      show cellFloat N (some t) = _
      rw [cellFloat, hval ts hts t ht]
    rw [this]
    rfl
  · rw [List.all_eq_true]
    intro r hr
    obtain ⟨ts, hts, rfl⟩ := List.mem_map.1 hr
    rw [List.all_eq_true]
    intro x hx
    rw [mixRow_eq] at hx
    rcases List.mem_append.1 hx with hx | hx
    · obtain ⟨t, ht, rfl⟩ := List.mem_map.1 hx
      show (N.parse t).isSome = true
      rw [hval ts hts t ht]; rfl
    · rw [List.eq_of_mem_replicate hx]; rfl

theorem mixCells_txt (N : Num) (w : Nat) (toks : List (List Str)) (ts0 : List Str) (h0 : ts0 ∈ toks) (t0 : Str)
    (ht0 : t0 ∈ ts0.take w) (hp : N.parse t0 = none) :
    mixCells N (toks.map (mixRow w)) = toks.map fun ts => (ts.take w).map .txt ++
      List.replicate (w - ts.length) (.num N.zero) := by
  unfold mixCells
  rw [if_neg, List.map_map]
  · apply List.map_congr_left
    intro ts hts
    rw [Function.comp, mixRow_eq, List.map_append, List.map_map, List.map_replicate]
    rfl
  · intro hall
    rw [List.all_eq_true] at hall
    have := hall _ (List.mem_map_of_mem h0)
    rw [List.all_eq_true] at this
    have := this (some t0) (by
      rw [mixRow_eq]
      exact List.mem_append_left _ (List.mem_map_of_mem ht0))
    have h2 : (N.parse t0).isSome = true := this
    rw [hp] at h2
    simp at h2

/-- **C86 for mixed tables.** As for numeric tables; short rows are completed with zeros; the cells are
numbers when all words are numbers, texts otherwise; missing names are completed with `Col`. -/
theorem C86_mix (N : Num) (names : List Str) (us : Option (List Str)) (heads offs : List Str) (hne : names ≠ [])
    (hh : Heads names us heads) (w : Nat) (toks : List (List Str)) (lines : List Str)
    (hl : List.Forall₂ RowText toks lines) (hd : ∀ l ∈ lines, ¬ "---".toList <+: l)
    (hw : ∀ ts, toks.head? = some ts → ts.length = w) (hz : toks = [] → w = names.length)
    (hc : us = none → w ≤ names.length) :
    ∃ cells : List (List (Cell N.F)),
      readMix N (heads ++ offs ++ lines) toks.length heads.length offs.length = .ok
        ⟨.mix cells, some (padNames w names), us.map fun u => (padNames w u).map inParens⟩ ∧
      (∀ val : Str → N.F, (∀ ts ∈ toks, ∀ t ∈ ts.take w, N.parse t = some (val t)) →
        cells = toks.map fun ts => (ts.take w).map (fun t => .num (val t)) ++
          List.replicate (w - ts.length) (.num N.zero)) ∧
      ((∃ ts ∈ toks, ∃ t ∈ ts.take w, N.parse t = none) →
        cells = toks.map fun ts => (ts.take w).map .txt ++ List.replicate (w - ts.length) (.num N.zero)) := by
  obtain ⟨hh1, hh2⟩ := heads_length hh
  have hH0 : heads.length ≠ 0 := by rw [hh2]; split <;> omega
  have hlen : toks.length = lines.length := hl.length_eq
  have husl : ∀ u, us = some u → u.length = names.length := by
    intro u hu
    cases hh with
    | one _ => cases hu
    | two _ _ h => cases hu; exact h
  have hn0 : headerNames ((heads ++ offs ++ lines).getD 0 []) = names := by
    rw [List.append_assoc]; exact heads_names hne hh _
  have hD : (dataWidth mixTokens (heads ++ offs ++ lines) (heads.length + offs.length)).getD names.length = w := by
    unfold dataWidth
    rw [lines_get]
    cases hl with
    | nil => exact (hz rfl).symm
    | cons ha _ =>
      simp only [List.head?_cons, Option.map_some, Option.getD_some]
      rw [(mixTokens_text _ _ ha).1, hw _ rfl]
  have hP : parseMix (heads ++ offs ++ lines) toks.length heads.length offs.length
      = .ok ⟨toks.map (mixRow w), padNames w names⟩ := by
    unfold parseMix
    rw [if_neg (by simp [hlen]; omega), if_neg hH0]
    simp only [lines_drop, hn0]
    have hnum := mixRows_text w toks lines hl hd
    cases hl with
    | nil =>
      have := hz rfl
      rw [pad_take _ _ (by omega), List.take_of_length_le (by omega)]; rfl
    | @cons ts l _ _ ha hrest =>
      have hwl : (mixTokens l).length = w := by rw [(mixTokens_text _ _ ha).1, hw _ rfl]
      simp only [hwl]
      rw [if_neg (by simp [hne]), if_neg]
      · simp only [hnum]
        congr 2
        unfold padNames
        by_cases hlt : names.length < w
        · rw [if_pos hlt]
        · rw [if_neg hlt, Nat.sub_eq_zero_of_le (by omega)]; simp
      · rintro ⟨h1, h2⟩
        rw [hh2] at h2
        split at h2
        · next hu => have := hc hu; omega
        · omega
  refine ⟨mixCells N (toks.map (mixRow w)), ?_, ?_, ?_⟩
  · unfold readMix
    rw [hP]
    simp only
    rw [hn0, hD, List.append_assoc, heads_units hne hh]
    have hu : us.map (fun us => ((us ++ List.replicate (w - names.length) "Col".toList).take w).map inParens)
        = us.map fun u => (padNames w u).map inParens := by
      cases us with
      | none => rfl
      | some u =>
        have hul := husl u rfl
        simp only [Option.map_some]
        unfold padNames
        rw [hul]
    rw [hu]
  · exact fun val hval => mixCells_num N w toks val hval
  · rintro ⟨ts0, h0, t0, ht0, hp⟩
    exact mixCells_txt N w toks ts0 h0 t0 ht0 hp

/-- **C86 for separators.** A separator line inside a mixed table is refused. -/
theorem C86_separator_refused (N : Num) (heads offs : List Str) (names : List Str) (us : Option (List Str)) (hne : names ≠ [])
    (hh : Heads names us heads) (before after : List Str) (l t : Str) (ht : "---".toList <+: t)
    (hf : Followed ['!', '#'] t l) :
    readMix N (heads ++ offs ++ (before ++ l :: after)) (before ++ l :: after).length heads.length offs.length
      = .error .broken := by
  obtain ⟨hh1, hh2⟩ := heads_length hh
  have hH0 : heads.length ≠ 0 := by rw [hh2]; split <;> omega
  have hn0 : headerNames ((heads ++ offs ++ (before ++ l :: after)).getD 0 []) = names := by
    rw [List.append_assoc]; exact heads_names hne hh _
  have hcut : cleanAfterChar (cleanAfterChar l '!') '#' = t := by
    have := cut_all ['!', '#'] t l (by rintro rfl; simp at ht) hf.1 hf.2
    simpa using this
  have hrows : ∀ w, mixRows w (before ++ l :: after) = .error .broken := by
    intro w
    induction before with
    | nil =>
      have hs : startsWith t "---".toList = true := List.isPrefixOf_iff_prefix.2 ht
      rw [List.nil_append, mixRows, hcut, if_pos hs]
    | cons x b ih =>
      have := ih (by rw [List.append_assoc]; exact heads_names hne hh _)
      rw [List.cons_append, mixRows, this]
      simp
  unfold readMix parseMix
  rw [if_neg (by simp; omega), if_neg hH0]
  simp only [lines_drop, hn0]
  have hnb : before ++ l :: after ≠ [] := by simp
  generalize before ++ l :: after = body at hrows hnb ⊢
  cases body with
  | nil => exact absurd rfl hnb
  | cons x body =>
    simp only [hrows]
    split
    · next h =>
      split at h
      · cases h; rfl
      · split at h
        · cases h; rfl
        · cases h; rfl
    · next h =>
      split at h
      · cases h
      · split at h <;> cases h

/-! ### Concrete tables -/

/-- the names, with a remark -/
def exHead : Str := "  A\tNodeCnt (see ! below)".toList

/-- the same, commented -/
def exBang : Str := " ! A NodeCnt # names".toList

/-- the units -/
def exUnits : Str := "[m]   [-] ! units".toList

theorem exHead_ok : HeadText ["A".toList, "NodeCnt".toList] exHead :=
  .inl ⟨"  A\tNodeCnt ".toList, by decide, by decide, .inr ⟨'(', "see ! below)".toList, by decide, by decide⟩⟩

theorem exBang_ok : HeadText ["A".toList, "NodeCnt".toList] exBang :=
  .inr ⟨[' '], " A NodeCnt ".toList, " A NodeCnt # names".toList, by decide, by decide, by decide, by decide, by decide,
    .inr ⟨'#', " names".toList, by decide, by decide⟩⟩

theorem exUnits_ok : UnitsText [['m'], ['-']] exUnits := by
  refine ⟨?_, "[m]   [-] ".toList, .inr (.inl (by decide)), by decide, .inr ⟨'!', " units".toList, by decide, by decide⟩⟩
  intro u hu
  simp only [List.mem_cons, List.not_mem_nil, or_false] at hu
  rcases hu with rfl | rfl <;> exact ⟨by decide, by decide⟩

/-- two rows -/
def exRows : List Str := ["1.5 TRUE 3.5 # first".toList, "\t-2.5  False 4.5!".toList]

theorem exRows_ok : List.Forall₂ RowText
    [["1.5".toList, "TRUE".toList, "3.5".toList], ["-2.5".toList, "False".toList, "4.5".toList]] exRows :=
  .cons ⟨"1.5 TRUE 3.5 ".toList, by decide, by decide, by decide, .inr ⟨'#', " first".toList, by decide, by decide⟩⟩
    (.cons ⟨"\t-2.5  False 4.5".toList, by decide, by decide, by decide, .inr ⟨'!', [], by decide, by decide⟩⟩ .nil)

/-- non-vacuity of `C86_num` -/
example : Heads ["A".toList, "NodeCnt".toList] (some [['m'], ['-']]) [exHead, exUnits] ∧
    Heads ["A".toList, "NodeCnt".toList] none [exBang] ∧
    List.Forall₂ (fun ts r => r.length = 3 ∧ List.Forall₂ (Stands toyN) (ts.take 3) r)
      [["1.5".toList, "TRUE".toList, "3.5".toList], ["-2.5".toList, "False".toList, "4.5".toList]]
      [[dec "1.5", dec "0.0", dec "3.5"], [dec "-2.5", dec "0.0", dec "4.5"]] ∧
    EndsNodeCnt ["A".toList, "NodeCnt".toList] := by
  refine ⟨.two exHead_ok exUnits_ok rfl, .one exBang_ok, ?_, by decide⟩
  have k : ∀ s : String, (h : isSDec s.toList = true) →
      (∀ k ∈ ["true".toList, "false".toList, "print".toList], ¬ k <:+: lower s.toList) →
      lower s.toList = s.toList → Stands toyN s.toList ⟨s.toList, h⟩ := by
    intro s h hk hl
    refine .inr (.inr ⟨hk, ?_⟩)
    rw [hl]
    exact dif_pos h
  refine .cons ⟨rfl, .cons (k "1.5" _ (by decide) (by decide)) (.cons (.inl ⟨.inl (by decide), by rfl⟩)
    (.cons (k "3.5" _ (by decide) (by decide)) .nil))⟩
    (.cons ⟨rfl, .cons (k "-2.5" _ (by decide) (by decide)) (.cons (.inr (.inl ⟨.inl (by decide), by rfl⟩))
    (.cons (k "4.5" _ (by decide) (by decide)) .nil))⟩ .nil)

/-- what is read from it -/
example : (match readNum toyN ([exHead, exUnits] ++ ["skipped".toList] ++ exRows) 2 2 1 with
    | .ok ⟨.num rows, some names, some units⟩ => (rows.map (·.map Subtype.val), names, units)
    | _ => ([], [], [])) =
    ([["1.5".toList, "0.0".toList, "3.5".toList], ["-2.5".toList, "0.0".toList, "4.5".toList]],
      ["A".toList, "NodeCnt".toList, "Col".toList], ["(m)".toList, "(-)".toList, "(Col)".toList]) := by decide +kernel

/-- a wrong word in the second row, and a short second row -/
example : RowText ["1.5".toList, "x".toList] "1.5 x".toList ∧ RowText ["2.5".toList, "3.5".toList] "2.5 3.5 !".toList ∧
    RowText ["2.5".toList] "2.5".toList ∧
    (∀ k ∈ ["true".toList, "false".toList, "print".toList], ¬ k <:+: lower "x".toList) ∧
    toyN.parse (lower "x".toList) = none :=
  ⟨⟨"1.5 x".toList, by decide, by decide, by decide, .inl rfl⟩,
    ⟨"2.5 3.5 ".toList, by decide, by decide, by decide, .inr ⟨'!', [], by decide, by decide⟩⟩,
    ⟨"2.5".toList, by decide, by decide, by decide, .inl rfl⟩, by decide, by rfl⟩

/-- non-vacuity of `C86_mix`: words, a short row and one column without name -/
example : List.Forall₂ RowText [["1".toList, "joint".toList, "2".toList], ["3".toList]]
      ["1 joint 2 # first".toList, " 3".toList] ∧
    (∀ l ∈ ["1 joint 2 # first".toList, " 3".toList], ¬ "---".toList <+: l) ∧
    toyN.parse "joint".toList = none :=
  ⟨.cons ⟨"1 joint 2 ".toList, by decide, by decide, by decide, .inr ⟨'#', " first".toList, by decide, by decide⟩⟩
    (.cons ⟨" 3".toList, by decide, by decide, by decide, .inl rfl⟩ .nil), by decide, by rfl⟩

/-- non-vacuity of `C86_separator_refused` -/
example : "---".toList <+: "--- OUTPUT ---".toList ∧ Followed ['!', '#'] "--- OUTPUT ---".toList "--- OUTPUT ---".toList :=
  ⟨by decide, by decide, .inl rfl⟩

end Verif.FastRead
