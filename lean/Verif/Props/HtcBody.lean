import Verif.Lemmas.HtcBody
import Verif.Lemmas.Str
import Verif.Py.Dec
import Mathlib.Data.List.Forall2
/-!
# The bodies of a HAWC2 file

Properties C221 to C226.
-/
namespace Verif.HtcBody
open Verif.Py

/-- **C221** `bodyC2` gives the lines of the section, in the order of their first number -/
theorem C221_rows (l s : Sect) (rows : List (List ℚ)) (h : GoodC2 s rows) :
    ∃ v, bodyC2 ⟨l, some s⟩ = .ok v ∧ v.Perm rows ∧ v.Pairwise fun a b => a.headD 0 ≤ b.headD 0 := by
  obtain ⟨r, hr⟩ := h.nsec
  refine ⟨sortRows rows, bodyC2_rows l s rows h.keys _ r hr h.lines h.five, List.perm_insertionSort _ _, ?_⟩
  have : Std.Total (fun a b : List ℚ => a.headD 0 ≤ b.headD 0) := ⟨fun a b => le_total _ _⟩
  have : IsTrans (List ℚ) (fun a b : List ℚ => a.headD 0 ≤ b.headD 0) := ⟨fun a b c h1 h2 => le_trans h1 h2⟩
  exact List.pairwise_insertionSort _ _

/-- **C222** `setBodyC2` with as many rows or fewer: the section has the rows, declares their number, keeps the keys of its first lines
and everything else, and `bodyC2` gives the rows -/
theorem C222_set (l s : Sect) (rows val : List (List ℚ)) (h : GoodC2 s rows) (hv : Rows val) (hle : val.length ≤ rows.length)
    (hs : val.Pairwise fun a b => a.headD 0 ≤ b.headD 0) :
    ∃ s', setBodyC2 s val = (s', .ok ()) ∧ GoodC2 s' val ∧ bodyC2 ⟨l, some s'⟩ = .ok val ∧
      (secLines s').map Prod.fst = ((secLines s).map Prod.fst).take val.length ∧
      s'.lookup "nsec".toList = some [.num val.length] ∧
      ∀ k, startsWith k "sec".toList = false → k ≠ "nsec".toList → s'.lookup k = s.lookup k := by
  obtain ⟨r, hr⟩ := h.nsec
  have hlen : (secKeys s).length = rows.length := by
    have := congrArg List.length h.lines
    simp only [List.length_map] at this
    rw [secKeys_eq, List.length_map, this]
  have hkn : (secKeys s).Nodup := h.keys.filter _
  -- the section before the loop
  obtain ⟨s2, e2, k2, l2, m2⟩ : ∃ s2, setBodyC2 s val = assign s2 ((secKeys s).take val.length) val ∧ s2.map Prod.fst =
      (s.map Prod.fst).filter (fun k => k ∉ (secKeys s).drop val.length) ∧
      (∀ k, k ∉ (secKeys s).drop val.length → s2.lookup k = if k = "nsec".toList then some [.num val.length] else s.lookup k) ∧ True := by
    have hmem : "nsec".toList ∈ s.map Prod.fst := by
      by_contra hc
      have : s.lookup "nsec".toList = none := by
        rw [List.lookup_eq_none_iff]
        intro p hp
        simp only [bne_iff_ne]
        exact fun e => hc (by rw [e]; exact List.mem_map_of_mem hp)
      rw [this] at hr
      cases hr
    have hl1 : ∀ k, (setVals s "nsec".toList [.num val.length]).lookup k = if k = "nsec".toList then some [.num val.length] else s.lookup k := by
      intro k
      rw [setVals_lookup]
      by_cases hk : k = "nsec".toList
      · rw [if_pos ⟨hk, hmem⟩, if_pos hk]
      · rw [if_neg (fun h => hk h.1), if_neg hk]
    by_cases heq : val.length = rows.length
    · refine ⟨setVals s "nsec".toList [.num val.length], ?_, ?_, fun k _ => hl1 k, trivial⟩
      · rw [setBodyC2, hr]
        simp only
        rw [if_pos (by rw [heq]), List.take_of_length_le (by omega)]
      · rw [setVals_keys, List.drop_of_length_le (by omega)]
        simp
    · refine ⟨(setVals s "nsec".toList [.num val.length]).filter fun p => p.1 ∉ (secKeys s).drop val.length, ?_, ?_, ?_, trivial⟩
      · rw [setBodyC2, hr]
        simp only
        rw [if_neg (by
          intro e
          injection e with e
          exact heq (by exact_mod_cast e.symm)), if_pos (by exact_mod_cast (by omega : val.length < rows.length))]
      · have : ∀ (d : Sect) (q : Str → Bool), (d.filter fun p => q p.1).map Prod.fst = (d.map Prod.fst).filter q := by
          intro d q
          rw [List.filter_map]
          rfl
        rw [this _ (fun k => k ∉ (secKeys s).drop val.length), setVals_keys]
      · intro k hk
        rw [← hl1 k]
        have : ∀ (d : Sect), (d.filter fun p => p.1 ∉ (secKeys s).drop val.length).lookup k = d.lookup k := by
          intro d
          induction d with
          | nil => rfl
          | cons p d ih =>
            rw [List.filter_cons]
            split
            · rw [List.lookup_cons, List.lookup_cons, ih]
            · rename_i hp
              have : k ≠ p.1 := by
                rintro rfl
                simp only [decide_not, Bool.not_eq_true', decide_eq_false_iff_not] at hp
                exact hp hk
              rw [List.lookup_cons, beq_false_of_ne this, ih]
        exact this _
  have hsub : ∀ k ∈ (secKeys s).take val.length, k ∈ secKeys s ∧ k ∉ (secKeys s).drop val.length := by
    intro k hk
    rw [← nodup_sublist _ hkn] at hk
    have := List.mem_filter.1 hk
    exact ⟨this.1, by simpa using this.2⟩
  have hks : ∀ k ∈ secKeys s, startsWith k "sec".toList = true ∧ k ∈ s.map Prod.fst := fun k hk => ⟨(List.mem_filter.1 hk).2, (List.mem_filter.1 hk).1⟩
  have hnn : ∀ k ∈ secKeys s, k ≠ "nsec".toList := by
    rintro k hk rfl
    have := (hks _ hk).1
    rw [sec_nsec] at this
    cases this
  obtain ⟨s', a1, a2, a3, a4⟩ := assign_ok ((secKeys s).take val.length) val s2 (by rw [List.length_take]; omega) (hkn.sublist (List.take_sublist _ _)) hv
    (fun k hk => by
      obtain ⟨hk1, hk2⟩ := hsub k hk
      rw [l2 k hk2, if_neg (hnn k hk1)]
      have : s.lookup k ∈ (secKeys s).map fun k => s.lookup k := List.mem_map_of_mem hk1
      rw [secLines_lookup s h.keys] at this
      obtain ⟨p, hp, e⟩ := List.mem_map.1 this
      have hp2 : p.2 ∈ (secLines s).map Prod.snd := List.mem_map_of_mem hp
      rw [h.lines] at hp2
      obtain ⟨q, hq, e'⟩ := List.mem_map.1 hp2
      have h5 := h.five q hq
      cases q with
      | nil => cases h5
      | cons x xs => exact ⟨.num x, xs.map .num, by rw [← e, ← e']; rfl⟩)
    (fun k hk => by
      obtain ⟨hk1, hk2⟩ := hsub k hk
      rw [k2]
      exact List.mem_filter.2 ⟨(hks k hk1).2, by simpa using hk2⟩)
  have hkeys' : (s'.map Prod.fst).Nodup := by rw [a2, k2]; exact h.keys.filter _
  have hsec' : secKeys s' = (secKeys s).take val.length := by
    rw [← nodup_sublist _ hkn]
    show (s'.map Prod.fst).filter _ = _
    rw [a2, k2]
    generalize (secKeys s).drop val.length = D
    rw [secKeys, List.filter_filter, List.filter_filter]
    exact List.filter_congr fun k _ => by cases startsWith k "sec".toList <;> simp
  have hl' : (secLines s').map Prod.snd = val.map fun r => r.map Val.num := by
    have e := secLines_lookup s' hkeys'
    rw [hsec', a4] at e
    have hinj : Function.Injective (List.map (some : List Val → Option (List Val))) := List.map_injective_iff.2 (Option.some_injective _)
    apply hinj
    rw [List.map_map, List.map_map]
    exact e.symm
  have hnsec : s'.lookup "nsec".toList = some [.num val.length] := by
    have hn1 : "nsec".toList ∉ secKeys s := fun hc => hnn _ hc rfl
    rw [a3 _ (fun hc => hn1 (hsub _ hc).1), l2 _ (fun hc => hn1 (List.mem_of_mem_drop hc)), if_pos rfl]
  have hgood : GoodC2 s' val := ⟨hkeys', ⟨[], hnsec⟩, hl', fun r hr => (hv r hr).1⟩
  refine ⟨s', by rw [e2, a1], hgood, ?_, by rw [← secKeys_eq, hsec', secKeys_eq], hnsec, ?_⟩
  · rw [bodyC2_rows l s' val hkeys' _ _ hnsec hl' (fun r hr => (hv r hr).1), sortRows_sorted val hs]
  · intro k hk hkn'
    have hn1 : k ∉ secKeys s := fun hc => by rw [(hks k hc).1] at hk; cases hk
    rw [a3 _ (fun hc => hn1 (hsub _ hc).1), l2 _ (fun hc => hn1 (List.mem_of_mem_drop hc)), if_neg hkn']

example : GoodC2 exSect [[2, 0, 0, 5, 0], [1, 0, 0, 0, 0]] ∧ Rows [[1, 0, 0, 7, 3]] :=
  ⟨exSect_good, fun r hr => by
    simp only [List.mem_singleton] at hr
    subst hr
    exact ⟨rfl, 1, rfl⟩⟩

example : bodyC2 ⟨[], some exSect⟩ = .ok [[1, 0, 0, 0, 0], [2, 0, 0, 5, 0]] := by decide +kernel

example : setBodyC2 exSect [[1, 0, 0, 7, 3]] =
    ([("nsec".toList, [.num 1]), ("sec".toList, [.num 1, .num 0, .num 0, .num 7, .num 3])], .ok ()) := by decide +kernel

/-- **C223** violated: with more rows than before an exception is raised, but the section then declares the new number of lines -/
theorem C223_fails : ∃ s rows val s', GoodC2 s rows ∧ Rows val ∧ setBodyC2 s val = (s', .error .notImpl) ∧ s' ≠ s ∧
    s'.lookup "nsec".toList = some [.num 3] ∧ (secLines s').length = 2 :=
  ⟨exSect, [[2, 0, 0, 5, 0], [1, 0, 0, 0, 0]], [[1, 0, 0, 0, 0], [2, 0, 0, 5, 0], [3, 0, 0, 7, 0]], (setBodyC2 exSect [[1, 0, 0, 0, 0], [2, 0, 0, 5, 0], [3, 0, 0, 7, 0]]).1,
    exSect_good, by
      intro r hr
      simp only [List.mem_cons, List.not_mem_nil, or_false] at hr
      rcases hr with rfl | rfl | rfl
      · exact ⟨rfl, 1, rfl⟩
      · exact ⟨rfl, 2, rfl⟩
      · exact ⟨rfl, 3, rfl⟩,
    by decide +kernel, by decide +kernel, by decide +kernel, by decide +kernel⟩

/-- **C223** with more rows than before an exception is raised, and all lines other than `nsec` are as they were -/
theorem C223_partial (s : Sect) (rows val : List (List ℚ)) (h : GoodC2 s rows) (hgt : rows.length < val.length) :
    ∃ s', setBodyC2 s val = (s', .error .notImpl) ∧ s'.map Prod.fst = s.map Prod.fst ∧ secLines s' = secLines s ∧
      ∀ k, k ≠ "nsec".toList → s'.lookup k = s.lookup k := by
  obtain ⟨r, hr⟩ := h.nsec
  refine ⟨setVals s "nsec".toList [.num val.length], ?_, setVals_keys _ _ _, ?_, fun k hk => ?_⟩
  · rw [setBodyC2, hr]
    simp only
    rw [if_neg (by
      intro e
      injection e with e
      have : rows.length = val.length := by exact_mod_cast e
      omega), if_neg (by
      have : ¬ val.length < rows.length := by omega
      exact_mod_cast this)]
  · have : ∀ d : Sect, secLines (setVals d "nsec".toList [.num val.length]) = secLines d := by
      intro d
      induction d with
      | nil => rfl
      | cons p d ih =>
        have e : setVals (p :: d) "nsec".toList [.num val.length] = (if p.1 = "nsec".toList then (p.1, [.num val.length]) else p) :: setVals d "nsec".toList [.num val.length] := rfl
        rw [e]
        unfold secLines at ih ⊢
        by_cases hp : p.1 = "nsec".toList
        · rw [if_pos hp, List.filter_cons_of_neg (by simp only [hp, sec_nsec]; decide), List.filter_cons_of_neg (by simp only [hp, sec_nsec]; decide), ih]
        · rw [if_neg hp, List.filter_cons, List.filter_cons, ih]
    exact this s
  · rw [setVals_lookup, if_neg fun hh => hk hh.1]

example : GoodC2 exSect [[2, 0, 0, 5, 0], [1, 0, 0, 0, 0]] ∧ [[2, 0, 0, 5, 0], [1, 0, 0, 0, (0 : ℚ)]].length < [[1, 0, 0, 0, 0], [2, 0, 0, 5, 0], [3, 0, 0, 7, (0 : ℚ)]].length :=
  ⟨exSect_good, by decide⟩

/-- **C224** violated: five lines of four numbers are read as four lines of five numbers -/
theorem C224_fails : ∃ s v, (secLines s).map Prod.snd = List.replicate 5 [.num 1, .num 2, .num 3, .num 4] ∧ bodyC2 ⟨[], some s⟩ = .ok v ∧
    v = [[1, 2, 3, 4, 1], [2, 3, 4, 1, 2], [3, 4, 1, 2, 3], [4, 1, 2, 3, 4]] :=
  ⟨("nsec".toList, [.num 5]) :: ["sec", "sec__2", "sec__3", "sec__4", "sec__5"].map fun k => (k.toList, [.num 1, .num 2, .num 3, .num 4]), _,
    by decide +kernel, by decide +kernel, rfl⟩

/-- **C224** lines of different sizes are refused, and lines of which some number of all is not a multiple of five -/
theorem C224_partial (l s : Sect) (hn : (s.map Prod.fst).Nodup)
    (hbad : (∃ p ∈ secLines s, ∃ q ∈ secLines s, p.2.length ≠ q.2.length) ∨ ((secLines s).map fun p => p.2.length).sum % 5 ≠ 0) :
    ∃ e, bodyC2 ⟨l, some s⟩ = .error e := by
  rw [bodyC2]
  simp only
  split
  · exact ⟨_, rfl⟩
  · exact ⟨_, rfl⟩
  · rw [secRows s hn]
    split
    · exact ⟨_, rfl⟩
    · rename_i hany
      split
      · exact ⟨_, rfl⟩
      · rename_i v hv
        rcases hbad with ⟨p, hp, q, hq, hne⟩ | hs
        · exfalso
          rw [Bool.not_eq_true, List.any_eq_false] at hany
          have h1 := hany p.2 (List.mem_map_of_mem hp)
          have h2 := hany q.2 (List.mem_map_of_mem hq)
          simp only [ne_eq, decide_not, Bool.not_eq_true', Bool.not_eq_false, decide_eq_true_eq] at h1 h2
          exact hne (h1.trans h2.symm)
        · have hfl : ∀ (a : List Val) v, floats a = .ok v → v.length = a.length := by
            intro a
            induction a with
            | nil => intro v h; injection h with h; rw [← h]; rfl
            | cons x a ih =>
              intro v h
              unfold floats at h
              split at h
              · cases h
              · split at h
                · cases h
                · rename_i r hr
                  injection h with h
                  rw [← h, List.length_cons, List.length_cons, ih r hr]
          rw [if_pos]
          · exact ⟨_, rfl⟩
          · rw [hfl _ _ hv, List.length_flatten, List.map_map]
            exact hs

example : ((secLines [("nsec".toList, [.num 1]), ("sec".toList, [.num 1, .num 2])]).map fun p => p.2.length).sum % 5 ≠ 0 := by decide

/-- **C225** `bodyByName` gives the last main body of that name, and raises an exception if there is none -/
theorem C225_name (st : List (Str × Body)) (hall : ∀ p ∈ st, startsWith p.1 "main_body".toList = true → ∃ n, nameOf p.2 = .ok n) (n : Val) :
    (∀ pre k b post, st = pre ++ (k, b) :: post → startsWith k "main_body".toList = true → nameOf b = .ok n →
      (∀ p ∈ post, startsWith p.1 "main_body".toList = true → nameOf p.2 ≠ .ok n) → bodyByName st n = .ok b) ∧
    ((∀ p ∈ st, startsWith p.1 "main_body".toList = true → nameOf p.2 ≠ .ok n) → bodyByName st n = .error .exc) := by
  have key : ∀ (l : List (Str × Body)) (d : List (Val × Body)), (∀ p ∈ l, startsWith p.1 "main_body".toList = true → ∃ n, nameOf p.2 = .ok n) →
      ∃ d', dictLoop l d = .ok d' ∧ ((∀ p ∈ l, startsWith p.1 "main_body".toList = true → nameOf p.2 ≠ .ok n) → d'.lookup n = d.lookup n) ∧
        ∀ pre k b post, l = pre ++ (k, b) :: post → startsWith k "main_body".toList = true → nameOf b = .ok n →
          (∀ p ∈ post, startsWith p.1 "main_body".toList = true → nameOf p.2 ≠ .ok n) → d'.lookup n = some b := by
    intro l
    induction l with
    | nil =>
      intro d _
      refine ⟨d, rfl, fun _ => rfl, ?_⟩
      intro pre k b post e
      cases pre <;> cases e
    | cons x l ih =>
      intro d hl
      obtain ⟨k0, b0⟩ := x
      have hl' : ∀ p ∈ l, startsWith p.1 "main_body".toList = true → ∃ n, nameOf p.2 = .ok n := fun p hp => hl p (List.mem_cons_of_mem _ hp)
      by_cases hk : startsWith k0 "main_body".toList = true
      · obtain ⟨n0, hn0⟩ := hl _ List.mem_cons_self hk
        obtain ⟨d', h1, h2, h3⟩ := ih (setKey d n0 b0) hl'
        refine ⟨d', ?_, ?_, ?_⟩
        · rw [dictLoop, if_pos hk]
          simp only at hn0
          rw [hn0]
          exact h1
        · intro hno
          rw [h2 fun p hp => hno p (List.mem_cons_of_mem _ hp), setKey_lookup, if_neg]
          rintro rfl
          exact hno _ List.mem_cons_self hk hn0
        · intro pre k b post e hkb hb hpost
          cases pre with
          | nil =>
            obtain ⟨e1, e2⟩ := List.cons.inj e
            obtain ⟨rfl, rfl⟩ := Prod.mk.inj e1
            subst e2
            simp only at hn0
            rw [hb] at hn0
            obtain rfl := Except.ok.inj hn0
            rw [h2 hpost, setKey_lookup, if_pos rfl]
          | cons y pre => exact h3 pre k b post (List.cons.inj e).2 hkb hb hpost
      · obtain ⟨d', h1, h2, h3⟩ := ih d hl'
        refine ⟨d', by rw [dictLoop, if_neg hk]; exact h1, fun hno => h2 fun p hp => hno p (List.mem_cons_of_mem _ hp), ?_⟩
        intro pre k b post e hkb hb hpost
        cases pre with
        | nil =>
          obtain ⟨e1, e2⟩ := List.cons.inj e
          obtain ⟨rfl, rfl⟩ := Prod.mk.inj e1
          exact absurd hkb hk
        | cons y pre => exact h3 pre k b post (List.cons.inj e).2 hkb hb hpost
  obtain ⟨d', h1, h2, h3⟩ := key st [] hall
  constructor
  · intro pre k b post e hk hb hpost
    rw [bodyByName, bodyDict, h1]
    simp only [h3 pre k b post e hk hb hpost]
  · intro hno
    rw [bodyByName, bodyDict, h1]
    simp only [h2 hno]
    rfl

example : bodyByName [("main_body".toList, ⟨[("name".toList, [.str "tower".toList])], none⟩), ("main_body__2".toList, ⟨[("name".toList, [.str "shaft".toList])], none⟩)]
    (.str "tower".toList) = .ok ⟨[("name".toList, [.str "tower".toList])], none⟩ := by decide +kernel

/-- **C226** the table `<name>_c2` of a main body has a row for each line, in the order of their first number, with the columns `z`, `x`, `y`, twist;
there are no tables for bodies without sections -/
theorem C226_tables (st : List (Str × Body)) (hnames : ∀ p ∈ st, startsWith p.1 "main_body".toList = true → ∃ n, nameOf p.2 = .ok (.str n))
    (hdist : (st.filter fun p => startsWith p.1 "main_body".toList).Pairwise fun p q => nameOf p.2 ≠ nameOf q.2) :
    ∃ d, tables st = .ok d ∧
      (∀ p ∈ st, startsWith p.1 "main_body".toList = true → ∀ s rows n, p.2.c2 = some s → GoodC2 s rows → nameOf p.2 = .ok (.str n) →
        ∃ v, d.lookup (n ++ "_c2".toList) = some v ∧ ∃ w : List (List ℚ), w.Perm rows ∧ (w.Pairwise fun a b => a.headD 0 ≤ b.headD 0) ∧
          List.Forall₂ (fun (r : List ℚ) (t : List ℚ) => ∃ i x y z tw, r = [i, x, y, z, tw] ∧ t = [z, x, y, tw]) w v) ∧
      ∀ k ∈ d.map Prod.fst, ∃ p ∈ st, startsWith p.1 "main_body".toList = true ∧ p.2.c2 ≠ none ∧ ∃ n, nameOf p.2 = .ok (.str n) ∧ k = n ++ "_c2".toList := by
  have key : ∀ (l : List (Str × Body)) (d : List (Str × List (List ℚ))),
      (∀ p ∈ l, startsWith p.1 "main_body".toList = true → ∃ n, nameOf p.2 = .ok (.str n)) →
      (l.filter fun p => startsWith p.1 "main_body".toList).Pairwise (fun p q => nameOf p.2 ≠ nameOf q.2) →
      ∃ d', tableLoop l d = .ok d' ∧
        (∀ m, (∀ p ∈ l, startsWith p.1 "main_body".toList = true → nameOf p.2 ≠ .ok (.str m)) → d'.lookup (m ++ "_c2".toList) = d.lookup (m ++ "_c2".toList)) ∧
        (∀ p ∈ l, startsWith p.1 "main_body".toList = true → ∀ v n, bodyC2 p.2 = .ok v → nameOf p.2 = .ok (.str n) →
          d'.lookup (n ++ "_c2".toList) = some (v.map zxyt)) ∧
        ∀ k ∈ d'.map Prod.fst, k ∈ d.map Prod.fst ∨ ∃ p ∈ l, startsWith p.1 "main_body".toList = true ∧ p.2.c2 ≠ none ∧ ∃ n, nameOf p.2 = .ok (.str n) ∧ k = n ++ "_c2".toList := by
    intro l
    induction l with
    | nil =>
      intro d _ _
      refine ⟨d, rfl, fun _ _ => rfl, ?_, fun k hk => Or.inl hk⟩
      intro p hp
      cases hp
    | cons x l ih =>
      intro d hl hp
      obtain ⟨k0, b0⟩ := x
      have hl' : ∀ p ∈ l, startsWith p.1 "main_body".toList = true → ∃ n, nameOf p.2 = .ok (.str n) := fun p hp => hl p (List.mem_cons_of_mem _ hp)
      by_cases hk : startsWith k0 "main_body".toList = true
      · rw [List.filter_cons, if_pos hk, List.pairwise_cons] at hp
        obtain ⟨n0, hn0⟩ := hl _ List.mem_cons_self hk
        simp only at hn0
        have hother : ∀ p ∈ l, startsWith p.1 "main_body".toList = true → nameOf p.2 ≠ .ok (.str n0) :=
          fun p hpl hps e => hp.1 p (List.mem_filter.2 ⟨hpl, hps⟩) (by simp only [hn0, e])
        cases hb : bodyC2 b0 with
        | error e =>
          obtain ⟨d', h1, h2, h3, h4⟩ := ih d hl' hp.2
          refine ⟨d', by rw [tableLoop, if_pos hk, hb]; exact h1, fun m hm => h2 m fun p hpl => hm p (List.mem_cons_of_mem _ hpl), ?_, ?_⟩
          · intro p hpm hps v n hv hn
            rcases List.mem_cons.1 hpm with rfl | hpm
            · simp only [hb] at hv; cases hv
            · exact h3 p hpm hps v n hv hn
          · intro k hkm
            rcases h4 k hkm with h | ⟨p, hpl, h⟩
            · exact Or.inl h
            · exact Or.inr ⟨p, List.mem_cons_of_mem _ hpl, h⟩
        | ok v0 =>
          obtain ⟨d', h1, h2, h3, h4⟩ := ih (setKey d (n0 ++ "_c2".toList) (v0.map zxyt)) hl' hp.2
          refine ⟨d', ?_, ?_, ?_, ?_⟩
          · rw [tableLoop, if_pos hk, hb]
            simp only
            rw [hn0]
            exact h1
          · intro m hm
            rw [h2 m fun p hpl => hm p (List.mem_cons_of_mem _ hpl), setKey_lookup, if_neg]
            intro e
            have := List.append_cancel_right e
            subst this
            exact hm _ List.mem_cons_self hk hn0
          · intro p hpm hps v n hv hn
            rcases List.mem_cons.1 hpm with rfl | hpm
            · simp only [hb] at hv
              simp only [hn0] at hn
              obtain rfl := Except.ok.inj hv
              obtain rfl := Val.str.inj (Except.ok.inj hn)
              rw [h2 _ hother, setKey_lookup, if_pos rfl]
            · exact h3 p hpm hps v n hv hn
          · intro k hkm
            rcases h4 k hkm with h | ⟨p, hpl, h⟩
            · rcases setKey_mem d _ _ k h with h | rfl
              · exact Or.inl h
              · refine Or.inr ⟨(k0, b0), List.mem_cons_self, hk, ?_, n0, hn0, rfl⟩
                intro hnone
                rw [bodyC2, hnone] at hb
                cases hb
            · exact Or.inr ⟨p, List.mem_cons_of_mem _ hpl, h⟩
      · rw [List.filter_cons, if_neg hk] at hp
        obtain ⟨d', h1, h2, h3, h4⟩ := ih d hl' hp
        refine ⟨d', by rw [tableLoop, if_neg hk]; exact h1, fun m hm => h2 m fun p hpl => hm p (List.mem_cons_of_mem _ hpl), ?_, ?_⟩
        · intro p hpm hps v n hv hn
          rcases List.mem_cons.1 hpm with rfl | hpm
          · exact absurd hps hk
          · exact h3 p hpm hps v n hv hn
        · intro k hkm
          rcases h4 k hkm with h | ⟨p, hpl, h⟩
          · exact Or.inl h
          · exact Or.inr ⟨p, List.mem_cons_of_mem _ hpl, h⟩
  obtain ⟨d, h1, -, h3, h4⟩ := key st [] hnames hdist
  refine ⟨d, h1, ?_, ?_⟩
  · intro p hp hps s rows n hc hg hn
    obtain ⟨w, w1, w2, w3⟩ := C221_rows p.2.lines s rows hg
    have hb : bodyC2 p.2 = .ok w := by
      rw [← w1]
      congr 1
      obtain ⟨pk, pl, pc⟩ := p
      simp only at hc
      rw [hc]
    refine ⟨w.map zxyt, h3 p hp hps w n hb hn, w, w2, w3, ?_⟩
    rw [List.forall₂_map_right_iff, List.forall₂_same]
    intro r hr
    have h5 := hg.five r (w2.mem_iff.1 hr)
    match r, h5 with
    | [i, x, y, z, tw], _ => exact ⟨i, x, y, z, tw, rfl, rfl⟩
  · intro k hk
    rcases h4 k hk with h | h
    · cases h
    · exact h

example : tables [("main_body".toList, ⟨[("name".toList, [.str "blade".toList])], some exSect⟩), ("main_body__2".toList, ⟨[("name".toList, [.str "hub".toList])], none⟩),
    ("orientation".toList, ⟨[], none⟩)] = .ok [("blade_c2".toList, [[0, 0, 0, 0], [5, 0, 0, 0]])] := by decide +kernel

end Verif.HtcBody
