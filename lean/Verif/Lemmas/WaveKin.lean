import Verif.Spec.WaveKin
import Verif.Lemmas.FlexDoc
import Verif.Props.Csv
/-!
# Lemmas on a FLEX wave kinematics file
-/
namespace Verif.WaveKin
open Verif.Py

theorem getElem?_blocks {A B : Type} (f : A → List B) (m : Nat) (hf : ∀ a, (f a).length = m) :
    ∀ (l : List A) (j : Nat) (a : A) (i : Nat), l[j]? = some a → i < m → (l.flatMap f)[j * m + i]? = (f a)[i]?
  | [], j, a, i, h, _ => by simp at h
  | x :: l, 0, a, i, h, hi => by
    obtain rfl : x = a := by simpa using h
    rw [List.flatMap_cons, Nat.zero_mul, Nat.zero_add, List.getElem?_append_left (by rw [hf]; exact hi)]
  | x :: l, j + 1, a, i, h, hi => by
    rw [List.flatMap_cons, List.getElem?_append_right (by rw [hf, Nat.succ_mul]; omega), hf]
    have : (j + 1) * m + i - m = j * m + i := by rw [Nat.succ_mul]; omega
    rw [this]
    exact getElem?_blocks f m hf l j a i (by simpa using h) hi

theorem fa_gap (gap r : Str) (n : Nat) (h1 : ∀ c ∈ gap, c.isDigit = false) (h2 : gap = [] ∨ gap.getLast? = some ' ') (hn : gap.length + r.length ≤ n) :
    ∃ m, r.length ≤ m ∧ FlexDoc.findallN n (gap ++ r) = FlexDoc.findallN m r := by
  rcases h2 with rfl | h2
  · exact ⟨n, by simpa using hn, rfl⟩
  · obtain ⟨g, rfl⟩ := List.getLast?_eq_some_iff.1 h2
    obtain ⟨m, hm, e⟩ := FlexDoc.fa_word g (' ' :: r) n (fun c hc => h1 c (by simp [hc])) (by intro c hc; simp at hc; exact hc.symm) (by simp at hn ⊢; omega)
    obtain ⟨k, hk, e2⟩ := FlexDoc.fa_space r m (by simpa using hm)
    exact ⟨k, hk, by rw [List.append_assoc, List.singleton_append, e, e2]⟩

theorem rest_head {rest : Str} (h : rest = [] ∨ rest.head? = some ' ') : ∀ c, rest.head? = some c → c = ' ' := by
  intro c hc
  rcases h with rfl | h
  · cases hc
  · rw [h] at hc; exact (Option.some.inj hc).symm

theorem findall_first (t w : Str) (h : First t w) : (FlexDoc.findall t)[0]? = some w := by
  obtain ⟨gap, rest, rfl, h1, h2, h3, h4⟩ := h
  obtain ⟨m, hm, e⟩ := fa_gap gap (w ++ rest) (gap ++ w ++ rest).length h1 h2 (by simp)
  obtain ⟨k, hk, e2⟩ := FlexDoc.fa_num w rest m h3 (rest_head h4) (by simpa using hm)
  rw [FlexDoc.findall, List.append_assoc]
  rw [List.append_assoc] at e
  rw [e, e2]
  rfl

theorem findallN_nums (t : Str) (ws : List Str) (h : NumsIn t ws) : ∀ n, t.length ≤ n → FlexDoc.findallN n t = ws := by
  induction h with
  | nil t h =>
    intro n hn
    obtain ⟨m, _, e⟩ := FlexDoc.fa_word t [] n h (by simp) (by simpa using hn)
    rw [List.append_nil] at e
    rw [e]
    cases m <;> rfl
  | cons gap w rest ws h1 h2 h3 h4 _ ih =>
    intro n hn
    obtain ⟨m, hm, e⟩ := fa_gap gap (w ++ rest) n h1 h2 (by simp at hn ⊢; omega)
    obtain ⟨k, hk, e2⟩ := FlexDoc.fa_num w rest m h3 (rest_head h4) (by simpa using hm)
    rw [List.append_assoc, e, e2, ih k hk]

theorem findall_nums (t : Str) (ws : List Str) (h : NumsIn t ws) : FlexDoc.findall t = ws := findallN_nums t ws h _ (Nat.le_refl _)

theorem csv_of (T : Csv.Txt) (hs ls : List Str) (hl : hs.length = 11) (n : Nat) (rows : List (List Str)) (hr : HasRows ls n rows) (hp : Plain T hs) :
    ∃ o, Csv.read T { sep := some (.ch ' '), commentLines := List.range 11, detect := false } (hs ++ ls) = .ok o ∧ o.header = hs.map strip ∧ o.columns.length = n ∧
      o.data = rows.map (List.map some) := by
  obtain ⟨hrows, hne, hw, hq⟩ := hr
  have hb : Csv.body none ls = ls.filter fun l => strip l ≠ [] := by
    have : ls.map (Csv.uncomment none) = ls := (List.map_congr_left fun _ _ => rfl).trans (List.map_id ls)
    rw [Csv.body, this]
  cases hd : ls.filter (fun l => strip l ≠ []) with
  | nil => rw [hd] at hrows; exact absurd hrows hne
  | cons d ds =>
    rw [hd] at hb hrows
    have hdn : (words d).length = n := hw _ (by rw [hrows]; simp)
    have hq' : ∀ l ∈ d :: ds, '"' ∉ l := by
      intro l hl
      rw [← hd] at hl
      exact hq l (List.mem_filter.1 hl).1
    have hwd : ∀ l ∈ ds, (Csv.cells .ws l).length ≤ (Csv.cells .ws d).length := by
      intro l hl
      have : (words l).length = n := hw _ (by rw [hrows]; simp; right; exact ⟨l, hl, rfl⟩)
      show (words l).length ≤ (words d).length
      rw [this, hdn]
    have hex : Csv.excluded T (hs ++ ls) = .ok false := by
      cases hs with
      | nil => cases hl
      | cons h hs =>
        have e : Csv.readline (h :: hs ++ ls) 0 = some (strip h) := by simp [Csv.readline]
        rw [Csv.excluded, e]
        simp only [words_strip]
        have := hp h rfl
        cases hw : words h with
        | nil => rfl
        | cons w0 r =>
          cases r with
          | nil => rfl
          | cons w1 r =>
            have h := this w0 w1 r hw
            simp only [Except.ok.injEq]
            cases h0 : T.isInt w0 <;> cases h1 : T.isAlpha w1 <;> simp_all
    have hhead : Csv.readHeader { sep := some .ws, commentLines := List.range 11, detect := false } (hs ++ ls) =
        { sep := some .ws, commentLines := List.range 11, detect := false, header := hs.map strip } := by
      match hs, hl with
      | [a0, a1, a2, a3, a4, a5, a6, a7, a8, a9, a10], _ => rfl
    rw [Csv.read]
    have hsafe : Csv.safeSep (some (.ch ' ')) = some .ws := rfl
    simp only [hsafe, hex, hhead, List.length_map, Csv.detectSep, Csv.readNames]
    simp only [List.length_nil, gt_iff_lt, Nat.lt_irrefl, if_false, Bool.not_false, if_true, Csv.readData, Csv.tabWs]
    rw [Csv.readCsv_spec .ws _ none hs ls d ds ?_ ?_ hb hq' hwd]
    · refine ⟨_, rfl, rfl, ?_, ?_⟩
      · have : (Csv.cells .ws d).length = n := hdn
        simp [this]
      · show Csv.table .ws (words d).length (d :: ds) = _
        rw [hrows, List.map_map, Csv.table]
        refine List.map_congr_left ?_
        intro l hl
        have hln : (words l).length = n := hw _ (by rw [hrows]; exact List.mem_map.2 ⟨l, hl, rfl⟩)
        show (words l).map Csv.toCell ++ List.replicate ((words d).length - (words l).length) none = (words l).map some
        rw [hdn, hln, Nat.sub_self, List.replicate_zero, List.append_nil]
        refine List.map_congr_left ?_
        intro w hw
        rw [Csv.toCell, if_neg (words_isWord l w hw).1]
    · intro k hk
      simp [Csv.skips, hk]
    · intro k hk
      rw [hl] at hk
      simp [Csv.skips, hl]
      omega

theorem labels_length {F : Type} (N : Num F) (d : F) (displ rel : List F) : (labels N d displ rel).length = 2 + displ.length * (2 * rel.length) := by
  rw [labels, List.length_append, List.length_flatMap]
  simp only [List.length_append, List.length_map]
  rw [List.map_const', List.sum_replicate]
  simp
  left
  omega

/-- the end of the reading, when the header has its numbers -/
theorem read_of {F : Type} (T : Csv.Txt) (N : Num F) (hs ls : List Str) (h : Head) (hh : HeadSays hs h) (n : Nat) (rows : List (List Str)) (hr : HasRows ls n rows)
    (hp : Plain T hs) (nd nr : Int) (h1 : N.int h.nDisp = some nd) (h2 : N.int h.nRel = some nr) :
    read T N (hs ++ ls) =
      if (h.displ.length : Int) ≠ nd then .error .broken else if (h.rel.length : Int) ≠ nr then .error .broken
      else if 2 + h.displ.length * (2 * h.rel.length) ≠ n then .error .broken
      else .ok ⟨(hs.take 2).map strip, N.flt h.crest, N.flt h.vel, N.flt h.acc, N.flt h.depth, N.flt h.hs, N.flt h.tp, N.flt h.spec, h.rel.map N.flt, h.displ.map N.flt,
        labels N (N.flt h.depth) (h.displ.map N.flt) (h.rel.map N.flt), rows.map (List.map some)⟩ := by
  obtain ⟨l0, l1, l2, l3, l4, l5, l6, l7, l8, l9, l10, rfl, e2, e3, e4, e5, e6, e7, e8, e9⟩ := hh
  obtain ⟨o, ho, hhd, hc, hdt⟩ := csv_of T _ ls rfl n rows hr hp
  unfold read
  rw [ho]
  simp only [hhd, List.map_cons, List.map_nil, first, line, List.getElem?_cons_succ, List.getElem?_cons_zero, Option.bind_some, Option.map_some, findall_first _ _ e2,
    findall_first _ _ e3, findall_first _ _ e4, findall_nums _ _ e5, findall_first _ _ e6, findall_nums _ _ e7, findall_first _ _ e8, findall_nums _ _ e9, h1, h2,
    List.length_map, labels_length, hc, hdt]
  rfl

theorem labels_columns {F : Type} (N : Num F) (d : F) (displ rel : List F) :
    Columns (labels N d displ rel) displ rel (fun z x => "u_z=".toList ++ N.fmt (N.neg (N.mul z d)) ++ "_x=".toList ++ N.fmt x ++ "_[m/s]".toList)
      (fun z x => "a_z=".toList ++ N.fmt (N.mul z d) ++ "_x=".toList ++ N.fmt x ++ "_[m/s^2]".toList) := by
  refine ⟨labels_length N d displ rel, rfl, rfl, ?_⟩
  intro j x i z hj hi
  have hlt : i < rel.length := by
    rcases Nat.lt_or_ge i rel.length with h | h
    · exact h
    · rw [List.getElem?_eq_none h] at hi; cases hi
  have key : ∀ k, k < 2 * rel.length → (labels N d displ rel)[2 + j * (2 * rel.length) + k]? =
      ((rel.map fun z => "u_z=".toList ++ N.fmt (N.neg (N.mul z d)) ++ "_x=".toList ++ N.fmt x ++ "_[m/s]".toList) ++
        (rel.map fun z => "a_z=".toList ++ N.fmt (N.mul z d) ++ "_x=".toList ++ N.fmt x ++ "_[m/s^2]".toList))[k]? := by
    intro k hk
    rw [labels, List.getElem?_append_right (by simp; omega)]
    have : 2 + j * (2 * rel.length) + k - ["Time_[s]".toList, "WaveElev_[m]".toList].length = j * (2 * rel.length) + k := by simp; omega
    rw [this]
    exact getElem?_blocks _ (2 * rel.length) (by intro x; simp; omega) displ j x k hj hk
  constructor
  · rw [key i (by omega), List.getElem?_append_left (by simpa using hlt), List.getElem?_map, hi]
    rfl
  · rw [key (rel.length + i) (by omega), List.getElem?_append_right (by simp), List.length_map, Nat.add_sub_cancel_left, List.getElem?_map, hi]
    rfl

theorem isNum_int (w : Str) (h : w ≠ [] ∧ ∀ c ∈ w, c.isDigit = true) : FlexDoc.IsNum w :=
  ⟨[], w, [], by simp, .inl rfl, .inr (.inl ⟨h.1, h.2⟩), .inl rfl⟩

end Verif.WaveKin
