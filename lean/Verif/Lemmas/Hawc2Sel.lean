import Verif.Spec.Hawc2Sel
import Verif.Lemmas.HawcAe
import Verif.Py.Fmt
import Verif.Lemmas.FastBin
import Mathlib.Data.List.Forall2
import Mathlib.Tactic
/-!
# Lemmas on HAWC2 and BHAWC result files
-/
namespace Verif.Hawc2Sel
open Verif.Py
open Verif.FastLine (showInt)

theorem find_isSome (w s : Str) : (find w s).isSome = true ↔ w <:+: s := by
  induction s with
  | nil =>
    unfold find
    by_cases h : w = []
    · simp [h]
    · simp [h]
  | cons c s ih =>
    unfold find
    by_cases h : w.isPrefixOf (c :: s) = true
    · rw [if_pos h]
      exact ⟨fun _ => (List.isPrefixOf_iff_prefix.1 h).isInfix, fun _ => rfl⟩
    · rw [if_neg h, Option.isSome_map, ih, List.infix_cons_iff]
      exact ⟨fun g => .inr g, fun g => g.resolve_left (fun g => h (List.isPrefixOf_iff_prefix.2 g))⟩

theorem mentions_iff (w s : Str) : mentions w s = true ↔ w <:+: lower s := find_isSome _ _

theorem keepLines_unlines (ls : List Str) (h : ∀ l ∈ ls, '\n' ∉ l) : keepLines (HawcAe.unlines ls) = ls.map (· ++ ['\n']) := by
  unfold keepLines
  simp only [HawcAe.splitOn_unlines ls h]
  simp

theorem mapM_ok {α β ε : Type} (f : α → Except ε β) (l : List α) (r : List β) (h : List.Forall₂ (fun a b => f a = .ok b) l r) :
    l.mapM f = .ok r := by
  induction h with
  | nil => rfl
  | cons h1 _ ih => rw [List.mapM_cons, h1, ih]; rfl

theorem mapM_map {α β ε : Type} (f : α → Except ε β) (g : α → β) (l : List α) (h : ∀ a ∈ l, f a = .ok (g a)) :
    l.mapM f = .ok (l.map g) := by
  induction l with
  | nil => rfl
  | cons a t ih =>
    rw [List.mapM_cons, h a (by simp), ih (fun b hb => h b (by simp [hb]))]
    rfl

theorem mapM_error {α β ε : Type} (f : α → Except ε β) (l : List α) (h : ∃ a ∈ l, ∃ e, f a = .error e) : ∃ e, l.mapM f = .error e := by
  induction l with
  | nil => simp at h
  | cons a t ih =>
    rw [List.mapM_cons]
    cases hfa : f a with
    | error e => exact ⟨e, rfl⟩
    | ok b =>
      obtain ⟨a', ha', e, he⟩ := h
      rcases List.mem_cons.1 ha' with rfl | ha'
      · rw [hfa] at he
        cases he
      · obtain ⟨e', he'⟩ := ih ⟨a', ha', e, he⟩
        exact ⟨e', by rw [he']; rfl⟩

/-- reading consecutive elements -/
theorem mapM_nth {β : Type} (pre ls post : List Str) (f : Str → Except Err β) (r : List β) (k : Nat) (hk : pre.length = k)
    (h : List.Forall₂ (fun l b => f l = .ok b) ls r) :
    (List.range ls.length).mapM (fun i => do f (← nth (pre ++ (ls ++ post)) (i + k))) = .ok r := by
  subst hk
  have : (List.range ls.length).mapM (fun i => do f (← nth (pre ++ (ls ++ post)) (i + pre.length))) = ls.mapM f := by
    clear h r
    induction ls generalizing pre with
    | nil => rfl
    | cons l ls ih =>
      have e := ih (pre ++ [l])
      rw [List.length_cons, List.range_succ_eq_map, List.mapM_cons, List.mapM_cons, List.mapM_map]
      have h0 : nth (pre ++ ((l :: ls) ++ post)) (0 + pre.length) = .ok l := by
        unfold nth
        simp
      rw [h0]
      have h1 : (List.range ls.length).mapM ((fun i => do f (← nth (pre ++ (l :: ls ++ post)) (i + pre.length))) ∘ Nat.succ) = ls.mapM f := by
        rw [← e]
        congr 1
        funext i
        simp only [Function.comp, List.append_assoc, List.length_append, List.length_singleton, List.singleton_append, List.cons_append]
        congr 2
        omega
      simp only [bind, Except.bind] at h1 ⊢
      cases f l with
      | error e => rfl
      | ok b =>
        simp only
        rw [h1]
  rw [this]
  exact mapM_ok f ls r h

theorem strip_snoc_nl (d : Str) : strip (d ++ ['\n']).dropLast = strip d := by simp

theorem hawcLine_ok (l : Str) (c : Channel) (h : ChanLine l c) : hawcLine (l ++ ['\n']) = (c.name, c.unit, c.descr) := by
  obtain ⟨p, n, u, d, rfl, hp, hn, hu, h1, h2, h3⟩ := h
  unfold hawcLine
  have e1 : ((p ++ (n ++ (u ++ d)) ++ ['\n']).drop 12).take 31 = n := by
    rw [List.append_assoc, ← hp, List.drop_left, List.append_assoc, ← hn, List.take_left]
  have e2 : ((p ++ (n ++ (u ++ d)) ++ ['\n']).drop 43).take 11 = u := by
    have : p ++ (n ++ (u ++ d)) ++ ['\n'] = (p ++ n) ++ (u ++ (d ++ ['\n'])) := by simp
    rw [this, show 43 = (p ++ n).length by simp [hp, hn], List.drop_left, ← hu, List.take_left]
  have e3 : ((p ++ (n ++ (u ++ d)) ++ ['\n']).drop 54).dropLast = d := by
    have : p ++ (n ++ (u ++ d)) ++ ['\n'] = (p ++ (n ++ u)) ++ (d ++ ['\n']) := by simp
    rw [this, show 54 = (p ++ (n ++ u)).length by simp [hp, hn, hu], List.drop_left]
    simp
  rw [e1, e2, e3, h1, h2, h3]

theorem counts_ok [Field F] [DecidableEq F] (N : Num F) (a b c : Str) (r : List Str) (n : Nat) (m : Int) (t : F) (ha : N.int a = some (n : Int))
    (hb : N.int b = some m) (hc : N.flt c = some t) (ht : t ≠ 0) :
    counts N (a :: b :: c :: r) = .ok ((n : Int), m, t, (List.range n).map (fun i : Nat => ((i : F) + 1) * t / n)) := by
  have : timeVec (n : Int) t = .ok ((List.range n).map (fun i : Nat => ((i : F) + 1) * t / n)) := by
    unfold timeVec
    rw [if_neg (by omega), Int.toNat_natCast]
  unfold counts
  simp only [nth, intOf, fltOf, List.getElem?_cons_zero, List.getElem?_cons_succ, ha, hb, hc, bind, Except.bind, this]
  rw [if_neg ht]
  rfl

/-- the lines of a HAWC2 file -/
theorem readHawc_start [Field F] [DecidableEq F] (N : Num F) (s : SelText F) (h : s.Ok N) :
    readSel N s.text = readHawc N ((s.title :: (s.head ++ (s.count :: (s.mid ++ (s.lines ++ s.rest))))).map (· ++ ['\n'])) := by
  unfold readSel SelText.text
  simp only [keepLines_unlines _ h.1]
  have hm : mentions "bhawc".toList (s.title ++ ['\n']) = false := by
    rw [← Bool.not_eq_true, mentions_iff]
    intro hi
    apply h.2.1
    have : lower (s.title ++ ['\n']) = lower s.title ++ ['\n'] := by simp [lower]
    rw [this] at hi
    obtain ⟨x, y, hxy⟩ := hi
    rcases List.eq_nil_or_concat y with rfl | ⟨y', z, rfl⟩
    · exfalso
      have := congrArg List.getLast? hxy
      simp at this
    · refine ⟨x, y', ?_⟩
      have := congrArg List.dropLast hxy
      simpa [← List.append_assoc] using this
  simp only [List.map_cons, nth, List.getElem?_cons_zero, bind, Except.bind, hm]
  rfl

theorem readHawc_chans [Field F] [DecidableEq F] (N : Num F) (s : SelText F) (h : s.Ok N) :
    nth ((s.title :: (s.head ++ (s.count :: (s.mid ++ (s.lines ++ s.rest))))).map (· ++ ['\n'])) 8 = .ok (s.count ++ ['\n']) ∧
    (List.range s.chans.length).mapM (fun i => do return hawcLine (← nth ((s.title :: (s.head ++ (s.count :: (s.mid ++ (s.lines ++ s.rest))))).map (· ++ ['\n'])) (i + 12))) =
      .ok (s.chans.map (fun c => (c.name, c.unit, c.descr))) := by
  obtain ⟨_, _, hh, hm, hl, _⟩ := h
  constructor
  · have : (s.title :: (s.head ++ (s.count :: (s.mid ++ (s.lines ++ s.rest))))).map (· ++ ['\n']) =
        ((s.title :: s.head).map (· ++ ['\n'])) ++ ((s.count ++ ['\n']) :: (s.mid ++ (s.lines ++ s.rest)).map (· ++ ['\n'])) := by simp
    rw [this, show 8 = ((s.title :: s.head).map (· ++ ['\n'])).length by simp [hh]]
    unfold nth
    rw [List.getElem?_append_right (le_refl _)]
    simp
  · have : (s.title :: (s.head ++ (s.count :: (s.mid ++ (s.lines ++ s.rest))))).map (· ++ ['\n']) =
        ((s.title :: (s.head ++ s.count :: s.mid)).map (· ++ ['\n'])) ++ (s.lines.map (· ++ ['\n']) ++ s.rest.map (· ++ ['\n'])) := by simp
    have hlen : s.chans.length = (s.lines.map (· ++ ['\n'])).length := by rw [List.length_map, hl.length_eq]
    rw [this, hlen]
    refine mapM_nth _ _ _ (fun l => pure (hawcLine l)) _ 12 (by simp [hh, hm]) ?_
    rw [List.forall₂_map_left_iff, List.forall₂_map_right_iff]
    exact hl.imp (fun l c hlc => by rw [hawcLine_ok l c hlc]; rfl)

theorem words_nl (s : Str) : words (s ++ ['\n']) = words s := words_append_ws s '\n' (by decide)

theorem rowsOf_get (k m : Nat) (l : List α) : rowsOf k m l = (List.range m).map (fun i => (l.drop (k * i)).take k) := by
  induction m generalizing l with
  | zero => rfl
  | succ m ih =>
    rw [rowsOf, ih, List.range_succ_eq_map, List.map_cons, List.map_map]
    simp only [Nat.mul_zero, List.drop_zero, List.cons.injEq, true_and]
    apply List.map_congr_left
    intro i _
    simp only [Function.comp, List.drop_drop, Nat.mul_succ]
    congr 2
    omega

theorem int16s_eq (bytes : Bytes) (n i : Nat) : int16s bytes (i * n * 2) n = (List.range (min n ((bytes.length - i * n * 2) / 2))).map (sample bytes n i) := by
  unfold int16s
  rw [rowsOf_get, List.map_map]
  apply List.map_congr_left
  intro j _
  simp only [Function.comp, sample, List.drop_drop]
  congr 3
  ring

theorem readAscii_ok (N : Num F) (hd : Head F) (m : Nat) (hm : hd.nrCh = m) (hm0 : 0 < m) (text : Str) (rows : List (List F)) (h : DataText N m text rows) :
    readAscii N hd text = if hd.nrSc = -1 ∨ hd.nrSc = rows.length then .ok rows else .error .value := by
  obtain ⟨hc, hr, hrows⟩ := h
  have hno : (splitOn '\n' text).map noComment = splitOn '\n' text := by
    rw [List.map_congr_left (g := id), List.map_id]
    intro l hl
    unfold noComment
    have htw : ∀ l : Str, (∀ c ∈ l, decide (c ≠ '#') = true) → l.takeWhile (· ≠ '#') = l := by
      intro l
      induction l with
      | nil => exact fun _ => rfl
      | cons c l ih =>
        intro hl
        rw [List.takeWhile_cons, if_pos (hl c (by simp)), ih (fun c hc => hl c (by simp [hc]))]
    refine htw l ?_
    intro c hcl
    have : c ∈ text := by
      rw [← join_splitOn '\n' text]
      clear hrows
      revert hl
      generalize splitOn '\n' text = L
      intro hl
      induction L with
      | nil => simp at hl
      | cons a t ih =>
        by_cases ht : t = []
        · subst ht
          simp at hl
          subst hl
          simpa [joinWith] using hcl
        · rw [joinWith_cons _ _ _ ht]
          rcases List.mem_cons.1 hl with rfl | hl
          · simp [hcl]
          · simp [ih hl]
    simp only [ne_eq, decide_eq_true_eq]
    rintro rfl
    exact hc this
  unfold readAscii
  simp only [hno, hm, Int.toNat_natCast]
  have : ((splitOn '\n' text).filter (fun l => words l ≠ [])).mapM (numRow N m) = .ok rows := by
    apply mapM_ok
    have : ∀ r ∈ rows, r.length = m := hr
    revert this
    generalize (splitOn '\n' text).filter (fun l => decide (words l ≠ [])) = L at hrows
    clear hr
    induction hrows with
    | nil => exact fun _ => .nil
    | @cons l r L R h1 _ ih =>
      intro hr
      refine .cons ?_ (ih (fun r hr' => hr r (by simp [hr'])))
      obtain ⟨ws, more, hw, hf⟩ := h1
      have hl : ws.length = m := by rw [hf.length_eq, hr r (by simp)]
      unfold numRow
      rw [hw, if_neg (by simp [hl]), ← hl, List.take_left]
      exact mapM_ok _ _ _ (hf.imp (fun w x hwx => by unfold fltOf; rw [hwx]))
  rw [this]
  rfl

theorem read_of [Field F] [DecidableEq F] (N : Num F) (sel text : Str) (bytes : Bytes) (hd : Head F) (h : readSel N sel = .ok hd) :
    read N sel text bytes = match readAll N hd text bytes with
      | .ok data => .ok ⟨data, hd.names, hd.units, hd.descr, hd.format == .bhawc⟩
      | .error _ => .error .wrongFormat := by
  unfold read load
  simp only [h, bind, Except.bind]
  cases readAll N hd text bytes <;> rfl

theorem readAll_binary [Field F] (N : Num F) (hd : Head F) (text : Str) (bytes : Bytes) (h0 : 0 < hd.nrCh) (hf : hd.format = .binary) :
    readAll N hd text bytes = readBinary hd bytes := by
  unfold readAll
  rw [if_neg (by omega), hf]

theorem readAll_ascii [Field F] (N : Num F) (hd : Head F) (text : Str) (bytes : Bytes) (h0 : 0 < hd.nrCh) (hf : hd.format ≠ .binary) :
    readAll N hd text bytes = readAscii N hd text := by
  unfold readAll
  rw [if_neg (by omega)]
  revert hf
  cases hd.format <;> first | exact fun _ => rfl | exact fun h => absurd rfl h

theorem fillCol_error (n : Nat) (l : List F) (h : l.length ≠ n) (h1 : l.length ≠ 1) : fillCol n l = .error .value := by
  unfold fillCol
  rw [if_neg h]
  match l, h1 with
  | [], _ => rfl
  | [x], h1 => exact absurd rfl h1
  | _ :: _ :: _, _ => rfl

theorem cleanUnit_eq (u : Str) : cleanUnit u = noBrackets u := by
  unfold cleanUnit noBrackets
  congr 1
  funext c
  by_cases h1 : c = '('
  · simp [h1]
  by_cases h2 : c = ')'
  · simp [h2]
  by_cases h3 : c = '['
  · simp [h3]
  by_cases h4 : c = ']'
  · simp [h4]
  simp [h1, h2, h3, h4]

theorem rstripBy_ws (s t : Str) (h : ∀ c ∈ t, isWs c = true) : rstripBy isWs (s ++ t) = rstripBy isWs s := by
  unfold rstripBy
  rw [List.reverse_append, List.dropWhile_append_of_pos (by simpa using h)]

theorem dropWhile_nil_iff (s : Str) : s.dropWhile isWs = [] ↔ ∀ c ∈ s, isWs c = true := by
  induction s with
  | nil => simp
  | cons a t ih =>
    by_cases h : isWs a = true
    · rw [List.dropWhile_cons_of_pos h, ih]
      simp [h]
    · rw [List.dropWhile_cons_of_neg h]
      simp [h]

theorem strip_append_ws (s t : Str) (h : ∀ c ∈ t, isWs c = true) : strip (s ++ t) = strip s := by
  unfold strip stripBy lstripBy
  by_cases hs : ∀ c ∈ s, isWs c = true
  · have h1 : (s ++ t).dropWhile isWs = [] := by
      rw [dropWhile_nil_iff]
      intro c hc
      rcases List.mem_append.1 hc with hc | hc
      · exact hs c hc
      · exact h c hc
    have h2 : s.dropWhile isWs = [] := by
      rw [dropWhile_nil_iff]
      exact hs
    rw [h1, h2]
  · have : (s ++ t).dropWhile isWs = s.dropWhile isWs ++ t := by
      rw [List.dropWhile_append]
      rw [if_neg]
      rw [List.isEmpty_iff, dropWhile_nil_iff]
      exact hs
    rw [this, rstripBy_ws _ _ h]

theorem strip_padTo (n : Nat) (s : Str) : strip (padTo n s) = strip s :=
  strip_append_ws s _ (fun c hc => by rw [List.eq_of_mem_replicate hc]; rfl)

theorem length_padTo (n : Nat) (s : Str) (h : s.length ≤ n) : (padTo n s).length = n := by
  unfold padTo
  rw [List.length_append, List.length_replicate]
  omega

theorem length_showInt (n e : Nat) (he : 0 < e) (h : n < 10 ^ e) : (showInt (n : Int)).length ≤ e :=
  Nat.toDigits_length 10 n e he h

theorem not_mem_padTo (n : Nat) (s : Str) (h : '\n' ∉ s) : '\n' ∉ padTo n s := by
  unfold padTo
  rw [List.mem_append, not_or]
  exact ⟨h, fun hc => absurd (List.eq_of_mem_replicate hc) (by decide)⟩

theorem words_joinAll (l : List Str) : words (joinWith [' '] l) = l.flatMap words := by
  induction l with
  | nil => rfl
  | cons a t ih =>
    by_cases ht : t = []
    · subst ht
      simp [joinWith]
    · rw [joinWith_cons _ _ _ ht, List.append_assoc, List.singleton_append, words_append _ _ _ isWs_space, ih]
      rfl

theorem words_padTo_cons {w : Str} (n : Nat) (hw : IsWord w) (s : Str) (h : w.length < n) : words (padTo n w ++ s) = w :: words s := by
  unfold padTo
  obtain ⟨k, hk⟩ : ∃ k, n - w.length = k + 1 := ⟨n - w.length - 1, by omega⟩
  rw [hk, List.replicate_succ, List.append_assoc, List.cons_append, words_word_cons hw _ _ isWs_space, HawcAe.words_replicate]

/-- the text of the numbers is read -/
theorem datText_ok (N : Num F) (o : Obj F) (m : Nat) (h : CanSave o m) (rd : F → F) (time time' : F) (hp : Prints N o rd time time') :
    DataText N m (datText N o.data) (o.data.map (·.map rd)) := by
  have hl : ∀ r ∈ o.data, ∀ c ∈ joinWith [' '] (r.map N.e8), c ≠ '\n' ∧ c ≠ '#' := by
    intro r hr c hc
    rcases mem_joinWith _ _ _ hc with hc | ⟨w, hw, hcw⟩
    · simp at hc
      subst hc
      decide
    · obtain ⟨x, hx, rfl⟩ := List.mem_map.1 hw
      obtain ⟨_, _, _, h1, h2⟩ := hp.e8 r hr x hx
      exact ⟨fun e => h1 (e ▸ hcw), fun e => h2 (e ▸ hcw)⟩
  refine ⟨?_, ?_, ?_⟩
  · unfold datText HawcAe.unlines
    intro hc
    obtain ⟨l, hl', hc⟩ := List.mem_flatMap.1 hc
    obtain ⟨r, hr, rfl⟩ := List.mem_map.1 hl'
    rcases List.mem_append.1 hc with hc | hc
    · exact (hl r hr _ hc).2 rfl
    · simp at hc
  · intro r hr
    obtain ⟨r', hr', rfl⟩ := List.mem_map.1 hr
    rw [List.length_map, h.rows r' hr']
  · have hw : ∀ r ∈ o.data, ∃ ws, words (joinWith [' '] (r.map N.e8)) = ws ∧ List.Forall₂ (fun w x => N.flt w = some x) ws (r.map rd) := by
      intro r hr
      refine ⟨_, rfl, ?_⟩
      rw [words_joinAll]
      have := hp.e8 r hr
      revert this
      generalize r = r'
      intro hr'
      induction r' with
      | nil => exact .nil
      | cons x t ih =>
        obtain ⟨w, h1, h2, _⟩ := hr' x (by simp)
        rw [List.map_cons, List.flatMap_cons, h1]
        exact .cons h2 (ih (fun y hy => hr' y (by simp [hy])))
    unfold datText
    rw [HawcAe.splitOn_unlines _ (by
      intro l hl'
      obtain ⟨r, hr, rfl⟩ := List.mem_map.1 hl'
      exact fun hc => (hl r hr _ hc).1 rfl)]
    have hfil : ((o.data.map (fun r : List F => joinWith [' '] (r.map N.e8))) ++ [[]]).filter (fun l => decide (words l ≠ [])) =
        o.data.map (fun r : List F => joinWith [' '] (r.map N.e8)) := by
      rw [List.filter_append, List.filter_eq_self.2]
      · simp [words_nil]
      · intro l hl'
        obtain ⟨r, hr, rfl⟩ := List.mem_map.1 hl'
        obtain ⟨ws, h1, h2⟩ := hw r hr
        rw [h1, decide_eq_true_eq]
        rintro rfl
        have := h2.length_eq
        rw [List.length_map, h.rows r hr] at this
        have := h.positive
        simp_all
    rw [hfil, List.forall₂_map_left_iff, List.forall₂_map_right_iff, List.forall₂_same]
    intro r hr
    obtain ⟨ws, h1, h2⟩ := hw r hr
    exact ⟨ws, [], by rw [h1, List.append_nil], h2⟩

theorem chanList_eq (o : Obj F) (m : Nat) (hn : o.names.length = m) (hu : o.units.length = m) (hd : o.descr.length = m) :
    chanList o = (List.range m).map (fun i => (i + 1, o.names.getD i [], o.descr.getD i [], o.units.getD i [])) := by
  apply List.ext_getElem?
  intro i
  unfold chanList
  by_cases hi : i < m
  · simp [List.getElem?_zipIdx, List.getElem?_zip_eq_some, hi, hn, hu, hd, List.getElem?_eq_getElem, List.getElem_zip, List.getD_eq_getElem?_getD]
  · simp [hi, hn, hu, hd]

/-- what the `.sel` file of an object says -/
def written (N : Num F) (base : Str) (o : Obj F) (m : Nat) (time time' : F) : SelText F where
  title := rule
  head := ["  Version ID : NA".toList,
        "                                                            Time : 00:00:00".toList,
        "                                                            Date : 01:01.2001".toList,
        rule,
        "  Result file : ".toList ++ base,
        rule,
        "   Scans    Channels    Time [sec]      Format".toList]
  count := padTo 12 (showInt o.data.length) ++ (padTo 12 (showInt m) ++ (padTo 16 (N.f3 time) ++ "ASCII".toList))
  mid := [[], "Channel     Name                           Unit       Variable Description".toList, []]
  lines := (chanList o).map hawcText
  rest := [rule]
  nrSc := o.data.length
  time := time'
  format := "ASCII".toList
  chans := (List.range m).map (fun i => ⟨strip ((o.names.getD i []).take 30), strip (noBrackets (o.units.getD i [])), strip (o.descr.getD i [])⟩)

theorem selText_hawc (N : Num F) (base : Str) (o : Obj F) (m : Nat) (h : CanSave o m) (hb : o.bhawc = false) (time time' : F)
    (hl : ∃ rest, o.data.getLast? = some (time :: rest)) : selText N base o = .ok (written N base o m time time').text := by
  obtain ⟨rest, hl⟩ := hl
  have hm : (time :: rest).length = m := h.rows _ (List.mem_of_getLast? hl)
  unfold selText
  rw [hl]
  simp only [hb, hm]
  simp [written, SelText.text]

theorem range_getD {α β : Type} (l : List α) (m : Nat) (h : l.length = m) (d : α) (f : α → β) :
    (List.range m).map (fun i => f (l.getD i d)) = l.map f := by
  apply List.ext_getElem
  · simp [h]
  · intro i h1 h2
    simp [List.getD_eq_getElem?_getD] at h1 h2 ⊢
    rw [List.getElem?_eq_getElem h2, Option.getD_some]

theorem getD_mem {α : Type} (l : List α) (i : Nat) (d : α) (h : i < l.length) : l.getD i d ∈ l := by
  rw [List.getD_eq_getElem?_getD, List.getElem?_eq_getElem h, Option.getD_some]
  exact List.getElem_mem h

theorem nl_take (n : Nat) (s : Str) (h : '\n' ∉ s) : '\n' ∉ s.take n := fun hc => h (List.mem_of_mem_take hc)

theorem nl_noBrackets (s : Str) (h : '\n' ∉ s) : '\n' ∉ noBrackets s := fun hc => h (List.mem_of_mem_filter hc)

theorem written_nl (N : Num F) (base : Str) (o : Obj F) (m : Nat) (h : CanSave o m) (rd : F → F) (time time' : F)
    (hp : Prints N o rd time time') (hbase : '\n' ∉ base) (l : Str)
    (hl : l ∈ (written N base o m time time').title :: ((written N base o m time time').head ++ ((written N base o m time time').count ::
      ((written N base o m time time').mid ++ ((written N base o m time time').lines ++ (written N base o m time time').rest))))) : '\n' ∉ l := by
  have hrule : '\n' ∉ rule := fun hc => absurd (List.eq_of_mem_replicate hc) (by decide)
  have hlines := h.line
  simp only [written, List.mem_cons, List.mem_append, List.not_mem_nil, or_false] at hl
  rcases hl with rfl | (rfl | rfl | rfl | rfl | rfl | rfl | rfl) | rfl | (rfl | rfl | rfl) | hl | rfl
  · exact hrule
  · decide
  · decide
  · decide
  · exact hrule
  · rw [List.mem_append, not_or]
    exact ⟨by decide, hbase⟩
  · exact hrule
  · decide
  · simp only [List.mem_append, not_or]
    exact ⟨not_mem_padTo _ _ (HawcAe.IsWord.nl (HawcAe.isWord_showInt _)), not_mem_padTo _ _ (HawcAe.IsWord.nl (HawcAe.isWord_showInt _)),
      not_mem_padTo _ _ (HawcAe.IsWord.nl hp.f3.1), by decide⟩
  · decide
  · decide
  · decide
  · rw [chanList_eq o m h.names h.units h.descr, List.map_map] at hl
    obtain ⟨i, hi, rfl⟩ := List.mem_map.1 hl
    have hi := List.mem_range.1 hi
    simp only [Function.comp, hawcText, List.mem_append, not_or, cleanUnit_eq]
    refine ⟨not_mem_padTo _ _ (HawcAe.IsWord.nl (HawcAe.isWord_showInt _)), not_mem_padTo _ _ (nl_take _ _ (hlines _ ?_)),
      not_mem_padTo _ _ (nl_noBrackets _ (hlines _ ?_)), hlines _ ?_⟩
    · exact List.mem_append_left _ (getD_mem _ _ _ (by rw [h.names]; exact hi))
    · exact List.mem_append_right _ (List.mem_append_left _ (getD_mem _ _ _ (by rw [h.units]; exact hi)))
    · exact List.mem_append_right _ (List.mem_append_right _ (getD_mem _ _ _ (by rw [h.descr]; exact hi)))
  · exact hrule

theorem written_count (N : Num F) (base : Str) (o : Obj F) (m : Nat) (h : CanSave o m) (rd : F → F) (time time' : F)
    (hp : Prints N o rd time time') : words (written N base o m time time').count = [showInt o.data.length, showInt m, N.f3 time, "ASCII".toList] := by
  have h1 := length_showInt o.data.length 11 (by omega) h.few.2
  have h2 := length_showInt m 11 (by omega) h.few.1
  have h3 := hp.f3.2.1
  simp only [written]
  rw [words_padTo_cons 12 (HawcAe.isWord_showInt _) _ (by omega), words_padTo_cons 12 (HawcAe.isWord_showInt _) _ (by omega),
    words_padTo_cons 16 hp.f3.1 _ (by omega)]
  rfl

theorem rule_bhawc : ¬ "bhawc".toList <:+: lower rule := by
  intro hc
  have : 'b' ∈ lower rule := hc.mem (by decide)
  revert this
  decide

theorem written_ok [Field F] (N : Num F) (base : Str) (o : Obj F) (m : Nat) (h : CanSave o m) (rd : F → F) (time time' : F)
    (hp : Prints N o rd time time') (ht : time' ≠ 0) (hbase : '\n' ∉ base) (hu : ∀ u ∈ o.units, (noBrackets u).length ≤ 11) :
    (written N base o m time time').Ok N := by
  refine ⟨?_, ?_, rfl, rfl, ?_, ⟨showInt o.data.length, showInt m, N.f3 time, [], ?_, hp.int _, ?_, hp.f3.2.2⟩, ht⟩
  · exact written_nl N base o m h rd time time' hp hbase
  · show ¬ "bhawc".toList <:+: lower rule
    intro hc
    have : 'b' ∈ lower rule := hc.mem (by decide)
    revert this
    decide
  · simp only [written]
    rw [chanList_eq o m h.names h.units h.descr, List.map_map, List.forall₂_map_left_iff, List.forall₂_map_right_iff, List.forall₂_same]
    intro i hi
    have hi := List.mem_range.1 hi
    refine ⟨_, _, _, _, rfl, ?_, ?_, ?_, ?_, ?_, ?_⟩
    · refine length_padTo _ _ (length_showInt (i + 1) 12 (by omega) ?_)
      have := h.few.1
      omega
    · refine length_padTo _ _ ?_
      rw [List.length_take]
      omega
    · rw [cleanUnit_eq]
      exact length_padTo _ _ (hu _ (getD_mem _ _ _ (by rw [h.units]; exact hi)))
    · rw [strip_padTo]
    · rw [strip_padTo, cleanUnit_eq]
    · rfl
  · exact written_count N base o m h rd time time' hp
  · simp only [written, List.length_map, List.length_range]
    exact hp.int m

end Verif.Hawc2Sel
