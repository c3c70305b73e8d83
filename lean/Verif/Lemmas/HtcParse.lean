import Verif.Lemmas.HtcTree
/-! # Lemmas: parsing the lines of a tree -/
namespace Verif.Htc
open Verif.Py Verif.FastLine

theorem prefix_stop (p w t : Str) (c : Char) (hc : c ∉ p) :
    p.isPrefixOf (w ++ c :: t) = p.isPrefixOf w := by
  induction p generalizing w with
  | nil => cases w <;> rfl
  | cons a p ih =>
    have ha : a ≠ c := by rintro rfl; simp at hc
    have hp : c ∉ p := fun h => hc (by simp [h])
    cases w with
    | nil => simp [List.isPrefixOf, ha]
    | cons b w => simp [List.isPrefixOf, ih w hp]

theorem isBegin_stop (w t : Str) (c : Char) (hc : c = ' ' ∨ c = '\t' ∨ c = ';') :
    isBegin (w ++ c :: t) = isBegin w := by
  unfold isBegin startsWith lower
  rw [List.map_append, List.map_cons]
  apply prefix_stop
  rcases hc with rfl | rfl | rfl <;> decide

theorem isEnd_stop (w t : Str) (c : Char) (hc : c = ' ' ∨ c = '\t' ∨ c = ';') :
    isEnd (w ++ c :: t) = isEnd w := by
  unfold isEnd startsWith lower
  rw [List.map_append, List.map_cons]
  apply prefix_stop
  rcases hc with rfl | rfl | rfl <;> decide

/-- a word, and what follows it in a printed line -/
theorem valsText_stop (P : Flt) (vals : List (Val P.F)) (t : Str) :
    ∃ c u, valsText P vals ++ ';' :: t = c :: u ∧ (c = ' ' ∨ c = '\t' ∨ c = ';') := by
  unfold valsText
  split
  · exact ⟨';', t, rfl, by simp⟩
  · exact ⟨'\t', _, rfl, by simp⟩

theorem words_vals (P : Flt) (f) (a : Str) (ha : IsWord a) (vals : List (Val P.F)) (h : ∀ v ∈ vals, ValOk P f v) :
    words (a ++ valsText P vals) = a :: vals.map (showVal P) := by
  unfold valsText
  split
  · rename_i hv
    subst hv
    simp [words_word ha]
  · rw [words_word_cons ha _ _ (by decide), words_join]
    intro w hw
    obtain ⟨v, hv, rfl⟩ := List.mem_map.mp hw
    exact (h v hv).word

theorem fmtAll_back (P : Flt) (f) (vals : List (Val P.F)) (h : ∀ v ∈ vals, ValOk P f v) :
    fmtAll f (vals.map (showVal P)) = .ok vals := by
  induction vals with
  | nil => rfl
  | cons v vs ih =>
    rw [List.map_cons, fmtAll, (h v (by simp)).back]
    simp only [ih (fun x hx => h x (by simp [hx]))]

/-- first line of `cmtLines` -/
def line0 (head c : Str) : Str := head ++ ';' :: tabbed ((splitOn '\n' c).headD [])

theorem cmtLines_eq (head c : Str) (rest : List Str) :
    cmtLines head c ++ rest = line0 head c :: ((splitOn '\n' c).tail ++ rest) := rfl

theorem line0_head {head c : Str} (h : Clean head) : ∃ x s, line0 head c = x :: s ∧ isWs x = false ∧ x ≠ ';' := by
  obtain ⟨x, s, hx⟩ := List.exists_cons_of_ne_nil h.ne
  refine ⟨x, s ++ ';' :: tabbed ((splitOn '\n' c).headD []), ?_, h.trim.first x (by rw [hx]; rfl), ?_⟩
  · unfold line0; rw [hx]; rfl
  · rintro rfl
    exact h.sc (by rw [hx]; simp)

theorem line0_plain {head c : Str} (h : Clean head) : isComment (line0 head c) = false ∧ strip (line0 head c) ≠ [] := by
  obtain ⟨x, s, hx, hw, hs⟩ := line0_head (c := c) h
  rw [hx]
  constructor
  · unfold isComment lstrip lstripBy
    rw [List.dropWhile_cons_of_neg (by simp [hw])]
    simp [startsWith, List.isPrefixOf, Ne.symm hs]
  · intro he
    have := lower_dropWhile_nil _ he x (by simp)
    rw [hw] at this
    exact nomatch this

theorem NC_cmtLines {head c : Str} (h : Clean head) (rest : List Str) : NC (cmtLines head c ++ rest) := by
  intro l hl
  rw [cmtLines_eq] at hl
  simp at hl
  subst hl
  exact (line0_plain h).1

theorem skip_line0 {head c : Str} (h : Clean head) (rest : List Str) :
    skipBlank (line0 head c :: rest) = line0 head c :: rest := by
  simp only [skipBlank]
  rw [if_neg (line0_plain h).2]

/-! ## one line -/

theorem lineFrom_line (P : Flt) (pl : Bool) (name : Str) (vals : List (Val P.F)) (cmt : Str) (rest : List Str)
    (h : LineOk P pl name vals cmt) (hr : NC rest) :
    lineFrom P (line0 (name ++ valsText P vals) cmt) ((splitOn '\n' cmt).tail ++ rest) = .ok (.line name vals cmt, rest) := by
  have hc := clean_line h
  unfold lineFrom line0
  rw [parseNext_cmt _ cmt rest hc.trim.strip hc.sc h.cmt hr]
  simp only [words_vals P _ name h.word vals h.vok, fmtAll_back P _ vals h.vok, mkLine, cut2_id _ h.cut, stripBlank_cmt cmt h.cmt]

theorem sensorFrom_line (P : Flt) (s : Sensor P.F) (rest : List Str) (h : SensorOk P s) (hr : NC rest) :
    sensorFrom P (line0 (s.typ ++ ' ' :: (s.sens ++ valsText P s.vals)) s.cmt) ((splitOn '\n' s.cmt).tail ++ rest)
      = .ok (s, rest) := by
  have hc := clean_sensor h
  unfold sensorFrom line0
  rw [parseNext_cmt _ s.cmt rest hc.trim.strip hc.sc h.cmt hr]
  simp only [words_word_cons h.typ _ _ (show isWs ' ' = true by decide), words_vals P _ s.sens h.sens s.vals h.vals,
    fmtAll_back P _ s.vals h.vals, stripBlank_cmt s.cmt h.cmt]

theorem line0_kind (P : Flt) (w : Str) (vals : List (Val P.F)) (c : Str) :
    isBegin (line0 (w ++ valsText P vals) c) = isBegin w ∧ isEnd (line0 (w ++ valsText P vals) c) = isEnd w := by
  unfold line0
  rw [List.append_assoc]
  obtain ⟨d, u, hd, hc⟩ := valsText_stop P vals (tabbed ((splitOn '\n' c).headD []))
  rw [hd]
  exact ⟨isBegin_stop _ _ _ hc, isEnd_stop _ _ _ hc⟩

theorem lineFromLine_line (P : Flt) (k : Kind P.F) (name : Str) (vals : List (Val P.F)) (cmt : Str) (rest : List Str)
    (h : LineOk P k.isPlain name vals cmt) (hr : NC rest) :
    lineFromLine P k (line0 (name ++ valsText P vals) cmt) ((splitOn '\n' cmt).tail ++ rest)
      = .ok (.inl (.line name vals cmt), rest) := by
  have hl := lineFrom_line P _ name vals cmt rest h hr
  have hw : k.isPlain = false → ∃ ws, words (line0 (name ++ valsText P vals) cmt) = name :: ws := by
    intro hk
    obtain ⟨_, hv⟩ := h.out hk
    unfold line0 valsText
    rw [if_neg hv, List.append_assoc, List.cons_append]
    exact ⟨_, words_word_cons h.word _ _ (by decide)⟩
  cases k with
  | plain => simp only [lineFromLine, hl]; rfl
  | output =>
    obtain ⟨ws, hws⟩ := hw rfl
    simp only [lineFromLine, hws, (outputLine_iff _).2 (h.out rfl).1, if_true, hl]; rfl
  | atTime typ t =>
    obtain ⟨ws, hws⟩ := hw rfl
    simp only [lineFromLine, hws, (outputLine_iff _).2 (h.out rfl).1, if_true, hl]; rfl

theorem lineFromLine_sensor (P : Flt) (k : Kind P.F) (hk : k.isPlain = false) (s : Sensor P.F) (rest : List Str)
    (h : SensorOk P s) (hr : NC rest) :
    lineFromLine P k (line0 (s.typ ++ ' ' :: (s.sens ++ valsText P s.vals)) s.cmt) ((splitOn '\n' s.cmt).tail ++ rest)
      = .ok (.inr s, rest) := by
  have hl := sensorFrom_line P s rest h hr
  have hw : ∃ ws, words (line0 (s.typ ++ ' ' :: (s.sens ++ valsText P s.vals)) s.cmt) = s.typ :: ws := by
    unfold line0
    rw [List.append_assoc, List.cons_append]
    exact ⟨_, words_word_cons h.typ _ _ (by decide)⟩
  obtain ⟨ws, hws⟩ := hw
  cases k with
  | plain => exact nomatch hk
  | output => simp only [lineFromLine, hws, (Bool.eq_false_iff.2 (fun e => h.nout ((outputLine_iff _).1 e)) : outputLine s.typ = false), hl]; rfl
  | atTime typ t => simp only [lineFromLine, hws, (Bool.eq_false_iff.2 (fun e => h.nout ((outputLine_iff _).1 e)) : outputLine s.typ = false), hl]; rfl

/-! ## header and end -/

theorem lower_append (a b : Str) : lower (a ++ b) = lower a ++ lower b := by simp [lower]

theorem openKind_title (P : Flt) (k : Kind P.F) (name bc ec : Str) (h : HeadOk P k name bc ec) :
    openKind P (lower (titleOf P k name)) = .ok (k, name) := by
  have hn := (clean_name h).trim.strip
  obtain ⟨_, _, _, h⟩ := h
  cases k with
  | plain =>
    obtain ⟨_, h2, h3, h4⟩ := h
    have e : titleOf P .plain name = name := rfl
    unfold openKind
    rw [e, h2, if_neg h3, if_neg (by rw [h4]; simp), hn]
  | output =>
    have h : name = "output".toList := h
    subst h
    rfl
  | atTime typ t =>
    obtain ⟨h1, _, h3, h4, h5, h6, h7, h8⟩ := h
    subst h1
    have hl : IsWord (lower (P.repr t)) := by
      refine ⟨by simpa [lower] using h6.1, ?_⟩
      intro c hc
      obtain ⟨d, hd, rfl⟩ := List.mem_map.mp hc
      by_contra hw
      have hw' : isWs d.toLower = true := by simpa using hw
      have hdd := h6.2 d hd
      have : d.toLower = d := by
        unfold Char.toLower at hw' ⊢
        split at hw'
        · rename_i hu
          exfalso
          have e1 : 65 ≤ d.toNat := by simpa using UInt32.le_iff_toNat_le.mp hu.1
          have e2 : d.toNat ≤ 90 := by simpa using UInt32.le_iff_toNat_le.mp hu.2
          have hcases : ∀ n, 65 ≤ n → n ≤ 90 → isWs (Char.ofNat n).toLower = false := by decide
          have := hcases d.toNat e1 e2
          rw [Char.ofNat_toNat] at this
          unfold Char.toLower at this
          rw [dif_pos hu] at this
          rw [this] at hw'
          exact nomatch hw'
        · rename_i hu
          rw [dif_neg hu]
      rw [this] at hw'
      rw [hdd] at hw'
      exact nomatch hw'
    have ho : IsWord (lower "output_at_time".toList) := by unfold IsWord; decide
    have e : lower (titleOf P (.atTime typ t) "output_at_time".toList)
        = lower "output_at_time".toList ++ ' ' :: (typ ++ ' ' :: lower (P.repr t)) := by
      have e1 : lower (' ' :: (typ ++ ' ' :: P.repr t)) = ' ' :: (lower typ ++ ' ' :: lower (P.repr t)) := by
        simp [lower]
      rw [titleOf, lower_append, e1, h5]
    have hw : words (lower (titleOf P (.atTime typ t) "output_at_time".toList))
        = [lower "output_at_time".toList, typ, lower (P.repr t)] := by
      rw [e, words_word_cons ho _ _ (by decide), words_word_cons h3 _ _ (by decide), words_word hl]
    have hs : startsWith (lower (titleOf P (.atTime typ t) "output_at_time".toList)) "output_at_time".toList = true := by
      rw [e]; rfl
    have hne : lower (titleOf P (.atTime typ t) "output_at_time".toList) ≠ "output".toList := by
      rw [e]
      intro hc
      have := congrArg List.length hc
      rw [List.length_append] at this
      have h14 : (lower "output_at_time".toList).length = 14 := rfl
      have h6' : "output".toList.length = 6 := rfl
      omega
    unfold openKind
    rw [if_neg hne, if_pos hs, hw]
    simp only [h8]
    rfl

theorem begin_stop (t : Str) : isBegin ("begin".toList ++ ' ' :: t) = true := by
  rw [isBegin_stop _ _ _ (Or.inl rfl)]; rfl

theorem end_stop (t : Str) : isBegin ("end".toList ++ ' ' :: t) = false ∧ isEnd ("end".toList ++ ' ' :: t) = true := by
  rw [isBegin_stop _ _ _ (Or.inl rfl), isEnd_stop _ _ _ (Or.inl rfl)]; exact ⟨rfl, rfl⟩

theorem openSec_head (P : Flt) (k : Kind P.F) (name bc ec : Str) (h : HeadOk P k name bc ec) (rest : List Str)
    (hr : NC rest) :
    openSec P (line0 ("begin".toList ++ ' ' :: titleOf P k name) bc) ((splitOn '\n' bc).tail ++ rest)
      = .ok (k, name, bc, rest) := by
  have hc := clean_begin h
  unfold openSec line0
  rw [parseNext_cmt _ bc rest hc.trim.strip hc.sc h.1 hr]
  have : ("begin".toList ++ ' ' :: titleOf P k name).drop 6 = titleOf P k name := rfl
  simp only [this, openKind_title P k name bc ec h, stripBlank_cmt bc h.1]

/-! ## the loop over the lines of a section -/

/-- with enough steps the loop returns `r` -/
def Parses (P : Flt) (k : Kind P.F) (nm bc : Str) (keys : List Str) (items : List (Node P.F))
    (sens : List (Sensor P.F)) (ls : List Str) (r : Node P.F × List Str) : Prop :=
  ∃ n, secLoop P n k nm bc keys items sens ls = .ok r

theorem parses_line {P : Flt} {k : Kind P.F} {nm bc keys items sens rest r} (name : Str) (vals : List (Val P.F)) (cmt : Str)
    (h : LineOk P k.isPlain name vals cmt) (hr : NC rest)
    (hp : Parses P k nm bc (addContents keys items (.line name vals cmt)).1
      (addContents keys items (.line name vals cmt)).2 sens rest r) :
    Parses P k nm bc keys items sens (cmtLines (name ++ valsText P vals) cmt ++ rest) r := by
  obtain ⟨n, hn⟩ := hp
  refine ⟨n + 1, ?_⟩
  obtain ⟨hb, he⟩ := line0_kind P name vals cmt
  rw [cmtLines_eq, secLoop, skip_line0 (clean_line h)]
  simp only [hb, h.nb, he, h.ne, Bool.false_eq_true, if_false, lineFromLine_line P k name vals cmt rest h hr, hn]

theorem parses_sensor {P : Flt} {k : Kind P.F} (hk : k.isPlain = false) {nm bc keys items sens rest r} (s : Sensor P.F)
    (h : SensorOk P s) (hr : NC rest) (hp : Parses P k nm bc keys items (sens ++ [s]) rest r) :
    Parses P k nm bc keys items sens (sensorLines P s ++ rest) r := by
  obtain ⟨n, hn⟩ := hp
  refine ⟨n + 1, ?_⟩
  have hb : isBegin (line0 (s.typ ++ ' ' :: (s.sens ++ valsText P s.vals)) s.cmt) = false := by
    unfold line0
    rw [List.append_assoc, List.cons_append, isBegin_stop _ _ _ (Or.inl rfl)]
    exact h.nb
  have he : isEnd (line0 (s.typ ++ ' ' :: (s.sens ++ valsText P s.vals)) s.cmt) = false := by
    unfold line0
    rw [List.append_assoc, List.cons_append, isEnd_stop _ _ _ (Or.inl rfl)]
    exact h.ne
  rw [sensorLines, cmtLines_eq, secLoop, skip_line0 (clean_sensor h)]
  simp only [hb, he, Bool.false_eq_true, if_false, lineFromLine_sensor P k hk s rest h hr, hn]

theorem parses_end {P : Flt} {k : Kind P.F} {nm bc keys items sens rest} (ec : Str) (h : HeadOk P k nm bc ec)
    (hr : NC rest) :
    Parses P k nm bc keys items sens (cmtLines ("end".toList ++ ' ' :: nm) ec ++ rest)
      (.sec k nm bc ec keys items sens, rest) := by
  refine ⟨1, ?_⟩
  have hc := clean_end h
  have hb : isBegin (line0 ("end".toList ++ ' ' :: nm) ec) = false := by
    unfold line0
    rw [List.append_assoc, List.cons_append]
    exact (end_stop _).1
  have he : isEnd (line0 ("end".toList ++ ' ' :: nm) ec) = true := by
    unfold line0
    rw [List.append_assoc, List.cons_append]
    exact (end_stop _).2
  have hp := parseNext_cmt ("end".toList ++ ' ' :: nm) ec rest hc.trim.strip hc.sc h.2.1 hr
  rw [if_pos h.2.2.1] at hp
  rw [cmtLines_eq, secLoop, skip_line0 hc]
  simp only [hb, he, if_true, Bool.false_eq_true, if_false]
  unfold line0
  rw [hp]

theorem parses_sec {P : Flt} {k : Kind P.F} {nm bc keys items sens rest r} (k' : Kind P.F) (name bc' ec' : Str)
    (nd : Node P.F) (body : List Str)
    (h : HeadOk P k' name bc' ec') (hbody : NC body)
    (hin : Parses P k' name bc' [] [] [] body (nd, rest))
    (hp : Parses P k nm bc (addContents keys items nd).1 (addContents keys items nd).2 sens rest r) :
    Parses P k nm bc keys items sens (cmtLines ("begin".toList ++ ' ' :: titleOf P k' name) bc' ++ body) r := by
  obtain ⟨n, hn⟩ := hin
  obtain ⟨m, hm⟩ := hp
  refine ⟨max n m + 1, ?_⟩
  have hb : isBegin (line0 ("begin".toList ++ ' ' :: titleOf P k' name) bc') = true := by
    unfold line0
    rw [List.append_assoc, List.cons_append]
    exact begin_stop _
  have hn' := secLoop_mono_le P n (max n m) (le_max_left _ _) k' name bc' [] [] [] body (by rw [hn]; exact nofun)
  have hm' := secLoop_mono_le P m (max n m) (le_max_right _ _) k nm bc _ _ sens rest (by rw [hm]; exact nofun)
  rw [hn] at hn'
  rw [hm] at hm'
  rw [cmtLines_eq, secLoop, skip_line0 (clean_begin h)]
  simp only [hb, if_true, openSec_head P k' name bc' ec' h body hbody, hn', hm']

theorem NC_items (P : Flt) (pl : Bool) (nds : List (Node P.F)) (h : WFs P pl nds) (rest : List Str) (hr : NC rest) :
    NC (itemsLines P nds ++ rest) := by
  cases nds with
  | nil => rw [itemsLines]; exact hr
  | cons nd nds =>
    rw [WFs] at h
    rw [itemsLines]
    cases nd with
    | line name vals cmt =>
      rw [nodeLines, List.append_assoc]
      exact NC_cmtLines (clean_line h.1) _
    | sec k name bc ec keys items sensors =>
      have h1 := h.1
      rw [WF] at h1
      rw [nodeLines, List.append_assoc, List.append_assoc]
      exact NC_cmtLines (clean_begin h1.1) _

theorem NC_sensors (P : Flt) (ss : List (Sensor P.F)) (h : ∀ s ∈ ss, SensorOk P s) (rest : List Str) (hr : NC rest) :
    NC (ss.flatMap (sensorLines P) ++ rest) := by
  cases ss with
  | nil => exact hr
  | cons s ss =>
    rw [List.flatMap_cons, sensorLines, List.append_assoc]
    exact NC_cmtLines (clean_sensor (h s (by simp))) _

theorem parses_sensors {P : Flt} {k : Kind P.F} (hk : k.isPlain = false) {nm bc keys items rest r}
    (ss : List (Sensor P.F)) (h : ∀ s ∈ ss, SensorOk P s) (hr : NC rest) :
    ∀ sens, Parses P k nm bc keys items (sens ++ ss) rest r →
    Parses P k nm bc keys items sens (ss.flatMap (sensorLines P) ++ rest) r := by
  induction ss with
  | nil => intro sens hp; simpa using hp
  | cons s ss ih =>
    intro sens hp
    have h' : ∀ s ∈ ss, SensorOk P s := fun x hx => h x (by simp [hx])
    rw [List.flatMap_cons, List.append_assoc]
    refine parses_sensor hk s (h s (by simp)) (NC_sensors P ss h' rest hr) (ih h' (sens ++ [s]) ?_)
    simpa using hp

mutual
theorem node_parses (P : Flt) : (nd : Node P.F) → ∀ (k : Kind P.F) (nm bc : Str) (keys : List Str)
    (items : List (Node P.F)) (sens : List (Sensor P.F)) (rest : List Str) (r : Node P.F × List Str),
    WF P k.isPlain nd → NC rest →
    Parses P k nm bc (addContents keys items nd).1 (addContents keys items nd).2 sens rest r →
    Parses P k nm bc keys items sens (nodeLines P nd ++ rest) r
  | .line name vals cmt => by
    intro k nm bc keys items sens rest r h hr hp
    rw [nodeLines]
    exact parses_line name vals cmt h hr hp
  | .sec k' name bc' ec' keys' items' sensors' => by
    intro k nm bc keys items sens rest r h hr hp
    rw [WF] at h
    obtain ⟨hh, hk, _, hi, hse, hpl⟩ := h
    have hend : NC (cmtLines ("end".toList ++ ' ' :: name) ec' ++ rest) := NC_cmtLines (clean_end hh) _
    have hss := NC_sensors P sensors' hse _ hend
    have hbody := NC_items P _ items' hi _ hss
    rw [nodeLines, List.append_assoc, List.append_assoc, List.append_assoc]
    refine parses_sec k' name bc' ec' _ _ hh hbody ?_ hp
    refine items_parses P items' k' name bc' [] [] [] _ _ hi hss ?_
    rw [List.nil_append, ← hk]
    cases hkp : k'.isPlain with
    | true =>
      rw [hpl hkp]
      exact parses_end ec' hh hr
    | false =>
      refine parses_sensors hkp sensors' hse hend [] ?_
      rw [List.nil_append]
      exact parses_end ec' hh hr
theorem items_parses (P : Flt) : (nds : List (Node P.F)) → ∀ (k : Kind P.F) (nm bc : Str) (keys : List Str)
    (items : List (Node P.F)) (sens : List (Sensor P.F)) (rest : List Str) (r : Node P.F × List Str),
    WFs P k.isPlain nds → NC rest →
    Parses P k nm bc (foldKeys keys nds) (items ++ nds) sens rest r →
    Parses P k nm bc keys items sens (itemsLines P nds ++ rest) r
  | [] => by
    intro k nm bc keys items sens rest r _ _ hp
    rw [itemsLines]
    simpa [foldKeys] using hp
  | nd :: nds => by
    intro k nm bc keys items sens rest r h hr hp
    rw [WFs] at h
    rw [itemsLines, List.append_assoc]
    refine node_parses P nd k nm bc keys items sens _ r h.1 (NC_items P _ nds h.2 rest hr) ?_
    refine items_parses P nds k nm bc _ _ sens rest r h.2 hr ?_
    simpa [foldKeys, addContents] using hp
end

end Verif.Htc
