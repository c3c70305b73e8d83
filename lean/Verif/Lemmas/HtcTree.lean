import Verif.Lemmas.HtcPrint
/-! # Lemmas: parsing the printed text of a tree gives the tree -/
namespace Verif.Htc
open Verif.Py Verif.FastLine

/-! ## texts without ends of line, semicolons or outer blanks -/

structure Clean (h : Str) : Prop where
  ne : h ≠ []
  trim : Trim h
  nl : '\n' ∉ h
  cr : '\r' ∉ h
  sc : ';' ∉ h

theorem Clean.word {w : Str} (h : IsWord w) (hs : ';' ∉ w) : Clean w where
  ne := h.1
  trim := ⟨fun c hc => h.2 c (List.mem_of_head? hc), fun c hc => h.2 c (List.mem_of_getLast? hc)⟩
  nl := fun hm => absurd (h.2 _ hm) (by decide)
  cr := fun hm => absurd (h.2 _ hm) (by decide)
  sc := hs

theorem Clean.app {a b : Str} (ha : Clean a) (hb : Clean b) (c : Char) (hc : c = ' ' ∨ c = '\t') :
    Clean (a ++ c :: b) where
  ne := by simp
  trim := by
    constructor
    · intro d hd
      refine ha.trim.first d ?_
      obtain ⟨x, s, hx⟩ := List.exists_cons_of_ne_nil ha.ne
      rw [hx] at hd ⊢
      simpa using hd
    · intro d hd
      refine hb.trim.last d ?_
      rw [List.append_cons, List.getLast?_append] at hd
      cases hl : b.getLast? with
      | none => exact absurd (List.getLast?_eq_none_iff.mp hl) hb.ne
      | some e => rw [hl] at hd; simpa using hd
  nl := by
    simp only [List.mem_append, List.mem_cons]
    rintro (h | h | h)
    · exact ha.nl h
    · rcases hc with rfl | rfl <;> exact absurd h (by decide)
    · exact hb.nl h
  cr := by
    simp only [List.mem_append, List.mem_cons]
    rintro (h | h | h)
    · exact ha.cr h
    · rcases hc with rfl | rfl <;> exact absurd h (by decide)
    · exact hb.cr h
  sc := by
    simp only [List.mem_append, List.mem_cons]
    rintro (h | h | h)
    · exact ha.sc h
    · rcases hc with rfl | rfl <;> exact absurd h (by decide)
    · exact hb.sc h

theorem Clean.join (ws : List Str) (hne : ws ≠ []) (h : ∀ w ∈ ws, Clean w) : Clean (joinWith [' '] ws) := by
  induction ws with
  | nil => exact absurd rfl hne
  | cons w ws ih =>
    by_cases hw : ws = []
    · subst hw; exact h w (by simp)
    · rw [joinWith_cons _ _ _ hw, List.append_assoc]
      exact (h w (by simp)).app (ih hw (fun v hv => h v (by simp [hv]))) ' ' (Or.inl rfl)

/-! ## what survives printing -/

/-- the value is read back from its text by `f` -/
structure ValOk (P : Flt) (f : Str → Except Err (Val P.F)) (v : Val P.F) : Prop where
  word : IsWord (showVal P v)
  sc : ';' ∉ showVal P v
  back : f (showVal P v) = .ok v

/-- names of the lines of output sections that are no sensors -/
def settings : List Str := ["filename".toList, "data_format".toList, "buffer".toList, "time".toList]

theorem outputLine_iff (n : Str) : outputLine n = true ↔ n ∈ settings := by
  unfold outputLine settings
  generalize "filename".toList = a
  generalize "data_format".toList = b
  generalize "buffer".toList = c
  generalize "time".toList = d
  simp only [Bool.or_eq_true, decide_eq_true_eq, List.mem_cons, List.not_mem_nil, or_false, or_assoc]

theorem cut2_id (n : Str) (h : ¬ ['_', '_'] <:+: n) : cut2 n = n := by
  induction n with
  | nil => rfl
  | cons c s ih =>
    rw [cut2, if_neg, ih (fun hi => h (hi.trans (List.suffix_cons c s).isInfix))]
    intro hs
    exact h (List.isPrefixOf_iff_prefix.1 hs).isInfix

/-- a command line that survives; `pl`: in a section that is not an output section -/
structure LineOk (P : Flt) (pl : Bool) (name : Str) (vals : List (Val P.F)) (cmt : Str) : Prop where
  word : IsWord name
  sc : ';' ∉ name
  cut : ¬ ['_', '_'] <:+: name
  nb : isBegin name = false
  ne : isEnd name = false
  vok : ∀ v ∈ vals, ValOk P (fmtValue P) v
  cmt : CmtOk cmt
  out : pl = false → name ∈ settings ∧ vals ≠ []

/-- a sensor line that survives -/
structure SensorOk (P : Flt) (s : Sensor P.F) : Prop where
  typ : IsWord s.typ
  tsc : ';' ∉ s.typ
  sens : IsWord s.sens
  ssc : ';' ∉ s.sens
  nb : isBegin s.typ = false
  ne : isEnd s.typ = false
  nout : s.typ ∉ settings
  vals : ∀ v ∈ s.vals, ValOk P (fmtSensor P) v
  cmt : CmtOk s.cmt

/-- header and end of a section that survive -/
def HeadOk (P : Flt) (k : Kind P.F) (name bc ec : Str) : Prop :=
  CmtOk bc ∧ CmtOk ec ∧ (splitOn '\n' ec).headD [] = [] ∧
  match k with
  | .plain => Clean name ∧ lower name = name ∧ name ≠ "output".toList ∧
      startsWith name "output_at_time".toList = false
  | .output => name = "output".toList
  | .atTime typ t => name = "output_at_time".toList ∧ bc = [] ∧ IsWord typ ∧ ';' ∉ typ ∧ lower typ = typ ∧
      IsWord (P.repr t) ∧ ';' ∉ P.repr t ∧ P.parse (lower (P.repr t)) = some t

/-- is this section not an output section? -/
def Kind.isPlain : Kind F → Bool
  | .plain => true
  | _ => false

/-- main bodies before everything else -/
def MainSorted (nds : List (Node F)) : Prop :=
  ∃ a b, nds = a ++ b ∧ (∀ x ∈ a, x.name = "main_body".toList) ∧ ∀ x ∈ b, x.name ≠ "main_body".toList

/-- the keys under which the entries are stored -/
def foldKeys (keys : List Str) (nds : List (Node F)) : List Str :=
  nds.foldl (fun ks nd => ks ++ [newKey ks nd.name]) keys

mutual
/-- trees that survive -/
def WF (P : Flt) (pl : Bool) : Node P.F → Prop
  | .line name vals cmt => LineOk P pl name vals cmt
  | .sec k name bc ec keys items sensors =>
    HeadOk P k name bc ec ∧ keys = foldKeys [] items ∧ MainSorted items ∧ WFs P k.isPlain items ∧
    (∀ s ∈ sensors, SensorOk P s) ∧ (k.isPlain = true → sensors = [])
def WFs (P : Flt) (pl : Bool) : List (Node P.F) → Prop
  | [] => True
  | nd :: nds => WF P pl nd ∧ WFs P pl nds
end

/-! ## the lines of a tree -/

def titleOf (P : Flt) (k : Kind P.F) (name : Str) : Str :=
  match k with
  | .atTime typ t => name ++ ' ' :: (typ ++ ' ' :: P.repr t)
  | _ => name

def sensorLines (P : Flt) (s : Sensor P.F) : List Str :=
  cmtLines (s.typ ++ ' ' :: (s.sens ++ valsText P s.vals)) s.cmt

mutual
def nodeLines (P : Flt) : Node P.F → List Str
  | .line name vals cmt => cmtLines (name ++ valsText P vals) cmt
  | .sec k name bc ec _ items sensors =>
    cmtLines ("begin".toList ++ ' ' :: titleOf P k name) bc ++ (itemsLines P items ++
      (sensors.flatMap (sensorLines P) ++ cmtLines ("end".toList ++ ' ' :: name) ec))
def itemsLines (P : Flt) : List (Node P.F) → List Str
  | [] => []
  | nd :: nds => nodeLines P nd ++ itemsLines P nds
end

/-! ## heads are clean -/

theorem clean_vals (P : Flt) (f) (a : Str) (ha : Clean a) (vals : List (Val P.F)) (h : ∀ v ∈ vals, ValOk P f v) :
    Clean (a ++ valsText P vals) := by
  unfold valsText
  split
  · simpa using ha
  · rename_i hv
    refine ha.app (Clean.join _ (by simpa using hv) ?_) '\t' (Or.inr rfl)
    intro w hw
    obtain ⟨v, hv, rfl⟩ := List.mem_map.mp hw
    exact Clean.word (h v hv).word (h v hv).sc

theorem clean_line {P : Flt} {pl name vals cmt} (h : LineOk P pl name vals cmt) :
    Clean (name ++ valsText P vals) := clean_vals P _ _ (Clean.word h.word h.sc) _ h.vok

theorem clean_sensor {P : Flt} {s : Sensor P.F} (h : SensorOk P s) :
    Clean (s.typ ++ ' ' :: (s.sens ++ valsText P s.vals)) :=
  (Clean.word h.typ h.tsc).app (clean_vals P _ _ (Clean.word h.sens h.ssc) _ h.vals) ' ' (Or.inl rfl)

theorem clean_name {P : Flt} {k : Kind P.F} {name bc ec} (h : HeadOk P k name bc ec) : Clean name := by
  obtain ⟨_, _, _, h⟩ := h
  cases k with
  | plain => exact h.1
  | output =>
    subst h
    exact Clean.word (by unfold IsWord; decide) (by decide)
  | atTime typ t =>
    rw [h.1]
    exact Clean.word (by unfold IsWord; decide) (by decide)

theorem clean_title {P : Flt} {k : Kind P.F} {name bc ec} (h : HeadOk P k name bc ec) : Clean (titleOf P k name) := by
  have hn := clean_name h
  obtain ⟨_, _, _, h⟩ := h
  cases k with
  | plain => exact hn
  | output => exact hn
  | atTime typ t =>
    obtain ⟨_, _, h3, h4, _, h6, h7, _⟩ := h
    exact hn.app ((Clean.word h3 h4).app (Clean.word h6 h7) ' ' (Or.inl rfl)) ' ' (Or.inl rfl)

theorem clean_begin {P : Flt} {k : Kind P.F} {name bc ec} (h : HeadOk P k name bc ec) :
    Clean ("begin".toList ++ ' ' :: titleOf P k name) :=
  (Clean.word (by unfold IsWord; decide) (by decide)).app (clean_title h) ' ' (Or.inl rfl)

theorem clean_end {P : Flt} {k : Kind P.F} {name bc ec} (h : HeadOk P k name bc ec) :
    Clean ("end".toList ++ ' ' :: name) :=
  (Clean.word (by unfold IsWord; decide) (by decide)).app (clean_name h) ' ' (Or.inl rfl)

/-! ## printing gives the lines -/

/-- lines of a text that has no carriage return -/
def BlockR (t : Str) (ls : List Str) : Prop := Block t ls ∧ '\r' ∉ t

theorem BlockR.append {t u : Str} {ls ms : List Str} (h1 : BlockR t ls) (h2 : BlockR u ms) :
    BlockR (t ++ u) (ls ++ ms) :=
  ⟨h1.1.append h2.1, by simp only [List.mem_append]; rintro (h | h); exacts [h1.2 h, h2.2 h]⟩

theorem BlockR.nil : BlockR [] [] := ⟨Block.nil, by simp⟩

theorem cr_cmt (c : Str) (hc : CmtOk c) : '\r' ∉ c := by
  intro h
  have e : c = joinWith ['\n'] (splitOn '\n' c) := (join_splitOn _ _).symm
  rw [e] at h
  rcases mem_joinWith _ _ _ h with h | ⟨w, hw, h⟩
  · exact absurd h (by decide)
  · exact (hc.1 w hw).2 h

theorem mem_tabNl : ∀ (x : Str) (c : Char), c ∈ tabNl x → c ∈ x
  | [], _, h => h
  | [_], _, h => h
  | a :: b :: s, c, h => by
    unfold tabNl at h
    split at h
    · rename_i hab
      rcases List.mem_cons.mp h with rfl | h
      · simp [hab.2]
      · have := mem_tabNl s c h; simp [this]
    · rcases List.mem_cons.mp h with rfl | h
      · simp
      · have := mem_tabNl (b :: s) c h
        exact List.mem_cons_of_mem _ this

theorem blockR_cmt (level : Nat) (head c : Str) (h : Clean head) (hc : CmtOk c) :
    BlockR (indent level ++ head ++ ';' :: cmtText c ++ ['\n']) (cmtLines head c) := by
  refine ⟨block_cmt level head c h.ne h.trim h.nl hc, ?_⟩
  have h1 := cr_cmt c hc
  simp only [List.mem_append, List.mem_cons, indent, cmtText]
  rintro (((h' | h') | h' | h') | h' | h')
  · exact absurd (List.eq_of_mem_replicate h') (by decide)
  · exact h.cr h'
  · exact absurd h' (by decide)
  · split at h'
    · simp at h'
    · rcases List.mem_cons.mp h' with h' | h'
      · exact absurd h' (by decide)
      · exact h1 h'
  · exact absurd h' (by decide)
  · simp at h'

theorem blockR_cmt_tab (level : Nat) (head c : Str) (h : Clean head) (hc : CmtOk c) :
    BlockR (indent level ++ head ++ ';' :: tabNl (cmtText c) ++ ['\n']) (cmtLines head c) := by
  have hb := blockR_cmt level head c h hc
  constructor
  · have h1 := hb.1
    have := Block.tabNl (a := indent level ++ head ++ [';']) (x := cmtText c) (b := ['\n']) (ls := cmtLines head c)
      (by simpa using h1)
    simpa using this
  · intro hm
    apply hb.2
    simp only [List.mem_append, List.mem_cons] at hm ⊢
    rcases hm with ((h' | h') | h' | h') | h'
    · exact Or.inl (Or.inl (Or.inl h'))
    · exact Or.inl (Or.inl (Or.inr h'))
    · exact Or.inl (Or.inr (Or.inl h'))
    · exact Or.inl (Or.inr (Or.inr (mem_tabNl _ _ h')))
    · exact Or.inr h'

theorem blockR_sensor (P : Flt) (level : Nat) (s : Sensor P.F) (h : SensorOk P s) :
    BlockR (sensorText P level s) (sensorLines P s) := by
  have := blockR_cmt level _ s.cmt (clean_sensor h) h.cmt
  unfold sensorText sensorLines
  simpa using this

theorem blockR_sensors (P : Flt) (level : Nat) (ss : List (Sensor P.F)) (h : ∀ s ∈ ss, SensorOk P s) :
    BlockR (ss.map (sensorText P level)).flatten (ss.flatMap (sensorLines P)) := by
  induction ss with
  | nil => exact BlockR.nil
  | cons s ss ih =>
    simp only [List.map_cons, List.flatten_cons, List.flatMap_cons]
    exact (blockR_sensor P level s (h s (by simp))).append (ih (fun x hx => h x (by simp [hx])))

theorem BlockR.congr {t t' : Str} {ls : List Str} (h : BlockR t ls) (e : t' = t) : BlockR t' ls := e ▸ h

theorem begin_sp : "begin ".toList = "begin".toList ++ [' '] := rfl
theorem end_sp : "end ".toList = "end".toList ++ [' '] := rfl

/-- the begin line -/
theorem blockR_begin (P : Flt) (level : Nat) (k : Kind P.F) (name bc ec : Str) (h : HeadOk P k name bc ec) :
    ∃ b, beginText P k name bc = some b ∧
      BlockR (indent level ++ "begin ".toList ++ b ++ ['\n']) (cmtLines ("begin".toList ++ ' ' :: titleOf P k name) bc) := by
  have hc := clean_begin h
  rw [begin_sp]
  cases k with
  | plain =>
    refine ⟨_, rfl, (blockR_cmt_tab level _ bc hc h.1).congr ?_⟩
    simp only [titleOf, List.append_assoc, List.cons_append, List.nil_append]
  | output =>
    refine ⟨_, rfl, (blockR_cmt level _ bc hc h.1).congr ?_⟩
    simp only [titleOf, List.append_assoc, List.cons_append, List.nil_append]
  | atTime typ t =>
    have hbc : bc = [] := h.2.2.2.2.1
    subst hbc
    refine ⟨name ++ ' ' :: typ ++ ' ' :: P.repr t ++ [';'], rfl, (blockR_cmt level _ [] hc h.1).congr ?_⟩
    have : cmtText [] = [] := rfl
    simp only [titleOf, this, List.append_assoc, List.cons_append, List.nil_append]

theorem blockR_end (P : Flt) (level : Nat) (k : Kind P.F) (name bc ec : Str) (h : HeadOk P k name bc ec) :
    BlockR (indent level ++ "end ".toList ++ name ++ ';' :: endText k ec ++ ['\n'])
      (cmtLines ("end".toList ++ ' ' :: name) ec) := by
  have hc := clean_end h
  rw [end_sp]
  cases k with
  | plain =>
    refine (blockR_cmt_tab level _ ec hc h.2.1).congr ?_
    simp only [endText, List.append_assoc, List.cons_append, List.nil_append]
  | output =>
    refine (blockR_cmt level _ ec hc h.2.1).congr ?_
    simp only [endText, List.append_assoc, List.cons_append, List.nil_append]
  | atTime typ t =>
    refine (blockR_cmt level _ ec hc h.2.1).congr ?_
    simp only [endText, List.append_assoc, List.cons_append, List.nil_append]

/-- sorted entries are printed in their order -/
theorem mainFirst_sorted (nds : List (Node F)) (ts : List (Bool × Str)) (h : MainSorted nds)
    (hts : ts.map Prod.fst = nds.map (fun nd => decide (nd.name = "main_body".toList))) :
    mainFirst ts = (ts.map Prod.snd).flatten := by
  obtain ⟨a, b, rfl, ha, hb⟩ := h
  rw [List.map_append] at hts
  obtain ⟨ta, tb, rfl, h1, h2⟩ := List.map_eq_append_iff.mp hts
  have hta : ∀ t ∈ ta, t.1 = true := by
    intro t ht
    have : t.1 ∈ ta.map Prod.fst := List.mem_map.mpr ⟨t, ht, rfl⟩
    rw [h1] at this
    obtain ⟨x, hx, hxe⟩ := List.mem_map.mp this
    rw [← hxe]
    exact decide_eq_true (ha x hx)
  have htb : ∀ t ∈ tb, t.1 = false := by
    intro t ht
    have : t.1 ∈ tb.map Prod.fst := List.mem_map.mpr ⟨t, ht, rfl⟩
    rw [h2] at this
    obtain ⟨x, hx, hxe⟩ := List.mem_map.mp this
    rw [← hxe]
    exact decide_eq_false (hb x hx)
  unfold mainFirst
  have e1 : ta.filter (fun t => t.1) = ta := List.filter_eq_self.mpr hta
  have e2 : tb.filter (fun t => t.1) = [] := List.filter_eq_nil_iff.mpr (fun t ht => by simp [htb t ht])
  have e3 : ta.filter (fun t => !t.1) = [] := List.filter_eq_nil_iff.mpr (fun t ht => by simp [hta t ht])
  have e4 : tb.filter (fun t => !t.1) = tb := List.filter_eq_self.mpr (fun t ht => by simp [htb t ht])
  simp [List.filter_append, e1, e2, e3, e4]

mutual
theorem node_block (P : Flt) (pl : Bool) (level : Nat) : (nd : Node P.F) → WF P pl nd →
    ∃ t, nodeText P level nd = some t ∧ BlockR t (nodeLines P nd)
  | .line name vals cmt, h => by
    have h : LineOk P pl name vals cmt := h
    have := blockR_cmt level _ cmt (clean_line h) h.cmt
    refine ⟨indent level ++ name ++ valsText P vals ++ ';' :: cmtText cmt ++ ['\n'], ?_, ?_⟩
    · rw [nodeText, if_neg h.word.1]
    · rw [nodeLines]; simpa using this
  | .sec k name bc ec keys items sensors, h => by
    rw [WF] at h
    obtain ⟨hh, hk, hs, hi, hse, hpl⟩ := h
    obtain ⟨ts, ht, htm, hbl⟩ := items_block P k.isPlain (level + 1) items hi
    obtain ⟨b, hb, hbb⟩ := blockR_begin P level k name bc ec hh
    have he := blockR_end P level k name bc ec hh
    have hss := blockR_sensors P (level + 1) sensors hse
    refine ⟨_, by rw [nodeText, hb, ht], ?_⟩
    rw [nodeLines, mainFirst_sorted items ts hs htm]
    refine (hbb.append (hbl.append (hss.append he))).congr ?_
    simp only [List.append_assoc, List.cons_append, List.nil_append]
theorem items_block (P : Flt) (pl : Bool) (level : Nat) : (nds : List (Node P.F)) → WFs P pl nds →
    ∃ ts, itemTexts P level nds = some ts ∧
      ts.map Prod.fst = nds.map (fun nd => decide (nd.name = "main_body".toList)) ∧
      BlockR (ts.map Prod.snd).flatten (itemsLines P nds)
  | [], _ => ⟨[], by rw [itemTexts], rfl, by rw [itemsLines]; exact BlockR.nil⟩
  | nd :: nds, h => by
    rw [WFs] at h
    obtain ⟨t, ht, hb⟩ := node_block P pl level nd h.1
    obtain ⟨ts, hts, hm, hbs⟩ := items_block P pl level nds h.2
    refine ⟨_, by rw [itemTexts, ht, hts], by simp [hm], ?_⟩
    rw [itemsLines]
    simpa using hb.append hbs
end

end Verif.Htc
