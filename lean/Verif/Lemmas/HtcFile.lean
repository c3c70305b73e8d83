import Verif.Lemmas.HtcParse
/-! # Lemmas: whole HTC files, and trees up to normalisation -/
namespace Verif.Htc
open Verif.Py Verif.FastLine

/-! ## files -/

/-- a comment line in front of the contents -/
structure InitOk (c : Str) (s : Str) : Prop where
  eq : c = s ++ ['\n']
  first : s.head? = some ';'
  strip : strip s = s
  nl : '\n' ∉ s
  cr : '\r' ∉ s

/-- no line is the command `exit` -/
def NoExit (nds : List (Node F)) : Prop := ∀ nd ∈ nds, nd.name ≠ "exit".toList

def LParses (P : Flt) (f : File P.F) (ls : List Str) (r : File P.F) : Prop :=
  ∀ n, ls.length < n → loadLoop P n f ls = .ok r

def addTo (f : File F) (nd : Node F) : File F :=
  { f with keys := (addContents f.keys f.items nd).1, items := (addContents f.keys f.items nd).2 }

theorem not_semi {head c : Str} (h : Clean head) : startsWith (line0 head c) [';'] = false := by
  obtain ⟨x, s, hx, _, hs⟩ := line0_head (c := c) h
  rw [hx]
  simp [startsWith, List.isPrefixOf, Ne.symm hs]

theorem lparses_line {P : Flt} {f : File P.F} {rest r} (name : Str) (vals : List (Val P.F)) (cmt : Str)
    (h : LineOk P true name vals cmt) (hx : name ≠ "exit".toList) (hr : NC rest)
    (hp : LParses P (addTo f (.line name vals cmt)) rest r) :
    LParses P f (cmtLines (name ++ valsText P vals) cmt ++ rest) r := by
  intro n hn
  rw [cmtLines_eq] at hn ⊢
  obtain ⟨m, rfl⟩ : ∃ m, n = m + 1 := ⟨n - 1, by simp at hn; omega⟩
  obtain ⟨hb, _⟩ := line0_kind P name vals cmt
  rw [loadLoop]
  simp only [not_semi (clean_line h), hb, h.nb, Bool.false_eq_true, if_false,
    lineFrom_line P true name vals cmt rest h hr]
  rw [if_neg (show ¬ (Node.line name vals cmt).name = "exit".toList from hx)]
  refine hp m ?_
  simp at hn
  omega

theorem lparses_sec {P : Flt} {f : File P.F} {rest r} (k' : Kind P.F) (name bc' ec' : Str)
    (nd : Node P.F) (body : List Str)
    (h : HeadOk P k' name bc' ec') (hbody : NC body)
    (hin : Parses P k' name bc' [] [] [] body (nd, rest))
    (hp : LParses P (addTo f nd) rest r) :
    LParses P f (cmtLines ("begin".toList ++ ' ' :: titleOf P k' name) bc' ++ body) r := by
  intro n hn
  rw [cmtLines_eq] at hn ⊢
  obtain ⟨m, rfl⟩ : ∃ m, n = m + 1 := ⟨n - 1, by simp at hn; omega⟩
  have hb : isBegin (line0 ("begin".toList ++ ' ' :: titleOf P k' name) bc') = true := by
    unfold line0
    rw [List.append_assoc, List.cons_append]
    exact begin_stop _
  obtain ⟨j, hj⟩ := hin
  have hlen : body.length < m := by simp at hn; omega
  have hj' := secLoop_enough P j m k' name bc' [] [] [] body hlen _ hj
  have hsh := secLoop_shorter P _ _ _ _ _ _ _ _ _ _ hj
  rw [loadLoop]
  simp only [not_semi (clean_begin h), hb, if_true, Bool.false_eq_true, if_false, sectionFrom,
    openSec_head P k' name bc' ec' h body hbody, hj']
  exact hp m (by omega)

theorem lparses_exit (P : Flt) (f : File P.F) : LParses P f ["exit;".toList] f := by
  intro n hn
  obtain ⟨m, rfl⟩ : ∃ m, n = m + 1 := ⟨n - 1, by simp at hn; omega⟩
  rfl

theorem lparses_init {P : Flt} {f : File P.F} {ls r} (cs : List Str) (h : ∀ c ∈ cs, ∃ s, InitOk c s) :
    LParses P { f with comments := f.comments ++ cs } ls r →
    LParses P f (cs.map (fun c => c.dropLast) ++ ls) r := by
  induction cs generalizing f with
  | nil => intro hp; simpa using hp
  | cons c cs ih =>
    intro hp n hn
    obtain ⟨s, hs⟩ := h c (by simp)
    obtain ⟨m, rfl⟩ : ∃ m, n = m + 1 := ⟨n - 1, by simp at hn; omega⟩
    have hsemi : startsWith s [';'] = true := by
      have := hs.first
      cases s with
      | nil => simp at this
      | cons a s => simp at this; subst this; rfl
    have hd : c.dropLast = s := by rw [hs.eq]; simp
    rw [List.map_cons, List.cons_append, loadLoop, hd, if_pos hsemi, hs.strip, ← hs.eq]
    refine ih (f := { f with comments := f.comments ++ [c] }) (fun x hx => h x (by simp [hx])) ?_ m ?_
    · simpa using hp
    · simp at hn ⊢; omega

theorem blockR_init (cs : List Str) (h : ∀ c ∈ cs, ∃ s, InitOk c s) :
    BlockR cs.flatten (cs.map (fun c => c.dropLast)) := by
  induction cs with
  | nil => exact BlockR.nil
  | cons c cs ih =>
    obtain ⟨s, hs⟩ := h c (by simp)
    have hd : c.dropLast = s := by rw [hs.eq]; simp
    have hb : BlockR c [s] := by
      constructor
      · have := Block.of_nl s
        rw [SL_line s hs.nl, hs.strip, ← hs.eq] at this
        exact this
      · rw [hs.eq]
        simp only [List.mem_append, List.mem_singleton]
        rintro (h' | h')
        · exact hs.cr h'
        · exact absurd h' (by decide)
    rw [List.flatten_cons, List.map_cons, hd]
    exact hb.append (ih (fun x hx => h x (by simp [hx])))

theorem lparses_items (P : Flt) : (nds : List (Node P.F)) → ∀ (f : File P.F) (rest : List Str) (r : File P.F),
    WFs P true nds → NoExit nds → NC rest →
    LParses P { f with keys := foldKeys f.keys nds, items := f.items ++ nds } rest r →
    LParses P f (itemsLines P nds ++ rest) r
  | [] => by
    intro f rest r _ _ _ hp
    rw [itemsLines]
    simpa [foldKeys] using hp
  | nd :: nds => by
    intro f rest r h hx hr hp
    rw [WFs] at h
    have ih := lparses_items P nds (addTo f nd) rest r h.2 (fun x hm => hx x (by simp [hm])) hr
      (by simpa [foldKeys, addTo, addContents] using hp)
    have hnc := NC_items P _ nds h.2 rest hr
    rw [itemsLines, List.append_assoc]
    cases nd with
    | line name vals cmt =>
      rw [nodeLines]
      exact lparses_line name vals cmt h.1 (hx (.line name vals cmt) (by simp)) hnc ih
    | sec k' name bc' ec' keys' items' sensors' =>
      have h1 := h.1
      rw [WF] at h1
      obtain ⟨hh, hk, _, hi, hse, hpl⟩ := h1
      have hend : NC (cmtLines ("end".toList ++ ' ' :: name) ec' ++ (itemsLines P nds ++ rest)) :=
        NC_cmtLines (clean_end hh) _
      have hss := NC_sensors P sensors' hse _ hend
      have hbody := NC_items P _ items' hi _ hss
      rw [nodeLines, List.append_assoc, List.append_assoc, List.append_assoc]
      refine lparses_sec k' name bc' ec' _ _ hh hbody ?_ ih
      refine items_parses P items' k' name bc' [] [] [] _ _ hi hss ?_
      rw [List.nil_append, ← hk]
      cases hkp : k'.isPlain with
      | true =>
        rw [hpl hkp]
        exact parses_end ec' hh hnc
      | false =>
        refine parses_sensors hkp sensors' hse hend [] ?_
        rw [List.nil_append]
        exact parses_end ec' hh hnc

/-- files that survive -/
structure FileWF (P : Flt) (f : File P.F) : Prop where
  init : ∀ c ∈ f.comments, ∃ s, InitOk c s
  keys : f.keys = foldKeys [] f.items
  sorted : MainSorted f.items
  items : WFs P true f.items
  noexit : NoExit f.items

theorem load_fileText (P : Flt) (f : File P.F) (h : FileWF P f) :
    ∃ t, fileText P f = some t ∧ load P t = .ok f := by
  obtain ⟨ts, ht, htm, hbl⟩ := items_block P true 1 f.items h.items
  refine ⟨_, by rw [fileText, ht], ?_⟩
  rw [mainFirst_sorted f.items ts h.sorted htm]
  have hb := (blockR_init f.comments h.init).append hbl
  have hcr : '\r' ∉ f.comments.flatten ++ (ts.map Prod.snd).flatten ++ "exit;".toList := by
    rw [List.mem_append]
    rintro (h' | h')
    · exact hb.2 h'
    · exact absurd h' (by decide)
  have hfil : (f.comments.flatten ++ (ts.map Prod.snd).flatten ++ "exit;".toList).filter (· ≠ '\r')
      = f.comments.flatten ++ (ts.map Prod.snd).flatten ++ "exit;".toList := by
    rw [List.filter_eq_self]
    intro c hc
    simp only [decide_eq_true_eq]
    rintro rfl
    exact hcr hc
  have hl := hb.1 "exit;".toList
  have he : SL "exit;".toList = ["exit;".toList] := rfl
  unfold SL at hl he
  rw [he] at hl
  unfold load
  rw [hfil, hl]
  simp only
  rw [List.append_assoc]
  refine lparses_init (f := ⟨[], [], []⟩) f.comments h.init ?_ _ (by omega)
  refine lparses_items P f.items _ _ _ h.items h.noexit ?_ ?_
  · intro l hl
    simp at hl
    subst hl
    rfl
  · have := lparses_exit P f
    simpa [← h.keys] using this

/-! ## trees up to normalisation

Printing forgets lines without a name, moves the main bodies of each section to the
front, and parsing numbers the keys afresh. -/

def isMain (nd : Node F) : Bool := decide (nd.name = "main_body".toList)

def isGhost : Node F → Bool
  | .line [] _ _ => true
  | _ => false

def order (nds : List (Node F)) : List (Node F) := nds.filter isMain ++ nds.filter (fun nd => !isMain nd)

mutual
def norm : Node F → Node F
  | .line n v c => .line n v c
  | .sec k n bc ec _ items ss => .sec k n bc ec (foldKeys [] (order (norms items))) (order (norms items)) ss
def norms : List (Node F) → List (Node F)
  | [] => []
  | nd :: nds => if isGhost nd then norms nds else norm nd :: norms nds
end

def normFile (f : File F) : File F := ⟨f.comments, foldKeys [] (order (norms f.items)), order (norms f.items)⟩

mutual
/-- trees whose texts survive, in any order and with any keys -/
def Fine (P : Flt) (pl : Bool) : Node P.F → Prop
  | .line name vals cmt => LineOk P pl name vals cmt
  | .sec k name bc ec _ items sensors =>
    HeadOk P k name bc ec ∧ Fines P k.isPlain items ∧
    (∀ s ∈ sensors, SensorOk P s) ∧ (k.isPlain = true → sensors = [])
def Fines (P : Flt) (pl : Bool) : List (Node P.F) → Prop
  | [] => True
  | nd :: nds => (isGhost nd = true ∨ Fine P pl nd) ∧ Fines P pl nds
end

theorem norm_name (nd : Node F) : (norm nd).name = nd.name := by
  cases nd with
  | line n v c => rw [norm]
  | sec k n bc ec ks its ss => rw [norm]; rfl

theorem WFs_iff (P : Flt) (pl : Bool) (nds : List (Node P.F)) : WFs P pl nds ↔ ∀ nd ∈ nds, WF P pl nd := by
  induction nds with
  | nil => simp [WFs]
  | cons a l ih => simp [WFs, ih]

theorem mem_order (nds : List (Node F)) (nd : Node F) : nd ∈ order nds ↔ nd ∈ nds := by
  unfold order
  simp only [List.mem_append, List.mem_filter]
  constructor
  · rintro (h | h) <;> exact h.1
  · intro h
    cases hm : isMain nd
    · exact Or.inr ⟨h, by simp⟩
    · exact Or.inl ⟨h, rfl⟩

theorem sorted_order (nds : List (Node F)) : MainSorted (order nds) := by
  refine ⟨_, _, rfl, ?_, ?_⟩
  · intro x hx
    exact of_decide_eq_true (List.mem_filter.mp hx).2
  · intro x hx
    have := (List.mem_filter.mp hx).2
    have : isMain x = false := by simpa using this
    exact of_decide_eq_false this

mutual
theorem norm_WF (P : Flt) : (nd : Node P.F) → ∀ pl, Fine P pl nd → WF P pl (norm nd)
  | .line name vals cmt => by
    intro pl h
    exact h
  | .sec k name bc ec keys items sensors => by
    intro pl h
    rw [Fine] at h
    rw [norm, WF]
    refine ⟨h.1, rfl, sorted_order _, ?_, h.2.2.1, h.2.2.2⟩
    rw [WFs_iff]
    intro nd hnd
    rw [mem_order] at hnd
    exact (WFs_iff P _ _).mp (norms_WF P items _ h.2.1) nd hnd
theorem norms_WF (P : Flt) : (nds : List (Node P.F)) → ∀ pl, Fines P pl nds → WFs P pl (norms nds)
  | [] => by intro pl _; rw [norms, WFs]; trivial
  | nd :: nds => by
    intro pl h
    rw [Fines] at h
    rw [norms]
    split
    · exact norms_WF P nds pl h.2
    · rename_i hg
      rw [WFs]
      refine ⟨norm_WF P nd pl ?_, norms_WF P nds pl h.2⟩
      rcases h.1 with h' | h'
      · exact absurd h' hg
      · exact h'
end

theorem itemTexts_append (P : Flt) (level : Nat) (a b : List (Node P.F)) (ta tb)
    (ha : itemTexts P level a = some ta) (hb : itemTexts P level b = some tb) :
    itemTexts P level (a ++ b) = some (ta ++ tb) := by
  induction a generalizing ta with
  | nil => rw [itemTexts] at ha; injection ha with ha; subst ha; simpa using hb
  | cons nd a ih =>
    rw [itemTexts] at ha
    rw [List.cons_append, itemTexts]
    cases h1 : nodeText P level nd with
    | none => rw [h1] at ha; simp at ha
    | some t =>
      rw [h1] at ha
      cases h2 : itemTexts P level a with
      | none => rw [h2] at ha; simp at ha
      | some ts =>
        rw [h2] at ha
        injection ha with ha
        subst ha
        rw [ih ts h2]
        rfl

theorem itemTexts_filter (P : Flt) (level : Nat) (p : Bool → Bool) (nds : List (Node P.F)) (ts)
    (h : itemTexts P level nds = some ts) :
    itemTexts P level (nds.filter (fun nd => p (isMain nd))) = some (ts.filter (fun t => p t.1)) := by
  induction nds generalizing ts with
  | nil => rw [itemTexts] at h; injection h with h; subst h; simp [itemTexts]
  | cons nd a ih =>
    rw [itemTexts] at h
    cases h1 : nodeText P level nd with
    | none => rw [h1] at h; simp at h
    | some t =>
      rw [h1] at h
      cases h2 : itemTexts P level a with
      | none => rw [h2] at h; simp at h
      | some ts' =>
        rw [h2] at h
        injection h with h
        subst h
        have ih' := ih ts' h2
        rw [List.filter_cons, List.filter_cons]
        by_cases hp : p (isMain nd) = true
        · rw [if_pos hp, if_pos (show p (decide (nd.name = "main_body".toList)) = true from hp), itemTexts, h1, ih']
        · rw [if_neg hp, if_neg (show ¬ p (decide (nd.name = "main_body".toList)) = true from hp), ih']

theorem mainFirst_order (ts : List (Bool × Str)) :
    mainFirst (ts.filter (fun t => t.1) ++ ts.filter (fun t => !t.1)) = mainFirst ts := by
  unfold mainFirst
  have e1 : (ts.filter (fun t => !t.1)).filter (fun t => t.1) = [] := by
    rw [List.filter_filter]
    exact List.filter_eq_nil_iff.mpr (fun t _ => by cases t.1 <;> simp)
  have e2 : (ts.filter (fun t => t.1)).filter (fun t => !t.1) = [] := by
    rw [List.filter_filter]
    exact List.filter_eq_nil_iff.mpr (fun t _ => by cases t.1 <;> simp)
  have e3 : (ts.filter (fun t => t.1)).filter (fun t => t.1) = ts.filter (fun t => t.1) := by
    rw [List.filter_filter]; congr 1; funext t; simp
  have e4 : (ts.filter (fun t => !t.1)).filter (fun t => !t.1) = ts.filter (fun t => !t.1) := by
    rw [List.filter_filter]; congr 1; funext t; simp
  rw [List.filter_append, List.filter_append, e1, e2, e3, e4]
  simp

theorem itemTexts_order (P : Flt) (level : Nat) (nds : List (Node P.F)) (ts)
    (h : itemTexts P level nds = some ts) :
    ∃ ts', itemTexts P level (order nds) = some ts' ∧ mainFirst ts' = mainFirst ts :=
  ⟨_, itemTexts_append P level _ _ _ _ (itemTexts_filter P level id nds ts h)
    (itemTexts_filter P level (fun b => !b) nds ts h), mainFirst_order ts⟩

def part (b : Bool) (ts : List (Bool × Str)) : Str := ((ts.filter (fun t => t.1 == b)).map Prod.snd).flatten

theorem mainFirst_parts (ts : List (Bool × Str)) : mainFirst ts = part true ts ++ part false ts := by
  unfold mainFirst part
  congr 4 <;> funext t <;> cases t.1 <;> rfl

mutual
theorem norm_text (P : Flt) : (nd : Node P.F) → ∀ pl level, Fine P pl nd →
    ∃ t, nodeText P level nd = some t ∧ nodeText P level (norm nd) = some t
  | .line name vals cmt => by
    intro pl level h
    have h : LineOk P pl name vals cmt := h
    refine ⟨_, by rw [nodeText, if_neg h.word.1], by rw [norm, nodeText, if_neg h.word.1]⟩
  | .sec k name bc ec keys items sensors => by
    intro pl level h
    rw [Fine] at h
    obtain ⟨ts, ts', h1, h2, h3⟩ := norms_text P items _ (level + 1) h.2.1
    obtain ⟨ts'', h4, h5⟩ := itemTexts_order P (level + 1) _ ts' h2
    obtain ⟨b, hb, _⟩ := blockR_begin P level k name bc ec h.1
    refine ⟨_, by rw [nodeText, hb, h1], ?_⟩
    rw [norm, nodeText, hb, h4]
    simp only [h5, mainFirst_parts, h3]
theorem norms_text (P : Flt) : (nds : List (Node P.F)) → ∀ pl level, Fines P pl nds →
    ∃ ts ts', itemTexts P level nds = some ts ∧ itemTexts P level (norms nds) = some ts' ∧ ∀ b, part b ts' = part b ts
  | [] => by
    intro pl level _
    exact ⟨[], [], by rw [itemTexts], by rw [norms, itemTexts], fun _ => rfl⟩
  | nd :: nds => by
    intro pl level h
    rw [Fines] at h
    obtain ⟨ts, ts', h1, h2, h3⟩ := norms_text P nds pl level h.2
    rw [norms]
    by_cases hg : isGhost nd = true
    · rw [if_pos hg]
      cases nd with
      | sec k name bc ec keys items sensors => exact nomatch hg
      | line name vals cmt =>
        cases name with
        | cons a b => exact nomatch hg
        | nil =>
          refine ⟨(false, []) :: ts, ts', ?_, h2, ?_⟩
          · rw [itemTexts, nodeText, if_pos rfl, h1]; rfl
          · intro b; rw [h3]; cases b <;> simp [part]
    · rw [if_neg hg]
      have hf : Fine P pl nd := by
        rcases h.1 with h' | h'
        · exact absurd h' hg
        · exact h'
      obtain ⟨t, ht1, ht2⟩ := norm_text P nd pl level hf
      refine ⟨_, _, by rw [itemTexts, ht1, h1], by rw [itemTexts, ht2, h2], ?_⟩
      intro b
      have h3 := h3 b
      rw [norm_name]
      unfold part at h3 ⊢
      rw [List.filter_cons, List.filter_cons]
      split
      · simp only [List.map_cons, List.flatten_cons, h3]
      · exact h3
end

/-- files whose texts survive, in any order and with any keys -/
structure FileFine (P : Flt) (f : File P.F) : Prop where
  init : ∀ c ∈ f.comments, ∃ s, InitOk c s
  items : Fines P true f.items
  noexit : NoExit f.items

theorem norms_names (nds : List (Node F)) : ∀ nd ∈ norms nds, ∃ nd' ∈ nds, nd.name = nd'.name := by
  induction nds with
  | nil => intro nd h; rw [norms] at h; simp at h
  | cons a l ih =>
    intro nd h
    rw [norms] at h
    split at h
    · obtain ⟨x, hx, he⟩ := ih nd h
      exact ⟨x, by simp [hx], he⟩
    · rcases List.mem_cons.mp h with rfl | h
      · exact ⟨a, by simp, norm_name a⟩
      · obtain ⟨x, hx, he⟩ := ih nd h
        exact ⟨x, by simp [hx], he⟩

theorem normFile_WF (P : Flt) (f : File P.F) (h : FileFine P f) : FileWF P (normFile f) where
  init := h.init
  keys := rfl
  sorted := sorted_order _
  items := by
    rw [WFs_iff]
    intro nd hnd
    exact (WFs_iff P _ _).mp (norms_WF P f.items _ h.items) nd ((mem_order _ _).mp hnd)
  noexit := by
    intro nd hnd
    obtain ⟨x, hx, he⟩ := norms_names f.items nd ((mem_order _ _).mp hnd)
    rw [he]
    exact h.noexit x hx

theorem normFile_text (P : Flt) (f : File P.F) (h : FileFine P f) : fileText P (normFile f) = fileText P f := by
  obtain ⟨ts, ts', h1, h2, h3⟩ := norms_text P f.items true 1 h.items
  obtain ⟨ts'', h4, h5⟩ := itemTexts_order P 1 _ ts' h2
  unfold fileText
  have e : (normFile f).items = order (norms f.items) := rfl
  have e' : (normFile f).comments = f.comments := rfl
  rw [e, e', h4, h1]
  simp only [h5, mainFirst_parts, h3]

theorem load_norm (P : Flt) (f : File P.F) (h : FileFine P f) :
    ∃ t, fileText P f = some t ∧ load P t = .ok (normFile f) := by
  obtain ⟨t, h1, h2⟩ := load_fileText P _ (normFile_WF P f h)
  exact ⟨t, by rw [← normFile_text P f h, h1], h2⟩

end Verif.Htc
