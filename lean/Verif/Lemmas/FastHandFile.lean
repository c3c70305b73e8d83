import Verif.Lemmas.FastHand
import Verif.Props.FastText
import Mathlib.Data.List.Basic
/-! Lemmas for C87, second part: the iterations of the loop on a hand-written file. -/
namespace Verif.FastRead
open Verif.Py Verif.FastDict Verif.FastLine Verif.FastTable

variable {N : Num}

/-! ### kinds of tables -/

/-- the reader's description of a table -/
def Doc.kind (d : Doc) : Kind :=
  ⟨d.word.toList, match d.rows with | .key k => .var k.toList | .always n => .const n, d.name.toList, d.heads, d.skip, d.mix⟩

theorem vals_docs : docVals.map Doc.kind = valKinds := by decide
theorem labs_docs : docLabs.map Doc.kind = labKinds := by decide

theorem kind_inj : Function.Injective Doc.kind := by
  rintro ⟨w, r, n, h, s, m⟩ ⟨w', r', n', h', s', m'⟩ e
  simp only [Doc.kind, Kind.mk.injEq] at e
  obtain ⟨e1, e2, e3, rfl, rfl, rfl⟩ := e
  have e1 := String.toList_inj.1 e1
  have e3 := String.toList_inj.1 e3
  subst e1; subst e3
  have : r = r' := by
    cases r <;> cases r' <;> simp only [Dim.var.injEq, Dim.const.injEq, reduceCtorEq] at e2
    · rw [String.toList_inj.1 e2]
    · rw [e2]
  rw [this]

theorem map_erase_kind (v : List Doc) (k : Doc) : (v.erase k).map Doc.kind = (v.map Doc.kind).erase k.kind :=
  List.map_erase kind_inj v

theorem find_kind (v : List Doc) (x : Str) (k : Doc) (h : v.find? (fun q => decide (q.word.toList = x)) = some k) :
    (v.map Doc.kind).find? (fun q => q.detect == x) = some k.kind := by
  induction v with
  | nil => cases h
  | cons a v ih =>
    rw [List.find?_cons] at h
    rw [List.map_cons, List.find?_cons]
    have : (a.kind.detect == x) = decide (a.word.toList = x) := by
      show (a.word.toList == x) = _
      rw [Bool.eq_iff_iff]; simp
    rw [this]
    split at h
    · next hd => rw [hd]; simp only; injection h with h; rw [h]
    · next hd => rw [hd]; exact ih h

/-! ### the state -/

/-- the state of the loop after the items `b` -/
structure HInv (N : Num) (b : List (Seen N.F)) (v l : List Doc) (c : Nat) (s : St N.F) : Prop where
  data : s.data.map Item.seen = b
  vals : s.vals = v.map Doc.kind
  labs : s.labs = l.map Doc.kind
  off : s.off = []
  nodal : s.nodal = false
  wrong : s.nWrong = 0
  comments : s.nComments = c
  allow : s.allow = true ↔ KpSeen b
  vsub : v ⊆ docVals
  lsub : l ⊆ docLabs

theorem kpSeen_append {F : Type} (b : List (Seen F)) (d : Seen F) :
    KpSeen (b ++ [d]) ↔ KpSeen b ∨ lower d.label = "kp_total".toList := by
  unfold KpSeen
  constructor
  · rintro ⟨x, hx, he⟩
    rcases List.mem_append.1 hx with hx | hx
    · exact Or.inl ⟨x, hx, he⟩
    · rw [List.mem_singleton] at hx; subst hx; exact Or.inr he
  · rintro (⟨x, hx, he⟩ | he)
    · exact ⟨x, by simp [hx], he⟩
    · exact ⟨d, by simp, he⟩

theorem HInv.next {b : List (Seen N.F)} {v l : List Doc} {c : Nat} {s : St N.F} (h : HInv N b v l c s) (d : Item N.F) :
    HInv N (b ++ [d.seen]) v l (c + (if d.isComment then 1 else 0)) ((kpState (lower d.label) s).after d) := by
  have ha : (kpState (lower d.label) s).allow = true ↔ KpSeen (b ++ [d.seen]) := by
    rw [kpSeen_append]
    unfold kpState
    split
    · next e => simp [Item.seen, e]
    · next e =>
      rw [h.allow]
      constructor
      · exact Or.inl
      · rintro (h | h)
        · exact h
        · exact absurd h e
  have hd : ∀ r, (kpState r s).data = s.data ∧ (kpState r s).vals = s.vals ∧ (kpState r s).labs = s.labs ∧
      (kpState r s).off = s.off ∧ (kpState r s).nodal = s.nodal ∧ (kpState r s).nComments = s.nComments := by
    intro r; unfold kpState; split <;> exact ⟨rfl, rfl, rfl, rfl, rfl, rfl⟩
  obtain ⟨h1, h2, h3, h4, h5, h6⟩ := hd (lower d.label)
  refine ⟨?_, h2.trans h.vals, h3.trans h.labs, h4.trans h.off, h5.trans h.nodal, rfl, ?_, ha, h.vsub, h.lsub⟩
  · show ((kpState (lower d.label) s).data ++ [d]).map Item.seen = _
    rw [h1, List.map_append, h.data]; rfl
  · show (kpState (lower d.label) s).nComments + _ = _
    rw [h6, h.comments]

theorem lookup_seen (data : List (Item N.F)) (key : Str) : lookup data key = valueOf (data.map Item.seen) key := by
  unfold lookup valueOf
  induction data with
  | nil => rfl
  | cons d data ih =>
    rw [List.map_cons, List.find?_cons, List.find?_cons]
    have : (lower d.label == lower key) = decide (lower d.seen.label = lower key) := by
      show (lower d.label == lower key) = decide (lower d.label = lower key)
      rw [Bool.eq_iff_iff]; simp
    rw [this]
    split
    · rfl
    · exact ih

theorem tabLines_rows {b : List (Seen N.F)} {v l : List Doc} {c : Nat} {s : St N.F} (h : HInv N b v l c s) (k : Doc) (m : Nat)
    (hr : RowsAre b k.rows m) : tabLines s.data k.kind.dim [] = .ok (m : Int) := by
  unfold RowsAre at hr
  unfold Doc.kind tabLines
  cases hk : k.rows with
  | always n => rw [hk] at hr; simp only at hr ⊢; rw [hr]
  | key name =>
    rw [hk] at hr
    obtain ⟨x, h1, rfl⟩ := hr
    simp only [List.append_nil]
    rw [lookup_seen, h.data, h1]

/-! ### what is not a table -/

theorem vals_openers (k : Doc) (h : k ∈ docVals) : k.word ∈ openers := by revert k; decide
theorem labs_reserved (k : Doc) (h : k ∈ docLabs) : k.word ∈ reserved := by revert k; decide

theorem vals_find_none {b : List (Seen N.F)} {v l : List Doc} {c : Nat} {s : St N.F} (h : HInv N b v l c s) (x : Str)
    (hx : ∀ k ∈ openers, x ≠ k.toList) : s.vals.find? (fun k => k.detect == x) = none := by
  rw [List.find?_eq_none, h.vals]
  intro q hq e
  obtain ⟨k, hk, rfl⟩ := List.mem_map.1 hq
  rw [beq_iff_eq] at e
  exact hx k.word (vals_openers k (h.vsub hk)) e.symm

theorem valKind_scalar {b : List (Seen N.F)} {v l : List Doc} {c : Nat} {s : St N.F} (h : HInv N b v l c s) (d : Item N.F)
    (val : Val N.F) (hd : d.value = .plain (.scalar val)) (hp : Plain val) : valKind s d = none := by
  unfold valKind
  cases hs : strValue d with
  | none => rfl
  | some t =>
    have hval : val = .str t := by
      unfold strValue at hs
      rw [hd] at hs
      cases val <;> simp only [reduceCtorEq] at hs
      injection hs with hs; rw [hs]
    simp only
    exact vals_find_none h _ (hp t hval)

theorem labs_find_none {b : List (Seen N.F)} {v l : List Doc} {c : Nat} {s : St N.F} (h : HInv N b v l c s) (x : Str)
    (hx : ∀ k ∈ reserved, x ≠ k.toList) : s.labs.find? (fun k => k.detect == x) = none := by
  rw [List.find?_eq_none, h.labs]
  intro q hq e
  obtain ⟨k, hk, rfl⟩ := List.mem_map.1 hq
  rw [beq_iff_eq] at e
  exact hx k.word (labs_reserved k (h.lsub hk)) e.symm

theorem fil_find_none (x : Str) (hx : ∀ k ∈ reserved, x ≠ k.toList) : filKinds.find? (fun k => k.1 == x) = none := by
  rw [List.find?_eq_none]
  intro q hq e
  rw [beq_iff_eq] at e
  have : ∀ q ∈ filKinds, ∃ k ∈ reserved, q.1 = k.toList := by decide
  obtain ⟨k, hk, hkq⟩ := this q hq
  exact hx k hk (by rw [← e, hkq])

theorem empty_reserved : ∀ k ∈ reserved, ([] : Str) ≠ k.toList := by decide

theorem HInv.kp {b : List (Seen N.F)} {v l : List Doc} {c : Nat} {s : St N.F} (h : HInv N b v l c s) (r : Str) :
    (kpState r s).vals = s.vals ∧ (kpState r s).labs = s.labs ∧ (kpState r s).nWrong = 0 ∧ (kpState r s).nComments = c := by
  unfold kpState; split <;> exact ⟨rfl, rfl, h.wrong, h.comments⟩

/-- an item that opens nothing -/
theorem plain_step {b : List (Seen N.F)} {v l : List Doc} {c : Nat} {s : St N.F} (h : HInv N b v l c s) (n i : Nat)
    (line : Str) (rest : List Str) (e : Entry (EVal N.F)) (hp : parseLine N.toPyFloat s.allow line = .ok e)
    (hsec : NoSection line) (hr : ∀ k ∈ reserved, lower e.label ≠ k.toList)
    (hval : ∀ val, e.value = .scalar val → Plain val)
    (hlab : e.isComment = true ∨ (hasSpecialChars e.label = false ∧ e.label ≠ []))
    (hC : 100 * (c + (if e.isComment then 1 else 0)) ≤ 35 * n) :
    ∃ s' i', turn N n s i line rest = .ok (.go s' i' rest) ∧
      HInv N (b ++ [(Item.ofEntry e).seen]) v l (c + (if e.isComment then 1 else 0)) s' := by
  refine ⟨_, i + 1, ?_, h.next (Item.ofEntry e)⟩
  obtain ⟨k1, k2, k3, k4⟩ := h.kp (lower e.label)
  rw [turn_line _ _ _ _ _ (noSection line hsec),
    linePart_table n s i line rest e hp h.off (hr "numcoords" (by decide)) (hr "re" (by decide))]
  unfold tablePart
  have hv : valKind (kpState (lower e.label) s) (Item.ofEntry e) = none := by
    unfold valKind
    rw [k1]
    cases hv : e.value with
    | list vs =>
      have : strValue (Item.ofEntry e) = none := by unfold strValue Item.ofEntry; rw [hv]
      rw [this]
    | scalar val =>
      have := valKind_scalar h (Item.ofEntry e) val (by unfold Item.ofEntry; rw [hv]) (hval val hv)
      unfold valKind at this
      exact this
  rw [hv]
  simp only
  rw [k2, labs_find_none h _ hr]
  simp only
  have hfil : filKinds.find? (fun k => k.1 == lower (Item.ofEntry e).label) = none := fil_find_none _ hr
  rw [hfil]
  simp only
  refine finish_ok n _ (Item.ofEntry e) (i + 1) rest hlab k3 ?_
  rw [k4]; exact hC

theorem lower_mem (c : Char) (l : Str) (h : c ∈ l) : c.toLower ∈ lower l := List.mem_map.2 ⟨c, h, rfl⟩

theorem comment_plain (F : Type) (l : Str) (h : IsCommentLine l ∨ IsBlank l) : Plain (.str l : Val F) := by
  intro s hs k hk e
  injection hs with hs
  subst hs
  have hno : ∀ k ∈ openers, '#' ∉ k.toList ∧ '!' ∉ k.toList ∧ '-' ∉ k.toList ∧ '=' ∉ k.toList ∧ k.toList ≠ [] ∧
      ∀ c ∈ k.toList, isWs c = false := by decide
  obtain ⟨h1, h2, h3, h4, h5, h6⟩ := hno k hk
  rcases h with h | h
  · have hsub : ∀ c, c ∈ l.dropWhile isWs → c ∈ l := fun c hc => (List.dropWhile_suffix _).subset hc
    unfold IsCommentLine at h
    simp only at h
    rcases h with h | h | ⟨r, h⟩ | ⟨r, h⟩
    · have := lower_mem '#' l (hsub _ (List.mem_of_mem_head? h))
      rw [e] at this; exact h1 this
    · have := lower_mem '!' l (hsub _ (List.mem_of_mem_head? h))
      rw [e] at this; exact h2 this
    · have := lower_mem '-' l (hsub _ (by rw [← h]; simp))
      rw [e] at this; exact h3 this
    · have := lower_mem '=' l (hsub _ (by rw [← h]; simp))
      rw [e] at this; exact h4 this
  · cases l with
    | nil => exact h5 e.symm
    | cons c l =>
      have hc := h c (by simp)
      have hm := lower_mem c (c :: l) (by simp)
      rw [e] at hm
      have := h6 _ hm
      rw [isWs_toLower, hc] at this
      cases this

/-! ### tables -/

theorem tableText_read (heads rows : List Str) (mix : Bool) (val : FVal N.F) (names : List Str)
    (units : Option (List Str)) (h : TableText N heads rows mix val names units) :
    readTable N mix (heads ++ rows) rows.length heads.length 0 = .ok ⟨val, some names, units⟩ := by
  have hap : ∀ a b : List Str, a ++ b = a ++ [] ++ b := by simp
  unfold readTable
  cases h with
  | num _ us w toks rws hne hh hl hv hw hz hcol hc =>
    rename_i names
    have := C86_num N names us heads [] hne hh w toks rows rws hl hv hw hz hc
    rw [if_neg] at this
    · rw [if_neg (by simp), hap, ← hl.length_eq, hv.length_eq]; exact this
    · rintro ⟨h1, h2⟩
      rcases hcol with h | h
      · omega
      · exact h2 h
  | more _ us w toks rws hne hh hl hv hw hz h1 h2 =>
    have := C86_num N names us heads [] hne hh w toks rows rws hl hv hw hz (fun _ h => absurd h h2)
    rw [if_pos ⟨h1, h2⟩] at this
    rw [if_neg (by simp), hap, ← hl.length_eq, hv.length_eq]; exact this
  | mixNum _ us w toks vl hne hh hl hd hw hz hc hval =>
    rename_i names
    obtain ⟨cells, h1, h2, _⟩ := C86_mix N names us heads [] hne hh w toks rows hl hd hw hz hc
    rw [if_pos rfl, hap, ← hl.length_eq, ← h2 vl hval]; exact h1
  | mixTxt _ us w toks hne hh hl hd hw hz hc hbad =>
    rename_i names
    obtain ⟨cells, h1, _, h2⟩ := C86_mix N names us heads [] hne hh w toks rows hl hd hw hz hc
    rw [if_pos rfl, hap, ← hl.length_eq, ← h2 hbad]; exact h1

theorem head_line (hP : N.toPyFloat.Lawful) (allow : Bool) (l x y : Str) (h : HeadLine N l x y) :
    ∃ de, parseLine N.toPyFloat allow l = .ok ⟨y, .scalar (.str x), false, de, 0⟩ := by
  obtain ⟨r, hw⟩ := h.words
  refine ⟨_, parse_text hP allow l x [x] [] y r (.str x) hw h.text .nil (Or.inl rfl) h.notEnd h.label ?_⟩
  refine means_scalar hP allow x _ h.value _ ?_
  intro _ _ w hw hi
  simp at hw
  subst hw
  have := notInt_of_parse hP y h.label.float
  rw [(intText_iff y).2 hi] at this
  cases this

theorem vals_names (k : Doc) (h : k ∈ docVals) :
    hasSpecialChars k.name.toList = false ∧ k.name.toList ≠ [] ∧ lower k.name.toList ≠ "kp_total".toList := by
  revert k; decide

theorem labs_names (k : Doc) (h : k ∈ docLabs) :
    hasSpecialChars k.name.toList = false ∧ k.name.toList ≠ [] ∧ lower k.name.toList ≠ "kp_total".toList := by
  revert k; decide

theorem kpState_ne (r : Str) (s : St F) (h : r ≠ "kp_total".toList) : kpState r s = s := by
  unfold kpState; rw [if_neg h]

theorem val_step (hP : N.toPyFloat.Lawful) {b : List (Seen N.F)} {v l : List Doc} {c : Nat} {s : St N.F}
    (h : HInv N b v l c s) (n i : Nat) (k : Doc) (m : Nat) (hd : Str) (heads rows lines : List Str) (x y : Str)
    (val : FVal N.F) (names : List Str) (units : Option (List Str)) (hh : HeadLine N hd x y)
    (hf : v.find? (fun q => decide (q.word.toList = lower x)) = some k) (hr : RowsAre b k.rows m)
    (hlen : (hd :: heads).length = k.heads) (hrow : rows.length = m)
    (ht : TableText N (hd :: heads) rows k.mix val names units) (hC : 100 * c ≤ 35 * n) :
    ∃ s' i', turn N n s i hd (heads ++ rows ++ lines) = .ok (.go s' i' lines) ∧
      HInv N (b ++ [⟨k.name.toList, val, false, some names, units⟩]) (v.erase k) l c s' := by
  obtain ⟨de, hp⟩ := head_line hP s.allow hd x y hh
  obtain ⟨o1, o2, o3⟩ := hh.other
  have hkm : k ∈ docVals := h.vsub (List.mem_of_find?_eq_some hf)
  obtain ⟨n1, n2, n3⟩ := vals_names k hkm
  have hinv : HInv N b (v.erase k) l c { s with vals := s.vals.erase k.kind } :=
    ⟨h.data, by rw [map_erase_kind, ← h.vals], h.labs, h.off, h.nodal, h.wrong, h.comments, h.allow,
      fun q hq => h.vsub (List.mem_of_mem_erase hq), h.lsub⟩
  have hnext := hinv.next
    { Item.ofEntry (⟨y, .scalar (.str x), false, de, 0⟩ : Entry (EVal N.F)) with
      label := k.name.toList, value := val, names := some names, units := units, tabType := tabTypeOf k.mix }
  simp only [kpState_ne _ _ n3] at hnext
  refine ⟨_, i + m + k.heads, ?_, hnext⟩
  rw [turn_line _ _ _ _ _ (noSection hd hh.noSection), linePart_table n s i hd _ _ hp h.off o1 o2, kpState_ne _ _ o3]
  unfold tablePart
  have hv : valKind s (Item.ofEntry (⟨y, .scalar (.str x), false, de, 0⟩ : Entry (EVal N.F))) = some k.kind := by
    unfold valKind strValue Item.ofEntry
    simp only
    rw [h.vals]; exact find_kind v _ k hf
  rw [hv]
  simp only
  unfold valTable
  rw [tabLines_rows h k m hr]
  simp only
  rw [if_neg (by omega), Int.toNat_natCast]
  have hkh : k.kind.nHeaders = (hd :: heads).length := hlen.symm
  have htake : (hd :: (heads ++ rows ++ lines)).take (m + k.kind.nHeaders) = hd :: heads ++ rows := by
    rw [hkh, ← hrow]
    have : hd :: (heads ++ rows ++ lines) = (hd :: heads ++ rows) ++ lines := by simp
    rw [this, List.take_left' (by simp; omega)]
  have hdrop : (hd :: (heads ++ rows ++ lines)).drop (m + k.kind.nHeaders) = lines := by
    rw [hkh, ← hrow]
    have : hd :: (heads ++ rows ++ lines) = (hd :: heads ++ rows) ++ lines := by simp
    rw [this, List.drop_left' (by simp; omega)]
  have hread : readTable N k.kind.mix (hd :: heads ++ rows) m k.kind.nHeaders 0 = .ok ⟨val, some names, units⟩ := by
    rw [hkh, ← hrow]; exact tableText_read _ _ _ _ _ _ ht
  rw [htake, hdrop, hread]
  simp only
  have hl : k.kind.name ++ s.off = k.name.toList := by rw [h.off, List.append_nil]; rfl
  rw [hl]
  refine (finish_ok n { s with vals := s.vals.erase k.kind } _ _ _ (Or.inr ⟨?_, ?_⟩) h.wrong ?_)
  · exact n1
  · exact n2
  · show 100 * (s.nComments + 0) ≤ _
    rw [h.comments]; exact hC

theorem labs_heads (k : Doc) (h : k ∈ docLabs) (hs : k.skip = 0) : k.heads = 2 := by revert k; decide

theorem lab_step (hP : N.toPyFloat.Lawful) {b : List (Seen N.F)} {v l : List Doc} {c : Nat} {s : St N.F}
    (h : HInv N b v l c s) (n i : Nat) (k : Doc) (m : Nat) (hd : Str) (heads rows lines : List Str) (x y : Str)
    (val : FVal N.F) (names : List Str) (units : Option (List Str)) (hh : HeadLine N hd x y)
    (hx : ∀ k ∈ openers, lower x ≠ k.toList)
    (hf : l.find? (fun q => decide (q.word.toList = lower y)) = some k) (hsk : k.skip = 0) (hna : k.word ≠ "numalf")
    (hr : RowsAre b k.rows m)
    (hlen : (hd :: heads).length = k.heads) (hrow : rows.length = m)
    (ht : TableText N (hd :: heads) rows k.mix val names units) (hC : 100 * c ≤ 35 * n) :
    ∃ s' i', turn N n s i hd (heads ++ rows ++ lines) = .ok (.go s' i' lines) ∧
      HInv N (b ++ [⟨k.name.toList, val, false, some names, units⟩]) v (l.erase k) c s' := by
  obtain ⟨de, hp⟩ := head_line hP s.allow hd x y hh
  obtain ⟨o1, o2, o3⟩ := hh.other
  have hkm : k ∈ docLabs := h.lsub (List.mem_of_find?_eq_some hf)
  obtain ⟨n1, n2, n3⟩ := labs_names k hkm
  have hk2 := labs_heads k hkm hsk
  have hna' : k.kind.detect ≠ "numalf".toList := by
    intro e
    exact hna (String.toList_inj.1 e)
  have hinv : HInv N b v (l.erase k) c { s with labs := s.labs.erase k.kind } :=
    ⟨h.data, h.vals, by rw [map_erase_kind, ← h.labs], h.off, h.nodal, h.wrong, h.comments, h.allow,
      h.vsub, fun q hq => h.lsub (List.mem_of_mem_erase hq)⟩
  have hnext := hinv.next
    { Item.ofEntry (⟨y, .scalar (.str x), false, de, 0⟩ : Entry (EVal N.F)) with
      label := k.name.toList, value := val, names := some names, units := units, tabType := tabTypeOf k.mix }
  simp only [kpState_ne _ _ n3] at hnext
  refine ⟨_, i + (m + 2 - 0), ?_, hnext⟩
  rw [turn_line _ _ _ _ _ (noSection hd hh.noSection), linePart_table n s i hd _ _ hp h.off o1 o2, kpState_ne _ _ o3]
  unfold tablePart
  have hv : valKind s (Item.ofEntry (⟨y, .scalar (.str x), false, de, 0⟩ : Entry (EVal N.F))) = none := by
    refine valKind_scalar h _ (.str x) rfl ?_
    intro t ht
    injection ht with ht
    subst ht
    exact hx
  rw [hv]
  simp only
  have hfl : s.labs.find? (fun q => q.detect == lower y) = some k.kind := by
    rw [h.labs]; exact find_kind l _ k hf
  rw [hfl]
  simp only
  unfold labTable
  have hoff : k.kind.nOffset = 0 := hsk
  rw [if_neg hna', if_neg (by omega)]
  unfold labTableAt
  have htl : tabLines s.data k.kind.dim s.off = .ok (m : Int) := by rw [h.off]; exact tabLines_rows h k m hr
  rw [htl]
  simp only
  rw [if_neg (by omega), Int.toNat_natCast, hoff, Nat.add_zero]
  have hkh : k.kind.nHeaders = (hd :: heads).length := hlen.symm
  have hkh2 : (hd :: heads).length = 2 := by rw [hlen, hk2]
  have htake : (hd :: (heads ++ rows ++ lines)).take (m + k.kind.nHeaders) = hd :: heads ++ rows := by
    rw [hkh, ← hrow]
    have : hd :: (heads ++ rows ++ lines) = (hd :: heads ++ rows) ++ lines := by simp
    rw [this, List.take_left' (by simp; omega)]
  have hdrop : (hd :: (heads ++ rows ++ lines)).drop (m + 2 - 0) = lines := by
    rw [Nat.sub_zero, ← hkh2, ← hrow]
    have : hd :: (heads ++ rows ++ lines) = (hd :: heads ++ rows) ++ lines := by simp
    rw [this, List.drop_left' (by simp; omega)]
  have hread : readTable N k.kind.mix (hd :: heads ++ rows) m k.kind.nHeaders 0 = .ok ⟨val, some names, units⟩ := by
    rw [hkh, ← hrow]; exact tableText_read _ _ _ _ _ _ ht
  rw [htake, hdrop, hread]
  simp only
  have hl : k.kind.name ++ s.off = k.name.toList := by rw [h.off, List.append_nil]; rfl
  rw [if_neg hna', if_neg hna', hl]
  refine (finish_ok n { s with labs := s.labs.erase k.kind } _ _ _ (Or.inr ⟨?_, ?_⟩) h.wrong ?_)
  · exact n1
  · exact n2
  · show 100 * (s.nComments + 0) ≤ _
    rw [h.comments]; exact hC

theorem HInv.add {b : List (Seen N.F)} {v l : List Doc} {c : Nat} {s : St N.F} (h : HInv N b v l c s) (d : Item N.F)
    (hd : lower d.label ≠ "kp_total".toList) : HInv N (b ++ [d.seen]) v l c (s.add d) := by
  refine ⟨?_, h.vals, h.labs, h.off, h.nodal, h.wrong, h.comments, ?_, h.vsub, h.lsub⟩
  · show (s.data ++ [d]).map Item.seen = _
    rw [List.map_append, h.data]; rfl
  · show s.allow = true ↔ _
    rw [h.allow, kpSeen_append]
    constructor
    · exact Or.inl
    · rintro (h | h)
      · exact h
      · exact absurd h hd

theorem valueOf_last {F : Type} (b : List (Seen F)) (d : Seen F) (key : Str) (h : ∀ q ∈ b, lower q.label ≠ lower key)
    (hd : lower d.label = lower key) : valueOf (b ++ [d]) key = some d.value := by
  unfold valueOf
  rw [List.find?_append, List.find?_eq_none.2 (by intro q hq; simpa using h q hq)]
  simp [hd]

/-- `NumAlf` as the reader knows it -/
def numAlf : Kind := mkKind "numalf" "NumAlf" "AFCoeff" 2 0 false

theorem numAlf_docs (k : Doc) (h : k ∈ docLabs) (hw : k.word = "numalf") : k.kind = numAlf := by
  revert k; decide

theorem find_numAlf (l : List Doc) (hl : l ⊆ docLabs) (h : ∃ k ∈ l, k.word = "numalf") :
    (l.map Doc.kind).find? (fun q => q.detect == "numalf".toList) = some numAlf := by
  obtain ⟨k, hk, hw⟩ := h
  cases hf : (l.map Doc.kind).find? (fun q => q.detect == "numalf".toList) with
  | none =>
    exfalso
    have h1 := List.find?_eq_none.1 hf _ (List.mem_map.2 ⟨k, hk, rfl⟩)
    apply h1
    show (k.word.toList == "numalf".toList) = true
    rw [hw]; decide
  | some q =>
    have h1 := List.mem_of_find?_eq_some hf
    have h2 := List.find?_some hf
    obtain ⟨k', hk', rfl⟩ := List.mem_map.1 h1
    rw [beq_iff_eq] at h2
    rw [numAlf_docs k' (hl hk') (String.toList_inj.1 h2)]

theorem polar_step (hP : N.toPyFloat.Lawful) {b : List (Seen N.F)} {v l : List Doc} {c : Nat} {s : St N.F}
    (h : HInv N b v l c s) (n i : Nat) (m : Nat) (line lab : Str) (heads rows lines : List Str)
    (val : FVal N.F) (names : List Str) (units : Option (List Str)) (hk : KeyLine N b line lab (.int (m : Nat)))
    (hlab : lower lab = "numalf".toList) (hfirst : ∀ d ∈ b, lower d.label ≠ "numalf".toList)
    (hin : ∃ k ∈ l, k.word = "numalf") (hlen : heads.length = 2) (hrow : rows.length = m)
    (ht : TableText N heads rows false val names units) (hC : 100 * c ≤ 35 * n) :
    ∃ s' i', turn N n s i line (heads ++ rows ++ lines) = .ok (.go s' i' lines) ∧
      HInv N (b ++ [⟨lab, .plain (.scalar (.int m)), false, none, none⟩, ⟨"AFCoeff".toList, val, false, some names, units⟩])
        v l c s' := by
  have hsec : NoSection line := by
    obtain ⟨_, _, _, _, _, _, _, _, _, _, hs, _⟩ := hk; exact hs
  obtain ⟨de, hp⟩ := parse_keyLine hP s.allow b (fun e => h.allow.1 e) line lab _ hk
  have hkp : lower lab ≠ "kp_total".toList := by rw [hlab]; decide
  have hadd := h.add (Item.ofEntry (⟨lab, .scalar (.int m), false, de, 0⟩ : Entry (EVal N.F))) hkp
  have hnext := hadd.next
    (⟨"AFCoeff".toList, val, false, [], .numHeaderCom, some names, units⟩ : Item N.F)
  have hkp2 : lower "AFCoeff".toList ≠ "kp_total".toList := by decide
  simp only [kpState_ne _ _ hkp2, List.append_assoc, List.cons_append, List.nil_append] at hnext
  refine ⟨_, i + 1 + (m + 2 - 0), ?_, hnext⟩
  rw [turn_line _ _ _ _ _ (noSection line hsec), linePart_table n s i line _ _ hp h.off
    (by show lower lab ≠ _; rw [hlab]; decide) (by show lower lab ≠ _; rw [hlab]; decide), kpState_ne _ _ hkp]
  unfold tablePart
  have hv : valKind s (Item.ofEntry (⟨lab, .scalar (.int m), false, de, 0⟩ : Entry (EVal N.F))) = none :=
    valKind_scalar h _ (.int m) rfl (by intro t ht; cases ht)
  rw [hv]
  simp only
  have hfl : s.labs.find? (fun q => q.detect == lower lab) = some numAlf := by
    rw [h.labs, hlab]; exact find_numAlf l h.lsub hin
  rw [hfl]
  simp only
  have hk1 : numAlf.detect = "numalf".toList := rfl
  have hk2 : numAlf.nHeaders = heads.length := hlen.symm
  have hk3 : numAlf.nOffset = 0 := rfl
  have hk4 : numAlf.mix = false := rfl
  have hk5 : numAlf.name = "AFCoeff".toList := rfl
  have hk6 : numAlf.dim = .var "NumAlf".toList := rfl
  unfold labTable
  rw [if_pos hk1]
  unfold labTableAt
  have htl : tabLines (s.add (Item.ofEntry (⟨lab, .scalar (.int m), false, de, 0⟩ : Entry (EVal N.F)))).data numAlf.dim
      (s.add (Item.ofEntry (⟨lab, .scalar (.int m), false, de, 0⟩ : Entry (EVal N.F)))).off = .ok (m : Int) := by
    rw [hadd.off, hk6]
    unfold tabLines
    simp only [List.append_nil]
    have hky : lower "NumAlf".toList = "numalf".toList := by decide
    rw [lookup_seen, hadd.data, valueOf_last]
    · rfl
    · intro q hq; rw [hky]; exact hfirst q hq
    · show lower lab = _
      rw [hky]; exact hlab
  rw [htl]
  simp only
  rw [if_neg (by omega), Int.toNat_natCast, hk3, Nat.add_zero, hk2, hk4, hk5]
  have htake : (heads ++ rows ++ lines).take (m + heads.length) = heads ++ rows := by
    rw [← hrow, List.take_left' (by simp; omega)]
  have hdrop : (heads ++ rows ++ lines).drop (m + 2 - 0) = lines := by
    rw [Nat.sub_zero, ← hlen, ← hrow, List.drop_left' (by simp; omega)]
  have hread : readTable N false (heads ++ rows) m heads.length 0 = .ok ⟨val, some names, units⟩ := by
    rw [← hrow]; exact tableText_read _ _ _ _ _ _ ht
  rw [htake, hdrop, hread]
  simp only
  have hl : ∀ o : Str, o = [] → "AFCoeff".toList ++ o = "AFCoeff".toList := by intro o ho; rw [ho, List.append_nil]
  rw [if_pos hk1, if_pos hk1, hl _ hadd.off]
  refine finish_ok n _ _ _ _ (Or.inr ⟨?_, ?_⟩) hadd.wrong ?_
  · show hasSpecialChars "AFCoeff".toList = false
    decide
  · show "AFCoeff".toList ≠ []
    decide
  · show 100 * (s.nComments + 0) ≤ _
    rw [h.comments]; exact hC

theorem files_step (hP : N.toPyFloat.Lawful) {b : List (Seen N.F)} {v l : List Doc} {c : Nat} {s : St N.F}
    (h : HInv N b v l c s) (n i : Nat) (k : String × String) (line lab f : Str) (t : Val N.F) (rest fs files lines : List Str)
    (hkm : k ∈ docFiles) (hlab : lower lab = lower k.1.toList) (hw : words line = f :: lab :: rest) (htx : TextOK f [f])
    (hm : Means N f t) (hpl : Plain t) (hlt : LabelText N lab) (hend : NotEnd line) (hsec : NoSection line)
    (hn : ∃ v, valueOf b k.2.toList = some v ∧ v = .plain (.scalar (.int (fs.length + 1))))
    (hfs : List.Forall₂ (fun g w => ∃ r, words g = w :: r) fs files) (hC : 100 * c ≤ 35 * n) :
    ∃ s' i', turn N n s i line (fs ++ lines) = .ok (.go s' i' lines) ∧
      HInv N (b ++ [⟨k.1.toList, .fil (f :: files), false, none, none⟩]) v l c s' := by
  have hK : ∀ k ∈ docFiles, lower k.1.toList ≠ "kp_total".toList ∧ lower k.1.toList ≠ "numcoords".toList ∧
      lower k.1.toList ≠ "re".toList ∧ hasSpecialChars k.1.toList = false ∧ k.1.toList ≠ [] ∧
      (∀ q ∈ docLabs, q.word.toList ≠ lower k.1.toList) ∧
      filKinds.find? (fun q => q.1 == lower k.1.toList) = some (lower k.1.toList, k.2.toList, k.1.toList) := by decide
  obtain ⟨k1, k2, k3, k4, k5, k6, k7⟩ := hK k hkm
  have hll := (label_ok lab hlt).1
  have hp : parseLine N.toPyFloat s.allow line = .ok ⟨lab, .scalar t, false, joinWith [' '] rest, 0⟩ := by
    refine parse_text hP s.allow line f [f] [] lab rest t hw htx .nil (Or.inl rfl) hend hll ?_
    refine means_scalar hP s.allow f t hm _ ?_
    intro _ _ w hw hi
    simp at hw
    subst hw
    have := notInt_of_parse hP lab hlt.2.2.1
    rw [(intText_iff lab).2 hi] at this
    cases this
  have hkp : lower lab ≠ "kp_total".toList := by rw [hlab]; exact k1
  have hnext := h.next
    { Item.ofEntry (⟨lab, .scalar t, false, joinWith [' '] rest, 0⟩ : Entry (EVal N.F)) with
      label := k.1.toList, value := .fil (f :: files), tabType := .fil }
  simp only [kpState_ne _ _ k1] at hnext
  refine ⟨_, i + (fs.length + 1), ?_, hnext⟩
  rw [turn_line _ _ _ _ _ (noSection line hsec), linePart_table n s i line _ _ hp h.off
    (by show lower lab ≠ _; rw [hlab]; exact k2) (by show lower lab ≠ _; rw [hlab]; exact k3), kpState_ne _ _ hkp]
  unfold tablePart
  have hv : valKind s (Item.ofEntry (⟨lab, .scalar t, false, joinWith [' '] rest, 0⟩ : Entry (EVal N.F))) = none :=
    valKind_scalar h _ t rfl hpl
  rw [hv]
  simp only
  have hfl : s.labs.find? (fun q => q.detect == lower lab) = none := by
    rw [List.find?_eq_none, h.labs]
    intro q hq e
    obtain ⟨d, hd, rfl⟩ := List.mem_map.1 hq
    rw [beq_iff_eq, hlab] at e
    exact k6 d (h.lsub hd) e
  rw [hfl]
  simp only
  have hff : filKinds.find? (fun q => q.1 == lower (Item.ofEntry (⟨lab, .scalar t, false, joinWith [' '] rest, 0⟩ : Entry (EVal N.F))).label)
      = some (lower k.1.toList, k.2.toList, k.1.toList) := by
    show filKinds.find? (fun q => q.1 == lower lab) = _
    rw [hlab]; exact k7
  rw [hff]
  simp only
  unfold filTable
  have hdl : tabLines s.data (.var k.2.toList) [] = .ok ((fs.length + 1 : Nat) : Int) := by
    unfold tabLines
    simp only [List.append_nil]
    obtain ⟨x, h1, rfl⟩ := hn
    rw [lookup_seen, h.data, h1]
    simp
  simp only
  rw [hdl]
  simp only
  rw [if_neg (by omega)]
  have htn : ((fs.length + 1 : Nat) : Int).toNat = fs.length + 1 := Int.toNat_natCast _
  rw [htn, List.take_succ_cons, List.take_left, List.drop_succ_cons, List.drop_left]
  have hpf : parseFil (line :: fs) (fs.length + 1) = .ok (f :: files) := by
    unfold parseFil
    rw [if_neg (by simp)]
    refine mapM_ok _ _ _ (.cons ?_ (hfs.imp ?_))
    · rw [hw]
      simp only [strip_word (words_isWord line f (by rw [hw]; simp))]
    · rintro g w ⟨r, hg⟩
      rw [hg]
      simp only [strip_word (words_isWord g w (by rw [hg]; simp))]
  rw [hpf]
  simp only
  have hl : k.1.toList ++ s.off = k.1.toList := by rw [h.off, List.append_nil]
  rw [hl]
  refine finish_ok n s _ _ _ (Or.inr ⟨?_, ?_⟩) h.wrong ?_
  · exact k4
  · exact k5
  · show 100 * (s.nComments + 0) ≤ _
    rw [h.comments]; exact hC

/-! ### channels -/

theorem strip_ws_word (a w : Str) (ha : ∀ c ∈ a, isWs c = true) (hw : IsWord w) : strip (a ++ w) = w := by
  have : strip (a ++ w) = strip w := by
    unfold strip stripBy lstripBy
    rw [List.dropWhile_append_of_pos ha]
  rw [this, strip_word hw]

theorem ws_wordChar (c : Char) (h : isWs c = true) : isWordChar c = false := by
  cases hc : isWordChar c with
  | false => rfl
  | true => rw [wordChar_ws c hc] at h; cases h

theorem channel_first (line lab : Str) (h : ChannelHead line lab) : firstWord line = some lab ∧ isOutSection line = true := by
  obtain ⟨⟨k, hk, h1, h2⟩, a, post, rfl, ha, hne, hl, hp⟩ := h
  have hlw : ∀ c ∈ lab, isWordChar c = true := by
    intro c hc
    unfold isWordChar
    rcases hl c hc with h | h
    · rw [h]; rfl
    · rw [h]; decide
  have hpw : ∀ c, post.head? = some c → isWordChar c = false := by
    intro c hc
    have := hp c hc
    unfold isWordChar
    rw [not_or] at this
    simp [this.1, this.2]
  constructor
  · have e1 := dropWhile_all (fun c => !isWordChar c) a (lab ++ post)
      (by intro c hc; simp [ws_wordChar c (ha c hc)]) (by
        intro c hc
        cases lab with
        | nil => exact absurd rfl hne
        | cons x y => simp at hc; subst hc; simp [hlw x (by simp)])
    have e2 := dropWhile_all isWordChar lab post hlw hpw
    unfold firstWord
    rw [List.append_assoc]
    simp only [e1.1, e1.2, e2.2]
    rw [if_neg hne, strip_ws_word a lab ha ⟨hne, fun c hc => wordChar_ws c (hlw c hc)⟩]
  · have := hasInside_true _ _ h1 h2
    unfold isOutSection
    simp only [List.mem_cons, List.not_mem_nil, or_false] at hk
    rcases hk with rfl | rfl | rfl <;> rw [this]
    · rfl
    · rw [Bool.or_true]; rfl
    · rw [Bool.or_true]

theorem chans_end (chans : List Str) (h : ∀ c ∈ chans, ¬ IsEnd c) (n : Nat) (hl : n + chans.length ≤ 200) :
    parseOutList n chans = .ok chans := by
  induction chans generalizing n with
  | nil => rfl
  | cons c chans ih =>
    simp only [List.length_cons] at hl
    have hc : startsWith (upper c) "END".toList = false := by
      have := h c (by simp); unfold IsEnd at this; simpa using this
    rw [parseOutList, hc, if_neg (by simp), if_neg (by omega), ih (fun c hc => h c (by simp [hc])) (n + 1) (by omega)]

theorem isEnd_iff (c : Str) : IsEnd c ↔ "END".toList <+: upper c := by
  unfold IsEnd startsWith
  exact List.isPrefixOf_iff_prefix

theorem channels_step {b : List (Seen N.F)} {v l : List Doc} {c : Nat} {s : St N.F}
    (h : HInv N b v l c s) (n i : Nat) (line lab : Str) (chans : List Str) (stop : Str) (more : List Str)
    (hf1 : N.parse "END".toList = none) (hf2 : N.parse "of".toList = none) (hh : ChannelHead line lab)
    (hc : ∀ c ∈ chans, ¬ "END".toList <+: upper c) (hlen : chans.length ≤ 200) (hs : "END".toList <+: upper stop)
    (hm : ∀ x, more[1]? = some x → ¬ "bldnd_bladesout".toList <:+: lower x ∧ ¬ "bldnd_bloutnd".toList <:+: lower x) :
    ∃ data, turn N n s i line (chans ++ stop :: more) = .ok (.stop data) ∧
      data.map Item.seen = b ++ ⟨lab, .fil ([] :: chans), false, none, none⟩ :: (endEntries N.F).map Item.seen := by
  obtain ⟨h1, h2⟩ := channel_first line lab hh
  refine ⟨s.data ++ [(⟨lab, .fil ([] :: chans), false, remainder line, .fil, none, none⟩ : Item N.F)] ++ endEntries N.F, ?_, ?_⟩
  · unfold turn
    rw [h2, if_pos rfl]
    unfold outSection
    rw [h1]
    simp only
    have := (C14_read_partial chans more (fun c h => by rw [isEnd_iff]; exact hc c h)).1 stop ((isEnd_iff _).2 hs) hlen
    rw [this]
    simp only [h.nodal, List.drop_left]
    have hnn : (more[1]?).any isNodalLine = false := by
      cases hx : more[1]? with
      | none => rfl
      | some x =>
        obtain ⟨a1, a2⟩ := hm x hx
        show isNodalLine x = false
        unfold isNodalLine
        have f : ∀ k : Str, ¬ k <:+: lower x → find k (lower x) = none := by
          intro k hk
          cases hf : find k (lower x) with
          | none => rfl
          | some i => exact absurd (find_infix _ _ _ hf) hk
        rw [f _ a1, f _ a2]; rfl
    rw [hnn, if_neg (by simp), endItems_eq hf1 hf2]
    rfl
  · rw [List.map_append, List.map_append, h.data, List.append_assoc]
    rfl

theorem channelsEnd_step {b : List (Seen N.F)} {v l : List Doc} {c : Nat} {s : St N.F}
    (h : HInv N b v l c s) (n i : Nat) (line lab : Str) (chans : List Str) (hh : ChannelHead line lab)
    (hc : ∀ c ∈ chans, ¬ "END".toList <+: upper c) (hlen : chans.length ≤ 200) :
    ∃ data, turn N n s i line chans = .ok (.stop data) ∧
      data.map Item.seen = b ++ [⟨lab, .fil ([] :: chans), false, none, none⟩] := by
  obtain ⟨h1, h2⟩ := channel_first line lab hh
  refine ⟨s.data ++ [(⟨lab, .fil ([] :: chans), false, remainder line, .fil, none, none⟩ : Item N.F)], ?_, ?_⟩
  · unfold turn
    rw [h2, if_pos rfl]
    unfold outSection
    rw [h1]
    simp only
    rw [chans_end chans (fun c h => by rw [isEnd_iff]; exact hc c h) 0 (by omega)]
    simp only [h.nodal, List.drop_length]
    rfl
  · rw [List.map_append, h.data]
    rfl

/-! ### the whole file -/

theorem hand_count {b : List (Seen N.F)} {v l : List Doc} {lines : List Str} {ds : List (Seen N.F)} {c : Nat}
    (h : Hand N b v l lines ds c) (hP : N.toPyFloat.Lawful) : ∀ s n i fuel c0, HInv N b v l c0 s → 100 * (c0 + c) ≤ 35 * n →
    lines.length ≤ fuel → ∃ data, loop N n fuel s i lines = .ok data ∧ data.map Item.seen = b ++ ds := by
  have go : ∀ {n fuel i : Nat} {s s' : St N.F} {i' : Nat} {line : Str} {rest lines : List Str} {r : List (Seen N.F)},
      turn N n s i line rest = .ok (.go s' i' lines) → (∃ data, loop N n fuel s' i' lines = .ok data ∧ data.map Item.seen = r) →
      ∃ data, loop N n (fuel + 1) s i (line :: rest) = .ok data ∧ data.map Item.seen = r := by
    rintro n fuel i s s' i' line rest lines r h1 ⟨data, h2, h3⟩
    refine ⟨data, ?_, h3⟩
    rw [loop, h1]
    exact h2
  induction h with
  | nil b v l =>
    intro s n i fuel c0 hi _ _
    refine ⟨s.data, ?_, by rw [hi.data, List.append_nil]⟩
    cases fuel <;> rfl
  | comment b v l line lines ds c hl hsec _ ih =>
    intro s n i fuel c0 hi hC hf
    cases fuel with
    | zero => simp at hf
    | succ fuel =>
    obtain ⟨s', i', ht, hi'⟩ := plain_step hi n i line lines _ (C13_line N.toPyFloat s.allow line hl).1 hsec
      empty_reserved (by intro val e; injection e with e; subst e; exact comment_plain N.F line hl) (Or.inl rfl)
      (by show 100 * (c0 + 1) ≤ _; omega)
    refine go ht ?_
    have := ih s' n i' fuel (c0 + 1) hi' (by omega) (by simp at hf; omega)
    rw [List.append_assoc] at this
    exact this
  | lone b v l line lines ds c hl hpl _ ih =>
    intro s n i fuel c0 hi hC hf
    cases fuel with
    | zero => simp at hf
    | succ fuel =>
    have hsec : NoSection line := by obtain ⟨_, _, _, _, _, _, _, hs⟩ := hl; exact hs
    obtain ⟨s', i', ht, hi'⟩ := plain_step hi n i line lines _ (parse_loneLine hP s.allow line hl) hsec
      empty_reserved (by intro val e; injection e with e; subst e; exact hpl) (Or.inl rfl)
      (by show 100 * (c0 + 1) ≤ _; omega)
    refine go ht ?_
    have := ih s' n i' fuel (c0 + 1) hi' (by omega) (by simp at hf; omega)
    rw [List.append_assoc] at this
    exact this
  | key b v l line lines ds c lab val hl hpl hr _ ih =>
    intro s n i fuel c0 hi hC hf
    cases fuel with
    | zero => simp at hf
    | succ fuel =>
    obtain ⟨de, hp⟩ := parse_keyLine hP s.allow b (fun e => hi.allow.1 e) line lab _ hl
    have hsec : NoSection line := by obtain ⟨_, _, _, _, _, _, _, _, _, _, hs, _⟩ := hl; exact hs
    have hlt : LabelText N lab := by obtain ⟨_, _, _, _, _, _, _, _, _, _, _, hs, _⟩ := hl; exact hs
    obtain ⟨s', i', ht, hi'⟩ := plain_step hi n i line lines _ hp hsec hr
      (by intro val e; injection e with e; subst e; exact hpl) (Or.inr ⟨(label_ok lab hlt).2, hlt.1⟩)
      (by show 100 * (c0 + 0) ≤ _; omega)
    refine go ht ?_
    have := ih s' n i' fuel c0 hi' (by omega) (by simp at hf; omega)
    rw [List.append_assoc] at this
    exact this
  | list b v l line lines ds c lab vals hl hr _ ih =>
    intro s n i fuel c0 hi hC hf
    cases fuel with
    | zero => simp at hf
    | succ fuel =>
    obtain ⟨de, hp⟩ := parse_listLine hP s.allow line lab _ hl
    have hsec : NoSection line := by obtain ⟨_, _, _, _, _, hs, _⟩ := hl; exact hs
    have hlt : LabelText N lab := by obtain ⟨_, _, _, _, _, _, hs, _⟩ := hl; exact hs
    obtain ⟨s', i', ht, hi'⟩ := plain_step hi n i line lines _ hp hsec hr
      (by intro val e; cases e) (Or.inr ⟨(label_ok lab hlt).2, hlt.1⟩)
      (by show 100 * (c0 + 0) ≤ _; omega)
    refine go ht ?_
    have := ih s' n i' fuel c0 hi' (by omega) (by simp at hf; omega)
    rw [List.append_assoc] at this
    exact this
  | pair b v l line lines ds c x y lab hk hl hr _ ih =>
    intro s n i fuel c0 hi hC hf
    cases fuel with
    | zero => simp at hf
    | succ fuel =>
    obtain ⟨de, hp⟩ := parse_pairLine hP line x y lab hl
    have ha := hi.allow.2 hk
    rw [← ha] at hp
    have hsec : NoSection line := by obtain ⟨_, _, _, _, _, _, _, hs, _⟩ := hl; exact hs
    have hlt : LabelText N lab := by obtain ⟨_, _, _, _, _, _, _, _, hs⟩ := hl; exact hs
    have hpl : Plain (.str (x ++ ' ' :: y) : Val N.F) := by
      intro t ht k hk e
      injection ht with ht
      subst ht
      have hno : ∀ k ∈ openers, ' ' ∉ k.toList := by decide
      apply hno k hk
      rw [← e]
      exact lower_mem ' ' _ (by simp)
    obtain ⟨s', i', ht, hi'⟩ := plain_step hi n i line lines _ hp hsec hr
      (by intro val e; injection e with e; subst e; exact hpl) (Or.inr ⟨(label_ok lab hlt).2, hlt.1⟩)
      (by show 100 * (c0 + 0) ≤ _; omega)
    refine go ht ?_
    have := ih s' n i' fuel c0 hi' (by omega) (by simp at hf; omega)
    rw [List.append_assoc] at this
    exact this
  | valTable b v l k m hd heads rows lines ds c x y val names units hh hf0 hr hlen hrow ht _ ih =>
    intro s n i fuel c0 hi hC hf
    cases fuel with
    | zero => simp at hf
    | succ fuel =>
    obtain ⟨s', i', ht, hi'⟩ := val_step hP hi n i k m hd heads rows lines x y val names units hh hf0 hr hlen hrow ht (by omega)
    refine go ht ?_
    have := ih s' n i' fuel c0 hi' (by omega) (by simp at hf; omega)
    rw [List.append_assoc] at this
    exact this
  | labTable b v l k m hd heads rows lines ds c x y val names units hh hx hf0 hsk hna hr hlen hrow ht _ ih =>
    intro s n i fuel c0 hi hC hf
    cases fuel with
    | zero => simp at hf
    | succ fuel =>
    obtain ⟨s', i', ht, hi'⟩ := lab_step hP hi n i k m hd heads rows lines x y val names units hh hx hf0 hsk hna hr hlen hrow ht
      (by omega)
    refine go ht ?_
    have := ih s' n i' fuel c0 hi' (by omega) (by simp at hf; omega)
    rw [List.append_assoc] at this
    exact this
  | polar b v l line lab m heads rows lines ds c val names units hk hlab hfirst hin hlen hrow ht _ ih =>
    intro s n i fuel c0 hi hC hf
    cases fuel with
    | zero => simp at hf
    | succ fuel =>
    obtain ⟨s', i', ht, hi'⟩ := polar_step hP hi n i m line lab heads rows lines val names units hk hlab hfirst hin hlen hrow ht
      (by omega)
    refine go ht ?_
    have := ih s' n i' fuel c0 hi' (by omega) (by simp at hf; omega)
    rw [List.append_assoc] at this
    exact this
  | files b v l k line lab f t rest fs files lines ds c hkm hlab hw htx hm hpl hlt hend hsec hn hfs _ ih =>
    intro s n i fuel c0 hi hC hf
    cases fuel with
    | zero => simp at hf
    | succ fuel =>
    obtain ⟨s', i', ht, hi'⟩ := files_step hP hi n i k line lab f t rest fs files lines hkm hlab hw htx hm hpl hlt hend hsec hn
      hfs (by omega)
    refine go ht ?_
    have := ih s' n i' fuel c0 hi' (by omega) (by simp at hf; omega)
    rw [List.append_assoc] at this
    exact this
  | channels b v l line lab chans stop more hf1 hf2 hh hc hlen hs hm =>
    intro s n i fuel c0 hi hC hf
    cases fuel with
    | zero => simp at hf
    | succ fuel =>
    obtain ⟨data, h1, h2⟩ := channels_step hi n i line lab chans stop more hf1 hf2 hh hc hlen hs hm
    refine ⟨data, ?_, h2⟩
    rw [loop, h1]
  | channelsEnd b v l line lab chans hh hc hlen =>
    intro s n i fuel c0 hi hC hf
    cases fuel with
    | zero => simp at hf
    | succ fuel =>
    obtain ⟨data, h1, h2⟩ := channelsEnd_step hi n i line lab chans hh hc hlen
    refine ⟨data, ?_, h2⟩
    rw [loop, h1]

/-- a file of another kind is not read by the other readers -/
theorem readLines_loop (N : Num) (lines : List Str) (fuel : Nat)
    (hext : lines.length < 10 ∨ ∃ ch r, lines.head? = some (ch :: r) ∧ ch ≠ '!')
    (had : lines.length < 14 ∨ ∀ w ws, words (lines.getD 2 []) = w :: ws → ¬ IntText w) :
    readLines N fuel lines = loop N lines.length fuel {} 0 lines := by
  have h1 : isExtPtfm lines = .ok false := by
    unfold isExtPtfm
    by_cases hl : lines.length < 10
    · rw [if_pos hl]
    · rw [if_neg hl]
      obtain ⟨ch, r, e, hne⟩ := hext.resolve_left hl
      cases lines with
      | nil => cases e
      | cons a ls =>
        injection e with e
        subst e
        simp only [List.getD_cons_zero, List.head?_cons]
        rw [if_pos hne]
  have h2 : isAD14 lines = false := by
    unfold isAD14
    by_cases hl : lines.length < 14
    · rw [if_pos hl]
    · rw [if_neg hl]
      have := had.resolve_left hl
      cases hw : words (lines.getD 2 []) with
      | nil => rfl
      | cons w ws =>
        have hi : strIsInt w = false := by
          rw [Bool.eq_false_iff]
          intro hi
          exact this w ws hw ((intText_iff w).1 hi)
        simp only
        rw [hi]; rfl
  unfold readLines
  rw [h1]
  simp only
  rw [h2, if_neg (by simp)]

end Verif.FastRead
