import Verif.Spec.FastLoose
import Verif.Lemmas.FastHandFile
/-! Lemmas for C88: the format checks of the loop. -/
namespace Verif.FastRead
open Verif.Py Verif.FastDict Verif.FastLine Verif.FastTable

variable {N : Num}

theorem anyLabel_ok (lab : Str) (h : AnyLabel N lab) : LabelOK N.toPyFloat lab := by
  obtain ⟨h1, h2, h3, h4, h5⟩ := h
  refine ⟨⟨h1, fun c hc => (h2 c hc).1⟩, fun hc => (h2 _ hc).2 rfl, h3, notBool lab h4, ?_⟩
  rw [Bool.eq_false_iff]
  intro hb
  exact h5 ((tag_iff lab).1 hb)

theorem parse_looseKey (hP : N.toPyFloat.Lawful) (allow : Bool) (b : List (Seen N.F)) (ha : allow = true → KpSeen b)
    (l lab : Str) (v : Val N.F) (h : LooseKey N b l lab v) :
    ∃ de, parseLine N.toPyFloat allow l = .ok ⟨lab, .scalar v, false, de, 0⟩ := by
  obtain ⟨t, ws, mid, rest, hw, ht, hm, hs, hc, hend, hsec, hl, hk⟩ := h
  have hlab := anyLabel_ok lab hl
  refine ⟨_, parse_text hP allow l t ws mid lab rest v hw ht hs hc hend hlab ?_⟩
  refine means_scalar hP allow t v hm _ ?_
  intro hal hi w hw
  cases mid with
  | nil =>
    simp at hw
    subst hw
    intro hil
    have := notInt_of_parse hP lab hlab.float
    rw [(intText_iff lab).2 hil] at this
    cases this
  | cons a r =>
    simp at hw
    subst hw
    exact hk (ha hal) hi a rfl

theorem special_iff (s : Str) : hasSpecialChars s = true ↔ ∃ c ∈ s, ¬ LabelChar c := by
  unfold hasSpecialChars LabelChar
  rw [Bool.not_eq_true', ← Bool.not_eq_true, List.all_eq_true]
  simp only [not_forall]
  constructor
  · rintro ⟨c, hc, h⟩
    refine ⟨c, hc, fun hx => h ?_⟩
    rcases hx with hx | hx
    · simp [hx]
    · simp only [List.mem_cons, List.not_mem_nil, or_false] at hx
      simp [hx]
      rcases hx with h | h | h | h | h | h <;> simp [h]
  · rintro ⟨c, hc, h⟩
    refine ⟨c, hc, fun hx => h ?_⟩
    simp only [Bool.or_eq_true, beq_iff_eq] at hx
    simp only [List.mem_cons, List.not_mem_nil, or_false]
    rcases hx with (((((h | h) | h) | h) | h) | h) | h <;> simp [h]

theorem odd_iff (d : Item N.F) : Odd d.seen ↔ (!d.isComment && hasSpecialChars d.label) = true := by
  unfold Odd
  rw [← special_iff]
  show d.isComment = false ∧ hasSpecialChars d.label = true ↔ _
  rw [Bool.and_eq_true, Bool.not_eq_true']

theorem refused_mono {F : Type} (n : Nat) (a b : List (Seen F)) (h : Refused n a) : Refused n (a ++ b) := by
  unfold Refused at *
  rw [List.countP_append, List.countP_append]
  rcases h with ⟨d, hd, ho⟩ | h | h
  · refine Or.inl ⟨d, ?_, ho⟩
    rw [List.drop_append]
    exact List.mem_append_left _ hd
  · right; left; omega
  · right; right; omega

/-- the state of the loop after the items `b` of as many lines -/
structure LInv (N : Num) (n : Nat) (b : List (Seen N.F)) (s : St N.F) : Prop where
  data : s.data.map Item.seen = b
  vals : s.vals = valKinds
  labs : s.labs = labKinds
  off : s.off = []
  comments : s.nComments = b.countP (·.comment)
  wrong : s.nWrong = b.countP (fun d => decide (Odd d))
  allow : s.allow = true ↔ KpSeen b

/-- an entry that opens nothing is stored -/
theorem plain_finish (n : Nat) {b : List (Seen N.F)} {s : St N.F} (h : LInv N n b s) (i : Nat)
    (line : Str) (rest : List Str) (e : Entry (EVal N.F)) (hp : parseLine N.toPyFloat s.allow line = .ok e)
    (hsec : NoSection line) (hr : ∀ k ∈ reserved, lower e.label ≠ k.toList)
    (hval : ∀ val, e.value = .scalar val → Plain val) :
    turn N n s i line rest = finish n (kpState (lower e.label) s) (Item.ofEntry e) (i + 1) rest := by
  have hh : HInv N b docVals docLabs 0 { s with nComments := 0, nWrong := 0, nodal := false } :=
    ⟨h.data, h.vals.trans vals_docs.symm, h.labs.trans labs_docs.symm, h.off, rfl, rfl, rfl, h.allow, fun _ h => h, fun _ h => h⟩
  have k1 : (kpState (lower e.label) s).vals = s.vals := by unfold kpState; split <;> rfl
  have k2 : (kpState (lower e.label) s).labs = s.labs := by unfold kpState; split <;> rfl
  rw [turn_line _ _ _ _ _ (noSection line hsec),
    linePart_table n s i line rest e hp h.off (hr "numcoords" (by decide)) (hr "re" (by decide))]
  unfold tablePart
  have hv : valKind (kpState (lower e.label) s) (Item.ofEntry e) = none := by
    unfold valKind
    rw [k1]
    cases hv : e.value with
    | list vs =>
      have : strValue (Item.ofEntry e) = none := by unfold strValue Item.ofEntry; rw [hv]
      rw [this]
    | scalar val =>
      have := valKind_scalar hh (Item.ofEntry e) val (by unfold Item.ofEntry; rw [hv]) (hval val hv)
      unfold valKind at this
      exact this
  rw [hv]
  simp only
  rw [k2, labs_find_none hh _ hr]
  simp only
  have hfil : filKinds.find? (fun k => k.1 == lower (Item.ofEntry e).label) = none := fil_find_none _ hr
  rw [hfil]

theorem finish_checks (n : Nat) {b : List (Seen N.F)} {s : St N.F} (h : LInv N n b s) (hb : ¬ Refused n b) (d : Item N.F)
    (hlab : d.isComment = true ∨ d.label ≠ []) (rest : List Str) :
    (Refused n (b ++ [d.seen]) → finish n (kpState (lower d.label) s) d (b.length + 1) rest = .error .wrongFormat) ∧
    (¬ Refused n (b ++ [d.seen]) → ∃ s', finish n (kpState (lower d.label) s) d (b.length + 1) rest
      = .ok (.go s' (b.length + 1) rest) ∧ LInv N n (b ++ [d.seen]) s') := by
  have hk : (kpState (lower d.label) s).nComments = s.nComments ∧ (kpState (lower d.label) s).nWrong = s.nWrong ∧
      (kpState (lower d.label) s).data = s.data ∧ (kpState (lower d.label) s).vals = s.vals ∧
      (kpState (lower d.label) s).labs = s.labs ∧ (kpState (lower d.label) s).off = s.off := by
    unfold kpState; split <;> exact ⟨rfl, rfl, rfl, rfl, rfl, rfl⟩
  have ha : (kpState (lower d.label) s).allow = true ↔ KpSeen (b ++ [d.seen]) := by
    rw [kpSeen_append]
    unfold kpState
    split
    · next e => simp [Item.seen, e]
    · next e =>
      rw [h.allow]
      constructor
      · exact Or.inl
      · rintro (h | h)
        · exact h
        · exact absurd h e
  generalize kpState (lower d.label) s = t at hk ha
  obtain ⟨k1, k2, k3, k4, k5, k6⟩ := hk
  have hC : (if d.isComment = true then t.nComments + 1 else t.nComments) = (b ++ [d.seen]).countP (·.comment) := by
    rw [List.countP_append, List.countP_singleton, k1, h.comments]
    show _ = _ + if d.isComment = true then 1 else 0
    split <;> rfl
  have hempty : (if (!d.isComment && d.label.isEmpty) = true then 1 else 0) = 0 := by
    rw [if_neg]
    rcases hlab with h | h
    · simp [h]
    · cases hd : d.label with
      | nil => exact absurd hd h
      | cons a b => simp
  have hW : t.nWrong + (if (!d.isComment && hasSpecialChars d.label) = true then 1 else 0) +
      (if (!d.isComment && d.label.isEmpty) = true then 1 else 0) = (b ++ [d.seen]).countP (fun d => decide (Odd d)) := by
    rw [hempty, List.countP_append, List.countP_singleton, k2, h.wrong]
    simp only [decide_eq_true_eq, odd_iff]
    rfl
  have hS : (∃ q ∈ (b ++ [d.seen]).drop 3, Odd q) ↔ ((!d.isComment && hasSpecialChars d.label) && decide (3 < b.length + 1)) = true := by
    rw [Bool.and_eq_true, decide_eq_true_eq, ← odd_iff, List.drop_append]
    constructor
    · rintro ⟨q, hq, ho⟩
      rcases List.mem_append.1 hq with hq | hq
      · exact absurd (Or.inl ⟨q, hq, ho⟩) hb
      · have hl : 3 - b.length = 0 := by
          rcases Nat.eq_zero_or_pos (3 - b.length) with h | h
          · exact h
          · rw [List.drop_eq_nil_of_le (by simp; omega)] at hq; cases hq
        rw [hl, List.drop_zero, List.mem_singleton] at hq
        subst hq
        exact ⟨ho, by omega⟩
    · rintro ⟨ho, hl⟩
      refine ⟨d.seen, ?_, ho⟩
      have : 3 - b.length = 0 := by omega
      rw [this]
      simp
  unfold finish
  simp only [hC, hW]
  unfold Refused
  rw [hS]
  by_cases c1 : ((!d.isComment && hasSpecialChars d.label) && decide (3 < b.length + 1)) = true
  · rw [if_pos c1]
    exact ⟨fun _ => rfl, fun hn => absurd (Or.inl c1) hn⟩
  · rw [if_neg c1]
    by_cases c2 : 100 * (b ++ [d.seen]).countP (·.comment) > 35 * n
    · rw [if_pos c2]
      exact ⟨fun _ => rfl, fun hn => absurd (Or.inr (Or.inl c2)) hn⟩
    · rw [if_neg c2]
      by_cases c3 : 10 * (b ++ [d.seen]).countP (fun d => decide (Odd d)) > n
      · rw [if_pos c3]
        exact ⟨fun _ => rfl, fun hn => absurd (Or.inr (Or.inr c3)) hn⟩
      · rw [if_neg c3]
        refine ⟨fun hr => ?_, fun _ => ⟨_, rfl, ?_⟩⟩
        · rcases hr with hr | hr | hr
          · exact absurd hr c1
          · exact absurd hr c2
          · exact absurd hr c3
        · refine ⟨?_, k4.trans h.vals, k5.trans h.labs, k6.trans h.off, rfl, rfl, ha⟩
          show (t.data ++ [d]).map Item.seen = _
          rw [List.map_append, k3, h.data]; rfl

theorem loose_length {b : List (Seen N.F)} {lines : List Str} {ds : List (Seen N.F)} (h : Loose N b lines ds) :
    ds.length = lines.length := by
  induction h with
  | nil => rfl
  | comment _ _ _ _ _ _ _ ih => simp [ih]
  | lone _ _ _ _ _ _ _ ih => simp [ih]
  | key _ _ _ _ _ _ _ _ _ _ ih => simp [ih]

theorem loose_loop (hP : N.toPyFloat.Lawful) (n : Nat) {b : List (Seen N.F)} {lines : List Str} {ds : List (Seen N.F)}
    (h : Loose N b lines ds) : ∀ s fuel, LInv N n b s → ¬ Refused n b → lines.length ≤ fuel →
    (Refused n (b ++ ds) → loop N n fuel s b.length lines = .error .wrongFormat) ∧
    (¬ Refused n (b ++ ds) → ∃ data, loop N n fuel s b.length lines = .ok data ∧ data.map Item.seen = b ++ ds) := by
  have one : ∀ (b : List (Seen N.F)) (line : Str) (lines : List Str) (ds : List (Seen N.F)) (e : Bool → Entry (EVal N.F)) (sd : Seen N.F),
      (∀ a, (Item.ofEntry (e a)).seen = sd) → (∀ a, (a = true → KpSeen b) → parseLine N.toPyFloat a line = .ok (e a)) → NoSection line →
      (∀ a, ∀ k ∈ reserved, lower (e a).label ≠ k.toList) → (∀ a val, (e a).value = .scalar val → Plain val) →
      (∀ a, (e a).isComment = true ∨ (e a).label ≠ []) →
      (∀ s fuel, LInv N n (b ++ [sd]) s → ¬ Refused n (b ++ [sd]) → lines.length ≤ fuel →
        (Refused n (b ++ [sd] ++ ds) → loop N n fuel s (b ++ [sd]).length lines = .error .wrongFormat) ∧
        (¬ Refused n (b ++ [sd] ++ ds) → ∃ data, loop N n fuel s (b ++ [sd]).length lines = .ok data ∧
          data.map Item.seen = b ++ [sd] ++ ds)) →
      ∀ s fuel, LInv N n b s → ¬ Refused n b → (line :: lines).length ≤ fuel →
        (Refused n (b ++ sd :: ds) → loop N n fuel s b.length (line :: lines) = .error .wrongFormat) ∧
        (¬ Refused n (b ++ sd :: ds) → ∃ data, loop N n fuel s b.length (line :: lines) = .ok data ∧
          data.map Item.seen = b ++ sd :: ds) := by
    intro b line lines ds e sd hsd hp hsec hr hv hl ih s fuel hi hb hf
    cases fuel with
    | zero => simp at hf
    | succ fuel =>
    have hturn := plain_finish n hi b.length line lines (e s.allow) (hp s.allow (fun h => hi.allow.1 h)) hsec (hr s.allow) (hv s.allow)
    obtain ⟨c1, c2⟩ := finish_checks n hi hb (Item.ofEntry (e s.allow)) (hl s.allow) lines
    rw [hsd s.allow] at c1 c2
    have e1 : b ++ sd :: ds = b ++ [sd] ++ ds := by simp
    rw [e1]
    by_cases hR : Refused n (b ++ [sd])
    · refine ⟨fun _ => ?_, fun hn => absurd (refused_mono n _ ds hR) hn⟩
      rw [loop, hturn]
      have := c1 hR
      rw [show lower (e s.allow).label = lower (Item.ofEntry (e s.allow)).label from rfl, this]
    · obtain ⟨s', h1, h2⟩ := c2 hR
      have h3 : turn N n s b.length line lines = .ok (.go s' (b.length + 1) lines) := hturn.trans h1
      have := ih s' fuel h2 hR (by simp at hf; omega)
      rw [List.length_append, List.length_singleton] at this
      rw [loop, h3]
      exact this
  induction h with
  | nil b =>
    intro s fuel hi hb _
    rw [List.append_nil]
    refine ⟨fun h => absurd h hb, fun _ => ⟨s.data, ?_, hi.data⟩⟩
    cases fuel <;> rfl
  | comment b line lines ds hl hsec _ ih =>
    exact one b line lines ds (fun _ => commentEntry N.toPyFloat line) _ (fun _ => rfl)
      (fun a _ => (C13_line N.toPyFloat a line hl).1) hsec (fun _ => empty_reserved)
      (by intro a val e; injection e with e; subst e; exact comment_plain N.F line hl) (fun _ => Or.inl rfl) ih
  | lone b line lines ds hl hpl _ ih =>
    have hsec : NoSection line := by obtain ⟨_, _, _, _, _, _, _, hs⟩ := hl; exact hs
    exact one b line lines ds (fun _ => ⟨[], .scalar (.str line), true, [], 0⟩) _ (fun _ => rfl)
      (fun a _ => parse_loneLine hP a line hl) hsec (fun _ => empty_reserved)
      (by intro a val e; injection e with e; subst e; exact hpl) (fun _ => Or.inl rfl) ih
  | key b line lines ds lab val hl hpl hr _ ih =>
    have hsec : NoSection line := by obtain ⟨_, _, _, _, _, _, _, _, _, _, hs, _⟩ := hl; exact hs
    have hlt : AnyLabel N lab := by obtain ⟨_, _, _, _, _, _, _, _, _, _, _, hs, _⟩ := hl; exact hs
    obtain ⟨de, hde⟩ : ∃ de : Bool → Str, ∀ a, (a = true → KpSeen b) → parseLine N.toPyFloat a line = .ok ⟨lab, .scalar val, false, de a, 0⟩ := by
      have : ∀ a : Bool, ∃ d, (a = true → KpSeen b) → parseLine N.toPyFloat a line = .ok ⟨lab, .scalar val, false, d, 0⟩ := by
        intro a
        by_cases ha : a = true → KpSeen b
        · obtain ⟨d, hd⟩ := parse_looseKey hP a b ha line lab val hl
          exact ⟨d, fun _ => hd⟩
        · exact ⟨[], fun h => absurd h ha⟩
      exact Classical.axiomOfChoice this
    exact one b line lines ds (fun a => ⟨lab, .scalar val, false, de a, 0⟩) _ (fun _ => rfl)
      hde hsec (fun _ => hr) (by intro a v e; injection e with e; subst e; exact hpl) (fun _ => Or.inr hlt.1) ih

end Verif.FastRead
