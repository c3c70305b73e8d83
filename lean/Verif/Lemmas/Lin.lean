import Verif.Spec.Lin
import Verif.Lemmas.Str
import Verif.Lemmas.FastLine
import Verif.Lemmas.FastHand
/-! Lemmas for C92 and C93. -/
namespace Verif.Lin
open Verif.Py Verif.FastLine

theorem has_iff (k s : Str) : has k s = true ↔ k <:+: s := by
  unfold has
  constructor
  · intro h
    obtain ⟨i, hi⟩ := Option.isSome_iff_exists.1 h
    exact Verif.FastRead.find_infix k s i hi
  · intro h
    obtain ⟨i, hi⟩ := Verif.FastRead.find_of_infix k s h
    rw [hi]; rfl

theorem has_false (k s : Str) (h : ¬ k <:+: s) : has k s = false := by
  cases hb : has k s with
  | false => rfl
  | true => exact absurd ((has_iff k s).1 hb) h

/-! ### a text with a single colon -/

theorem prefix_colon (k a b : Str) (hk : ':' ∉ k) (h : k <+: a ++ ':' :: b) : k <+: a := by
  induction a generalizing k with
  | nil =>
    cases k with
    | nil => exact List.prefix_refl _
    | cons c k =>
      have := (List.cons_prefix_cons.1 h).1
      subst this; simp at hk
  | cons x a ih =>
    cases k with
    | nil => exact List.nil_prefix
    | cons c k =>
      obtain ⟨h1, h2⟩ := List.cons_prefix_cons.1 h
      subst h1
      exact List.cons_prefix_cons.2 ⟨rfl, ih k (by simp at hk; exact hk.2) h2⟩

theorem infix_colon (k a b : Str) (hk : ':' ∉ k) (h : k <:+: a ++ ':' :: b) : k <:+: a ∨ k <:+: b := by
  induction a with
  | nil =>
    rcases List.infix_cons_iff.1 h with h | h
    · exact .inl (prefix_colon k [] b hk h).isInfix
    · exact .inr h
  | cons x a ih =>
    rcases List.infix_cons_iff.1 h with h | h
    · exact .inl (prefix_colon k (x :: a) b hk h).isInfix
    · rcases ih h with h | h
      · exact .inl (List.infix_cons_iff.2 (.inr h))
      · exact .inr h

theorem eq_colon (k a b : Str) (hk : ':' ∉ k) (ha : ':' ∉ a) (h : k ++ [':'] <+: a ++ ':' :: b) : k = a := by
  induction a generalizing k with
  | nil =>
    cases k with
    | nil => rfl
    | cons c k =>
      have := (List.cons_prefix_cons.1 h).1
      subst this; simp at hk
  | cons x a ih =>
    cases k with
    | nil =>
      have := (List.cons_prefix_cons.1 h).1
      subst this; simp at ha
    | cons c k =>
      obtain ⟨h1, h2⟩ := List.cons_prefix_cons.1 h
      subst h1
      rw [ih k (by simp at hk; exact hk.2) (by simp at ha; exact ha.2) h2]

theorem suffix_colon (k a b : Str) (hk : ':' ∉ k) (ha : ':' ∉ a) (hb : ':' ∉ b)
    (h : k ++ [':'] <:+: a ++ ':' :: b) : k <:+ a := by
  have hmem : ∀ s : Str, k ++ [':'] <:+: s → ':' ∈ s := fun s hs => hs.subset (by simp)
  induction a with
  | nil =>
    rcases List.infix_cons_iff.1 h with h | h
    · rw [eq_colon k [] b hk ha h]
      exact List.suffix_refl _
    · exact absurd (hmem _ h) hb
  | cons x a ih =>
    rcases List.infix_cons_iff.1 h with h | h
    · rw [eq_colon k (x :: a) b hk ha h]
      exact List.suffix_refl _
    · exact (ih (by simp at ha; exact ha.2) h).trans (List.suffix_cons x a)

/-! ### the header -/

theorem find_ws (key p q : Str) (c : Char) (t : Str) (hkey : key = c :: t) (hc : isWs c = false)
    (hp : ∀ x ∈ p, isWs x = true) : find key (p ++ key ++ q) = some p.length := by
  induction p with
  | nil =>
    rw [List.nil_append]
    exact find_self key q (by rw [hkey]; simp)
  | cons x p ih =>
    have hx : x ≠ c := by
      rintro rfl
      have := hp x (by simp)
      rw [hc] at this; simp at this
    rw [List.cons_append, List.cons_append, find, if_neg, ih (fun y hy => hp y (by simp [hy]))]
    · rfl
    · rw [hkey]; simp [List.isPrefixOf, Ne.symm hx]

theorem extractVal_field (hs : List Str) (key : Str) (c : Char) (t : Str) (hkey : key = c :: t) (hc : isWs c = false)
    (w : Option Str) (h : Field hs key w) : extractVal hs key = .ok w := by
  cases w with
  | none =>
    induction hs with
    | nil => rfl
    | cons l hs ih =>
      have h : ∀ l' ∈ l :: hs, ¬ key <:+: l' := h
      rw [extractVal, has_false key l (h l (by simp)), if_neg (by simp)]
      exact ih (fun l hl => h l (by simp [hl]))
  | some w =>
    obtain ⟨a, p, q, b, r, rfl, ha, hp, hq, hw⟩ := h
    induction a with
    | nil =>
      have hf := find_ws key p q c t hkey hc hp
      have h1 : has key (p ++ key ++ q) = true := by unfold has; rw [hf]; rfl
      have h2 : afterKey key (p ++ key ++ q) = q := by
        unfold afterKey
        rw [hf]
        have hd : (p ++ key ++ q).drop (p.length + key.length) = q := by
          rw [List.drop_left' (by simp)]
        simp only [hd]
        have : find key q = none := by
          cases hfq : find key q with
          | none => rfl
          | some j => exact absurd (Verif.FastRead.find_infix key q j hfq) hq
        rw [this]
      rw [List.nil_append, extractVal, h1, h2, hw]
      rfl
    | cons l a ih =>
      rw [List.cons_append, extractVal, has_false key l (ha l (by simp))]
      exact ih (fun l hl => ha l (by simp [hl]))

theorem readToMarker_ok (marker : Str) (nMax i : Nat) (last : Option Str) (pre : List Str) (m : Str) (rest : List Str)
    (hpre : ∀ l ∈ pre, ¬ marker <:+: l) (hm : marker <:+: m) (hn : i + pre.length ≤ nMax) :
    readToMarker marker nMax i last (pre ++ m :: rest) = .ok (pre.map strip, m, rest) := by
  induction pre generalizing i last with
  | nil =>
    rw [List.nil_append, readToMarker, if_neg (by simp at hn; omega), (has_iff marker m).2 hm]
    rfl
  | cons l pre ih =>
    rw [List.cons_append, readToMarker, if_neg (by simp at hn; omega), has_false marker l (hpre l (by simp))]
    rw [ih (i + 1) (some l) (fun l hl => hpre l (by simp [hl])) (by simp at hn; omega)]
    rfl

theorem count_ok (hs : List Str) (key : Str) (c : Char) (t : Str) (hkey : key = c :: t) (hc : isWs c = false)
    (n : Nat) (h : Field hs key (some (Nat.toDigits 10 n))) : count hs key = .ok (n : Int) := by
  unfold count
  rw [extractVal_field hs key c t hkey hc _ h]
  simp only [toInt]
  have h1 : strIsInt (Nat.toDigits 10 n) = true := strIsInt_showInt (n : Int)
  have h2 : pyInt (Nat.toDigits 10 n) = n := pyInt_showInt (n : Int)
  rw [if_pos h1, h2]

theorem optFloat_ok {F : Type} (parse : Str → Option F) (hs : List Str) (key : Str) (c : Char) (t : Str)
    (hkey : key = c :: t) (hc : isWs c = false) (w : Option Str) (h : Field hs key w) :
    optFloat parse hs key = w.bind parse := by
  unfold optFloat
  rw [extractVal_field hs key c t hkey hc _ h]
  cases w <;> rfl

/-! ### lists of operating points and matrices -/

theorem opLine_ok {F : Type} (parse : Str → Option F) (cols l : Str) (r : OpRow F)
    (h : OpSays parse ("Derivative Order".toList <:+: strip cols) l r) :
    opLine parse (has "Derivative Order".toList (strip cols)) l = .ok r := by
  obtain ⟨idx, v, mid, tail, ws, hw, hmid, hv, hd, hn, hdescr⟩ := h
  have hws : ∀ w ∈ ws, IsWord w := fun w hw' => words_isWord l w (by rw [hw]; simp [hw'])
  have hdescr' : strip (joinWith [' '] ws) = r.descr := by rw [strip_join ws hws, hdescr]
  generalize hD : has "Derivative Order".toList (strip cols) = D
  have hDt : D = true → tail = [showInt r.order] := fun e => hd ((has_iff _ _).1 (hD.trans e))
  have hDf : D = false → tail = [] ∧ r.order = -1 := fun e => hn (fun hi => by
    have := (has_iff _ _).2 hi
    rw [hD, e] at this; simp at this)
  clear hD hd hn
  rcases hmid with ⟨rfl, hc⟩ | ⟨b, c, rfl⟩
  · have h1 : has [','] v = false := has_false _ _ (fun hi => hc (hi.subset (by simp)))
    simp only [opLine, hw]
    have e1 : (idx :: [v] ++ r.frame :: tail ++ ws)[1]? = some v := rfl
    rw [e1]
    simp only [h1, Bool.false_eq_true, if_false, hv]
    have e2 : (idx :: [v] ++ r.frame :: tail ++ ws)[2]? = some r.frame := rfl
    rw [e2]
    simp only
    cases D with
    | true =>
      have ht := hDt rfl
      subst ht
      have e3 : (idx :: [v] ++ r.frame :: [showInt r.order] ++ ws)[2 + 1]? = some (showInt r.order) := rfl
      have e4 : (idx :: [v] ++ r.frame :: [showInt r.order] ++ ws).drop (2 + 2) = ws := rfl
      rw [if_pos rfl, e3, e4]
      simp only
      rw [if_pos (strIsInt_showInt r.order), pyInt_showInt, hdescr']
    | false =>
      obtain ⟨ht, ho⟩ := hDf rfl
      subst ht
      have e4 : (idx :: [v] ++ r.frame :: [] ++ ws).drop (2 + 1) = ws := rfl
      rw [if_neg (by simp), e4, hdescr', ← ho]
  · have h1 : has [','] (v ++ [',']) = true := (has_iff _ _).2 ⟨v, [], by simp⟩
    simp only [opLine, hw]
    have e1 : (idx :: [v ++ [','], b, c] ++ r.frame :: tail ++ ws)[1]? = some (v ++ [',']) := rfl
    rw [e1]
    simp only [h1, if_true, List.dropLast_concat, hv]
    have e2 : (idx :: [v ++ [','], b, c] ++ r.frame :: tail ++ ws)[4]? = some r.frame := rfl
    rw [e2]
    simp only
    cases D with
    | true =>
      have ht := hDt rfl
      subst ht
      have e3 : (idx :: [v ++ [','], b, c] ++ r.frame :: [showInt r.order] ++ ws)[4 + 1]? = some (showInt r.order) := rfl
      have e4 : (idx :: [v ++ [','], b, c] ++ r.frame :: [showInt r.order] ++ ws).drop (4 + 2) = ws := rfl
      rw [if_pos rfl, e3, e4]
      simp only
      rw [if_pos (strIsInt_showInt r.order), pyInt_showInt, hdescr']
    | false =>
      obtain ⟨ht, ho⟩ := hDf rfl
      subst ht
      have e4 : (idx :: [v ++ [','], b, c] ++ r.frame :: [] ++ ws).drop (4 + 1) = ws := rfl
      rw [if_neg (by simp), e4, hdescr', ← ho]

theorem opRows_ok {F : Type} (parse : Str → Option F) (cols : Str) (ls : List Str) (rows : List (OpRow F)) (rest : List Str)
    (h : List.Forall₂ (OpSays parse ("Derivative Order".toList <:+: strip cols)) ls rows) (hne : rows ≠ []) :
    opRows parse (has "Derivative Order".toList (strip cols)) rows.length (ls ++ rest) = .ok (rows, rest) := by
  induction h with
  | nil => simp at hne
  | @cons l r ls rows hl hrest ih =>
    rw [List.cons_append, opRows, opLine_ok parse cols l r hl]
    simp only
    cases hrest with
    | nil => simp
    | @cons l2 r2 ls2 rows2 hl2 hrest2 =>
      rw [if_neg (by simp)]
      have := ih (by simp)
      rw [List.length_cons, Nat.add_sub_cancel, this]

theorem mapM_row {F : Type} (parse : Str → Option F) (ws : List Str) (row : List F)
    (h : List.Forall₂ (fun w x => parse w = some x) ws row) : ws.mapM parse = some row := by
  induction h with
  | nil => rfl
  | cons hw _ ih => rw [List.mapM_cons, hw, ih]; rfl

theorem readLinesN_ok (ls rest : List Str) : readLinesN ls.length (ls ++ rest) = ls := by
  unfold readLinesN
  apply List.ext_getElem
  · simp
  · intro i h1 h2
    simp [List.getElem?_append_left h2, List.getElem?_eq_getElem h2]

theorem readMat_ok {F : Type} (parse : Str → Option F) (ls : List Str) (rows : List (List F)) (rest : List Str) (w : Nat)
    (h : List.Forall₂ (RowSays parse) ls rows) (hw : ∀ r ∈ rows, r.length = w) :
    readMat parse (rows.length : Int) (ls ++ rest) = .ok (rows, rest) := by
  have hlen := h.length_eq
  have hl : ∀ l ∈ ls, (words l).length = w := by
    intro l hl
    obtain ⟨hlen, hall⟩ := List.forall₂_iff_get.1 h
    obtain ⟨i, hi, e⟩ := List.mem_iff_getElem.1 hl
    have h1 := hall i hi (by omega)
    have h2 := h1.length_eq
    simp only [List.get_eq_getElem, e] at h2
    rw [h2]
    exact hw _ (List.getElem_mem _)
  have hm : (ls.map words).mapM (fun r => r.mapM parse) = some rows := by
    clear hlen hl hw
    induction h with
    | nil => rfl
    | cons hl _ ih => rw [List.map_cons, List.mapM_cons, mapM_row parse _ _ hl, ih]; rfl
  simp only [readMat, Int.toNat_natCast]
  rw [← hlen, readLinesN_ok, hm, if_pos]
  · simp
  · rw [List.all_eq_true]
    intro r hr
    obtain ⟨l, hl1, rfl⟩ := List.mem_map.1 hr
    cases ls with
    | nil => simp at hl1
    | cons l2 ls =>
      rw [beq_iff_eq, hl l hl1, List.map_cons, List.headD_cons, hl l2 (by simp)]

/-! ### the parts of the file -/

/-- the dictionary after a part -/
def put {F : Type} (d : Data F) : Block F → Data F
  | .other _ => d
  | .op .x _ _ _ _ rows => { d with x := some rows }
  | .op .xdot _ _ _ _ rows => { d with xdot := some rows }
  | .op .u _ _ _ _ rows => { d with u := some rows }
  | .op .y _ _ _ _ rows => { d with y := some rows }
  | .mat .A _ _ rows => { d with A := some rows }
  | .mat .B _ _ rows => { d with B := some rows }
  | .mat .C _ _ rows => { d with C := some rows }
  | .mat .D _ _ rows => { d with D := some rows }
  | .mat .dUdu _ _ rows => { d with dUdu := some rows }
  | .mat .dUdy _ _ rows => { d with dUdy := some rows }
  | .mass _ names _ rows => { d with eddof := some names, M := some rows }

theorem readOP_ok {F : Type} (parse : Str → Option F) (n : Nat) (c d : Str) (ls : List Str) (rows : List (OpRow F))
    (rest : List Str) (h : List.Forall₂ (OpSays parse ("Derivative Order".toList <:+: strip c)) ls rows)
    (hn : rows.length = n) (hne : rows ≠ []) :
    readOP parse (n : Int) (c :: d :: ls ++ rest) = .ok (rows, rest) := by
  subst hn
  exact opRows_ok parse c ls rows rest h hne

theorem section_op {F : Type} (parse : Str → Option F) (nx nu ny : Nat) (d : Data F) (k : OpKind) (t c ds : Str)
    (ls : List Str) (rows : List (OpRow F)) (rest : List Str)
    (h : (Block.op k t c ds ls rows).Ok parse nx nu ny) :
    section_ parse ⟨nx, nu, ny⟩ d t (c :: ds :: ls ++ rest) = .ok (put d (.op k t c ds ls rows), rest) := by
  obtain ⟨ht, hr, hn, hne⟩ := h
  have hop := readOP_ok parse _ c ds ls rows rest hr hn hne
  simp only [section_, ht]
  cases k with
  | x =>
    rw [if_neg (by decide +kernel), if_pos (by decide +kernel)]
    show Except.map _ (readOP parse ((OpKind.size nx nu ny .x : Nat) : Int) _) = _
    rw [hop]; rfl
  | xdot =>
    rw [if_neg (by decide +kernel), if_neg (by decide +kernel), if_pos (by decide +kernel)]
    show Except.map _ (readOP parse ((OpKind.size nx nu ny .xdot : Nat) : Int) _) = _
    rw [hop]; rfl
  | u =>
    rw [if_neg (by decide +kernel), if_neg (by decide +kernel), if_neg (by decide +kernel), if_pos (by decide +kernel)]
    show Except.map _ (readOP parse ((OpKind.size nx nu ny .u : Nat) : Int) _) = _
    rw [hop]; rfl
  | y =>
    rw [if_neg (by decide +kernel), if_neg (by decide +kernel), if_neg (by decide +kernel), if_neg (by decide +kernel),
      if_pos (by decide +kernel)]
    show Except.map _ (readOP parse ((OpKind.size nx nu ny .y : Nat) : Int) _) = _
    rw [hop]; rfl

/-- a title starting with the key `a:` contains no `Order of …`, and `k:` only if `a` ends with `k` -/
theorem title_facts (a rest : Str) (ha : ':' ∉ a) (hr : ':' ∉ rest) (ho : ¬ "Order of".toList <:+: rest)
    (hoa : ¬ "Order of".toList <:+: a) :
    (∀ k : Str, "Order of".toList <:+: k → has k ((a ++ [':']) ++ rest) = false) ∧
    (∀ k : Str, ':' ∉ k → ¬ k <:+ a → has (k ++ [':']) ((a ++ [':']) ++ rest) = false) := by
  have e : (a ++ [':']) ++ rest = a ++ ':' :: rest := by simp
  rw [e]
  constructor
  · intro k hk
    apply has_false
    intro hi
    rcases infix_colon "Order of".toList a rest (by decide) (hk.trans hi) with h | h
    · exact hoa h
    · exact ho h
  · intro k hk hs
    apply has_false
    intro hi
    exact hs (suffix_colon k a rest hk ha hr hi)

theorem starts_key (a rest : Str) : has a (a ++ rest) = true := (has_iff _ _).2 (List.prefix_append _ _).isInfix

theorem not_suffix (k a : Str) (h : List.isSuffixOf k a = false) : ¬ k <:+ a := by
  intro hs
  rw [List.isSuffixOf_iff_suffix.2 hs] at h
  simp at h

/-- the keys of the matrices without their colon -/
def mkeys : List Str := ["A", "B", "C", "D", "dUdu", "dUdy", "ED M"].map String.toList

theorem not_infix (k a : Str) (h : has k a = false) : ¬ k <:+: a := by
  intro hs
  rw [(has_iff k a).2 hs] at h
  simp at h

theorem order_of (k line : Str) (h : has "Order of".toList k = true)
    (hf : ∀ k : Str, "Order of".toList <:+: k → has k line = false) : has k line = false :=
  hf k ((has_iff _ _).1 h)

theorem any_key (k line : Str) (hk : k ∈ keys) (h : has k line = true) : (!(keys.any (fun k => has k line))) = false := by
  rw [Bool.not_eq_false', List.any_eq_true]
  exact ⟨k, hk, h⟩

/-- the matrix of a kind becomes `m` -/
def setMat {F : Type} (d : Data F) : MatKind → List (List F) → Data F
  | .A, m => { d with A := some m }
  | .B, m => { d with B := some m }
  | .C, m => { d with C := some m }
  | .D, m => { d with D := some m }
  | .dUdu, m => { d with dUdu := some m }
  | .dUdy, m => { d with dUdy := some m }

theorem section_mat_eq {F : Type} (parse : Str → Option F) (nx nu ny : Nat) (d : Data F) (k : MatKind) (t r : Str)
    (rest : List Str) (h : TitleOf k.title t r) :
    section_ parse ⟨nx, nu, ny⟩ d t rest =
      (readMat parse ((k.size nx nu ny : Nat) : Int) rest).map (fun m => (setMat d k m.1, m.2)) := by
  obtain ⟨ht, hr, ho⟩ := h
  simp only [section_, ht]
  cases k with
  | A =>
    obtain ⟨f, g⟩ := title_facts "A".toList r (by decide) hr ho (not_infix _ _ (by decide +kernel))
    replace f : ∀ k : Str, "Order of".toList <:+: k → has k (MatKind.A.title ++ r) = false := f
    have hh : has "A:".toList (MatKind.A.title ++ r) = true := starts_key _ _
    rw [if_neg (by rw [any_key "A:".toList _ (by decide) hh]; simp)]
    rw [if_neg (by rw [order_of _ _ (by decide +kernel) f]; simp), if_neg (by rw [order_of _ _ (by decide +kernel) f]; simp),
      if_neg (by rw [order_of _ _ (by decide +kernel) f]; simp), if_neg (by rw [order_of _ _ (by decide +kernel) f]; simp)]
    rw [if_pos hh]
    rfl
  | B =>
    obtain ⟨f, g⟩ := title_facts "B".toList r (by decide) hr ho (not_infix _ _ (by decide +kernel))
    replace f : ∀ k : Str, "Order of".toList <:+: k → has k (MatKind.B.title ++ r) = false := f
    have hh : has "B:".toList (MatKind.B.title ++ r) = true := starts_key _ _
    rw [if_neg (by rw [any_key "B:".toList _ (by decide) hh]; simp)]
    rw [if_neg (by rw [order_of _ _ (by decide +kernel) f]; simp), if_neg (by rw [order_of _ _ (by decide +kernel) f]; simp),
      if_neg (by rw [order_of _ _ (by decide +kernel) f]; simp), if_neg (by rw [order_of _ _ (by decide +kernel) f]; simp)]
    have g1 : has "A:".toList (MatKind.B.title ++ r) = false := g "A".toList (by decide) (not_suffix _ _ (by decide))
    rw [if_neg (by rw [g1]; simp), if_pos hh]
    rfl
  | C =>
    obtain ⟨f, g⟩ := title_facts "C".toList r (by decide) hr ho (not_infix _ _ (by decide +kernel))
    replace f : ∀ k : Str, "Order of".toList <:+: k → has k (MatKind.C.title ++ r) = false := f
    have hh : has "C:".toList (MatKind.C.title ++ r) = true := starts_key _ _
    rw [if_neg (by rw [any_key "C:".toList _ (by decide) hh]; simp)]
    rw [if_neg (by rw [order_of _ _ (by decide +kernel) f]; simp), if_neg (by rw [order_of _ _ (by decide +kernel) f]; simp),
      if_neg (by rw [order_of _ _ (by decide +kernel) f]; simp), if_neg (by rw [order_of _ _ (by decide +kernel) f]; simp)]
    have g1 : has "A:".toList (MatKind.C.title ++ r) = false := g "A".toList (by decide) (not_suffix _ _ (by decide))
    have g2 : has "B:".toList (MatKind.C.title ++ r) = false := g "B".toList (by decide) (not_suffix _ _ (by decide))
    rw [if_neg (by rw [g1]; simp), if_neg (by rw [g2]; simp), if_pos hh]
    rfl
  | D =>
    obtain ⟨f, g⟩ := title_facts "D".toList r (by decide) hr ho (not_infix _ _ (by decide +kernel))
    replace f : ∀ k : Str, "Order of".toList <:+: k → has k (MatKind.D.title ++ r) = false := f
    have hh : has "D:".toList (MatKind.D.title ++ r) = true := starts_key _ _
    rw [if_neg (by rw [any_key "D:".toList _ (by decide) hh]; simp)]
    rw [if_neg (by rw [order_of _ _ (by decide +kernel) f]; simp), if_neg (by rw [order_of _ _ (by decide +kernel) f]; simp),
      if_neg (by rw [order_of _ _ (by decide +kernel) f]; simp), if_neg (by rw [order_of _ _ (by decide +kernel) f]; simp)]
    have g1 : has "A:".toList (MatKind.D.title ++ r) = false := g "A".toList (by decide) (not_suffix _ _ (by decide))
    have g2 : has "B:".toList (MatKind.D.title ++ r) = false := g "B".toList (by decide) (not_suffix _ _ (by decide))
    have g3 : has "C:".toList (MatKind.D.title ++ r) = false := g "C".toList (by decide) (not_suffix _ _ (by decide))
    rw [if_neg (by rw [g1]; simp), if_neg (by rw [g2]; simp), if_neg (by rw [g3]; simp), if_pos hh]
    rfl
  | dUdu =>
    obtain ⟨f, g⟩ := title_facts "dUdu".toList r (by decide) hr ho (not_infix _ _ (by decide +kernel))
    replace f : ∀ k : Str, "Order of".toList <:+: k → has k (MatKind.dUdu.title ++ r) = false := f
    have hh : has "dUdu:".toList (MatKind.dUdu.title ++ r) = true := starts_key _ _
    have hk : has "dUdu".toList (MatKind.dUdu.title ++ r) = true := starts_key "dUdu".toList (':' :: r)
    rw [if_neg (by rw [any_key "dUdu".toList _ (by decide) hk]; simp)]
    rw [if_neg (by rw [order_of _ _ (by decide +kernel) f]; simp), if_neg (by rw [order_of _ _ (by decide +kernel) f]; simp),
      if_neg (by rw [order_of _ _ (by decide +kernel) f]; simp), if_neg (by rw [order_of _ _ (by decide +kernel) f]; simp)]
    have g1 : has "A:".toList (MatKind.dUdu.title ++ r) = false := g "A".toList (by decide) (not_suffix _ _ (by decide))
    have g2 : has "B:".toList (MatKind.dUdu.title ++ r) = false := g "B".toList (by decide) (not_suffix _ _ (by decide))
    have g3 : has "C:".toList (MatKind.dUdu.title ++ r) = false := g "C".toList (by decide) (not_suffix _ _ (by decide))
    have g4 : has "D:".toList (MatKind.dUdu.title ++ r) = false := g "D".toList (by decide) (not_suffix _ _ (by decide))
    rw [if_neg (by rw [g1]; simp), if_neg (by rw [g2]; simp), if_neg (by rw [g3]; simp), if_neg (by rw [g4]; simp), if_pos hh]
    rfl
  | dUdy =>
    obtain ⟨f, g⟩ := title_facts "dUdy".toList r (by decide) hr ho (not_infix _ _ (by decide +kernel))
    replace f : ∀ k : Str, "Order of".toList <:+: k → has k (MatKind.dUdy.title ++ r) = false := f
    have hh : has "dUdy:".toList (MatKind.dUdy.title ++ r) = true := starts_key _ _
    have hk : has "dUdy".toList (MatKind.dUdy.title ++ r) = true := starts_key "dUdy".toList (':' :: r)
    rw [if_neg (by rw [any_key "dUdy".toList _ (by decide) hk]; simp)]
    rw [if_neg (by rw [order_of _ _ (by decide +kernel) f]; simp), if_neg (by rw [order_of _ _ (by decide +kernel) f]; simp),
      if_neg (by rw [order_of _ _ (by decide +kernel) f]; simp), if_neg (by rw [order_of _ _ (by decide +kernel) f]; simp)]
    have g1 : has "A:".toList (MatKind.dUdy.title ++ r) = false := g "A".toList (by decide) (not_suffix _ _ (by decide))
    have g2 : has "B:".toList (MatKind.dUdy.title ++ r) = false := g "B".toList (by decide) (not_suffix _ _ (by decide))
    have g3 : has "C:".toList (MatKind.dUdy.title ++ r) = false := g "C".toList (by decide) (not_suffix _ _ (by decide))
    have g4 : has "D:".toList (MatKind.dUdy.title ++ r) = false := g "D".toList (by decide) (not_suffix _ _ (by decide))
    have g5 : has "dUdu:".toList (MatKind.dUdy.title ++ r) = false := g "dUdu".toList (by decide) (not_suffix _ _ (by decide))
    rw [if_neg (by rw [g1]; simp), if_neg (by rw [g2]; simp), if_neg (by rw [g3]; simp), if_neg (by rw [g4]; simp),
      if_neg (by rw [g5]; simp), if_pos hh]
    rfl

theorem section_mat {F : Type} (parse : Str → Option F) (nx nu ny : Nat) (d : Data F) (k : MatKind) (t : Str)
    (ls : List Str) (rows : List (List F)) (rest : List Str) (h : (Block.mat k t ls rows).Ok parse nx nu ny) :
    section_ parse ⟨nx, nu, ny⟩ d t (ls ++ rest) = .ok (put d (.mat k t ls rows), rest) := by
  obtain ⟨⟨r, ht⟩, hrows, hn, w, hw⟩ := h
  rw [section_mat_eq parse nx nu ny d k t r _ ht, ← hn, readMat_ok parse ls rows rest w hrows hw]
  cases k <;> rfl

/-- a matrix whose last rows are missing -/
theorem readMat_short {F : Type} (parse : Str → Option F) (n : Nat) (l : Str) (ls : List Str) (hl : words l ≠ [])
    (hn : ls.length + 1 < n) : readMat parse (n : Int) (l :: ls) = .error .value := by
  unfold readMat
  extract_lets vals
  have hhead : vals.headD [] = words l := by
    obtain ⟨m, rfl⟩ : ∃ m, n = m + 1 := ⟨n - 1, by omega⟩
    simp only [vals, readLinesN, Int.toNat_natCast, List.range_succ_eq_map]
    rfl
  have hmem : ([] : List Str) ∈ vals := by
    simp only [vals, readLinesN, Int.toNat_natCast, List.mem_map, List.mem_range]
    exact ⟨[], ⟨ls.length + 1, hn, by simp⟩, rfl⟩
  rw [if_neg]
  intro hall
  rw [List.all_eq_true] at hall
  have := hall _ hmem
  rw [hhead] at this
  have h0 : (words l).length = 0 := by simpa using (beq_iff_eq.1 this).symm
  exact hl (List.length_eq_zero_iff.1 h0)

theorem readToMarker_long (marker : Str) (nMax i : Nat) (last : Option Str) (pre : List Str) (m : Str) (rest : List Str)
    (hpre : ∀ l ∈ pre, ¬ marker <:+: l) (hn : nMax + 1 ≤ i + pre.length) :
    readToMarker marker nMax i last (pre ++ m :: rest) = .error .broken := by
  induction pre generalizing i last with
  | nil => rw [List.nil_append, readToMarker, if_pos (by simp at hn; omega)]
  | cons l pre ih =>
    rw [List.cons_append, readToMarker]
    split
    · rfl
    · rw [has_false _ _ (hpre l (by simp)), ih (i + 1) (some l) (fun l hl => hpre l (by simp [hl])) (by simp at hn; omega)]
      rfl

theorem readToMarker_end (marker : Str) (nMax i : Nat) (last : Option Str) (pre : List Str) (m : Str)
    (hpre : ∀ l ∈ pre, ¬ marker <:+: l) (hm : ¬ marker <:+: m) (hn : i + pre.length ≤ nMax) :
    readToMarker marker nMax i last (pre ++ [m]) = .ok (pre.map strip ++ [strip m], m, []) := by
  induction pre generalizing i last with
  | nil =>
    rw [List.nil_append, readToMarker, if_neg (by simp at hn; omega), has_false _ _ hm]
    rfl
  | cons l pre ih =>
    rw [List.cons_append, readToMarker, if_neg (by simp at hn; omega), has_false _ _ (hpre l (by simp)),
      ih (i + 1) (some l) (fun l hl => hpre l (by simp [hl])) (by simp at hn; omega)]
    rfl

theorem extractVal_none (hs : List Str) (key : Str) (h : ∀ l ∈ hs, ¬ key <:+: l) : extractVal hs key = .ok none := by
  induction hs with
  | nil => rfl
  | cons l hs ih =>
    rw [extractVal, has_false _ _ (h l (by simp)), if_neg (by simp), ih (fun l hl => h l (by simp [hl]))]

theorem section_mass {F : Type} (parse : Str → Option F) (nx nu ny : Nat) (d : Data F) (t : Str) (names : List Str)
    (ls : List Str) (rows : List (List F)) (rest : List Str) (h : (Block.mass t names ls rows).Ok parse nx nu ny) :
    section_ parse ⟨nx, nu, ny⟩ d t (ls ++ rest) = .ok (put d (.mass t names ls rows), rest) := by
  obtain ⟨⟨r, ⟨ht, hr, ho⟩, hnames⟩, hrows, hn, w, hw⟩ := h
  have hmat : readMat parse 24 (ls ++ rest) = .ok (rows, rest) := by
    have := readMat_ok parse ls rows rest w hrows hw
    rw [hn] at this; exact this
  simp only [section_, ht]
  obtain ⟨f, g⟩ := title_facts "ED M".toList r (by decide) hr ho (not_infix _ _ (by decide +kernel))
  replace f : ∀ k : Str, "Order of".toList <:+: k → has k ("ED M:".toList ++ r) = false := f
  have hh : has "ED M:".toList ("ED M:".toList ++ r) = true := starts_key _ _
  rw [if_neg (by rw [any_key "ED M:".toList _ (by decide) hh]; simp)]
  rw [if_neg (by rw [order_of _ _ (by decide +kernel) f]; simp), if_neg (by rw [order_of _ _ (by decide +kernel) f]; simp),
    if_neg (by rw [order_of _ _ (by decide +kernel) f]; simp), if_neg (by rw [order_of _ _ (by decide +kernel) f]; simp)]
  have g1 : has "A:".toList ("ED M:".toList ++ r) = false := g "A".toList (by decide) (not_suffix _ _ (by decide))
  have g2 : has "B:".toList ("ED M:".toList ++ r) = false := g "B".toList (by decide) (not_suffix _ _ (by decide))
  have g3 : has "C:".toList ("ED M:".toList ++ r) = false := g "C".toList (by decide) (not_suffix _ _ (by decide))
  have g4 : has "D:".toList ("ED M:".toList ++ r) = false := g "D".toList (by decide) (not_suffix _ _ (by decide))
  have g5 : has "dUdu:".toList ("ED M:".toList ++ r) = false := g "dUdu".toList (by decide) (not_suffix _ _ (by decide))
  have g6 : has "dUdy:".toList ("ED M:".toList ++ r) = false := g "dUdy".toList (by decide) (not_suffix _ _ (by decide))
  rw [if_neg (by rw [g1]; simp), if_neg (by rw [g2]; simp), if_neg (by rw [g3]; simp), if_neg (by rw [g4]; simp),
    if_neg (by rw [g5]; simp), if_neg (by rw [g6]; simp), if_pos hh, hmat]
  have hd : ("ED M:".toList ++ r).drop 5 = r := rfl
  rw [hd, hnames]
  rfl

theorem section_other {F : Type} (parse : Str → Option F) (z : Sizes) (d : Data F) (l : Str) (rest : List Str)
    (h : ∀ k ∈ starts, ¬ k <:+: strip l) : section_ parse z d l rest = .ok (d, rest) := by
  have hf : ∀ k ∈ starts, has k (strip l) = false := fun k hk => has_false _ _ (h k hk)
  unfold section_
  extract_lets line
  rw [show strip l = line from rfl] at hf
  by_cases hk : (!(keys.any (fun k => has k line))) = true
  · rw [if_pos hk]
  · rw [if_neg hk, if_neg (by rw [hf _ (by decide)]; simp), if_neg (by rw [hf _ (by decide)]; simp), if_neg (by rw [hf _ (by decide)]; simp),
      if_neg (by rw [hf _ (by decide)]; simp), if_neg (by rw [hf _ (by decide)]; simp), if_neg (by rw [hf _ (by decide)]; simp),
      if_neg (by rw [hf _ (by decide)]; simp), if_neg (by rw [hf _ (by decide)]; simp), if_neg (by rw [hf _ (by decide)]; simp),
      if_neg (by rw [hf _ (by decide)]; simp), if_neg (by rw [hf _ (by decide)]; simp)]

theorem loop_block {F : Type} (parse : Str → Option F) (nx nu ny : Nat) (fuel : Nat) (d : Data F) (b : Block F) (rest : List Str)
    (h : b.Ok parse nx nu ny) :
    loop parse ⟨nx, nu, ny⟩ (fuel + 1) d (b.lines ++ rest) = loop parse ⟨nx, nu, ny⟩ fuel (put d b) rest := by
  cases b with
  | other l =>
    show loop parse _ (fuel + 1) d (l :: rest) = _
    rw [loop, section_other parse _ d l rest h]
    rfl
  | op k t c ds ls rows =>
    show loop parse _ (fuel + 1) d (t :: (c :: ds :: ls ++ rest)) = _
    rw [loop, section_op parse nx nu ny d k t c ds ls rows rest h]
  | mat k t ls rows =>
    show loop parse _ (fuel + 1) d (t :: (ls ++ rest)) = _
    rw [loop, section_mat parse nx nu ny d k t ls rows rest h]
  | mass t names ls rows =>
    show loop parse _ (fuel + 1) d (t :: (ls ++ rest)) = _
    rw [loop, section_mass parse nx nu ny d t names ls rows rest h]

theorem lines_pos {F : Type} (b : Block F) : 1 ≤ b.lines.length := by
  cases b <;> simp [Block.lines]

theorem loop_blocks {F : Type} (parse : Str → Option F) (nx nu ny : Nat) (fuel : Nat) (d : Data F) (bs : List (Block F))
    (tail : List Str) (h : ∀ b ∈ bs, b.Ok parse nx nu ny) (hf : (bs.flatMap Block.lines).length + tail.length ≤ fuel) :
    ∃ fuel', tail.length ≤ fuel' ∧
      loop parse ⟨nx, nu, ny⟩ fuel d (bs.flatMap Block.lines ++ tail) = loop parse ⟨nx, nu, ny⟩ fuel' (bs.foldl put d) tail := by
  induction bs generalizing d fuel with
  | nil => exact ⟨fuel, by simpa using hf, rfl⟩
  | cons b bs ih =>
    have hb := lines_pos b
    rw [List.flatMap_cons, List.length_append] at hf
    obtain ⟨fuel, rfl⟩ : ∃ k, fuel = k + 1 := ⟨fuel - 1, by omega⟩
    obtain ⟨f', h1, h2⟩ := ih fuel (put d b) (fun b hb => h b (by simp [hb])) (by omega)
    refine ⟨f', h1, ?_⟩
    rw [List.flatMap_cons, List.append_assoc, loop_block parse nx nu ny fuel d b _ (h b (by simp)), h2]
    rfl

theorem getLast_or {α β : Type} (f : β → Option α) (b : β) (bs : List β) :
    ((b :: bs).filterMap f).getLast? = ((bs.filterMap f).getLast?).or (f b) := by
  rw [List.filterMap_cons]
  cases f b with
  | none => simp
  | some a =>
    simp only
    cases hl : bs.filterMap f with
    | nil => rfl
    | cons x xs => rw [List.getLast?_cons_cons]; simp [List.getLast?_eq_some_getLast]

/-- the fields after all parts -/
theorem foldl_put {F : Type} (bs : List (Block F)) (d : Data F) :
    bs.foldl put d =
      { header := d.header, azimuth := d.azimuth, rotSpeed := d.rotSpeed, windSpeed := d.windSpeed,
        x := (lastOp .x bs).or d.x, xdot := (lastOp .xdot bs).or d.xdot, u := (lastOp .u bs).or d.u,
        y := (lastOp .y bs).or d.y, A := (lastMat .A bs).or d.A, B := (lastMat .B bs).or d.B,
        C := (lastMat .C bs).or d.C, D := (lastMat .D bs).or d.D, dUdu := (lastMat .dUdu bs).or d.dUdu,
        dUdy := (lastMat .dUdy bs).or d.dUdy, eddof := ((lastMass bs).map (·.1)).or d.eddof,
        M := ((lastMass bs).map (·.2)).or d.M } := by
  induction bs generalizing d with
  | nil => rfl
  | cons b bs ih =>
    rw [List.foldl_cons, ih]
    unfold lastOp lastMat lastMass
    simp only [getLast_or]
    cases b with
    | other l => simp [put]
    | op k t c ds ls rows => cases k <;> simp [put]
    | mat k t ls rows => cases k <;> simp [put]
    | mass t names ls rows =>
      simp only [put, Option.or_none]
      cases (bs.filterMap fun b => match b with
        | .mass _ names _ rows => some (names, rows)
        | _ => none).getLast? <;> rfl

theorem key_cons (key : Str) (h : key.head?.map isWs = some false) : ∃ c t, key = c :: t ∧ isWs c = false := by
  cases key with
  | nil => simp at h
  | cons c t => exact ⟨c, t, rfl, by simpa using h⟩

theorem count_of (hs : List Str) (key : Str) (h0 : key.head?.map isWs = some false) (n : Nat)
    (h : Field hs key (some (Nat.toDigits 10 n))) : count hs key = .ok (n : Int) := by
  obtain ⟨c, t, h1, h2⟩ := key_cons key h0
  exact count_ok hs key c t h1 h2 n h

theorem optFloat_of {F : Type} (parse : Str → Option F) (hs : List Str) (key : Str) (h0 : key.head?.map isWs = some false)
    (w : Option Str) (h : Field hs key w) : optFloat parse hs key = w.bind parse := by
  obtain ⟨c, t, h1, h2⟩ := key_cons key h0
  exact optFloat_ok parse hs key c t h1 h2 w h

theorem extractVal_of (hs : List Str) (key : Str) (h0 : key.head?.map isWs = some false)
    (w : Option Str) (h : Field hs key w) : extractVal hs key = .ok w := by
  obtain ⟨c, t, h1, h2⟩ := key_cons key h0
  exact extractVal_field hs key c t h1 h2 w h

theorem read_header {F : Type} (parse : Str → Option F) (lines p : List Str) (l : Str) (rest : List Str) (nx nu ny : Nat)
    (az rot wind : Option Str)
    (hm : readToMarker "Jacobians included".toList 30 0 none lines = .ok (p, l, rest))
    (h : Header (p ++ [l]) nx nu ny az rot wind) :
    read parse lines = loop parse ⟨nx, nu, ny⟩ rest.length
      { header := p ++ [l], azimuth := az.bind parse, rotSpeed := rot.bind parse, windSpeed := wind.bind parse } rest := by
  obtain ⟨hx, ⟨nd, hd⟩, ⟨nc, hc⟩, hu, hy, ⟨w, hj⟩, haz, hrot, hwind⟩ := h
  unfold read
  rw [hm]
  simp only
  rw [count_of _ _ (by decide +kernel) nx hx, count_of _ _ (by decide +kernel) nd hd, count_of _ _ (by decide +kernel) nc hc,
    count_of _ _ (by decide +kernel) nu hu, count_of _ _ (by decide +kernel) ny hy,
    extractVal_of _ _ (by decide +kernel) _ hj,
    optFloat_of parse _ _ (by decide +kernel) _ haz, optFloat_of parse _ _ (by decide +kernel) _ hrot,
    optFloat_of parse _ _ (by decide +kernel) _ hwind]

theorem strip_infix (s : Str) : strip s <:+: s := by
  have h1 : strip s <+: lstripBy isWs s := by
    have := List.dropWhile_suffix (l := (lstripBy isWs s).reverse) isWs
    have h := List.reverse_prefix.2 this
    rwa [List.reverse_reverse] at h
  exact h1.isInfix.trans (List.dropWhile_suffix (l := s) isWs).isInfix

theorem count_none (hs : List Str) (key : Str) (h : ∀ l ∈ hs, ¬ key <:+: l) : count hs key = .error .type := by
  unfold count
  rw [extractVal_none hs key h]
  rfl

/-- without one of the numbers, an error -/
theorem read_missing {F : Type} (parse : Str → Option F) (lines p : List Str) (l : Str) (rest : List Str) (key : Str)
    (hkey : key ∈ (["Number of continuous states:", "Number of discrete states:", "Number of constraint states:",
      "Number of inputs:", "Number of outputs:"].map String.toList : List Str))
    (hm : readToMarker "Jacobians included".toList 30 0 none lines = .ok (p, l, rest))
    (h : ∀ l' ∈ p ++ [l], ¬ key <:+: l') : ∃ e, read parse lines = .error e := by
  have hn := count_none _ _ h
  unfold read
  rw [hm]
  simp only
  simp only [List.map_cons, List.map_nil, List.mem_cons, List.not_mem_nil, or_false] at hkey
  rcases hkey with rfl | rfl | rfl | rfl | rfl
  · rw [hn]; exact ⟨_, rfl⟩
  · rw [hn]
    cases count (p ++ [l]) "Number of continuous states:".toList <;> exact ⟨_, rfl⟩
  · rw [hn]
    cases count (p ++ [l]) "Number of continuous states:".toList
    · exact ⟨_, rfl⟩
    cases count (p ++ [l]) "Number of discrete states:".toList <;> exact ⟨_, rfl⟩
  · rw [hn]
    cases count (p ++ [l]) "Number of continuous states:".toList
    · exact ⟨_, rfl⟩
    cases count (p ++ [l]) "Number of discrete states:".toList
    · exact ⟨_, rfl⟩
    cases count (p ++ [l]) "Number of constraint states:".toList <;> exact ⟨_, rfl⟩
  · rw [hn]
    cases count (p ++ [l]) "Number of continuous states:".toList
    · exact ⟨_, rfl⟩
    cases count (p ++ [l]) "Number of discrete states:".toList
    · exact ⟨_, rfl⟩
    cases count (p ++ [l]) "Number of constraint states:".toList
    · exact ⟨_, rfl⟩
    cases count (p ++ [l]) "Number of inputs:".toList <;> exact ⟨_, rfl⟩

end Verif.Lin
