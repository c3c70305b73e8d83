import Verif.Spec.FlexDoc
import Verif.Lemmas.Hs2
import Verif.Lemmas.FastHand
/-!
# Lemmas on a FLEX documentation file
-/
namespace Verif.FlexDoc
open Verif.Py Verif.TurbSimTS Verif.Hs2

/-- different places -/
def Apart {F : Type} (a b : Str × Option Str × Val F) : Prop := a.1 ≠ b.1 ∨ ∃ s t, a.2.1 = some s ∧ b.2.1 = some t ∧ s ≠ t

theorem look_find (k : Str) (d : List (Str × α)) : look k d = (d.find? fun p => p.1 = k).map Prod.snd := by
  induction d with
  | nil => rfl
  | cons p d ih =>
    obtain ⟨a, b⟩ := p
    rw [look, List.find?_cons]
    by_cases h : a = k
    · simp [h]
    · simp [h, ih]

theorem get_none {F : Type} (d : Doc F) (k : Str) : get d k none = (look k d).bind fun e => match e with | .one v => some v | .group _ => none := by
  rw [get, look_find]
  cases d.find? fun p => p.1 = k <;> rfl

theorem get_some {F : Type} (d : Doc F) (k s : Str) : get d k (some s) = (look k d).bind fun e => match e with | .one _ => none | .group g => look s g := by
  rw [get, look_find]
  cases d.find? fun p => p.1 = k with
  | none => rfl
  | some p =>
    simp only [Option.bind_some, Option.map_some]
    cases p.2 with
    | one v => rfl
    | group g => simp only [look_find]

theorem look_store (k k' : Str) (v : α) (d : List (Str × α)) : look k' (store k v d) = if k' = k then some v else look k' d := by
  induction d with
  | nil =>
    by_cases h : k' = k
    · simp [store, look, h]
    · simp [store, look, h, Ne.symm h]
  | cons p d ih =>
    obtain ⟨a, b⟩ := p
    rw [store]
    by_cases ha : a = k
    · subst ha
      rw [if_pos rfl, look, look]
      by_cases h : k' = a
      · simp [h]
      · simp [h, Ne.symm h]
    · rw [if_neg ha, look, look, ih]
      by_cases h : a = k'
      · subst h; simp [ha]
      · simp [h]

/-- `put` of one part -/
def put {F : Type} (d : Doc F) (u : Str × Option Str × Val F) : Except Err (Doc F) :=
  match u.2.1 with
  | none => setOne d u.1 u.2.2
  | some s => setSub d u.1 s u.2.2

/-- the value of a place after the adjustments -/
def fin {F : Type} (u : Str × Option Str × Val F) : Val F :=
  if u.1 = "Global".toList ∧ u.2.1 = some "Mode1_Shape".toList then adjustVal u.2.2 else u.2.2

/-- the object holds these values and no others -/
structure Inv {F : Type} (d : Doc F) (us : List (Str × Option Str × Val F)) : Prop where
  one : ∀ k v, look k d = some (.one v) → ∃ u ∈ us, u.1 = k ∧ u.2.1 = none
  grp : ∀ k g, look k d = some (.group g) → (∃ u ∈ us, u.1 = k ∧ u.2.1 ≠ none) ∧ ∀ s v, look s g = some v → ∃ u ∈ us, u.1 = k ∧ u.2.1 = some s
  val : ∀ u ∈ us, get d u.1 u.2.1 = some u.2.2 ∨ get d u.1 u.2.1 = some (fin u)

theorem inv_nil {F : Type} : Inv ([] : Doc F) [] := ⟨(by intro k v h; cases h), (by intro k g h; cases h), (by intro u h; cases h)⟩

theorem put_inv {F : Type} (d : Doc F) (us : List (Str × Option Str × Val F)) (h : Inv d us) (u : Str × Option Str × Val F) (hu : ∀ a ∈ us, Apart a u) :
    ∃ d', put d u = .ok d' ∧ Inv d' (us ++ [u]) := by
  obtain ⟨k, sub, v⟩ := u
  cases sub with
  | none =>
    have hn : look k d = none := by
      cases hl : look k d with
      | none => rfl
      | some e =>
        exfalso
        cases e with
        | one w =>
          obtain ⟨a, ha, hk, _⟩ := h.one k w hl
          rcases hu a ha with h1 | ⟨s, t, _, h2, _⟩
          · exact h1 hk
          · cases h2
        | group g =>
          obtain ⟨⟨a, ha, hk, _⟩, _⟩ := h.grp k g hl
          rcases hu a ha with h1 | ⟨s, t, _, h2, _⟩
          · exact h1 hk
          · cases h2
    refine ⟨store k (.one v) d, by simp [put, setOne, hn], ?_, ?_, ?_⟩
    · intro k' v' hl
      rw [look_store] at hl
      by_cases hk : k' = k
      · exact ⟨(k, none, v), by simp, hk.symm, rfl⟩
      · rw [if_neg hk] at hl
        obtain ⟨a, ha, h1⟩ := h.one k' v' hl
        exact ⟨a, by simp [ha], h1⟩
    · intro k' g hl
      rw [look_store] at hl
      by_cases hk : k' = k
      · rw [if_pos hk] at hl; cases hl
      · rw [if_neg hk] at hl
        obtain ⟨⟨a, ha, h1⟩, h2⟩ := h.grp k' g hl
        exact ⟨⟨a, by simp [ha], h1⟩, fun s w hs => by obtain ⟨b, hb, h3⟩ := h2 s w hs; exact ⟨b, by simp [hb], h3⟩⟩
    · intro a ha
      rcases List.mem_append.1 ha with ha | ha
      · have hk : a.1 ≠ k := by
          rcases hu a ha with h1 | ⟨s, t, _, h2, _⟩
          · exact h1
          · cases h2
        have := h.val a ha
        obtain ⟨ak, as, av⟩ := a
        cases as <;> simp only [get_none, get_some, look_store, if_neg hk] at this ⊢ <;> exact this
      · rw [List.mem_singleton.1 ha]
        left
        simp [get_none, look_store]
  | some s =>
    have hget : ∀ g, (look k d = none ∧ g = []) ∨ look k d = some (.group g) → Inv (store k (.group (store s v g)) d) (us ++ [(k, some s, v)]) := by
      intro g hg
      refine ⟨?_, ?_, ?_⟩
      · intro k' v' hl
        rw [look_store] at hl
        by_cases hk : k' = k
        · rw [if_pos hk] at hl; cases hl
        · rw [if_neg hk] at hl
          obtain ⟨a, ha, h1⟩ := h.one k' v' hl
          exact ⟨a, by simp [ha], h1⟩
      · intro k' g' hl
        rw [look_store] at hl
        by_cases hk : k' = k
        · subst hk
          rw [if_pos rfl] at hl
          obtain rfl : store s v g = g' := by
            have := Option.some.inj hl
            exact Entry.group.inj this
          refine ⟨⟨(k', some s, v), by simp, rfl, by simp⟩, fun s' w hs => ?_⟩
          rw [look_store] at hs
          by_cases e : s' = s
          · subst e; exact ⟨(k', some s', v), by simp, rfl, rfl⟩
          · rw [if_neg e] at hs
            rcases hg with ⟨_, rfl⟩ | hg
            · cases hs
            · obtain ⟨b, hb, h3⟩ := (h.grp k' g hg).2 s' w hs
              exact ⟨b, by simp [hb], h3⟩
        · rw [if_neg hk] at hl
          obtain ⟨⟨a, ha, h1⟩, h2⟩ := h.grp k' g' hl
          exact ⟨⟨a, by simp [ha], h1⟩, fun s' w hs => by obtain ⟨b, hb, h3⟩ := h2 s' w hs; exact ⟨b, by simp [hb], h3⟩⟩
      · intro a ha
        rcases List.mem_append.1 ha with ha | ha
        · have hv := h.val a ha
          have hap := hu a ha
          obtain ⟨ak, as, av⟩ := a
          by_cases hk : ak = k
          · subst hk
            rcases hap with h1 | ⟨s1, t1, e1, e2, hne⟩
            · exact absurd rfl h1
            · simp only at e1 e2
              subst e1
              obtain rfl := Option.some.inj e2
              rcases hg with ⟨hg, rfl⟩ | hg
              · simp only [get_some, hg] at hv
                simp at hv
              · simp only [get_some, hg, look_store, Option.bind_some, if_true, if_neg hne] at hv ⊢
                exact hv
          · cases as <;> simp only [get_none, get_some, look_store, if_neg hk] at hv ⊢ <;> exact hv
        · rw [List.mem_singleton.1 ha]
          left
          simp [get_some, look_store]
    cases hl : look k d with
    | none => exact ⟨_, by simp only [put, setSub, hl]; rfl, hget [] (.inl ⟨hl, rfl⟩)⟩
    | some e =>
      cases e with
      | one w =>
        exfalso
        obtain ⟨a, ha, hk, hs⟩ := h.one k w hl
        rcases hu a ha with h1 | ⟨s, t, h2, _, _⟩
        · exact h1 hk
        · rw [hs] at h2; cases h2
      | group g => exact ⟨_, by simp only [put, setSub, hl], hget g (.inr hl)⟩

theorem adjustVal_twice {F : Type} (v : Val F) : adjustVal (adjustVal v) = adjustVal v := by
  cases v with
  | frame cols rows =>
    by_cases h : "C0".toList ∈ cols ∧ (cols.filter (· ≠ "C0".toList)).length = 3
    · simp only [adjustVal, if_pos h]
      rw [if_neg]
      decide
    · have e : adjustVal (Val.frame cols rows) = .frame cols rows := by rw [adjustVal, if_neg h]
      rw [e, e]
  | _ => rfl

theorem adjust_inv {F : Type} (d : Doc F) (us : List (Str × Option Str × Val F)) (h : Inv d us) :
    Inv (adjust d) us ∧ ∀ u ∈ us, get (adjust d) u.1 u.2.1 = some (fin u) := by
  have same : adjust d = d → (∀ v, get d "Global".toList (some "Mode1_Shape".toList) = some v → False) →
      Inv (adjust d) us ∧ ∀ u ∈ us, get (adjust d) u.1 u.2.1 = some (fin u) := by
    intro e hno
    rw [e]
    refine ⟨h, fun u hu => ?_⟩
    rcases h.val u hu with hv | hv
    · rw [hv, fin, if_neg]
      rintro ⟨e1, e2⟩
      rw [e1, e2] at hv
      exact hno _ hv
    · exact hv
  cases hl : look "Global".toList d with
  | none => exact same (by rw [adjust, hl]) (by intro v hv; rw [get_some, hl] at hv; cases hv)
  | some e =>
    cases e with
    | one w => exact same (by rw [adjust, hl]) (by intro v hv; rw [get_some, hl] at hv; cases hv)
    | group g =>
      cases hm : look "Mode1_Shape".toList g with
      | none => exact same (by rw [adjust, hl]; simp only [hm]) (by intro v hv; rw [get_some, hl] at hv; simp only [Option.bind_some, hm] at hv; cases hv)
      | some w =>
        have e : adjust d = store "Global".toList (.group (store "Mode1_Shape".toList (adjustVal w) g)) d := by rw [adjust, hl]; simp only [hm]
        have hval : ∀ u ∈ us, get (adjust d) u.1 u.2.1 = some (fin u) := by
          intro u hu
          have hv := h.val u hu
          obtain ⟨k, s, v⟩ := u
          rw [e]
          by_cases hk : k = "Global".toList
          · subst hk
            cases s with
            | none => simp only [get_none, hl] at hv; simp at hv
            | some s =>
              simp only [get_some, hl, Option.bind_some] at hv
              simp only [get_some, look_store, if_true, Option.bind_some]
              by_cases hs : s = "Mode1_Shape".toList
              · subst hs
                rw [if_pos rfl]
                rw [hm] at hv
                have hf : fin ("Global".toList, some "Mode1_Shape".toList, v) = adjustVal v := by simp [fin]
                rw [hf] at hv ⊢
                rcases hv with hv | hv
                · rw [Option.some.inj hv]
                · rw [Option.some.inj hv, adjustVal_twice]
              · rw [if_neg hs]
                have hf : fin ("Global".toList, some s, v) = v := by
                  rw [fin, if_neg]
                  rintro ⟨_, h2⟩
                  exact hs (Option.some.inj h2)
                rw [hf] at hv ⊢
                rcases hv with hv | hv <;> exact hv
          · have hf : fin (k, s, v) = v := by
              rw [fin, if_neg]
              rintro ⟨h1, _⟩
              exact hk h1
            rw [hf] at hv ⊢
            cases s <;> simp only [get_none, get_some, look_store, if_neg hk] at hv ⊢ <;> rcases hv with hv | hv <;> exact hv
        refine ⟨⟨?_, ?_, fun u hu => .inr (hval u hu)⟩, hval⟩
        · intro k v hk
          rw [e, look_store] at hk
          by_cases hg : k = "Global".toList
          · rw [if_pos hg] at hk; cases hk
          · rw [if_neg hg] at hk; exact h.one k v hk
        · intro k g' hk
          rw [e, look_store] at hk
          by_cases hg : k = "Global".toList
          · rw [if_pos hg] at hk
            obtain rfl : store "Mode1_Shape".toList (adjustVal w) g = g' := Entry.group.inj (Option.some.inj hk)
            subst hg
            have := h.grp _ g hl
            refine ⟨this.1, fun s v hs => ?_⟩
            rw [look_store] at hs
            by_cases hs' : s = "Mode1_Shape".toList
            · subst hs'; exact this.2 _ w hm
            · rw [if_neg hs'] at hs; exact this.2 s v hs
          · rw [if_neg hg] at hk; exact h.grp k g' hk

/-! numbers in a text -/

theorem takeWhile_digits (d r : Str) (hd : Digits d) (hr : ∀ c, r.head? = some c → c.isDigit = false) :
    (d ++ r).takeWhile Char.isDigit = d ∧ (d ++ r).dropWhile Char.isDigit = r := by
  induction d with
  | nil =>
    cases r with
    | nil => exact ⟨rfl, rfl⟩
    | cons c r => have := hr c rfl; simp [this]
  | cons x d ih =>
    have hx := hd x (by simp)
    have := ih (fun c hc => hd c (by simp [hc]))
    simp [hx, this.1, this.2]

theorem sign_of (s r : Str) (hs : IsSign s) (hr : s = [] → ∀ c, r.head? = some c → c ≠ '+' ∧ c ≠ '-') : sign (s ++ r) = (s, r) := by
  rcases hs with rfl | rfl | rfl
  · cases r with
    | nil => rfl
    | cons c r =>
      have := hr rfl c rfl
      simp [sign, this.1, this.2]
  · simp [sign]
  · simp [sign]

theorem mantissa_of (m r : Str) (hm : IsMant m) (hr : ∀ c, r.head? = some c → c.isDigit = false ∧ c ≠ '.') : mantissa (m ++ r) = some (m, r) := by
  have hrd := fun c hc => (hr c hc).1
  rcases hm with ⟨a, b, rfl, ha, hb, hne⟩ | ⟨hne, hm⟩ | ⟨a, rfl, ha, hne⟩
  · have h1 := takeWhile_digits a ('.' :: (b ++ r)) ha (by intro c hc; simp at hc; subst hc; rfl)
    have h2 := takeWhile_digits b r hb hrd
    rw [List.append_assoc, List.cons_append, mantissa]
    simp only [h1.1, h1.2, h2.1, h2.2, if_pos hne]
  · have h1 := takeWhile_digits m r hm hrd
    unfold mantissa
    simp only [h1.1, h1.2]
    cases r with
    | nil => simp [hne]
    | cons c r =>
      have hc := (hr c rfl).2
      split
      · rename_i e; exact absurd (List.cons.inj e).1 hc
      · simp [hne]
  · have h1 := takeWhile_digits a ('.' :: r) ha (by intro c hc; simp at hc; subst hc; rfl)
    have h2 := takeWhile_digits [] r (by intro c hc; cases hc) hrd
    rw [List.nil_append] at h2
    rw [List.append_assoc, List.cons_append, List.nil_append, mantissa]
    simp only [h1.1, h1.2, h2.1, if_pos hne]
    simp

theorem exponent_of (e r : Str) (he : IsExp e) (hr : ∀ c, r.head? = some c → c = ' ') : exponent (e ++ r) = (e, r) := by
  have hrd : ∀ c, r.head? = some c → c.isDigit = false := by intro c hc; rw [hr c hc]; rfl
  rcases he with rfl | ⟨c, s, d, rfl, hc, hs, hd, hne⟩
  · cases r with
    | nil => rfl
    | cons c r =>
      have := hr c rfl
      subst this
      simp [exponent]
  · have h0 : sign (s ++ (d ++ r)) = (s, d ++ r) := by
      refine sign_of s (d ++ r) hs ?_
      intro _ x hx
      cases d with
      | nil => exact absurd rfl hne
      | cons y d =>
        simp at hx
        subst hx
        have := hd y (by simp)
        constructor <;> rintro rfl <;> exact absurd this (by decide)
    have h1 := takeWhile_digits d r hd hrd
    rw [List.cons_append, List.append_assoc, exponent, if_pos hc]
    simp only [h0, h1.1, h1.2, if_pos hne, List.cons_append]

theorem mant_head (m : Str) (hm : IsMant m) : ∃ c t, m = c :: t ∧ (c.isDigit = true ∨ c = '.') := by
  rcases hm with ⟨a, b, rfl, ha, hb, hne⟩ | ⟨hne, hm⟩ | ⟨a, rfl, ha, hne⟩
  · cases a with
    | nil => exact ⟨'.', b, rfl, .inr rfl⟩
    | cons c a => exact ⟨c, _, rfl, .inl (ha c (by simp))⟩
  · cases m with
    | nil => exact absurd rfl hne
    | cons c m => exact ⟨c, m, rfl, .inl (hm c (by simp))⟩
  · cases a with
    | nil => exact absurd rfl hne
    | cons c a => exact ⟨c, _, rfl, .inl (ha c (by simp))⟩

theorem number_of (w r : Str) (hw : IsNum w) (hr : ∀ c, r.head? = some c → c = ' ') : number (w ++ r) = some (w, r) ∧ w ≠ [] := by
  obtain ⟨s, m, e, rfl, hs, hm, he⟩ := hw
  obtain ⟨c, t, hc, hcd⟩ := mant_head m hm
  have h0 : sign (s ++ m ++ e ++ r) = (s, m ++ (e ++ r)) := by
    rw [List.append_assoc, List.append_assoc]
    refine sign_of s _ hs ?_
    intro _ x hx
    rw [hc] at hx
    simp at hx
    subst hx
    constructor <;> rintro rfl <;> exact absurd hcd (by decide)
  have h1 : mantissa (m ++ (e ++ r)) = some (m, e ++ r) := by
    refine mantissa_of m _ hm ?_
    intro x hx
    rcases he with rfl | ⟨c, s', d, rfl, hc', _⟩
    · rw [hr x hx]; exact ⟨rfl, by decide⟩
    · simp at hx
      subst hx
      rcases hc' with rfl | rfl <;> exact ⟨by decide, by decide⟩
  refine ⟨?_, by rw [hc]; simp⟩
  unfold number
  simp only [h0, h1, exponent_of e r he hr]

theorem number_none (x r : Str) (hx : ∀ c ∈ x, c.isDigit = false) (hr : ∀ c, r.head? = some c → c = ' ') : number (x ++ r) = none := by
  have hm : ∀ y : Str, (∀ c ∈ y, c.isDigit = false) → mantissa (y ++ r) = none := by
    intro y hy
    have hh : ∀ z : Str, (∀ c ∈ z, c.isDigit = false) → ∀ c, (z ++ r).head? = some c → c.isDigit = false := by
      intro z hz c hc
      cases z with
      | nil => rw [hr c hc]; rfl
      | cons a z => simp at hc; subst hc; exact hz a (by simp)
    have h1 := takeWhile_digits [] (y ++ r) (by intro c hc; cases hc) (hh y hy)
    rw [List.nil_append] at h1
    unfold mantissa
    simp only [h1.1, h1.2]
    split
    · rename_i r' e
      have : (r'.takeWhile Char.isDigit) = [] := by
        have hy' : ∃ z, r' = z ++ r ∧ ∀ c ∈ z, c.isDigit = false := by
          cases y with
          | nil =>
            exfalso
            have := hr '.' (by rw [List.nil_append] at e; rw [e]; rfl)
            exact absurd this (by decide)
          | cons a y =>
            exact ⟨y, (List.cons.inj e).2.symm, fun c hc => hy c (by simp [hc])⟩
        obtain ⟨z, rfl, hz⟩ := hy'
        have := takeWhile_digits [] (z ++ r) (by intro c hc; cases hc) (hh z hz)
        rw [List.nil_append] at this
        exact this.1
      simp [this]
    · simp
  have hs : ∃ y, (sign (x ++ r)).2 = y ++ r ∧ ∀ c ∈ y, c.isDigit = false := by
    cases x with
    | nil =>
      refine ⟨[], ?_, by intro c hc; cases hc⟩
      have := sign_of [] r (.inl rfl) (by intro _ c hc; rw [hr c hc]; decide)
      rw [List.nil_append] at this ⊢
      rw [this]
    | cons a x =>
      by_cases ha : a = '+' ∨ a = '-'
      · exact ⟨x, by simp [sign, ha], fun c hc => hx c (by simp [hc])⟩
      · exact ⟨a :: x, by simp [sign, ha], hx⟩
  obtain ⟨y, e, hy⟩ := hs
  unfold number
  rw [e, hm y hy]

theorem fa_num (w r : Str) (n : Nat) (hw : IsNum w) (hr : ∀ c, r.head? = some c → c = ' ') (hn : w.length + r.length ≤ n) :
    ∃ m, r.length ≤ m ∧ findallN n (w ++ r) = w :: findallN m r := by
  obtain ⟨h1, h2⟩ := number_of w r hw hr
  cases w with
  | nil => exact absurd rfl h2
  | cons c w =>
    obtain ⟨n, rfl⟩ : ∃ k, n = k + 1 := ⟨n - 1, by simp at hn; omega⟩
    refine ⟨n, by simp at hn; omega, ?_⟩
    rw [List.cons_append] at h1 ⊢
    rw [findallN, h1]

theorem fa_word (w r : Str) (n : Nat) (hw : ∀ c ∈ w, c.isDigit = false) (hr : ∀ c, r.head? = some c → c = ' ') (hn : w.length + r.length ≤ n) :
    ∃ m, r.length ≤ m ∧ findallN n (w ++ r) = findallN m r := by
  induction w generalizing n with
  | nil => exact ⟨n, by simpa using hn, rfl⟩
  | cons c w ih =>
    obtain ⟨n, rfl⟩ : ∃ k, n = k + 1 := ⟨n - 1, by simp at hn; omega⟩
    have h1 := number_none (c :: w) r hw hr
    rw [List.cons_append] at h1 ⊢
    obtain ⟨m, h2, h3⟩ := ih n (fun x hx => hw x (by simp [hx])) (by simp at hn; omega)
    exact ⟨m, h2, by rw [findallN, h1]; exact h3⟩

theorem fa_space (r : Str) (n : Nat) (hn : r.length + 1 ≤ n) : ∃ m, r.length ≤ m ∧ findallN n (' ' :: r) = findallN m r := by
  obtain ⟨n, rfl⟩ : ∃ k, n = k + 1 := ⟨n - 1, by omega⟩
  refine ⟨n, by omega, ?_⟩
  have h1 : number (' ' :: r) = none := by simp [number, sign, mantissa]
  rw [findallN, h1]

theorem findall_numbers {F : Type} (flt : Str → F) (ws : List Str) (xs : List F) (h : Numbers flt ws xs) (n : Nat) (hn : (joinWith [' '] ws).length ≤ n) :
    (findallN n (joinWith [' '] ws)).map flt = xs := by
  have rest : ∀ (ws : List Str) (xs : List F), (∀ n, (joinWith [' '] ws).length ≤ n → (findallN n (joinWith [' '] ws)).map flt = xs) → ∀ (w : Str) (n : Nat),
      (joinWith [' '] (w :: ws)).length ≤ n → ∃ r, joinWith [' '] (w :: ws) = w ++ r ∧ (∀ c, r.head? = some c → c = ' ') ∧
        ∀ m, r.length ≤ m → (findallN m r).map flt = xs := by
    intro ws xs ih w n hn
    cases ws with
    | nil =>
      refine ⟨[], by simp [joinWith], by simp, ?_⟩
      intro m _
      have := ih 0 (by simp [joinWith])
      cases m with
      | zero => simpa [joinWith, findallN] using this
      | succ m => simpa [joinWith, findallN] using this
    | cons w2 ws =>
      refine ⟨' ' :: joinWith [' '] (w2 :: ws), by simp [joinWith], by intro c hc; simp at hc; exact hc.symm, ?_⟩
      intro m hm
      obtain ⟨k, hk, e⟩ := fa_space (joinWith [' '] (w2 :: ws)) m (by simpa using hm)
      rw [e]
      exact ih k hk
  induction h generalizing n with
  | nil =>
    cases n <;> simp [joinWith, findallN]
  | num w ws xs hw _ ih =>
    obtain ⟨r, e, hr, hf⟩ := rest ws xs ih w n hn
    rw [e] at hn ⊢
    obtain ⟨m, hm, e2⟩ := fa_num w r n hw hr (by simpa using hn)
    rw [e2, List.map_cons, hf m hm]
  | word w ws xs hw _ ih =>
    obtain ⟨r, e, hr, hf⟩ := rest ws xs ih w n hn
    rw [e] at hn ⊢
    obtain ⟨m, hm, e2⟩ := fa_word w r n hw hr (by simpa using hn)
    rw [e2, hf m hm]

theorem dat_numbers {F : Type} (flt : Str → F) (ws : List Str) (xs : List F) (h : Numbers flt ws xs) :
    (∀ x, xs = [x] → dat flt (joinWith [' '] ws) = .num x) ∧ (xs.length ≠ 1 → dat flt (joinWith [' '] ws) = .vec xs) := by
  have e : (findall (joinWith [' '] ws)).map flt = xs := findall_numbers flt ws xs h _ (Nat.le_refl _)
  constructor
  · intro x hx
    rw [dat, e, hx]
  · intro hx
    rw [dat, e]
    split
    · rename_i x; exact absurd rfl hx
    · rfl

/-! labels -/

theorem rep_infix (a b x : Str) (n : Nat) (h : ¬ a <:+: x) : FastRead.replaceFuel a b n x = x := by
  induction x generalizing n with
  | nil => cases n <;> rfl
  | cons c x ih =>
    cases n with
    | zero => rfl
    | succ n =>
      rw [FastRead.replaceFuel, if_neg, ih n (fun hi => h (hi.trans (List.suffix_cons c x).isInfix))]
      rw [startsWith, List.isPrefixOf_iff_prefix]
      exact fun hp => h hp.isInfix

theorem unit_label (name unit field : Str) (h : IndField field name unit) (gap : Str) (hg : Blank gap) (ht : Trimmed field) :
    unitLabel (gap ++ field) = under name ++ "_[".toList ++ under unit ++ "]".toList := by
  have hst : strip (gap ++ field) = field := by
    have := strip_trim gap field [] hg blank_nil ht
    rwa [List.append_nil] at this
  obtain ⟨hf, hn, hu, hcn, hl, hcu⟩ := h
  have hcn' : (under name).IsChain (fun a b => ¬ (a = '_' ∧ b = '_')) := under_chain name hcn
  have hlast : (under name ++ ['_']).IsChain (fun a b => ¬ (a = '_' ∧ b = '_')) := by
    rw [List.isChain_append]
    refine ⟨hcn', by simp, ?_⟩
    intro a ha b hb hab
    unfold under at ha
    rw [List.getLast?_map] at ha
    cases hg : name.getLast? with
    | none => rw [hg] at ha; simp at ha
    | some d =>
      rw [hg] at ha
      simp only [Option.map_some, Option.mem_def, Option.some.injEq] at ha
      refine hl d hg ?_
      rw [hab.1] at ha
      split at ha
      · left; assumption
      · right; exact ha
  have hunit : ('[' :: under unit).IsChain (fun a b => ¬ (a = '_' ∧ b = '_')) := by
    rw [List.isChain_cons]
    exact ⟨fun y _ h => absurd h.1 (by decide), under_chain unit hcu⟩
  have hunit' : ('_' :: '[' :: under unit).IsChain (fun a b => ¬ (a = '_' ∧ b = '_')) := by
    rw [List.isChain_cons]
    refine ⟨fun y hy h => ?_, hunit⟩
    simp at hy
    rw [h.2] at hy
    exact absurd hy (by decide)
  have hall : (under name ++ '_' :: '[' :: under unit).IsChain (fun a b => ¬ (a = '_' ∧ b = '_')) := by
    rw [List.isChain_append] at hlast ⊢
    refine ⟨hcn', hunit', ?_⟩
    intro a ha b hb
    refine hlast.2.2 a ha b ?_
    simpa using hb
  have one : FastRead.replaceStr "__".toList ['_'] (replaceChar '[' ['_', '['] (replaceChar ' ' ['_'] field)) = under name ++ '_' :: '[' :: under unit := by
    rw [replaceChar_under]
    have eb : ∀ t, '[' ∉ t → replaceChar '[' ['_', '['] t = t := fun t ht => Tecplot.replaceChar_none _ _ _ ht
    rcases hf with rfl | rfl
    · have e : under (name ++ '[' :: unit) = under name ++ '[' :: under unit := by simp [under]
      rw [e, Tecplot.replaceChar_append, Tecplot.replaceChar_cons, if_pos rfl, eb _ (under_nobracket _ hn), eb _ (under_nobracket _ hu)]
      exact rep_all _ _ (Nat.le_refl _) hall
    · have e : under (name ++ ' ' :: '[' :: unit) = under name ++ '_' :: '[' :: under unit := by simp [under]
      rw [e, Tecplot.replaceChar_append, Tecplot.replaceChar_cons, if_neg (by decide), Tecplot.replaceChar_cons, if_pos rfl, eb _ (under_nobracket _ hn),
        eb _ (under_nobracket _ hu)]
      have e2 : ['_'] ++ (['_', '['] ++ under unit) = '_' :: '_' :: ('[' :: under unit) := by simp
      rw [e2, FastRead.replaceStr, rep_pass _ _ _ (by simp) (by simpa using hlast)]
      have e3 : (under name ++ '_' :: '_' :: ('[' :: under unit)).length - (under name).length = (('[' :: under unit).length + 1) + 1 := by
        rw [List.length_append]
        simp
      rw [e3, rep_two, rep_all _ _ (by omega) hunit]
  rw [unitLabel, hst, one, FastRead.replaceStr, rep_all _ _ (Nat.le_refl _) hall]
  simp

theorem headerCols_of {F : Type} (N : Num F) (h : Str) (cols : List Str) (hs : HeaderSays N h cols) : headerCols N h = cols := by
  obtain ⟨t, ht, hc⟩ := hs
  have et : headerText N h = t := by
    unfold headerText
    rcases ht with ⟨w, ws, hw, hi, rfl⟩ | ⟨hi, rfl⟩
    · rw [hw]; simp only [hi, if_true]
    · cases hw : words t with
      | nil => rfl
      | cons w ws =>
        have := hi w (by rw [hw]; rfl)
        simp [this]
  unfold headerCols
  rw [et]
  rcases hc with ⟨hn, rfl⟩ | ⟨h1, h2, fs, tail, hne, htl, e, hf, rfl⟩
  · simp only [FastRead.find_notMem '[' t hn]
  · have hfind : ∃ n, find ['['] t = some (n + 1) := by
      cases fs with
      | nil => exact absurd rfl hne
      | cons f fs =>
        obtain ⟨hb, htr, _, hn0, hi⟩ := hf f (by simp)
        have hmem : '[' ∈ t := by
          rw [e]
          obtain ⟨hx, _⟩ := hi
          rcases hx with hx | hx <;> simp [hx]
        obtain ⟨i, hi'⟩ := FastRead.find_of_infix ['['] t (by
          obtain ⟨a, b, hab⟩ := List.append_of_mem hmem
          exact ⟨a, b, by rw [hab]; simp⟩)
        cases i with
        | succ n => exact ⟨n, hi'⟩
        | zero =>
          exfalso
          have hp := FastRead.find_zero ['['] t hi'
          rw [e] at hp
          cases hg : f.1 with
          | cons c g =>
            have := hb c (by rw [hg]; simp)
            obtain ⟨r, hr⟩ := hp
            rw [List.flatMap_cons, hg] at hr
            simp at hr
            rw [← hr.1] at this
            exact absurd this (by decide)
          | nil =>
            obtain ⟨hx, hnb, _⟩ := hi
            cases hnm : f.2.2.1 with
            | nil => exact hn0 hnm
            | cons c g =>
              have hc : c ≠ '[' := by rintro rfl; exact hnb (by rw [hnm]; simp)
              obtain ⟨r, hr⟩ := hp
              rw [List.flatMap_cons, hg] at hr
              rcases hx with hx | hx <;> rw [hx, hnm] at hr <;> simp at hr <;> exact hc hr.1.symm
    obtain ⟨n, hn⟩ := hfind
    simp only [hn]
    rw [FastRead.replaceStr, FastRead.replaceStr, rep_infix _ _ t _ h1, rep_infix _ _ t _ h2]
    have e2 : t = (fs.map fun f => f.1 ++ f.2.1).flatMap (fun x => x ++ [']']) ++ tail := by
      rw [e, List.flatMap_map]
    rw [e2, splitOn_ends ']' _ tail (by
      intro x hx
      obtain ⟨f, hfm, rfl⟩ := List.mem_map.1 hx
      obtain ⟨hb, _, hno, _⟩ := hf f hfm
      rw [List.mem_append, not_or]
      exact ⟨ws_not_mem hb (by decide), hno⟩) htl, List.dropLast_concat, List.map_map]
    refine List.map_congr_left ?_
    intro f hfm
    obtain ⟨hb, htr, _, _, hi⟩ := hf f hfm
    exact unit_label _ _ _ hi _ hb htr

theorem labels_of {F : Type} (N : Num F) (h : Str) (n : Nat) (labels : List Str) (hl : LabelsOf N h n labels) :
    (if (headerCols N h).length = n then headerCols N h else numbered n) = labels := by
  obtain ⟨cols, hc, hx⟩ := hl
  rw [headerCols_of N h cols hc]
  rcases hx with ⟨h1, rfl⟩ | ⟨h1, h2, h3⟩
  · rw [if_pos h1]
  · rw [if_neg h1]
    refine List.ext_getElem? fun j => ?_
    by_cases hj : j < n
    · rw [h3 j hj, numbered, List.getElem?_map, List.getElem?_range hj]; rfl
    · rw [List.getElem?_eq_none (by simp [numbered]; omega), List.getElem?_eq_none (by omega)]

/-! the loop -/

theorem keysOf_name (key : Str) (sub : Option Str) (h : GoodKey key sub) : keysOf (nameOf key sub) = (key, sub.getD []) := by
  obtain ⟨_, hu, _⟩ := h
  have hu' : '_' ∉ '#' :: key := by simp [hu]
  cases sub with
  | none => simp [nameOf, keysOf, splitOn_noSep '_' _ hu', joinWith]
  | some s =>
    have e : nameOf key (some s) = ('#' :: key) ++ '_' :: s := by simp [nameOf]
    simp only [e, keysOf, splitOn_append '_' _ _ hu', List.headD_cons, List.drop_succ_cons, List.drop_zero, List.tail_cons, join_splitOn, Option.getD_some]

theorem table_iff (x : Str) : x ∈ tableNames ↔ x ∈ arraysHeader := by
  have h1 : ∀ y ∈ tableNames, y ∈ arraysHeader := by decide +kernel
  have h2 : ∀ y ∈ arraysHeader, y ∈ tableNames := by decide +kernel
  exact ⟨h1 x, h2 x⟩

theorem matrix_in (x : Str) (h : x ∈ matrixNames) : x ∈ arraysNoHeader ∧ x ∉ arraysHeader := by
  have h1 : ∀ y ∈ matrixNames, y ∈ arraysNoHeader ∧ y ∉ arraysHeader := by decide +kernel
  exact h1 x h

theorem matrix_out (x : Str) (h : x ∈ arraysNoHeader) : x ∈ matrixNames ∨ '#' ∈ x.tail := by
  have h1 : ∀ y ∈ arraysNoHeader, y ∈ matrixNames ∨ '#' ∈ y.tail := by decide +kernel
  exact h1 x h

theorem strip_ne {l name : Str} {ws : List Str} (h : words l = name :: ws) : strip l ≠ [] := by
  intro hs
  rw [← words_strip, hs] at h
  cases h

/-- parts with a known value -/
def Item.Known {F : Type} (N : Num F) (flt : Str → F) : Item F → Prop
  | .entry l key sub v => EntryName key sub ∧ ∃ ws, Named l (nameOf key sub) ws ∧ dat flt (joinWith [' '] ws) = v
  | .other .. => False
  | it => it.Good N flt

/-- a part with its value -/
def Item.known {F : Type} (flt : Str → F) : Item F → Item F
  | .other l key sub => .entry l key sub (dat flt (joinWith [' '] (words l).tail))
  | it => it

theorem known_of {F : Type} (N : Num F) (flt : Str → F) (it : Item F) (h : it.Good N flt) : (it.known flt).Known N flt := by
  cases it with
  | entry l key sub v =>
    obtain ⟨hn, ws, xs, hnm, hx, hv1, hv2⟩ := h
    refine ⟨hn, ws, hnm, ?_⟩
    obtain ⟨e1, e2⟩ := dat_numbers flt ws xs hx
    by_cases hx : xs.length = 1
    · obtain ⟨x, rfl⟩ := List.length_eq_one_iff.1 hx
      rw [e1 x rfl, hv1 x rfl]
    · rw [e2 hx, hv2 hx]
  | other l key sub =>
    obtain ⟨hn, ws, hnm⟩ := h
    exact ⟨hn, ws, hnm, by rw [hnm.2.1]; rfl⟩
  | _ => exact h

theorem known_text {F : Type} (flt : Str → F) (it : Item F) : (it.known flt).text = it.text := by cases it <;> rfl

theorem known_places {F : Type} (flt : Str → F) (it : Item F) (N : Num F) (h : (it.known flt).Known N flt) :
    it.places = (it.known flt).says.map fun u => (u.1, u.2.1) := by cases it <;> rfl

theorem known_says {F : Type} (flt : Str → F) (it : Item F) (u) (h : u ∈ it.says) : u ∈ (it.known flt).says := by
  cases it with
  | other => cases h
  | _ => exact h

theorem known_closed {F : Type} (flt : Str → F) (its : List (Item F)) (h : Closed its) : Closed (its.map (Item.known flt)) := by
  induction its with
  | nil => trivial
  | cons a r ih =>
    refine ⟨?_, ih h.2⟩
    have h1 := h.1
    cases r with
    | nil => cases a <;> trivial
    | cons b r =>
      cases a with
      | table => exact (by rw [known_text]; exact h1 : ∃ l, (b.known flt).text.head? = some l ∧ ¬ RowLine l)
      | matrix => exact (by rw [known_text]; exact h1 : ∃ l, (b.known flt).text.head? = some l ∧ ¬ RowLine l)
      | _ => trivial

theorem step_entry {F : Type} (N : Num F) (flt : Str → F) (d : Doc F) (l key : Str) (sub : Option Str) (v : Val F)
    (h : (Item.entry l key sub v).Known N flt) : step N flt d l = (put d (key, sub, v)).map fun d' => (.scan, adjust d') := by
  obtain ⟨⟨hk, h1, h2, h3⟩, ws, ⟨hh, hw, hc⟩, hv⟩ := h
  have n1 : nameOf key sub ∉ arraysHeader := fun hx => h1 ((table_iff _).2 hx)
  have n2 : nameOf key sub ∉ arraysNoHeader := by
    intro hx
    rcases matrix_out _ hx with hx | hx
    · exact h2 hx
    · refine h3 ?_
      cases sub with
      | none => simpa [nameOf] using hx
      | some s => simpa [nameOf] using hx
  have hkw : IsWord (nameOf key sub) := words_isWord l _ (by rw [hw]; simp)
  have hks : strip key ≠ [] := by
    rw [Ne, Hawc2Sel.strip_nil_iff]
    intro hx
    obtain ⟨hk0, _⟩ := hk
    cases key with
    | nil => exact hk0 rfl
    | cons c t =>
      have a := hx c (by simp)
      have b := hkw.2 c (by cases sub <;> simp [nameOf])
      rw [a] at b; cases b
  unfold step
  rw [if_neg (strip_ne hw), if_neg (by rw [startsWith, List.isPrefixOf_iff_prefix]; exact hc), if_pos hh]
  simp only [hw, List.headD_cons, List.tail_cons, if_neg n1, if_neg n2, keysOf_name key sub hk, hv, if_neg hks]
  cases sub with
  | none => simp only [Option.getD_none, if_true, put]
  | some s => simp only [Option.getD_some, if_neg (hk.2.2 s rfl), put]

theorem go_rows {F : Type} (N : Num F) (flt : Str → F) (name h : Str) (hdr : Bool) (lines : List Str) (rows : List (List F)) (hl : ∀ r ∈ lines, RowLine r)
    (hr : List.Forall₂ (fun r row => (words r).mapM (if hdr then cell N else N.flt) = some row) lines rows) (acc : List (List F)) (d : Doc F) (r : List Str) :
    go N flt (.rows name hdr h acc) d (lines ++ r) = go N flt (.rows name hdr h (acc ++ rows)) d r := by
  induction hr generalizing acc with
  | nil => simp
  | @cons l row ls rs hx _ ih =>
    rw [List.cons_append, go, if_pos (show l ≠ [] ∧ l.head? ≠ some '#' from hl l (by simp)), hx]
    show go N flt _ d _ = _
    rw [ih (fun r hr => hl r (by simp [hr]))]
    simp

/-- no more rows -/
def Stop (r : List Str) : Prop := ∀ l, r.head? = some l → ¬ RowLine l

theorem go_stop {F : Type} (N : Num F) (flt : Str → F) (name h : Str) (hdr : Bool) (acc : List (List F)) (d d' : Doc F) (r : List Str) (hs : Stop r)
    (hf : finish N d name hdr h acc = .ok d') : go N flt (.rows name hdr h acc) d r = go N flt .scan d' r := by
  cases r with
  | nil => exact hf
  | cons l r =>
    have hl : ¬ (l ≠ [] ∧ l.head? ≠ some '#') := hs l rfl
    conv_lhs => rw [go, if_neg hl, hf]
    conv_rhs => rw [go]

theorem cells {F : Type} (N : Num F) (ws : List Str) (row : List F) (h : List.Forall₂ (CellSays N) ws row) : ws.mapM (cell N) = some row := by
  induction h with
  | nil => rfl
  | cons hx _ ih =>
    rw [List.mapM_cons, ih]
    have : ∀ (w : Str) (x : F), CellSays N w x → cell N w = some x := by
      intro w x hw
      unfold cell
      rcases hw with ⟨rfl, rfl⟩ | ⟨rfl, rfl⟩ | ⟨rfl, rfl⟩ | ⟨a, b, c, e⟩
      · rfl
      · rfl
      · rfl
      · rw [if_neg a, if_neg b, if_neg c, e]
    rw [this _ _ hx]
    rfl

theorem go_section {F : Type} (N : Num F) (flt : Str → F) (d d' : Doc F) (l name : Str) (ws : List Str) (hn : Named l name ws) (hdr : Bool)
    (hin : if hdr then name ∈ arraysHeader else name ∉ arraysHeader ∧ name ∈ arraysNoHeader) (h : Str) (lines r : List Str) (rows : List (List F))
    (hl : ∀ r ∈ lines, RowLine r) (hr : List.Forall₂ (fun r row => (words r).mapM (if hdr then cell N else N.flt) = some row) lines rows) (hs : Stop r)
    (hf : finish N d name hdr h rows = .ok d') : go N flt .scan d (l :: h :: lines ++ r) = go N flt .scan d' r := by
  obtain ⟨hh, hw, hc⟩ := hn
  have hst : step N flt d l = .ok (.head name hdr, d) := by
    unfold step
    rw [if_neg (strip_ne hw), if_neg (by rw [startsWith, List.isPrefixOf_iff_prefix]; exact hc), if_pos hh]
    simp only [hw, List.headD_cons]
    cases hdr with
    | true => rw [if_pos (by simpa using hin)]
    | false =>
      have : name ∉ arraysHeader ∧ name ∈ arraysNoHeader := by simpa using hin
      rw [if_neg this.1, if_pos this.2]
  rw [List.cons_append, List.cons_append, go, hst]
  show go N flt (.head name hdr) d _ = _
  rw [go, go_rows N flt name h hdr lines rows hl hr [] d r, List.nil_append]
  exact go_stop N flt name h hdr rows d d' r hs hf

/-- a table or a matrix -/
def Item.IsSection {F : Type} : Item F → Prop
  | .table .. => True
  | .matrix .. => True
  | _ => False

/-- an entry -/
def Item.IsEntry {F : Type} : Item F → Prop
  | .entry .. => True
  | _ => False

theorem go_item {F : Type} (N : Num F) (flt : Str → F) (it : Item F) (hg : it.Known N flt) (us : List (Str × Option Str × Val F)) (d : Doc F) (hi : Inv d us)
    (ha : ∀ u ∈ it.says, ∀ a ∈ us, Apart a u) (r : List Str)
    (hs : it.IsSection → Stop r) :
    ∃ d', Inv d' (us ++ it.says) ∧ go N flt .scan d (it.text ++ r) = go N flt .scan d' r ∧
      (it.IsEntry → ∀ u ∈ us ++ it.says, get d' u.1 u.2.1 = some (fin u)) := by
  cases it with
  | skip l =>
    refine ⟨d, by simpa [Item.says] using hi, ?_, fun h => h.elim⟩
    have : step N flt d l = .ok (.scan, d) := by
      unfold step
      by_cases hb : strip l = []
      · rw [if_pos hb]
      · rcases hg with hg | hg
        · exact absurd ((Hawc2Sel.strip_nil_iff l).2 hg) hb
        · rw [if_neg hb, if_pos (by rw [startsWith, List.isPrefixOf_iff_prefix]; exact hg)]
    show go N flt .scan d (l :: r) = _
    rw [go, this]
  | stray l =>
    obtain ⟨hb, hh⟩ := hg
    refine ⟨adjust d, by simpa [Item.says] using (adjust_inv d us hi).1, ?_, fun h => h.elim⟩
    have : step N flt d l = .ok (.scan, adjust d) := by
      unfold step
      rw [if_neg (by rw [Hawc2Sel.strip_nil_iff]; exact hb), if_neg, if_neg hh]
      rw [startsWith, List.isPrefixOf_iff_prefix]
      rintro ⟨t, rfl⟩
      exact hh rfl
    show go N flt .scan d (l :: r) = _
    rw [go, this]
  | other l key sub => exact hg.elim
  | entry l key sub v =>
    obtain ⟨d', hp, hi'⟩ := put_inv d us hi (key, sub, v) (fun a ham => ha _ (by simp [Item.says]) a ham)
    obtain ⟨hj, hall⟩ := adjust_inv d' _ hi'
    refine ⟨adjust d', hj, ?_, fun _ => hall⟩
    show go N flt .scan d (l :: r) = _
    rw [go, step_entry N flt d l key sub v hg, hp]
    rfl
  | table l key sub h lines labels rows =>
    obtain ⟨hk, hn, ⟨ws, hnm⟩, hl, hr, hne, hlen, hlab⟩ := hg
    obtain ⟨d', hp, hi'⟩ := put_inv d us hi (key, some sub, .frame labels rows) (fun a ham => ha _ (by simp [Item.says]) a ham)
    refine ⟨d', hi', ?_, fun h => h.elim⟩
    refine go_section N flt d d' l _ ws hnm true (by simpa using (table_iff _).1 hn) h lines r rows hl (hr.imp fun _ _ hx => by simpa using cells N _ _ hx)
      (hs trivial) ?_
    unfold finish
    rw [if_pos (by rw [List.all_eq_true]; intro x hx; simpa using hlen x hx)]
    simp only [if_true, if_neg hne, keysOf_name key (some sub) hk, Option.getD_some, labels_of N h _ labels hlab]
    exact hp
  | matrix l key sub lost lines rows =>
    obtain ⟨hk, hn, ⟨ws, hnm⟩, hl, hr, hlen⟩ := hg
    obtain ⟨d', hp, hi'⟩ := put_inv d us hi (key, some sub, .mat rows) (fun a ham => ha _ (by simp [Item.says]) a ham)
    refine ⟨d', hi', ?_, fun h => h.elim⟩
    refine go_section N flt d d' l _ ws hnm false (by simpa using And.symm (matrix_in _ hn)) lost lines r rows hl (hr.imp fun _ _ hx => by simpa using hx)
      (hs trivial) ?_
    unfold finish
    rw [if_pos (by rw [List.all_eq_true]; intro x hx; simpa using hlen x hx)]
    simp only [Bool.false_eq_true, if_false, keysOf_name key (some sub) hk, Option.getD_some]
    exact hp

theorem go_items {F : Type} (N : Num F) (flt : Str → F) (its : List (Item F)) (hg : ∀ it ∈ its, it.Known N flt) (hc : Closed its) (us : List (Str × Option Str × Val F))
    (d : Doc F) (hi : Inv d us) (ha : (us ++ its.flatMap Item.says).Pairwise Apart) (r : List Str) (hr : Stop r) :
    ∃ d', Inv d' (us ++ its.flatMap Item.says) ∧ go N flt .scan d (its.flatMap Item.text ++ r) = go N flt .scan d' r := by
  induction its generalizing us d with
  | nil => exact ⟨d, by simpa using hi, rfl⟩
  | cons it its ih =>
    have ha1 : ∀ u ∈ it.says, ∀ a ∈ us, Apart a u := by
      intro u hu a ham
      rw [List.pairwise_append] at ha
      exact ha.2.2 a ham u (by rw [List.flatMap_cons]; simp [hu])
    have hstop : it.IsSection → Stop (its.flatMap Item.text ++ r) := by
      intro hm
      cases its with
      | nil => simpa using hr
      | cons b its =>
        have hb : ∃ l, b.text.head? = some l ∧ ¬ RowLine l := by
          cases it with
          | table => exact hc.1
          | matrix => exact hc.1
          | skip => exact hm.elim
          | stray => exact hm.elim
          | entry => exact hm.elim
          | other => exact hm.elim
        obtain ⟨l, hl, hn⟩ := hb
        intro l' hl'
        rw [List.flatMap_cons] at hl'
        cases hbt : b.text with
        | nil => rw [hbt] at hl; cases hl
        | cons x t =>
          rw [hbt] at hl hl'
          simp at hl hl'
          rw [← hl', hl]
          exact hn
    obtain ⟨d1, h1, h2, _⟩ := go_item N flt it (hg it (by simp)) us d hi ha1 (its.flatMap Item.text ++ r) hstop
    obtain ⟨d2, h3, h4⟩ := ih (fun i hi => hg i (by simp [hi])) hc.2 (us ++ it.says) d1 h1 (by
      rw [List.flatMap_cons] at ha
      rwa [List.append_assoc])
    refine ⟨d2, by rw [List.flatMap_cons, ← List.append_assoc]; exact h3, ?_⟩
    rw [List.flatMap_cons, List.append_assoc, h2, h4]

theorem distinct_apart {F : Type} (N : Num F) (flt : Str → F) (its : List (Item F)) (hg : ∀ it ∈ its, it.Good N flt)
    (h : (its.flatMap Item.places).Pairwise Distinct) : ((its.map (Item.known flt)).flatMap Item.says).Pairwise Apart := by
  have e : its.flatMap Item.places = ((its.map (Item.known flt)).flatMap Item.says).map fun u => (u.1, u.2.1) := by
    clear h
    induction its with
    | nil => rfl
    | cons a its ih =>
      rw [List.flatMap_cons, List.map_cons, List.flatMap_cons, List.map_append, ih (fun i hi => hg i (by simp [hi])),
        known_places flt a N (known_of N flt a (hg a (by simp)))]
  rw [e, List.pairwise_map] at h
  exact h

theorem text_known {F : Type} (flt : Str → F) (its : List (Item F)) : (its.map (Item.known flt)).flatMap Item.text = its.flatMap Item.text := by
  rw [List.flatMap_map]
  exact congrArg (fun f => its.flatMap f) (funext (known_text flt))

theorem go_items_bad {F : Type} (N : Num F) (flt : Str → F) (s first : Str) (its : List (Item F)) (rest : List Str)
    (hs : HasLines s (first :: (its.flatMap Item.text ++ rest))) (hp : "#Program".toList <+: strip first)
    (hg : ∀ it ∈ its, it.Good N flt) (hc : Closed its) (ha : (its.flatMap Item.places).Pairwise Distinct) (hr : Stop (rest ++ [strip first])) :
    ∃ d, Inv d ((its.map (Item.known flt)).flatMap Item.says) ∧ read N flt s = go N flt .scan d (rest ++ [strip first]) := by
  obtain ⟨d, h1, h2⟩ := go_items N flt (its.map (Item.known flt)) (by
    intro it hit
    obtain ⟨i, hi, rfl⟩ := List.mem_map.1 hit
    exact known_of N flt i (hg i hi)) (known_closed flt its hc) [] [] inv_nil (by simpa using distinct_apart N flt its hg ha) _ hr
  refine ⟨d, by simpa using h1, ?_⟩
  rw [text_known] at h2
  rw [read, readlines_of hs]
  simp only
  rw [if_pos (by rw [startsWith, List.isPrefixOf_iff_prefix]; exact hp), List.append_assoc, h2]

theorem read_items {F : Type} (N : Num F) (flt : Str → F) (s first : Str) (prog : Item F) (its : List (Item F)) (h : IsDoc N flt s first prog its) :
    ∃ d, read N flt s = .ok d ∧ Inv d (((its ++ [prog]).map (Item.known flt)).flatMap Item.says) ∧
      ∀ it ∈ its ++ [prog], ∀ u ∈ it.says, get d u.1 u.2.1 = some (fin u) := by
  have hh : (strip first).head? = some '#' := by
    obtain ⟨t, ht⟩ := h.program
    rw [← ht]; rfl
  have hst : Stop [strip first] := by
    intro l hl
    simp at hl
    subst hl
    exact fun hx => hx.2 hh
  have hd := h.distinct
  rw [List.flatMap_append, List.pairwise_append] at hd
  obtain ⟨d1, h1, h2⟩ := go_items_bad N flt s first its [] (by rw [List.append_nil]; exact h.lines) h.program
    (fun it hi => h.good it (by simp [hi])) h.closed hd.1 hst
  have hap := distinct_apart N flt _ h.good h.distinct
  rw [List.map_append, List.flatMap_append, List.pairwise_append] at hap
  have hk := known_of N flt prog (h.good prog (by simp))
  have hent : (prog.known flt).IsEntry := by
    have hg := h.good prog (by simp)
    have ht := h.text
    cases prog with
    | entry => trivial
    | other => trivial
    | skip l =>
      exfalso
      obtain rfl : l = strip first := by simpa [Item.text] using ht
      obtain ⟨t, ht⟩ := h.program
      rw [← ht] at hg
      rcases hg with hg | ⟨x, hx⟩
      · exact absurd (hg '#' (by simp)) (by decide)
      · simp at hx
    | stray l =>
      exfalso
      obtain rfl : l = strip first := by simpa [Item.text] using ht
      exact hg.2 hh
    | table => simp [Item.text] at ht
    | matrix => simp [Item.text] at ht
  obtain ⟨d2, h3, h4, h5⟩ := go_item N flt (prog.known flt) hk _ d1 h1 (by
    intro u hu a ham
    exact hap.2.2 a ham u (by simpa using hu)) [] (by
      intro hsec
      cases hpk : prog.known flt <;> rw [hpk] at hsec hent <;> first | exact hsec.elim | exact hent.elim)
  have hus : ((its ++ [prog]).map (Item.known flt)).flatMap Item.says = (its.map (Item.known flt)).flatMap Item.says ++ (prog.known flt).says := by simp
  refine ⟨d2, ?_, by rw [hus]; exact h3, ?_⟩
  · rw [h2, List.nil_append]
    rw [known_text, h.text] at h4
    rw [List.append_nil] at h4
    rw [h4, go]
  · intro it hit u hu
    refine h5 hent u ?_
    rw [← hus]
    exact List.mem_flatMap.2 ⟨_, List.mem_map.2 ⟨it, hit, rfl⟩, known_says flt it u hu⟩

theorem read_all {F : Type} (N : Num F) (flt : Str → F) (s first : Str) (prog : Item F) (its : List (Item F)) (h : IsDoc N flt s first prog its) :
    ∃ d, read N flt s = .ok d ∧ (∀ it ∈ its ++ [prog], ∀ u ∈ it.says, get d u.1 u.2.1 = some (fin u)) ∧
      ∀ k sub v, get d k sub = some v → (k, sub) ∈ (its ++ [prog]).flatMap Item.places := by
  obtain ⟨d, h1, h2, h3⟩ := read_items N flt s first prog its h
  refine ⟨d, h1, h3, ?_⟩
  have back : ∀ k sub, (∃ u ∈ ((its ++ [prog]).map (Item.known flt)).flatMap Item.says, u.1 = k ∧ u.2.1 = sub) →
      (k, sub) ∈ (its ++ [prog]).flatMap Item.places := by
    rintro k sub ⟨u, hu, rfl, rfl⟩
    obtain ⟨it', hit', hu⟩ := List.mem_flatMap.1 hu
    obtain ⟨it, hit, rfl⟩ := List.mem_map.1 hit'
    refine List.mem_flatMap.2 ⟨it, hit, ?_⟩
    rw [known_places flt it N (known_of N flt it (h.good it hit))]
    exact List.mem_map.2 ⟨u, hu, rfl⟩
  intro k sub v hg
  cases sub with
  | none =>
    rw [get_none] at hg
    cases hl : look k d with
    | none => rw [hl] at hg; cases hg
    | some e =>
      cases e with
      | one w => exact back k none (h2.one k w hl)
      | group g => rw [hl] at hg; cases hg
  | some sb =>
    rw [get_some] at hg
    cases hl : look k d with
    | none => rw [hl] at hg; cases hg
    | some e =>
      cases e with
      | one w => rw [hl] at hg; cases hg
      | group g =>
        rw [hl] at hg
        exact back k (some sb) ((h2.grp k g hl).2 sb v hg)

theorem step_section {F : Type} (N : Num F) (flt : Str → F) (d : Doc F) (l name : Str) (ws : List Str) (hn : Named l name ws) (hin : name ∈ tableNames) :
    step N flt d l = .ok (.head name true, d) := by
  obtain ⟨hh, hw, hc⟩ := hn
  unfold step
  rw [if_neg (strip_ne hw), if_neg (by rw [startsWith, List.isPrefixOf_iff_prefix]; exact hc), if_pos hh]
  simp only [hw, List.headD_cons]
  rw [if_pos ((table_iff _).1 hin)]

/-- numbers for the examples: texts themselves; whole numbers are texts of digits -/
def toy : Num Str := ⟨fun w => if w.all (fun c => c.isDigit || c = '.' || c = '-') then some w else none, fun w => w.all Char.isDigit, FastLine.showInt ∘ Int.ofNat⟩

/-- the lines of a small file -/
def exItems : List (Item Str) :=
  [.skip "### Environment".toList,
   .entry "#Environment_WaterDepth   2.5e1 [m]".toList "Environment".toList (some "WaterDepth".toList) (.num "2.5e1".toList),
   .entry "#Hub_Offsets -1 +.5 3.".toList "Hub".toList (some "Offsets".toList) (.vec ["-1".toList, "+.5".toList, "3.".toList]),
   .stray " a note".toList,
   .table "#Tower_SectionData".toList "Tower".toList "SectionData".toList "2 z [m] mass per length [kg m]".toList ["Fnd 1.5".toList, "2.5 7".toList]
     ["z_[m]".toList, "mass_per_length_[kg_m]".toList] [["0".toList, "1.5".toList], ["2.5".toList, "7".toList]],
   .skip "".toList,
   .matrix "#EVA_MassMatrix".toList "EVA".toList "MassMatrix".toList "1 2".toList ["3 4".toList] [["3".toList, "4".toList]],
   .table "#Global_Mode1_Shape".toList "Global".toList "Mode1_Shape".toList "x y".toList ["0 1 2 3".toList]
     ["C0".toList, "C1".toList, "C2".toList, "C3".toList] [["0".toList, "1".toList, "2".toList, "3".toList]],
   .entry "#Mass 3.0".toList "Mass".toList none (.num "3.0".toList)]

/-- the text of the small file -/
def exText : Str := HawcAe.unlines ("#Program Flex5".toList :: exItems.flatMap Item.text)

theorem numDigits (w : Str) (h : w ≠ [] ∧ w.all Char.isDigit = true) : IsNum w :=
  ⟨[], w, [], by simp, .inl rfl, .inr (.inl ⟨h.1, by simpa [Digits] using h.2⟩), .inl rfl⟩

theorem digits_of (w : Str) (h : w.all Char.isDigit = true) : Digits w := by simpa [Digits] using h

theorem exName (key : Str) (sub : Option Str) (h : key ≠ [] ∧ '_' ∉ key ∧ sub ≠ some [] ∧ nameOf key sub ∉ tableNames ∧ nameOf key sub ∉ matrixNames ∧
    '#' ∉ key ++ sub.getD []) : EntryName key sub :=
  ⟨⟨h.1, h.2.1, fun s hs e => h.2.2.1 (by rw [hs, e])⟩, h.2.2.2⟩

theorem exKey (key sub : Str) (h : key ≠ [] ∧ '_' ∉ key ∧ sub ≠ []) : GoodKey key (some sub) :=
  ⟨h.1, h.2.1, fun s hs e => h.2.2 (by rw [Option.some.inj hs, e])⟩

theorem exNamed (l name : Str) (ws : List Str) (h : l.head? = some '#' ∧ words l = name :: ws ∧ ¬ "###".toList <+: l) : Named l name ws := h

theorem exGood : ∀ it ∈ exItems ++ [.other "#Program Flex5".toList "Program".toList none], it.Good toy id := by
  intro it hit
  simp only [exItems, List.cons_append, List.nil_append, List.mem_cons, List.not_mem_nil, or_false] at hit
  rcases hit with rfl | rfl | rfl | rfl | rfl | rfl | rfl | rfl | rfl | rfl
  · exact .inr (by decide)
  · refine ⟨exName _ _ (by decide +kernel), ["2.5e1".toList, "[m]".toList], ["2.5e1".toList], exNamed _ _ _ (by decide +kernel), ?_, ?_, by simp⟩
    · refine .num _ _ _ ?_ (.word _ _ _ (by decide) .nil)
      exact ⟨[], "2.5".toList, "e1".toList, rfl, .inl rfl, .inl ⟨['2'], ['5'], rfl, digits_of _ rfl, digits_of _ rfl, by decide⟩,
        .inr ⟨'e', [], ['1'], rfl, .inl rfl, .inl rfl, digits_of _ rfl, by decide⟩⟩
    · intro x hx; rw [(List.cons.inj hx).1]
  · refine ⟨exName _ _ (by decide +kernel), ["-1".toList, "+.5".toList, "3.".toList], ["-1".toList, "+.5".toList, "3.".toList], exNamed _ _ _ (by decide +kernel), ?_,
      ?_, fun _ => rfl⟩
    · refine .num _ _ _ ?_ (.num _ _ _ ?_ (.num _ _ _ ?_ .nil))
      · exact ⟨['-'], ['1'], [], rfl, .inr (.inr rfl), .inr (.inl ⟨by decide, digits_of _ rfl⟩), .inl rfl⟩
      · exact ⟨['+'], ['.', '5'], [], rfl, .inr (.inl rfl), .inl ⟨[], ['5'], rfl, digits_of _ rfl, digits_of _ rfl, by decide⟩, .inl rfl⟩
      · exact ⟨[], ['3', '.'], [], rfl, .inl rfl, .inr (.inr ⟨['3'], rfl, digits_of _ rfl, by decide⟩), .inl rfl⟩
    · intro x hx; cases hx
  · exact ⟨by unfold Blank; decide, by decide⟩
  · refine ⟨exKey _ _ (by decide), by decide +kernel, ⟨[], exNamed _ _ _ (by decide +kernel)⟩, by unfold RowLine; decide, ?_, by decide, by decide, ?_⟩
    · refine .cons (.cons (.inl ⟨rfl, rfl⟩) (.cons (.inr (.inr (.inr ⟨by decide, by decide, by decide, rfl⟩))) .nil)) (.cons
        (.cons (.inr (.inr (.inr ⟨by decide, by decide, by decide, rfl⟩))) (.cons (.inr (.inr (.inr ⟨by decide, by decide, by decide, rfl⟩))) .nil)) .nil)
    · refine ⟨["z_[m]".toList, "mass_per_length_[kg_m]".toList], ⟨"z [m] mass per length [kg m]".toList,
        .inl ⟨['2'], ["z", "[m]", "mass", "per", "length", "[kg", "m]"].map String.toList, by decide +kernel, rfl, rfl⟩, .inr ⟨by decide, by decide,
        [([], "z [m".toList, "z".toList, "m".toList), ([' '], "mass per length [kg m".toList, "mass per length".toList, "kg m".toList)], [], by decide, by decide,
        by decide +kernel, ?_, by decide +kernel⟩⟩, .inl ⟨rfl, rfl⟩⟩
      intro f hf
      simp only [List.mem_cons, List.not_mem_nil, or_false] at hf
      rcases hf with rfl | rfl
      · exact ⟨blank_nil, ⟨by decide, by decide, by decide⟩, by decide, by decide, .inr rfl, by decide, by decide, by unfold bl; decide, by unfold bl; decide,
          by unfold bl; decide⟩
      · exact ⟨blank_space, ⟨by decide, by decide, by decide⟩, by decide, by decide, .inr rfl, by decide, by decide, by unfold bl; decide, by unfold bl; decide,
          by unfold bl; decide⟩
  · exact .inl blank_nil
  · exact ⟨exKey _ _ (by decide), by decide +kernel, ⟨[], exNamed _ _ _ (by decide +kernel)⟩, by unfold RowLine; decide, .cons (by decide +kernel) .nil, by decide⟩
  · refine ⟨exKey _ _ (by decide), by decide +kernel, ⟨[], exNamed _ _ _ (by decide +kernel)⟩, by unfold RowLine; decide, ?_, by decide, by decide, ?_⟩
    · exact .cons (.cons (.inr (.inr (.inr ⟨by decide, by decide, by decide, rfl⟩))) (.cons (.inr (.inr (.inr ⟨by decide, by decide, by decide, rfl⟩)))
        (.cons (.inr (.inr (.inr ⟨by decide, by decide, by decide, rfl⟩))) (.cons (.inr (.inr (.inr ⟨by decide, by decide, by decide, rfl⟩))) .nil)))) .nil
    · exact ⟨["x".toList, "y".toList], ⟨"x y".toList, .inr ⟨by decide +kernel, rfl⟩, .inl ⟨by decide, by decide +kernel⟩⟩, .inr ⟨by decide, rfl, by decide +kernel⟩⟩
  · refine ⟨exName _ _ (by decide +kernel), ["3.0".toList], ["3.0".toList], exNamed _ _ _ (by decide +kernel), ?_, ?_, by simp⟩
    · exact .num _ _ _ ⟨[], "3.0".toList, [], rfl, .inl rfl, .inl ⟨['3'], ['0'], rfl, digits_of _ rfl, digits_of _ rfl, by decide⟩, .inl rfl⟩ .nil
    · intro x hx; rw [(List.cons.inj hx).1]
  · exact ⟨exName _ _ (by decide +kernel), ["Flex5".toList], exNamed _ _ _ (by decide +kernel)⟩

theorem distinct_dec (ps : List (Str × Option Str))
    (h : ps.Pairwise fun a b => a.1 ≠ b.1 ∨ (a.2 ≠ none ∧ b.2 ≠ none ∧ a.2 ≠ b.2)) : ps.Pairwise Distinct := by
  refine h.imp ?_
  rintro ⟨a, s⟩ ⟨b, t⟩ (h | ⟨h1, h2, h3⟩)
  · exact .inl h
  · cases s with
    | none => exact absurd rfl h1
    | some s =>
      cases t with
      | none => exact absurd rfl h2
      | some t => exact .inr ⟨s, t, rfl, rfl, fun e => h3 (congrArg some e)⟩

theorem exDoc : IsDoc toy id exText "#Program Flex5".toList (.other "#Program Flex5".toList "Program".toList none) exItems :=
  ⟨⟨by decide +kernel, .inl rfl⟩, by decide +kernel, by decide +kernel, exGood,
    ⟨trivial, trivial, trivial, trivial, ⟨[], rfl, fun h => h.1 rfl⟩, trivial, ⟨"#Global_Mode1_Shape".toList, rfl, fun h => h.2 rfl⟩,
      ⟨"#Mass 3.0".toList, rfl, fun h => h.2 rfl⟩, trivial, trivial⟩, distinct_dec _ (by decide +kernel)⟩

theorem exGet2 (N : Num Str) (s : Str) (p q : (Str × Option Str) × Val Str)
    (h : (read N id s).toOption.map (fun d => (get d p.1.1 p.1.2, get d q.1.1 q.1.2)) = some (some p.2, some q.2)) :
    ∃ d, read N id s = .ok d ∧ get d p.1.1 p.1.2 = some p.2 ∧ get d q.1.1 q.1.2 = some q.2 := by
  cases e : read N id s with
  | error x => rw [e] at h; cases h
  | ok d =>
    rw [e] at h
    obtain ⟨h1, h2⟩ := Prod.mk.inj (Option.some.inj h)
    exact ⟨d, rfl, h1, h2⟩

theorem exGet (N : Num Str) (s : Str) (p : (Str × Option Str) × Val Str) (h : (read N id s).toOption.map (fun d => get d p.1.1 p.1.2) = some (some p.2)) :
    ∃ d, read N id s = .ok d ∧ get d p.1.1 p.1.2 = some p.2 := by
  cases e : read N id s with
  | error x => rw [e] at h; cases h
  | ok d =>
    rw [e] at h
    exact ⟨d, rfl, Option.some.inj h⟩

end Verif.FlexDoc
