import Verif.Spec.FlexPro
import Verif.Py.Dec
import Mathlib.Data.List.Forall2
import Mathlib.Tactic
/-!
# Lemmas on a FLEX profile file
-/
namespace Verif.FlexPro
open Verif.Py
open Verif.Rosco (fitRow)

theorem mapM_says {F : Type} (φ : Num F) (ws : List Str) (v : List F)
    (h : List.Forall₂ (fun w x => φ.parse w = some x) ws v) : ws.mapM φ.parse = some v := by
  induction h with
  | nil => rfl
  | cons h _ ih => rw [List.mapM_cons, h, ih]; rfl

theorem readRows_ok {F : Type} (φ : Num F) (ls : List Str) (m : List (List F)) (rest : List Str)
    (h : List.Forall₂ (Says φ) ls m) (h4 : ∀ r ∈ m, r.length = 4) :
    readRows φ ls.length (ls ++ rest) = .ok (m, rest) := by
  induction h with
  | nil => rfl
  | @cons l r ls m h _ ih =>
    rw [List.length_cons, readRows]
    simp only [List.cons_append, List.headD_cons, List.tail_cons]
    rw [mapM_says φ _ _ h, ih (fun r hr => h4 r (List.mem_cons_of_mem _ hr))]
    have : fitRow 4 r = some r := by
      unfold fitRow; rw [if_pos (h4 r (by simp))]
    rw [Option.bind_some, this]

theorem readRows_cut {F : Type} (φ : Num F) (n : Nat) (ls : List Str) (m : List (List F))
    (h : List.Forall₂ (Says φ) ls m) (h4 : ∀ r ∈ m, r.length = 4) (hn : ls.length < n) :
    readRows φ n ls = .error .broken := by
  induction h generalizing n with
  | nil =>
    obtain ⟨n, rfl⟩ : ∃ k, n = k + 1 := ⟨n - 1, by simp at hn; omega⟩
    rfl
  | @cons l r ls m h _ ih =>
    obtain ⟨n, rfl⟩ : ∃ k, n = k + 1 := ⟨n - 1, by simp at hn; omega⟩
    rw [readRows]
    simp only [List.headD_cons, List.tail_cons]
    have : fitRow 4 r = some r := by
      unfold fitRow; rw [if_pos (h4 r (by simp))]
    rw [mapM_says φ _ _ h, Option.bind_some, this]
    simp only
    rw [ih n (fun r hr => h4 r (List.mem_cons_of_mem _ hr)) (by simp at hn; omega)]

theorem readPolars_ok {F : Type} (φ : Num F) (n : Nat) (ps : List PolarText) (ms : List (List (List F))) (ts : List F)
    (rest : List Str) (hl : ps.length = ts.length) (hn : ∀ p ∈ ps, p.rows.length = n)
    (h : List.Forall₂ (fun (p : PolarText) m => List.Forall₂ (Says φ) p.rows m ∧ ∀ r ∈ m, r.length = 4) ps ms) :
    readPolars φ n ts (ps.flatMap PolarText.lines ++ rest) = .ok (ms, ps.map (fun p => strip p.head), rest) := by
  induction h generalizing ts with
  | nil =>
    obtain rfl : ts = [] := by simpa using hl.symm
    rfl
  | @cons p m ps ms h _ ih =>
    cases ts with
    | nil => simp at hl
    | cons t ts =>
      rw [readPolars, if_neg (by omega)]
      simp only [List.flatMap_cons, PolarText.lines, List.cons_append, List.tail_cons, List.headD_cons, Int.toNat_natCast]
      rw [List.append_assoc, ← hn p (by simp), readRows_ok φ p.rows m _ h.1 h.2, hn p (by simp)]
      simp only
      rw [ih ts (by simpa using hl) (fun q hq => hn q (List.mem_cons_of_mem _ hq))]
      rfl

theorem readPolars_cut {F : Type} (φ : Num F) (n : Nat) (h1 : 1 ≤ n) (ps : List PolarText) (ms : List (List (List F))) (ts : List F)
    (k : Nat) (hl : ps.length = ts.length) (hn : ∀ p ∈ ps, p.rows.length = n)
    (h : List.Forall₂ (fun (p : PolarText) m => List.Forall₂ (Says φ) p.rows m ∧ ∀ r ∈ m, r.length = 4) ps ms)
    (hk : k < (ps.flatMap PolarText.lines).length) :
    readPolars φ n ts ((ps.flatMap PolarText.lines).take k) = .error .broken := by
  induction h generalizing ts k with
  | nil => simp at hk
  | @cons p m ps ms h _ ih =>
    cases ts with
    | nil => simp at hl
    | cons t ts =>
      rw [readPolars, if_neg (by omega)]
      have hpn := hn p (by simp)
      by_cases hc : k < n + 1
      · have e : ((p :: ps).flatMap PolarText.lines).take k = ((p.head :: p.rows).take k) := by
          rw [List.flatMap_cons, PolarText.lines, List.take_append_of_le_length (by simp; omega)]
        have e2 : ((p.head :: p.rows).take k).tail = p.rows.take (k - 1) := by
          cases k with
          | zero => simp
          | succ k => simp
        rw [e, e2, Int.toNat_natCast]
        have hf := List.forall₂_take (k - 1) h.1
        rw [readRows_cut φ n _ _ hf (fun r hr => h.2 r (List.mem_of_mem_take hr)) (by rw [List.length_take]; omega)]
      · obtain ⟨j, rfl⟩ : ∃ j, k = (n + 1) + j := ⟨k - (n + 1), by omega⟩
        have hpl : (p.head :: p.rows).length = n + 1 := by simp [hpn]
        have e : ((p :: ps).flatMap PolarText.lines).take (n + 1 + j) =
            p.head :: (p.rows ++ (ps.flatMap PolarText.lines).take j) := by
          rw [List.flatMap_cons, PolarText.lines, ← hpl, List.take_length_add_append]
          rfl
        rw [e]
        simp only [List.tail_cons, Int.toNat_natCast]
        rw [← hpn, readRows_ok φ p.rows m _ h.1 h.2, hpn]
        simp only
        rw [ih ts j (by simpa using hl) (fun q hq => hn q (List.mem_cons_of_mem _ hq))
          (by rw [List.flatMap_cons, List.length_append] at hk; simp only [PolarText.lines] at hk ⊢; omega)]

theorem lower_length (s : Str) : (lower s).length = s.length := by simp [lower]

theorem titleOf_ok (t : Str) (v : Str)
    (h : (∃ w r, lower w = "profile set".toList ∧ t = w ++ r ∧ v = r) ∨
      ((¬ ∃ w r, lower w = "profile set".toList ∧ t = w ++ r) ∧ v = t)) : titleOf t = v := by
  rcases h with ⟨w, r, hw, rfl, rfl⟩ | ⟨h, rfl⟩
  · unfold titleOf
    have hl : w.length = 11 := by rw [← lower_length, hw]; decide +kernel
    rw [if_pos, List.drop_left' hl]
    rw [← hw]
    unfold startsWith lower
    rw [List.isPrefixOf_iff_prefix, List.map_append]
    exact ⟨_, rfl⟩
  · unfold titleOf
    rw [if_neg]
    intro hp
    apply h
    unfold startsWith at hp
    rw [List.isPrefixOf_iff_prefix] at hp
    obtain ⟨r, hr⟩ := hp
    refine ⟨v.take 11, v.drop 11, ?_, (List.take_append_drop 11 v).symm⟩
    have : (lower v).take 11 = "profile set".toList := by
      rw [← hr]; exact List.take_left' (by decide +kernel)
    rw [← this]
    unfold lower
    rw [List.map_take]

theorem readHeader_ok {F : Type} (φ : Num F) (e : Bool) (s : SetText) (v : PSet F) (h : s.Ok φ v) (n : Nat)
    (hn : φ.int (strip s.nAlpha) = some (n : Int)) (rest : List Str) :
    readHeader φ e (s.title :: s.nThick :: s.thick :: s.nAlpha :: rest) = .ok (n, v.thickness, v.header, rest) := by
  rw [readHeader]
  simp only [h.nThick, mapM_says φ _ _ h.thick, hn]
  rw [if_neg (by simp), titleOf_ok _ _ h.title]

theorem set_lines_len (s : SetText) : s.lines.length = 4 + (s.polars.flatMap PolarText.lines).length := by
  simp [SetText.lines]; omega

/-- reading whole sets -/
theorem readSets_ok {F : Type} (φ : Num F) (ss : List SetText) (vs : List (PSet F)) (h : List.Forall₂ (SetText.Ok φ) ss vs)
    (f : Nat) (e : Bool) (tail : List Str) (hf : ss.length < f) :
    readSets φ f e (ss.flatMap SetText.lines ++ tail) =
      (readSets φ (f - ss.length) (e && ss.isEmpty) tail).map (vs ++ ·) := by
  induction h generalizing f e with
  | nil =>
    simp only [List.flatMap_nil, List.nil_append, List.length_nil, Nat.sub_zero, List.isEmpty_nil, Bool.and_true]
    cases readSets φ f e tail <;> rfl
  | @cons s v ss vs h _ ih =>
    obtain ⟨f, rfl⟩ : ∃ k, f = k + 1 := ⟨f - 1, by simp at hf; omega⟩
    obtain ⟨n, -, hn, hrows⟩ := h.nAlpha
    rw [readSets, List.flatMap_cons, SetText.lines]
    simp only [List.cons_append]
    rw [readHeader_ok φ _ s v h n hn]
    simp only
    rw [if_neg h.some_thick, List.append_assoc, readPolars_ok φ n _ _ _ _ h.count hrows h.rows]
    simp only
    rw [ih f false (by simp at hf; omega)]
    simp only [Bool.false_and, List.isEmpty_cons, Bool.and_false, List.length_cons, Nat.add_sub_add_right]
    rw [← h.heads]
    cases readSets φ (f - ss.length) false tail <;> rfl

theorem readSets_short {F : Type} (φ : Num F) (f : Nat) (tail : List Str) (ht : tail.length < 4) :
    readSets φ (f + 1) false tail = .ok [] := by
  rw [readSets]
  have : readHeader φ (!false) tail = .ok (0, [], [], []) := by
    match tail, ht with
    | [], _ => rfl
    | [_], _ => rfl
    | [_, _], _ => rfl
    | [_, _, _], _ => rfl
  rw [this]
  rfl

theorem flat_len (ss : List SetText) : ss.length ≤ (ss.flatMap SetText.lines).length := by
  induction ss with
  | nil => simp
  | cons s ss ih => rw [List.flatMap_cons, List.length_append, set_lines_len]; simp only [List.length_cons]; omega

theorem fit_bad {F : Type} (φ : Num F) (bad : Str)
    (hbad : (words bad).length ≠ 4 ∧ (words bad).length ≠ 1 ∨ ∃ w ∈ words bad, φ.parse w = none) :
    ((words bad).mapM φ.parse).bind (fitRow 4) = none := by
  rcases hbad with ⟨h4, h1⟩ | ⟨w, hw, hn⟩
  · cases e : (words bad).mapM φ.parse with
    | none => rfl
    | some r =>
      have hl : r.length = (words bad).length := by
        generalize words bad = ws at e
        clear h4 h1
        induction ws generalizing r with
        | nil => simp at e; subst e; rfl
        | cons w ws ih =>
          rw [List.mapM_cons] at e
          cases hw : φ.parse w with
          | none => simp [hw] at e
          | some x =>
            cases hws : ws.mapM φ.parse with
            | none => simp [hw, hws] at e
            | some y =>
              simp [hw, hws] at e
              subst e
              simp [ih y hws]
      rw [Option.bind_some]
      unfold fitRow
      rw [if_neg (by omega)]
      match r, hl with
      | [], _ => rfl
      | [_], hl => simp at hl; omega
      | _ :: _ :: _, _ => rfl
  · have : (words bad).mapM φ.parse = none := by
      generalize words bad = ws at hw
      induction ws with
      | nil => simp at hw
      | cons w' ws ih =>
        rw [List.mapM_cons]
        rcases List.mem_cons.1 hw with rfl | hw
        · rw [hn]; rfl
        · rw [ih hw]
          cases φ.parse w' <;> rfl
    rw [this]; rfl

theorem readRows_bad {F : Type} (φ : Num F) (good : List Str) (r0 : Str) (rs : List Str) (m : List (List F))
    (h : List.Forall₂ (Says φ) (good ++ r0 :: rs) m) (h4 : ∀ r ∈ m, r.length = 4) (bad : Str) (rest : List Str)
    (hbad : ((words bad).mapM φ.parse).bind (fitRow 4) = none) :
    readRows φ (good ++ r0 :: rs).length (good ++ bad :: rest) = .error .broken := by
  induction good generalizing m with
  | nil =>
    rw [List.nil_append, List.nil_append, List.length_cons, readRows]
    simp only [List.headD_cons, hbad]
  | cons l good ih =>
    cases h with
    | @cons _ r _ m h hm =>
      rw [List.cons_append, List.cons_append, List.length_cons, readRows]
      simp only [List.headD_cons, List.tail_cons]
      have : fitRow 4 r = some r := by
        unfold fitRow; rw [if_pos (h4 r (by simp))]
      rw [mapM_says φ _ _ h, Option.bind_some, this]
      simp only
      rw [ih m hm (fun r hr => h4 r (List.mem_cons_of_mem _ hr))]

theorem readPolars_bad {F : Type} (φ : Num F) (n : Nat) (pre : List PolarText) (p : PolarText) (post : List PolarText)
    (ms : List (List (List F))) (ts : List F) (hl : (pre ++ p :: post).length = ts.length)
    (hn : ∀ q ∈ pre ++ p :: post, q.rows.length = n)
    (h : List.Forall₂ (fun (p : PolarText) m => List.Forall₂ (Says φ) p.rows m ∧ ∀ r ∈ m, r.length = 4) (pre ++ p :: post) ms)
    (good : List Str) (r0 : Str) (rs : List Str) (hr : p.rows = good ++ r0 :: rs) (bad : Str) (rest : List Str)
    (hbad : ((words bad).mapM φ.parse).bind (fitRow 4) = none) :
    readPolars φ n ts (pre.flatMap PolarText.lines ++ (p.head :: (good ++ bad :: rest))) = .error .broken := by
  induction pre generalizing ts ms with
  | nil =>
    cases h with
    | @cons _ m _ ms h _ =>
      cases ts with
      | nil => simp at hl
      | cons t ts =>
        rw [readPolars, if_neg (by omega), List.flatMap_nil, List.nil_append, List.tail_cons, Int.toNat_natCast,
          ← hn p (by simp), hr, readRows_bad φ good r0 rs m (by rw [← hr]; exact h.1) h.2 bad rest hbad]
  | cons q pre ih =>
    cases h with
    | @cons _ m _ ms h hms =>
      cases ts with
      | nil => simp at hl
      | cons t ts =>
        rw [readPolars, if_neg (by omega), List.flatMap_cons, PolarText.lines, List.cons_append, List.cons_append,
          List.tail_cons, Int.toNat_natCast, ← hn q (by simp), List.append_assoc, readRows_ok φ q.rows m _ h.1 h.2, hn q (by simp)]
        simp only
        rw [ih ms ts (by simpa using hl) (fun q hq => hn q (List.mem_cons_of_mem _ hq)) hms]

theorem toDigits_inj (a b : Nat) (h : Nat.toDigits 10 a = Nat.toDigits 10 b) : a = b := by
  have := congrArg (Nat.ofDigitChars 10 · 0) h
  simpa [Nat.ofDigitChars_toDigits] using this

/-- names of different sets differ -/
theorem frameName_inj {F : Type} (str : F → Str) (i j : Nat) (s t : F) (h : frameName str i s = frameName str j t) :
    i = j ∧ str s = str t := by
  unfold frameName at h
  rw [List.append_assoc, List.append_assoc, List.append_assoc, List.append_assoc, List.append_cancel_left_eq] at h
  have key : ∀ (a b x y : Str), (∀ c ∈ a, c.isDigit = true) → (∀ c ∈ b, c.isDigit = true) →
      a ++ ('_' :: x) = b ++ ('_' :: y) → a = b ∧ x = y := by
    intro a
    induction a with
    | nil =>
      intro b x y _ hb h
      cases b with
      | nil => simpa using h
      | cons c b =>
        simp only [List.nil_append, List.cons_append, List.cons.injEq] at h
        have := hb c (by simp)
        rw [← h.1] at this
        exact absurd this (by decide)
    | cons d a ih =>
      intro b x y ha hb h
      cases b with
      | nil =>
        simp only [List.nil_append, List.cons_append, List.cons.injEq] at h
        have := ha d (by simp)
        rw [h.1] at this
        exact absurd this (by decide)
      | cons c b =>
        simp only [List.cons_append, List.cons.injEq] at h
        obtain ⟨e, e'⟩ := ih b x y (fun c hc => ha c (List.mem_cons_of_mem _ hc)) (fun c hc => hb c (List.mem_cons_of_mem _ hc)) h.2
        exact ⟨by rw [h.1, e], e'⟩
  obtain ⟨hd, hr⟩ := key _ _ _ _ (fun c hc => Nat.isDigit_of_mem_toDigits (by decide) (by decide) hc)
    (fun c hc => Nat.isDigit_of_mem_toDigits (by decide) (by decide) hc) h
  have := toDigits_inj _ _ hd
  refine ⟨by omega, ?_⟩
  simpa using hr

theorem foldl_setKey {α : Type} (l d : List (Str × α)) (h : ((d ++ l).map Prod.fst).Nodup) :
    l.foldl (fun d p => setKey d p.1 p.2) d = d ++ l := by
  induction l generalizing d with
  | nil => simp
  | cons p l ih =>
    rw [List.foldl_cons]
    have hs : setKey d p.1 p.2 = d ++ [p] := by
      unfold setKey
      rw [if_neg]
      intro hc
      obtain ⟨q, hq, he⟩ := List.any_eq_true.1 hc
      have he' : q.1 = p.1 := by simpa using he
      rw [List.map_append, List.nodup_append] at h
      exact h.2.2 q.1 (List.mem_map_of_mem hq) p.1 (List.mem_map_of_mem (by simp)) he'
    rw [hs, ih (d ++ [p]) (by simpa using h), List.append_assoc, List.singleton_append]

end Verif.FlexPro
