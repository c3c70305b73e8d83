import Verif.Lemmas.Htc
/-! # Lemmas: sections without an end -/
namespace Verif.Htc
open Verif.Py Verif.FastLine

/-- the lines left when the number of open sections, `d` at first, falls to 0;
`none` when it never does -/
def closeAt : Nat → List Str → Option (List Str)
  | 0, ls => some ls
  | _ + 1, [] => none
  | d + 1, l :: r =>
    if isBegin l then closeAt (d + 2) r else if isEnd l then closeAt d r else closeAt (d + 1) r

/-- nothing in the line makes the reader raise: no value overflows, and the section
it may open is not `output_at_time` -/
def LineGood (P : Flt) (l : Str) : Prop :=
  (∀ w ∈ words (strip ((splitOn ';' l).headD [])), ∀ x, P.parse w = some x → P.kind x ≠ .inf) ∧
  (isBegin l = true → startsWith (lower ((strip ((splitOn ';' l).headD [])).drop 6)) "output_at_time".toList = false)

/-- single empty lines only, and not as last line -/
def BlanksOk : List Str → Prop
  | [] => True
  | [l] => strip l ≠ []
  | l :: l' :: r => (strip l ≠ [] ∨ strip l' ≠ []) ∧ BlanksOk (l' :: r)

theorem BlanksOk.tail {l : Str} {r : List Str} (h : BlanksOk (l :: r)) : BlanksOk r := by
  cases r with
  | nil => trivial
  | cons l' r => exact h.2

theorem BlanksOk.suffix {a b : List Str} (h : BlanksOk b) (hs : a <:+ b) : BlanksOk a := by
  induction b with
  | nil =>
    have : a = [] := List.suffix_nil.mp hs
    subst this
    trivial
  | cons l b ih =>
    rcases List.suffix_cons_iff.mp hs with rfl | hs
    · exact h
    · exact ih h.tail hs

theorem lower_dropWhile_nil (l : Str) (h : strip l = []) : ∀ c ∈ l, isWs c = true := by
  intro c hc
  by_contra hw
  have hw' : isWs c = false := by simpa using hw
  have hm : c ∈ strip l := by
    have h1 : ∀ (p : Char → Bool) (s : Str), c ∈ s → p c = false → c ∈ s.dropWhile p := by
      intro p s
      induction s with
      | nil => simp
      | cons a s ih =>
        intro hm hp
        by_cases ha : p a = true
        · rw [List.dropWhile_cons_of_pos ha]
          rcases List.mem_cons.mp hm with rfl | hm
          · rw [hp] at ha; simp at ha
          · exact ih hm hp
        · rw [List.dropWhile_cons_of_neg ha]; exact hm
    unfold strip stripBy rstripBy lstripBy
    rw [List.mem_reverse]
    exact h1 _ _ (by rw [List.mem_reverse]; exact h1 _ _ hc hw') hw'
  rw [h] at hm
  simp at hm

theorem toLower_ws (c : Char) (h : isWs c = true) : c.toLower = c := by
  unfold Char.toLower
  split
  · rename_i hu
    exfalso
    have h1 : 65 ≤ c.toNat := by simpa using UInt32.le_iff_toNat_le.mp hu.1
    have h2 : c.toNat ≤ 90 := by simpa using UInt32.le_iff_toNat_le.mp hu.2
    simp only [isWs, Bool.or_eq_true, Bool.and_eq_true, decide_eq_true_eq, beq_iff_eq] at h
    omega
  · rfl

theorem not_begin_ws (c : Char) (l : Str) (h : isWs c = true) : isBegin (c :: l) = false ∧ isEnd (c :: l) = false := by
  have hb : c ≠ 'b' := by rintro rfl; revert h; decide
  have he : c ≠ 'e' := by rintro rfl; revert h; decide
  constructor
  · simp only [isBegin, startsWith, lower, List.map_cons, toLower_ws c h]
    simp [List.isPrefixOf, Ne.symm hb]
  · simp only [isEnd, startsWith, lower, List.map_cons, toLower_ws c h]
    simp [List.isPrefixOf, Ne.symm he]

theorem blank_plain (l : Str) (h : strip l = []) : isBegin l = false ∧ isEnd l = false := by
  cases l with
  | nil => decide
  | cons c l => exact not_begin_ws c l (lower_dropWhile_nil _ h c (by simp))

theorem comment_plain (l : Str) (h : isComment l = true) : isBegin l = false ∧ isEnd l = false := by
  cases l with
  | nil => exact absurd h (by decide)
  | cons c l =>
    by_cases hw : isWs c = true
    · exact not_begin_ws c l hw
    · have : lstrip (c :: l) = c :: l := by
        simp [lstrip, lstripBy, hw]
      unfold isComment at h
      rw [this] at h
      simp [startsWith, List.isPrefixOf] at h
      subst h
      constructor <;> simp [isBegin, isEnd, startsWith, lower, List.isPrefixOf]

theorem closeAt_drop (d : Nat) (ls : List Str) :
    closeAt (d + 1) (ls.dropWhile isComment) = closeAt (d + 1) ls := by
  induction ls with
  | nil => rfl
  | cons l r ih =>
    by_cases h : isComment l = true
    · rw [List.dropWhile_cons_of_pos h, ih]
      obtain ⟨h1, h2⟩ := comment_plain l h
      simp [closeAt, h1, h2]
    · rw [List.dropWhile_cons_of_neg h]

theorem closeAt_bind (d e : Nat) (ls : List Str) :
    closeAt (d + (e + 1)) ls = (closeAt d ls).bind (closeAt (e + 1)) := by
  induction ls generalizing d with
  | nil =>
    cases d with
    | zero => simp [closeAt]
    | succ d => rw [show d + 1 + (e + 1) = (d + e + 1) + 1 by omega]; rfl
  | cons l r ih =>
    cases d with
    | zero => simp [closeAt]
    | succ d =>
      rw [show d + 1 + (e + 1) = (d + (e + 1)) + 1 by omega]
      simp only [closeAt]
      split
      · rw [show d + (e + 1) + 2 = (d + 2) + (e + 1) by omega]; exact ih (d + 2)
      · split
        · exact ih d
        · rw [show d + (e + 1) + 1 = (d + 1) + (e + 1) by omega]; exact ih (d + 1)

theorem closeAt_suffix (d : Nat) (ls r : List Str) (h : closeAt d ls = some r) : r <:+ ls := by
  induction ls generalizing d with
  | nil =>
    cases d with
    | zero => simp [closeAt] at h; subst h; exact List.suffix_rfl
    | succ d => simp [closeAt] at h
  | cons l ls ih =>
    cases d with
    | zero => simp [closeAt] at h; subst h; exact List.suffix_rfl
    | succ d =>
      simp only [closeAt] at h
      split at h
      · exact (ih _ h).trans (List.suffix_cons _ _)
      · split at h
        · exact (ih _ h).trans (List.suffix_cons _ _)
        · exact (ih _ h).trans (List.suffix_cons _ _)

theorem fmtAll_ok (P : Flt) (b : Str → Str) (ws : List Str)
    (h : ∀ w ∈ ws, ∀ x, P.parse w = some x → P.kind x ≠ .inf) : ∃ vs, fmtAll (fmtWith b P) ws = .ok vs := by
  induction ws with
  | nil => exact ⟨[], rfl⟩
  | cons w ws ih =>
    obtain ⟨vs, hvs⟩ := ih (fun w' hw' => h w' (by simp [hw']))
    have hw := h w (by simp)
    have : ∃ v, fmtWith b P w = .ok v := by
      unfold fmtWith
      cases hp : P.parse w with
      | none => exact ⟨_, rfl⟩
      | some x =>
        have := hw x hp
        cases hk : P.kind x with
        | int n => simp only [hk]; exact ⟨_, rfl⟩
        | frac => simp only [hk]; exact ⟨_, rfl⟩
        | nan => simp only [hk]; exact ⟨_, rfl⟩
        | inf => exact absurd hk this
    obtain ⟨v, hv⟩ := this
    exact ⟨v :: vs, by simp [fmtAll, hv, hvs]⟩

theorem lineFrom_ok (P : Flt) (l : Str) (rest : List Str) (h : LineGood P l) :
    ∃ nd, lineFrom P l rest = .ok (nd, rest.dropWhile isComment) := by
  unfold lineFrom
  simp only [parseNext]
  cases hw : words (strip ((splitOn ';' l).headD [])) with
  | nil => exact ⟨_, rfl⟩
  | cons n vs =>
    obtain ⟨xs, hxs⟩ := fmtAll_ok P slashes vs (fun w hw' => h.1 w (by rw [hw]; simp [hw']))
    have hxs' : fmtAll (fmtValue P) vs = .ok xs := hxs
    simp only [hxs']
    exact ⟨_, rfl⟩

theorem sensorFrom_ok (P : Flt) (l : Str) (rest : List Str) (h : LineGood P l) :
    ∃ s, sensorFrom P l rest = .ok (s, rest.dropWhile isComment) := by
  unfold sensorFrom
  simp only [parseNext]
  cases hw : words (strip ((splitOn ';' l).headD [])) with
  | nil => exact ⟨_, rfl⟩
  | cons n vs =>
    cases vs with
    | nil => exact ⟨_, rfl⟩
    | cons s vs =>
      obtain ⟨xs, hxs⟩ := fmtAll_ok P id vs (fun w hw' => h.1 w (by rw [hw]; simp [hw']))
      have hxs' : fmtAll (fmtSensor P) vs = .ok xs := hxs
      simp only [hxs']
      exact ⟨_, rfl⟩

theorem wordsAux_ne_nil (acc s : Str) (ha : acc ≠ []) : wordsAux acc s ≠ [] := by
  induction s generalizing acc with
  | nil => simp [wordsAux, ha]
  | cons a s ih =>
    simp only [wordsAux]
    split
    · simp
    · exact ih _ (by simp)

theorem words_ne_nil (l : Str) (h : strip l ≠ []) : words l ≠ [] := by
  intro hw
  apply h
  have hall : ∀ c ∈ l, isWs c = true := by
    clear h
    induction l with
    | nil => simp
    | cons c l ih =>
      by_cases hc : isWs c = true
      · rw [words_cons_ws c l hc] at hw
        intro d hd
        rcases List.mem_cons.mp hd with rfl | hd
        · exact hc
        · exact ih hw d hd
      · exfalso
        unfold words at hw
        simp only [wordsAux] at hw
        rw [if_neg hc] at hw
        exact wordsAux_ne_nil _ _ (by simp) hw
  have : l.dropWhile isWs = [] := by
    clear hw h
    induction l with
    | nil => rfl
    | cons c l ih =>
      rw [List.dropWhile_cons_of_pos (hall c (by simp))]
      exact ih (fun d hd => hall d (by simp [hd]))
  unfold strip stripBy lstripBy
  rw [this]
  rfl

theorem lineFromLine_ok (P : Flt) (k : Kind P.F) (l : Str) (rest : List Str) (h : LineGood P l)
    (hb : strip l ≠ []) : ∃ x, lineFromLine P k l rest = .ok (x, rest.dropWhile isComment) := by
  obtain ⟨nd, hn⟩ := lineFrom_ok P l rest h
  obtain ⟨s, hs⟩ := sensorFrom_ok P l rest h
  unfold lineFromLine
  have hwords := words_ne_nil l hb
  cases k with
  | plain => rw [hn]; exact ⟨_, rfl⟩
  | output =>
    simp only
    cases hw : words l with
    | nil => exact absurd hw hwords
    | cons w ws =>
      simp only
      split
      · rw [hn]; exact ⟨_, rfl⟩
      · rw [hs]; exact ⟨_, rfl⟩
  | atTime _ _ =>
    simp only
    cases hw : words l with
    | nil => exact absurd hw hwords
    | cons w ws =>
      simp only
      split
      · rw [hn]; exact ⟨_, rfl⟩
      · rw [hs]; exact ⟨_, rfl⟩

theorem openKind_ok (P : Flt) (name : Str) (h : startsWith name "output_at_time".toList = false) :
    ∃ k n, openKind P name = .ok (k, n) := by
  unfold openKind
  by_cases h1 : name = "output".toList
  · rw [if_pos h1]; exact ⟨_, _, rfl⟩
  · rw [if_neg h1, if_neg (by rw [h]; simp)]; exact ⟨_, _, rfl⟩

theorem openSec_ok (P : Flt) (l : Str) (rest : List Str) (h : LineGood P l) (hb : isBegin l = true) :
    ∃ k n bc, openSec P l rest = .ok (k, n, bc, rest.dropWhile isComment) := by
  obtain ⟨k, n, hk⟩ := openKind_ok P _ (h.2 hb)
  unfold openSec
  simp only [parseNext, hk]
  exact ⟨_, _, _, rfl⟩

/-- reading a section succeeds when its sections are closed, and reports a missing
end otherwise -/
theorem secLoop_close (P : Flt) : ∀ (n : Nat) (k : Kind P.F) (nm bc : Str) (keys : List Str)
    (items : List (Node P.F)) (sens : List (Sensor P.F)) (ls : List Str), ls.length < n →
    BlanksOk ls → (∀ l ∈ ls, LineGood P l) →
    (closeAt 1 ls = none → ∃ m, secLoop P n k nm bc keys items sens ls = .error (.noEnd m)) ∧
    (∀ r, closeAt 1 ls = some r →
      ∃ nd, secLoop P n k nm bc keys items sens ls = .ok (nd, r.dropWhile isComment)) := by
  intro n
  induction n with
  | zero => intro k nm bc keys items sens ls hl; omega
  | succ n ih =>
    intro k nm bc keys items sens ls hl hbl hg
    cases ls with
    | nil => exact ⟨fun _ => ⟨nm, rfl⟩, fun r h => by simp [closeAt] at h⟩
    | cons l0 rest0 =>
      -- the line that is looked at
      obtain ⟨l, rest, hs, hnb, hsuf, hca⟩ : ∃ l rest, skipBlank (l0 :: rest0) = l :: rest ∧ strip l ≠ [] ∧
          (l :: rest) <:+ (l0 :: rest0) ∧ closeAt 1 (l0 :: rest0) = closeAt 1 (l :: rest) := by
        by_cases hb : strip l0 = []
        · cases rest0 with
          | nil => exact absurd hb hbl
          | cons l1 r1 =>
            refine ⟨l1, r1, by simp [skipBlank, hb], ?_, List.suffix_cons _ _, ?_⟩
            · rcases hbl.1 with h | h
              · exact absurd hb h
              · exact h
            · obtain ⟨h1, h2⟩ := blank_plain l0 hb
              conv_lhs => rw [closeAt]
              rw [h1, h2]
              simp
        · exact ⟨l0, rest0, by simp [skipBlank, hb], hb, List.suffix_rfl, rfl⟩
      have hlen := hsuf.length_le
      simp only [List.length_cons] at hlen hl
      have hmem : ∀ x ∈ l :: rest, LineGood P x := fun x hx => hg x (hsuf.subset hx)
      have hdw := length_dropWhile_le isComment rest
      have hsub : rest.dropWhile isComment <:+ (l0 :: rest0) :=
        (List.dropWhile_suffix _).trans ((List.suffix_cons _ _).trans hsuf)
      have hb1 := hbl.suffix hsub
      have hg1 : ∀ x ∈ rest.dropWhile isComment, LineGood P x := fun x hx => hg x (hsub.subset hx)
      rw [hca]
      simp only [secLoop, hs]
      by_cases hbeg : isBegin l = true
      · obtain ⟨k', n', bc', ho⟩ := openSec_ok P l rest (hmem l (by simp)) hbeg
        simp only [hbeg, if_true, ho, closeAt]
        have hcb : closeAt (0 + 2) rest = (closeAt 1 (rest.dropWhile isComment)).bind (closeAt 1) := by
          rw [closeAt_drop 0 rest]
          exact closeAt_bind 1 0 rest
        rw [hcb]
        obtain ⟨e1, e2⟩ := ih k' n' bc' [] [] [] (rest.dropWhile isComment) (by omega) hb1 hg1
        cases hc : closeAt 1 (rest.dropWhile isComment) with
        | none =>
          obtain ⟨m, hm⟩ := e1 hc
          refine ⟨fun _ => ⟨m, by rw [hm]⟩, fun r h => ?_⟩
          simp at h
        | some r1 =>
          obtain ⟨nd, hnd⟩ := e2 r1 hc
          simp only [hnd, Option.bind_some]
          have hs1 := closeAt_suffix 1 _ _ hc
          have hs2 : r1.dropWhile isComment <:+ (l0 :: rest0) :=
            (List.dropWhile_suffix _).trans (hs1.trans hsub)
          have hl1 := (List.dropWhile_suffix isComment (l := r1)).length_le
          have hl2 := hs1.length_le
          have := ih k nm bc (addContents keys items nd).1 (addContents keys items nd).2 sens
            (r1.dropWhile isComment) (by omega) (hbl.suffix hs2) (fun x hx => hg x (hs2.subset hx))
          rw [closeAt_drop 0 r1] at this
          exact this
      · simp only [hbeg, closeAt]
        by_cases hend : isEnd l = true
        · simp only [hend, if_true]
          refine ⟨fun h => by simp at h, fun r h => ?_⟩
          simp at h
          subst h
          exact ⟨_, rfl⟩
        · simp only [hend]
          obtain ⟨x, hx⟩ := lineFromLine_ok P k l rest (hmem l (by simp)) hnb
          simp only [Bool.false_eq_true, if_false, hx]
          cases x with
          | inl nd =>
            have := ih k nm bc (addContents keys items nd).1 (addContents keys items nd).2 sens
              (rest.dropWhile isComment) (by omega) hb1 hg1
            rw [closeAt_drop 0 rest] at this
            exact this
          | inr s =>
            have := ih k nm bc keys items (sens ++ [s]) (rest.dropWhile isComment) (by omega) hb1 hg1
            rw [closeAt_drop 0 rest] at this
            exact this

end Verif.Htc
