import Verif.Spec.Rosco
import Verif.Lemmas.Lin
/-! # Lemmas on ROSCO performance files -/
namespace Verif.Rosco
open Verif.Py Verif.FastLine
open Verif.Lin (has has_iff has_false getLast_or)

/-- the state after a part -/
def put {F : Type} (d : Perf F) : Block F → Perf F
  | .other _ => d
  | .vec .pitch _ _ v => { d with pitch := some v }
  | .vec .tsr _ _ v => { d with tsr := some v }
  | .vec .ws _ _ v => { d with ws := some v }
  | .tab .cp _ _ _ m => { d with cp := some m }
  | .tab .ct _ _ _ m => { d with ct := some m }
  | .tab .cq _ _ _ m => { d with cq := some m }
  | _ => d

theorem mapM_says {F : Type} (parse : Str → Option F) (ws : List Str) (v : List F)
    (h : List.Forall₂ (fun w x => parse w = some x) ws v) : ws.mapM parse = some v := by
  induction h with
  | nil => rfl
  | cons h1 _ ih => rw [List.mapM_cons, h1, ih]; rfl

theorem vector_says {F : Type} (parse : Str → Option F) (l : Str) (v : List F) (h : Says parse l v) :
    vector parse l = some v := by
  unfold vector
  rw [words_strip]
  exact mapM_says parse _ _ h

theorem rowsN_says {F : Type} (parse : Str → Option F) (nP : Nat) (ls : List Str) (m : List (List F)) (rest : List Str)
    (h : List.Forall₂ (Says parse) ls m) (hw : ∀ r ∈ m, r.length = nP) :
    rowsN parse nP m.length (ls ++ rest) = .ok (m, rest) := by
  induction h with
  | nil => rfl
  | cons h1 _ ih =>
    rename_i l r ls m _
    rw [List.length_cons, rowsN]
    have : (vector parse ((l :: ls ++ rest).headD [])).bind (fitRow nP) = some r := by
      show (vector parse l).bind _ = _
      rw [vector_says parse l r h1]
      show fitRow nP r = _
      unfold fitRow
      rw [if_pos (hw r (by simp))]
    rw [this]
    simp only
    show (match rowsN parse nP m.length (ls ++ rest) with
      | .error e => _
      | .ok (rs, rest) => _) = _
    rw [ih (fun r hr => hw r (by simp [hr]))]

/-- rows missing at the end of the file -/
theorem rowsN_short {F : Type} (parse : Str → Option F) (nP n : Nat) (ls : List Str) (hP : 1 ≤ nP) (hn : ls.length < n) :
    ∃ e, rowsN parse nP n ls = .error e := by
  induction n generalizing ls with
  | zero => omega
  | succ n ih =>
    rw [rowsN]
    cases hv : (vector parse (ls.headD [])).bind (fitRow nP) with
    | none => exact ⟨_, rfl⟩
    | some r =>
      simp only
      cases ls with
      | nil =>
        exfalso
        have : vector parse (([] : List Str).headD []) = some [] := rfl
        rw [this] at hv
        simp only [Option.bind_some, fitRow, List.length_nil] at hv
        rw [if_neg (by omega)] at hv
        simp at hv
      | cons l ls =>
        obtain ⟨e, he⟩ := ih ls (by simp at hn; omega)
        rw [List.tail_cons, he]
        exact ⟨e, rfl⟩

/-- a line that is no title -/
theorem step_other {F : Type} (parse : Str → Option F) (d : Perf F) (l : Str) (rest : List Str)
    (h : ∀ k ∈ kinds, ¬ k.word <:+: l) : step parse d l rest = .ok (d, rest) := by
  have f : ∀ k ∈ kinds, has k.word l = false := fun k hk => has_false _ _ (h k hk)
  unfold step
  rw [show has "Pitch angle".toList l = false from f .pitch (by decide), show has "TSR".toList l = false from f .tsr (by decide),
    show has "Wind speed".toList l = false from f .ws (by decide), show has "Power".toList l = false from f .cp (by decide),
    show has "Thrust".toList l = false from f .ct (by decide), show has "Torque".toList l = false from f .cq (by decide)]
  rfl

/-- the title of a table -/
theorem step_tab {F : Type} (parse : Str → Option F) (d : Perf F) (k : Kind) (hk : k = .cp ∨ k = .ct ∨ k = .cq) (l : Str)
    (rest : List Str) (h : IsTitle k l) :
    step parse d l rest =
      match table parse d rest with
      | .error e => .error e
      | .ok (m, rest) => .ok (put d (.tab k l [] [] m), rest) := by
  obtain ⟨h1, h2⟩ := h
  have h1 := (has_iff _ _).2 h1
  have f : ∀ k' ∈ kinds.takeWhile (· ≠ k), has k'.word l = false := fun k hk => has_false _ _ (h2 k hk)
  unfold step
  rcases hk with rfl | rfl | rfl
  · rw [show has "Pitch angle".toList l = false from f .pitch (by decide), show has "TSR".toList l = false from f .tsr (by decide),
      show has "Wind speed".toList l = false from f .ws (by decide), show has "Power".toList l = true from h1]
    rfl
  · rw [show has "Pitch angle".toList l = false from f .pitch (by decide), show has "TSR".toList l = false from f .tsr (by decide),
      show has "Wind speed".toList l = false from f .ws (by decide), show has "Power".toList l = false from f .cp (by decide),
      show has "Thrust".toList l = true from h1]
    rfl
  · rw [show has "Pitch angle".toList l = false from f .pitch (by decide), show has "TSR".toList l = false from f .tsr (by decide),
      show has "Wind speed".toList l = false from f .ws (by decide), show has "Power".toList l = false from f .cp (by decide),
      show has "Thrust".toList l = false from f .ct (by decide), show has "Torque".toList l = true from h1]
    rfl

/-- the title of a vector -/
theorem step_vec {F : Type} (parse : Str → Option F) (d : Perf F) (k : Kind) (hk : k = .pitch ∨ k = .tsr ∨ k = .ws) (l : Str)
    (rest : List Str) (h : IsTitle k l) :
    step parse d l rest =
      match vector parse (rest.headD []) with
      | none => .error .value
      | some v => .ok (put d (.vec k l [] v), rest.tail) := by
  obtain ⟨h1, h2⟩ := h
  have h1 := (has_iff _ _).2 h1
  have f : ∀ k' ∈ kinds.takeWhile (· ≠ k), has k'.word l = false := fun k hk => has_false _ _ (h2 k hk)
  unfold step
  rcases hk with rfl | rfl | rfl
  · rw [show has "Pitch angle".toList l = true from h1]
    rfl
  · rw [show has "Pitch angle".toList l = false from f .pitch (by decide), show has "TSR".toList l = true from h1]
    rfl
  · rw [show has "Pitch angle".toList l = false from f .pitch (by decide), show has "TSR".toList l = false from f .tsr (by decide),
      show has "Wind speed".toList l = true from h1]
    rfl

/-- the sizes of the vectors read so far -/
def Sized {F : Type} (nP nT : Nat) (d : Perf F) : Prop :=
  (∀ p, d.pitch = some p → p.length = nP) ∧ ∀ t, d.tsr = some t → t.length = nT

theorem sized_put {F : Type} (parse : Str → Option F) (nP nT : Nat) (d : Perf F) (b : Block F) (h : Sized nP nT d)
    (hb : b.Ok parse nP nT) : Sized nP nT (put d b) := by
  obtain ⟨h1, h2⟩ := h
  cases b with
  | other l => exact ⟨h1, h2⟩
  | vec k t l v =>
    obtain ⟨hk, -, -⟩ := hb
    rcases hk with ⟨rfl, hk⟩ | ⟨rfl, hk⟩ | rfl
    · exact ⟨fun p hp => by cases hp; exact hk, h2⟩
    · exact ⟨h1, fun p hp => by cases hp; exact hk⟩
    · exact ⟨h1, h2⟩
  | tab k t s ls m => cases k <;> exact ⟨h1, h2⟩

/-- one part -/
theorem step_block {F : Type} (parse : Str → Option F) (nP nT : Nat) (d : Perf F) (b : Block F) (rest : List Str)
    (hs : Sized nP nT d) (hb : b.Ok parse nP nT) (ht : b.isTab → d.pitch.isSome ∧ d.tsr.isSome) :
    ∃ l ls, b.lines = l :: ls ∧ step parse d l (ls ++ rest) = .ok (put d b, rest) := by
  cases b with
  | other l => exact ⟨l, [], rfl, step_other parse d l rest hb⟩
  | vec k t l v =>
    obtain ⟨hk, h1, h2⟩ := hb
    refine ⟨t, [l], rfl, ?_⟩
    rw [step_vec parse d k (by tauto) t _ h1]
    show (match vector parse l with | none => _ | some v => _) = _
    rw [vector_says parse l v h2]
    cases k <;> rfl
  | tab k t s ls m =>
    obtain ⟨hk, h1, h2, h3, h4⟩ := hb
    refine ⟨t, s :: ls, rfl, ?_⟩
    obtain ⟨hp, hq⟩ := ht trivial
    obtain ⟨p, hp⟩ := Option.isSome_iff_exists.1 hp
    obtain ⟨q, hq⟩ := Option.isSome_iff_exists.1 hq
    rw [step_tab parse d k hk t _ h1]
    have : table parse d (s :: ls ++ rest) = .ok (m, rest) := by
      unfold table
      rw [hp, hq]
      simp only
      rw [hs.1 p hp, hs.2 q hq, ← h3]
      exact rowsN_says parse nP ls m rest h2 h4
    rw [this]
    cases k <;> rfl

/-- the vector of a part, if it is one of kind `k` -/
def vecOf {F : Type} (k : Kind) : Block F → Option (List F)
  | .vec k' _ _ v => if k' = k then some v else none
  | _ => none

/-- the table of a part, if it is one of kind `k` -/
def tabOf {F : Type} (k : Kind) : Block F → Option (List (List F))
  | .tab k' _ _ _ m => if k' = k then some m else none
  | _ => none

theorem lastVec_cons {F : Type} (k : Kind) (b : Block F) (bs : List (Block F)) :
    lastVec k (b :: bs) = (lastVec k bs).or (vecOf k b) := by
  unfold lastVec
  rw [getLast_or]
  rfl

theorem lastTab_cons {F : Type} (k : Kind) (b : Block F) (bs : List (Block F)) :
    lastTab k (b :: bs) = (lastTab k bs).or (tabOf k b) := by
  unfold lastTab
  rw [getLast_or]
  rfl

theorem put_pitch {F : Type} (d : Perf F) (b : Block F) : (put d b).pitch = (vecOf .pitch b).or d.pitch := by
  cases b with
  | other l => rfl
  | vec k t l v => cases k <;> rfl
  | tab k t s ls m => cases k <;> rfl

theorem put_tsr {F : Type} (d : Perf F) (b : Block F) : (put d b).tsr = (vecOf .tsr b).or d.tsr := by
  cases b with
  | other l => rfl
  | vec k t l v => cases k <;> rfl
  | tab k t s ls m => cases k <;> rfl

/-- every table comes after the vectors -/
def Ready {F : Type} (p t : Option (List F)) (bs : List (Block F)) : Prop :=
  ∀ pre b post, bs = pre ++ b :: post → b.isTab → ((lastVec .pitch pre).or p).isSome ∧ ((lastVec .tsr pre).or t).isSome

theorem ready_put {F : Type} (d : Perf F) (b : Block F) (bs : List (Block F)) (h : Ready d.pitch d.tsr (b :: bs)) :
    Ready (put d b).pitch (put d b).tsr bs := by
  intro pre b' post hbs hb'
  have := h (b :: pre) b' post (by rw [hbs]; rfl) hb'
  rw [lastVec_cons, lastVec_cons, Option.or_assoc, Option.or_assoc] at this
  rw [put_pitch, put_tsr]
  exact this

/-- all the parts -/
theorem loop_blocks {F : Type} (parse : Str → Option F) (nP nT : Nat) (fuel i : Nat) (d : Perf F) (bs : List (Block F))
    (tail : List Str) (hs : Sized nP nT d) (h : ∀ b ∈ bs, b.Ok parse nP nT) (hr : Ready d.pitch d.tsr bs)
    (hp : d.pitch.isSome ∨ bs.length + i ≤ 11 ∨ ∃ b ∈ bs.take (12 - i), (vecOf .pitch b).isSome)
    (hf : (bs.flatMap Block.lines).length + tail.length ≤ fuel) :
    ∃ fuel', tail.length ≤ fuel' ∧
      loop parse fuel i d (bs.flatMap Block.lines ++ tail) = loop parse fuel' (i + bs.length) (bs.foldl put d) tail := by
  induction bs generalizing d fuel i with
  | nil => exact ⟨fuel, by simpa using hf, rfl⟩
  | cons b bs ih =>
    obtain ⟨l, ls, hl, hstep⟩ := step_block parse nP nT d b (bs.flatMap Block.lines ++ tail) hs (h b (by simp))
      (fun hb => by simpa [lastVec] using hr [] b bs rfl hb)
    rw [List.flatMap_cons, List.length_append, hl, List.length_cons] at hf
    obtain ⟨fuel, rfl⟩ : ∃ k, fuel = k + 1 := ⟨fuel - 1, by omega⟩
    have hp' : (put d b).pitch.isSome ∨ bs.length + (i + 1) ≤ 11 ∨ ∃ b ∈ bs.take (12 - (i + 1)), (vecOf .pitch b).isSome := by
      rw [put_pitch]
      rcases hp with hp | hp | ⟨b', hb', hv⟩
      · left; cases vecOf Kind.pitch b <;> simp [hp]
      · right; left; simp at hp; omega
      · rcases Nat.lt_or_ge i 12 with hi | hi
        · obtain ⟨j, hj⟩ : ∃ j, 12 - i = j + 1 := ⟨11 - i, by omega⟩
          rw [hj, List.take_succ_cons, List.mem_cons] at hb'
          rcases hb' with rfl | hb'
          · left; cases hq : vecOf Kind.pitch b' <;> simp_all
          · right; right; exact ⟨b', by rwa [show 12 - (i + 1) = j by omega], hv⟩
        · rw [show 12 - i = 0 by omega] at hb'; simp at hb'
    obtain ⟨f', h1, h2⟩ := ih fuel (i + 1) (put d b) (sized_put parse nP nT d b hs (h b (by simp)))
      (fun b hb => h b (by simp [hb])) (ready_put d b bs hr) hp' (by omega)
    refine ⟨f', h1, ?_⟩
    rw [List.flatMap_cons, List.append_assoc, hl, List.cons_append, loop, hstep]
    simp only
    rw [if_neg, h2]
    · congr 1; simp; omega
    · rintro ⟨hn, hi⟩
      rcases hp' with hp' | hp' | ⟨b', hb', -⟩
      · rw [Option.isNone_iff_eq_none] at hn; rw [hn] at hp'; simp at hp'
      · omega
      · rw [show 12 - (i + 1) = 0 by omega] at hb'; simp at hb'

theorem foldl_put {F : Type} (parse : Str → Option F) (nP nT : Nat) (bs : List (Block F)) (d : Perf F)
    (h : ∀ b ∈ bs, b.Ok parse nP nT) :
    bs.foldl put d = ⟨(lastVec .pitch bs).or d.pitch, (lastVec .tsr bs).or d.tsr, (lastVec .ws bs).or d.ws,
      (lastTab .cp bs).or d.cp, (lastTab .ct bs).or d.ct, (lastTab .cq bs).or d.cq⟩ := by
  induction bs generalizing d with
  | nil => rfl
  | cons b bs ih =>
    rw [List.foldl_cons, ih _ (fun b hb => h b (by simp [hb]))]
    simp only [lastVec_cons, lastTab_cons, Option.or_assoc]
    have hb := h b (by simp)
    cases b with
    | other l => rfl
    | vec k t l v => cases k <;> rfl
    | tab k t s ls m => cases k <;> rfl

/-- the table of a kind -/
def tabField {F : Type} (d : Perf F) : Kind → Option (List (List F))
  | .cp => d.cp
  | .ct => d.ct
  | .cq => d.cq
  | _ => none

theorem load_none {F : Type} (parse : Str → Option F) (lines : List Str) (d : Perf F) (k : Kind)
    (hk : k = .cp ∨ k = .ct ∨ k = .cq)
    (h : loop parse lines.length 0 {} lines = .ok d) (hd : tabField d k = none) : load parse lines = .error .unbound := by
  unfold load
  rw [h]
  simp only
  rcases hk with rfl | rfl | rfl
  · rw [show d.cp = none from hd]
    cases d.pitch <;> cases d.tsr <;> rfl
  · rw [show d.ct = none from hd]
    cases d.pitch <;> cases d.tsr <;> cases d.cp <;> rfl
  · rw [show d.cq = none from hd]
    cases d.pitch <;> cases d.tsr <;> cases d.cp <;> cases d.ct <;> rfl

/-- a part whose last lines are missing -/
theorem step_cut {F : Type} (parse : Str → Option F) (nP nT : Nat) (d : Perf F) (b : Block F) (l : Str) (ls : List Str)
    (hP : 1 ≤ nP) (hT : 1 ≤ nT) (k : Kind)
    (hs : Sized nP nT d) (hb : b.Ok parse nP nT) (ht : b.isTab → d.pitch.isSome ∧ d.tsr.isSome)
    (hl : (l :: ls) <+: b.lines) (hlt : ls.length + 1 < b.lines.length) :
    (∃ e, step parse d l ls = .error e) ∨ ∃ d', step parse d l ls = .ok (d', []) ∧ tabField d' k = tabField d k := by
  cases b with
  | other l => simp [Block.lines] at hlt
  | vec k' t l' v =>
    obtain ⟨hk, h1, h2⟩ := hb
    obtain ⟨x, hx⟩ := hl
    simp only [Block.lines, List.length_cons, List.length_nil] at hlt
    have hls : ls = [] := List.length_eq_zero_iff.1 (by omega)
    subst hls
    simp only [Block.lines, List.cons_append, List.nil_append, List.cons.injEq] at hx
    rw [hx.1]
    right
    refine ⟨put d (.vec k' t [] []), ?_, ?_⟩
    · rw [step_vec parse d k' (by tauto) t _ h1]; rfl
    · cases k' <;> rfl
  | tab k' t s ls' m =>
    obtain ⟨hk, h1, h2, h3, h4⟩ := hb
    obtain ⟨x, hx⟩ := hl
    simp only [Block.lines, List.cons_append, List.cons.injEq] at hx
    rw [hx.1]
    left
    obtain ⟨hp, hq⟩ := ht trivial
    obtain ⟨p, hp⟩ := Option.isSome_iff_exists.1 hp
    obtain ⟨q, hq⟩ := Option.isSome_iff_exists.1 hq
    have hlen := h2.length_eq
    obtain ⟨e, he⟩ : ∃ e, table parse d ls = .error e := by
      unfold table
      rw [hp, hq]
      simp only
      rw [hs.1 p hp, hs.2 q hq]
      refine rowsN_short parse nP nT _ hP ?_
      simp only [Block.lines, List.length_cons] at hlt
      rw [List.length_tail]
      omega
    rw [step_tab parse d k' hk t _ h1, he]
    exact ⟨e, rfl⟩

/-- the first lines of a list of parts: whole parts, then a piece of the next -/
theorem take_lines {F : Type} (bs : List (Block F)) (n : Nat) (hn : n < (bs.flatMap Block.lines).length) :
    ∃ pre b post, bs = pre ++ b :: post ∧ ∃ j, j < b.lines.length ∧
      (bs.flatMap Block.lines).take n = pre.flatMap Block.lines ++ b.lines.take j := by
  induction bs generalizing n with
  | nil => simp at hn
  | cons b bs ih =>
    rw [List.flatMap_cons] at hn ⊢
    rcases Nat.lt_or_ge n b.lines.length with h | h
    · refine ⟨[], b, bs, rfl, n, h, ?_⟩
      rw [List.take_append_of_le_length (Nat.le_of_lt h)]
      rfl
    · obtain ⟨pre, b', post, h1, j, h2, h3⟩ := ih (n - b.lines.length) (by rw [List.length_append] at hn; omega)
      refine ⟨b :: pre, b', post, by rw [h1]; rfl, j, h2, ?_⟩
      rw [List.take_append, List.take_of_length_le h, h3, List.flatMap_cons, List.append_assoc]

theorem lastTab_none {F : Type} (k : Kind) (pre post : List (Block F)) (h : lastTab k (pre ++ post) = none) :
    lastTab k pre = none := by
  unfold lastTab at *
  rw [List.getLast?_eq_none_iff] at *
  rw [List.filterMap_append, List.append_eq_nil_iff] at h
  exact h.1

theorem tabField_foldl {F : Type} (parse : Str → Option F) (nP nT : Nat) (bs : List (Block F)) (k : Kind)
    (h : ∀ b ∈ bs, b.Ok parse nP nT) (hn : lastTab k bs = none) : tabField (bs.foldl put {}) k = none := by
  rw [foldl_put parse nP nT bs {} h]
  cases k <;> simp [tabField, hn]

/-- an object is not read from a file without its last table -/
theorem load_cut {F : Type} (parse : Str → Option F) (nP nT : Nat) (hP : 1 ≤ nP) (hT : 1 ≤ nT) (bs : List (Block F))
    (h : ∀ b ∈ bs, b.Ok parse nP nT) (hr : Ready none none bs)
    (hp : bs.length ≤ 11 ∨ ∃ b ∈ bs.take 12, (vecOf .pitch b).isSome)
    (bs1 : List (Block F)) (b : Block F) (bs2 : List (Block F)) (hbs : bs = bs1 ++ b :: bs2) (k : Kind)
    (hk : k = .cp ∨ k = .ct ∨ k = .cq) (hk1 : lastTab k bs1 = none) (n : Nat)
    (hn : n < ((bs1 ++ [b]).flatMap Block.lines).length) :
    ∃ e, load parse ((bs.flatMap Block.lines).take n) = .error e := by
  obtain ⟨pre, b', post, h1, j, h2, h3⟩ := take_lines (bs1 ++ [b]) n hn
  have hbs' : bs = pre ++ b' :: (post ++ bs2) := by
    rw [hbs, ← List.singleton_append, ← List.append_assoc, h1]; simp
  have htake : (bs.flatMap Block.lines).take n = pre.flatMap Block.lines ++ b'.lines.take j := by
    rw [← h3, hbs, ← List.singleton_append, ← List.append_assoc, List.flatMap_append,
      List.take_append_of_le_length (Nat.le_of_lt hn)]
  have hpre : ∃ q, bs1 = pre ++ q := by
    rcases List.eq_nil_or_concat post with hp' | ⟨post', y, hp'⟩
    · subst hp'
      exact ⟨[], by simpa using (List.append_inj' h1 rfl).1⟩
    · subst hp'
      rw [List.concat_eq_append, ← List.cons_append, ← List.append_assoc] at h1
      exact ⟨b' :: post', (List.append_inj' h1 rfl).1⟩
  obtain ⟨q, hq⟩ := hpre
  have hkn : lastTab k pre = none := lastTab_none k pre q (by rw [← hq]; exact hk1)
  have hokp : ∀ b ∈ pre, b.Ok parse nP nT := fun b hb => h b (by rw [hbs']; simp [hb])
  have hrp : Ready ((none : Option (List F))) none pre := by
    intro a c e hace hc
    exact hr a c (e ++ b' :: (post ++ bs2)) (by rw [hbs', hace]; simp) hc
  have hpp : pre.length + 0 ≤ 11 ∨ ∃ b ∈ pre.take (12 - 0), (vecOf .pitch b).isSome := by
    rcases hp with hp | ⟨c, hc, hv⟩
    · left; rw [hbs'] at hp; simp at hp; omega
    · rcases Nat.lt_or_ge pre.length 12 with hl | hl
      · left; omega
      · right; rw [hbs', List.take_append_of_le_length hl] at hc; exact ⟨c, hc, hv⟩
  have hready : b'.isTab → (pre.foldl put {}).pitch.isSome ∧ (pre.foldl put {}).tsr.isSome := by
    intro hb
    have := hr pre b' (post ++ bs2) hbs' hb
    rw [foldl_put parse nP nT pre {} hokp]
    exact this
  have hsized : ∀ (pre : List (Block F)) (d : Perf F), Sized nP nT d → (∀ b ∈ pre, b.Ok parse nP nT) → Sized nP nT (pre.foldl put d) := by
    intro pre
    induction pre with
    | nil => intro d hd _; exact hd
    | cons b pre ih =>
      intro d hd hb
      exact ih _ (sized_put parse nP nT d b hd (hb b (by simp))) (fun b' hb' => hb b' (by simp [hb']))
  have h0 : Sized nP nT ({} : Perf F) := ⟨fun p hp => by simp at hp, fun p hp => by simp at hp⟩
  rw [htake]
  obtain ⟨f', hf, hloop⟩ := loop_blocks parse nP nT (pre.flatMap Block.lines ++ b'.lines.take j).length 0 {} pre (b'.lines.take j)
    h0 hokp hrp (Or.inr hpp) (by simp)
  cases hls : b'.lines.take j with
  | nil =>
    rw [hls] at hloop
    refine ⟨_, load_none parse _ (pre.foldl put {}) k hk ?_ (tabField_foldl parse nP nT pre k hokp hkn)⟩
    rw [hloop, loop.eq_def]
  | cons l ls =>
    rw [hls] at hloop hf
    obtain ⟨f', rfl⟩ : ∃ j, f' = j + 1 := ⟨f' - 1, by simp at hf; omega⟩
    have hlen : ls.length + 1 < b'.lines.length := by
      have := congrArg List.length hls
      rw [List.length_take, List.length_cons] at this
      omega
    rw [loop] at hloop
    rcases step_cut parse nP nT (pre.foldl put {}) b' l ls hP hT k (hsized pre {} h0 hokp) (h b' (by rw [hbs']; simp)) hready
      (hls ▸ List.take_prefix j _) hlen with ⟨e, he⟩ | ⟨d', hd', hk'⟩
    · rw [he] at hloop
      exact ⟨e, by unfold load; rw [hloop]⟩
    · rw [hd'] at hloop
      simp only at hloop
      split at hloop
      · exact ⟨_, by unfold load; rw [hloop]⟩
      · refine ⟨_, load_none parse _ d' k hk ?_ (hk'.trans (tabField_foldl parse nP nT pre k hokp hkn))⟩
        rw [hloop, loop.eq_def]

theorem lastVec_append {F : Type} (k : Kind) (a b : List (Block F)) : lastVec k (a ++ b) = (lastVec k b).or (lastVec k a) := by
  induction a with
  | nil =>
    show lastVec k b = (lastVec k b).or none
    rw [Option.or_none]
  | cons x a ih => rw [List.cons_append, lastVec_cons, ih, lastVec_cons, Option.or_assoc]

/-- files with the vectors first -/
theorem ready_of {F : Type} (hd tl : List (Block F)) (h : ∀ b ∈ hd, ¬ b.isTab) (hp : (lastVec .pitch hd).isSome)
    (ht : (lastVec .tsr hd).isSome) (pre : List (Block F)) (b : Block F) (post : List (Block F))
    (hbs : hd ++ tl = pre ++ b :: post) (hb : b.isTab) : (lastVec .pitch pre).isSome ∧ (lastVec .tsr pre).isSome := by
  have hpre : ∃ q, pre = hd ++ q := by
    rcases List.append_eq_append_iff.1 hbs with ⟨q, h1, -⟩ | ⟨q, h1, h2⟩
    · exact ⟨q, h1⟩
    · cases q with
      | nil => exact ⟨[], by simpa using h1.symm⟩
      | cons c q =>
        simp only [List.cons_append, List.cons.injEq] at h2
        exact absurd hb (h b (by rw [h1, h2.1]; simp))
  obtain ⟨q, rfl⟩ := hpre
  rw [lastVec_append, lastVec_append]
  obtain ⟨p, hp⟩ := Option.isSome_iff_exists.1 hp
  obtain ⟨t, ht⟩ := Option.isSome_iff_exists.1 ht
  rw [hp, ht]
  constructor
  · cases lastVec Kind.pitch q <;> rfl
  · cases lastVec Kind.tsr q <;> rfl

theorem words_cells {F : Type} (f : F → Str) (sep : Str) (c : Char) (s : Str) (hsep : sep = c :: s) (hws : ∀ x ∈ sep, isWs x = true)
    (v : List F) (h : ∀ x ∈ v, IsWord (f x)) : words (cells f sep v) = v.map f := by
  induction v with
  | nil => rfl
  | cons x v ih =>
    have h1 : cells f sep (x :: v) = f x ++ c :: (s ++ cells f sep v) := by
      simp [cells, hsep]
    have hb : ∀ (s t : Str), (∀ x ∈ s, isWs x = true) → words (s ++ t) = words t := by
      intro s t hs
      induction s with
      | nil => rfl
      | cons y s ih => rw [List.cons_append, words_cons_ws _ _ (hs y (by simp)), ih (fun x hx => hs x (by simp [hx]))]
    rw [h1, words_word_cons (h x (by simp)) c _ (hws c (by simp [hsep])), hb s _ (fun x hx => hws x (by simp [hsep, hx])),
      ih (fun x hx => h x (by simp [hx]))]
    rfl

theorem cells_nl {F : Type} (f : F → Str) (sep : Str) (hsep : '\n' ∉ sep)
    (v : List F) (h : ∀ x ∈ v, IsWord (f x)) : '\n' ∉ cells f sep v := by
  unfold cells
  intro hm
  obtain ⟨x, hx, hm⟩ := List.mem_flatMap.1 hm
  rcases List.mem_append.1 hm with hm | hm
  · have := (h x hx).2 _ hm
    exact absurd this (by decide)
  · exact hsep hm

theorem says_cells {F : Type} (parse : Str → Option F) (f : F → Str) (rd : F → F) (sep : Str) (c : Char) (s : Str)
    (hsep : sep = c :: s) (hws : ∀ x ∈ sep, isWs x = true) (v : List F)
    (h : ∀ x ∈ v, IsWord (f x) ∧ parse (f x) = some (rd x)) : Says parse (cells f sep v) (v.map rd) := by
  unfold Says
  rw [words_cells f sep c s hsep hws v (fun x hx => (h x hx).1)]
  induction v with
  | nil => exact .nil
  | cons x v ih => exact .cons (h x (by simp)).2 (ih (fun x hx => h x (by simp [hx])))

end Verif.Rosco
