import Verif.Model.HawcAe
import Verif.Lemmas.FastLine
import Mathlib.Tactic
/-! # Lemmas on AE and PC texts -/
namespace Verif.HawcAe
open Verif.Py Verif.FastLine

theorem splitOn_unlines (ls : List Str) (h : ∀ l ∈ ls, '\n' ∉ l) :
    splitOn '\n' (unlines ls) = ls ++ [[]] := by
  induction ls with
  | nil => rfl
  | cons l t ih =>
    have : unlines (l :: t) = l ++ '\n' :: unlines t := by simp [unlines]
    rw [this, splitOn_append _ _ _ (h l (by simp)), ih (fun x hx => h x (by simp [hx]))]
    rfl

theorem readlines_unlines (ls : List Str) (h : ∀ l ∈ ls, '\n' ∉ l) : readlines (unlines ls) = ls := by
  unfold readlines
  simp only [splitOn_unlines ls h]
  simp

theorem IsWord.nl {w : Str} (h : IsWord w) : '\n' ∉ w := fun hc => by
  have := h.2 _ hc
  exact absurd this (by decide)

theorem words_replicate (k : Nat) (s : Str) : words (List.replicate k ' ' ++ s) = words s := by
  induction k with
  | zero => simp
  | succ k ih => rw [List.replicate_succ, List.cons_append, words_cons_ws _ _ isWs_space, ih]

theorem words_pad (w : Nat) (s : Str) : words (padLeft w s) = words s := words_replicate _ _

theorem words_pad_cons (w : Nat) {s : Str} (hs : IsWord s) (c : Char) (t : Str) (hc : isWs c = true) :
    words (padLeft w s ++ c :: t) = s :: words t := by
  unfold padLeft
  rw [List.append_assoc, words_replicate, words_word_cons hs c t hc]

theorem isWord_showInt (n : Int) : IsWord (showInt n) := (numText_showInt n).word

theorem intOf_showInt (n : Int) : intOf (showInt n) = .ok n := by
  unfold intOf
  rw [if_pos (strIsInt_showInt n), pyInt_showInt]

theorem intCount_showInt (n : Nat) : intCount (showInt n) = .ok n := by
  unfold intCount
  rw [if_pos (strIsInt_showInt n), pyInt_showInt, if_pos (by omega)]
  simp

/-- the row can be written with four numbers that parse to themselves -/
def AeRowOk (N : Num F) (r : List F) : Prop :=
  ∃ a b c s, r = [a, b, c, s] ∧
    (∀ x ∈ [a, b, c], IsWord (N.e17 x) ∧ N.parse (N.e17 x) = some x) ∧
    IsWord (N.d s) ∧ N.parse (N.d s) = some s

theorem words_aeRow (N : Num F) (r : List F) (h : AeRowOk N r) :
    floatsOf N ((words (aeRow N r)).take 4) = .ok r := by
  obtain ⟨a, b, c, s, rfl, h1, h2, h3⟩ := h
  have ha := h1 a (by simp)
  have hb := h1 b (by simp)
  have hc := h1 c (by simp)
  unfold aeRow
  rw [words_pad_cons _ ha.1 _ _ isWs_space, words_pad_cons _ hb.1 _ _ isWs_space,
    words_pad_cons _ hc.1 _ _ isWs_space, words_pad, words_word h2]
  simp [floatsOf, ha.2, hb.2, hc.2, h3]

theorem rows_of_map {α : Type} (N : Num F) (rows : List (List F)) (wr : List F → Str)
    (h : ∀ r ∈ rows, floatsOf N ((words (wr r)).take 4) = .ok r ∧ r.length = 4) (_ : α = α) :
    rowsOfLines N (rows.map wr) = .ok rows := by
  have h1 : (rows.map wr).mapM (fun l => floatsOf N ((words l).take 4)) = .ok rows := by
    induction rows with
    | nil => rfl
    | cons r t ih =>
      rw [List.map_cons, List.mapM_cons, (h r (by simp)).1, ih (fun x hx => h x (by simp [hx]))]
      rfl
  unfold rowsOfLines
  simp only [h1]
  rw [if_pos]
  rw [List.all_eq_true]
  intro r hr
  cases rows with
  | nil => simp at hr
  | cons q t => simp [(h r hr).2, (h q (by simp)).2]

theorem setHeader_ok (n : Int) (k : Nat) : setHeader (showInt n ++ ' ' :: showInt k) = .ok (n, k) := by
  unfold setHeader
  rw [words_word_cons (isWord_showInt n) _ _ isWs_space, words_word (isWord_showInt k)]
  simp [intOf_showInt, intCount_showInt]

theorem dset_new (d : List (Int × V)) (k : Int) (v : V) (h : k ∉ d.map Prod.fst) :
    dset d k v = d ++ [(k, v)] := by
  unfold dset
  rw [if_neg h]

theorem aeLoop_ok (N : Num F) (d : AeSets F) (acc : AeSets F)
    (hnd : ((acc ++ d).map Prod.fst).Nodup) (h : ∀ p ∈ d, ∀ r ∈ p.2, AeRowOk N r) :
    aeLoop N d.length (d.flatMap (aeSetLines N)) acc = .ok (acc ++ d) := by
  induction d generalizing acc with
  | nil => simp [aeLoop]
  | cons p t ih =>
    obtain ⟨n, rows⟩ := p
    have hrows : rowsOfLines N (rows.map (aeRow N)) = .ok rows := by
      refine rows_of_map (α := Unit) N rows (aeRow N) (fun r hr => ?_) rfl
      refine ⟨words_aeRow N r (h (n, rows) (by simp) r hr), ?_⟩
      obtain ⟨a, b, c, s, rfl, _⟩ := h _ (List.mem_cons_self ..) r hr
      rfl
    have hn : n ∉ acc.map Prod.fst := by
      rw [List.map_append, List.map_cons, List.nodup_append] at hnd
      intro hm
      exact hnd.2.2 n hm n (by simp) rfl
    have hl : rows.length = (rows.map (aeRow N)).length := by simp
    simp only [List.length_cons, List.flatMap_cons, aeSetLines, List.cons_append, aeLoop, setHeader_ok]
    rw [hl, List.take_left, List.drop_left, hrows]
    simp only [dset_new _ _ _ hn]
    rw [ih (acc ++ [(n, rows)]) (by simpa using hnd) (fun p hp => h p (by simp [hp]))]
    simp

theorem nl_padLeft (w : Nat) {s : Str} (hs : IsWord s) : '\n' ∉ padLeft w s := by
  unfold padLeft
  intro h
  rcases List.mem_append.mp h with h | h
  · have := List.eq_of_mem_replicate h
    exact absurd this (by decide)
  · exact IsWord.nl hs h

theorem nl_aeRow (N : Num F) (r : List F) (h : AeRowOk N r) : '\n' ∉ aeRow N r := by
  obtain ⟨a, b, c, s, rfl, h1, h2, h3⟩ := h
  have ha := nl_padLeft 25 (h1 a (by simp)).1
  have hb := nl_padLeft 25 (h1 b (by simp)).1
  have hc := nl_padLeft 25 (h1 c (by simp)).1
  have hd := nl_padLeft 5 h2
  simp [aeRow, ha, hb, hc, hd]

theorem firstCount_title (n : Nat) (t : List Str) : firstCount (aeTitle n :: t) = .ok n := by
  have : words (aeTitle n) = showInt n :: words ("r[m]           Chord[m]    T/C[%]  Set no.".toList) :=
    words_word_cons (isWord_showInt n) ' ' _ isWs_space
  simp [firstCount, this, intCount_showInt]

theorem nl_title (n : Nat) : '\n' ∉ aeTitle n := by
  unfold aeTitle
  intro h
  rcases List.mem_append.mp h with h | h
  · exact IsWord.nl (isWord_showInt n) h
  · revert h; decide

theorem aeRead_write (N : Num F) (d : AeSets F) (hnd : (d.map Prod.fst).Nodup)
    (h : ∀ p ∈ d, ∀ r ∈ p.2, AeRowOk N r) : aeRead N (aeWrite N d) = .ok d := by
  have hlines : readlines (aeWrite N d) = aeTitle d.length :: d.flatMap (aeSetLines N) := by
    refine readlines_unlines _ ?_
    intro l hl
    rcases List.mem_cons.mp hl with rfl | hl
    · exact nl_title _
    · obtain ⟨p, hp, hl⟩ := List.mem_flatMap.mp hl
      rcases List.mem_cons.mp hl with rfl | hl
      · simp [IsWord.nl (isWord_showInt _)]
      · obtain ⟨r, hr, rfl⟩ := List.mem_map.mp hl
        exact nl_aeRow N r (h p hp r hr)
  unfold aeRead
  rw [hlines]
  simp only [firstCount_title, List.tail_cons]
  simpa using aeLoop_ok N d [] (by simpa using hnd) h

/-! ### PC -/

/-- the row has four numbers that survive the format -/
def PcRowOk (N : Num F) (r : List F) : Prop :=
  r.length = 4 ∧ ∀ x ∈ r, IsWord (N.e15 x) ∧ N.parse (N.e15 x) = some x

theorem words_signed (s : Str) : words (signed s) = words s := by
  unfold signed
  split
  · rfl
  · rw [words_cons_ws _ _ isWs_space]

theorem words_pcRow (N : Num F) (r : List F) (h : ∀ x ∈ r, IsWord (N.e15 x)) :
    words (pcRow N r) = r.map N.e15 := by
  unfold pcRow
  induction r with
  | nil => rfl
  | cons x t ih =>
    have hx := h x (by simp)
    have ih' := ih (fun y hy => h y (by simp [hy]))
    have e : words (padLeft 19 (signed (N.e15 x))) = [N.e15 x] := by
      rw [words_pad, words_signed, words_word hx]
    cases t with
    | nil => simpa [joinWith] using e
    | cons y t =>
      rw [List.map_cons, joinWith_cons _ _ _ (by simp), List.map_cons (f := N.e15) (a := x), ← ih']
      rw [List.append_assoc, List.singleton_append, words_append _ _ _ isWs_space, e]
      rfl

theorem floats_map (N : Num F) (r : List F) (f : F → Str) (h : ∀ x ∈ r, N.parse (f x) = some x) :
    floatsOf N (r.map f) = .ok r := by
  have : (r.map f).mapM N.parse = some r := by
    induction r with
    | nil => rfl
    | cons x t ih =>
      rw [List.map_cons, List.mapM_cons, h x (by simp), ih (fun y hy => h y (by simp [hy]))]
      rfl
  unfold floatsOf
  rw [this]

theorem floats_pcRow (N : Num F) (r : List F) (h : PcRowOk N r) :
    floatsOf N ((words (pcRow N r)).take 4) = .ok r := by
  rw [words_pcRow N r (fun x hx => (h.2 x hx).1), List.take_of_length_le (by simp [h.1])]
  exact floats_map N r N.e15 (fun x hx => (h.2 x hx).2)

/-- the thickness survives the format, and all the rows -/
def ProfOk (N : Num F) (p : Profile F) : Prop :=
  IsWord (N.f8 p.1) ∧ N.parse (N.f8 p.1) = some p.1 ∧ ∀ r ∈ p.2, PcRowOk N r

theorem profHeader_ok (N : Num F) (i k : Nat) (th : F) (h1 : IsWord (N.f8 th))
    (h2 : N.parse (N.f8 th) = some th) :
    profHeader N (showInt i ++ ' ' :: (showInt k ++ ' ' :: N.f8 th)) = .ok (k, th) := by
  unfold profHeader
  rw [words_word_cons (isWord_showInt i) _ _ isWs_space, words_word_cons (isWord_showInt k) _ _ isWs_space,
    words_word h1]
  simp [intOf_showInt, intCount_showInt, h2]

theorem profLoop_ok (N : Num F) (ps : List (Profile F)) (i : Nat) (acc : List (Profile F)) (tail : List Str)
    (h : ∀ p ∈ ps, ProfOk N p) :
    profLoop N ps.length (profsLines N i ps ++ tail) acc = .ok (acc ++ ps, tail) := by
  induction ps generalizing i acc with
  | nil => simp [profLoop, profsLines]
  | cons p t ih =>
    obtain ⟨th, rows⟩ := p
    obtain ⟨h1, h2, h3⟩ := h _ (List.mem_cons_self ..)
    have hrows : rowsOfLines N (rows.map (pcRow N)) = .ok rows :=
      rows_of_map (α := Unit) N rows (pcRow N) (fun r hr => ⟨floats_pcRow N r (h3 r hr), (h3 r hr).1⟩) rfl
    have hl : rows.length = (rows.map (pcRow N)).length := by simp
    simp only [List.length_cons, profsLines, profLines, List.cons_append, List.append_assoc, profLoop,
      profHeader_ok N i _ th h1 h2]
    rw [hl, List.take_left, List.drop_left, hrows]
    simp only
    rw [ih (i + 1) (acc ++ [(th, rows)]) (fun p hp => h p (by simp [hp]))]
    simp

theorem firstCount_showInt (n : Nat) (t : List Str) : firstCount (showInt n :: t) = .ok n := by
  simp [firstCount, words_word (isWord_showInt n), intCount_showInt]

/-- the sets of `l` numbered from `i` -/
def numbered : Int → List V → List (Int × V)
  | _, [] => []
  | i, v :: vs => (i, v) :: numbered (i + 1) vs

theorem pcLoop_ok (N : Num F) (d : PcSets F) (i : Int) (acc : PcSets F)
    (hacc : ∀ k ∈ acc.map Prod.fst, k < i) (h : ∀ p ∈ d, ∀ q ∈ p.2, ProfOk N q) :
    pcLoop N d.length i (d.flatMap (pcSetLines N)) acc = .ok (acc ++ numbered i (d.map Prod.snd)) := by
  induction d generalizing i acc with
  | nil => simp [pcLoop, numbered]
  | cons p t ih =>
    obtain ⟨n, ps⟩ := p
    have hn : i ∉ acc.map Prod.fst := fun hm => absurd (hacc i hm) (lt_irrefl _)
    simp only [List.length_cons, List.flatMap_cons, pcSetLines, List.cons_append, pcLoop,
      firstCount_showInt, List.tail_cons]
    rw [profLoop_ok N ps 1 [] _ (h _ (List.mem_cons_self ..))]
    simp only [List.nil_append, dset_new _ _ _ hn]
    rw [ih (i + 1) (acc ++ [(i, ps)]) ?_ (fun p hp => h p (by simp [hp]))]
    · simp [numbered]
    · intro k hk
      rw [List.map_append] at hk
      rcases List.mem_append.mp hk with hk | hk
      · exact lt_of_lt_of_le (hacc k hk) (by omega)
      · simp at hk; omega

theorem nl_pcRow (N : Num F) (r : List F) (h : ∀ x ∈ r, IsWord (N.e15 x)) : '\n' ∉ pcRow N r := by
  unfold pcRow
  intro hm
  rcases mem_joinWith _ _ _ hm with hc | ⟨w, hw, hc⟩
  · revert hc; decide
  · obtain ⟨x, hx, rfl⟩ := List.mem_map.mp hw
    unfold padLeft signed at hc
    rcases List.mem_append.mp hc with hc | hc
    · exact absurd (List.eq_of_mem_replicate hc) (by decide)
    · split at hc
      · exact IsWord.nl (h x hx) hc
      · rcases List.mem_cons.mp hc with hc | hc
        · exact absurd hc (by decide)
        · exact IsWord.nl (h x hx) hc

theorem nl_profsLines (N : Num F) (i : Nat) (ps : List (Profile F)) (h : ∀ p ∈ ps, ProfOk N p) :
    ∀ l ∈ profsLines N i ps, '\n' ∉ l := by
  induction ps generalizing i with
  | nil => simp [profsLines]
  | cons p t ih =>
    intro l hl
    obtain ⟨h1, h2, h3⟩ := h p (by simp)
    unfold profsLines at hl
    rcases List.mem_append.mp hl with hl | hl
    · rcases List.mem_cons.mp hl with rfl | hl
      · simp [IsWord.nl (isWord_showInt _), IsWord.nl h1]
      · obtain ⟨r, hr, rfl⟩ := List.mem_map.mp hl
        exact nl_pcRow N r (fun x hx => ((h3 r hr).2 x hx).1)
    · exact ih (i + 1) (fun p hp => h p (by simp [hp])) l hl

theorem pcRead_write (N : Num F) (d : PcSets F) (h : ∀ p ∈ d, ∀ q ∈ p.2, ProfOk N q) :
    pcRead N (pcWrite N d) = .ok (numbered 1 (d.map Prod.snd)) := by
  have hlines : readlines (pcWrite N d) = showInt d.length :: d.flatMap (pcSetLines N) := by
    refine readlines_unlines _ ?_
    intro l hl
    rcases List.mem_cons.mp hl with rfl | hl
    · exact IsWord.nl (isWord_showInt _)
    · obtain ⟨p, hp, hl⟩ := List.mem_flatMap.mp hl
      rcases List.mem_cons.mp hl with rfl | hl
      · exact IsWord.nl (isWord_showInt _)
      · exact nl_profsLines N 1 p.2 (h p hp) l hl
  unfold pcRead
  rw [hlines]
  simp only [firstCount_showInt, List.tail_cons]
  simpa using pcLoop_ok N d 1 [] (by simp) h

end Verif.HawcAe
