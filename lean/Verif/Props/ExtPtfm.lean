import Verif.Lemmas.ExtPtfmRead
import Verif.Py.Dec
/-!
# C79 — external platform files: writing and reading back
-/
namespace Verif.ExtPtfm
open Verif.Py Verif.FastLine Verif.FastTypes

/-! ## C79 -/

/-- **C79 partial** — an object whose loading table has as many rows as the reader expects from the
simulation time and the time step, each with one number per degree of freedom and the time, is read
back from its text with the same dimension, time step and time, and with every number of the matrices
and of the loading at its place, as it was printed. -/
theorem C79_partial (N : Num F) (rd : F → F) (o : Obj F) (h : Ok N rd o) (hne : o.load ≠ [])
    (hst : N.steps o.T o.dt = some o.load.length) :
    read N (toText N o) = .ok
      { nDOF := some o.nDOF, dt := some o.dt, T := some o.T,
        mass := some (o.mass.map (·.map rd)), stiff := some (o.stiff.map (·.map rd)),
        damp := some (o.damp.map (·.map rd)), load := some (o.load.map (·.map rd)) } := by
  rw [read_upto N rd o h hne, loadPart]
  have hm : matLines N o.load = (o.load).map (rowText N) := by
    obtain ⟨r, rs, hrs⟩ := List.exists_cons_of_ne_nil hne
    rw [hrs]; rfl
  have hrd := readmat_ok N rd (o.nDOF + 1) o.load [] h.rows h.load
  rw [List.append_nil] at hrd
  have hl : loading N (beforeLoad rd o)
      (("!Dimension: 1 time column -  ".toList ++ natText o.nDOF ++ " force columns".toList) ::
        matLines N o.load) = .ok (o.load.map (·.map rd), []) := by
    simp only [loading, beforeLoad, hst, List.drop_succ_cons, List.drop_zero, hm, hrd]
    congr 2
    exact List.drop_of_length_le (by rw [List.length_map])
  have : ∀ (a b c : Str) (l : List Str), [a, b, c] ++ l = a :: b :: c :: l := fun _ _ _ _ => rfl
  rw [this, run_blank, run_load N _ _ _ _ hl]
  rfl

/-- writing succeeds exactly when the three matrices are square of the announced dimension; nothing is
asked of the loading -/
theorem C79_write (N : Num F) (o : Obj F) :
    (write N o = .ok (toText N o) ↔
      (o.mass.length = o.nDOF ∧ ∀ r ∈ o.mass, r.length = o.nDOF) ∧
      (o.stiff.length = o.nDOF ∧ ∀ r ∈ o.stiff, r.length = o.nDOF) ∧
      (o.damp.length = o.nDOF ∧ ∀ r ∈ o.damp, r.length = o.nDOF)) ∧
    (write N o = .ok (toText N o) ∨ write N o = .error .assert_) := by
  have hsq : ∀ m : List (List F), square o.nDOF m = true ↔ (m.length = o.nDOF ∧ ∀ r ∈ m, r.length = o.nDOF) := by
    intro m
    simp only [square, Bool.and_eq_true, beq_iff_eq, List.all_eq_true]
    constructor
    · rintro ⟨h1, h2⟩; exact ⟨h1, fun r hr => by rw [h2 r hr, h1]⟩
    · rintro ⟨h1, h2⟩; exact ⟨h1, fun r hr => by rw [h2 r hr, h1]⟩
  rw [← hsq, ← hsq, ← hsq]
  by_cases h : Verif.ExtPtfm.sane o = true
  · have hw : write N o = .ok (toText N o) := by rw [write, if_pos h]
    refine ⟨⟨fun _ => ?_, fun _ => hw⟩, .inl hw⟩
    simp only [Verif.ExtPtfm.sane, Bool.and_eq_true] at h
    exact ⟨h.1.1, h.1.2, h.2⟩
  · have hw : write N o = .error .assert_ := by rw [write, if_neg h]
    refine ⟨⟨fun e => ?_, fun hh => ?_⟩, .inr hw⟩
    · rw [hw] at e; simp at e
    · exfalso; apply h
      simp only [Verif.ExtPtfm.sane, Bool.and_eq_true]
      exact ⟨⟨hh.1, hh.2.1⟩, hh.2.2⟩

/-- **C79 fails** (too many rows) — when the loading has more rows than expected from time and time
step, what was written cannot be read. -/
theorem C79_more_fails (N : Num F) (rd : F → F) (o : Obj F) (h : Ok N rd o) (nt : Nat)
    (hst : N.steps o.T o.dt = some nt) (hlt : nt < o.load.length) :
    read N (toText N o) = .error .broken := by
  have hne : o.load ≠ [] := by
    intro e; rw [e] at hlt; simp at hlt
  rw [read_upto N rd o h hne, loadPart]
  have hm : matLines N o.load = (o.load).map (rowText N) := by
    obtain ⟨r, rs, hrs⟩ := List.exists_cons_of_ne_nil hne
    rw [hrs]; rfl
  obtain ⟨a, q, b, hab, hlen⟩ : ∃ a q b, o.load = a ++ q :: b ∧ a.length = nt :=
    ⟨o.load.take nt, o.load[nt], o.load.drop (nt + 1),
      by rw [List.getElem_cons_drop, List.take_append_drop], by rw [List.length_take]; omega⟩
  have hrows : ∀ r ∈ a, r.length = o.nDOF + 1 := fun r hr => h.rows r (by rw [hab]; simp [hr])
  have hfl : ∀ r ∈ a, ∀ x ∈ r, Field N x (rd x) := fun r hr => h.load r (by rw [hab]; simp [hr])
  have hrd := readmat_ok N rd (o.nDOF + 1) a ((q :: b).map (rowText N)) hrows hfl
  rw [hlen] at hrd
  have hl : loading N (beforeLoad rd o)
      (("!Dimension: 1 time column -  ".toList ++ natText o.nDOF ++ " force columns".toList) ::
        matLines N o.load) = .ok (a.map (·.map rd), (q :: b).map (rowText N)) := by
    rw [hab, List.map_append] at hm
    simp only [loading, beforeLoad, hst, List.drop_succ_cons, List.drop_zero, hab, hm, hrd]
    congr 2
    rw [List.drop_append_of_le_length (by rw [List.length_map]; omega), List.drop_of_length_le (by
      rw [List.length_map]; omega)]
    rfl
  have : ∀ (a b c : Str) (l : List Str), [a, b, c] ++ l = a :: b :: c :: l := fun _ _ _ _ => rfl
  rw [this, run_blank, run_load N _ _ _ _ hl, List.map_cons]
  have hq : q ∈ o.load := by rw [hab]; simp
  obtain ⟨s, hs, c, hcs, hcw⟩ := row_start N rd q (by
    intro e
    have := h.rows q hq
    rw [e] at this
    simp at this) (h.load q hq)
  rw [hs]
  have hlow : lower (' ' :: s) = ' ' :: lower s := rfl
  refine run_other_error N _ _ _ _ (by rw [hlow]; rfl) (by rw [hlow]; rfl) (by rw [hlow]; rfl)
    (by rw [hlow]; rfl) ?_
  rw [hlow]
  have hstrip : ¬ strip (' ' :: lower s) = [] :=
    strip_lower_ne_nil (' ' :: s) c (List.mem_cons_of_mem _ hcs) hcw
  simp only [other]
  rw [if_neg (by decide), if_neg hstrip]

/-- **C79 fails** (too few rows) — when the loading has fewer rows than expected, what was written
cannot be read. -/
theorem C79_fewer_fails (N : Num F) (rd : F → F) (o : Obj F) (h : Ok N rd o) (hne : o.load ≠ []) (nt : Nat)
    (hst : N.steps o.T o.dt = some nt) (hlt : o.load.length < nt) :
    read N (toText N o) = .error .index := by
  rw [read_upto N rd o h hne, loadPart]
  have hm : matLines N o.load = (o.load).map (rowText N) := by
    obtain ⟨r, rs, hrs⟩ := List.exists_cons_of_ne_nil hne
    rw [hrs]; rfl
  have hrd : ∀ (m : List (List F)) (n : Nat), (∀ r ∈ m, r.length = o.nDOF + 1) →
      (∀ r ∈ m, ∀ x ∈ r, Field N x (rd x)) → m.length < n →
      readmat N (o.nDOF + 1) n (m.map (rowText N)) = .error .index := by
    intro m
    induction m with
    | nil =>
      intro n _ _ hn
      obtain ⟨k, rfl⟩ : ∃ k, n = k + 1 := ⟨n - 1, by simp at hn; omega⟩
      rfl
    | cons r m ih =>
      intro n h1 h2 hn
      obtain ⟨k, rfl⟩ : ∃ k, n = k + 1 := ⟨n - 1, by simp at hn; omega⟩
      have hf : fitRow (o.nDOF + 1) (r.map rd) = .ok (r.map rd) := by
        unfold fitRow
        rw [if_pos (by rw [List.length_map]; exact h1 r List.mem_cons_self)]
      rw [List.map_cons, readmat, parseRow_ok N rd r (h2 r List.mem_cons_self)]
      simp only [hf]
      rw [ih k (fun q hq => h1 q (List.mem_cons_of_mem _ hq)) (fun q hq => h2 q (List.mem_cons_of_mem _ hq))
        (by simp at hn; omega)]
  have hl : loading N (beforeLoad rd o)
      (("!Dimension: 1 time column -  ".toList ++ natText o.nDOF ++ " force columns".toList) ::
        matLines N o.load) = .error .index := by
    simp only [loading, beforeLoad, hst, List.drop_succ_cons, List.drop_zero, hm,
      hrd o.load nt h.rows h.load hlt]
  have : ∀ (a b c : Str) (l : List Str), [a, b, c] ++ l = a :: b :: c :: l := fun _ _ _ _ => rfl
  rw [this, run_blank, run_load_error N _ _ _ hl]

/-! ## Concrete cases -/

/-- numbers of the examples: naturals; a number of sixteen digits fills its field -/
abbrev toy : Num Nat where
  parse := fun s => if strip s ≠ [] ∧ (strip s).all Char.isDigit then some (Nat.ofDigitChars 10 (strip s) 0) else none
  e8 := fun n => List.replicate (16 - (natText n).length) ' ' ++ natText n
  repr := natText
  steps := fun T dt => if dt = 0 then none else some (T / dt + 1)

def exObj : Obj Nat :=
  ⟨2, 1, 2, [[11, 12], [21, 22]], [[1, 2], [3, 4]], [[5, 6], [7, 8]], [[0, 100, 200], [1, 101, 201], [2, 102, 202]]⟩

example : read toy (toText toy exObj) = .ok
    { nDOF := some 2, dt := some 1, T := some 2, mass := some [[11, 12], [21, 22]],
      stiff := some [[1, 2], [3, 4]], damp := some [[5, 6], [7, 8]],
      load := some [[0, 100, 200], [1, 101, 201], [2, 102, 202]] } := by decide +kernel

theorem toy_field (n : Nat) (h : (natText n).length < 16) : Field toy n n := by
  refine ⟨16 - (natText n).length - 1, natText n, ?_, ?_, ?_⟩
  · show List.replicate (16 - (natText n).length) ' ' ++ natText n = _
    rw [show 16 - (natText n).length - 1 + 1 = 16 - (natText n).length by omega]
  · refine ⟨Nat.toDigits_ne_nil, ?_⟩
    intro c hc
    exact (digit_facts c (toDigits_digit n c hc)).1
  · have hw : IsWord (natText n) := ⟨Nat.toDigits_ne_nil, fun c hc => (digit_facts c (toDigits_digit n c hc)).1⟩
    show (if strip (natText n) ≠ [] ∧ (strip (natText n)).all Char.isDigit then
      some (Nat.ofDigitChars 10 (strip (natText n)) 0) else none) = some n
    rw [strip_word hw, if_pos ⟨hw.1, List.all_eq_true.2 (toDigits_digit n)⟩]
    congr 1
    exact Nat.ofDigitChars_toDigits (by decide) (by decide)

theorem toy_head (n : Nat) : HeadOk toy n := by
  have hw : IsWord (natText n) := ⟨Nat.toDigits_ne_nil, fun c hc => (digit_facts c (toDigits_digit n c hc)).1⟩
  refine ⟨hw, natText_colon n, ?_⟩
  show (if strip (' ' :: lower (natText n)) ≠ [] ∧ (strip (' ' :: lower (natText n))).all Char.isDigit then
      some (Nat.ofDigitChars 10 (strip (' ' :: lower (natText n))) 0) else none) = some n
  rw [lower_natText, show strip (' ' :: natText n) = strip (natText n) from rfl, strip_word hw,
    if_pos ⟨hw.1, List.all_eq_true.2 (toDigits_digit n)⟩]
  congr 1
  exact Nat.ofDigitChars_toDigits (by decide) (by decide)

theorem toy_ok (o : Obj Nat) (h : sane o = true)
    (hn : ∀ m ∈ [o.mass, o.stiff, o.damp, o.load], ∀ r ∈ m, ∀ x ∈ r, (natText x).length < 16)
    (hr : ∀ r ∈ o.load, r.length = o.nDOF + 1) : Ok toy id o := by
  have hw := ((C79_write toy o).1.1 (by rw [write, if_pos h]))
  exact ⟨hw, toy_head _, toy_head _,
    fun r hr x hx => toy_field x (hn o.mass (by simp) r hr x hx),
    fun r hr x hx => toy_field x (hn o.stiff (by simp) r hr x hx),
    fun r hr x hx => toy_field x (hn o.damp (by simp) r hr x hx),
    fun r hr x hx => toy_field x (hn o.load (by simp) r hr x hx), hr⟩

/-- the hypotheses of `C79_partial` hold for the example -/
example : Ok toy id exObj ∧ exObj.load ≠ [] ∧ toy.steps exObj.T exObj.dt = some exObj.load.length :=
  ⟨toy_ok exObj (by decide) (by decide +kernel) (by decide), by decide, by decide⟩

/-- those of `C79_more_fails` and `C79_fewer_fails` -/
example : Ok toy id { exObj with T := 1 } ∧ toy.steps 1 1 = some 2 ∧ 2 < exObj.load.length :=
  ⟨toy_ok { exObj with T := 1 } (by decide) (by decide +kernel) (by decide), by decide, by decide⟩
example : Ok toy id { exObj with T := 9 } ∧ toy.steps 9 1 = some 10 ∧ exObj.load.length < 10 :=
  ⟨toy_ok { exObj with T := 9 } (by decide) (by decide +kernel) (by decide), by decide, by decide⟩

/-- **C79 fails** — three objects are written and not read back: one row too many, one missing, and
numbers whose text fills the field, which run into each other. -/
theorem C79_fails : ∃ a b c : Obj Nat,
    (write toy a = .ok (toText toy a) ∧ read toy (toText toy a) = .error .broken) ∧
    (write toy b = .ok (toText toy b) ∧ read toy (toText toy b) = .error .index) ∧
    (write toy c = .ok (toText toy c) ∧ toy.steps c.T c.dt = some c.load.length ∧
      ∃ m, (read toy (toText toy c)).toOption.bind St.mass = some m ∧ m ≠ c.mass) :=
  ⟨{ exObj with T := 1 }, { exObj with T := 9 },
    { exObj with mass := [[1000000000000000, 2000000000000000], [3, 4]] },
    ⟨by decide +kernel, by decide +kernel⟩, ⟨by decide +kernel, by decide +kernel⟩,
    by decide +kernel, by decide +kernel,
    [[10000000000000002000000000000000, 10000000000000002000000000000000], [3, 4]], by decide +kernel,
    by decide +kernel⟩

end Verif.ExtPtfm
