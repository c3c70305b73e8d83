import Verif.Model.Polar
import Verif.Lemmas.FastDict
import Verif.Py.Dec
/-!
# C49 — writing AeroDyn polars and the object
-/
namespace Verif.Polar
open Verif.Py Verif.FastDict

/-! ## Lemmas -/

/-- everything but the label -/
def erase (e : Entry V) : Entry V := { e with label := [] }

theorem erase_setLabel (d : Data V) (i : Nat) (lab : Str) : (setLabel d i lab).map erase = d.map erase := by
  induction d generalizing i with
  | nil => simp [setLabel]
  | cons e d ih =>
    cases i with
    | zero => rfl
    | succ i =>
      have := ih i
      simp only [setLabel, List.modify_succ_cons, List.map_cons] at this ⊢
      rw [this]

theorem erase_strip1 (off : Str) (d : Data V) (lab : Str) : (strip1 off d lab).map erase = d.map erase := by
  unfold strip1
  split
  · rfl
  · split
    · exact erase_setLabel d _ lab
    · rfl

theorem erase_foldl (off : Str) (ls : List Str) (d : Data V) : (ls.foldl (strip1 off) d).map erase = d.map erase := by
  induction ls generalizing d with
  | nil => rfl
  | cons l ls ih => rw [List.foldl_cons, ih, erase_strip1]

theorem erase_stripAll (offs : List Str) (d : Data V) : (stripAll offs d).map erase = d.map erase := by
  unfold stripAll
  induction offs generalizing d with
  | nil => rfl
  | cons l ls ih => rw [List.foldl_cons, ih, erase_foldl]

theorem restore_labels (d d' : Data V) (h : d'.map erase = d.map erase) : restore (d.map Entry.label) d' = d := by
  induction d generalizing d' with
  | nil =>
    cases d' with
    | nil => rfl
    | cons e d' => simp at h
  | cons e d ih =>
    cases d' with
    | nil => simp at h
    | cons e' d' =>
      simp only [List.map_cons, List.cons.injEq] at h
      obtain ⟨he, ht⟩ := h
      simp only [List.map_cons, restore, ih d' ht]
      obtain ⟨l, v, c, de, t⟩ := e
      obtain ⟨l', v', c', de', t'⟩ := e'
      simp only [erase, Entry.mk.injEq] at he
      obtain ⟨_, rfl, rfl, rfl, rfl⟩ := he
      rfl

/-- the only entries whose value may change -/
def IsCount (offs : List Str) (e : Entry V) : Prop := ∃ off ∈ offs, lower e.label = lower ("NumAlf".toList ++ off)

/-- `d'` is `d` with other numbers of rows at most -/
def OnlyCounts (offs : List Str) (d d' : Data V) : Prop :=
  ∃ f : Entry V → V, d' = d.map (fun e => { e with value := f e }) ∧ ∀ e ∈ d, ¬ IsCount offs e → f e = e.value

theorem onlyCounts_refl (offs : List Str) (d : Data V) : OnlyCounts offs d d :=
  ⟨Entry.value, by simp, fun _ _ _ => rfl⟩

theorem onlyCounts_trans {offs : List Str} {a b c : Data V} (h : OnlyCounts offs a b) (h' : OnlyCounts offs b c) :
    OnlyCounts offs a c := by
  obtain ⟨f, rfl, hf⟩ := h
  obtain ⟨g, rfl, hg⟩ := h'
  refine ⟨fun e => g { e with value := f e }, by simp, fun e he hn => ?_⟩
  have hm : ({ e with value := f e } : Entry V) ∈ a.map (fun e => { e with value := f e }) := List.mem_map_of_mem he
  show g { e with value := f e } = e.value
  rw [hg _ hm hn]
  exact hf e he hn

theorem syncTab_counts (E : Env V) (offs : List Str) (off : Str) (ho : off ∈ offs) (d d' : Data V) (h : syncTab E d off = .ok d') :
    OnlyCounts offs d d' := by
  unfold syncTab at h
  split at h
  · exact nomatch h
  · split at h
    · exact nomatch h
    · rename_i n _
      injection h with h
      subst h
      rw [setitem_eq_map]
      refine ⟨fun e => if sameLabel ("NumAlf".toList ++ off) e then E.ofNat n else e.value, ?_, ?_⟩
      · apply List.map_congr_left
        intro e _
        by_cases hs : sameLabel ("NumAlf".toList ++ off) e = true
        · simp only [if_pos hs]
        · simp only [if_neg hs]
      · intro e _ hn
        have : ¬ sameLabel ("NumAlf".toList ++ off) e = true :=
          fun hs => hn ⟨off, ho, (sameLabel_iff _ _).1 hs⟩
        exact if_neg this

theorem syncTabs_counts (E : Env V) (all : List Str) (offs : List Str) (ho : ∀ o ∈ offs, o ∈ all) (d : Data V) :
    OnlyCounts all d (syncTabs E offs d).1 := by
  induction offs generalizing d with
  | nil => exact onlyCounts_refl _ _
  | cons off offs ih =>
    unfold syncTabs
    split
    · exact onlyCounts_refl _ _
    · rename_i d' h
      exact onlyCounts_trans (syncTab_counts E all off (ho off (List.mem_cons_self)) d d' h)
        (ih (fun o h => ho o (List.mem_cons_of_mem _ h)) d')

/-- the number of rows of the table with ending `off` is stored under its name -/
def InSync (E : Env V) (d : Data V) (off : Str) : Prop :=
  ∃ v n, getitem d ("AFCoeff".toList ++ off) = some v ∧ E.rows v = some n ∧
    ∀ e ∈ d, lower e.label = lower ("NumAlf".toList ++ off) → e.value = E.ofNat n

theorem syncTab_same (E : Env V) (off : Str) (d : Data V) (h : InSync E d off) : syncTab E d off = .ok d := by
  obtain ⟨v, n, h1, h2, h3⟩ := h
  unfold syncTab
  rw [h1]
  simp only [h2]
  rw [setitem_eq_map]
  congr 1
  have : ∀ e ∈ d, (if sameLabel ("NumAlf".toList ++ off) e then { e with value := E.ofNat n } else e) = e := by
    intro e he
    by_cases hs : sameLabel ("NumAlf".toList ++ off) e = true
    · rw [if_pos hs, ← h3 e he ((sameLabel_iff _ _).1 hs)]
    · rw [if_neg hs]
  rw [List.map_congr_left this]
  simp

theorem syncTabs_same (E : Env V) (offs : List Str) (d : Data V) (h : ∀ o ∈ offs, InSync E d o) :
    syncTabs E offs d = (d, .ok ()) := by
  induction offs with
  | nil => rfl
  | cons off offs ih =>
    unfold syncTabs
    rw [syncTab_same E off d (h off (List.mem_cons_self))]
    exact ih (fun o ho => h o (List.mem_cons_of_mem _ ho))

/-! ## C49 -/

/-- **C49 for writes that succeed**: labels, order, descriptions, kinds and values of all entries
are kept; only the numbers of rows may change. -/
theorem C49_success_partial (E : Env V) (can : Bool) (old : Option Bytes) (d : Data V) (n : Int) (hn : numTabs E d = .ok n)
    (h : (write E can old d).2.2 = .ok ()) : OnlyCounts (offsets n) d (write E can old d).1 := by
  have hc := syncTabs_counts E (offsets n) (offsets n) (fun _ h => h) d
  unfold write at *
  simp only [hn] at *
  cases hs : syncTabs E (offsets n) d with
  | mk d1 r =>
    rw [hs] at hc h
    cases r with
    | error e => exact nomatch h
    | ok u =>
      simp only at h ⊢
      by_cases h1 : n = 1
      · rw [if_pos h1]
        exact hc
      · rw [if_neg h1] at h ⊢
        cases ho : output E can old (stripAll (offsets n) d1) with
        | mk f r =>
          rw [ho] at h
          cases r with
          | error e => exact nomatch h
          | ok u =>
            simp only
            rw [restore_labels _ _ (erase_stripAll _ _)]
            exact hc

/-- **C49 for objects whose numbers of rows are up to date**: a successful write changes nothing. -/
theorem C49_partial (E : Env V) (can : Bool) (old : Option Bytes) (d : Data V) (n : Int) (hn : numTabs E d = .ok n)
    (hs : ∀ off ∈ offsets n, InSync E d off) (h : (write E can old d).2.2 = .ok ()) : (write E can old d).1 = d := by
  unfold write at *
  simp only [hn, syncTabs_same E _ d hs] at *
  by_cases h1 : n = 1
  · rw [if_pos h1]
  · rw [if_neg h1] at h ⊢
    cases ho : output E can old (stripAll (offsets n) d) with
    | mk f r =>
      rw [ho] at h
      cases r with
      | error e => exact nomatch h
      | ok u => exact restore_labels _ _ (erase_stripAll _ _)

/-- **C49 for a single table**: nothing changes, whether or not the write succeeds. -/
theorem C49_single_partial (E : Env V) (can : Bool) (old : Option Bytes) (d : Data V) (hn : numTabs E d = .ok 1)
    (hs : InSync E d []) : (write E can old d).1 = d := by
  unfold write
  have : ∀ off ∈ offsets 1, InSync E d off := by
    intro off ho
    obtain rfl := List.mem_singleton.1 ho
    exact hs
  simp only [hn, syncTabs_same E _ d this]
  rfl

/-- **C49 is violated by every failing write of several tables**: the labels stay shortened. -/
theorem C49_fails (E : Env V) (can : Bool) (old : Option Bytes) (d : Data V) (n : Int) (hn : numTabs E d = .ok n) (h1 : n ≠ 1)
    (hs : ∀ off ∈ offsets n, InSync E d off) (e : Err) (h : (write E can old d).2.2 = .error e) :
    (write E can old d).1 = stripAll (offsets n) d := by
  unfold write at *
  simp only [hn, syncTabs_same E _ d hs, if_neg h1] at *
  cases ho : output E can old (stripAll (offsets n) d) with
  | mk f r =>
    rw [ho] at h
    cases r with
    | error e => rfl
    | ok u => exact nomatch h

/-! Concrete cases: values are integers, tables are given by their number of rows. -/

/-- a value -/
inductive Toy where
  | int (n : Int)
  | tab (rows : Nat)
deriving DecidableEq, Repr

abbrev toyEnv : Env Toy where
  asInt := fun v => match v with | .int n => some n | _ => none
  rows := fun v => match v with | .tab n => some n | _ => none
  ofNat := fun n => .int n
  text := fun d => some ((d.flatMap Entry.label).map fun c => UInt8.ofNat c.toNat)

abbrev entry (l : String) (v : Toy) : Entry Toy := ⟨l.toList, v, false, [], 0⟩

/-- a polar file with two tables -/
abbrev toyData : Data Toy := [entry "head" (.int 0), entry "NumTabs" (.int 2), entry "Re_1" (.int 5), entry "NumAlf_1" (.int 3),
  entry "AFCoeff_1" (.tab 3), entry "Re_2" (.int 6), entry "NumAlf_2" (.int 4), entry "AFCoeff_2" (.tab 4)]

/-- written with success: same object, labels without endings in the file -/
example : (write toyEnv true none toyData).1 = toyData ∧ (write toyEnv true none toyData).2.2 = .ok () ∧
    (write toyEnv true none toyData).2.1 = some ("headNumTabsReNumAlfAFCoeffReNumAlfAFCoeff".toList.map fun c => UInt8.ofNat c.toNat) := by
  decide +kernel

example : ∀ off ∈ offsets 2, InSync toyEnv toyData off := by
  intro off ho
  have : offsets 2 = ["_1".toList, "_2".toList] := by decide +kernel
  rw [this] at ho
  simp only [List.mem_cons, List.not_mem_nil, or_false] at ho
  rcases ho with rfl | rfl
  · exact ⟨.tab 3, 3, by decide +kernel, rfl, by decide +kernel⟩
  · exact ⟨.tab 4, 4, by decide +kernel, rfl, by decide +kernel⟩

/-- **The object is unusable afterwards**: a write to a directory that does not exist raises, and
the next write, which could succeed, raises KeyError. -/
theorem C49_unusable_fails : (write toyEnv false none toyData).2.2 = .error .os ∧
    (write toyEnv false none toyData).1 ≠ toyData ∧
    (write toyEnv true none (write toyEnv false none toyData).1).2.2 = .error .key := by
  decide +kernel

end Verif.Polar
