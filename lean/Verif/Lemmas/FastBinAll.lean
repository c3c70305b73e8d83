import Verif.Lemmas.FastBin
import Verif.Py.Num
/-!
# Readers that use up exactly some bytes
-/
namespace Verif.FastBin
open Verif.Py

/-- `p` uses up `u` with the result `a`, and fails on every proper prefix of `u` -/
def Consumes (p : Reader α) (u : Bytes) (a : α) : Prop :=
  (∀ rest, p (u ++ rest) = .ok (a, rest)) ∧ ∀ q, q <+: u → q ≠ u → ∃ e, p q = .error e

theorem Consumes.pure (a : α) : Consumes (Pure.pure a : Reader α) [] a :=
  ⟨fun _ => rfl, fun _ hq hn => absurd (List.prefix_nil.1 hq) hn⟩

theorem Consumes.bind {p : Reader α} {f : α → Reader β} {u v : Bytes} {a : α} {b : β}
    (hp : Consumes p u a) (hf : Consumes (f a) v b) : Consumes (p >>= f) (u ++ v) b := by
  refine ⟨fun rest => ?_, fun q hq hn => ?_⟩
  · rw [List.append_assoc]
    exact (Reader.bind_ok (hp.1 (v ++ rest))).trans (hf.1 rest)
  · obtain ⟨t, ht⟩ := hq
    rcases List.append_eq_append_iff.1 ht with ⟨s, h1, h2⟩ | ⟨s, h1, h2⟩
    · -- `u = q ++ s`
      by_cases hs : s = []
      · subst hs
        rw [List.append_nil] at h1
        subst h1
        rw [List.nil_append] at h2
        by_cases hv : v = []
        · subst hv; rw [List.append_nil] at hn; exact absurd rfl hn
        · obtain ⟨e, he⟩ := hf.2 [] (List.nil_prefix) (fun h => hv h.symm)
          refine ⟨e, ?_⟩
          have := hp.1 []
          rw [List.append_nil] at this
          exact (Reader.bind_ok this).trans he
      · obtain ⟨e, he⟩ := hp.2 q ⟨s, h1.symm⟩ (fun h => hs (by
          have hl := congrArg List.length h1
          rw [h, List.length_append] at hl
          exact List.length_eq_zero_iff.1 (by omega)))
        exact ⟨e, by rw [Reader.bind_eq, he]⟩
    · -- `q = u ++ s`
      have hsv : s ≠ v := fun h => hn (by rw [h1, h])
      obtain ⟨e, he⟩ := hf.2 s ⟨t, h2.symm⟩ hsv
      exact ⟨e, by rw [h1]; exact (Reader.bind_ok (hp.1 s)).trans he⟩

theorem Consumes.bind0 {p : Reader α} {f : α → Reader β} {v : Bytes} {a : α} {b : β}
    (hp : Consumes p [] a) (hf : Consumes (f a) v b) : Consumes (p >>= f) v b := Consumes.bind hp hf

theorem Consumes.cast {p : Reader α} {u v : Bytes} {a b : α} (h : Consumes p u a) (hu : u = v) (ha : a = b) :
    Consumes p v b := by
  subst hu; subst ha; exact h

theorem prefix_length_lt {q u : Bytes} (h : q <+: u) (hn : q ≠ u) : q.length < u.length := by
  obtain ⟨t, ht⟩ := h
  have hl := congrArg List.length ht
  rw [List.length_append] at hl
  have : t ≠ [] := by
    intro e; subst e; rw [List.append_nil] at ht; exact hn ht
  have := List.length_pos_iff.2 this
  omega

theorem Consumes.fread1 (w : Nat) (dec : Bytes → α) (u : Bytes) (h : u.length = w) :
    Consumes (fread1 w dec) u (dec u) := by
  refine ⟨fun rest => fread1_append w dec u rest h, fun q hq hn => ⟨.structError, ?_⟩⟩
  have := prefix_length_lt hq hn
  unfold FastBin.fread1
  rw [if_neg (by rw [List.length_take]; omega)]

theorem Consumes.fread (w : Nat) (dec : Bytes → α) (n : Nat) (l : List Bytes) (hl : l.length = n)
    (h : ∀ b ∈ l, b.length = w) : Consumes (fread w dec (n : Int)) l.flatten (l.map dec) := by
  refine ⟨fun rest => fread_append w dec n l rest hl h, fun q hq hn => ⟨.structError, ?_⟩⟩
  have := prefix_length_lt hq hn
  exact fread_short w dec n q (by rw [flatten_length_const w l h, hl] at this; exact this)

theorem Consumes.chars (n : Nat) (u : Bytes) (h : u.length = n) :
    Consumes (FastBin.fread 1 (fun bs => bs.map unpackChar) (n : Int)) u (u.map (fun b => [unpackChar b])) := by
  refine ⟨fun rest => fread_bytes n u rest h, fun q hq hn => ⟨.structError, ?_⟩⟩
  have := prefix_length_lt hq hn
  exact fread_short 1 _ n q (by omega)

theorem Consumes.names (w : Nat) (bss : List Bytes) (h : ∀ b ∈ bss, b.length = w) :
    Consumes (readNames (w : Int) bss.length) bss.flatten (bss.map (fun b => strip (b.map unpackChar))) := by
  induction bss with
  | nil => exact Consumes.pure _
  | cons b bss ih =>
    rw [List.length_cons, readNames, List.flatten_cons]
    refine Consumes.bind (Consumes.chars w b (h b List.mem_cons_self)) ?_
    have h2 := Consumes.bind (f := fun rest => (Pure.pure
      (strip ((b.map (fun b => [unpackChar b])).flatten) :: rest) : Reader (List Str)))
      (ih (fun x hx => h x (List.mem_cons_of_mem _ hx))) (Consumes.pure _)
    refine h2.cast (List.append_nil _) ?_
    rw [List.map_cons, flatten_chars]

theorem Consumes.table (w : Nat) (dec : Bytes → α) (zero : α) (n : Nat) (hn0 : 0 < n) (hn : n ≤ 163840)
    (rows : List (List Bytes)) (h : ∀ r ∈ rows, r.length = n ∧ ∀ b ∈ r, b.length = w) :
    Consumes (freadTable w dec zero ((rows.length : Int) * (n : Int)) n 1) rows.flatten.flatten
      (rows.map (fun r => zero :: r.map dec)) := by
  have hfw : ∀ b ∈ rows.flatten, b.length = w := by
    intro b hb
    obtain ⟨r, hr, hbr⟩ := List.mem_flatten.1 hb
    exact (h r hr).2 b hbr
  have hfl : rows.flatten.length = rows.length * n := by
    rw [flatten_length_const n rows (fun r hr => (h r hr).1), Nat.mul_comm]
  have hlen : rows.flatten.flatten.length = w * (rows.length * n) := by
    rw [flatten_length_const w _ hfw, hfl]
  refine ⟨fun rest => ?_, fun q hq hne => ⟨.shortRead, ?_⟩⟩
  · have := freadTable_eq w dec zero rows.length n 1 (rows.flatten.flatten ++ rest) hn0 hn
    rw [Int.natCast_mul] at this
    rw [this, if_neg (by rw [List.length_append]; omega)]
    congr 2
    · have h1 := rowsOf_flatten w rows.flatten hfw rest
      rw [hfl] at h1
      rw [h1, List.map_flatten]
      have h2 := rowsOf_flatten n (rows.map (fun r => r.map dec)) (by
        intro l hl
        obtain ⟨r, hr, rfl⟩ := List.mem_map.1 hl
        rw [List.length_map]; exact (h r hr).1) []
      rw [List.append_nil, List.length_map] at h2
      rw [h2, List.map_map]
      rfl
    · rw [← hlen, List.drop_left' rfl]
  · have hlt := prefix_length_lt hq hne
    have := freadTable_eq w dec zero rows.length n 1 q hn0 hn
    rw [Int.natCast_mul] at this
    rw [this, if_pos (by omega)]

/-- the bytes of a small natural number are read as that number -/
theorem le_int (k n : Nat) (hk : 0 < k) (h : n < 2 ^ (8 * k - 1)) :
    (leBytes k n).length = k ∧ unpackInt k (leBytes k n) = (n : Int) := by
  refine ⟨length_leBytes k n, ?_⟩
  have hp : (2 : Nat) ^ (8 * k - 1) < 256 ^ k := by
    rw [show (256 : Nat) = 2 ^ 8 from rfl, ← Nat.pow_mul]
    exact Nat.pow_lt_pow_right (by decide) (by omega)
  have : leNat (leBytes k n) = n := by
    rw [leNat_leBytes, Nat.mod_eq_of_lt (by omega)]
  unfold unpackInt
  rw [this, if_pos h]

end Verif.FastBin
