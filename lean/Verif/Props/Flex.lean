import Verif.Model.Flex
import Verif.Lemmas.Grid
import Verif.Py.Dec
/-!
# Properties of Flex5 result files

C41: place of every sample, refusal of incomplete blocks.
-/
namespace Verif.Flex
open Verif.Py

/-! ## C41 -/

private theorem items_length (w : Nat) (dec : Bytes → α) (bs : Bytes) : (items w dec bs).length = bs.length / w := by
  simp [items]

private theorem items_get (w : Nat) (dec : Bytes → α) (bs : Bytes) (k : Nat) (h : k < bs.length / w) :
    (items w dec bs)[k]? = some (dec ((bs.drop (w * k)).take w)) := by
  simp [items, h]

private theorem filterMap_all (f : β → Option α) : ∀ l : List β, (∀ x ∈ l, (f x).isSome) →
    (l.filterMap f).length = l.length ∧ ∀ i : Nat, (l.filterMap f)[i]? = l[i]?.bind f
  | [], _ => ⟨rfl, by simp⟩
  | x :: l, h => by
    obtain ⟨y, hy⟩ := Option.isSome_iff_exists.1 (h x List.mem_cons_self)
    obtain ⟨h1, h2⟩ := filterMap_all f l (fun z hz => h z (List.mem_cons_of_mem _ hz))
    rw [List.filterMap_cons_some hy]
    refine ⟨by simp [h1], ?_⟩
    intro i
    cases i with
    | zero => simp [hy]
    | succ i => simpa using h2 i

/-- the rows made of the samples -/
private theorem toRows_ok {v : Int} {n : Nat} (data : List α) {rows : List (List α)}
    (h : toRows v n data = .ok rows) :
    rows.length = data.length / n ∧ rows.length * n = data.length ∧ (∀ r ∈ rows, r.length = n) ∧
    ∀ t c, t < rows.length → c < n →
      (rows[t]?.bind fun r => r[c]?) = data[if v = 3 then c * rows.length + t else t * n + c]? := by
  rw [toRows.eq_def] at h
  simp only at h
  by_cases hd : data.length = data.length / n * n
  · rw [if_pos hd] at h
    generalize data.length / n = nt at hd h
    have key : ∀ idx : Nat → Nat → Nat, (∀ t < nt, ∀ c < n, idx t c < data.length) →
        rows = ((List.range nt).map fun t => (List.range n).filterMap fun c => data[idx t c]?) →
        rows.length = nt ∧ (∀ r ∈ rows, r.length = n) ∧
        ∀ t c, t < nt → c < n → (rows[t]?.bind fun r => r[c]?) = data[idx t c]? := by
      intro idx hidx hrows
      subst hrows
      have hall : ∀ t < nt, ∀ c ∈ List.range n, (data[idx t c]?).isSome := by
        intro t ht c hc
        rw [List.getElem?_eq_getElem (hidx t ht c (List.mem_range.1 hc))]; rfl
      refine ⟨by simp, ?_, ?_⟩
      · intro r hr
        obtain ⟨t, ht, rfl⟩ := List.mem_map.1 hr
        rw [(filterMap_all _ _ (hall t (List.mem_range.1 ht))).1, List.length_range]
      · intro t c ht hc
        rw [List.getElem?_map, List.getElem?_range ht, Option.map_some, Option.bind_some,
          (filterMap_all _ _ (hall t ht)).2, List.getElem?_range hc, Option.bind_some]
    by_cases hv : v = 3
    · rw [if_pos hv] at h
      injection h with h
      obtain ⟨h1, h2, h3⟩ := key (fun t c => c * nt + t) (fun t ht c hc => by
        rw [hd, Nat.mul_comm nt n]; exact block_lt ht hc) h.symm
      refine ⟨h1, by rw [h1]; exact hd.symm, h2, ?_⟩
      intro t c ht hc
      rw [if_pos hv, h1]
      exact h3 t c (by rw [h1] at ht; exact ht) hc
    · rw [if_neg hv] at h
      injection h with h
      obtain ⟨h1, h2, h3⟩ := key (fun t c => t * n + c) (fun t ht c hc => by rw [hd]; exact block_lt hc ht) h.symm
      refine ⟨h1, by rw [h1]; exact hd.symm, h2, ?_⟩
      intro t c ht hc
      rw [if_neg hv]
      exact h3 t c (by rw [h1] at ht; exact ht) hc
  · rw [if_neg hd] at h; exact nomatch h

/-- the number of samples of a file with `n` channels -/
def numSamples (bs : Bytes) (n : Nat) : Nat := (bs.length - (96 + 8 * n)) / 2

/-- the `k`-th sample: a 16 bit integer of the data block, which starts at byte `96 + 8n` -/
def sample (bs : Bytes) (n k : Nat) : Int := unpackInt 2 ((bs.drop (96 + 8 * n + 2 * k)).take 2)

/-- the scale factor of channel `c` -/
def scaleOf (S : Flt) (bs : Bytes) (n c : Nat) : S.F := S.dec ((bs.drop (96 + 4 * n + 4 * c)).take 4)

/-- the 32 bit integer at a byte -/
def int32 (bs : Bytes) (pos : Nat) : Int := unpackInt 4 ((bs.drop pos).take 4)

private theorem intAt_int32 (bs : Bytes) (pos : Nat) (h : pos + 4 ≤ bs.length) : intAt bs pos = .ok (int32 bs pos) := by
  rw [intAt, if_pos h]; rfl

private theorem int32_of_intAt (bs : Bytes) (pos : Nat) (x : Int) (h : intAt bs pos = .ok x) :
    int32 bs pos = x ∧ pos + 4 ≤ bs.length := by
  rw [intAt] at h
  split at h
  · injection h with h; exact ⟨h, by assumption⟩
  · exact nomatch h

/-- **C41**: whenever a file is read, it has a positive number `n` of channels, its number
of samples is a multiple of it, and sample `k` (times the scale of its channel) is at
step `k / n`, channel `k % n`, or at step `k % nt`, channel `k / nt` for version 3 -/
theorem C41_read (S : Flt) (bs : Bytes) (r : Res S.F) (h : readRes S bs = .ok r) :
    ∃ n : Nat, 0 < n ∧ int32 bs 76 = n ∧ r.version = int32 bs (84 + 4 * n) ∧ (r.version = 0 ∨ r.version = 2 ∨ r.version = 3) ∧
      r.rows.length * n = numSamples bs n ∧ (∀ row ∈ r.rows, row.length = n) ∧
      ∀ k < numSamples bs n,
        let s := if r.version = 3 then k % r.rows.length else k / n
        let c := if r.version = 3 then k / r.rows.length else k % n
        s < r.rows.length ∧ c < n ∧
        (r.rows[s]?.bind fun row => row[c]?) = some (S.mul (S.ofInt (sample bs n k)) (scaleOf S bs n c)) := by
  rw [readRes] at h
  cases h76 : intAt bs 76 with
  | error e => rw [h76] at h; exact nomatch h
  | ok nz =>
    rw [h76] at h
    simp only at h
    by_cases hneg : nz < 0
    · rw [if_pos hneg] at h; exact nomatch h
    rw [if_neg hneg] at h
    obtain ⟨n, rfl⟩ := Int.eq_ofNat_of_zero_le (Int.not_lt.1 hneg)
    simp only [Int.toNat_natCast] at h
    cases hv : intAt bs (84 + 4 * n) with
    | error e => rw [hv] at h; exact nomatch h
    | ok v =>
      rw [hv] at h
      simp only at h
      by_cases h12 : v = 12
      · rw [if_pos h12] at h; exact nomatch h
      rw [if_neg h12] at h
      by_cases hver : v = 0 ∨ v = 2 ∨ v = 3
      · rw [if_pos hver] at h
        by_cases hshort : bs.length < 84 + 4 * n + 12
        · rw [if_pos hshort] at h; exact nomatch h
        rw [if_neg hshort] at h
        cases hd : readData S v n (items4 S.dec n (bs.drop (84 + 4 * n + 12))) ((bs.drop (84 + 4 * n + 12)).drop (4 * n)) with
        | error e => rw [hd] at h; exact nomatch h
        | ok rows =>
          rw [hd] at h
          injection h with h
          subst h
          simp only
          rw [readData] at hd
          by_cases hn0 : n = 0
          · rw [if_pos hn0] at hd; exact nomatch hd
          rw [if_neg hn0] at hd
          have hn : 0 < n := by omega
          rw [List.drop_drop, show 84 + 4 * n + 12 + 4 * n = 96 + 8 * n by omega] at hd
          generalize hdata : (items 2 (unpackInt 2) (bs.drop (96 + 8 * n))).map S.ofInt = data at hd
          cases ht : toRows v n data with
          | error e => rw [ht] at hd; exact nomatch hd
          | ok raw =>
            rw [ht] at hd
            simp only [scaleRows] at hd
            by_cases hsc : (items4 S.dec n (bs.drop (84 + 4 * n + 12))).length < n
            · rw [if_pos hsc] at hd; exact nomatch hd
            rw [if_neg hsc] at hd
            injection hd with hd
            subst hd
            obtain ⟨r1, r2, r3, r4⟩ := toRows_ok data ht
            have hlen : data.length = numSamples bs n := by
              rw [← hdata, List.length_map, items_length, List.length_drop, numSamples]
            have hscl : ∀ c < n, (items4 S.dec n (bs.drop (84 + 4 * n + 12)))[c]? = some (scaleOf S bs n c) := by
              intro c hc
              rw [items4, List.length_take, items_length] at hsc
              rw [items4, List.getElem?_take, if_pos hc, items_get _ _ _ _ (by omega), List.drop_drop, scaleOf,
                show 84 + 4 * n + 12 + 4 * c = 96 + 4 * n + 4 * c by omega]
            have hdat : ∀ k < numSamples bs n, data[k]? = some (S.ofInt (sample bs n k)) := by
              intro k hk
              rw [← hdata, List.getElem?_map, items_get, Option.map_some, List.drop_drop, sample]
              rw [List.length_drop]; exact hk
            refine ⟨n, hn, (int32_of_intAt _ _ _ h76).1, (int32_of_intAt _ _ _ hv).1.symm, hver, ?_, ?_, ?_⟩
            · rw [List.length_map, r2, hlen]
            · intro row hrow
              obtain ⟨r0, hr0, rfl⟩ := List.mem_map.1 hrow
              have : (items4 S.dec n (bs.drop (84 + 4 * n + 12))).length = n := by
                have : (items4 S.dec n (bs.drop (84 + 4 * n + 12))).length ≤ n := by rw [items4]; exact List.length_take_le _ _
                omega
              rw [List.length_zipWith, r3 r0 hr0, this, Nat.min_self]
            · intro k hk
              rw [List.length_map]
              have hkn : k < raw.length * n := by rw [r2, hlen]; exact hk
              have goal : ∀ s c, s < raw.length → c < n → (if v = 3 then c * raw.length + s else s * n + c) = k →
                  s < raw.length ∧ c < n ∧ (((raw.map fun r => List.zipWith S.mul r (items4 S.dec n (bs.drop (84 + 4 * n + 12))))[s]?.bind fun row => row[c]?) =
                    some (S.mul (S.ofInt (sample bs n k)) (scaleOf S bs n c))) := by
                intro s c hs hc hidx
                refine ⟨hs, hc, ?_⟩
                have h5 := r4 s c hs hc
                rw [hidx, hdat k hk, List.getElem?_eq_getElem hs, Option.bind_some] at h5
                rw [List.getElem?_map, List.getElem?_eq_getElem hs, Option.map_some, Option.bind_some, List.getElem?_zipWith, h5,
                  hscl c hc]
              by_cases hv3 : v = 3
              · simp only [if_pos hv3] at goal ⊢
                have hb := block_index (by rwa [Nat.mul_comm] at hkn : k < n * raw.length)
                exact goal _ _ hb.2.1 hb.1 hb.2.2
              · simp only [if_neg hv3] at goal ⊢
                have hb := block_index hkn
                exact goal _ _ hb.1 hb.2.1 hb.2.2
      · rw [if_neg hver] at h
        by_cases hn0 : n = 0
        · rw [if_pos hn0] at h; exact nomatch h
        rw [if_neg hn0] at h
        cases ht : toRows v n (items 2 (unpackInt 2) (bs.drop (84 + 4 * n + 4))) with
        | error e => rw [ht] at h; exact nomatch h
        | ok x => rw [ht] at h; exact nomatch h

/-- **C41**, which files are read: with a complete head, a positive number of channels and
version 0, 2 or 3, the file is read when the number of samples is a multiple of the
number of channels, and refused with WrongFormatError otherwise -/
theorem C41_accepts (S : Flt) (bs : Bytes) (n : Nat) (v : Int) (hn : 0 < n) (h1 : int32 bs 76 = n)
    (h2 : int32 bs (84 + 4 * n) = v) (hv : v = 0 ∨ v = 2 ∨ v = 3) (hlen : 96 + 8 * n ≤ bs.length) :
    (numSamples bs n % n = 0 → ∃ r, readRes S bs = .ok r ∧ r.version = v ∧
      r.tmin = S.dec ((bs.drop (88 + 4 * n)).take 4) ∧ r.dt = S.dec ((bs.drop (92 + 4 * n)).take 4)) ∧
    (numSamples bs n % n ≠ 0 → readRes S bs = .error .wrongFormat) := by
  replace h1 : intAt bs 76 = .ok (n : Int) := by rw [intAt_int32 _ _ (by omega), h1]
  replace h2 : intAt bs (84 + 4 * n) = .ok v := by rw [intAt_int32 _ _ (by omega), h2]
  have hbase : readRes S bs = match readData S v n (items4 S.dec n (bs.drop (84 + 4 * n + 12))) ((bs.drop (84 + 4 * n + 12)).drop (4 * n)) with
      | .error e => .error e
      | .ok rows => .ok ⟨S.dec ((bs.drop (84 + 4 * n + 4)).take 4), S.dec ((bs.drop (84 + 4 * n + 8)).take 4), v, rows⟩ := by
    rw [readRes, h1]
    simp only
    rw [if_neg (by omega)]
    simp only [Int.toNat_natCast, h2]
    rw [if_neg (by omega), if_pos hv, if_neg (by omega)]
    cases readData S v n (items4 S.dec n (bs.drop (84 + 4 * n + 12))) ((bs.drop (84 + 4 * n + 12)).drop (4 * n)) <;> rfl
  have hlenD : ((items 2 (unpackInt 2) ((bs.drop (84 + 4 * n + 12)).drop (4 * n))).map S.ofInt).length = numSamples bs n := by
    rw [List.length_map, items_length, List.drop_drop, List.length_drop, numSamples, show 84 + 4 * n + 12 + 4 * n = 96 + 8 * n by omega]
  have hsc : ¬ (items4 S.dec n (bs.drop (84 + 4 * n + 12))).length < n := by
    rw [items4, List.length_take, items_length, List.length_drop]
    omega
  constructor
  · intro hm
    have hfit : numSamples bs n = numSamples bs n / n * n := by
      have := Nat.div_add_mod (numSamples bs n) n
      rw [hm, Nat.add_zero, Nat.mul_comm] at this
      exact this.symm
    obtain ⟨raw, hraw⟩ : ∃ raw, toRows v n ((items 2 (unpackInt 2) ((bs.drop (84 + 4 * n + 12)).drop (4 * n))).map S.ofInt) = .ok raw := by
      rw [toRows.eq_def]
      simp only
      rw [hlenD, if_pos hfit]
      by_cases h3 : v = 3
      · rw [if_pos h3]; exact ⟨_, rfl⟩
      · rw [if_neg h3]; exact ⟨_, rfl⟩
    rw [hbase, readData, if_neg (by omega), hraw]
    simp only [scaleRows, if_neg hsc]
    refine ⟨_, rfl, rfl, ?_, ?_⟩
    · rw [show 88 + 4 * n = 84 + 4 * n + 4 by omega]
    · rw [show 92 + 4 * n = 84 + 4 * n + 8 by omega]
  · intro hm
    rw [hbase, readData, if_neg (by omega)]
    have : toRows v n ((items 2 (unpackInt 2) ((bs.drop (84 + 4 * n + 12)).drop (4 * n))).map S.ofInt) = .error .wrongFormat := by
      rw [toRows.eq_def]
      simp only
      rw [hlenD, if_neg]
      intro heq
      apply hm
      rw [heq]; exact Nat.mul_mod_left _ _
    rw [this]

/-- **C41**, files cut in their head: an IndexError, whatever they contain -/
theorem C41_short (S : Flt) (bs : Bytes) :
    (bs.length < 80 → readRes S bs = .error .index) ∧
    (∀ n : Nat, 80 ≤ bs.length → int32 bs 76 = n → bs.length < 88 + 4 * n → readRes S bs = .error .index) ∧
    (80 ≤ bs.length → int32 bs 76 < 0 → readRes S bs = .error .index) := by
  refine ⟨fun h => ?_, fun n h1 h2 h3 => ?_, fun h1 h2 => ?_⟩
  · rw [readRes, intAt, if_neg (by omega)]
  · rw [readRes, intAt_int32 _ _ h1, h2]
    simp only
    rw [if_neg (by omega), Int.toNat_natCast, intAt, if_neg (by omega)]
  · rw [readRes, intAt_int32 _ _ h1]
    simp only
    rw [if_pos h2]

/-- toy numbers: integers, four bytes give their first -/
abbrev toy : Flt := ⟨Int, fun b => (b.headD 0).toNat, id, (· * ·)⟩

/-- a file with two channels, version `v`, scales 2 and 3, and the given samples -/
def fileEx (v : UInt8) (samples : List UInt8) : Bytes :=
  List.replicate 76 32 ++ [2, 0, 0, 0] ++ [1, 0, 0, 0, 2, 0, 0, 0] ++ [0, 0, 0, 0] ++ [v, 0, 0, 0] ++ [5, 0, 0, 0] ++ [7, 0, 0, 0] ++
    [2, 0, 0, 0, 3, 0, 0, 0] ++ samples.flatMap (fun x => [x, 0])

example : (readRes toy (fileEx 0 [1, 2, 3, 4])).map (fun r => (r.tmin, r.dt, r.rows)) = .ok (5, 7, [[2, 6], [6, 12]]) := by
  decide +kernel
example : (readRes toy (fileEx 3 [1, 2, 3, 4])).map (fun r => r.rows) = .ok [[2, 9], [4, 12]] := by decide +kernel
example : (readRes toy (fileEx 0 [1, 2, 3])).map (fun r => r.rows) = .error .wrongFormat := by decide +kernel
example : int32 (fileEx 0 [1, 2, 3, 4]) 76 = (2 : Nat) ∧ int32 (fileEx 0 [1, 2, 3, 4]) (84 + 4 * 2) = 0 ∧
    96 + 8 * 2 ≤ (fileEx 0 [1, 2, 3, 4]).length ∧ numSamples (fileEx 0 [1, 2, 3, 4]) 2 % 2 = 0 := by decide +kernel

example : (fileEx 0 [1, 2, 3, 4]).length = 120 ∧ readRes toy ((fileEx 0 []).take 95) = .error .index := by
  constructor
  · decide +kernel
  · refine (C41_short toy _).2.1 2 (by decide +kernel) (by decide +kernel) (by decide +kernel)

end Verif.Flex
